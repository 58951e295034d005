/-!
GENERATED by tools/gen_ucd.py from graphemes/trie.go. Do not edit.
The table as runs (length, entry) over all code points, checked in Verif/Proofs/RunsGraphemes.lean.
-/
set_option maxRecDepth 8000
namespace Uax29.Graphemes
/-- The runs of the table. -/
def runs : List (Nat × Nat) :=
  [(10, 2), (1, 256), (2, 2), (1, 1), (18, 2), (95, 0), (33, 2), (9, 0),
   (1, 8), (3, 0), (1, 2), (1, 8), (593, 0), (112, 36), (275, 0), (7, 36),
   (263, 0), (45, 36), (1, 0), (1, 36), (1, 0), (2, 36), (1, 0), (2, 36),
   (1, 0), (1, 36), (56, 0), (6, 2048), (10, 0), (11, 36), (1, 0), (1, 2),
   (46, 0), (21, 36), (16, 0), (1, 36), (101, 0), (7, 36), (1, 2048), (1, 0),
   (6, 36), (2, 0), (2, 36), (1, 0), (4, 36), (33, 0), (1, 2048), (1, 0),
   (1, 36), (30, 0), (27, 36), (91, 0), (11, 36), (58, 0), (9, 36), (9, 0),
   (1, 36), (24, 0), (4, 36), (1, 0), (9, 36), (1, 0), (3, 36), (1, 0),
   (5, 36), (43, 0), (3, 36), (52, 0), (2, 2048), (5, 0), (9, 36), (42, 0),
   (24, 36), (1, 2048), (32, 36), (1, 8192), (17, 0), (37, 16), (1, 36), (1, 8192),
   (1, 36), (1, 0), (3, 8192), (8, 36), (4, 8192), (1, 68), (2, 8192), (1, 0),
   (7, 36), (8, 16), (2, 0), (2, 36), (20, 0), (8, 16), (1, 0), (1, 36),
   (2, 8192), (17, 0), (20, 16), (1, 0), (7, 16), (1, 0), (1, 16), (3, 0),
   (4, 16), (2, 0), (1, 36), (1, 0), (1, 36), (2, 8192), (4, 36), (2, 0),
   (2, 8192), (2, 0), (2, 8192), (1, 68), (9, 0), (1, 36), (4, 0), (2, 16),
   (1, 0), (1, 16), (2, 0), (2, 36), (12, 0), (2, 16), (12, 0), (1, 36),
   (2, 0), (2, 36), (1, 8192), (56, 0), (1, 36), (1, 0), (3, 8192), (2, 36),
   (4, 0), (2, 36), (2, 0), (3, 36), (3, 0), (1, 36), (30, 0), (2, 36),
   (3, 0), (1, 36), (11, 0), (2, 36), (1, 8192), (17, 0), (20, 16), (1, 0),
   (7, 16), (1, 0), (2, 16), (1, 0), (5, 16), (2, 0), (1, 36), (1, 0),
   (3, 8192), (5, 36), (1, 0), (2, 36), (1, 8192), (1, 0), (2, 8192), (1, 68),
   (20, 0), (2, 36), (21, 0), (1, 16), (6, 36), (1, 0), (1, 36), (2, 8192),
   (17, 0), (20, 16), (1, 0), (7, 16), (1, 0), (2, 16), (1, 0), (5, 16),
   (2, 0), (1, 36), (1, 0), (2, 36), (1, 8192), (4, 36), (2, 0), (2, 8192),
   (2, 0), (2, 8192), (1, 68), (7, 0), (3, 36), (4, 0), (2, 16), (1, 0),
   (1, 16), (2, 0), (2, 36), (13, 0), (1, 16), (16, 0), (1, 36), (59, 0),
   (1, 36), (1, 8192), (1, 36), (2, 8192), (3, 0), (3, 8192), (1, 0), (3, 8192),
   (1, 36), (9, 0), (1, 36), (40, 0), (1, 36), (3, 8192), (1, 36), (16, 0),
   (20, 16), (1, 0), (16, 16), (2, 0), (1, 36), (1, 0), (3, 36), (4, 8192),
   (1, 0), (3, 36), (1, 0), (3, 36), (1, 68), (7, 0), (2, 36), (1, 0),
   (3, 16), (7, 0), (2, 36), (29, 0), (1, 36), (2, 8192), (56, 0), (1, 36),
   (1, 0), (1, 8192), (2, 36), (1, 8192), (1, 36), (2, 8192), (1, 0), (3, 36),
   (1, 0), (4, 36), (7, 0), (2, 36), (11, 0), (2, 36), (15, 0), (1, 8192),
   (12, 0), (2, 36), (2, 8192), (17, 0), (38, 16), (2, 36), (1, 0), (1, 36),
   (2, 8192), (4, 36), (1, 0), (3, 8192), (1, 0), (3, 8192), (1, 68), (1, 2048),
   (8, 0), (1, 36), (10, 0), (2, 36), (29, 0), (1, 36), (2, 8192), (70, 0),
   (1, 36), (4, 0), (1, 36), (2, 8192), (3, 36), (1, 0), (1, 36), (1, 0),
   (7, 8192), (1, 36), (18, 0), (2, 8192), (61, 0), (1, 36), (1, 0), (1, 8192),
   (7, 36), (12, 0), (8, 36), (98, 0), (1, 36), (1, 0), (1, 8192), (9, 36),
   (11, 0), (7, 36), (73, 0), (2, 36), (27, 0), (1, 36), (1, 0), (1, 36),
   (1, 0), (1, 36), (4, 0), (2, 8192), (49, 0), (14, 36), (1, 8192), (5, 36),
   (1, 0), (2, 36), (5, 0), (11, 36), (1, 0), (36, 36), (9, 0), (1, 36),
   (57, 0), (43, 16), (2, 0), (4, 36), (1, 8192), (6, 36), (1, 0), (1, 68),
   (1, 36), (2, 8192), (2, 36), (1, 16), (16, 0), (6, 16), (2, 8192), (2, 36),
   (4, 16), (3, 36), (1, 16), (3, 0), (2, 16), (7, 0), (3, 16), (4, 36),
   (13, 16), (1, 36), (1, 0), (1, 8192), (2, 36), (6, 0), (1, 36), (1, 16),
   (14, 0), (1, 36), (98, 0), (96, 128), (72, 32768), (88, 16384), (349, 0), (3, 36),
   (946, 0), (4, 36), (28, 0), (3, 36), (29, 0), (2, 36), (30, 0), (2, 36),
   (12, 0), (52, 16), (2, 36), (1, 8192), (7, 36), (8, 8192), (1, 36), (2, 8192),
   (9, 36), (1, 68), (1, 36), (9, 0), (1, 36), (45, 0), (3, 36), (1, 2),
   (1, 36), (117, 0), (2, 36), (34, 0), (1, 36), (118, 0), (3, 36), (4, 8192),
   (2, 36), (3, 8192), (4, 0), (2, 8192), (1, 36), (6, 8192), (3, 36), (219, 0),
   (2, 36), (2, 8192), (1, 36), (4, 0), (53, 16), (1, 8192), (1, 36), (1, 8192),
   (7, 36), (1, 0), (1, 68), (1, 0), (1, 36), (2, 0), (8, 36), (6, 8192),
   (10, 36), (2, 0), (1, 36), (48, 0), (46, 36), (2, 0), (12, 36), (20, 0),
   (4, 36), (1, 8192), (6, 0), (2, 16), (6, 0), (33, 16), (10, 36), (4, 8192),
   (2, 36), (1, 68), (8, 16), (30, 0), (9, 36), (12, 0), (2, 36), (1, 8192),
   (30, 16), (1, 8192), (4, 36), (2, 8192), (3, 36), (1, 68), (2, 36), (2, 16),
   (11, 0), (3, 16), (40, 0), (1, 36), (1, 8192), (2, 36), (3, 8192), (1, 36),
   (1, 8192), (5, 36), (48, 0), (8, 8192), (8, 36), (2, 8192), (2, 36), (152, 0),
   (3, 36), (1, 0), (13, 36), (1, 8192), (7, 36), (4, 0), (1, 36), (6, 0),
   (1, 36), (2, 0), (1, 8192), (2, 36), (198, 0), (64, 36), (523, 0), (1, 2),
   (1, 4), (1, 65568), (2, 2), (24, 0), (7, 2), (13, 0), (1, 8), (12, 0),
   (1, 8), (22, 0), (16, 2), (96, 0), (33, 36), (49, 0), (1, 8), (22, 0),
   (1, 8), (90, 0), (6, 8), (15, 0), (2, 8), (367, 0), (2, 8), (12, 0),
   (1, 8), (166, 0), (1, 8), (25, 0), (11, 8), (4, 0), (3, 8), (199, 0),
   (1, 8), (231, 0), (2, 8), (10, 0), (1, 8), (9, 0), (1, 8), (58, 0),
   (4, 8), (1, 0), (5, 8), (9, 0), (1, 8), (2, 0), (1, 8), (2, 0),
   (2, 8), (2, 0), (1, 8), (4, 0), (1, 8), (2, 0), (1, 8), (1, 0),
   (2, 8), (2, 0), (1, 8), (3, 0), (1, 8), (3, 0), (2, 8), (8, 0),
   (3, 8), (5, 0), (1, 8), (1, 0), (1, 8), (5, 0), (12, 8), (11, 0),
   (2, 8), (2, 0), (1, 8), (1, 0), (2, 8), (1, 0), (1, 8), (18, 0),
   (1, 8), (2, 0), (2, 8), (18, 0), (6, 8), (1, 0), (1, 8), (1, 0),
   (2, 8), (3, 0), (2, 8), (5, 0), (1, 8), (2, 0), (2, 8), (4, 0),
   (2, 8), (11, 0), (2, 8), (5, 0), (2, 8), (2, 0), (1, 8), (5, 0),
   (2, 8), (1, 0), (1, 8), (1, 0), (2, 8), (20, 0), (2, 8), (5, 0),
   (6, 8), (1, 0), (4, 8), (2, 0), (1, 8), (4, 0), (1, 8), (2, 0),
   (1, 8), (2, 0), (6, 8), (1, 0), (1, 8), (2, 0), (1, 8), (1, 0),
   (1, 8), (1, 0), (1, 8), (6, 0), (1, 8), (3, 0), (1, 8), (6, 0),
   (1, 8), (10, 0), (2, 8), (15, 0), (1, 8), (2, 0), (1, 8), (4, 0),
   (1, 8), (1, 0), (1, 8), (4, 0), (3, 8), (1, 0), (1, 8), (11, 0),
   (2, 8), (48, 0), (3, 8), (9, 0), (1, 8), (14, 0), (1, 8), (14, 0),
   (1, 8), (372, 0), (2, 8), (463, 0), (3, 8), (19, 0), (2, 8), (51, 0),
   (1, 8), (4, 0), (1, 8), (409, 0), (3, 36), (141, 0), (1, 36), (96, 0),
   (32, 36), (554, 0), (6, 36), (1, 8), (12, 0), (1, 8), (91, 0), (2, 36),
   (508, 0), (1, 8), (1, 0), (1, 8), (29653, 0), (4, 36), (1, 0), (10, 36),
   (32, 0), (2, 36), (80, 0), (2, 36), (272, 0), (1, 36), (3, 0), (1, 36),
   (4, 0), (1, 36), (23, 0), (2, 8192), (2, 36), (1, 8192), (4, 0), (1, 36),
   (83, 0), (2, 8192), (50, 0), (16, 8192), (2, 36), (26, 0), (18, 36), (13, 0),
   (1, 36), (38, 0), (8, 36), (25, 0), (11, 36), (1, 8192), (1, 36), (12, 0),
   (29, 128), (3, 0), (3, 36), (1, 8192), (5, 0), (3, 16), (3, 0), (36, 16),
   (1, 36), (2, 8192), (4, 36), (2, 8192), (2, 36), (2, 8192), (1, 68), (31, 0),
   (5, 16), (1, 36), (1, 0), (9, 16), (10, 0), (5, 16), (42, 0), (6, 36),
   (2, 8192), (2, 36), (2, 8192), (2, 36), (12, 0), (1, 36), (8, 0), (1, 36),
   (1, 8192), (18, 0), (16, 16), (1, 0), (3, 16), (6, 0), (1, 16), (1, 0),
   (1, 36), (1, 0), (2, 16), (48, 0), (1, 36), (1, 0), (3, 36), (2, 0),
   (2, 36), (5, 0), (2, 36), (1, 0), (1, 36), (30, 0), (11, 16), (1, 8192),
   (2, 36), (2, 8192), (5, 0), (1, 8192), (1, 68), (201, 0), (27, 16), (8, 0),
   (2, 8192), (1, 36), (2, 8192), (1, 36), (2, 8192), (1, 0), (1, 8192), (1, 36),
   (18, 0), (1, 512), (27, 1024), (1, 512), (27, 1024), (1, 512), (27, 1024), (1, 512),
   (27, 1024), (1, 512), (27, 1024), (1, 512), (27, 1024), (1, 512), (27, 1024), (1, 512),
   (27, 1024), (1, 512), (27, 1024), (1, 512), (27, 1024), (1, 512), (27, 1024), (1, 512),
   (27, 1024), (1, 512), (27, 1024), (1, 512), (27, 1024), (1, 512), (27, 1024), (1, 512),
   (27, 1024), (1, 512), (27, 1024), (1, 512), (27, 1024), (1, 512), (27, 1024), (1, 512),
   (27, 1024), (1, 512), (27, 1024), (1, 512), (27, 1024), (1, 512), (27, 1024), (1, 512),
   (27, 1024), (1, 512), (27, 1024), (1, 512), (27, 1024), (1, 512), (27, 1024), (1, 512),
   (27, 1024), (1, 512), (27, 1024), (1, 512), (27, 1024), (1, 512), (27, 1024), (1, 512),
   (27, 1024), (1, 512), (27, 1024), (1, 512), (27, 1024), (1, 512), (27, 1024), (1, 512),
   (27, 1024), (1, 512), (27, 1024), (1, 512), (27, 1024), (1, 512), (27, 1024), (1, 512),
   (27, 1024), (1, 512), (27, 1024), (1, 512), (27, 1024), (1, 512), (27, 1024), (1, 512),
   (27, 1024), (1, 512), (27, 1024), (1, 512), (27, 1024), (1, 512), (27, 1024), (1, 512),
   (27, 1024), (1, 512), (27, 1024), (1, 512), (27, 1024), (1, 512), (27, 1024), (1, 512),
   (27, 1024), (1, 512), (27, 1024), (1, 512), (27, 1024), (1, 512), (27, 1024), (1, 512),
   (27, 1024), (1, 512), (27, 1024), (1, 512), (27, 1024), (1, 512), (27, 1024), (1, 512),
   (27, 1024), (1, 512), (27, 1024), (1, 512), (27, 1024), (1, 512), (27, 1024), (1, 512),
   (27, 1024), (1, 512), (27, 1024), (1, 512), (27, 1024), (1, 512), (27, 1024), (1, 512),
   (27, 1024), (1, 512), (27, 1024), (1, 512), (27, 1024), (1, 512), (27, 1024), (1, 512),
   (27, 1024), (1, 512), (27, 1024), (1, 512), (27, 1024), (1, 512), (27, 1024), (1, 512),
   (27, 1024), (1, 512), (27, 1024), (1, 512), (27, 1024), (1, 512), (27, 1024), (1, 512),
   (27, 1024), (1, 512), (27, 1024), (1, 512), (27, 1024), (1, 512), (27, 1024), (1, 512),
   (27, 1024), (1, 512), (27, 1024), (1, 512), (27, 1024), (1, 512), (27, 1024), (1, 512),
   (27, 1024), (1, 512), (27, 1024), (1, 512), (27, 1024), (1, 512), (27, 1024), (1, 512),
   (27, 1024), (1, 512), (27, 1024), (1, 512), (27, 1024), (1, 512), (27, 1024), (1, 512),
   (27, 1024), (1, 512), (27, 1024), (1, 512), (27, 1024), (1, 512), (27, 1024), (1, 512),
   (27, 1024), (1, 512), (27, 1024), (1, 512), (27, 1024), (1, 512), (27, 1024), (1, 512),
   (27, 1024), (1, 512), (27, 1024), (1, 512), (27, 1024), (1, 512), (27, 1024), (1, 512),
   (27, 1024), (1, 512), (27, 1024), (1, 512), (27, 1024), (1, 512), (27, 1024), (1, 512),
   (27, 1024), (1, 512), (27, 1024), (1, 512), (27, 1024), (1, 512), (27, 1024), (1, 512),
   (27, 1024), (1, 512), (27, 1024), (1, 512), (27, 1024), (1, 512), (27, 1024), (1, 512),
   (27, 1024), (1, 512), (27, 1024), (1, 512), (27, 1024), (1, 512), (27, 1024), (1, 512),
   (27, 1024), (1, 512), (27, 1024), (1, 512), (27, 1024), (1, 512), (27, 1024), (1, 512),
   (27, 1024), (1, 512), (27, 1024), (1, 512), (27, 1024), (1, 512), (27, 1024), (1, 512),
   (27, 1024), (1, 512), (27, 1024), (1, 512), (27, 1024), (1, 512), (27, 1024), (1, 512),
   (27, 1024), (1, 512), (27, 1024), (1, 512), (27, 1024), (1, 512), (27, 1024), (1, 512),
   (27, 1024), (1, 512), (27, 1024), (1, 512), (27, 1024), (1, 512), (27, 1024), (1, 512),
   (27, 1024), (1, 512), (27, 1024), (1, 512), (27, 1024), (1, 512), (27, 1024), (1, 512),
   (27, 1024), (1, 512), (27, 1024), (1, 512), (27, 1024), (1, 512), (27, 1024), (1, 512),
   (27, 1024), (1, 512), (27, 1024), (1, 512), (27, 1024), (1, 512), (27, 1024), (1, 512),
   (27, 1024), (1, 512), (27, 1024), (1, 512), (27, 1024), (1, 512), (27, 1024), (1, 512),
   (27, 1024), (1, 512), (27, 1024), (1, 512), (27, 1024), (1, 512), (27, 1024), (1, 512),
   (27, 1024), (1, 512), (27, 1024), (1, 512), (27, 1024), (1, 512), (27, 1024), (1, 512),
   (27, 1024), (1, 512), (27, 1024), (1, 512), (27, 1024), (1, 512), (27, 1024), (1, 512),
   (27, 1024), (1, 512), (27, 1024), (1, 512), (27, 1024), (1, 512), (27, 1024), (1, 512),
   (27, 1024), (1, 512), (27, 1024), (1, 512), (27, 1024), (1, 512), (27, 1024), (1, 512),
   (27, 1024), (1, 512), (27, 1024), (1, 512), (27, 1024), (1, 512), (27, 1024), (1, 512),
   (27, 1024), (1, 512), (27, 1024), (1, 512), (27, 1024), (1, 512), (27, 1024), (1, 512),
   (27, 1024), (1, 512), (27, 1024), (1, 512), (27, 1024), (1, 512), (27, 1024), (1, 512),
   (27, 1024), (1, 512), (27, 1024), (1, 512), (27, 1024), (1, 512), (27, 1024), (1, 512),
   (27, 1024), (1, 512), (27, 1024), (1, 512), (27, 1024), (1, 512), (27, 1024), (1, 512),
   (27, 1024), (1, 512), (27, 1024), (1, 512), (27, 1024), (1, 512), (27, 1024), (1, 512),
   (27, 1024), (1, 512), (27, 1024), (1, 512), (27, 1024), (1, 512), (27, 1024), (1, 512),
   (27, 1024), (1, 512), (27, 1024), (1, 512), (27, 1024), (1, 512), (27, 1024), (1, 512),
   (27, 1024), (1, 512), (27, 1024), (1, 512), (27, 1024), (1, 512), (27, 1024), (1, 512),
   (27, 1024), (1, 512), (27, 1024), (1, 512), (27, 1024), (1, 512), (27, 1024), (1, 512),
   (27, 1024), (1, 512), (27, 1024), (1, 512), (27, 1024), (1, 512), (27, 1024), (1, 512),
   (27, 1024), (1, 512), (27, 1024), (1, 512), (27, 1024), (1, 512), (27, 1024), (1, 512),
   (27, 1024), (1, 512), (27, 1024), (1, 512), (27, 1024), (1, 512), (27, 1024), (1, 512),
   (27, 1024), (1, 512), (27, 1024), (1, 512), (27, 1024), (1, 512), (27, 1024), (1, 512),
   (27, 1024), (1, 512), (27, 1024), (1, 512), (27, 1024), (1, 512), (27, 1024), (1, 512),
   (27, 1024), (1, 512), (27, 1024), (1, 512), (27, 1024), (1, 512), (27, 1024), (1, 512),
   (27, 1024), (1, 512), (27, 1024), (1, 512), (27, 1024), (1, 512), (27, 1024), (1, 512),
   (27, 1024), (1, 512), (27, 1024), (1, 512), (27, 1024), (1, 512), (27, 1024), (1, 512),
   (27, 1024), (1, 512), (27, 1024), (1, 512), (27, 1024), (1, 512), (27, 1024), (1, 512),
   (27, 1024), (1, 512), (27, 1024), (1, 512), (27, 1024), (1, 512), (27, 1024), (1, 512),
   (27, 1024), (1, 512), (27, 1024), (1, 512), (27, 1024), (1, 512), (27, 1024), (1, 512),
   (27, 1024), (1, 512), (27, 1024), (1, 512), (27, 1024), (1, 512), (27, 1024), (1, 512),
   (27, 1024), (1, 512), (27, 1024), (1, 512), (27, 1024), (1, 512), (27, 1024), (1, 512),
   (27, 1024), (1, 512), (27, 1024), (1, 512), (27, 1024), (1, 512), (27, 1024), (1, 512),
   (27, 1024), (1, 512), (27, 1024), (1, 512), (27, 1024), (1, 512), (27, 1024), (1, 512),
   (27, 1024), (1, 512), (27, 1024), (1, 512), (27, 1024), (1, 512), (27, 1024), (1, 512),
   (27, 1024), (1, 512), (27, 1024), (1, 512), (27, 1024), (1, 512), (27, 1024), (1, 512),
   (27, 1024), (1, 512), (27, 1024), (1, 512), (27, 1024), (1, 512), (27, 1024), (1, 512),
   (27, 1024), (1, 512), (27, 1024), (1, 512), (27, 1024), (1, 512), (27, 1024), (1, 512),
   (27, 1024), (1, 512), (27, 1024), (1, 512), (27, 1024), (1, 512), (27, 1024), (1, 512),
   (27, 1024), (1, 512), (27, 1024), (1, 512), (27, 1024), (1, 512), (27, 1024), (1, 512),
   (27, 1024), (1, 512), (27, 1024), (1, 512), (27, 1024), (1, 512), (27, 1024), (1, 512),
   (27, 1024), (1, 512), (27, 1024), (1, 512), (27, 1024), (1, 512), (27, 1024), (1, 512),
   (27, 1024), (1, 512), (27, 1024), (1, 512), (27, 1024), (1, 512), (27, 1024), (1, 512),
   (27, 1024), (1, 512), (27, 1024), (1, 512), (27, 1024), (1, 512), (27, 1024), (1, 512),
   (27, 1024), (1, 512), (27, 1024), (1, 512), (27, 1024), (1, 512), (27, 1024), (1, 512),
   (27, 1024), (1, 512), (27, 1024), (1, 512), (27, 1024), (1, 512), (27, 1024), (1, 512),
   (27, 1024), (1, 512), (27, 1024), (1, 512), (27, 1024), (1, 512), (27, 1024), (1, 512),
   (27, 1024), (1, 512), (27, 1024), (1, 512), (27, 1024), (1, 512), (27, 1024), (1, 512),
   (27, 1024), (1, 512), (27, 1024), (1, 512), (27, 1024), (1, 512), (27, 1024), (1, 512),
   (27, 1024), (1, 512), (27, 1024), (1, 512), (27, 1024), (1, 512), (27, 1024), (1, 512),
   (27, 1024), (1, 512), (27, 1024), (1, 512), (27, 1024), (1, 512), (27, 1024), (1, 512),
   (27, 1024), (1, 512), (27, 1024), (1, 512), (27, 1024), (1, 512), (27, 1024), (1, 512),
   (27, 1024), (1, 512), (27, 1024), (1, 512), (27, 1024), (1, 512), (27, 1024), (1, 512),
   (27, 1024), (1, 512), (27, 1024), (1, 512), (27, 1024), (1, 512), (27, 1024), (1, 512),
   (27, 1024), (1, 512), (27, 1024), (1, 512), (27, 1024), (1, 512), (27, 1024), (1, 512),
   (27, 1024), (1, 512), (27, 1024), (1, 512), (27, 1024), (1, 512), (27, 1024), (1, 512),
   (27, 1024), (1, 512), (27, 1024), (1, 512), (27, 1024), (1, 512), (27, 1024), (1, 512),
   (27, 1024), (1, 512), (27, 1024), (1, 512), (27, 1024), (1, 512), (27, 1024), (1, 512),
   (27, 1024), (1, 512), (27, 1024), (1, 512), (27, 1024), (1, 512), (27, 1024), (1, 512),
   (27, 1024), (1, 512), (27, 1024), (1, 512), (27, 1024), (1, 512), (27, 1024), (1, 512),
   (27, 1024), (1, 512), (27, 1024), (1, 512), (27, 1024), (1, 512), (27, 1024), (1, 512),
   (27, 1024), (1, 512), (27, 1024), (1, 512), (27, 1024), (1, 512), (27, 1024), (1, 512),
   (27, 1024), (1, 512), (27, 1024), (1, 512), (27, 1024), (1, 512), (27, 1024), (1, 512),
   (27, 1024), (1, 512), (27, 1024), (1, 512), (27, 1024), (1, 512), (27, 1024), (12, 0),
   (23, 32768), (4, 0), (49, 16384), (8994, 0), (1, 36), (737, 0), (16, 36), (16, 0),
   (16, 36), (207, 0), (1, 2), (158, 0), (2, 36), (80, 0), (12, 2), (513, 0),
   (1, 36), (226, 0), (1, 36), (149, 0), (5, 36), (1669, 0), (1, 16), (3, 36),
   (1, 0), (2, 36), (5, 0), (4, 36), (4, 16), (1, 0), (3, 16), (1, 0),
   (29, 16), (2, 0), (3, 36), (4, 0), (1, 68), (165, 0), (2, 36), (573, 0),
   (4, 36), (65, 0), (5, 36), (317, 0), (2, 36), (77, 0), (6, 36), (70, 0),
   (11, 36), (49, 0), (4, 36), (122, 0), (1, 8192), (1, 36), (1, 8192), (53, 0),
   (15, 36), (41, 0), (1, 36), (2, 0), (2, 36), (10, 0), (3, 36), (1, 8192),
   (45, 0), (3, 8192), (4, 36), (2, 8192), (2, 36), (2, 0), (1, 2048), (4, 0),
   (1, 36), (10, 0), (1, 2048), (50, 0), (3, 36), (36, 16), (5, 36), (1, 8192),
   (6, 36), (1, 68), (1, 36), (15, 0), (1, 16), (2, 8192), (1, 16), (43, 0),
   (1, 36), (12, 0), (2, 36), (1, 8192), (48, 0), (3, 8192), (9, 36), (1, 8192),
   (1, 36), (1, 0), (2, 2048), (5, 0), (4, 36), (1, 0), (1, 8192), (1, 36),
   (92, 0), (3, 8192), (3, 36), (2, 8192), (4, 36), (6, 0), (1, 36), (2, 0),
   (1, 36), (157, 0), (1, 36), (3, 8192), (8, 36), (21, 0), (2, 36), (2, 8192),
   (55, 0), (2, 36), (1, 0), (1, 36), (1, 8192), (1, 36), (4, 8192), (2, 0),
   (2, 8192), (2, 0), (2, 8192), (1, 36), (9, 0), (1, 36), (10, 0), (2, 8192),
   (2, 0), (7, 36), (3, 0), (5, 36), (11, 0), (10, 16), (1, 0), (1, 16),
   (2, 0), (1, 16), (1, 0), (38, 16), (2, 0), (1, 36), (2, 8192), (6, 36),
   (1, 0), (1, 36), (2, 0), (1, 36), (1, 0), (3, 36), (1, 8192), (1, 0),
   (2, 8192), (2, 36), (1, 68), (1, 2048), (1, 36), (14, 0), (2, 36), (82, 0),
   (3, 8192), (8, 36), (2, 8192), (3, 36), (1, 8192), (1, 36), (23, 0), (1, 36),
   (81, 0), (1, 36), (2, 8192), (6, 36), (1, 8192), (1, 36), (2, 8192), (1, 36),
   (1, 8192), (2, 36), (1, 8192), (2, 36), (235, 0), (1, 36), (2, 8192), (4, 36),
   (2, 0), (4, 8192), (2, 36), (1, 8192), (2, 36), (27, 0), (2, 36), (82, 0),
   (3, 8192), (8, 36), (2, 8192), (1, 36), (1, 8192), (2, 36), (106, 0), (1, 36),
   (1, 8192), (1, 36), (2, 8192), (8, 36), (101, 0), (1, 36), (1, 8192), (1, 36),
   (2, 0), (4, 36), (1, 8192), (5, 36), (256, 0), (3, 8192), (9, 36), (1, 8192),
   (2, 36), (197, 0), (7, 16), (2, 0), (1, 16), (2, 0), (8, 16), (1, 0),
   (2, 16), (1, 0), (24, 16), (1, 36), (5, 8192), (1, 0), (2, 8192), (2, 0),
   (3, 36), (1, 68), (1, 2048), (1, 8192), (1, 2048), (1, 8192), (1, 36), (141, 0),
   (3, 8192), (4, 36), (2, 0), (2, 36), (4, 8192), (1, 36), (3, 0), (1, 8192),
   (27, 0), (1, 16), (10, 36), (40, 16), (6, 36), (1, 8192), (1, 0), (4, 36),
   (8, 0), (1, 68), (8, 0), (1, 16), (6, 36), (2, 8192), (3, 36), (40, 16),
   (6, 2048), (13, 36), (1, 8192), (1, 36), (1, 68), (198, 0), (1, 36), (1, 8192),
   (3, 36), (1, 8192), (1, 36), (1, 8192), (199, 0), (1, 8192), (7, 36), (1, 0),
   (6, 36), (1, 8192), (1, 36), (82, 0), (22, 36), (1, 0), (1, 8192), (7, 36),
   (1, 8192), (2, 36), (1, 8192), (2, 36), (122, 0), (6, 36), (3, 0), (1, 36),
   (1, 0), (2, 36), (1, 0), (7, 36), (1, 2048), (1, 36), (66, 0), (5, 8192),
   (1, 0), (2, 36), (1, 0), (2, 8192), (1, 36), (1, 8192), (1, 36), (347, 0),
   (2, 36), (2, 8192), (9, 0), (2, 36), (1, 2048), (1, 8192), (13, 16), (1, 0),
   (34, 16), (2, 8192), (5, 36), (3, 0), (2, 8192), (2, 36), (1, 68), (23, 0),
   (1, 36), (5333, 0), (16, 2), (1, 36), (6, 0), (15, 36), (11464, 0), (12, 36),
   (3, 8192), (3, 36), (2496, 0), (5, 36), (59, 0), (7, 36), (556, 0), (1, 32768),
   (3, 0), (4, 32768), (484, 0), (1, 36), (1, 0), (55, 8192), (7, 0), (4, 36),
   (81, 0), (1, 36), (11, 0), (2, 36), (19627, 0), (2, 36), (1, 0), (4, 2),
   (4700, 0), (46, 36), (2, 0), (23, 36), (542, 0), (5, 36), (3, 0), (6, 36),
   (8, 2), (8, 36), (2, 0), (7, 36), (30, 0), (4, 36), (148, 0), (3, 36),
   (1979, 0), (55, 36), (4, 0), (50, 36), (8, 0), (1, 36), (14, 0), (1, 36),
   (22, 0), (5, 36), (1, 0), (15, 36), (1360, 0), (7, 36), (1, 0), (17, 36),
   (2, 0), (7, 36), (1, 0), (2, 36), (1, 0), (5, 36), (100, 0), (1, 36),
   (160, 0), (7, 36), (375, 0), (1, 36), (61, 0), (4, 36), (508, 0), (4, 36),
   (254, 0), (2, 36), (243, 0), (1, 36), (2, 0), (1, 36), (7, 0), (2, 36),
   (5, 0), (1, 36), (474, 0), (7, 36), (109, 0), (7, 36), (1721, 0), (1, 8),
   (39, 0), (4, 8), (100, 0), (12, 8), (15, 0), (2, 8), (15, 0), (1, 8),
   (14, 0), (2, 8), (37, 0), (10, 8), (112, 0), (2, 8), (12, 0), (2, 8),
   (14, 0), (1, 8), (2, 0), (10, 8), (19, 0), (56, 8), (26, 4096), (1, 0),
   (15, 8), (10, 0), (1, 8), (20, 0), (1, 8), (2, 0), (9, 8), (1, 0),
   (4, 8), (9, 0), (23, 8), (6, 0), (188, 8), (2, 0), (112, 8), (2, 0),
   (2, 8), (1, 0), (3, 8), (2, 0), (83, 8), (2, 0), (3, 8), (1, 0),
   (4, 8), (5, 36), (254, 8), (1, 0), (63, 8), (11, 0), (6, 8), (1, 0),
   (24, 8), (7, 0), (2, 8), (2, 0), (8, 8), (12, 0), (1, 8), (2, 0),
   (4, 8), (2, 0), (1, 8), (4, 0), (2, 8), (13, 0), (2, 8), (2, 0),
   (1, 8), (8, 0), (2, 8), (9, 0), (1, 8), (5, 0), (3, 8), (12, 0),
   (3, 8), (8, 0), (3, 8), (2, 0), (1, 8), (1, 0), (1, 8), (4, 0),
   (1, 8), (6, 0), (1, 8), (3, 0), (1, 8), (6, 0), (86, 8), (48, 0),
   (70, 8), (5, 0), (8, 8), (2, 0), (17, 8), (3, 0), (1, 8), (1, 0),
   (6, 8), (2, 0), (13, 8), (218, 0), (38, 8), (12, 0), (4, 8), (56, 0),
   (8, 8), (10, 0), (6, 8), (40, 0), (8, 8), (30, 0), (2, 8), (12, 0),
   (4, 8), (2, 0), (14, 8), (9, 0), (39, 8), (12, 0), (47, 8), (1, 0),
   (10, 8), (1, 0), (185, 8), (88, 0), (8, 8), (14, 0), (146, 8), (256, 0),
   (1022, 8), (786434, 0), (32, 2), (96, 36), (128, 2), (240, 36), (3600, 2), (192512, 0)]
end Uax29.Graphemes
