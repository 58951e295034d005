/-!
GENERATED by tools/gen_ucd.py from sentences/trie.go. Do not edit.
The table as runs (length, entry) over all code points, checked in Verif/Proofs/RunsSentences.lean.
-/
set_option maxRecDepth 8000
namespace Uax29.Sentences
/-- The runs of the table. -/
def runs : List (Nat × Nat) :=
  [(9, 0), (1, 4096), (1, 32), (2, 4096), (1, 2), (18, 0), (1, 4096), (1, 1024),
   (1, 4), (4, 0), (3, 4), (2, 0), (2, 512), (1, 1), (1, 0), (10, 128),
   (2, 512), (3, 0), (1, 1024), (1, 0), (26, 8192), (1, 4), (1, 0), (1, 4),
   (3, 0), (26, 64), (1, 4), (1, 0), (1, 4), (7, 0), (1, 2048), (26, 0),
   (1, 4096), (9, 0), (1, 64), (1, 4), (1, 0), (1, 16), (7, 0), (1, 64),
   (4, 0), (1, 64), (1, 4), (4, 0), (23, 8192), (1, 0), (7, 8192), (24, 64),
   (1, 0), (8, 64), (1, 8192), (1, 64), (1, 8192), (1, 64), (1, 8192), (1, 64),
   (1, 8192), (1, 64), (1, 8192), (1, 64), (1, 8192), (1, 64), (1, 8192), (1, 64),
   (1, 8192), (1, 64), (1, 8192), (1, 64), (1, 8192), (1, 64), (1, 8192), (1, 64),
   (1, 8192), (1, 64), (1, 8192), (1, 64), (1, 8192), (1, 64), (1, 8192), (1, 64),
   (1, 8192), (1, 64), (1, 8192), (1, 64), (1, 8192), (1, 64), (1, 8192), (1, 64),
   (1, 8192), (1, 64), (1, 8192), (1, 64), (1, 8192), (1, 64), (1, 8192), (1, 64),
   (1, 8192), (1, 64), (1, 8192), (1, 64), (1, 8192), (1, 64), (1, 8192), (1, 64),
   (1, 8192), (2, 64), (1, 8192), (1, 64), (1, 8192), (1, 64), (1, 8192), (1, 64),
   (1, 8192), (1, 64), (1, 8192), (1, 64), (1, 8192), (1, 64), (1, 8192), (1, 64),
   (1, 8192), (2, 64), (1, 8192), (1, 64), (1, 8192), (1, 64), (1, 8192), (1, 64),
   (1, 8192), (1, 64), (1, 8192), (1, 64), (1, 8192), (1, 64), (1, 8192), (1, 64),
   (1, 8192), (1, 64), (1, 8192), (1, 64), (1, 8192), (1, 64), (1, 8192), (1, 64),
   (1, 8192), (1, 64), (1, 8192), (1, 64), (1, 8192), (1, 64), (1, 8192), (1, 64),
   (1, 8192), (1, 64), (1, 8192), (1, 64), (1, 8192), (1, 64), (1, 8192), (1, 64),
   (1, 8192), (1, 64), (1, 8192), (1, 64), (1, 8192), (1, 64), (1, 8192), (1, 64),
   (2, 8192), (1, 64), (1, 8192), (1, 64), (1, 8192), (3, 64), (2, 8192), (1, 64),
   (1, 8192), (1, 64), (2, 8192), (1, 64), (3, 8192), (2, 64), (4, 8192), (1, 64),
   (2, 8192), (1, 64), (3, 8192), (3, 64), (2, 8192), (1, 64), (2, 8192), (1, 64),
   (1, 8192), (1, 64), (1, 8192), (1, 64), (2, 8192), (1, 64), (1, 8192), (2, 64),
   (1, 8192), (1, 64), (2, 8192), (1, 64), (3, 8192), (1, 64), (1, 8192), (1, 64),
   (2, 8192), (2, 64), (1, 256), (1, 8192), (3, 64), (4, 256), (2, 8192), (1, 64),
   (2, 8192), (1, 64), (2, 8192), (1, 64), (1, 8192), (1, 64), (1, 8192), (1, 64),
   (1, 8192), (1, 64), (1, 8192), (1, 64), (1, 8192), (1, 64), (1, 8192), (1, 64),
   (1, 8192), (1, 64), (1, 8192), (2, 64), (1, 8192), (1, 64), (1, 8192), (1, 64),
   (1, 8192), (1, 64), (1, 8192), (1, 64), (1, 8192), (1, 64), (1, 8192), (1, 64),
   (1, 8192), (1, 64), (1, 8192), (1, 64), (1, 8192), (2, 64), (2, 8192), (1, 64),
   (1, 8192), (1, 64), (3, 8192), (1, 64), (1, 8192), (1, 64), (1, 8192), (1, 64),
   (1, 8192), (1, 64), (1, 8192), (1, 64), (1, 8192), (1, 64), (1, 8192), (1, 64),
   (1, 8192), (1, 64), (1, 8192), (1, 64), (1, 8192), (1, 64), (1, 8192), (1, 64),
   (1, 8192), (1, 64), (1, 8192), (1, 64), (1, 8192), (1, 64), (1, 8192), (1, 64),
   (1, 8192), (1, 64), (1, 8192), (1, 64), (1, 8192), (1, 64), (1, 8192), (1, 64),
   (1, 8192), (1, 64), (1, 8192), (1, 64), (1, 8192), (1, 64), (1, 8192), (1, 64),
   (1, 8192), (1, 64), (1, 8192), (1, 64), (1, 8192), (1, 64), (1, 8192), (1, 64),
   (1, 8192), (1, 64), (1, 8192), (1, 64), (1, 8192), (7, 64), (2, 8192), (1, 64),
   (2, 8192), (2, 64), (1, 8192), (1, 64), (4, 8192), (1, 64), (1, 8192), (1, 64),
   (1, 8192), (1, 64), (1, 8192), (1, 64), (1, 8192), (69, 64), (2, 256), (35, 64),
   (7, 256), (2, 64), (4, 0), (12, 256), (14, 0), (5, 64), (7, 0), (1, 256),
   (1, 0), (1, 256), (17, 0), (112, 8), (1, 8192), (1, 64), (1, 8192), (1, 64),
   (1, 256), (1, 0), (1, 8192), (1, 64), (2, 0), (4, 64), (1, 512), (1, 8192),
   (6, 0), (1, 8192), (1, 0), (3, 8192), (1, 0), (1, 8192), (1, 0), (2, 8192),
   (1, 64), (17, 8192), (1, 0), (9, 8192), (35, 64), (1, 8192), (2, 64), (3, 8192),
   (3, 64), (1, 8192), (1, 64), (1, 8192), (1, 64), (1, 8192), (1, 64), (1, 8192),
   (1, 64), (1, 8192), (1, 64), (1, 8192), (1, 64), (1, 8192), (1, 64), (1, 8192),
   (1, 64), (1, 8192), (1, 64), (1, 8192), (1, 64), (1, 8192), (1, 64), (1, 8192),
   (5, 64), (1, 8192), (1, 64), (1, 0), (1, 8192), (1, 64), (2, 8192), (2, 64),
   (51, 8192), (48, 64), (1, 8192), (1, 64), (1, 8192), (1, 64), (1, 8192), (1, 64),
   (1, 8192), (1, 64), (1, 8192), (1, 64), (1, 8192), (1, 64), (1, 8192), (1, 64),
   (1, 8192), (1, 64), (1, 8192), (1, 64), (1, 8192), (1, 64), (1, 8192), (1, 64),
   (1, 8192), (1, 64), (1, 8192), (1, 64), (1, 8192), (1, 64), (1, 8192), (1, 64),
   (1, 8192), (1, 64), (1, 8192), (1, 64), (1, 0), (7, 8), (1, 8192), (1, 64),
   (1, 8192), (1, 64), (1, 8192), (1, 64), (1, 8192), (1, 64), (1, 8192), (1, 64),
   (1, 8192), (1, 64), (1, 8192), (1, 64), (1, 8192), (1, 64), (1, 8192), (1, 64),
   (1, 8192), (1, 64), (1, 8192), (1, 64), (1, 8192), (1, 64), (1, 8192), (1, 64),
   (1, 8192), (1, 64), (1, 8192), (1, 64), (1, 8192), (1, 64), (1, 8192), (1, 64),
   (1, 8192), (1, 64), (1, 8192), (1, 64), (1, 8192), (1, 64), (1, 8192), (1, 64),
   (1, 8192), (1, 64), (1, 8192), (1, 64), (1, 8192), (1, 64), (1, 8192), (1, 64),
   (1, 8192), (1, 64), (1, 8192), (1, 64), (2, 8192), (1, 64), (1, 8192), (1, 64),
   (1, 8192), (1, 64), (1, 8192), (1, 64), (1, 8192), (1, 64), (1, 8192), (1, 64),
   (1, 8192), (2, 64), (1, 8192), (1, 64), (1, 8192), (1, 64), (1, 8192), (1, 64),
   (1, 8192), (1, 64), (1, 8192), (1, 64), (1, 8192), (1, 64), (1, 8192), (1, 64),
   (1, 8192), (1, 64), (1, 8192), (1, 64), (1, 8192), (1, 64), (1, 8192), (1, 64),
   (1, 8192), (1, 64), (1, 8192), (1, 64), (1, 8192), (1, 64), (1, 8192), (1, 64),
   (1, 8192), (1, 64), (1, 8192), (1, 64), (1, 8192), (1, 64), (1, 8192), (1, 64),
   (1, 8192), (1, 64), (1, 8192), (1, 64), (1, 8192), (1, 64), (1, 8192), (1, 64),
   (1, 8192), (1, 64), (1, 8192), (1, 64), (1, 8192), (1, 64), (1, 8192), (1, 64),
   (1, 8192), (1, 64), (1, 8192), (1, 64), (1, 8192), (1, 64), (1, 8192), (1, 64),
   (1, 8192), (1, 64), (1, 8192), (1, 64), (1, 8192), (1, 64), (1, 8192), (1, 64),
   (1, 8192), (1, 64), (1, 8192), (1, 64), (1, 8192), (1, 64), (1, 8192), (1, 64),
   (1, 8192), (1, 64), (1, 8192), (1, 64), (1, 8192), (1, 64), (1, 8192), (1, 64),
   (1, 8192), (1, 64), (1, 8192), (1, 64), (1, 8192), (1, 64), (1, 8192), (1, 64),
   (1, 8192), (1, 64), (1, 0), (38, 8192), (2, 0), (1, 256), (3, 0), (1, 512),
   (2, 0), (41, 64), (1, 1024), (7, 0), (45, 8), (1, 0), (1, 8), (1, 0),
   (2, 8), (1, 0), (2, 8), (1, 0), (1, 8), (8, 0), (27, 256), (4, 0),
   (5, 256), (12, 0), (6, 128), (6, 0), (2, 512), (2, 0), (11, 8), (1, 0),
   (1, 16), (3, 1024), (43, 256), (21, 8), (10, 128), (1, 0), (2, 128), (1, 0),
   (2, 256), (1, 8), (99, 256), (1, 1024), (1, 256), (7, 8), (1, 128), (1, 0),
   (6, 8), (2, 256), (2, 8), (1, 0), (4, 8), (2, 256), (10, 128), (3, 256),
   (2, 0), (1, 256), (3, 1024), (12, 0), (1, 16), (1, 256), (1, 8), (30, 256),
   (27, 8), (2, 0), (89, 256), (11, 8), (1, 256), (14, 0), (10, 128), (33, 256),
   (9, 8), (2, 256), (2, 0), (1, 512), (1, 1024), (1, 256), (2, 0), (1, 8),
   (2, 0), (22, 256), (4, 8), (1, 256), (9, 8), (1, 256), (3, 8), (1, 256),
   (5, 8), (9, 0), (1, 1024), (1, 0), (1, 1024), (3, 0), (2, 1024), (1, 0),
   (25, 256), (3, 8), (4, 0), (11, 256), (5, 0), (24, 256), (1, 0), (7, 256),
   (2, 128), (5, 0), (9, 8), (42, 256), (24, 8), (1, 128), (33, 8), (54, 256),
   (3, 8), (1, 256), (18, 8), (1, 256), (7, 8), (10, 256), (2, 8), (2, 1024),
   (10, 128), (1, 0), (16, 256), (3, 8), (1, 0), (8, 256), (2, 0), (2, 256),
   (2, 0), (22, 256), (1, 0), (7, 256), (1, 0), (1, 256), (3, 0), (4, 256),
   (2, 0), (1, 8), (1, 256), (7, 8), (2, 0), (2, 8), (2, 0), (3, 8),
   (1, 256), (8, 0), (1, 8), (4, 0), (2, 256), (1, 0), (3, 256), (2, 8),
   (2, 0), (10, 128), (2, 256), (10, 0), (1, 256), (1, 0), (1, 8), (2, 0),
   (3, 8), (1, 0), (6, 256), (4, 0), (2, 256), (2, 0), (22, 256), (1, 0),
   (7, 256), (1, 0), (2, 256), (1, 0), (2, 256), (1, 0), (2, 256), (2, 0),
   (1, 8), (1, 0), (5, 8), (4, 0), (2, 8), (2, 0), (3, 8), (3, 0),
   (1, 8), (7, 0), (4, 256), (1, 0), (1, 256), (7, 0), (10, 128), (2, 8),
   (3, 256), (1, 8), (11, 0), (3, 8), (1, 0), (9, 256), (1, 0), (3, 256),
   (1, 0), (22, 256), (1, 0), (7, 256), (1, 0), (2, 256), (1, 0), (5, 256),
   (2, 0), (1, 8), (1, 256), (8, 8), (1, 0), (3, 8), (1, 0), (3, 8),
   (2, 0), (1, 256), (15, 0), (2, 256), (2, 8), (2, 0), (10, 128), (9, 0),
   (1, 256), (6, 8), (1, 0), (3, 8), (1, 0), (8, 256), (2, 0), (2, 256),
   (2, 0), (22, 256), (1, 0), (7, 256), (1, 0), (2, 256), (1, 0), (5, 256),
   (2, 0), (1, 8), (1, 256), (7, 8), (2, 0), (2, 8), (2, 0), (3, 8),
   (7, 0), (3, 8), (4, 0), (2, 256), (1, 0), (3, 256), (2, 8), (2, 0),
   (10, 128), (1, 0), (1, 256), (16, 0), (1, 8), (1, 256), (1, 0), (6, 256),
   (3, 0), (3, 256), (1, 0), (4, 256), (3, 0), (2, 256), (1, 0), (1, 256),
   (1, 0), (2, 256), (3, 0), (2, 256), (3, 0), (3, 256), (3, 0), (12, 256),
   (4, 0), (5, 8), (3, 0), (3, 8), (1, 0), (4, 8), (2, 0), (1, 256),
   (6, 0), (1, 8), (14, 0), (10, 128), (16, 0), (5, 8), (8, 256), (1, 0),
   (3, 256), (1, 0), (23, 256), (1, 0), (16, 256), (2, 0), (1, 8), (1, 256),
   (7, 8), (1, 0), (3, 8), (1, 0), (4, 8), (7, 0), (2, 8), (1, 0),
   (3, 256), (1, 0), (2, 256), (2, 0), (2, 256), (2, 8), (2, 0), (10, 128),
   (16, 0), (1, 256), (3, 8), (1, 0), (8, 256), (1, 0), (3, 256), (1, 0),
   (23, 256), (1, 0), (10, 256), (1, 0), (5, 256), (2, 0), (1, 8), (1, 256),
   (7, 8), (1, 0), (3, 8), (1, 0), (4, 8), (7, 0), (2, 8), (5, 0),
   (3, 256), (1, 0), (2, 256), (2, 8), (2, 0), (10, 128), (1, 0), (2, 256),
   (1, 8), (12, 0), (4, 8), (9, 256), (1, 0), (3, 256), (1, 0), (41, 256),
   (2, 8), (1, 256), (7, 8), (1, 0), (3, 8), (1, 0), (4, 8), (1, 256),
   (5, 0), (3, 256), (1, 8), (7, 0), (3, 256), (2, 8), (2, 0), (10, 128),
   (10, 0), (6, 256), (1, 0), (3, 8), (1, 0), (18, 256), (3, 0), (24, 256),
   (1, 0), (9, 256), (1, 0), (1, 256), (2, 0), (7, 256), (3, 0), (1, 8),
   (4, 0), (6, 8), (1, 0), (1, 8), (1, 0), (8, 8), (6, 0), (10, 128),
   (2, 0), (2, 8), (13, 0), (48, 256), (1, 8), (2, 256), (7, 8), (5, 0),
   (7, 256), (8, 8), (1, 0), (10, 128), (39, 0), (2, 256), (1, 0), (1, 256),
   (1, 0), (5, 256), (1, 0), (24, 256), (1, 0), (1, 256), (1, 0), (10, 256),
   (1, 8), (2, 256), (9, 8), (1, 256), (2, 0), (5, 256), (1, 0), (1, 256),
   (1, 0), (7, 8), (1, 0), (10, 128), (2, 0), (4, 256), (32, 0), (1, 256),
   (23, 0), (2, 8), (6, 0), (10, 128), (11, 0), (1, 8), (1, 0), (1, 8),
   (1, 0), (1, 8), (4, 4), (2, 8), (8, 256), (1, 0), (36, 256), (4, 0),
   (20, 8), (1, 0), (2, 8), (5, 256), (11, 8), (1, 0), (36, 8), (9, 0),
   (1, 8), (57, 0), (43, 256), (20, 8), (1, 256), (10, 128), (2, 1024), (4, 0),
   (6, 256), (4, 8), (4, 256), (3, 8), (1, 256), (3, 8), (2, 256), (7, 8),
   (3, 256), (4, 8), (13, 256), (12, 8), (1, 256), (1, 8), (10, 128), (4, 8),
   (2, 0), (38, 8192), (1, 0), (1, 8192), (5, 0), (1, 8192), (2, 0), (43, 256),
   (1, 0), (1, 64), (332, 256), (1, 0), (4, 256), (2, 0), (7, 256), (1, 0),
   (1, 256), (1, 0), (4, 256), (2, 0), (41, 256), (1, 0), (4, 256), (2, 0),
   (33, 256), (1, 0), (4, 256), (2, 0), (7, 256), (1, 0), (1, 256), (1, 0),
   (4, 256), (2, 0), (15, 256), (1, 0), (57, 256), (1, 0), (4, 256), (2, 0),
   (67, 256), (2, 0), (3, 8), (2, 0), (1, 1024), (4, 0), (2, 1024), (23, 0),
   (16, 256), (16, 0), (86, 8192), (2, 0), (6, 64), (3, 0), (620, 256), (1, 0),
   (1, 1024), (17, 256), (1, 4096), (26, 256), (2, 4), (3, 0), (75, 256), (3, 0),
   (11, 256), (7, 0), (18, 256), (4, 8), (9, 0), (19, 256), (3, 8), (2, 1024),
   (9, 0), (18, 256), (2, 8), (12, 0), (13, 256), (1, 0), (3, 256), (1, 0),
   (2, 8), (12, 0), (52, 256), (32, 8), (2, 1024), (1, 0), (1, 256), (4, 0),
   (1, 256), (1, 8), (2, 0), (10, 128), (24, 0), (1, 512), (1, 1024), (4, 0),
   (1, 512), (1, 1024), (1, 0), (3, 8), (1, 16), (1, 8), (10, 128), (6, 0),
   (89, 256), (7, 0), (5, 256), (2, 8), (34, 256), (1, 8), (1, 256), (5, 0),
   (70, 256), (10, 0), (31, 256), (1, 0), (12, 8), (4, 0), (12, 8), (8, 0),
   (2, 1024), (10, 128), (30, 256), (2, 0), (5, 256), (11, 0), (44, 256), (4, 0),
   (26, 256), (6, 0), (11, 128), (37, 0), (23, 256), (5, 8), (4, 0), (53, 256),
   (10, 8), (1, 0), (29, 8), (2, 0), (1, 8), (10, 128), (6, 0), (10, 128),
   (13, 0), (1, 256), (4, 1024), (4, 0), (46, 8), (2, 0), (12, 8), (20, 0),
   (5, 8), (47, 256), (17, 8), (8, 256), (1, 0), (2, 1024), (10, 128), (2, 1024),
   (2, 0), (2, 1024), (11, 0), (9, 8), (9, 0), (3, 1024), (3, 8), (30, 256),
   (13, 8), (2, 256), (10, 128), (44, 256), (14, 8), (12, 0), (36, 256), (20, 8),
   (3, 0), (2, 1024), (3, 0), (10, 128), (3, 0), (3, 256), (10, 128), (36, 256),
   (2, 1024), (9, 64), (1, 8192), (1, 64), (5, 0), (43, 256), (2, 0), (3, 256),
   (16, 0), (3, 8), (1, 0), (21, 8), (4, 256), (1, 8), (6, 256), (1, 8),
   (2, 256), (3, 8), (1, 256), (5, 0), (192, 64), (64, 8), (1, 8192), (1, 64),
   (1, 8192), (1, 64), (1, 8192), (1, 64), (1, 8192), (1, 64), (1, 8192), (1, 64),
   (1, 8192), (1, 64), (1, 8192), (1, 64), (1, 8192), (1, 64), (1, 8192), (1, 64),
   (1, 8192), (1, 64), (1, 8192), (1, 64), (1, 8192), (1, 64), (1, 8192), (1, 64),
   (1, 8192), (1, 64), (1, 8192), (1, 64), (1, 8192), (1, 64), (1, 8192), (1, 64),
   (1, 8192), (1, 64), (1, 8192), (1, 64), (1, 8192), (1, 64), (1, 8192), (1, 64),
   (1, 8192), (1, 64), (1, 8192), (1, 64), (1, 8192), (1, 64), (1, 8192), (1, 64),
   (1, 8192), (1, 64), (1, 8192), (1, 64), (1, 8192), (1, 64), (1, 8192), (1, 64),
   (1, 8192), (1, 64), (1, 8192), (1, 64), (1, 8192), (1, 64), (1, 8192), (1, 64),
   (1, 8192), (1, 64), (1, 8192), (1, 64), (1, 8192), (1, 64), (1, 8192), (1, 64),
   (1, 8192), (1, 64), (1, 8192), (1, 64), (1, 8192), (1, 64), (1, 8192), (1, 64),
   (1, 8192), (1, 64), (1, 8192), (1, 64), (1, 8192), (1, 64), (1, 8192), (1, 64),
   (1, 8192), (1, 64), (1, 8192), (1, 64), (1, 8192), (1, 64), (1, 8192), (1, 64),
   (1, 8192), (1, 64), (1, 8192), (1, 64), (1, 8192), (1, 64), (1, 8192), (1, 64),
   (1, 8192), (1, 64), (1, 8192), (1, 64), (1, 8192), (1, 64), (1, 8192), (1, 64),
   (1, 8192), (1, 64), (1, 8192), (1, 64), (1, 8192), (1, 64), (1, 8192), (1, 64),
   (1, 8192), (1, 64), (1, 8192), (1, 64), (1, 8192), (1, 64), (1, 8192), (1, 64),
   (1, 8192), (1, 64), (1, 8192), (1, 64), (1, 8192), (1, 64), (1, 8192), (1, 64),
   (1, 8192), (1, 64), (1, 8192), (1, 64), (1, 8192), (1, 64), (1, 8192), (1, 64),
   (1, 8192), (1, 64), (1, 8192), (9, 64), (1, 8192), (1, 64), (1, 8192), (1, 64),
   (1, 8192), (1, 64), (1, 8192), (1, 64), (1, 8192), (1, 64), (1, 8192), (1, 64),
   (1, 8192), (1, 64), (1, 8192), (1, 64), (1, 8192), (1, 64), (1, 8192), (1, 64),
   (1, 8192), (1, 64), (1, 8192), (1, 64), (1, 8192), (1, 64), (1, 8192), (1, 64),
   (1, 8192), (1, 64), (1, 8192), (1, 64), (1, 8192), (1, 64), (1, 8192), (1, 64),
   (1, 8192), (1, 64), (1, 8192), (1, 64), (1, 8192), (1, 64), (1, 8192), (1, 64),
   (1, 8192), (1, 64), (1, 8192), (1, 64), (1, 8192), (1, 64), (1, 8192), (1, 64),
   (1, 8192), (1, 64), (1, 8192), (1, 64), (1, 8192), (1, 64), (1, 8192), (1, 64),
   (1, 8192), (1, 64), (1, 8192), (1, 64), (1, 8192), (1, 64), (1, 8192), (1, 64),
   (1, 8192), (1, 64), (1, 8192), (1, 64), (1, 8192), (1, 64), (1, 8192), (1, 64),
   (1, 8192), (1, 64), (1, 8192), (1, 64), (1, 8192), (1, 64), (1, 8192), (1, 64),
   (1, 8192), (1, 64), (1, 8192), (1, 64), (1, 8192), (1, 64), (1, 8192), (1, 64),
   (1, 8192), (1, 64), (1, 8192), (1, 64), (1, 8192), (9, 64), (8, 8192), (6, 64),
   (2, 0), (6, 8192), (2, 0), (8, 64), (8, 8192), (8, 64), (8, 8192), (6, 64),
   (2, 0), (6, 8192), (2, 0), (8, 64), (1, 0), (1, 8192), (1, 0), (1, 8192),
   (1, 0), (1, 8192), (1, 0), (1, 8192), (8, 64), (8, 8192), (14, 64), (2, 0),
   (8, 64), (8, 8192), (8, 64), (8, 8192), (8, 64), (8, 8192), (5, 64), (1, 0),
   (2, 64), (5, 8192), (1, 0), (1, 64), (3, 0), (3, 64), (1, 0), (2, 64),
   (5, 8192), (3, 0), (4, 64), (2, 0), (2, 64), (4, 8192), (4, 0), (8, 64),
   (5, 8192), (5, 0), (3, 64), (1, 0), (2, 64), (5, 8192), (3, 0), (11, 4096),
   (1, 16), (2, 8), (2, 16), (3, 0), (2, 512), (3, 0), (8, 4), (4, 0),
   (1, 1), (3, 0), (2, 2048), (5, 16), (1, 4096), (9, 0), (2, 4), (1, 0),
   (2, 1024), (7, 0), (2, 4), (3, 1024), (21, 0), (1, 4096), (5, 16), (1, 0),
   (10, 16), (1, 0), (1, 64), (11, 0), (2, 4), (1, 64), (13, 0), (2, 4),
   (1, 0), (13, 64), (51, 0), (33, 8), (17, 0), (1, 8192), (4, 0), (1, 8192),
   (2, 0), (1, 64), (3, 8192), (2, 64), (3, 8192), (1, 64), (1, 0), (1, 8192),
   (3, 0), (5, 8192), (6, 0), (1, 8192), (1, 0), (1, 8192), (1, 0), (1, 8192),
   (1, 0), (4, 8192), (1, 0), (1, 64), (4, 8192), (1, 64), (4, 256), (1, 64),
   (2, 0), (2, 64), (2, 8192), (5, 0), (1, 8192), (4, 64), (4, 0), (1, 64),
   (17, 0), (16, 8192), (16, 64), (3, 256), (1, 8192), (1, 64), (4, 256), (383, 0),
   (4, 4), (29, 0), (2, 4), (395, 0), (26, 8192), (26, 64), (625, 0), (6, 4),
   (7, 0), (14, 4), (79, 0), (2, 4), (31, 0), (10, 4), (403, 0), (22, 4),
   (63, 0), (4, 4), (32, 0), (2, 4), (514, 0), (48, 8192), (48, 64), (1, 8192),
   (1, 64), (3, 8192), (2, 64), (1, 8192), (1, 64), (1, 8192), (1, 64), (1, 8192),
   (1, 64), (4, 8192), (1, 64), (1, 8192), (2, 64), (1, 8192), (8, 64), (3, 8192),
   (1, 64), (1, 8192), (1, 64), (1, 8192), (1, 64), (1, 8192), (1, 64), (1, 8192),
   (1, 64), (1, 8192), (1, 64), (1, 8192), (1, 64), (1, 8192), (1, 64), (1, 8192),
   (1, 64), (1, 8192), (1, 64), (1, 8192), (1, 64), (1, 8192), (1, 64), (1, 8192),
   (1, 64), (1, 8192), (1, 64), (1, 8192), (1, 64), (1, 8192), (1, 64), (1, 8192),
   (1, 64), (1, 8192), (1, 64), (1, 8192), (1, 64), (1, 8192), (1, 64), (1, 8192),
   (1, 64), (1, 8192), (1, 64), (1, 8192), (1, 64), (1, 8192), (1, 64), (1, 8192),
   (1, 64), (1, 8192), (1, 64), (1, 8192), (1, 64), (1, 8192), (1, 64), (1, 8192),
   (1, 64), (1, 8192), (1, 64), (1, 8192), (1, 64), (1, 8192), (1, 64), (1, 8192),
   (1, 64), (1, 8192), (1, 64), (1, 8192), (1, 64), (1, 8192), (1, 64), (1, 8192),
   (1, 64), (1, 8192), (1, 64), (1, 8192), (1, 64), (1, 8192), (1, 64), (1, 8192),
   (1, 64), (1, 8192), (1, 64), (1, 8192), (1, 64), (1, 8192), (1, 64), (1, 8192),
   (1, 64), (1, 8192), (1, 64), (1, 8192), (1, 64), (1, 8192), (1, 64), (1, 8192),
   (1, 64), (1, 8192), (2, 64), (6, 0), (1, 8192), (1, 64), (1, 8192), (1, 64),
   (3, 8), (1, 8192), (1, 64), (5, 0), (3, 1024), (4, 0), (38, 64), (1, 0),
   (1, 64), (5, 0), (1, 64), (2, 0), (56, 256), (7, 0), (1, 256), (15, 0),
   (1, 8), (23, 256), (9, 0), (7, 256), (1, 0), (7, 256), (1, 0), (7, 256),
   (1, 0), (7, 256), (1, 0), (7, 256), (1, 0), (7, 256), (1, 0), (7, 256),
   (1, 0), (7, 256), (1, 0), (32, 8), (14, 4), (14, 0), (2, 4), (2, 0),
   (10, 4), (4, 0), (1, 1024), (1, 256), (12, 0), (1, 1024), (5, 0), (1, 4),
   (16, 0), (2, 1024), (8, 4), (419, 0), (1, 4096), (1, 512), (1, 1024), (2, 0),
   (3, 256), (10, 4), (2, 0), (8, 4), (1, 0), (3, 4), (1, 0), (9, 256),
   (6, 8), (1, 0), (5, 256), (2, 0), (5, 256), (4, 0), (86, 256), (2, 0),
   (2, 8), (2, 0), (3, 256), (1, 0), (90, 256), (1, 0), (4, 256), (5, 0),
   (43, 256), (1, 0), (94, 256), (17, 0), (32, 256), (48, 0), (16, 256), (512, 0),
   (6592, 256), (64, 0), (22157, 256), (67, 0), (46, 256), (1, 0), (1, 1024), (269, 256),
   (1, 0), (2, 1024), (16, 256), (10, 128), (2, 256), (20, 0), (1, 8192), (1, 64),
   (1, 8192), (1, 64), (1, 8192), (1, 64), (1, 8192), (1, 64), (1, 8192), (1, 64),
   (1, 8192), (1, 64), (1, 8192), (1, 64), (1, 8192), (1, 64), (1, 8192), (1, 64),
   (1, 8192), (1, 64), (1, 8192), (1, 64), (1, 8192), (1, 64), (1, 8192), (1, 64),
   (1, 8192), (1, 64), (1, 8192), (1, 64), (1, 8192), (1, 64), (1, 8192), (1, 64),
   (1, 8192), (1, 64), (1, 8192), (1, 64), (1, 8192), (1, 64), (1, 8192), (1, 64),
   (1, 8192), (1, 64), (1, 8192), (1, 64), (1, 256), (4, 8), (1, 0), (10, 8),
   (1, 0), (1, 256), (1, 8192), (1, 64), (1, 8192), (1, 64), (1, 8192), (1, 64),
   (1, 8192), (1, 64), (1, 8192), (1, 64), (1, 8192), (1, 64), (1, 8192), (1, 64),
   (1, 8192), (1, 64), (1, 8192), (1, 64), (1, 8192), (1, 64), (1, 8192), (1, 64),
   (1, 8192), (1, 64), (1, 8192), (1, 64), (1, 8192), (3, 64), (2, 8), (80, 256),
   (2, 8), (1, 0), (1, 1024), (3, 0), (1, 1024), (31, 0), (9, 256), (2, 0),
   (1, 8192), (1, 64), (1, 8192), (1, 64), (1, 8192), (1, 64), (1, 8192), (1, 64),
   (1, 8192), (1, 64), (1, 8192), (1, 64), (1, 8192), (3, 64), (1, 8192), (1, 64),
   (1, 8192), (1, 64), (1, 8192), (1, 64), (1, 8192), (1, 64), (1, 8192), (1, 64),
   (1, 8192), (1, 64), (1, 8192), (1, 64), (1, 8192), (1, 64), (1, 8192), (1, 64),
   (1, 8192), (1, 64), (1, 8192), (1, 64), (1, 8192), (1, 64), (1, 8192), (1, 64),
   (1, 8192), (1, 64), (1, 8192), (1, 64), (1, 8192), (1, 64), (1, 8192), (1, 64),
   (1, 8192), (1, 64), (1, 8192), (1, 64), (1, 8192), (1, 64), (1, 8192), (1, 64),
   (1, 8192), (1, 64), (1, 8192), (1, 64), (1, 8192), (1, 64), (1, 8192), (1, 64),
   (1, 8192), (1, 64), (1, 8192), (1, 64), (1, 8192), (1, 64), (1, 8192), (1, 64),
   (1, 8192), (1, 64), (1, 8192), (10, 64), (1, 8192), (1, 64), (1, 8192), (1, 64),
   (2, 8192), (1, 64), (1, 8192), (1, 64), (1, 8192), (1, 64), (1, 8192), (1, 64),
   (1, 8192), (1, 64), (1, 256), (2, 0), (1, 8192), (1, 64), (1, 8192), (1, 64),
   (1, 256), (1, 8192), (1, 64), (1, 8192), (3, 64), (1, 8192), (1, 64), (1, 8192),
   (1, 64), (1, 8192), (1, 64), (1, 8192), (1, 64), (1, 8192), (1, 64), (1, 8192),
   (1, 64), (1, 8192), (1, 64), (1, 8192), (1, 64), (1, 8192), (1, 64), (1, 8192),
   (1, 64), (5, 8192), (1, 64), (5, 8192), (1, 64), (1, 8192), (1, 64), (1, 8192),
   (1, 64), (1, 8192), (1, 64), (1, 8192), (1, 64), (1, 8192), (1, 64), (1, 8192),
   (1, 64), (1, 8192), (1, 64), (4, 8192), (1, 64), (1, 8192), (1, 64), (2, 8192),
   (1, 64), (1, 8192), (1, 64), (1, 8192), (1, 64), (1, 8192), (1, 64), (1, 8192),
   (1, 64), (1, 8192), (1, 64), (1, 8192), (1, 64), (1, 8192), (1, 64), (1, 8192),
   (20, 0), (4, 64), (1, 8192), (1, 64), (1, 256), (3, 64), (7, 256), (1, 8),
   (3, 256), (1, 8), (4, 256), (1, 8), (23, 256), (5, 8), (4, 0), (1, 8),
   (19, 0), (52, 256), (2, 0), (2, 1024), (8, 0), (2, 8), (50, 256), (18, 8),
   (8, 0), (2, 1024), (10, 128), (6, 0), (18, 8), (6, 256), (3, 0), (1, 256),
   (1, 0), (2, 256), (1, 8), (10, 128), (28, 256), (8, 8), (1, 0), (1, 1024),
   (23, 256), (13, 8), (12, 0), (29, 256), (3, 0), (4, 8), (47, 256), (14, 8),
   (7, 0), (2, 1024), (5, 0), (1, 256), (10, 128), (6, 0), (5, 256), (1, 8),
   (10, 256), (10, 128), (5, 256), (1, 0), (41, 256), (14, 8), (9, 0), (3, 256),
   (1, 8), (8, 256), (2, 8), (2, 0), (10, 128), (3, 0), (3, 1024), (23, 256),
   (3, 0), (1, 256), (3, 8), (50, 256), (1, 8), (1, 256), (3, 8), (2, 256),
   (2, 8), (5, 256), (2, 8), (1, 256), (1, 8), (1, 256), (24, 0), (3, 256),
   (2, 0), (11, 256), (5, 8), (2, 1024), (3, 256), (2, 8), (10, 0), (6, 256),
   (2, 0), (6, 256), (2, 0), (6, 256), (9, 0), (7, 256), (1, 0), (7, 256),
   (1, 0), (43, 64), (1, 0), (14, 64), (6, 0), (80, 64), (35, 256), (8, 8),
   (1, 1024), (2, 8), (2, 0), (10, 128), (6, 0), (11172, 256), (12, 0), (23, 256),
   (4, 0), (49, 256), (8452, 0), (366, 256), (2, 0), (106, 256), (38, 0), (7, 64),
   (12, 0), (5, 64), (5, 0), (1, 256), (1, 8), (10, 256), (1, 0), (13, 256),
   (1, 0), (5, 256), (1, 0), (1, 256), (1, 0), (2, 256), (1, 0), (2, 256),
   (1, 0), (108, 256), (33, 0), (363, 256), (2, 4), (16, 0), (64, 256), (2, 0),
   (54, 256), (40, 0), (12, 256), (4, 0), (16, 8), (2, 512), (1, 1024), (2, 512),
   (2, 1024), (2, 4), (7, 0), (16, 8), (1, 0), (2, 512), (2, 0), (16, 4),
   (2, 0), (2, 4), (7, 0), (2, 512), (1, 1), (1, 0), (2, 512), (2, 1024),
   (1, 512), (6, 4), (4, 0), (1, 512), (12, 0), (5, 256), (1, 0), (135, 256),
   (2, 0), (1, 16), (1, 0), (1, 1024), (6, 0), (2, 4), (2, 0), (2, 512),
   (1, 1), (1, 0), (10, 128), (2, 512), (3, 0), (1, 1024), (1, 0), (26, 8192),
   (1, 4), (1, 0), (1, 4), (3, 0), (26, 64), (1, 4), (1, 0), (1, 4),
   (1, 0), (2, 4), (1, 1024), (2, 4), (1, 512), (1, 0), (56, 256), (2, 8),
   (31, 256), (3, 0), (6, 256), (2, 0), (6, 256), (2, 0), (6, 256), (2, 0),
   (3, 256), (28, 0), (3, 16), (4, 0), (12, 256), (1, 0), (26, 256), (1, 0),
   (19, 256), (1, 0), (2, 256), (1, 0), (15, 256), (2, 0), (14, 256), (34, 0),
   (123, 256), (69, 0), (53, 256), (136, 0), (1, 8), (130, 0), (29, 256), (3, 0),
   (49, 256), (15, 0), (1, 8), (31, 0), (32, 256), (13, 0), (30, 256), (5, 0),
   (38, 256), (5, 8), (5, 0), (30, 256), (2, 0), (36, 256), (4, 0), (8, 256),
   (1, 0), (5, 256), (42, 0), (40, 8192), (40, 64), (78, 256), (2, 0), (10, 128),
   (6, 0), (36, 8192), (4, 0), (36, 64), (4, 0), (40, 256), (8, 0), (52, 256),
   (12, 0), (11, 8192), (1, 0), (15, 8192), (1, 0), (7, 8192), (1, 0), (2, 8192),
   (1, 0), (11, 64), (1, 0), (15, 64), (1, 0), (7, 64), (1, 0), (2, 64),
   (3, 0), (52, 256), (12, 0), (311, 256), (9, 0), (22, 256), (10, 0), (8, 256),
   (24, 0), (1, 64), (2, 256), (3, 64), (1, 0), (42, 64), (1, 0), (9, 64),
   (69, 0), (6, 256), (2, 0), (1, 256), (1, 0), (44, 256), (1, 0), (2, 256),
   (3, 0), (1, 256), (2, 0), (23, 256), (10, 0), (23, 256), (9, 0), (31, 256),
   (65, 0), (19, 256), (1, 0), (2, 256), (10, 0), (22, 256), (10, 0), (26, 256),
   (6, 0), (26, 256), (38, 0), (56, 256), (6, 0), (2, 256), (64, 0), (1, 256),
   (3, 8), (1, 0), (2, 8), (5, 0), (4, 8), (4, 256), (1, 0), (3, 256),
   (1, 0), (29, 256), (2, 0), (3, 8), (4, 0), (1, 8), (22, 0), (2, 1024),
   (8, 0), (29, 256), (3, 0), (29, 256), (35, 0), (8, 256), (1, 0), (28, 256),
   (2, 8), (25, 0), (54, 256), (10, 0), (22, 256), (10, 0), (19, 256), (13, 0),
   (18, 256), (110, 0), (73, 256), (55, 0), (51, 8192), (13, 0), (51, 64), (13, 0),
   (36, 256), (4, 8), (8, 0), (10, 128), (6, 0), (10, 128), (6, 256), (22, 8192),
   (3, 0), (5, 8), (1, 0), (1, 256), (22, 64), (250, 0), (42, 256), (1, 0),
   (2, 8), (3, 0), (2, 256), (16, 0), (6, 256), (50, 0), (6, 8), (29, 256),
   (10, 0), (1, 256), (8, 0), (22, 256), (11, 8), (4, 0), (5, 1024), (22, 0),
   (18, 256), (4, 8), (4, 1024), (38, 0), (21, 256), (27, 0), (23, 256), (9, 0),
   (3, 8), (53, 256), (15, 8), (2, 1024), (29, 0), (10, 128), (1, 8), (2, 256),
   (2, 8), (1, 256), (9, 0), (4, 8), (45, 256), (11, 8), (2, 0), (1, 128),
   (4, 1024), (1, 8), (10, 0), (1, 128), (2, 0), (25, 256), (7, 0), (10, 128),
   (6, 0), (3, 8), (36, 256), (14, 8), (1, 0), (10, 128), (1, 0), (3, 1024),
   (1, 256), (2, 8), (1, 256), (8, 0), (35, 256), (1, 8), (2, 0), (1, 256),
   (9, 0), (3, 8), (48, 256), (14, 8), (4, 256), (2, 1024), (2, 0), (4, 8),
   (1, 1024), (2, 8), (10, 128), (1, 256), (1, 0), (1, 256), (1, 0), (2, 1024),
   (32, 0), (18, 256), (1, 0), (25, 256), (12, 8), (2, 1024), (1, 0), (2, 1024),
   (1, 0), (1, 8), (2, 256), (1, 8), (62, 0), (7, 256), (1, 0), (1, 256),
   (1, 0), (4, 256), (1, 0), (15, 256), (1, 0), (10, 256), (1, 1024), (6, 0),
   (47, 256), (12, 8), (5, 0), (10, 128), (6, 0), (4, 8), (1, 0), (8, 256),
   (2, 0), (2, 256), (2, 0), (22, 256), (1, 0), (7, 256), (1, 0), (2, 256),
   (1, 0), (5, 256), (1, 0), (2, 8), (1, 256), (7, 8), (2, 0), (2, 8),
   (2, 0), (3, 8), (2, 0), (1, 256), (6, 0), (1, 8), (5, 0), (5, 256),
   (2, 8), (2, 0), (7, 8), (3, 0), (5, 8), (11, 0), (10, 256), (1, 0),
   (1, 256), (2, 0), (1, 256), (1, 0), (38, 256), (1, 0), (1, 256), (9, 8),
   (1, 0), (1, 8), (2, 0), (1, 8), (1, 0), (4, 8), (1, 0), (5, 8),
   (1, 256), (1, 8), (1, 256), (2, 1024), (11, 0), (2, 8), (29, 0), (53, 256),
   (18, 8), (4, 256), (2, 1024), (3, 0), (10, 128), (4, 0), (1, 8), (3, 256),
   (30, 0), (48, 256), (20, 8), (2, 256), (1, 0), (1, 256), (8, 0), (10, 128),
   (166, 0), (47, 256), (7, 8), (2, 0), (9, 8), (1, 0), (2, 1024), (5, 0),
   (15, 1024), (4, 256), (2, 8), (34, 0), (48, 256), (17, 8), (2, 1024), (1, 0),
   (1, 256), (11, 0), (10, 128), (38, 0), (43, 256), (13, 8), (1, 256), (7, 0),
   (10, 128), (6, 0), (20, 128), (28, 0), (27, 256), (2, 0), (15, 8), (4, 0),
   (10, 128), (2, 0), (3, 1024), (1, 0), (7, 256), (185, 0), (44, 256), (15, 8),
   (101, 0), (32, 8192), (32, 64), (10, 128), (21, 0), (8, 256), (2, 0), (1, 256),
   (2, 0), (8, 256), (1, 0), (2, 256), (1, 0), (24, 256), (6, 8), (1, 0),
   (2, 8), (2, 0), (4, 8), (1, 256), (1, 8), (1, 256), (2, 8), (1, 1024),
   (1, 0), (1, 1024), (9, 0), (10, 128), (70, 0), (8, 256), (2, 0), (39, 256),
   (7, 8), (2, 0), (7, 8), (1, 256), (1, 0), (1, 256), (1, 8), (27, 0),
   (1, 256), (10, 8), (40, 256), (7, 8), (1, 256), (4, 8), (3, 0), (2, 1024),
   (3, 0), (1, 8), (8, 0), (1, 256), (11, 8), (46, 256), (16, 8), (1, 0),
   (2, 1024), (1, 256), (18, 0), (73, 256), (103, 0), (8, 8), (88, 0), (33, 256),
   (15, 0), (10, 128), (6, 0), (9, 256), (1, 0), (37, 256), (8, 8), (1, 0),
   (8, 8), (1, 256), (2, 1024), (13, 0), (10, 128), (24, 0), (30, 256), (2, 0),
   (22, 8), (1, 0), (14, 8), (73, 0), (7, 256), (1, 0), (2, 256), (1, 0),
   (38, 256), (6, 8), (3, 0), (1, 8), (1, 0), (2, 8), (1, 0), (7, 8),
   (1, 256), (1, 8), (8, 0), (10, 128), (6, 0), (6, 256), (1, 0), (2, 256),
   (1, 0), (32, 256), (5, 8), (1, 0), (2, 8), (1, 0), (5, 8), (1, 256),
   (7, 0), (10, 128), (6, 0), (44, 256), (4, 0), (10, 128), (246, 0), (19, 256),
   (4, 8), (2, 1024), (7, 0), (2, 8), (1, 256), (1, 8), (13, 256), (1, 0),
   (34, 256), (7, 8), (3, 0), (5, 8), (2, 1024), (11, 0), (10, 128), (1, 8),
   (85, 0), (1, 256), (79, 0), (922, 256), (102, 0), (111, 256), (17, 0), (196, 256),
   (2636, 0), (97, 256), (15, 0), (1072, 256), (16, 16), (1, 8), (6, 256), (15, 8),
   (10, 0), (3995, 256), (5, 0), (583, 256), (6841, 0), (30, 256), (18, 8), (10, 128),
   (1734, 0), (569, 256), (7, 0), (31, 256), (1, 0), (10, 128), (4, 0), (2, 1024),
   (79, 256), (1, 0), (10, 128), (6, 0), (30, 256), (2, 0), (5, 8), (1, 1024),
   (10, 0), (48, 256), (7, 8), (2, 1024), (7, 0), (4, 256), (1, 1024), (11, 0),
   (10, 128), (9, 0), (21, 256), (5, 0), (19, 256), (432, 0), (45, 256), (1, 0),
   (2, 1024), (10, 128), (198, 0), (32, 8192), (32, 64), (24, 0), (1, 1024), (7, 0),
   (25, 8192), (2, 0), (25, 64), (44, 0), (75, 256), (4, 0), (1, 8), (1, 256),
   (55, 8), (7, 0), (4, 8), (13, 256), (64, 0), (2, 256), (1, 0), (1, 256),
   (1, 8), (11, 0), (2, 8), (5, 256), (9, 0), (7382, 256), (41, 0), (32, 256),
   (97, 0), (115, 256), (8701, 0), (4, 256), (1, 0), (7, 256), (1, 0), (2, 256),
   (1, 0), (291, 256), (15, 0), (1, 256), (29, 0), (3, 256), (2, 0), (1, 256),
   (14, 0), (4, 256), (8, 0), (396, 256), (2308, 0), (107, 256), (5, 0), (13, 256),
   (3, 0), (9, 256), (7, 0), (10, 256), (3, 0), (2, 8), (1, 1024), (4, 16),
   (4172, 0), (10, 128), (518, 0), (46, 8), (2, 0), (23, 8), (542, 0), (5, 8),
   (3, 0), (6, 8), (8, 16), (8, 8), (2, 0), (7, 8), (30, 0), (4, 8),
   (148, 0), (3, 8), (443, 0), (26, 8192), (26, 64), (26, 8192), (7, 64), (1, 0),
   (18, 64), (26, 8192), (26, 64), (1, 8192), (1, 0), (2, 8192), (2, 0), (1, 8192),
   (2, 0), (2, 8192), (2, 0), (4, 8192), (1, 0), (8, 8192), (4, 64), (1, 0),
   (1, 64), (1, 0), (7, 64), (1, 0), (11, 64), (26, 8192), (26, 64), (2, 8192),
   (1, 0), (4, 8192), (2, 0), (8, 8192), (1, 0), (7, 8192), (1, 0), (26, 64),
   (2, 8192), (1, 0), (4, 8192), (1, 0), (5, 8192), (1, 0), (1, 8192), (3, 0),
   (7, 8192), (1, 0), (26, 64), (26, 8192), (26, 64), (26, 8192), (26, 64), (26, 8192),
   (26, 64), (26, 8192), (26, 64), (26, 8192), (26, 64), (26, 8192), (28, 64), (2, 0),
   (25, 8192), (1, 0), (25, 64), (1, 0), (6, 64), (25, 8192), (1, 0), (25, 64),
   (1, 0), (6, 64), (25, 8192), (1, 0), (25, 64), (1, 0), (6, 64), (25, 8192),
   (1, 0), (25, 64), (1, 0), (6, 64), (25, 8192), (1, 0), (25, 64), (1, 0),
   (6, 64), (1, 8192), (1, 64), (2, 0), (50, 128), (512, 0), (55, 8), (4, 0),
   (50, 8), (8, 0), (1, 8), (14, 0), (1, 8), (3, 0), (1, 1024), (18, 0),
   (5, 8), (1, 0), (15, 8), (1104, 0), (10, 64), (1, 256), (20, 64), (6, 0),
   (6, 64), (213, 0), (7, 8), (1, 0), (17, 8), (2, 0), (7, 8), (1, 0),
   (2, 8), (1, 0), (5, 8), (5, 0), (62, 64), (33, 0), (1, 8), (112, 0),
   (45, 256), (3, 0), (7, 8), (7, 256), (2, 0), (10, 128), (4, 0), (1, 256),
   (321, 0), (30, 256), (1, 8), (17, 0), (44, 256), (4, 8), (10, 128), (470, 0),
   (28, 256), (4, 8), (10, 128), (214, 0), (30, 256), (2, 8), (1, 256), (10, 128),
   (197, 0), (31, 256), (1, 0), (3, 256), (1, 8), (2, 256), (1, 8), (7, 256),
   (2, 8), (5, 256), (1, 8), (8, 0), (2, 256), (224, 0), (7, 256), (1, 0),
   (4, 256), (1, 0), (2, 256), (1, 0), (15, 256), (1, 0), (197, 256), (11, 0),
   (7, 8), (41, 0), (34, 8192), (34, 64), (7, 8), (1, 256), (4, 0), (10, 128),
   (1190, 0), (4, 256), (1, 0), (27, 256), (1, 0), (2, 256), (1, 0), (1, 256),
   (2, 0), (1, 256), (1, 0), (10, 256), (1, 0), (4, 256), (1, 0), (1, 256),
   (1, 0), (1, 256), (6, 0), (1, 256), (4, 0), (1, 256), (1, 0), (1, 256),
   (1, 0), (1, 256), (1, 0), (3, 256), (1, 0), (2, 256), (1, 0), (1, 256),
   (2, 0), (1, 256), (1, 0), (1, 256), (1, 0), (1, 256), (1, 0), (1, 256),
   (1, 0), (1, 256), (1, 0), (2, 256), (1, 0), (1, 256), (2, 0), (4, 256),
   (1, 0), (7, 256), (1, 0), (4, 256), (1, 0), (4, 256), (1, 0), (1, 256),
   (1, 0), (10, 256), (1, 0), (17, 256), (5, 0), (3, 256), (1, 0), (5, 256),
   (1, 0), (17, 256), (628, 0), (26, 8192), (6, 0), (26, 8192), (6, 0), (26, 8192),
   (1260, 0), (3, 4), (1399, 0), (10, 128), (1030, 0), (42720, 256), (32, 0), (4382, 256),
   (2, 0), (5774, 256), (2, 0), (7473, 256), (15, 0), (622, 256), (2466, 0), (542, 256),
   (1506, 0), (4939, 256), (5, 0), (8490, 256), (707463, 0), (1, 16), (30, 0), (96, 8),
   (128, 0), (240, 8), (196112, 0)]
end Uax29.Sentences
