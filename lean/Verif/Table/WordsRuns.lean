/-!
GENERATED by tools/gen_ucd.py from words/trie.go. Do not edit.
The table as runs (length, entry) over all code points, checked in Verif/Proofs/RunsWords.lean.
-/
set_option maxRecDepth 8000
namespace Uax29.Words
/-- The runs of the table. -/
def runs : List (Nat × Nat) :=
  [(10, 0), (1, 1024), (2, 16384), (1, 4), (18, 0), (1, 262144), (1, 0), (1, 8),
   (4, 0), (1, 131072), (4, 0), (1, 4096), (1, 0), (1, 8192), (1, 0), (10, 32768),
   (1, 2048), (1, 4096), (5, 0), (26, 1), (4, 0), (1, 32), (1, 0), (26, 1),
   (10, 0), (1, 16384), (35, 0), (1, 64), (1, 1), (2, 0), (1, 128), (1, 64),
   (6, 0), (1, 1), (1, 0), (1, 2048), (1, 1), (1, 0), (1, 1), (5, 0),
   (23, 1), (1, 0), (31, 1), (1, 0), (480, 1), (6, 0), (34, 1), (112, 16),
   (5, 1), (1, 0), (2, 1), (2, 0), (4, 1), (1, 4096), (1, 1), (6, 0),
   (1, 1), (1, 2048), (3, 1), (1, 0), (1, 1), (1, 0), (20, 1), (1, 0),
   (83, 1), (1, 0), (139, 1), (1, 0), (7, 16), (166, 1), (1, 0), (38, 1),
   (2, 0), (4, 1), (1, 0), (1, 1), (1, 2048), (41, 1), (1, 4096), (1, 1),
   (6, 0), (45, 16), (1, 0), (1, 16), (1, 0), (2, 16), (1, 0), (2, 16),
   (1, 0), (1, 16), (8, 0), (27, 256), (4, 0), (4, 256), (1, 1), (1, 2048),
   (11, 0), (6, 32768), (6, 0), (2, 4096), (2, 0), (11, 16), (1, 0), (1, 128),
   (3, 0), (43, 1), (21, 16), (10, 32768), (1, 0), (1, 32768), (1, 4096), (1, 0),
   (2, 1), (1, 16), (99, 1), (1, 0), (1, 1), (7, 16), (1, 32768), (1, 0),
   (6, 16), (2, 1), (2, 16), (1, 0), (4, 16), (2, 1), (10, 32768), (3, 1),
   (2, 0), (1, 1), (15, 0), (2, 1), (1, 16), (30, 1), (27, 16), (2, 0),
   (89, 1), (11, 16), (1, 1), (14, 0), (10, 32768), (33, 1), (9, 16), (2, 1),
   (2, 0), (1, 4096), (1, 0), (1, 1), (2, 0), (1, 16), (2, 0), (22, 1),
   (4, 16), (1, 1), (9, 16), (1, 1), (3, 16), (1, 1), (5, 16), (18, 0),
   (25, 1), (3, 16), (4, 0), (11, 1), (5, 0), (24, 1), (1, 0), (7, 1),
   (2, 32768), (5, 0), (9, 16), (42, 1), (24, 16), (1, 32768), (33, 16), (54, 1),
   (3, 16), (1, 1), (18, 16), (1, 1), (7, 16), (10, 1), (2, 16), (2, 0),
   (10, 32768), (1, 0), (16, 1), (3, 16), (1, 0), (8, 1), (2, 0), (2, 1),
   (2, 0), (22, 1), (1, 0), (7, 1), (1, 0), (1, 1), (3, 0), (4, 1),
   (2, 0), (1, 16), (1, 1), (7, 16), (2, 0), (2, 16), (2, 0), (3, 16),
   (1, 1), (8, 0), (1, 16), (4, 0), (2, 1), (1, 0), (3, 1), (2, 16),
   (2, 0), (10, 32768), (2, 1), (10, 0), (1, 1), (1, 0), (1, 16), (2, 0),
   (3, 16), (1, 0), (6, 1), (4, 0), (2, 1), (2, 0), (22, 1), (1, 0),
   (7, 1), (1, 0), (2, 1), (1, 0), (2, 1), (1, 0), (2, 1), (2, 0),
   (1, 16), (1, 0), (5, 16), (4, 0), (2, 16), (2, 0), (3, 16), (3, 0),
   (1, 16), (7, 0), (4, 1), (1, 0), (1, 1), (7, 0), (10, 32768), (2, 16),
   (3, 1), (1, 16), (11, 0), (3, 16), (1, 0), (9, 1), (1, 0), (3, 1),
   (1, 0), (22, 1), (1, 0), (7, 1), (1, 0), (2, 1), (1, 0), (5, 1),
   (2, 0), (1, 16), (1, 1), (8, 16), (1, 0), (3, 16), (1, 0), (3, 16),
   (2, 0), (1, 1), (15, 0), (2, 1), (2, 16), (2, 0), (10, 32768), (9, 0),
   (1, 1), (6, 16), (1, 0), (3, 16), (1, 0), (8, 1), (2, 0), (2, 1),
   (2, 0), (22, 1), (1, 0), (7, 1), (1, 0), (2, 1), (1, 0), (5, 1),
   (2, 0), (1, 16), (1, 1), (7, 16), (2, 0), (2, 16), (2, 0), (3, 16),
   (7, 0), (3, 16), (4, 0), (2, 1), (1, 0), (3, 1), (2, 16), (2, 0),
   (10, 32768), (1, 0), (1, 1), (16, 0), (1, 16), (1, 1), (1, 0), (6, 1),
   (3, 0), (3, 1), (1, 0), (4, 1), (3, 0), (2, 1), (1, 0), (1, 1),
   (1, 0), (2, 1), (3, 0), (2, 1), (3, 0), (3, 1), (3, 0), (12, 1),
   (4, 0), (5, 16), (3, 0), (3, 16), (1, 0), (4, 16), (2, 0), (1, 1),
   (6, 0), (1, 16), (14, 0), (10, 32768), (16, 0), (5, 16), (8, 1), (1, 0),
   (3, 1), (1, 0), (23, 1), (1, 0), (16, 1), (2, 0), (1, 16), (1, 1),
   (7, 16), (1, 0), (3, 16), (1, 0), (4, 16), (7, 0), (2, 16), (1, 0),
   (3, 1), (1, 0), (2, 1), (2, 0), (2, 1), (2, 16), (2, 0), (10, 32768),
   (16, 0), (1, 1), (3, 16), (1, 0), (8, 1), (1, 0), (3, 1), (1, 0),
   (23, 1), (1, 0), (10, 1), (1, 0), (5, 1), (2, 0), (1, 16), (1, 1),
   (7, 16), (1, 0), (3, 16), (1, 0), (4, 16), (7, 0), (2, 16), (5, 0),
   (3, 1), (1, 0), (2, 1), (2, 16), (2, 0), (10, 32768), (1, 0), (2, 1),
   (1, 16), (12, 0), (4, 16), (9, 1), (1, 0), (3, 1), (1, 0), (41, 1),
   (2, 16), (1, 1), (7, 16), (1, 0), (3, 16), (1, 0), (4, 16), (1, 1),
   (5, 0), (3, 1), (1, 16), (7, 0), (3, 1), (2, 16), (2, 0), (10, 32768),
   (10, 0), (6, 1), (1, 0), (3, 16), (1, 0), (18, 1), (3, 0), (24, 1),
   (1, 0), (9, 1), (1, 0), (1, 1), (2, 0), (7, 1), (3, 0), (1, 16),
   (4, 0), (6, 16), (1, 0), (1, 16), (1, 0), (8, 16), (6, 0), (10, 32768),
   (2, 0), (2, 16), (61, 0), (1, 16), (2, 0), (7, 16), (12, 0), (8, 16),
   (1, 0), (10, 32768), (87, 0), (1, 16), (2, 0), (9, 16), (11, 0), (7, 16),
   (1, 0), (10, 32768), (38, 0), (1, 1), (23, 0), (2, 16), (6, 0), (10, 32768),
   (11, 0), (1, 16), (1, 0), (1, 16), (1, 0), (1, 16), (4, 0), (2, 16),
   (8, 1), (1, 0), (36, 1), (4, 0), (20, 16), (1, 0), (2, 16), (5, 1),
   (11, 16), (1, 0), (36, 16), (9, 0), (1, 16), (100, 0), (20, 16), (1, 0),
   (10, 32768), (12, 0), (4, 16), (4, 0), (3, 16), (1, 0), (3, 16), (2, 0),
   (7, 16), (3, 0), (4, 16), (13, 0), (12, 16), (1, 0), (1, 16), (10, 32768),
   (4, 16), (2, 0), (38, 1), (1, 0), (1, 1), (5, 0), (1, 1), (2, 0),
   (43, 1), (1, 0), (333, 1), (1, 0), (4, 1), (2, 0), (7, 1), (1, 0),
   (1, 1), (1, 0), (4, 1), (2, 0), (41, 1), (1, 0), (4, 1), (2, 0),
   (33, 1), (1, 0), (4, 1), (2, 0), (7, 1), (1, 0), (1, 1), (1, 0),
   (4, 1), (2, 0), (15, 1), (1, 0), (57, 1), (1, 0), (4, 1), (2, 0),
   (67, 1), (2, 0), (3, 16), (32, 0), (16, 1), (16, 0), (86, 1), (2, 0),
   (6, 1), (3, 0), (620, 1), (2, 0), (17, 1), (1, 262144), (26, 1), (5, 0),
   (75, 1), (3, 0), (11, 1), (7, 0), (18, 1), (4, 16), (9, 0), (19, 1),
   (3, 16), (11, 0), (18, 1), (2, 16), (12, 0), (13, 1), (1, 0), (3, 1),
   (1, 0), (2, 16), (64, 0), (32, 16), (9, 0), (1, 16), (2, 0), (10, 32768),
   (33, 0), (3, 16), (1, 128), (1, 16), (10, 32768), (6, 0), (89, 1), (7, 0),
   (5, 1), (2, 16), (34, 1), (1, 16), (1, 1), (5, 0), (70, 1), (10, 0),
   (31, 1), (1, 0), (12, 16), (4, 0), (12, 16), (10, 0), (10, 32768), (128, 0),
   (11, 32768), (37, 0), (23, 1), (5, 16), (57, 0), (10, 16), (1, 0), (29, 16),
   (2, 0), (1, 16), (10, 32768), (6, 0), (10, 32768), (22, 0), (46, 16), (2, 0),
   (12, 16), (20, 0), (5, 16), (47, 1), (17, 16), (8, 1), (3, 0), (10, 32768),
   (17, 0), (9, 16), (12, 0), (3, 16), (30, 1), (13, 16), (2, 1), (10, 32768),
   (44, 1), (14, 16), (12, 0), (36, 1), (20, 16), (8, 0), (10, 32768), (3, 0),
   (3, 1), (10, 32768), (36, 1), (2, 0), (11, 1), (5, 0), (43, 1), (2, 0),
   (3, 1), (16, 0), (3, 16), (1, 0), (21, 16), (4, 1), (1, 16), (6, 1),
   (1, 16), (2, 1), (3, 16), (1, 1), (5, 0), (192, 1), (64, 16), (278, 1),
   (2, 0), (6, 1), (2, 0), (38, 1), (2, 0), (6, 1), (2, 0), (8, 1),
   (1, 0), (1, 1), (1, 0), (1, 1), (1, 0), (1, 1), (1, 0), (31, 1),
   (2, 0), (53, 1), (1, 0), (7, 1), (1, 0), (1, 1), (3, 0), (3, 1),
   (1, 0), (7, 1), (3, 0), (4, 1), (2, 0), (6, 1), (4, 0), (13, 1),
   (5, 0), (3, 1), (1, 0), (7, 1), (3, 0), (7, 262144), (1, 0), (3, 262144),
   (1, 0), (1, 16), (1, 524288), (2, 128), (8, 0), (2, 8192), (10, 0), (1, 8192),
   (2, 0), (1, 2048), (2, 16384), (5, 128), (1, 32), (12, 0), (1, 64), (2, 0),
   (2, 32), (3, 0), (1, 4096), (4, 0), (1, 64), (10, 0), (1, 32), (10, 0),
   (1, 262144), (5, 128), (1, 0), (10, 128), (1, 0), (1, 1), (13, 0), (1, 1),
   (16, 0), (13, 1), (51, 0), (33, 16), (17, 0), (1, 1), (4, 0), (1, 1),
   (2, 0), (10, 1), (1, 0), (1, 1), (3, 0), (5, 1), (4, 0), (1, 64),
   (1, 0), (1, 1), (1, 0), (1, 1), (1, 0), (1, 1), (1, 0), (4, 1),
   (1, 0), (10, 1), (1, 65), (2, 0), (4, 1), (5, 0), (5, 1), (4, 0),
   (1, 1), (17, 0), (41, 1), (11, 0), (6, 64), (15, 0), (2, 64), (367, 0),
   (2, 64), (12, 0), (1, 64), (166, 0), (1, 64), (25, 0), (11, 64), (4, 0),
   (3, 64), (187, 0), (12, 1), (1, 65), (39, 1), (192, 0), (2, 64), (10, 0),
   (1, 64), (9, 0), (1, 64), (58, 0), (4, 64), (1, 0), (5, 64), (9, 0),
   (1, 64), (2, 0), (1, 64), (2, 0), (2, 64), (2, 0), (1, 64), (4, 0),
   (1, 64), (2, 0), (1, 64), (1, 0), (2, 64), (2, 0), (1, 64), (3, 0),
   (1, 64), (3, 0), (2, 64), (8, 0), (3, 64), (5, 0), (1, 64), (1, 0),
   (1, 64), (5, 0), (12, 64), (11, 0), (2, 64), (2, 0), (1, 64), (1, 0),
   (2, 64), (1, 0), (1, 64), (18, 0), (1, 64), (2, 0), (2, 64), (18, 0),
   (6, 64), (1, 0), (1, 64), (1, 0), (2, 64), (3, 0), (2, 64), (5, 0),
   (1, 64), (2, 0), (2, 64), (4, 0), (2, 64), (11, 0), (2, 64), (5, 0),
   (2, 64), (2, 0), (1, 64), (5, 0), (2, 64), (1, 0), (1, 64), (1, 0),
   (2, 64), (20, 0), (2, 64), (5, 0), (6, 64), (1, 0), (4, 64), (2, 0),
   (1, 64), (4, 0), (1, 64), (2, 0), (1, 64), (2, 0), (6, 64), (1, 0),
   (1, 64), (2, 0), (1, 64), (1, 0), (1, 64), (1, 0), (1, 64), (6, 0),
   (1, 64), (3, 0), (1, 64), (6, 0), (1, 64), (10, 0), (2, 64), (15, 0),
   (1, 64), (2, 0), (1, 64), (4, 0), (1, 64), (1, 0), (1, 64), (4, 0),
   (3, 64), (1, 0), (1, 64), (11, 0), (2, 64), (48, 0), (3, 64), (9, 0),
   (1, 64), (14, 0), (1, 64), (14, 0), (1, 64), (372, 0), (2, 64), (463, 0),
   (3, 64), (19, 0), (2, 64), (51, 0), (1, 64), (4, 0), (1, 64), (170, 0),
   (229, 1), (6, 0), (4, 1), (3, 16), (2, 1), (12, 0), (38, 1), (1, 0),
   (1, 1), (5, 0), (1, 1), (2, 0), (56, 1), (7, 0), (1, 1), (15, 0),
   (1, 16), (23, 1), (9, 0), (7, 1), (1, 0), (7, 1), (1, 0), (7, 1),
   (1, 0), (7, 1), (1, 0), (7, 1), (1, 0), (7, 1), (1, 0), (7, 1),
   (1, 0), (7, 1), (1, 0), (32, 16), (47, 0), (1, 1), (80, 0), (26, 2),
   (1, 0), (89, 2), (12, 0), (214, 2), (42, 0), (1, 262144), (4, 0), (1, 3),
   (1, 0), (1, 2), (25, 0), (9, 2), (6, 16), (1, 64), (5, 514), (2, 0),
   (3, 2), (1, 3), (1, 1), (1, 64), (3, 0), (86, 2), (2, 0), (2, 16),
   (2, 514), (3, 2), (91, 514), (1, 0), (4, 514), (5, 0), (43, 1), (1, 0),
   (94, 1), (17, 0), (32, 1), (48, 0), (16, 514), (151, 0), (1, 64), (1, 0),
   (1, 64), (54, 0), (47, 514), (1, 0), (88, 514), (168, 0), (6592, 2), (64, 0),
   (20992, 2), (1165, 1), (67, 0), (46, 1), (2, 0), (269, 1), (3, 0), (16, 1),
   (10, 32768), (2, 1), (20, 0), (47, 1), (4, 16), (1, 0), (10, 16), (1, 0),
   (31, 1), (2, 16), (80, 1), (2, 16), (22, 0), (213, 1), (20, 0), (17, 1),
   (1, 16), (3, 1), (1, 16), (4, 1), (1, 16), (23, 1), (5, 16), (4, 0),
   (1, 16), (19, 0), (52, 1), (12, 0), (2, 16), (50, 1), (18, 16), (10, 0),
   (10, 32768), (6, 0), (18, 16), (6, 1), (3, 0), (1, 1), (1, 0), (2, 1),
   (1, 16), (10, 32768), (28, 1), (8, 16), (2, 0), (23, 1), (13, 16), (12, 0),
   (29, 1), (3, 0), (4, 16), (47, 1), (14, 16), (14, 0), (1, 1), (10, 32768),
   (11, 0), (1, 16), (10, 0), (10, 32768), (6, 0), (41, 1), (14, 16), (9, 0),
   (3, 1), (1, 16), (8, 1), (2, 16), (2, 0), (10, 32768), (33, 0), (3, 16),
   (50, 0), (1, 16), (1, 0), (3, 16), (2, 0), (2, 16), (5, 0), (2, 16),
   (1, 0), (1, 16), (30, 0), (11, 1), (5, 16), (2, 0), (3, 1), (2, 16),
   (10, 0), (6, 1), (2, 0), (6, 1), (2, 0), (6, 1), (9, 0), (7, 1),
   (1, 0), (7, 1), (1, 0), (58, 1), (6, 0), (115, 1), (8, 16), (1, 0),
   (2, 16), (2, 0), (10, 32768), (6, 0), (11172, 1), (12, 0), (23, 1), (4, 0),
   (49, 1), (8452, 0), (366, 2), (2, 0), (106, 2), (38, 0), (7, 1), (12, 0),
   (5, 1), (5, 0), (1, 256), (1, 16), (10, 256), (1, 0), (13, 256), (1, 0),
   (5, 256), (1, 0), (1, 256), (1, 0), (2, 256), (1, 0), (2, 256), (1, 0),
   (10, 256), (98, 1), (33, 0), (363, 1), (18, 0), (64, 1), (2, 0), (54, 1),
   (40, 0), (12, 1), (4, 0), (16, 16), (3, 0), (1, 2048), (12, 0), (16, 16),
   (3, 0), (2, 32), (24, 0), (3, 32), (1, 4096), (1, 0), (1, 8192), (1, 0),
   (1, 4096), (1, 2048), (26, 0), (5, 1), (1, 0), (135, 1), (2, 0), (1, 128),
   (7, 0), (1, 8192), (4, 0), (1, 4096), (1, 0), (1, 8192), (1, 0), (10, 32768),
   (1, 2048), (1, 4096), (5, 0), (26, 1), (4, 0), (1, 32), (1, 0), (26, 1),
   (11, 0), (56, 514), (2, 16), (31, 1), (3, 0), (6, 1), (2, 0), (6, 1),
   (2, 0), (6, 1), (2, 0), (3, 1), (28, 0), (3, 128), (4, 0), (12, 1),
   (1, 0), (26, 1), (1, 0), (19, 1), (1, 0), (2, 1), (1, 0), (15, 1),
   (2, 0), (14, 1), (34, 0), (123, 1), (69, 0), (53, 1), (136, 0), (1, 16),
   (130, 0), (29, 1), (3, 0), (49, 1), (15, 0), (1, 16), (31, 0), (32, 1),
   (13, 0), (30, 1), (5, 0), (38, 1), (5, 16), (5, 0), (30, 1), (2, 0),
   (36, 1), (4, 0), (8, 1), (1, 0), (5, 1), (42, 0), (158, 1), (2, 0),
   (10, 32768), (6, 0), (36, 1), (4, 0), (36, 1), (4, 0), (40, 1), (8, 0),
   (52, 1), (12, 0), (11, 1), (1, 0), (15, 1), (1, 0), (7, 1), (1, 0),
   (2, 1), (1, 0), (11, 1), (1, 0), (15, 1), (1, 0), (7, 1), (1, 0),
   (2, 1), (3, 0), (52, 1), (12, 0), (311, 1), (9, 0), (22, 1), (10, 0),
   (8, 1), (24, 0), (6, 1), (1, 0), (42, 1), (1, 0), (9, 1), (69, 0),
   (6, 1), (2, 0), (1, 1), (1, 0), (44, 1), (1, 0), (2, 1), (3, 0),
   (1, 1), (2, 0), (23, 1), (10, 0), (23, 1), (9, 0), (31, 1), (65, 0),
   (19, 1), (1, 0), (2, 1), (10, 0), (22, 1), (10, 0), (26, 1), (6, 0),
   (26, 1), (38, 0), (56, 1), (6, 0), (2, 1), (64, 0), (1, 1), (3, 16),
   (1, 0), (2, 16), (5, 0), (4, 16), (4, 1), (1, 0), (3, 1), (1, 0),
   (29, 1), (2, 0), (3, 16), (4, 0), (1, 16), (32, 0), (29, 1), (3, 0),
   (29, 1), (35, 0), (8, 1), (1, 0), (28, 1), (2, 16), (25, 0), (54, 1),
   (10, 0), (22, 1), (10, 0), (19, 1), (13, 0), (18, 1), (110, 0), (73, 1),
   (55, 0), (51, 1), (13, 0), (51, 1), (13, 0), (36, 1), (4, 16), (8, 0),
   (10, 32768), (6, 0), (10, 32768), (28, 1), (3, 0), (5, 16), (1, 0), (23, 1),
   (250, 0), (42, 1), (1, 0), (2, 16), (3, 0), (2, 1), (16, 0), (6, 1),
   (50, 0), (6, 16), (29, 1), (10, 0), (1, 1), (8, 0), (22, 1), (11, 16),
   (31, 0), (18, 1), (4, 16), (42, 0), (21, 1), (27, 0), (23, 1), (9, 0),
   (3, 16), (53, 1), (15, 16), (31, 0), (10, 32768), (1, 16), (2, 1), (2, 16),
   (1, 1), (9, 0), (4, 16), (45, 1), (11, 16), (2, 0), (1, 32768), (4, 0),
   (1, 16), (10, 0), (1, 32768), (2, 0), (25, 1), (7, 0), (10, 32768), (6, 0),
   (3, 16), (36, 1), (14, 16), (1, 0), (10, 32768), (4, 0), (1, 1), (2, 16),
   (1, 1), (8, 0), (35, 1), (1, 16), (2, 0), (1, 1), (9, 0), (3, 16),
   (48, 1), (14, 16), (4, 1), (4, 0), (4, 16), (1, 0), (2, 16), (10, 32768),
   (1, 1), (1, 0), (1, 1), (35, 0), (18, 1), (1, 0), (25, 1), (12, 16),
   (6, 0), (1, 16), (2, 1), (1, 16), (62, 0), (7, 1), (1, 0), (1, 1),
   (1, 0), (4, 1), (1, 0), (15, 1), (1, 0), (10, 1), (7, 0), (47, 1),
   (12, 16), (5, 0), (10, 32768), (6, 0), (4, 16), (1, 0), (8, 1), (2, 0),
   (2, 1), (2, 0), (22, 1), (1, 0), (7, 1), (1, 0), (2, 1), (1, 0),
   (5, 1), (1, 0), (2, 16), (1, 1), (7, 16), (2, 0), (2, 16), (2, 0),
   (3, 16), (2, 0), (1, 1), (6, 0), (1, 16), (5, 0), (5, 1), (2, 16),
   (2, 0), (7, 16), (3, 0), (5, 16), (11, 0), (10, 1), (1, 0), (1, 1),
   (2, 0), (1, 1), (1, 0), (38, 1), (1, 0), (1, 1), (9, 16), (1, 0),
   (1, 16), (2, 0), (1, 16), (1, 0), (4, 16), (1, 0), (5, 16), (1, 1),
   (1, 16), (1, 1), (13, 0), (2, 16), (29, 0), (53, 1), (18, 16), (4, 1),
   (5, 0), (10, 32768), (4, 0), (1, 16), (3, 1), (30, 0), (48, 1), (20, 16),
   (2, 1), (1, 0), (1, 1), (8, 0), (10, 32768), (166, 0), (47, 1), (7, 16),
   (2, 0), (9, 16), (23, 0), (4, 1), (2, 16), (34, 0), (48, 1), (17, 16),
   (3, 0), (1, 1), (11, 0), (10, 32768), (38, 0), (43, 1), (13, 16), (1, 1),
   (7, 0), (10, 32768), (6, 0), (20, 32768), (57, 0), (15, 16), (4, 0), (10, 32768),
   (198, 0), (44, 1), (15, 16), (101, 0), (64, 1), (10, 32768), (21, 0), (8, 1),
   (2, 0), (1, 1), (2, 0), (8, 1), (1, 0), (2, 1), (1, 0), (24, 1),
   (6, 16), (1, 0), (2, 16), (2, 0), (4, 16), (1, 1), (1, 16), (1, 1),
   (2, 16), (12, 0), (10, 32768), (70, 0), (8, 1), (2, 0), (39, 1), (7, 16),
   (2, 0), (7, 16), (1, 1), (1, 0), (1, 1), (1, 16), (27, 0), (1, 1),
   (10, 16), (40, 1), (7, 16), (1, 1), (4, 16), (8, 0), (1, 16), (8, 0),
   (1, 1), (11, 16), (46, 1), (16, 16), (3, 0), (1, 1), (18, 0), (73, 1),
   (103, 0), (8, 16), (88, 0), (33, 1), (15, 0), (10, 32768), (6, 0), (9, 1),
   (1, 0), (37, 1), (8, 16), (1, 0), (8, 16), (1, 1), (15, 0), (10, 32768),
   (24, 0), (30, 1), (2, 0), (22, 16), (1, 0), (14, 16), (73, 0), (7, 1),
   (1, 0), (2, 1), (1, 0), (38, 1), (6, 16), (3, 0), (1, 16), (1, 0),
   (2, 16), (1, 0), (7, 16), (1, 1), (1, 16), (8, 0), (10, 32768), (6, 0),
   (6, 1), (1, 0), (2, 1), (1, 0), (32, 1), (5, 16), (1, 0), (2, 16),
   (1, 0), (5, 16), (1, 1), (7, 0), (10, 32768), (6, 0), (44, 1), (4, 0),
   (10, 32768), (246, 0), (19, 1), (4, 16), (9, 0), (2, 16), (1, 1), (1, 16),
   (13, 1), (1, 0), (34, 1), (7, 16), (3, 0), (5, 16), (13, 0), (10, 32768),
   (1, 16), (85, 0), (1, 1), (79, 0), (922, 1), (102, 0), (111, 1), (17, 0),
   (196, 1), (2636, 0), (97, 1), (15, 0), (1072, 1), (16, 128), (1, 16), (6, 1),
   (15, 16), (10, 0), (3995, 1), (5, 0), (583, 1), (6841, 0), (30, 1), (18, 16),
   (10, 32768), (1734, 0), (569, 1), (7, 0), (31, 1), (1, 0), (10, 32768), (6, 0),
   (79, 1), (1, 0), (10, 32768), (6, 0), (30, 1), (2, 0), (5, 16), (11, 0),
   (48, 1), (7, 16), (9, 0), (4, 1), (12, 0), (10, 32768), (9, 0), (21, 1),
   (5, 0), (19, 1), (432, 0), (45, 1), (3, 0), (10, 32768), (198, 0), (64, 1),
   (32, 0), (25, 1), (2, 0), (25, 1), (44, 0), (75, 1), (4, 0), (1, 16),
   (1, 1), (55, 16), (7, 0), (4, 16), (13, 1), (64, 0), (2, 1), (1, 2),
   (1, 3), (1, 16), (11, 0), (2, 18), (16382, 0), (4, 514), (1, 0), (7, 514),
   (1, 0), (2, 514), (1, 0), (1, 514), (287, 2), (3, 514), (15, 0), (1, 2),
   (29, 0), (3, 2), (2, 0), (1, 514), (14, 0), (4, 514), (2712, 0), (107, 1),
   (5, 0), (13, 1), (3, 0), (9, 1), (7, 0), (10, 1), (3, 0), (2, 16),
   (1, 0), (4, 128), (4172, 0), (10, 32768), (518, 0), (46, 16), (2, 0), (23, 16),
   (542, 0), (5, 16), (3, 0), (6, 16), (8, 128), (8, 16), (2, 0), (7, 16),
   (30, 0), (4, 16), (148, 0), (3, 16), (443, 0), (85, 1), (1, 0), (71, 1),
   (1, 0), (2, 1), (2, 0), (1, 1), (2, 0), (2, 1), (2, 0), (4, 1),
   (1, 0), (12, 1), (1, 0), (1, 1), (1, 0), (7, 1), (1, 0), (65, 1),
   (1, 0), (4, 1), (2, 0), (8, 1), (1, 0), (7, 1), (1, 0), (28, 1),
   (1, 0), (4, 1), (1, 0), (5, 1), (1, 0), (1, 1), (3, 0), (7, 1),
   (1, 0), (340, 1), (2, 0), (25, 1), (1, 0), (25, 1), (1, 0), (31, 1),
   (1, 0), (25, 1), (1, 0), (31, 1), (1, 0), (25, 1), (1, 0), (31, 1),
   (1, 0), (25, 1), (1, 0), (31, 1), (1, 0), (25, 1), (1, 0), (8, 1),
   (2, 0), (50, 32768), (512, 0), (55, 16), (4, 0), (50, 16), (8, 0), (1, 16),
   (14, 0), (1, 16), (22, 0), (5, 16), (1, 0), (15, 16), (1104, 0), (31, 1),
   (6, 0), (6, 1), (213, 0), (7, 16), (1, 0), (17, 16), (2, 0), (7, 16),
   (1, 0), (2, 16), (1, 0), (5, 16), (5, 0), (62, 1), (33, 0), (1, 16),
   (112, 0), (45, 1), (3, 0), (7, 16), (7, 1), (2, 0), (10, 32768), (4, 0),
   (1, 1), (321, 0), (30, 1), (1, 16), (17, 0), (44, 1), (4, 16), (10, 32768),
   (470, 0), (28, 1), (4, 16), (10, 32768), (214, 0), (30, 1), (2, 16), (1, 1),
   (10, 32768), (197, 0), (31, 1), (1, 0), (3, 1), (1, 16), (2, 1), (1, 16),
   (7, 1), (2, 16), (5, 1), (1, 16), (8, 0), (2, 1), (224, 0), (7, 1),
   (1, 0), (4, 1), (1, 0), (2, 1), (1, 0), (15, 1), (1, 0), (197, 1),
   (11, 0), (7, 16), (41, 0), (68, 1), (7, 16), (1, 1), (4, 0), (10, 32768),
   (1190, 0), (4, 1), (1, 0), (27, 1), (1, 0), (2, 1), (1, 0), (1, 1),
   (2, 0), (1, 1), (1, 0), (10, 1), (1, 0), (4, 1), (1, 0), (1, 1),
   (1, 0), (1, 1), (6, 0), (1, 1), (4, 0), (1, 1), (1, 0), (1, 1),
   (1, 0), (1, 1), (1, 0), (3, 1), (1, 0), (2, 1), (1, 0), (1, 1),
   (2, 0), (1, 1), (1, 0), (1, 1), (1, 0), (1, 1), (1, 0), (1, 1),
   (1, 0), (1, 1), (1, 0), (2, 1), (1, 0), (1, 1), (2, 0), (4, 1),
   (1, 0), (7, 1), (1, 0), (4, 1), (1, 0), (4, 1), (1, 0), (1, 1),
   (1, 0), (10, 1), (1, 0), (17, 1), (5, 0), (3, 1), (1, 0), (5, 1),
   (1, 0), (17, 1), (328, 0), (1, 64), (39, 0), (4, 64), (100, 0), (12, 64),
   (15, 0), (2, 64), (15, 0), (1, 64), (14, 0), (2, 64), (37, 0), (10, 64),
   (48, 0), (26, 1), (6, 0), (26, 1), (6, 0), (2, 65), (12, 1), (2, 65),
   (10, 1), (4, 0), (1, 64), (2, 0), (10, 64), (19, 0), (56, 64), (26, 65536),
   (1, 2), (15, 64), (10, 0), (1, 64), (20, 0), (1, 64), (2, 0), (9, 64),
   (1, 0), (4, 64), (9, 0), (23, 64), (6, 0), (188, 64), (2, 0), (112, 64),
   (2, 0), (2, 64), (1, 0), (3, 64), (2, 0), (83, 64), (2, 0), (3, 64),
   (1, 0), (4, 64), (5, 16), (254, 64), (1, 0), (63, 64), (11, 0), (6, 64),
   (1, 0), (24, 64), (7, 0), (2, 64), (2, 0), (8, 64), (12, 0), (1, 64),
   (2, 0), (4, 64), (2, 0), (1, 64), (4, 0), (2, 64), (13, 0), (2, 64),
   (2, 0), (1, 64), (8, 0), (2, 64), (9, 0), (1, 64), (5, 0), (3, 64),
   (12, 0), (3, 64), (8, 0), (3, 64), (2, 0), (1, 64), (1, 0), (1, 64),
   (4, 0), (1, 64), (6, 0), (1, 64), (3, 0), (1, 64), (6, 0), (86, 64),
   (48, 0), (70, 64), (5, 0), (8, 64), (2, 0), (17, 64), (3, 0), (1, 64),
   (1, 0), (6, 64), (2, 0), (13, 64), (218, 0), (38, 64), (12, 0), (4, 64),
   (56, 0), (8, 64), (10, 0), (6, 64), (40, 0), (8, 64), (30, 0), (2, 64),
   (12, 0), (4, 64), (2, 0), (14, 64), (9, 0), (39, 64), (12, 0), (47, 64),
   (1, 0), (10, 64), (1, 0), (185, 64), (88, 0), (8, 64), (14, 0), (146, 64),
   (240, 0), (10, 32768), (6, 0), (1022, 64), (2, 0), (42720, 2), (32, 0), (4154, 2),
   (6, 0), (222, 2), (2, 0), (5762, 2), (14, 0), (7473, 2), (3103, 0), (542, 2),
   (1506, 0), (4939, 2), (5, 0), (4192, 2), (711761, 0), (1, 128), (30, 0), (96, 16),
   (128, 0), (240, 16), (196112, 0)]
end Uax29.Words
