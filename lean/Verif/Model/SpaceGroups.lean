import Verif.Model.Python

/-!
# Space-group tables: `src/wulfric/constants/_space_groups.py` and `_bravais_lattices.py`

Generated from the source, entry by entry.
-/

namespace Wulfric

/-- `INVERSION_SYMMETRY`: `src/wulfric/constants/_space_groups.py` L27-258. -/
def inversionSymmetry : PyDict ℤ Bool := [
  (1, false), (2, true), (3, false), (4, false), (5, false), (6, false), (7, false), (8, false),
  (9, false), (10, true), (11, true), (12, true), (13, true), (14, true), (15, true),
  (16, false), (17, false), (18, false), (19, false), (20, false), (21, false), (22, false),
  (23, false), (24, false), (25, false), (26, false), (27, false), (28, false), (29, false),
  (30, false), (31, false), (32, false), (33, false), (34, false), (35, false), (36, false),
  (37, false), (38, false), (39, false), (40, false), (41, false), (42, false), (43, false),
  (44, false), (45, false), (46, false), (47, true), (48, true), (49, true), (50, true),
  (51, true), (52, true), (53, true), (54, true), (55, true), (56, true), (57, true), (58, true),
  (59, true), (60, true), (61, true), (62, true), (63, true), (64, true), (65, true), (66, true),
  (67, true), (68, true), (69, true), (70, true), (71, true), (72, true), (73, true), (74, true),
  (75, false), (76, false), (77, false), (78, false), (79, false), (80, false), (81, false),
  (82, false), (83, true), (84, true), (85, true), (86, true), (87, true), (88, true),
  (89, false), (90, false), (91, false), (92, false), (93, false), (94, false), (95, false),
  (96, false), (97, false), (98, false), (99, false), (100, false), (101, false), (102, false),
  (103, false), (104, false), (105, false), (106, false), (107, false), (108, false),
  (109, false), (110, false), (111, false), (112, false), (113, false), (114, false),
  (115, false), (116, false), (117, false), (118, false), (119, false), (120, false),
  (121, false), (122, false), (123, true), (124, true), (125, true), (126, true), (127, true),
  (128, true), (129, true), (130, true), (131, true), (132, true), (133, true), (134, true),
  (135, true), (136, true), (137, true), (138, true), (139, true), (140, true), (141, true),
  (142, true), (143, false), (144, false), (145, false), (146, false), (147, true), (148, true),
  (149, false), (150, false), (151, false), (152, false), (153, false), (154, false),
  (155, false), (156, false), (157, false), (158, false), (159, false), (160, false),
  (161, false), (162, true), (163, true), (164, true), (165, true), (166, true), (167, true),
  (168, false), (169, false), (170, false), (171, false), (172, false), (173, false),
  (174, false), (175, true), (176, true), (177, false), (178, false), (179, false), (180, false),
  (181, false), (182, false), (183, false), (184, false), (185, false), (186, false),
  (187, false), (188, false), (189, false), (190, false), (191, true), (192, true), (193, true),
  (194, true), (195, false), (196, false), (197, false), (198, false), (199, false), (200, true),
  (201, true), (202, true), (203, true), (204, true), (205, true), (206, true), (207, false),
  (208, false), (209, false), (210, false), (211, false), (212, false), (213, false),
  (214, false), (215, false), (216, false), (217, false), (218, false), (219, false),
  (220, false), (221, true), (222, true), (223, true), (224, true), (225, true), (226, true),
  (227, true), (228, true), (229, true), (230, true)]

/-- `CRYSTAL_FAMILY`: `src/wulfric/constants/_space_groups.py` L261-492. -/
def crystalFamily : PyDict ℤ String := [
  (1, "a"), (2, "a"), (3, "m"), (4, "m"), (5, "m"), (6, "m"), (7, "m"), (8, "m"), (9, "m"),
  (10, "m"), (11, "m"), (12, "m"), (13, "m"), (14, "m"), (15, "m"), (16, "o"), (17, "o"),
  (18, "o"), (19, "o"), (20, "o"), (21, "o"), (22, "o"), (23, "o"), (24, "o"), (25, "o"),
  (26, "o"), (27, "o"), (28, "o"), (29, "o"), (30, "o"), (31, "o"), (32, "o"), (33, "o"),
  (34, "o"), (35, "o"), (36, "o"), (37, "o"), (38, "o"), (39, "o"), (40, "o"), (41, "o"),
  (42, "o"), (43, "o"), (44, "o"), (45, "o"), (46, "o"), (47, "o"), (48, "o"), (49, "o"),
  (50, "o"), (51, "o"), (52, "o"), (53, "o"), (54, "o"), (55, "o"), (56, "o"), (57, "o"),
  (58, "o"), (59, "o"), (60, "o"), (61, "o"), (62, "o"), (63, "o"), (64, "o"), (65, "o"),
  (66, "o"), (67, "o"), (68, "o"), (69, "o"), (70, "o"), (71, "o"), (72, "o"), (73, "o"),
  (74, "o"), (75, "t"), (76, "t"), (77, "t"), (78, "t"), (79, "t"), (80, "t"), (81, "t"),
  (82, "t"), (83, "t"), (84, "t"), (85, "t"), (86, "t"), (87, "t"), (88, "t"), (89, "t"),
  (90, "t"), (91, "t"), (92, "t"), (93, "t"), (94, "t"), (95, "t"), (96, "t"), (97, "t"),
  (98, "t"), (99, "t"), (100, "t"), (101, "t"), (102, "t"), (103, "t"), (104, "t"), (105, "t"),
  (106, "t"), (107, "t"), (108, "t"), (109, "t"), (110, "t"), (111, "t"), (112, "t"), (113, "t"),
  (114, "t"), (115, "t"), (116, "t"), (117, "t"), (118, "t"), (119, "t"), (120, "t"), (121, "t"),
  (122, "t"), (123, "t"), (124, "t"), (125, "t"), (126, "t"), (127, "t"), (128, "t"), (129, "t"),
  (130, "t"), (131, "t"), (132, "t"), (133, "t"), (134, "t"), (135, "t"), (136, "t"), (137, "t"),
  (138, "t"), (139, "t"), (140, "t"), (141, "t"), (142, "t"), (143, "h"), (144, "h"), (145, "h"),
  (146, "h"), (147, "h"), (148, "h"), (149, "h"), (150, "h"), (151, "h"), (152, "h"), (153, "h"),
  (154, "h"), (155, "h"), (156, "h"), (157, "h"), (158, "h"), (159, "h"), (160, "h"), (161, "h"),
  (162, "h"), (163, "h"), (164, "h"), (165, "h"), (166, "h"), (167, "h"), (168, "h"), (169, "h"),
  (170, "h"), (171, "h"), (172, "h"), (173, "h"), (174, "h"), (175, "h"), (176, "h"), (177, "h"),
  (178, "h"), (179, "h"), (180, "h"), (181, "h"), (182, "h"), (183, "h"), (184, "h"), (185, "h"),
  (186, "h"), (187, "h"), (188, "h"), (189, "h"), (190, "h"), (191, "h"), (192, "h"), (193, "h"),
  (194, "h"), (195, "c"), (196, "c"), (197, "c"), (198, "c"), (199, "c"), (200, "c"), (201, "c"),
  (202, "c"), (203, "c"), (204, "c"), (205, "c"), (206, "c"), (207, "c"), (208, "c"), (209, "c"),
  (210, "c"), (211, "c"), (212, "c"), (213, "c"), (214, "c"), (215, "c"), (216, "c"), (217, "c"),
  (218, "c"), (219, "c"), (220, "c"), (221, "c"), (222, "c"), (223, "c"), (224, "c"), (225, "c"),
  (226, "c"), (227, "c"), (228, "c"), (229, "c"), (230, "c")]

/-- `CENTRING_TYPE`: `src/wulfric/constants/_space_groups.py` L496-727. -/
def centringType : PyDict ℤ String := [
  (1, "P"), (2, "P"), (3, "P"), (4, "P"), (5, "C"), (6, "P"), (7, "P"), (8, "C"), (9, "C"),
  (10, "P"), (11, "P"), (12, "C"), (13, "P"), (14, "P"), (15, "C"), (16, "P"), (17, "P"),
  (18, "P"), (19, "P"), (20, "C"), (21, "C"), (22, "F"), (23, "I"), (24, "I"), (25, "P"),
  (26, "P"), (27, "P"), (28, "P"), (29, "P"), (30, "P"), (31, "P"), (32, "P"), (33, "P"),
  (34, "P"), (35, "C"), (36, "C"), (37, "C"), (38, "A"), (39, "A"), (40, "A"), (41, "A"),
  (42, "F"), (43, "F"), (44, "I"), (45, "I"), (46, "I"), (47, "P"), (48, "P"), (49, "P"),
  (50, "P"), (51, "P"), (52, "P"), (53, "P"), (54, "P"), (55, "P"), (56, "P"), (57, "P"),
  (58, "P"), (59, "P"), (60, "P"), (61, "P"), (62, "P"), (63, "C"), (64, "C"), (65, "C"),
  (66, "C"), (67, "C"), (68, "C"), (69, "F"), (70, "F"), (71, "I"), (72, "I"), (73, "I"),
  (74, "I"), (75, "P"), (76, "P"), (77, "P"), (78, "P"), (79, "I"), (80, "I"), (81, "P"),
  (82, "I"), (83, "P"), (84, "P"), (85, "P"), (86, "P"), (87, "I"), (88, "I"), (89, "P"),
  (90, "P"), (91, "P"), (92, "P"), (93, "P"), (94, "P"), (95, "P"), (96, "P"), (97, "I"),
  (98, "I"), (99, "P"), (100, "P"), (101, "P"), (102, "P"), (103, "P"), (104, "P"), (105, "P"),
  (106, "P"), (107, "I"), (108, "I"), (109, "I"), (110, "I"), (111, "P"), (112, "P"), (113, "P"),
  (114, "P"), (115, "P"), (116, "P"), (117, "P"), (118, "P"), (119, "I"), (120, "I"), (121, "I"),
  (122, "I"), (123, "P"), (124, "P"), (125, "P"), (126, "P"), (127, "P"), (128, "P"), (129, "P"),
  (130, "P"), (131, "P"), (132, "P"), (133, "P"), (134, "P"), (135, "P"), (136, "P"), (137, "P"),
  (138, "P"), (139, "I"), (140, "I"), (141, "I"), (142, "I"), (143, "P"), (144, "P"), (145, "P"),
  (146, "R"), (147, "P"), (148, "R"), (149, "P"), (150, "P"), (151, "P"), (152, "P"), (153, "P"),
  (154, "P"), (155, "R"), (156, "P"), (157, "P"), (158, "P"), (159, "P"), (160, "R"), (161, "R"),
  (162, "P"), (163, "P"), (164, "P"), (165, "P"), (166, "R"), (167, "R"), (168, "P"), (169, "P"),
  (170, "P"), (171, "P"), (172, "P"), (173, "P"), (174, "P"), (175, "P"), (176, "P"), (177, "P"),
  (178, "P"), (179, "P"), (180, "P"), (181, "P"), (182, "P"), (183, "P"), (184, "P"), (185, "P"),
  (186, "P"), (187, "P"), (188, "P"), (189, "P"), (190, "P"), (191, "P"), (192, "P"), (193, "P"),
  (194, "P"), (195, "P"), (196, "F"), (197, "I"), (198, "P"), (199, "I"), (200, "P"), (201, "P"),
  (202, "F"), (203, "F"), (204, "I"), (205, "P"), (206, "I"), (207, "P"), (208, "P"), (209, "F"),
  (210, "F"), (211, "I"), (212, "P"), (213, "P"), (214, "I"), (215, "P"), (216, "F"), (217, "I"),
  (218, "P"), (219, "F"), (220, "I"), (221, "P"), (222, "P"), (223, "P"), (224, "P"), (225, "F"),
  (226, "F"), (227, "F"), (228, "F"), (229, "I"), (230, "I")]

/-- `BRAVAIS_LATTICES`: `src/wulfric/constants/_bravais_lattices.py` L25-41. -/
def bravaisLattices : List String := [
  "cP", "cF", "cI", "tP", "tI", "oP", "oF", "oI", "oA", "oC", "hP", "hR", "mP", "mC", "aP"]

end Wulfric
