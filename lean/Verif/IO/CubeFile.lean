import Verif.IO.Summit

/-!
# The tokens of tests/input/cube.summit

A mesh of the unit cube: 139 nodes and 368 tetrahedra.
-/

namespace Mito.Summit

/-- the coordinates of the nodes times `10 ^ 12`, tests/input/cube.summit:3-141 -/
def cubeNodes : List (Nat × Nat × Nat) := [
  (0, 0, 0), (1000000000000, 0, 0), (1000000000000, 0, 1000000000000), (0, 1000000000000, 0), (0, 1000000000000, 1000000000000),
  (0, 0, 1000000000000), (1000000000000, 1000000000000, 1000000000000), (1000000000000, 1000000000000, 0), (0, 750000000000, 0),
  (0, 500000000002, 0), (0, 250000000001, 0), (249999999999, 0, 0), (499999999999, 0, 0), (749999999999, 0, 0),
  (1000000000000, 249999999999, 0), (1000000000000, 499999999999, 0), (1000000000000, 749999999999, 0),
  (750000000000, 1000000000000, 0), (500000000002, 1000000000000, 0), (250000000001, 1000000000000, 0),
  (0, 750000000000, 1000000000000), (0, 500000000002, 1000000000000), (0, 250000000001, 1000000000000),
  (249999999999, 0, 1000000000000), (499999999999, 0, 1000000000000), (749999999999, 0, 1000000000000),
  (1000000000000, 249999999999, 1000000000000), (1000000000000, 499999999999, 1000000000000),
  (1000000000000, 749999999999, 1000000000000), (750000000000, 1000000000000, 1000000000000),
  (500000000002, 1000000000000, 1000000000000), (250000000001, 1000000000000, 1000000000000), (0, 1000000000000, 750000000000),
  (0, 1000000000000, 500000000002), (0, 1000000000000, 250000000001), (0, 0, 249999999999), (0, 0, 499999999999),
  (0, 0, 749999999999), (1000000000000, 0, 249999999999), (1000000000000, 0, 499999999999), (1000000000000, 0, 749999999999),
  (1000000000000, 1000000000000, 249999999999), (1000000000000, 1000000000000, 499999999999),
  (1000000000000, 1000000000000, 749999999999), (0, 213231216778, 635906787117), (0, 745513002090, 385399626665),
  (0, 624666258307, 788957678182), (0, 375631046045, 191949038540), (0, 378432823211, 802078995275),
  (0, 494349727301, 569190968586), (0, 614456022828, 188725843327), (0, 252118497534, 386007598428),
  (0, 783200993053, 628703893826), (0, 496413659159, 344254615109), (0, 821993804984, 164825093998),
  (0, 816987298109, 816987298109), (0, 183012701893, 183012701893), (0, 183012701893, 816987298107),
  (375631046045, 1000000000000, 808050961460), (213231216778, 1000000000000, 364093212884),
  (624666258307, 1000000000000, 211042321818), (745513002090, 1000000000000, 614600373336),
  (378432823211, 1000000000000, 197921004725), (494349727301, 1000000000000, 430809031415),
  (252118497534, 1000000000000, 613992401572), (614456022828, 1000000000000, 811274156673),
  (783200993053, 1000000000000, 371296106174), (496413659159, 1000000000000, 655745384891),
  (183012701893, 1000000000000, 816987298107), (821993804984, 1000000000000, 835174906002),
  (183012701893, 1000000000000, 183012701893), (816987298108, 1000000000000, 183012701891),
  (364093212884, 786768783223, 1000000000000), (211042321819, 375333741696, 1000000000000),
  (614600373336, 254486997911, 1000000000000), (808050961460, 624368953956, 1000000000000),
  (197921004726, 621567176791, 1000000000000), (430809031415, 505650272700, 1000000000000),
  (371296106174, 216799006948, 1000000000000), (613992401572, 747881502466, 1000000000000),
  (811274156674, 385543977173, 1000000000000), (655745384891, 503586340841, 1000000000000),
  (183012701893, 816987298107, 1000000000000), (816987298107, 816987298107, 1000000000000),
  (183012701893, 183012701893, 1000000000000), (835174906002, 178006195017, 1000000000000), (789075923896, 0, 615331216350),
  (225704774327, 0, 617091737888), (359190173416, 0, 197676559196), (788646048190, 0, 375472074119),
  (595241153545, 0, 496931736221), (605763142584, 0, 769540286487), (606970860836, 0, 223528435268),
  (194644534099, 0, 359023302628), (368793662599, 0, 818495493102), (431933933299, 0, 622631152927),
  (816987298107, 0, 816987298107), (183012701892, 0, 183012701892), (816987298108, 0, 183012701892),
  (181507932725, 0, 818492067275), (399959554960, 0, 406358816795), (1000000000000, 197676559196, 640809826583),
  (1000000000000, 617091737888, 774295225672), (1000000000000, 615331216350, 210924076104),
  (1000000000000, 375472074119, 211353951810), (1000000000000, 496931736221, 404758846454),
  (1000000000000, 769540286487, 394236857416), (1000000000000, 359023302628, 805355465900),
  (1000000000000, 223528435268, 393029139163), (1000000000000, 818495493103, 631206337399),
  (1000000000000, 622631152927, 568066066701), (1000000000000, 816987298107, 183012701893),
  (1000000000000, 183012701893, 816987298107), (1000000000000, 183012701892, 183012701892),
  (1000000000000, 818492067274, 818492067274), (1000000000000, 406358816796, 600040445040), (211042321819, 375333741696, 0),
  (808050961460, 624368953956, 0), (364093212884, 786768783223, 0), (614600373336, 254486997911, 0),
  (197921004726, 621567176791, 0), (430809031415, 505650272700, 0), (371296106174, 216799006948, 0),
  (613992401572, 747881502466, 0), (811274156674, 385543977173, 0), (655745384891, 503586340841, 0),
  (183012701893, 816987298107, 0), (816987298107, 816987298107, 0), (183012701893, 183012701893, 0),
  (835174906002, 178006195017, 0), (532788947458, 506161255234, 527684523505), (308858419666, 371153620465, 319544558952),
  (326751854287, 286733021248, 696833234907), (701190151461, 401981881772, 289258597895),
  (309938439304, 675066670535, 697381082788), (722543463565, 696833234908, 673248145712),
  (327844545629, 697788328138, 312832651231), (726309751331, 265617996654, 726778389153),
  (720299577689, 700702331444, 276124071971)]

/-- the nodes of the tetrahedra, tests/input/cube.summit:142-509 -/
def cubeCells : List (Nat × Nat × Nat × Nat) := [
  (90, 134, 91, 138), (101, 132, 91, 134), (90, 109, 134, 138), (91, 132, 131, 134), (96, 91, 101, 133), (68, 66, 59, 135),
  (93, 101, 91, 134), (90, 87, 109, 138), (111, 106, 116, 136), (93, 132, 101, 134), (76, 81, 82, 136), (90, 91, 87, 138),
  (91, 134, 131, 138), (108, 81, 103, 138), (68, 135, 131, 136), (76, 103, 81, 136), (96, 91, 133, 138), (64, 131, 68, 135),
  (131, 133, 91, 138), (66, 135, 68, 136), (89, 93, 123, 132), (78, 131, 82, 138), (68, 131, 64, 136), (81, 82, 136, 138),
  (101, 93, 89, 132), (81, 136, 103, 138), (106, 136, 111, 139), (120, 132, 93, 134), (49, 77, 74, 135), (94, 88, 101, 133),
  (94, 52, 88, 133), (102, 109, 87, 138), (116, 134, 109, 138), (49, 47, 77, 135), (78, 82, 131, 136), (106, 116, 131, 134),
  (64, 131, 135, 137), (91, 90, 93, 134), (78, 133, 131, 138), (66, 80, 135, 136), (106, 131, 116, 136), (131, 136, 82, 138),
  (49, 74, 133, 135), (120, 123, 93, 132), (50, 135, 132, 137), (131, 134, 116, 138), (94, 101, 132, 133), (117, 51, 48, 132),
  (50, 133, 132, 135), (94, 132, 52, 133), (131, 137, 64, 139), (106, 134, 131, 139), (64, 136, 131, 139), (103, 116, 108, 138),
  (90, 114, 99, 134), (122, 137, 134, 139), (106, 131, 136, 139), (54, 50, 132, 137), (132, 133, 131, 135), (61, 63, 124, 137),
  (78, 131, 135, 136), (132, 134, 122, 137), (117, 121, 51, 132), (116, 136, 131, 138), (114, 130, 99, 134), (109, 114, 90, 134),
  (75, 78, 82, 138), (102, 116, 109, 138), (122, 134, 126, 139), (103, 136, 116, 138), (132, 135, 131, 137), (78, 80, 82, 136),
  (121, 51, 132, 137), (90, 99, 93, 134), (65, 135, 53, 137), (61, 137, 124, 139), (52, 45, 88, 133), (131, 134, 132, 137),
  (78, 135, 80, 136), (75, 133, 78, 138), (48, 51, 54, 132), (134, 137, 131, 139), (96, 133, 92, 138), (78, 131, 133, 135),
  (99, 130, 120, 134), (129, 98, 89, 132), (118, 125, 104, 134), (119, 124, 63, 137), (49, 50, 47, 135), (49, 133, 50, 135),
  (95, 79, 92, 133), (51, 54, 132, 137), (129, 57, 98, 132), (64, 67, 62, 139), (107, 111, 136, 139), (54, 46, 50, 137),
  (64, 62, 136, 139), (64, 135, 65, 137), (105, 104, 125, 134), (94, 98, 57, 132), (61, 64, 137, 139), (65, 64, 68, 135),
  (78, 133, 74, 135), (96, 92, 91, 138), (125, 130, 114, 134), (106, 109, 116, 134), (52, 132, 50, 133), (122, 124, 137, 139),
  (78, 74, 77, 135), (93, 99, 120, 134), (61, 64, 63, 137), (114, 105, 125, 134), (88, 96, 101, 133), (62, 107, 110, 136),
  (129, 117, 48, 132), (52, 50, 45, 133), (75, 92, 133, 138), (94, 89, 98, 132), (57, 129, 48, 132), (120, 122, 132, 134),
  (129, 89, 123, 132), (95, 92, 96, 133), (10, 48, 117, 51), (107, 106, 111, 139), (122, 126, 124, 139), (103, 111, 116, 136),
  (75, 92, 79, 133), (70, 84, 66, 136), (104, 118, 16, 125), (111, 110, 107, 136), (71, 55, 127, 137), (68, 64, 62, 136),
  (103, 81, 28, 76), (94, 101, 89, 132), (118, 134, 104, 139), (51, 117, 10, 121), (105, 104, 16, 125), (123, 120, 122, 132),
  (57, 52, 94, 132), (121, 132, 122, 137), (40, 90, 87, 109), (117, 122, 121, 132), (55, 71, 60, 137), (73, 59, 31, 66),
  (40, 87, 102, 109), (126, 125, 118, 134), (49, 77, 22, 74), (22, 47, 77, 49), (108, 81, 28, 103), (52, 37, 94, 88),
  (49, 74, 85, 133), (73, 80, 78, 135), (83, 56, 69, 135), (49, 85, 58, 133), (19, 61, 63, 124), (64, 65, 60, 137),
  (122, 124, 119, 137), (109, 105, 114, 134), (77, 47, 56, 135), (59, 73, 69, 135), (79, 25, 95, 92), (77, 56, 83, 135),
  (84, 115, 76, 136), (120, 126, 122, 134), (80, 66, 84, 136), (79, 78, 75, 133), (115, 70, 110, 136), (70, 115, 84, 136),
  (53, 69, 56, 135), (54, 50, 52, 132), (37, 52, 45, 88), (125, 120, 130, 134), (85, 100, 58, 133), (76, 115, 103, 136),
  (123, 89, 13, 93), (83, 69, 73, 135), (55, 60, 46, 137), (126, 134, 118, 139), (51, 46, 54, 137), (51, 55, 46, 137),
  (71, 127, 119, 137), (19, 63, 119, 124), (119, 63, 71, 137), (100, 85, 95, 133), (76, 82, 80, 136), (60, 65, 34, 53),
  (105, 106, 104, 134), (49, 45, 50, 133), (104, 134, 106, 139), (31, 80, 73, 66), (100, 45, 58, 133), (34, 46, 60, 53),
  (129, 123, 117, 132), (65, 68, 59, 135), (61, 67, 64, 139), (69, 53, 65, 135), (48, 52, 57, 132), (61, 128, 72, 139),
  (88, 45, 100, 133), (105, 109, 106, 134), (25, 79, 75, 92), (70, 62, 110, 136), (92, 87, 91, 138), (118, 104, 112, 139),
  (97, 75, 86, 138), (108, 86, 81, 138), (66, 68, 62, 136), (120, 123, 13, 93), (85, 79, 95, 133), (118, 112, 128, 139),
  (59, 69, 65, 135), (104, 106, 107, 139), (121, 122, 119, 137), (14, 120, 99, 130), (75, 26, 97, 86), (47, 50, 53, 135),
  (123, 122, 117, 132), (78, 79, 74, 133), (114, 125, 15, 130), (61, 124, 128, 139), (81, 75, 82, 138), (80, 84, 76, 136),
  (75, 97, 92, 138), (67, 72, 112, 139), (49, 58, 45, 133), (125, 15, 105, 114), (70, 66, 62, 136), (121, 119, 127, 137),
  (87, 97, 102, 138), (107, 67, 112, 139), (86, 108, 113, 138), (72, 128, 112, 139), (121, 9, 51, 55), (75, 26, 92, 97),
  (63, 64, 60, 137), (73, 78, 77, 135), (99, 90, 39, 114), (14, 120, 93, 99), (104, 118, 112, 17), (97, 113, 102, 138),
  (48, 54, 52, 132), (56, 47, 53, 135), (90, 109, 39, 114), (48, 129, 11, 117), (63, 60, 71, 137), (57, 129, 11, 48),
  (118, 128, 112, 17), (47, 77, 56, 21), (49, 74, 23, 85), (9, 121, 127, 55), (83, 73, 77, 135), (95, 96, 88, 133),
  (66, 30, 84, 70), (77, 83, 56, 21), (85, 23, 49, 58), (97, 86, 113, 138), (84, 29, 76, 115), (95, 88, 100, 133),
  (60, 71, 55, 35), (87, 41, 102, 97), (29, 103, 76, 115), (74, 79, 85, 133), (18, 128, 72, 61), (86, 27, 108, 81),
  (125, 126, 120, 134), (124, 126, 118, 139), (110, 70, 115, 44), (110, 111, 103, 136), (12, 129, 98, 89), (113, 102, 41, 97),
  (61, 18, 128, 124), (103, 115, 110, 136), (67, 42, 107, 112), (55, 60, 35, 46), (42, 67, 72, 112), (85, 100, 95, 24),
  (102, 108, 116, 138), (100, 58, 45, 38), (38, 45, 100, 88), (44, 110, 70, 62), (80, 66, 30, 84), (107, 112, 104, 139),
  (113, 86, 27, 108), (69, 33, 53, 56), (72, 67, 61, 139), (75, 81, 86, 138), (109, 40, 90, 39), (12, 129, 89, 123),
  (33, 53, 65, 69), (102, 41, 87, 40), (25, 75, 26, 92), (16, 15, 105, 125), (16, 118, 104, 17), (24, 95, 85, 79),
  (113, 108, 102, 138), (11, 10, 48, 117), (92, 97, 87, 138), (94, 57, 36, 52), (28, 29, 103, 76), (57, 1, 129, 98),
  (112, 72, 8, 128), (56, 69, 5, 83), (100, 6, 85, 58), (18, 61, 19, 124), (2, 99, 114, 130), (3, 113, 97, 86), (55, 127, 4, 71),
  (36, 98, 57, 94), (120, 13, 14, 93), (115, 84, 7, 70), (128, 124, 118, 139), (22, 49, 74, 23), (21, 47, 77, 22),
  (66, 31, 80, 30), (65, 34, 53, 33), (36, 37, 94, 52), (42, 107, 43, 67), (51, 10, 9, 121), (37, 45, 38, 88), (60, 35, 46, 34),
  (27, 108, 81, 28), (62, 44, 110, 43), (73, 59, 32, 31), (89, 13, 12, 123), (1, 12, 129, 98), (127, 20, 4, 71), (83, 69, 5, 32),
  (129, 11, 1, 57), (5, 56, 83, 21), (6, 23, 85, 58), (113, 41, 3, 97), (8, 112, 128, 17), (100, 85, 6, 24), (20, 63, 119, 19),
  (84, 7, 29, 115), (58, 100, 6, 38), (99, 39, 2, 114), (4, 9, 127, 55), (86, 3, 113, 27), (114, 15, 2, 130), (72, 8, 42, 112),
  (24, 25, 95, 79), (128, 72, 8, 18), (98, 57, 1, 36), (69, 5, 33, 56), (4, 55, 71, 35), (97, 26, 3, 86), (99, 2, 14, 130),
  (70, 7, 115, 44), (84, 30, 7, 70), (132, 91, 133, 101), (132, 133, 91, 131), (73, 66, 135, 59), (135, 66, 73, 80),
  (53, 137, 50, 46), (50, 137, 53, 135), (139, 62, 107, 67), (139, 107, 62, 136), (121, 55, 137, 127), (137, 55, 121, 51),
  (62, 107, 43, 110), (62, 43, 107, 67), (60, 53, 137, 65), (137, 53, 60, 46), (73, 69, 32, 59), (73, 32, 69, 83),
  (71, 119, 20, 63), (71, 20, 119, 127)]

/-- the coordinates of a node -/
def cubeCoordinates (x : Nat × Nat × Nat) : List ℚ := [mkRat x.1 (10 ^ 12), mkRat x.2.1 (10 ^ 12), mkRat x.2.2 (10 ^ 12)]

/-- tests/input/cube.summit:1-509 -/
def cubeFile : List Token :=
  [.num 3, .num 139, .num 368, .num 1] ++ cubeNodes.flatMap (fun x => (cubeCoordinates x).map .num) ++
    cubeCells.flatMap fun c => [.num 4, .num c.1, .num c.2.1, .num c.2.2.1, .num c.2.2.2, .num 1]

end Mito.Summit
