import Verif.IO.Summit

/-!
# The tokens of tests/input/bottom_half_sphere.summit

A mesh of the lower half of the unit sphere: 177 nodes and 320 triangles.
-/

namespace Mito.Summit

/-- the coordinates of the nodes times `10 ^ 12`, plus `10 ^ 12`, tests/input/bottom_half_sphere.summit:3-179 -/
def halfSphereNodes : List (Nat × Nat × Nat) := [
  (1000000000000, 1000000000000, 1000000000000), (2000000000000, 1000000000000, 1000000000000), (0, 1000000000000, 1000000000000),
  (1000000000000, 2000000000000, 1000000000000), (1000000000000, 0, 1000000000000), (1000000000000, 1000000000000, 2000000000000),
  (1000000000000, 1000000000000, 0), (1974927912053, 1222520934522, 1000000000000), (1900968867356, 1433883740253, 1000000000000),
  (1781831481221, 1623489803422, 1000000000000), (1623489800234, 1781831483764, 1000000000000),
  (1433883737816, 1900968868529, 1000000000000), (1222520933244, 1974927912344, 1000000000000),
  (777479065478, 1974927912053, 1000000000000), (566116259747, 1900968867356, 1000000000000),
  (376510196578, 1781831481221, 1000000000000), (218168516236, 1623489800234, 1000000000000),
  (99031131471, 1433883737816, 1000000000000), (25072087656, 1222520933244, 1000000000000),
  (25072087947, 777479065478, 1000000000000), (99031132644, 566116259747, 1000000000000),
  (218168518779, 376510196578, 1000000000000), (376510199766, 218168516236, 1000000000000),
  (566116262184, 99031131471, 1000000000000), (777479066756, 25072087656, 1000000000000),
  (1222520934522, 25072087947, 1000000000000), (1433883740253, 99031132644, 1000000000000),
  (1623489803422, 218168518779, 1000000000000), (1781831483764, 376510199766, 1000000000000),
  (1900968868529, 566116262184, 1000000000000), (1974927912344, 777479066756, 1000000000000),
  (25072087947, 1000000000000, 777479065478), (99031132644, 1000000000000, 566116259747),
  (218168518779, 1000000000000, 376510196578), (376510199766, 1000000000000, 218168516236),
  (566116262184, 1000000000000, 99031131471), (777479066756, 1000000000000, 25072087656),
  (1222520934522, 1000000000000, 25072087947), (1433883740253, 1000000000000, 99031132644),
  (1623489803422, 1000000000000, 218168518779), (1781831483764, 1000000000000, 376510199766),
  (1900968868529, 1000000000000, 566116262184), (1974927912344, 1000000000000, 777479066756),
  (1000000000000, 25072087947, 777479065478), (1000000000000, 99031132644, 566116259747),
  (1000000000000, 218168518779, 376510196578), (1000000000000, 376510199766, 218168516236),
  (1000000000000, 566116262184, 99031131471), (1000000000000, 777479066756, 25072087656),
  (1000000000000, 1222520934522, 25072087947), (1000000000000, 1433883740253, 99031132644),
  (1000000000000, 1623489803422, 218168518779), (1000000000000, 1781831483764, 376510199766),
  (1000000000000, 1900968868529, 566116262184), (1000000000000, 1974927912344, 777479066756),
  (807458159905, 1683205991566, 295615720717), (307010290802, 1204203359362, 308576648520),
  (326161431255, 1721371483218, 840110142689), (70584602725, 1257164567817, 735323963367),
  (675854807360, 1925369316019, 803476405848), (824704336008, 1305412527489, 64054158491),
  (156040233056, 1229646231934, 515237666543), (295622862611, 1400377893742, 413868282272),
  (143419804488, 1471179702659, 789619258349), (444150491935, 1367677072519, 254449938148),
  (447891566111, 1552900921855, 375919197667), (610113451491, 1523296159634, 242273394551),
  (326202449652, 1576749042888, 538093729560), (482772812416, 1704609160012, 514199662359),
  (489074406333, 1836597869870, 802366394900), (807601421470, 1820325842856, 461438677101),
  (804850802401, 1495899171838, 153831694019), (479507006434, 1178808271632, 165066083068),
  (631232646697, 1344002504387, 136476453064), (819517529893, 1922894940982, 659866194132),
  (603859376234, 1827384238505, 601869458500), (609964017644, 1703467882823, 405857870283),
  (684374156044, 1164158858956, 65424055706), (190982530622, 1422935745045, 591813657988),
  (844779642997, 1976174980551, 848378602701), (409400202325, 1734618424698, 666042444192),
  (854389125375, 1144513100967, 21269476904), (25316686892, 1157377379113, 841176828853),
  (81732994763, 1143847218182, 631091224130), (72832691767, 1348998190779, 863761072458),
  (248524178962, 1608028518182, 743903511401), (806482599834, 306259770565, 306259767711),
  (169281561976, 478025007926, 806482599292), (303420188791, 806314530442, 309158118309),
  (476906591882, 170688606293, 803490716121), (671102858522, 813490684410, 74234940427),
  (73959044678, 806482599079, 675964254121), (806482599079, 73959044678, 675964254121),
  (304351826818, 310778401518, 797398896019), (416644679136, 282248706620, 619829445551),
  (607405183831, 158542164900, 628761502446), (593292953792, 302728487341, 409744278978),
  (386906520163, 440685886824, 442071592600), (515831614167, 468845097359, 304690397334),
  (808939340310, 481323938393, 166650753025), (794012378784, 171972866265, 478521174252),
  (463966895779, 795509778374, 180944287341), (602917137335, 594723997343, 176545956445),
  (165474860486, 813775129851, 481455798164), (150899690330, 625077742511, 627895223146),
  (400850335700, 616465868160, 297204688773), (260879276777, 440380515326, 625131237797),
  (75123714205, 666483576224, 817323643987), (663076686124, 76015869338, 819069055021), (821676868419, 664222300370, 75092330460),
  (24475070685, 836388175501, 853090901680), (837297458752, 23673843380, 857468884198), (848501033565, 844397587186, 23866836802),
  (256787634659, 617268564805, 451226796830), (667211011373, 414175343236, 261040623189),
  (1692565225637, 793805729241, 308742210933), (1533354471464, 175675494000, 810205067043),
  (1170187369756, 274387906022, 333274158107), (1830718439945, 478025010649, 806482600194),
  (1308000506882, 691999986506, 99849079627), (1193517400921, 73959044678, 675964254121),
  (1925781442497, 818561517123, 668324258260), (1501116464750, 777684032531, 163664003307),
  (1583549437477, 598137730766, 294325308243), (1199848037503, 531680509601, 139338849013),
  (1740740087580, 625202559119, 442477802270), (1623107511869, 445211230835, 448686613386),
  (1463439142296, 415134263032, 334300194450), (1495900616640, 306434758282, 477458294585),
  (1623833173597, 311689467971, 629782789409), (1189010847978, 164177364855, 484562882665),
  (1755068007420, 470306183291, 613610604815), (1832979406324, 810913037062, 480008241328),
  (1338541639831, 76021495584, 822086308908), (1392447980495, 174825367509, 593710191489),
  (1923188233912, 660791046466, 819277088868), (1698696637533, 308275236380, 817407940767),
  (1415023956855, 578329479436, 193805800490), (1853002277786, 640634356508, 621524837843),
  (1163611822757, 24475069992, 853090904342), (1976110618702, 839009501360, 854088659095),
  (1334156841591, 266866022553, 407670888499), (1184175041625, 815427963873, 34591942481),
  (1340642651449, 853748258070, 71251911444), (1140723856547, 667787332052, 67352403395),
  (1280115997098, 398543238910, 251812327882), (1693740232281, 1193517400145, 306259770551),
  (1169873481726, 1667685722210, 275197422353), (1689859359276, 1692025741332, 787410165450),
  (1257270545577, 1929427558142, 735469698249), (1927178891911, 1329658846992, 822055213635),
  (1326744707713, 1188347001888, 73844881857), (1484233342451, 1844015117498, 769442953926),
  (1580932959824, 1708793531598, 599839250108), (1213485897532, 1854705066055, 526816080562),
  (1744297290301, 1555633067292, 629468708228), (1623107509363, 1551313390146, 445211231529),
  (1757685932958, 1384606059609, 472752234799), (1461079750124, 1667523979448, 415348650145),
  (1487273290301, 1516891147319, 296161749844), (1187346915608, 1513994073892, 162915043012),
  (1535860504746, 1199770630985, 179667619529), (1835789412502, 1204024633824, 490264767999),
  (1832139237504, 1521517111154, 811415291768), (1398648621923, 1399936109653, 174693763240),
  (1927680355510, 1191256942800, 679328922678), (1596856196924, 1379270470179, 292952200595),
  (1178323133291, 1335777700603, 75092331143), (1407464648100, 1807514589798, 573511139874),
  (1850484921041, 1387427632189, 644225873765), (1976166322020, 1154300128795, 847386822298),
  (1151146213622, 1155979111587, 23872273288), (1332091669278, 1594340780685, 267556036539),
  (1157385335188, 1974684650349, 841192920052), (1368345548977, 1918243523374, 854568269176),
  (1142518861509, 1923953057847, 645036451155), (1274016943859, 1745392391425, 392295386488)]

/-- the nodes of the cells, counted from one, tests/input/bottom_half_sphere.summit:180-499 -/
def halfSphereCells : List (Nat × Nat × Nat) := [
  (58, 86, 17), (17, 86, 64), (34, 62, 57), (33, 62, 34), (17, 64, 18), (71, 77, 76), (61, 74, 72), (72, 74, 67), (62, 63, 57),
  (64, 79, 59), (59, 79, 62), (60, 76, 70), (76, 81, 70), (56, 72, 67), (67, 77, 56), (56, 77, 71), (76, 77, 69), (63, 65, 57),
  (69, 81, 76), (63, 66, 65), (63, 68, 66), (66, 67, 65), (68, 69, 66), (34, 57, 35), (52, 56, 53), (16, 58, 17), (14, 60, 15),
  (50, 61, 51), (16, 70, 58), (73, 78, 36), (74, 78, 73), (53, 71, 54), (33, 84, 62), (59, 85, 64), (56, 71, 53), (64, 85, 18),
  (52, 72, 56), (61, 72, 51), (15, 70, 16), (62, 84, 59), (65, 73, 57), (57, 73, 35), (51, 72, 52), (60, 70, 15), (54, 75, 55),
  (75, 76, 60), (35, 73, 36), (67, 74, 65), (66, 77, 67), (19, 85, 83), (4, 80, 14), (68, 81, 69), (68, 86, 81), (83, 84, 32),
  (83, 85, 59), (69, 77, 66), (71, 75, 54), (59, 84, 83), (62, 79, 63), (63, 79, 68), (65, 74, 73), (71, 76, 75), (55, 80, 4),
  (61, 78, 74), (18, 85, 19), (32, 84, 33), (36, 78, 37), (7, 82, 50), (14, 80, 60), (37, 82, 7), (81, 86, 58), (50, 82, 61),
  (19, 83, 3), (3, 83, 32), (79, 86, 68), (70, 81, 58), (75, 80, 55), (64, 86, 79), (60, 80, 75), (61, 82, 78), (78, 82, 37),
  (107, 114, 98), (105, 114, 107), (87, 101, 97), (103, 106, 102), (97, 101, 96), (97, 115, 87), (102, 106, 89), (103, 110, 100),
  (99, 106, 103), (88, 108, 105), (100, 115, 103), (96, 101, 93), (98, 114, 106), (91, 110, 103), (105, 107, 88), (99, 115, 97),
  (105, 108, 92), (94, 95, 90), (46, 87, 47), (21, 88, 22), (93, 101, 45), (87, 100, 47), (44, 93, 45), (35, 89, 34),
  (33, 92, 32), (23, 90, 24), (37, 91, 36), (98, 99, 97), (95, 98, 97), (95, 97, 96), (95, 96, 90), (89, 104, 34), (23, 94, 90),
  (45, 101, 46), (47, 100, 48), (103, 115, 99), (91, 103, 102), (94, 107, 95), (22, 94, 23), (46, 101, 87), (34, 104, 33),
  (35, 102, 89), (91, 102, 36), (104, 105, 92), (95, 107, 98), (88, 94, 22), (33, 104, 92), (36, 102, 35), (93, 109, 96),
  (98, 106, 99), (24, 109, 25), (20, 108, 21), (96, 109, 90), (48, 110, 49), (5, 112, 44), (7, 113, 37), (90, 109, 24),
  (21, 108, 88), (32, 111, 3), (88, 107, 94), (100, 110, 48), (49, 113, 7), (25, 112, 5), (3, 111, 20), (89, 114, 104),
  (106, 114, 89), (44, 112, 93), (37, 113, 91), (92, 111, 32), (104, 114, 105), (20, 111, 108), (87, 115, 100), (109, 112, 25),
  (108, 111, 92), (93, 112, 109), (110, 113, 49), (91, 113, 110), (47, 146, 118), (125, 146, 47), (116, 123, 40), (40, 123, 39),
  (48, 125, 47), (117, 135, 130), (119, 137, 132), (132, 137, 130), (130, 135, 129), (116, 124, 123), (120, 138, 125),
  (123, 138, 120), (119, 139, 136), (132, 139, 119), (131, 142, 135), (131, 135, 121), (130, 137, 117), (116, 126, 124),
  (126, 127, 124), (127, 128, 124), (127, 129, 128), (127, 130, 129), (27, 117, 28), (41, 116, 40), (47, 118, 46), (45, 121, 44),
  (43, 122, 42), (29, 119, 30), (135, 142, 129), (118, 131, 46), (126, 132, 127), (48, 145, 125), (120, 144, 123), (123, 144, 39),
  (46, 131, 45), (125, 145, 120), (116, 133, 126), (127, 132, 130), (41, 133, 116), (122, 133, 42), (45, 131, 121), (30, 136, 31),
  (26, 134, 27), (117, 137, 28), (29, 137, 119), (42, 133, 41), (38, 144, 143), (129, 142, 128), (121, 135, 134), (2, 141, 43),
  (143, 145, 49), (142, 146, 128), (143, 144, 120), (119, 136, 30), (27, 134, 117), (28, 137, 29), (44, 140, 5), (120, 145, 143),
  (124, 138, 123), (136, 139, 122), (134, 135, 117), (128, 138, 124), (31, 141, 2), (5, 140, 26), (39, 144, 38), (122, 139, 133),
  (49, 145, 48), (43, 141, 122), (133, 139, 126), (126, 139, 132), (121, 140, 44), (128, 146, 138), (38, 143, 7), (7, 143, 49),
  (118, 142, 131), (118, 146, 142), (138, 146, 125), (26, 140, 134), (136, 141, 31), (134, 140, 121), (122, 141, 136),
  (53, 177, 148), (155, 177, 53), (149, 153, 11), (11, 153, 12), (54, 155, 53), (165, 167, 162), (163, 170, 166), (149, 154, 153),
  (165, 168, 161), (161, 173, 165), (150, 169, 155), (158, 170, 163), (153, 169, 150), (162, 167, 147), (158, 163, 147),
  (147, 167, 158), (160, 167, 165), (165, 173, 160), (149, 156, 154), (156, 157, 154), (152, 168, 165), (156, 158, 157),
  (157, 159, 154), (157, 160, 159), (10, 149, 11), (40, 147, 41), (8, 151, 9), (53, 148, 52), (38, 152, 39), (148, 161, 52),
  (52, 161, 51), (54, 176, 155), (150, 175, 153), (153, 175, 12), (147, 163, 41), (40, 162, 147), (152, 162, 39), (155, 176, 150),
  (149, 164, 156), (151, 164, 9), (10, 164, 149), (41, 163, 42), (39, 162, 40), (42, 166, 43), (51, 168, 50), (9, 164, 10),
  (158, 167, 157), (13, 175, 174), (2, 171, 8), (7, 172, 38), (174, 176, 55), (174, 175, 150), (160, 173, 159), (152, 165, 162),
  (157, 167, 160), (150, 176, 174), (161, 168, 51), (154, 169, 153), (173, 177, 159), (166, 170, 151), (163, 166, 42),
  (50, 172, 7), (159, 169, 154), (43, 171, 2), (151, 170, 164), (12, 175, 13), (156, 170, 158), (55, 176, 54), (164, 170, 156),
  (8, 171, 151), (38, 172, 152), (159, 177, 169), (13, 174, 4), (4, 174, 55), (148, 173, 161), (169, 177, 155), (148, 177, 173),
  (166, 171, 43), (151, 171, 166), (168, 172, 50), (152, 172, 168)]

/-- the coordinates of a node -/
def halfSphereCoordinates (x : Nat × Nat × Nat) : List ℚ :=
  [mkRat (x.1 - 10 ^ 12) (10 ^ 12), mkRat (x.2.1 - 10 ^ 12) (10 ^ 12), mkRat (x.2.2 - 10 ^ 12) (10 ^ 12)]

/-- tests/input/bottom_half_sphere.summit:1-499 -/
def halfSphereFile : List Token :=
  [.num 3, .num 177, .num 320, .num 1] ++ halfSphereNodes.flatMap (fun x => (halfSphereCoordinates x).map .num) ++
    halfSphereCells.flatMap fun c => [.num 3, .num c.1, .num c.2.1, .num c.2.2, .num 1]

end Mito.Summit
