import Verif.IO.Summit

/-!
# The tokens of tests/input/sphere.summit

A mesh of the unit sphere: 319 nodes, the first of which is in no triangle, and 632 triangles.
-/

namespace Mito.Summit

/-- the coordinates of the nodes times `10 ^ 12`, plus `10 ^ 12`, tests/input/sphere.summit:3-321 -/
def sphereNodes : List (Nat × Nat × Nat) := [
  (1000000000000, 1000000000000, 1000000000000), (2000000000000, 1000000000000, 1000000000000), (0, 1000000000000, 1000000000000),
  (1000000000000, 2000000000000, 1000000000000), (1000000000000, 0, 1000000000000), (1000000000000, 1000000000000, 2000000000000),
  (1000000000000, 1000000000000, 0), (1974927912053, 1222520934522, 1000000000000), (1900968867356, 1433883740253, 1000000000000),
  (1781831481221, 1623489803422, 1000000000000), (1623489800234, 1781831483764, 1000000000000),
  (1433883737816, 1900968868529, 1000000000000), (1222520933244, 1974927912344, 1000000000000),
  (777479065478, 1974927912053, 1000000000000), (566116259747, 1900968867356, 1000000000000),
  (376510196578, 1781831481221, 1000000000000), (218168516236, 1623489800234, 1000000000000),
  (99031131471, 1433883737816, 1000000000000), (25072087656, 1222520933244, 1000000000000),
  (25072087947, 777479065478, 1000000000000), (99031132644, 566116259747, 1000000000000),
  (218168518779, 376510196578, 1000000000000), (376510199766, 218168516236, 1000000000000),
  (566116262184, 99031131471, 1000000000000), (777479066756, 25072087656, 1000000000000),
  (1222520934522, 25072087947, 1000000000000), (1433883740253, 99031132644, 1000000000000),
  (1623489803422, 218168518779, 1000000000000), (1781831483764, 376510199766, 1000000000000),
  (1900968868529, 566116262184, 1000000000000), (1974927912344, 777479066756, 1000000000000),
  (1974927912053, 1000000000000, 1222520934522), (1900968867356, 1000000000000, 1433883740253),
  (1781831481221, 1000000000000, 1623489803422), (1623489800234, 1000000000000, 1781831483764),
  (1433883737816, 1000000000000, 1900968868529), (1222520933244, 1000000000000, 1974927912344),
  (777479065478, 1000000000000, 1974927912053), (566116259747, 1000000000000, 1900968867356),
  (376510196578, 1000000000000, 1781831481221), (218168516236, 1000000000000, 1623489800234),
  (99031131471, 1000000000000, 1433883737816), (25072087656, 1000000000000, 1222520933244),
  (25072087947, 1000000000000, 777479065478), (99031132644, 1000000000000, 566116259747),
  (218168518779, 1000000000000, 376510196578), (376510199766, 1000000000000, 218168516236),
  (566116262184, 1000000000000, 99031131471), (777479066756, 1000000000000, 25072087656),
  (1222520934522, 1000000000000, 25072087947), (1433883740253, 1000000000000, 99031132644),
  (1623489803422, 1000000000000, 218168518779), (1781831483764, 1000000000000, 376510199766),
  (1900968868529, 1000000000000, 566116262184), (1974927912344, 1000000000000, 777479066756),
  (1000000000000, 1974927912053, 1222520934522), (1000000000000, 1900968867356, 1433883740253),
  (1000000000000, 1781831481221, 1623489803422), (1000000000000, 1623489800234, 1781831483764),
  (1000000000000, 1433883737816, 1900968868529), (1000000000000, 1222520933244, 1974927912344),
  (1000000000000, 777479065478, 1974927912053), (1000000000000, 566116259747, 1900968867356),
  (1000000000000, 376510196578, 1781831481221), (1000000000000, 218168516236, 1623489800234),
  (1000000000000, 99031131471, 1433883737816), (1000000000000, 25072087656, 1222520933244),
  (1000000000000, 25072087947, 777479065478), (1000000000000, 99031132644, 566116259747),
  (1000000000000, 218168518779, 376510196578), (1000000000000, 376510199766, 218168516236),
  (1000000000000, 566116262184, 99031131471), (1000000000000, 777479066756, 25072087656),
  (1000000000000, 1222520934522, 25072087947), (1000000000000, 1433883740253, 99031132644),
  (1000000000000, 1623489803422, 218168518779), (1000000000000, 1781831483764, 376510199766),
  (1000000000000, 1900968868529, 566116262184), (1000000000000, 1974927912344, 777479066756),
  (807458159905, 1683205991566, 295615720717), (307010290802, 1204203359362, 308576648520),
  (326161431255, 1721371483218, 840110142689), (70584602725, 1257164567817, 735323963367),
  (675854807360, 1925369316019, 803476405848), (824704336008, 1305412527489, 64054158491),
  (156040233056, 1229646231934, 515237666543), (295622862611, 1400377893742, 413868282272),
  (143419804488, 1471179702659, 789619258349), (444150491935, 1367677072519, 254449938148),
  (447891566111, 1552900921855, 375919197667), (610113451491, 1523296159634, 242273394551),
  (326202449652, 1576749042888, 538093729560), (482772812416, 1704609160012, 514199662359),
  (489074406333, 1836597869870, 802366394900), (807601421470, 1820325842856, 461438677101),
  (804850802401, 1495899171838, 153831694019), (479507006434, 1178808271632, 165066083068),
  (631232646697, 1344002504387, 136476453064), (819517529893, 1922894940982, 659866194132),
  (603859376234, 1827384238505, 601869458500), (609964017644, 1703467882823, 405857870283),
  (684374156044, 1164158858956, 65424055706), (190982530622, 1422935745045, 591813657988),
  (844779642997, 1976174980551, 848378602701), (409400202325, 1734618424698, 666042444192),
  (854389125375, 1144513100967, 21269476904), (25316686892, 1157377379113, 841176828853),
  (81732994763, 1143847218182, 631091224130), (72832691767, 1348998190779, 863761072458),
  (248524178962, 1608028518182, 743903511401), (306259767711, 1193517400166, 1693740229435),
  (806482599292, 1830718438024, 1521974992074), (309158118159, 1696579811091, 1193685469447),
  (803490716100, 1523093408054, 1829311393743), (74234940536, 1328897141422, 1186509316230),
  (675964254121, 1926040955322, 1193517400921), (675964254121, 1193517400921, 1926040955322),
  (797398895950, 1695648172714, 1689221598934), (619829445750, 1583355320847, 1717751293499),
  (628761502119, 1392594815860, 1841457835100), (409744278511, 1406707045504, 1697271512674),
  (442071592413, 1613093479281, 1559314113598), (304690396419, 1484168385964, 1531154901324),
  (166650753025, 1191060659690, 1518676061607), (478521174452, 1205987620548, 1828027134028),
  (180944287269, 1536033104172, 1204490221463), (176545956303, 1397082862753, 1405276002283),
  (481455798452, 1834525139736, 1186224869957), (627895222929, 1849100309707, 1374922257190),
  (297204688387, 1599149664230, 1383534131242), (625131237583, 1739120723395, 1559619484303),
  (817323644180, 1924876285808, 1333516423846), (819069054945, 1336923314070, 1923984130577),
  (75092330460, 1178323131581, 1335777699630), (853090902557, 1975524929421, 1163611824653),
  (857468884120, 1162702541008, 1976326156648), (23866836718, 1151498966079, 1155602412638),
  (451226797043, 1743212365861, 1382731434492), (261040622524, 1332788988599, 1585824655940),
  (309756777654, 301595570851, 1189197112425), (476362740116, 802623235741, 1828761988144),
  (806482599852, 306259767720, 1693740229449), (169281560055, 806482600194, 1521974989351),
  (671233687326, 74416000852, 1187635210376), (806482599079, 675964254121, 1926040955322),
  (73959044678, 675964254121, 1193517400921), (304344267525, 798774593953, 1689616877575),
  (413078646233, 625443326608, 1717795669330), (605181266182, 630073442611, 1840994952164),
  (587714321210, 412574199516, 1696384554676), (378565758393, 454848911456, 1562698652938),
  (515691558433, 298041436253, 1522206384689), (792772774914, 478964041786, 1827996622838),
  (173472845298, 471170502838, 1192852859640), (167509816327, 594173840696, 1377180623193),
  (476028365142, 169516111067, 1189077328326), (613568841612, 167086127757, 1396138159298),
  (812036685991, 169249402736, 1523949651906), (260126919562, 626306583929, 1559411347426),
  (276584432088, 425741661890, 1383271805921), (817731878502, 74133412088, 1330982466716),
  (662719569110, 819435490623, 1923925521291), (76811766518, 819277089778, 1339208955190),
  (415581473201, 269325643998, 1352944713822), (847812735314, 23944955080, 1155420673509),
  (837237604282, 857517913037, 1976323336521), (24475069850, 853090903341, 1163611821009),
  (669795285359, 259351684659, 1585153757068), (793805729654, 307434776994, 308742208175),
  (175675493994, 466645528829, 810205066243), (274387906930, 829812631459, 333274156808),
  (478025010649, 169281560055, 806482600194), (691999987376, 691999494696, 99849078790),
  (73959044678, 806482599079, 675964254121), (818561517445, 74218558508, 668324255278),
  (777684032791, 498883537891, 163664001655), (598137731761, 416450565624, 294325305112),
  (531680510676, 800151963239, 139338848256), (625202560074, 259259915576, 442477797435),
  (445211231647, 376892490644, 448686609728), (415134264832, 536560859796, 334300191413),
  (306434759165, 504099385284, 477458291588), (311689468544, 376166827885, 629782785846),
  (164177365049, 810989152164, 484562882300), (470306183172, 244931994570, 613610601091),
  (810913037337, 167020595906, 480008237656), (76021495455, 661458360371, 822086309194),
  (174825367820, 607552021389, 593710189039), (660791047143, 76811765912, 819277088496),
  (308275236693, 301303362861, 817407938071), (578329481863, 584976044697, 193805798421),
  (640634356057, 146997723800, 621524834696), (24475070002, 836388177192, 853090904334),
  (839009500887, 23889381448, 854088658610), (266866023662, 665843160240, 407670886094),
  (815427964283, 815824959705, 34591942149), (853748258274, 659357350109, 71251910840), (667787332522, 859276144792, 67352403025),
  (398543240454, 719884004215, 251812326150), (1693740232264, 806482599834, 306259770540),
  (1521974992074, 169281561976, 806482599292), (1215217232651, 315781361671, 303202757085),
  (1829311393388, 476906591439, 803490715951), (1327540063851, 815559700553, 73339715693),
  (1193517400921, 73959044678, 675964254121), (1926040956188, 806482600236, 675964255906),
  (1689221598107, 304351826392, 797398896208), (1717751292472, 416644677652, 619829446114),
  (1841457834827, 607405182285, 628761503461), (1696963620697, 593459429498, 409266154718),
  (1559283974250, 386945543910, 441998503573), (1507802352673, 520043311227, 284613148344),
  (1193132149349, 494894823270, 158828951207), (1827991214926, 794032615968, 478456152639),
  (1518544201802, 813775129873, 165474860460), (1186224869173, 165474859360, 481455799626),
  (1374922256485, 150899689735, 627895223493), (1400443912951, 377909623096, 327208624056),
  (1559617915751, 260881648050, 625124220333), (1391560978023, 630787042005, 157170365888),
  (1333516423085, 75123713869, 817323644428), (1923984130912, 663076685872, 819069056765),
  (1183516812993, 679055340170, 70851946848), (1163611822826, 24475070112, 853090903626),
  (1976326156803, 837297459607, 857468884475), (1152617504709, 847795799884, 23505361651),
  (1374631067749, 252414982259, 451576619457), (1582276993927, 677273049138, 253809127950),
  (1348614605353, 480914288421, 219604022967), (1699347998495, 311238331648, 1191101389868),
  (1197376764073, 476362740218, 1828761988252), (1693740229451, 806482599852, 1693740232278),
  (1193517399806, 169281560055, 1521974989351), (1926599257754, 815139821134, 1327475998815),
  (1324035744094, 806482600236, 1926040956188), (1324035745879, 73959044678, 1193517400921),
  (1201225405950, 304344267701, 1689616877781), (1374556673395, 413078646376, 1717795669446),
  (1369926556035, 605181266616, 1840994952963), (1588050699232, 587939374154, 1695990241139),
  (1545685044250, 379073965286, 1562742118466), (1697472373425, 523755693920, 1535465824527),
  (1833349246962, 481323938375, 1191060659701), (1521120284029, 792801033606, 1827950625279),
  (1834525139833, 813775130128, 1518544201421), (1528910399905, 173598587904, 1193169601539),
  (1405826159295, 167509816335, 1377180623221), (1373734575089, 260152603731, 1559417820254),
  (1835153301684, 627606098411, 1404773695718), (1580725474248, 280525177315, 1380938188006),
  (1737134345928, 425803064994, 1356273540814), (1180564508186, 662719569069, 1923925521508),
  (1180722910430, 76811766420, 1339208954812), (1927579807463, 675933636800, 1185948092299),
  (1142482086553, 837237604627, 1976323336638), (1146909099513, 24475070673, 1163611823357),
  (1976271625989, 846905350824, 1153152671156), (1743276431546, 675070685154, 1584774389540),
  (1193517400166, 1693740229460, 1693740232264), (1830718438024, 1193517400708, 1521974992074),
  (1684218638104, 1696797242893, 1215217233435), (1523093408359, 1196509284073, 1829311393510),
  (1184440299501, 1926660284421, 1327540063499), (1926040955322, 1324035745879, 1193517400921),
  (1193517399764, 1324035744094, 1926040956188), (1695648172779, 1202601103788, 1689221598945),
  (1583355322149, 1380170553765, 1717751292699), (1392594817544, 1371238496018, 1841457835136),
  (1406540571026, 1590733845344, 1696963620338), (1613054456132, 1558001496033, 1559283974597),
  (1479956690034, 1715386851296, 1507802351989), (1505105176232, 1841171049056, 1193132149508),
  (1205967384253, 1521543847170, 1827991214992), (1186224869933, 1834525139763, 1518544201512),
  (1834525140640, 1518544200374, 1186224869173), (1849100309870, 1372104776485, 1374922257403),
  (1622090376739, 1672791375732, 1400443913563), (1739118350562, 1374875779017, 1559617918020),
  (1369212958298, 1842829634629, 1391560976625), (1924876285929, 1182676355630, 1333516423614),
  (1336923314906, 1180930943290, 1923984130618), (1320944659396, 1929148053340, 1183516812799),
  (1975524929357, 1146909098064, 1163611824478), (1162702540587, 1142531115591, 1976326156760),
  (1152204199883, 1976494638442, 1152617504346), (1747585016954, 1548423380922, 1374631068765),
  (1322726951626, 1746190873304, 1582276991896), (1519085712009, 1780395976772, 1348614605296),
  (1693740232281, 1193517400145, 306259770551), (1169873481726, 1667685722210, 275197422353),
  (1689859359276, 1692025741332, 787410165450), (1257270545577, 1929427558142, 735469698249),
  (1927178891911, 1329658846992, 822055213635), (1326744707713, 1188347001888, 73844881857),
  (1484233342451, 1844015117498, 769442953926), (1580932959824, 1708793531598, 599839250108),
  (1213485897532, 1854705066055, 526816080562), (1744297290301, 1555633067292, 629468708228),
  (1623107509363, 1551313390146, 445211231529), (1757685932958, 1384606059609, 472752234799),
  (1461079750124, 1667523979448, 415348650145), (1487273290301, 1516891147319, 296161749844),
  (1187346915608, 1513994073892, 162915043012), (1535860504746, 1199770630985, 179667619529),
  (1835789412502, 1204024633824, 490264767999), (1832139237504, 1521517111154, 811415291768),
  (1398648621923, 1399936109653, 174693763240), (1927680355510, 1191256942800, 679328922678),
  (1596856196924, 1379270470179, 292952200595), (1178323133291, 1335777700603, 75092331143),
  (1407464648100, 1807514589798, 573511139874), (1850484921041, 1387427632189, 644225873765),
  (1976166322020, 1154300128795, 847386822298), (1151146213622, 1155979111587, 23872273288),
  (1332091669278, 1594340780685, 267556036539), (1157385335188, 1974684650349, 841192920052),
  (1368345548977, 1918243523374, 854568269176), (1142518861509, 1923953057847, 645036451155),
  (1274016943859, 1745392391425, 392295386488)]

/-- the nodes of the triangles, tests/input/sphere.summit:322-953 -/
def sphereCells : List (Nat × Nat × Nat) := [
  (82, 110, 17), (17, 110, 88), (46, 86, 81), (45, 86, 46), (17, 88, 18), (95, 101, 100), (85, 98, 96), (96, 98, 91),
  (86, 87, 81), (88, 103, 83), (83, 103, 86), (84, 100, 94), (100, 105, 94), (80, 96, 91), (91, 101, 80), (80, 101, 95),
  (100, 101, 93), (87, 89, 81), (93, 105, 100), (87, 90, 89), (87, 92, 90), (90, 91, 89), (92, 93, 90), (46, 81, 47),
  (76, 80, 77), (16, 82, 17), (14, 84, 15), (74, 85, 75), (16, 94, 82), (97, 102, 48), (98, 102, 97), (77, 95, 78), (45, 108, 86),
  (83, 109, 88), (80, 95, 77), (88, 109, 18), (76, 96, 80), (85, 96, 75), (15, 94, 16), (86, 108, 83), (89, 97, 81), (81, 97, 47),
  (75, 96, 76), (84, 94, 15), (78, 99, 79), (99, 100, 84), (47, 97, 48), (91, 98, 89), (90, 101, 91), (19, 109, 107),
  (4, 104, 14), (92, 105, 93), (92, 110, 105), (107, 108, 44), (107, 109, 83), (93, 101, 90), (95, 99, 78), (83, 108, 107),
  (86, 103, 87), (87, 103, 92), (89, 98, 97), (95, 100, 99), (79, 104, 4), (85, 102, 98), (18, 109, 19), (44, 108, 45),
  (48, 102, 49), (7, 106, 74), (14, 104, 84), (49, 106, 7), (105, 110, 82), (74, 106, 85), (19, 107, 3), (3, 107, 44),
  (103, 110, 92), (94, 105, 82), (99, 104, 79), (88, 110, 103), (84, 104, 99), (85, 106, 102), (102, 106, 49), (131, 138, 122),
  (129, 138, 131), (111, 125, 121), (127, 130, 126), (121, 125, 120), (121, 139, 111), (126, 130, 113), (127, 134, 124),
  (123, 130, 127), (112, 132, 129), (124, 139, 127), (120, 125, 117), (122, 138, 130), (115, 134, 127), (129, 131, 112),
  (123, 139, 121), (129, 132, 116), (118, 119, 114), (40, 111, 41), (57, 112, 58), (117, 125, 39), (111, 124, 41), (38, 117, 39),
  (17, 113, 16), (15, 116, 14), (59, 114, 60), (19, 115, 18), (122, 123, 121), (119, 122, 121), (119, 121, 120), (119, 120, 114),
  (113, 128, 16), (59, 118, 114), (39, 125, 40), (41, 124, 42), (127, 139, 123), (115, 127, 126), (118, 131, 119), (58, 118, 59),
  (40, 125, 111), (16, 128, 15), (17, 126, 113), (115, 126, 18), (128, 129, 116), (119, 131, 122), (112, 118, 58), (15, 128, 116),
  (18, 126, 17), (117, 133, 120), (122, 130, 123), (60, 133, 61), (56, 132, 57), (120, 133, 114), (42, 134, 43), (6, 136, 38),
  (3, 137, 19), (114, 133, 60), (57, 132, 112), (14, 135, 4), (112, 131, 118), (124, 134, 42), (43, 137, 3), (61, 136, 6),
  (4, 135, 56), (113, 138, 128), (130, 138, 113), (38, 136, 117), (19, 137, 115), (116, 135, 14), (128, 138, 129), (56, 135, 132),
  (111, 139, 124), (133, 136, 61), (132, 135, 116), (117, 136, 133), (134, 137, 43), (115, 137, 134), (142, 153, 150),
  (159, 160, 151), (155, 160, 159), (150, 153, 149), (150, 168, 142), (151, 164, 152), (160, 164, 151), (157, 161, 158),
  (158, 168, 157), (143, 163, 155), (149, 153, 145), (144, 161, 157), (152, 168, 150), (155, 159, 143), (155, 163, 146),
  (140, 160, 154), (154, 160, 155), (23, 140, 22), (40, 141, 39), (145, 153, 63), (21, 146, 20), (64, 142, 65), (62, 145, 63),
  (42, 143, 41), (25, 144, 24), (151, 152, 150), (148, 151, 150), (148, 150, 149), (148, 149, 141), (140, 154, 22), (63, 153, 64),
  (147, 148, 141), (147, 159, 148), (157, 168, 152), (65, 158, 66), (148, 159, 151), (144, 157, 156), (142, 158, 65),
  (145, 162, 149), (64, 153, 142), (22, 154, 21), (23, 156, 140), (144, 156, 24), (154, 155, 146), (40, 147, 141), (143, 147, 41),
  (149, 162, 141), (21, 154, 146), (24, 156, 23), (66, 161, 67), (39, 162, 38), (43, 163, 42), (41, 147, 40), (5, 165, 25),
  (6, 166, 62), (152, 164, 157), (141, 162, 39), (42, 163, 143), (20, 167, 3), (158, 161, 66), (143, 159, 147), (157, 164, 156),
  (156, 164, 140), (38, 166, 6), (67, 165, 5), (3, 167, 43), (140, 164, 160), (25, 165, 144), (62, 166, 145), (146, 167, 20),
  (43, 167, 163), (161, 165, 67), (162, 166, 38), (163, 167, 146), (142, 168, 158), (144, 165, 161), (145, 166, 162),
  (47, 199, 171), (178, 199, 47), (169, 176, 71), (71, 176, 72), (48, 178, 47), (170, 188, 183), (172, 190, 185), (185, 190, 183),
  (183, 188, 182), (169, 177, 176), (173, 191, 178), (176, 191, 173), (172, 192, 189), (185, 192, 172), (184, 195, 188),
  (184, 188, 174), (183, 190, 170), (169, 179, 177), (179, 180, 177), (180, 181, 177), (180, 182, 181), (180, 183, 182),
  (70, 169, 71), (21, 170, 22), (68, 175, 69), (47, 171, 46), (45, 174, 44), (23, 172, 24), (188, 195, 182), (171, 184, 46),
  (179, 185, 180), (48, 198, 178), (173, 197, 176), (176, 197, 72), (46, 184, 45), (178, 198, 173), (169, 186, 179),
  (180, 185, 183), (70, 186, 169), (175, 186, 69), (45, 184, 174), (24, 189, 25), (20, 187, 21), (170, 190, 22), (23, 190, 172),
  (69, 186, 70), (73, 197, 196), (182, 195, 181), (174, 188, 187), (5, 194, 68), (196, 198, 49), (195, 199, 181), (196, 197, 173),
  (172, 189, 24), (21, 187, 170), (22, 190, 23), (44, 193, 3), (173, 198, 196), (177, 191, 176), (189, 192, 175), (187, 188, 170),
  (181, 191, 177), (25, 194, 5), (3, 193, 20), (72, 197, 73), (175, 192, 186), (49, 198, 48), (68, 194, 175), (186, 192, 179),
  (179, 192, 185), (174, 193, 44), (181, 199, 191), (73, 196, 7), (7, 196, 49), (171, 195, 184), (171, 199, 195), (191, 199, 178),
  (20, 193, 187), (189, 194, 25), (187, 193, 174), (175, 194, 189), (219, 227, 211), (217, 227, 219), (200, 214, 210),
  (210, 214, 209), (210, 228, 200), (213, 223, 220), (220, 229, 213), (201, 221, 217), (209, 214, 206), (211, 227, 218),
  (212, 228, 210), (217, 219, 201), (217, 221, 205), (213, 229, 202), (202, 229, 218), (220, 223, 204), (207, 208, 203),
  (27, 201, 28), (51, 204, 50), (71, 213, 202), (53, 200, 52), (71, 202, 70), (69, 205, 68), (55, 206, 54), (29, 203, 30),
  (206, 214, 54), (211, 212, 210), (208, 211, 210), (208, 210, 209), (208, 209, 203), (202, 216, 70), (200, 215, 52),
  (29, 207, 203), (72, 213, 71), (54, 214, 53), (207, 219, 208), (28, 207, 29), (53, 214, 200), (52, 215, 51), (70, 216, 69),
  (216, 217, 205), (208, 219, 211), (201, 207, 28), (51, 215, 204), (69, 216, 205), (206, 222, 209), (211, 218, 212),
  (30, 222, 31), (26, 221, 27), (209, 222, 203), (73, 223, 72), (2, 225, 55), (215, 220, 204), (203, 222, 30), (27, 221, 201),
  (68, 224, 5), (50, 226, 7), (201, 219, 207), (72, 223, 213), (7, 226, 73), (31, 225, 2), (5, 224, 26), (202, 227, 216),
  (218, 227, 202), (218, 229, 212), (55, 225, 206), (212, 229, 220), (205, 224, 68), (220, 228, 212), (204, 226, 50),
  (215, 228, 220), (216, 227, 217), (200, 228, 215), (26, 224, 221), (222, 225, 31), (221, 224, 205), (73, 226, 223),
  (206, 225, 222), (223, 226, 204), (232, 244, 240), (248, 250, 241), (247, 250, 248), (240, 244, 239), (241, 251, 242),
  (250, 251, 241), (240, 258, 232), (243, 254, 249), (233, 253, 247), (239, 244, 235), (249, 251, 243), (242, 258, 240),
  (247, 248, 233), (247, 253, 236), (230, 250, 246), (249, 254, 234), (246, 250, 247), (64, 231, 63), (29, 230, 28),
  (35, 232, 34), (29, 243, 230), (33, 234, 32), (27, 236, 26), (66, 233, 65), (37, 235, 36), (235, 244, 36), (241, 242, 240),
  (238, 241, 240), (238, 240, 239), (238, 239, 231), (230, 246, 28), (232, 245, 34), (30, 243, 29), (36, 244, 35),
  (237, 238, 231), (237, 248, 238), (238, 248, 241), (242, 251, 249), (235, 252, 239), (35, 244, 232), (34, 245, 33),
  (28, 246, 27), (246, 247, 236), (64, 237, 231), (233, 237, 65), (239, 252, 231), (33, 245, 234), (27, 246, 236), (63, 252, 62),
  (67, 253, 66), (65, 237, 64), (31, 254, 30), (245, 249, 234), (6, 255, 37), (231, 252, 63), (66, 253, 233), (26, 256, 5),
  (243, 251, 230), (32, 257, 2), (233, 248, 237), (30, 254, 243), (230, 251, 250), (2, 257, 31), (62, 255, 6), (5, 256, 67),
  (37, 255, 235), (249, 258, 242), (236, 256, 26), (245, 258, 249), (234, 257, 32), (232, 258, 245), (67, 256, 253),
  (252, 255, 62), (253, 256, 236), (31, 257, 254), (235, 255, 252), (254, 257, 234), (278, 286, 270), (276, 286, 278),
  (259, 273, 269), (269, 273, 268), (269, 287, 259), (272, 282, 279), (279, 288, 272), (260, 280, 276), (268, 273, 265),
  (270, 286, 277), (271, 287, 269), (276, 278, 260), (276, 280, 264), (272, 288, 261), (261, 288, 277), (279, 282, 263),
  (266, 267, 262), (33, 260, 34), (57, 263, 56), (11, 272, 261), (59, 259, 58), (11, 261, 10), (9, 264, 8), (61, 265, 60),
  (35, 262, 36), (265, 273, 60), (270, 271, 269), (267, 270, 269), (267, 269, 268), (267, 268, 262), (261, 275, 10),
  (259, 274, 58), (35, 266, 262), (12, 272, 11), (60, 273, 59), (266, 278, 267), (34, 266, 35), (59, 273, 259), (58, 274, 57),
  (10, 275, 9), (275, 276, 264), (267, 278, 270), (260, 266, 34), (57, 274, 263), (9, 275, 264), (265, 281, 268), (270, 277, 271),
  (36, 281, 37), (32, 280, 33), (268, 281, 262), (13, 282, 12), (6, 284, 61), (274, 279, 263), (262, 281, 36), (33, 280, 260),
  (8, 283, 2), (56, 285, 4), (260, 278, 266), (12, 282, 272), (4, 285, 13), (37, 284, 6), (2, 283, 32), (261, 286, 275),
  (277, 286, 261), (277, 288, 271), (61, 284, 265), (271, 288, 279), (264, 283, 8), (279, 287, 271), (263, 285, 56),
  (274, 287, 279), (275, 286, 276), (259, 287, 274), (32, 283, 280), (281, 284, 37), (280, 283, 264), (13, 285, 282),
  (265, 284, 281), (282, 285, 263), (77, 319, 290), (297, 319, 77), (291, 295, 11), (11, 295, 12), (78, 297, 77), (307, 309, 304),
  (305, 312, 308), (291, 296, 295), (307, 310, 303), (303, 315, 307), (292, 311, 297), (300, 312, 305), (295, 311, 292),
  (304, 309, 289), (300, 305, 289), (289, 309, 300), (302, 309, 307), (307, 315, 302), (291, 298, 296), (298, 299, 296),
  (294, 310, 307), (298, 300, 299), (299, 301, 296), (299, 302, 301), (10, 291, 11), (52, 289, 53), (8, 293, 9), (77, 290, 76),
  (50, 294, 51), (290, 303, 76), (76, 303, 75), (78, 318, 297), (292, 317, 295), (295, 317, 12), (289, 305, 53), (52, 304, 289),
  (294, 304, 51), (297, 318, 292), (291, 306, 298), (293, 306, 9), (10, 306, 291), (53, 305, 54), (51, 304, 52), (54, 308, 55),
  (75, 310, 74), (9, 306, 10), (300, 309, 299), (13, 317, 316), (2, 313, 8), (7, 314, 50), (316, 318, 79), (316, 317, 292),
  (302, 315, 301), (294, 307, 304), (299, 309, 302), (292, 318, 316), (303, 310, 75), (296, 311, 295), (315, 319, 301),
  (308, 312, 293), (305, 308, 54), (74, 314, 7), (301, 311, 296), (55, 313, 2), (293, 312, 306), (12, 317, 13), (298, 312, 300),
  (79, 318, 78), (306, 312, 298), (8, 313, 293), (50, 314, 294), (301, 319, 311), (13, 316, 4), (4, 316, 79), (290, 315, 303),
  (311, 319, 297), (290, 319, 315), (308, 313, 55), (293, 313, 308), (310, 314, 74), (294, 314, 310)]

/-- the coordinates of a node -/
def sphereCoordinates (x : Nat × Nat × Nat) : List ℚ :=
  [mkRat (x.1 - 10 ^ 12) (10 ^ 12), mkRat (x.2.1 - 10 ^ 12) (10 ^ 12), mkRat (x.2.2 - 10 ^ 12) (10 ^ 12)]

/-- tests/input/sphere.summit:1-953 -/
def sphereFile : List Token :=
  [.num 3, .num 319, .num 632, .num 1] ++ sphereNodes.flatMap (fun x => (sphereCoordinates x).map .num) ++
    sphereCells.flatMap fun c => [.num 3, .num c.1, .num c.2.1, .num c.2.2, .num 1]

end Mito.Summit
