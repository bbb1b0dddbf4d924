import Verif.IO.Summit

/-!
# The tokens of tests/input/ball.summit

A mesh of the unit ball: 133 nodes and 372 tetrahedra.
-/

namespace Mito.Summit

/-- the coordinates of the nodes times `10 ^ 28`, plus `10 ^ 28`, tests/input/ball.summit:3-135 -/
def ballNodes : List (Nat × Nat × Nat) := [
  (20000000000000000000000000000, 10000000000000000000000000000, 10000000000000000000000000000),
  (0, 10000000000000000000000000000, 10000000000000000000000000000),
  (10000000000000000000000000000, 20000000000000000000000000000, 10000000000000000000000000000),
  (10000000000000000000000000000, 0, 10000000000000000000000000000),
  (10000000000000000000000000000, 10000000000000000000000000000, 20000000000000000000000000000),
  (10000000000000000000000000000, 10000000000000000000000000000, 0),
  (19238795320880000000000000000, 13826834333860000000000000000, 10000000000000000000000000000),
  (17071067795620000000000000000, 17071067828110000000000000000, 10000000000000000000000000000),
  (13826834311800000000000000000, 19238795330020000000000000000, 10000000000000000000000000000),
  (6173165666140000000000000000, 19238795320880000000000000000, 10000000000000000000000000000),
  (2928932171890000000000000000, 17071067795620000000000000000, 10000000000000000000000000000),
  (761204669980000000000000000, 13826834311800000000000000000, 10000000000000000000000000000),
  (761204679120000000000000000, 6173165666140000000000000000, 10000000000000000000000000000),
  (2928932204380000000000000000, 2928932171890000000000000000, 10000000000000000000000000000),
  (6173165688200000000000000000, 761204669980000000000000000, 10000000000000000000000000000),
  (13826834333860000000000000000, 761204679120000000000000000, 10000000000000000000000000000),
  (17071067828110000000000000000, 2928932204380000000000000000, 10000000000000000000000000000),
  (19238795330020000000000000000, 6173165688200000000000000000, 10000000000000000000000000000),
  (19238795320880000000000000000, 10000000000000000000000000000, 13826834333860000000000000000),
  (17071067795620000000000000000, 10000000000000000000000000000, 17071067828110000000000000000),
  (13826834311800000000000000000, 10000000000000000000000000000, 19238795330020000000000000000),
  (6173165666140000000000000000, 10000000000000000000000000000, 19238795320880000000000000000),
  (2928932171890000000000000000, 10000000000000000000000000000, 17071067795620000000000000000),
  (761204669980000000000000000, 10000000000000000000000000000, 13826834311800000000000000000),
  (761204679120000000000000000, 10000000000000000000000000000, 6173165666140000000000000000),
  (2928932204380000000000000000, 10000000000000000000000000000, 2928932171890000000000000000),
  (6173165688200000000000000000, 10000000000000000000000000000, 761204669980000000000000000),
  (13826834333860000000000000000, 10000000000000000000000000000, 761204679120000000000000000),
  (17071067828110000000000000000, 10000000000000000000000000000, 2928932204380000000000000000),
  (19238795330020000000000000000, 10000000000000000000000000000, 6173165688200000000000000000),
  (10000000000000000000000000000, 19238795320880000000000000000, 13826834333860000000000000000),
  (10000000000000000000000000000, 17071067795620000000000000000, 17071067828110000000000000000),
  (10000000000000000000000000000, 13826834311800000000000000000, 19238795330020000000000000000),
  (10000000000000000000000000000, 6173165666140000000000000000, 19238795320880000000000000000),
  (10000000000000000000000000000, 2928932171890000000000000000, 17071067795620000000000000000),
  (10000000000000000000000000000, 761204669980000000000000000, 13826834311800000000000000000),
  (10000000000000000000000000000, 761204679120000000000000000, 6173165666140000000000000000),
  (10000000000000000000000000000, 2928932204380000000000000000, 2928932171890000000000000000),
  (10000000000000000000000000000, 6173165688200000000000000000, 761204669980000000000000000),
  (10000000000000000000000000000, 13826834333860000000000000000, 761204679120000000000000000),
  (10000000000000000000000000000, 17071067828110000000000000000, 2928932204380000000000000000),
  (10000000000000000000000000000, 19238795330020000000000000000, 6173165688200000000000000000),
  (1913270360500000000000000000, 14159615593790000000000000000, 5840384410840000000000000000),
  (4569369005580000000000000000, 17729369897200000000000000000, 6718980647000000000000000000),
  (4570221442920000000000000000, 13419890101580000000000000000, 2330459171880000000000000000),
  (7264925325800000000000000000, 17962528691990000000000000000, 4603936309150000000000000000),
  (7154249909360000000000000000, 15418561248990000000000000000, 2091719503420000000000000000),
  (7362623190510000000000000000, 12798358339270000000000000000, 768887706790000000000000000),
  (4217876084120000000000000000, 15756320962110000000000000000, 4217975094950000000000000000),
  (7305947151360000000000000000, 19244100505020000000000000000, 7300243510650000000000000000),
  (591953643840000000000000000, 12377860987840000000000000000, 7584541268660000000000000000),
  (5840384410840000000000000000, 14159615593790000000000000000, 18086729639500000000000000000),
  (6718980644990000000000000000, 17729369900990000000000000000, 15430630987810000000000000000),
  (2330459165870000000000000000, 13419890082680000000000000000, 15429778560490000000000000000),
  (4603936280170000000000000000, 17962528678600000000000000000, 12735074656010000000000000000),
  (2091719501990000000000000000, 15418561235970000000000000000, 12845750111470000000000000000),
  (768887702960000000000000000, 12798358324060000000000000000, 12637376812220000000000000000),
  (4217975098990000000000000000, 15756320963380000000000000000, 15782123918650000000000000000),
  (7300243483560000000000000000, 19244100494940000000000000000, 12694052856080000000000000000),
  (7584541269160000000000000000, 12377860991430000000000000000, 19408046355380000000000000000),
  (2275249812920000000000000000, 4616301057130000000000000000, 13368088514230000000000000000),
  (4566877466120000000000000000, 6664407764650000000000000000, 17704219880780000000000000000),
  (5791287721620000000000000000, 1921131949690000000000000000, 14125364466750000000000000000),
  (6481182905660000000000000000, 4609143606650000000000000000, 17652228015610000000000000000),
  (2306083129430000000000000000, 7042223763520000000000000000, 15661731442200000000000000000),
  (766819538490000000000000000, 7446210198240000000000000000, 12868193893990000000000000000),
  (3987957548370000000000000000, 4589615388520000000000000000, 15880738381840000000000000000),
  (7245622989340000000000000000, 7289465273220000000000000000, 19223145275770000000000000000),
  (7584541281080000000000000000, 591953640490000000000000000, 12377860987220000000000000000),
  (5840384406210000000000000000, 1913270360500000000000000000, 5840384410840000000000000000),
  (2270630108570000000000000000, 4569368996040000000000000000, 6718980649200000000000000000),
  (6580109915290000000000000000, 4570221432120000000000000000, 2330459172010000000000000000),
  (2037471328560000000000000000, 7264925312250000000000000000, 4603936285690000000000000000),
  (4581438764120000000000000000, 7154249884160000000000000000, 2091719503510000000000000000),
  (7201641682360000000000000000, 7362623186760000000000000000, 768887701310000000000000000),
  (4243679030810000000000000000, 4217876068680000000000000000, 4217975117440000000000000000),
  (755899503620000000000000000, 7305947140460000000000000000, 7300243491940000000000000000),
  (7622139012310000000000000000, 591953643810000000000000000, 7584541268640000000000000000),
  (15393179011390000000000000000, 2173984480290000000000000000, 6890803763620000000000000000),
  (15211554496020000000000000000, 6848956433250000000000000000, 2068378212780000000000000000),
  (17953776829040000000000000000, 4874496804730000000000000000, 6764779582600000000000000000),
  (17846168469820000000000000000, 6980817622170000000000000000, 4585004329390000000000000000),
  (12976164628950000000000000000, 2133918064290000000000000000, 4590083264780000000000000000),
  (12883474775170000000000000000, 4635216566220000000000000000, 2068753444150000000000000000),
  (12570268682530000000000000000, 7273963241980000000000000000, 728406690680000000000000000),
  (15864108677670000000000000000, 4340980577770000000000000000, 4204507907410000000000000000),
  (12704105557940000000000000000, 755041260280000000000000000, 7313263869990000000000000000),
  (19298984180130000000000000000, 7386427793160000000000000000, 7411924742740000000000000000),
  (14159615589020000000000000000, 1913270360390000000000000000, 14159615593720000000000000000),
  (13513492808730000000000000000, 4542347631550000000000000000, 17607193891850000000000000000),
  (18086729639560000000000000000, 5840384406240000000000000000, 14159615589060000000000000000),
  (15469711153630000000000000000, 6516822473850000000000000000, 17612472280220000000000000000),
  (16833865315380000000000000000, 3340848448190000000000000000, 12992321082590000000000000000),
  (15884601162030000000000000000, 4141521706170000000000000000, 15572225878810000000000000000),
  (12710534727290000000000000000, 7245622990380000000000000000, 19223145275940000000000000000),
  (12377861017210000000000000000, 591953648240000000000000000, 12415458719550000000000000000),
  (19468433915130000000000000000, 7725031434230000000000000000, 12274483945780000000000000000),
  (13226081038820000000000000000, 17827546173130000000000000000, 15321834461770000000000000000),
  (17895815466660000000000000000, 13044349120380000000000000000, 15328042468840000000000000000),
  (13223894898340000000000000000, 15074877467470000000000000000, 17990752178280000000000000000),
  (15472105086640000000000000000, 13075445978320000000000000000, 17784452322110000000000000000),
  (17887453575940000000000000000, 15379186625990000000000000000, 12975302897220000000000000000),
  (15397139913180000000000000000, 17900341414590000000000000000, 12907831888270000000000000000),
  (12753865287650000000000000000, 19252689201210000000000000000, 12608441780700000000000000000),
  (15740367297100000000000000000, 15706917660310000000000000000, 15871905492490000000000000000),
  (19247187190210000000000000000, 12682170331150000000000000000, 12701016731510000000000000000),
  (12576936699260000000000000000, 12595057310940000000000000000, 19307259252910000000000000000),
  (15390484263910000000000000000, 13182056795850000000000000000, 2201462063400000000000000000),
  (14125141598090000000000000000, 18086243508400000000000000000, 5805256537200000000000000000),
  (17642952645280000000000000000, 13074847978000000000000000000, 4331615329380000000000000000),
  (13136519013590000000000000000, 15487168964480000000000000000, 2250598395190000000000000000),
  (17512105213380000000000000000, 15668018445480000000000000000, 6617420782180000000000000000),
  (12531342591690000000000000000, 12531342591690000000000000000, 662730090280000000000000000),
  (19223145286350000000000000000, 12710534721380000000000000000, 7245623019430000000000000000),
  (15898857778670000000000000000, 15373790672320000000000000000, 3972906943050000000000000000),
  (12377860990690000000000000000, 19408046358740000000000000000, 7584541281490000000000000000),
  (10000000000000002220446049250, 10000000000000002220446049250, 9999999999999999444888487687),
  (13706439184560000000000000000, 12497023594370000000000000000, 12464850581450000000000000000),
  (12064119590570000000000000000, 6716824129070000000000000000, 6667026359730000000000000000),
  (6649469535700000000000000000, 7992621847180000000000000000, 6695558673320000000000000000),
  (7992621858320000000000000000, 13350530473750000000000000000, 6695558674980000000000000000),
  (6695558674110000000000000000, 13350530470250000000000000000, 12007378144900000000000000000),
  (9389348363831000000000000000, 5000000000000000000000000000, 10624411768238000000000000000),
  (12983160152130000000000000000, 13241686867880000000000000000, 7514122357690000000000000000),
  (12881748490310000000000000000, 7588111318660000000000000000, 13393986964960000000000000000),
  (5730958530820000000000000000, 8206468183010000000000000000, 12092908177010000000000000000),
  (9035596396026000000000000000, 10300688770855000000000000000, 15143093942810000000000000000),
  (15251072888080000000000000000, 9324123672659000000000000000, 9177732924238000000000000000),
  (10607695567381000000000000000, 15485544749890000000000000000, 10782878891742000000000000000),
  (10902193653443000000000000000, 10550065108033000000000000000, 4452999024780000000000000000),
  (4681007186680000000000000000, 11333396676780000000000000000, 8701185198020000000000000000),
  (13511549689410000000000000000, 5048822880970000000000000000, 10176735649023000000000000000),
  (8505335361790000000000000000, 6263408737380000000000000000, 14455353342010000000000000000)]

/-- the nodes of the tetrahedra, tests/input/ball.summit:136-507 -/
def ballCells : List (Nat × Nat × Nat × Nat) := [
  (29, 119, 128, 130), (29, 128, 124, 130), (21, 107, 118, 127), (32, 118, 127, 129), (21, 118, 125, 127), (82, 29, 119, 128),
  (70, 119, 120, 123), (107, 100, 118, 127), (101, 21, 107, 118), (39, 120, 119, 130), (10, 122, 121, 129), (32, 118, 100, 127),
  (27, 121, 120, 130), (32, 127, 122, 129), (29, 80, 119, 130), (110, 124, 29, 128), (80, 82, 29, 119), (70, 37, 119, 123),
  (29, 124, 108, 130), (10, 121, 50, 129), (118, 117, 127, 129), (57, 122, 126, 131), (39, 75, 120, 130), (101, 107, 100, 118),
  (14, 123, 120, 126), (122, 127, 117, 129), (19, 125, 118, 128), (7, 118, 124, 128), (44, 121, 10, 122), (48, 121, 27, 130),
  (121, 124, 42, 129), (98, 118, 32, 129), (71, 120, 13, 126), (57, 122, 24, 126), (116, 42, 124, 129), (29, 110, 108, 124),
  (70, 78, 37, 123), (100, 32, 98, 118), (87, 119, 123, 132), (107, 33, 100, 127), (7, 124, 114, 128), (110, 29, 30, 128),
  (57, 126, 24, 131), (38, 70, 119, 120), (24, 122, 54, 126), (23, 126, 122, 127), (27, 120, 75, 130), (120, 121, 26, 131),
  (82, 119, 81, 128), (33, 32, 100, 127), (87, 119, 37, 123), (110, 114, 124, 128), (21, 125, 95, 127), (2, 126, 13, 131),
  (21, 118, 20, 125), (57, 54, 24, 122), (39, 75, 72, 120), (45, 27, 48, 121), (29, 28, 80, 130), (44, 50, 10, 121),
  (95, 127, 125, 133), (13, 71, 77, 120), (101, 20, 21, 118), (50, 121, 42, 129), (41, 124, 121, 130), (70, 120, 14, 123),
  (81, 128, 119, 132), (24, 126, 2, 131), (89, 125, 123, 133), (82, 30, 29, 128), (7, 106, 118, 128), (103, 118, 98, 129),
  (38, 70, 37, 119), (19, 118, 106, 128), (71, 14, 120, 126), (100, 98, 105, 118), (116, 124, 9, 129), (23, 122, 54, 127),
  (77, 2, 13, 131), (54, 122, 52, 127), (82, 86, 81, 119), (117, 120, 119, 123), (8, 124, 118, 129), (10, 59, 122, 129),
  (62, 126, 127, 133), (41, 42, 121, 124), (110, 30, 114, 128), (123, 125, 89, 132), (85, 119, 80, 130), (57, 24, 2, 131),
  (34, 127, 95, 133), (52, 122, 32, 127), (39, 119, 85, 130), (119, 120, 117, 130), (120, 123, 117, 126), (120, 121, 117, 130),
  (23, 54, 122, 126), (71, 13, 14, 126), (45, 26, 121, 131), (53, 32, 122, 129), (8, 7, 118, 124), (80, 86, 82, 119),
  (8, 118, 103, 129), (96, 123, 89, 132), (125, 128, 91, 132), (118, 117, 125, 127), (7, 112, 114, 124), (20, 118, 19, 125),
  (29, 108, 28, 130), (81, 119, 79, 132), (81, 86, 79, 119), (121, 122, 117, 129), (89, 123, 36, 133), (117, 119, 128, 132),
  (40, 47, 48, 121), (44, 10, 11, 122), (40, 121, 48, 130), (117, 128, 125, 132), (87, 123, 4, 132), (70, 15, 78, 123),
  (41, 111, 124, 130), (85, 39, 84, 119), (96, 36, 89, 123), (13, 2, 66, 126), (121, 117, 124, 129), (74, 75, 27, 120),
  (10, 59, 55, 122), (53, 122, 59, 129), (117, 120, 126, 131), (37, 87, 83, 119), (41, 121, 40, 130), (117, 118, 125, 128),
  (23, 62, 126, 127), (117, 121, 120, 131), (98, 103, 105, 118), (123, 126, 63, 133), (117, 122, 121, 131), (70, 14, 15, 123),
  (14, 63, 123, 126), (117, 123, 119, 132), (116, 42, 109, 124), (2, 24, 66, 126), (117, 126, 122, 131), (118, 117, 124, 128),
  (21, 95, 5, 127), (77, 120, 25, 131), (97, 18, 91, 128), (12, 122, 57, 131), (101, 100, 105, 118), (117, 125, 123, 132),
  (57, 12, 56, 122), (117, 122, 126, 127), (118, 124, 117, 129), (4, 87, 37, 123), (87, 79, 83, 119), (121, 124, 117, 130),
  (7, 1, 106, 128), (87, 79, 119, 132), (19, 106, 1, 128), (21, 5, 107, 127), (111, 108, 124, 130), (97, 19, 1, 128),
  (85, 80, 28, 130), (103, 98, 104, 129), (50, 46, 42, 121), (9, 124, 8, 129), (84, 80, 85, 119), (25, 77, 73, 120),
  (23, 24, 54, 126), (123, 125, 117, 133), (38, 72, 70, 120), (78, 4, 37, 123), (106, 102, 7, 118), (125, 127, 117, 133),
  (31, 53, 59, 129), (88, 82, 81, 128), (70, 71, 14, 120), (52, 53, 32, 122), (99, 106, 19, 118), (3, 10, 50, 129),
  (6, 27, 75, 130), (62, 127, 68, 133), (114, 112, 110, 124), (34, 5, 95, 127), (23, 54, 52, 127), (91, 128, 18, 132),
  (123, 117, 126, 133), (36, 123, 69, 133), (53, 31, 32, 129), (52, 32, 33, 127), (117, 127, 126, 133), (9, 8, 103, 129),
  (105, 103, 102, 118), (115, 108, 110, 124), (45, 121, 43, 131), (39, 6, 75, 130), (98, 32, 31, 129), (41, 40, 111, 130),
  (8, 112, 7, 124), (102, 8, 7, 118), (18, 128, 81, 132), (44, 43, 121, 131), (50, 42, 3, 129), (95, 21, 92, 125),
  (99, 19, 20, 118), (116, 109, 9, 124), (68, 62, 22, 127), (63, 126, 67, 133), (35, 125, 89, 133), (41, 47, 40, 121),
  (67, 65, 62, 126), (60, 52, 33, 127), (79, 86, 83, 119), (88, 30, 82, 128), (67, 126, 62, 133), (116, 3, 42, 129),
  (101, 105, 99, 118), (94, 125, 93, 132), (23, 22, 62, 127), (6, 48, 27, 130), (84, 39, 38, 119), (7, 114, 1, 128),
  (101, 99, 20, 118), (111, 113, 108, 130), (74, 27, 26, 120), (49, 43, 45, 121), (76, 70, 72, 120), (52, 54, 58, 122),
  (103, 8, 102, 118), (84, 86, 80, 119), (75, 74, 72, 120), (57, 56, 54, 122), (47, 45, 48, 121), (67, 63, 61, 126),
  (10, 55, 11, 122), (14, 63, 15, 123), (41, 109, 42, 124), (87, 4, 16, 132), (76, 71, 70, 120), (44, 43, 49, 121),
  (53, 52, 58, 122), (89, 125, 94, 132), (26, 25, 120, 131), (115, 111, 108, 124), (11, 122, 12, 131), (14, 61, 63, 126),
  (63, 69, 15, 123), (83, 38, 37, 119), (35, 89, 36, 133), (83, 86, 84, 119), (11, 56, 12, 122), (10, 3, 59, 129),
  (23, 62, 65, 126), (113, 28, 108, 130), (102, 106, 99, 118), (98, 31, 104, 129), (35, 90, 125, 133), (71, 73, 77, 120),
  (46, 50, 44, 121), (55, 59, 53, 122), (113, 111, 40, 130), (46, 41, 42, 121), (107, 5, 33, 127), (105, 102, 99, 118),
  (73, 26, 25, 120), (21, 20, 92, 125), (76, 74, 73, 120), (47, 46, 49, 121), (58, 56, 55, 122), (78, 15, 4, 123),
  (9, 103, 104, 129), (17, 18, 81, 132), (5, 34, 68, 127), (35, 90, 89, 125), (77, 25, 2, 131), (68, 127, 34, 133),
  (96, 4, 36, 123), (63, 69, 123, 133), (90, 94, 89, 125), (91, 20, 19, 125), (39, 85, 6, 130), (12, 57, 2, 131),
  (23, 52, 22, 127), (60, 22, 52, 127), (17, 81, 79, 132), (115, 110, 112, 124), (45, 43, 26, 131), (14, 13, 61, 126),
  (88, 81, 18, 128), (1, 114, 30, 128), (65, 66, 24, 126), (69, 4, 15, 123), (44, 11, 43, 131), (23, 65, 24, 126),
  (60, 33, 5, 127), (41, 111, 109, 124), (69, 36, 4, 123), (66, 61, 13, 126), (6, 40, 48, 130), (76, 72, 74, 120),
  (58, 54, 56, 122), (47, 49, 45, 121), (9, 109, 8, 124), (71, 76, 73, 120), (46, 44, 49, 121), (53, 58, 55, 122),
  (63, 36, 69, 133), (83, 84, 38, 119), (89, 94, 93, 132), (95, 92, 90, 125), (65, 67, 61, 126), (1, 18, 97, 128),
  (93, 125, 91, 132), (94, 92, 91, 125), (31, 59, 3, 129), (17, 93, 18, 132), (47, 41, 46, 121), (1, 30, 88, 128),
  (3, 116, 9, 129), (11, 55, 56, 122), (73, 74, 26, 120), (111, 115, 109, 124), (2, 25, 51, 131), (92, 20, 91, 125),
  (109, 112, 8, 124), (5, 68, 22, 127), (12, 2, 51, 131), (85, 28, 6, 130), (5, 22, 60, 127), (93, 91, 18, 132),
  (26, 43, 25, 131), (35, 34, 90, 133), (11, 12, 43, 131), (90, 92, 94, 125), (93, 94, 91, 125), (40, 6, 113, 130),
  (65, 61, 66, 126), (25, 43, 51, 131), (31, 3, 104, 129), (115, 112, 109, 124), (6, 28, 113, 130), (12, 51, 43, 131),
  (88, 18, 1, 128), (104, 3, 9, 129), (64, 67, 62, 133), (62, 68, 64, 133), (87, 16, 79, 132), (35, 36, 63, 133),
  (64, 68, 34, 133), (64, 63, 67, 133), (79, 16, 17, 132), (16, 96, 89, 132), (93, 17, 16, 132), (64, 35, 63, 133),
  (64, 34, 35, 133), (16, 89, 93, 132), (13, 131, 120, 77), (120, 131, 13, 126), (128, 130, 117, 124), (117, 130, 128, 119),
  (120, 38, 39, 119), (120, 39, 38, 72), (91, 128, 19, 97), (19, 128, 91, 125), (26, 121, 27, 45), (27, 121, 26, 120),
  (122, 44, 131, 11), (122, 131, 44, 121), (95, 133, 90, 34), (90, 133, 95, 125), (132, 4, 96, 123), (132, 96, 4, 16)]

/-- the coordinates of a node -/
def ballCoordinates (x : Nat × Nat × Nat) : List ℚ :=
  [mkRat (x.1 - 10 ^ 28) (10 ^ 28), mkRat (x.2.1 - 10 ^ 28) (10 ^ 28), mkRat (x.2.2 - 10 ^ 28) (10 ^ 28)]

/-- tests/input/ball.summit:1-507 -/
def ballFile : List Token :=
  [.num 3, .num 133, .num 372, .num 1] ++ ballNodes.flatMap (fun x => (ballCoordinates x).map .num) ++
    ballCells.flatMap fun c => [.num 4, .num c.1, .num c.2.1, .num c.2.2.1, .num c.2.2.2, .num 1]

end Mito.Summit
