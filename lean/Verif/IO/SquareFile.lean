import Verif.IO.Summit

/-!
# The tokens of tests/input/square.summit

The mesh of benchmarks/mito.lib/pdes/poisson.cc: 142 nodes and 242 triangles.
-/

namespace Mito.Summit

/-- the coordinates of the nodes times `10 ^ 13`, tests/input/square.summit:3-144 -/
def squareNodes : List (Nat × Nat) := [
  (0, 0), (10000000000000, 0), (10000000000000, 10000000000000), (0, 10000000000000), (999999999998, 0), (2000000000000, 0),
  (2999999999990, 0), (3999999999990, 0), (4999999999990, 0), (5999999999990, 0), (6999999999990, 0), (7999999999990, 0),
  (9000000000000, 0), (10000000000000, 999999999998), (10000000000000, 2000000000000), (10000000000000, 2999999999990),
  (10000000000000, 3999999999990), (10000000000000, 4999999999990), (10000000000000, 5999999999990),
  (10000000000000, 6999999999990), (10000000000000, 7999999999990), (10000000000000, 9000000000000),
  (9000000000000, 10000000000000), (8000000000000, 10000000000000), (7000000000010, 10000000000000),
  (6000000000010, 10000000000000), (5000000000020, 10000000000000), (4000000000020, 10000000000000),
  (3000000000010, 10000000000000), (2000000000010, 10000000000000), (1000000000000, 10000000000000), (0, 9000000000000),
  (0, 8000000000000), (0, 7000000000010), (0, 6000000000010), (0, 5000000000020), (0, 4000000000020), (0, 3000000000010),
  (0, 2000000000010), (0, 1000000000000), (4500000000020, 9133974596220), (923679274107, 4605742807380),
  (5499999999990, 866025403784), (9152217186780, 5468402906270), (6500000000010, 9133974596220), (888543020726, 6509201999020),
  (9133974596220, 3499999999990), (3475303635240, 819074880497), (9103703875040, 7586725654710), (2508173017630, 9138693290130),
  (7459788032310, 795922568968), (866025403788, 2500000000010), (905697247447, 8408174380940), (8495762630720, 9153227954950),
  (1504237369280, 846772045054), (9170502595850, 1505932316990), (3501362169620, 9134761045200), (4000227028290, 8268080267270),
  (5000037838060, 8267971038240), (4500044144400, 7401949275430), (5500013663750, 7401931677420), (5000009634700, 6535903947470),
  (3996660322690, 6539624100660), (4492890262150, 5674132367140), (5498816649490, 5670583805870), (4998617818620, 4804675945790),
  (5999572411360, 4804104109520), (3992029949380, 4808333042720), (4498441294680, 3938707812510), (3508014145110, 3944261231390),
  (6499731510150, 5670034207260), (7044542185660, 4836609274160), (6507352432850, 3943325211710), (2989417123120, 4807819782420),
  (4001075906650, 3073017552560), (3000000000030, 3071796769750), (4999919533570, 3072147840050), (4500000000020, 2205771365970),
  (7516124797970, 5701303236400), (7002642718020, 6541163631790), (7535358109400, 3987254670890), (7000000000010, 3071796769760),
  (8000000000000, 6535898384880), (7471434102060, 7386054505290), (5500000000020, 2205771365980), (8109810542590, 3047536098150),
  (7487737367130, 2215627586080), (3001627035940, 8268888562050), (1994089234460, 8296981761690), (2499286045090, 7410578833520),
  (1494939110590, 7431601482470), (1967429917980, 6534863612150), (1475064708400, 5596891567280), (2461396475420, 5647585225760),
  (2006125504550, 4738835212420), (1629581819740, 3803886475360), (3488732355470, 5672558538990), (6000008583640, 8267954148200),
  (8994183955990, 6528983889290), (6499999999990, 866025403786), (9157740970140, 4494733817700), (8167956118740, 4899817334730),
  (4498499977840, 839345655930), (5500007736960, 9133979063150), (2471893802660, 840732970607), (1856343100130, 1794039491430),
  (9132469817450, 2508911402520), (6000202362690, 6536923509740), (7499293771790, 9137183489340), (3492006954960, 2288327370240),
  (5500650581850, 3939126281560), (6495716905030, 7400329444150), (6994408893750, 8265574229270), (6001320424720, 3072989805840),
  (8150407418200, 8183024367050), (6500000000020, 2205771365980), (3499640762740, 7407829625700), (2985524313230, 6535506656130),
  (1530678781040, 9178724624820), (9167537064250, 8508718537560), (829662911598, 1498875452110), (1890575670470, 2940842362160),
  (8440933898600, 938543439771), (2503952377170, 3884573638920), (797280391353, 3493512757060), (8380531170040, 2000000000000),
  (8406928938280, 3992789991980), (2898261153520, 1633999302290), (657835875752, 7469795572490), (6999999999990, 1535898384870),
  (5999999999990, 1535898384870), (4999999999990, 1535898384870), (3977345286930, 1553736159970), (8325961894320, 7301442841500),
  (652562635317, 5500000000020), (8366096411900, 5826881150320), (2613872612270, 2359890604550), (9267949192430, 9267949192430),
  (732050807569, 9267949192430), (9267949192430, 732050807566), (732050807566, 732050807568), (7753798093620, 1497198395940)]

/-- the nodes of the triangles, counted from one, tests/input/square.summit:145-386 -/
def squareCells : List (Nat × Nat × Nat) := [
  (72, 81, 102), (122, 76, 124), (115, 49, 120), (106, 52, 121), (52, 106, 122), (49, 115, 134), (96, 122, 124), (47, 86, 107),
  (52, 122, 125), (93, 42, 95), (89, 53, 91), (122, 96, 125), (102, 81, 127), (107, 86, 126), (79, 72, 102), (42, 93, 135),
  (91, 53, 129), (91, 46, 92), (92, 46, 93), (86, 47, 127), (95, 42, 96), (54, 115, 120), (55, 106, 121), (83, 99, 134),
  (53, 89, 119), (123, 56, 126), (86, 87, 126), (128, 48, 133), (68, 64, 97), (92, 94, 118), (99, 83, 136), (74, 94, 95),
  (99, 49, 134), (94, 97, 118), (64, 63, 97), (74, 68, 97), (92, 93, 94), (123, 126, 142), (46, 91, 129), (74, 95, 124),
  (110, 128, 133), (76, 122, 137), (94, 93, 95), (94, 74, 97), (41, 57, 58), (41, 28, 57), (27, 28, 41), (88, 50, 89),
  (36, 37, 42), (98, 45, 104), (44, 19, 99), (45, 26, 104), (57, 50, 88), (88, 89, 90), (43, 10, 100), (27, 41, 104),
  (29, 50, 57), (18, 19, 44), (9, 10, 43), (41, 58, 59), (28, 29, 57), (26, 27, 104), (18, 44, 101), (48, 8, 103), (9, 43, 103),
  (47, 17, 101), (90, 89, 91), (20, 49, 99), (41, 59, 104), (45, 98, 113), (8, 9, 103), (11, 51, 100), (17, 18, 101),
  (90, 91, 92), (19, 20, 99), (59, 98, 104), (10, 11, 100), (29, 30, 50), (109, 113, 115), (20, 21, 49), (38, 39, 52),
  (101, 44, 102), (109, 45, 113), (11, 12, 51), (59, 58, 60), (23, 24, 54), (7, 8, 48), (70, 68, 74), (32, 33, 53), (16, 17, 47),
  (62, 60, 63), (66, 64, 68), (58, 57, 88), (7, 48, 105), (80, 84, 112), (34, 35, 46), (66, 68, 69), (69, 75, 77), (16, 47, 107),
  (65, 67, 71), (25, 26, 45), (80, 83, 84), (71, 79, 80), (15, 16, 107), (71, 72, 79), (62, 63, 64), (6, 7, 105), (71, 67, 72),
  (65, 64, 66), (65, 66, 67), (77, 75, 78), (71, 80, 108), (62, 64, 65), (77, 78, 85), (59, 61, 98), (62, 65, 108),
  (65, 71, 108), (14, 15, 56), (78, 75, 110), (98, 61, 112), (72, 73, 81), (69, 70, 75), (81, 82, 86), (66, 69, 111),
  (61, 60, 62), (5, 6, 55), (72, 67, 73), (67, 66, 111), (59, 60, 61), (54, 24, 109), (61, 62, 108), (69, 68, 70), (24, 25, 109),
  (56, 15, 107), (69, 77, 111), (61, 108, 112), (80, 79, 83), (81, 73, 82), (75, 76, 110), (55, 6, 105), (73, 67, 111),
  (86, 82, 87), (25, 45, 109), (75, 70, 76), (112, 84, 113), (55, 105, 106), (108, 80, 112), (98, 112, 113), (111, 77, 114),
  (88, 90, 117), (73, 111, 114), (113, 84, 115), (77, 85, 114), (114, 85, 116), (82, 73, 114), (82, 114, 116), (60, 58, 117),
  (54, 109, 115), (63, 60, 117), (87, 82, 116), (58, 88, 117), (95, 96, 124), (97, 63, 118), (90, 92, 118), (63, 117, 118),
  (96, 42, 125), (117, 90, 118), (89, 50, 119), (30, 31, 119), (21, 22, 120), (39, 40, 121), (12, 13, 123), (76, 70, 124),
  (42, 37, 125), (38, 52, 125), (93, 46, 135), (101, 102, 127), (81, 86, 127), (50, 30, 119), (49, 21, 120), (52, 39, 121),
  (51, 12, 123), (105, 48, 128), (70, 74, 124), (53, 33, 129), (34, 46, 129), (115, 84, 134), (36, 42, 135), (46, 35, 135),
  (44, 99, 136), (3, 23, 138), (4, 32, 139), (22, 3, 138), (2, 14, 140), (13, 2, 140), (1, 5, 141), (40, 1, 141), (31, 4, 139),
  (37, 38, 125), (56, 107, 126), (122, 106, 137), (47, 101, 127), (110, 76, 137), (79, 102, 136), (106, 105, 128), (83, 79, 136),
  (130, 116, 131), (48, 103, 133), (131, 85, 132), (85, 78, 132), (116, 85, 131), (33, 34, 129), (87, 116, 130), (43, 100, 131),
  (100, 130, 131), (100, 51, 130), (43, 131, 132), (103, 43, 132), (78, 110, 133), (132, 78, 133), (103, 132, 133),
  (84, 83, 134), (35, 36, 135), (102, 44, 136), (51, 123, 142), (119, 31, 139), (121, 40, 141), (120, 22, 138), (123, 13, 140),
  (23, 54, 138), (32, 53, 139), (14, 56, 140), (5, 55, 141), (128, 110, 137), (53, 119, 139), (54, 120, 138), (55, 121, 141),
  (56, 123, 140), (106, 128, 137), (126, 87, 142), (87, 130, 142), (130, 51, 142)]

/-- the coordinates of a node -/
def squareCoordinates (x : Nat × Nat) : List ℚ := [mkRat x.1 (10 ^ 13), mkRat x.2 (10 ^ 13)]

/-- tests/input/square.summit:1-386 -/
def squareFile : List Token :=
  [.num 2, .num 142, .num 242, .num 1] ++ squareNodes.flatMap (fun x => (squareCoordinates x).map .num) ++
    squareCells.flatMap fun c => [.num 3, .num c.1, .num c.2.1, .num c.2.2, .num 1]

end Mito.Summit
