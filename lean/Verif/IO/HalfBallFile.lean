import Verif.IO.Summit

/-!
# The tokens of tests/input/bottom_half_ball.summit

A mesh of the lower half of the unit ball: 113 nodes and 327 tetrahedra.
-/

namespace Mito.Summit

/-- the coordinates of the nodes times `10 ^ 13`, plus `10 ^ 13`, tests/input/bottom_half_ball.summit:3-115 -/
def halfBallNodes : List (Nat × Nat × Nat) := [
  (20000000000000, 10000000000000, 10000000000000), (0, 10000000000000, 10000000000000),
  (10000000000000, 20000000000000, 10000000000000), (10000000000000, 0, 10000000000000), (10000000000000, 10000000000000, 0),
  (19238795320880, 13826834333860, 10000000000000), (17071067795620, 17071067828110, 10000000000000),
  (13826834311800, 19238795330020, 10000000000000), (6173165666140, 19238795320880, 10000000000000),
  (2928932171890, 17071067795620, 10000000000000), (761204669980, 13826834311800, 10000000000000),
  (761204679120, 6173165666140, 10000000000000), (2928932204380, 2928932171890, 10000000000000),
  (6173165688200, 761204669980, 10000000000000), (13826834333860, 761204679120, 10000000000000),
  (17071067828110, 2928932204380, 10000000000000), (19238795330020, 6173165688200, 10000000000000),
  (761204679120, 10000000000000, 6173165666140), (2928932204380, 10000000000000, 2928932171890),
  (6173165688200, 10000000000000, 761204669980), (13826834333860, 10000000000000, 761204679120),
  (17071067828110, 10000000000000, 2928932204380), (19238795330020, 10000000000000, 6173165688200),
  (10000000000000, 761204679120, 6173165666140), (10000000000000, 2928932204380, 2928932171890),
  (10000000000000, 6173165688200, 761204669980), (10000000000000, 13826834333860, 761204679120),
  (10000000000000, 17071067828110, 2928932204380), (10000000000000, 19238795330020, 6173165688200),
  (1913270360500, 14159615593790, 5840384410840), (4569369005580, 17729369897200, 6718980647000),
  (4570221442920, 13419890101580, 2330459171880), (7264925325800, 17962528691990, 4603936309150),
  (7154249909360, 15418561248990, 2091719503420), (7362623190510, 12798358339270, 768887706790),
  (4217876084120, 15756320962110, 4217975094950), (7305947151360, 19244100505020, 7300243510650),
  (591953643840, 12377860987840, 7584541268660), (5840384406210, 1913270360500, 5840384410840),
  (2167727522310, 4766642824740, 6643293204430), (4435395422590, 4985469594140, 3375072777320),
  (6944307993270, 6295569532110, 1228458444000), (2206894491660, 7224566991870, 4381772685870),
  (6998104420320, 3143069557840, 3368927097360), (662730079550, 7468657428100, 7468657428100),
  (4292424411400, 7538799277010, 2166350026870), (7622139012310, 591953643810, 7584541268640),
  (15393179011390, 2173984480290, 6890803763620), (15211554496020, 6848956433250, 2068378212780),
  (17953776829040, 4874496804730, 6764779582600), (17846168469820, 6980817622170, 4585004329390),
  (12976164628950, 2133918064290, 4590083264780), (12883474775170, 4635216566220, 2068753444150),
  (12570268682530, 7273963241980, 728406690680), (15864108677670, 4340980577770, 4204507907410),
  (12704105557940, 755041260280, 7313263869990), (19298984180130, 7386427793160, 7411924742740),
  (15390484263910, 13182056795850, 2201462063400), (14125141598090, 18086243508400, 5805256537200),
  (17642952645280, 13074847978000, 4331615329380), (13136519013590, 15487168964480, 2250598395190),
  (17512105213380, 15668018445480, 6617420782180), (12531342591690, 12531342591690, 662730090280),
  (19223145286350, 12710534721380, 7245623019430), (15898857778670, 15373790672320, 3972906943050),
  (12377860990690, 19408046358740, 7584541281490), (13307142414170, 15421692448660, 10000000000000),
  (15345342967240, 6428356030780, 10000000000000), (8699570026530, 3564192432560, 10000000000000),
  (3768660334290, 8764946255510, 10000000000000), (8745805420630, 16305261921340, 10000000000000),
  (15309553869550, 13786638128230, 10000000000000), (12549535239310, 12228313276340, 10000000000000),
  (4633169092770, 13405909175690, 10000000000000), (4944752374360, 6157867714260, 10000000000000),
  (16305261921190, 11254194579310, 10000000000000), (7296545163220, 8880192339620, 10000000000000),
  (13842254910140, 8980675218190, 10000000000000), (11536910605650, 5768531668540, 10000000000000),
  (13857409361750, 3812162553610, 10000000000000), (10188541404983, 9033154183132, 10000000000000),
  (8520893291450, 12231189899100, 10000000000000), (6139125707330, 15618387266510, 10000000000000),
  (2478903946010, 11233344547680, 10000000000000), (5525865250760, 10771737754688, 10000000000000),
  (11233344603560, 17521096035030, 10000000000000), (17521096053560, 8766655451060, 10000000000000),
  (11690089217390, 2771835649160, 10000000000000), (5767338905630, 3711944150780, 10000000000000),
  (10877661831642, 14659205786730, 10000000000000), (8132481777350, 6244285264780, 10000000000000),
  (9289311330419, 10856341383722, 4441269189830), (13034999018210, 6781480186620, 5760366315200),
  (5967569301520, 7205022204010, 6028630051810), (5281076001320, 12688233228410, 7057976939060),
  (14814559309640, 11860246446380, 6042420986970), (9534131410982, 15333714922820, 6661260599970),
  (9105001778943, 4691884453720, 6281346422140), (2755186174420, 7932107183210, 7554306783670),
  (17737850319680, 11292988257510, 8273288289750), (16154846268780, 5622866751920, 7529885483650),
  (8887281055380, 2177819537640, 8428520471820), (9121482524572, 17949564919880, 8423229294190),
  (14161678440860, 15284042711310, 7327454395690), (11441442198500, 2994335385860, 7891034901730),
  (11839573230890, 17661320592790, 7976316623940), (16806310320920, 13773402696010, 8267333428970),
  (6178974634590, 3873612089980, 7970885117610), (2750989967090, 10932902427458, 7347801519060),
  (16756725358370, 8688494454470, 7595224868440), (13948491357390, 3439066337740, 7367167741710),
  (6489423189890, 16999017935530, 8348393785140), (3607951121740, 5494556442140, 8347162024810)]

/-- the nodes of the cells, counted from one, tests/input/bottom_half_ball.summit:116-442 -/
def halfBallCells : List (Nat × Nat × Nat × Nat) := [
  (73, 104, 96, 97), (98, 92, 42, 94), (79, 105, 93, 80), (26, 93, 92, 98), (104, 61, 96, 97), (98, 42, 92, 26), (70, 84, 85, 95),
  (56, 111, 52, 105), (79, 105, 80, 88), (104, 72, 96, 107), (104, 61, 97, 59), (26, 54, 92, 93), (93, 105, 111, 80),
  (92, 96, 61, 97), (73, 104, 97, 67), (9, 10, 112, 83), (78, 110, 93, 96), (20, 42, 92, 94), (55, 111, 93, 52), (19, 92, 95, 94),
  (73, 90, 67, 97), (69, 105, 98, 79), (94, 81, 91, 98), (73, 96, 92, 97), (94, 109, 70, 95), (104, 61, 59, 65),
  (96, 62, 104, 107), (105, 52, 24, 98), (19, 109, 95, 30), (70, 95, 77, 94), (94, 81, 98, 92), (21, 92, 54, 93),
  (101, 80, 68, 93), (56, 111, 105, 15), (92, 94, 77, 95), (55, 101, 51, 93), (92, 93, 81, 98), (104, 61, 65, 96),
  (21, 92, 93, 96), (55, 111, 52, 48), (19, 109, 30, 18), (55, 101, 48, 50), (86, 67, 90, 97), (42, 26, 5, 92), (57, 50, 101, 51),
  (26, 54, 5, 92), (22, 110, 23, 96), (32, 92, 34, 95), (76, 110, 78, 96), (19, 92, 94, 20), (63, 96, 92, 21), (23, 110, 51, 57),
  (94, 81, 92, 77), (35, 27, 34, 92), (63, 96, 21, 58), (22, 93, 96, 21), (20, 42, 5, 92), (78, 110, 87, 68), (94, 81, 77, 91),
  (34, 95, 92, 97), (75, 108, 113, 94), (81, 93, 92, 96), (34, 92, 27, 97), (71, 112, 9, 103), (82, 92, 77, 95), (81, 78, 93, 96),
  (59, 106, 97, 104), (61, 58, 65, 96), (25, 93, 26, 98), (82, 81, 77, 92), (22, 93, 21, 49), (73, 104, 67, 72), (84, 74, 85, 95),
  (108, 94, 91, 98), (73, 81, 92, 96), (108, 91, 94, 75), (55, 111, 48, 101), (55, 101, 50, 51), (108, 39, 94, 98),
  (19, 99, 43, 94), (73, 78, 81, 96), (106, 59, 8, 104), (49, 21, 54, 93), (59, 62, 104, 65), (99, 43, 94, 40), (21, 5, 54, 92),
  (106, 8, 59, 66), (61, 27, 92, 97), (93, 111, 105, 52), (26, 53, 54, 93), (25, 93, 98, 52), (39, 40, 108, 94), (61, 27, 63, 92),
  (5, 35, 20, 92), (90, 73, 82, 97), (36, 31, 95, 97), (36, 95, 34, 97), (105, 24, 52, 56), (64, 107, 96, 100), (70, 77, 95, 85),
  (33, 36, 34, 97), (11, 84, 2, 109), (112, 95, 31, 97), (64, 107, 100, 6), (20, 46, 42, 94), (19, 99, 94, 109), (80, 79, 68, 93),
  (76, 110, 96, 100), (81, 93, 79, 98), (73, 92, 82, 97), (99, 43, 40, 45), (63, 5, 21, 92), (19, 92, 20, 32), (60, 62, 65, 96),
  (30, 109, 95, 11), (36, 33, 31, 97), (21, 22, 58, 96), (73, 81, 82, 92), (25, 93, 52, 53), (95, 83, 112, 10), (62, 60, 64, 96),
  (52, 55, 53, 93), (49, 55, 51, 93), (108, 91, 75, 89), (46, 20, 19, 94), (22, 110, 96, 93), (82, 77, 85, 95), (25, 93, 53, 26),
  (91, 81, 79, 98), (31, 30, 36, 95), (5, 27, 35, 92), (32, 92, 20, 35), (11, 84, 109, 95), (59, 106, 66, 29), (61, 28, 27, 97),
  (69, 105, 79, 88), (110, 76, 1, 100), (64, 23, 100, 96), (44, 94, 39, 98), (5, 63, 27, 92), (41, 40, 39, 94), (19, 99, 109, 18),
  (37, 112, 97, 103), (37, 112, 103, 9), (33, 37, 31, 97), (32, 92, 35, 34), (69, 105, 4, 102), (34, 27, 28, 97),
  (103, 86, 71, 97), (71, 112, 103, 97), (81, 78, 79, 93), (82, 95, 83, 97), (54, 53, 49, 93), (98, 108, 102, 69),
  (47, 108, 14, 102), (82, 92, 95, 97), (65, 58, 60, 96), (68, 79, 78, 93), (53, 55, 49, 93), (86, 90, 71, 97), (2, 99, 18, 109),
  (2, 18, 99, 45), (47, 108, 102, 98), (83, 82, 74, 95), (64, 60, 23, 96), (36, 32, 34, 95), (59, 28, 61, 97), (77, 91, 75, 94),
  (102, 24, 47, 98), (15, 4, 88, 105), (19, 92, 32, 95), (106, 103, 97, 86), (19, 109, 94, 95), (76, 110, 87, 78),
  (22, 23, 60, 96), (95, 84, 74, 11), (26, 42, 25, 98), (82, 85, 74, 95), (103, 37, 29, 97), (69, 105, 102, 98), (44, 94, 98, 42),
  (1, 23, 100, 64), (59, 29, 28, 97), (40, 99, 12, 113), (43, 40, 41, 94), (70, 77, 75, 94), (46, 41, 42, 94), (57, 50, 17, 101),
  (60, 58, 22, 96), (1, 110, 17, 87), (71, 82, 83, 97), (73, 72, 76, 96), (4, 47, 102, 24), (43, 41, 46, 94), (69, 91, 79, 98),
  (103, 37, 3, 29), (73, 76, 78, 96), (33, 29, 37, 97), (50, 16, 17, 101), (19, 43, 46, 94), (40, 99, 113, 94), (96, 104, 62, 65),
  (64, 107, 6, 62), (30, 19, 32, 95), (110, 100, 23, 96), (44, 25, 42, 98), (10, 30, 31, 95), (82, 71, 90, 97), (64, 107, 62, 96),
  (62, 104, 7, 59), (30, 109, 11, 38), (52, 25, 24, 98), (30, 32, 36, 95), (66, 106, 3, 29), (28, 33, 34, 97), (47, 24, 39, 98),
  (38, 109, 2, 18), (47, 108, 98, 39), (39, 40, 13, 108), (24, 105, 4, 56), (3, 9, 37, 103), (10, 11, 30, 95), (111, 15, 48, 16),
  (12, 2, 99, 45), (104, 8, 7, 59), (100, 6, 1, 64), (56, 111, 15, 48), (56, 111, 48, 52), (37, 112, 9, 31), (14, 39, 13, 108),
  (23, 57, 1, 110), (4, 47, 14, 102), (37, 112, 31, 97), (108, 113, 94, 40), (88, 80, 15, 105), (28, 29, 33, 97),
  (15, 4, 105, 56), (39, 24, 44, 98), (24, 25, 44, 98), (7, 6, 107, 62), (13, 12, 113, 40), (106, 3, 8, 66), (110, 100, 1, 23),
  (1, 57, 17, 110), (9, 10, 31, 112), (13, 12, 75, 113), (83, 95, 112, 97), (63, 96, 58, 61), (63, 96, 61, 92), (22, 93, 49, 51),
  (22, 110, 93, 51), (110, 101, 17, 68), (59, 106, 29, 97), (13, 75, 108, 113), (75, 99, 94, 113), (48, 101, 16, 50),
  (55, 111, 101, 93), (99, 43, 45, 18), (40, 99, 45, 12), (44, 94, 42, 41), (44, 94, 41, 39), (19, 99, 18, 43), (70, 2, 109, 99),
  (94, 109, 99, 70), (75, 99, 113, 12), (12, 2, 70, 99), (75, 99, 12, 70), (107, 76, 96, 100), (110, 1, 76, 87),
  (110, 93, 101, 68), (107, 76, 100, 6), (76, 6, 1, 100), (22, 110, 51, 23), (101, 111, 48, 16), (57, 101, 110, 51),
  (57, 101, 17, 110), (101, 16, 17, 68), (101, 80, 16, 68), (47, 108, 39, 14), (101, 80, 111, 16), (69, 4, 105, 88),
  (102, 105, 4, 24), (69, 14, 108, 102), (4, 102, 14, 69), (71, 112, 97, 83), (106, 103, 86, 3), (103, 86, 3, 71),
  (3, 9, 103, 71), (71, 112, 83, 9), (95, 112, 31, 10), (95, 83, 10, 74), (75, 99, 70, 94), (10, 11, 95, 74), (108, 91, 89, 69),
  (110, 93, 51, 101), (104, 107, 62, 7), (106, 67, 97, 104), (104, 72, 107, 7), (67, 8, 7, 104), (106, 67, 104, 8),
  (105, 93, 52, 98), (79, 105, 98, 93), (102, 105, 24, 98), (68, 17, 110, 87), (106, 67, 8, 86), (106, 103, 3, 29),
  (106, 67, 86, 97), (106, 103, 29, 97), (86, 3, 8, 106), (104, 72, 7, 67), (101, 80, 93, 111), (107, 76, 6, 72),
  (107, 76, 72, 96), (73, 104, 72, 96), (7, 6, 72, 107), (13, 108, 75, 89), (108, 113, 40, 13), (108, 91, 69, 98),
  (69, 108, 14, 89), (78, 110, 68, 93), (14, 108, 13, 89), (111, 105, 15, 80), (70, 109, 84, 95), (30, 109, 38, 18),
  (70, 109, 2, 84), (38, 11, 2, 109), (80, 15, 111, 16)]

/-- the coordinates of a node -/
def halfBallCoordinates (x : Nat × Nat × Nat) : List ℚ :=
  [mkRat (x.1 - 10 ^ 13) (10 ^ 13), mkRat (x.2.1 - 10 ^ 13) (10 ^ 13), mkRat (x.2.2 - 10 ^ 13) (10 ^ 13)]

/-- tests/input/bottom_half_ball.summit:1-442 -/
def halfBallFile : List Token :=
  [.num 3, .num 113, .num 327, .num 1] ++ halfBallNodes.flatMap (fun x => (halfBallCoordinates x).map .num) ++
    halfBallCells.flatMap fun c => [.num 4, .num c.1, .num c.2.1, .num c.2.2.1, .num c.2.2.2, .num 1]

end Mito.Summit
