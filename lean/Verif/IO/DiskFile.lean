import Verif.IO.Summit

/-!
# The tokens of tests/input/disk_cartesian.summit

A mesh of the unit disk: 423 nodes and 780 triangles.
-/

namespace Mito.Summit

/-- the coordinates of the nodes times `10 ^ 14`, plus `10 ^ 14`, tests/input/disk_cartesian.summit:3-425 -/
def diskNodes : List (Nat × Nat) := [
  (200000000000000, 100000000000000), (100000000000000, 200000000000000), (0, 100000000000000), (100000000000000, 0),
  (90198285945600, 199518472665100), (80490967749400, 198078528030600), (70971532199900, 195694033550600),
  (61731656661400, 192387953208800), (52860326198100, 188192126371100), (44442976559600, 183146961137800),
  (36560671427100, 177301045207800), (29289321718900, 170710677956200), (22698954530800, 163439328254400),
  (16853038670100, 155557023152900), (11807873492600, 147139673546800), (7612046699800, 138268343118000),
  (4305966399000, 129028467634000), (1921471947700, 119509032141200), (481527329900, 109801714003400),
  (481527334900, 90198285945600), (1921471969400, 80490967749400), (4305966449400, 70971532199900),
  (7612046791200, 61731656661400), (11807873628900, 52860326198100), (16853038862200, 44442976559600),
  (22698954792200, 36560671427100), (29289322043800, 29289321718900), (36560671745600, 22698954530800),
  (44442976847100, 16853038670100), (52860326453200, 11807873492600), (61731656882000, 7612046699800),
  (70971532366000, 4305966399000), (80490967858800, 1921471947700), (90198285996600, 481527329900),
  (109801714054400, 481527334900), (119509032250600, 1921471969400), (129028467800100, 4305966449400),
  (138268343338600, 7612046791200), (147139673801900, 11807873628900), (155557023440400, 16853038862200),
  (163439328572900, 22698954792200), (170710678281100, 29289322043800), (177301045469200, 36560671745600),
  (183146961329900, 44442976847100), (188192126507400, 52860326453200), (192387953300200, 61731656882000),
  (195694033601000, 70971532366000), (198078528052300, 80490967858800), (199518472670100, 90198285996600),
  (199518472665100, 109801714054400), (198078528030600, 119509032250600), (195694033550600, 129028467800100),
  (192387953208800, 138268343338600), (188192126371100, 147139673801900), (183146961137800, 155557023440400),
  (177301045207800, 163439328572900), (170710677956200, 170710678281100), (163439328254400, 177301045469200),
  (155557023152900, 183146961329900), (147139673546800, 188192126507400), (138268343118000, 192387953300200),
  (129028467634000, 195694033601000), (119509032141200, 198078528052300), (109801714003400, 199518472670100),
  (11363207315400, 120792439251700), (187961130123600, 78403082613300), (122036082236200, 188030272230000),
  (77462841718200, 11134223701900), (180105516468900, 146571264550200), (146142771727300, 20203198605100),
  (22046484604600, 53493358252100), (53662599762100, 177985334692000), (154191569760600, 174873333846000),
  (174221889604600, 46164284208600), (45625607172800, 26885749102900), (26142954102200, 154779697623200),
  (87756849901600, 192015948346200), (190239307763000, 113454529250600), (113153976542900, 9224622420000),
  (9361947848500, 86311957467900), (104360601301590, 191431832361600), (192170847752500, 96980075647000),
  (139070315741300, 182607242389800), (95095137078330, 8835465377400), (181906785023000, 60317392293600),
  (60562318787000, 17627716309700), (167708688030100, 161367577980600), (162517779800100, 30642732319000),
  (32107069398700, 38544583509900), (38632422019400, 167708688030100), (185886741398300, 131092940009800),
  (131728366839200, 13704352428900), (13697946366800, 68637382602500), (69457990951000, 186239539632100),
  (8749075774200, 104393526378770), (17139659765800, 139386707391700), (173946246705000, 153829309172100),
  (164643204975700, 151818479740800), (158255153511100, 158945270689500), (155345866643500, 149747815275000),
  (148706360895300, 156828059075000), (145838316117200, 147526964809800), (152576138247100, 140421352653900),
  (143032767555300, 138151498960700), (136286701789700, 145279893558100), (133486826048900, 135879067723400),
  (140233206147000, 128753309067500), (130687880680600, 126475206996400), (123941263179400, 133602064163600),
  (121142634873100, 124196425674700), (127889211029500, 117069850516000), (118344045968000, 114790568412200),
  (111597455201100, 121917228964300), (108798890810440, 112511224950200), (115545477575100, 105384588815820),
  (106000329433260, 103105202917250), (99253741486962, 110231846166800), (96455182153910, 100825811805987),
  (103201769759000, 93699170621020), (93656623071860, 91419775932380), (86910035368000, 98546417716360),
  (100403210718693, 84293134495200), (84111476457600, 89140380804000), (77364888766000, 96267022515990),
  (74566329886400, 86860985418100), (67819742200400, 93987627093590), (70618301072300, 103393664237750),
  (65021183327900, 84581589952800), (71767771009400, 77454948303200), (61073154516100, 101114268759400),
  (63871713388200, 110520305902200), (62222624456200, 75175552812500), (68969212136600, 68048911164800),
  (54326566835300, 108240910409000), (57125125706100, 117646947554100), (66670272259000, 119926343049600),
  (59923684576900, 127052984699300), (69468831130200, 129332380195500), (55476036773500, 82302194463400),
  (109948357266020, 86572530027500), (107149798350190, 77166493155000), (116694944909800, 79445888606400),
  (113896386032500, 70039851498300), (123441532584600, 72319246993900), (120642973713500, 62913209856100),
  (111097827160900, 60633814357300), (130188120264600, 65192605354300), (132986679133900, 74598642496900),
  (62722243447500, 136459021845300), (72267390002100, 138738417341700), (117844414843100, 53507172712100),
  (108299268291940, 51227777212500), (139733266811700, 67472000852300), (142531825680700, 76878037991100),
  (59424065585500, 65769515670200), (66170653263400, 58642874022500), (136934707945000, 58065963710900),
  (47579979153900, 115367552059200), (44781420282700, 105961514914140), (65520802318300, 145865058992500),
  (75065948874200, 148144454488100), (81812536556300, 141017812837700), (84611095428900, 150423849983200),
  (53177096891400, 134179626349800), (115045855974100, 44101135566200), (105500709423490, 41821740070000),
  (149278413357100, 69751396348600), (152076972224900, 79157433485700), (145330384549700, 86284075128900),
  (154875531094200, 88563470622700), (98754121743860, 48948381714100), (95955562876070, 39542344573300),
  (148128943419100, 95690112266600), (157674089963900, 97969507760600), (78514358687800, 70328306662100),
  (91357683108460, 143297208333500), (94156241980420, 152703245477800), (87409654301700, 159829887126300),
  (96954800852590, 162109282618800), (103701388528190, 154982640971900), (56804784166200, 56310138477500),
  (49878919035000, 63490120174400), (63401973971800, 49227946864800), (106499947400680, 164388678110100),
  (68319361191700, 155271096138700), (38034832600000, 113088156564400), (35236273727900, 103682119416990),
  (164420677638900, 90842866117320), (167219236510000, 100248903255523), (160472648833600, 107375544901080),
  (158823559898900, 72030791843700), (156025001032200, 62624754709800), (113246535071300, 157262036474500),
  (72922220878500, 51514750704400), (70124492020100, 42108466605600), (138583796874100, 93410716772680),
  (76215418813000, 122205738546700), (58774214634000, 152991700642700), (102702150553050, 32415702930800),
  (116045093945600, 166668073601300), (93157004010070, 30136307436000), (54041084814900, 46893729608000),
  (170017795382900, 109654940395610), (163271207736800, 116781582034700), (90208213175620, 169235924268200),
  (28489686045900, 110808761068600), (31288244918200, 120214798214700), (122791681613700, 159541431967700),
  (153726061217500, 114502186689100), (110447976225200, 147855999347500), (97604651804290, 74887097603000),
  (88559124237400, 133891171188500), (119493503784400, 88851925739700), (124591002527000, 46380531063800),
  (121792443656000, 36974493916500), (131337590211400, 39253889413500), (98104270788450, 136170566684700),
  (80663066622400, 166956528776300), (41982861410000, 96555477765490), (32437714854700, 94276082268040),
  (141382355742700, 102816753911280), (39184302537100, 87149440615000), (29639155979400, 84870045116400),
  (36385743664200, 77743403464000), (125590240487500, 168947469090300), (61588921658100, 162330116155200),
  (109298506274870, 173794715243300), (173784624681400, 93176173527100), (171137065394300, 83725209795100),
  (172816354262100, 119060977537100), (166069764642600, 126187659324800), (165565274642800, 64905600036900),
  (132442129293500, 161923198570500), (86410416336200, 37262949076800), (83755281667800, 27992687525100),
  (131837209196300, 100537358417572), (95305711918280, 126764529540000), (128504068495700, 29994261900200),
  (118934704416200, 27816279171200), (52265639443400, 159856587297300), (49268736825200, 150668679313100),
  (100208214831396, 23376985715300), (162320563458600, 55632305685600), (153151271292000, 53241083008900),
  (23282738832100, 92282868264880), (83511953291600, 176151814353100), (93254166198410, 178136230970000),
  (27148412008500, 75755407523000), (33585874849200, 68606251551200), (137951900446800, 32681169905500),
  (140860690520400, 41625605274700), (147230721550500, 34914482959500), (159365117098500, 46199681957900),
  (74274495165400, 173333868325500), (135426872649200, 171814057408900), (128464302977700, 178539515969500),
  (180748524984500, 85680074591600), (177913852985800, 76589582841900), (21298860511500, 118437005353200),
  (25274215947500, 127179598426400), (34208896907200, 129593861785200), (17865935500400, 108891643599860),
  (179706002732800, 111821332505600), (23656096891700, 65948692374900), (31568893789700, 58885549102500),
  (172182579200000, 56545728414800), (41807741943900, 158476100314000), (39867878299500, 148293247536600),
  (175849778557600, 128447536846300), (168832227194200, 135330949191800), (30809161722100, 48832938994200),
  (38614126665600, 52199345079900), (25782815183900, 136921697032100), (145138740480100, 173348897696000),
  (142147443643300, 164192944685400), (136252473082900, 23121683553600), (161872556242300, 142419517601900),
  (149778228806900, 131029619191200), (139138435558200, 154694575453200), (126740124510000, 143006761397900),
  (137434409025200, 119348897049700), (146979573337800, 121627504446900), (76890142147000, 35005894743300),
  (74944370471300, 26256212781300), (79669772346200, 44392779203000), (82464208110700, 53795912334600),
  (114396032180800, 131323160628100), (117194656028100, 140728890432700), (134635786853800, 109943275167840),
  (168357988037700, 74313376364900), (129565365916300, 152430209304400), (91337769749780, 19115027289500),
  (118994628853100, 176745726382800), (111923353137200, 183994988971600), (102630451882790, 181182390933900),
  (46467780128900, 141275720008100), (67665152694500, 33004022183700), (60672678211000, 39868388654100),
  (57685943421100, 28599027178300), (50838054625300, 37298225103800), (45020826340400, 45010716499000),
  (99807680964159, 171474537024100), (101552680610380, 58354418858000), (92007837493360, 56075070772700),
  (94806143498310, 65481068401800), (126240091458200, 81725284125600), (81312917565600, 79734343774700),
  (88059513672500, 72607703460200), (161615299048200, 81438858038200), (75716933240400, 60922069983800),
  (40853740323300, 122489698113700), (85760565366200, 124485134043500), (112237433708400, 34736402157300),
  (112746916745200, 95978563508210), (134132474704300, 48675313291300), (90858065548440, 82013739344900),
  (104351247909430, 67760457312200), (92507153173570, 117358491631400), (82962006515200, 115079096770000),
  (127388948999600, 55789132664700), (79013977684200, 131611775692300), (50381929498400, 124772839938400),
  (125090632212700, 107663934042910), (85261499117200, 63201688602500), (89708594386700, 107952453973600),
  (80163447674900, 105673059435730), (58274595644500, 91708231610950), (73416859953800, 112799701323700),
  (55988479040900, 143573301191900), (43662467734500, 131889769782200), (104850864504540, 129043889314900),
  (107649438230670, 138449851706300), (25691127172300, 101402723921770), (135785238004700, 84004679632800),
  (102052302849150, 119637868427900), (89210319817700, 46669572945800), (146467326010600, 60349086783800),
  (143662392295900, 50961622084000), (100902833143568, 145576585420300), (51528007963400, 98834873262430),
  (150927502298000, 105096149429510), (77864507748000, 157550491632600), (176531351356700, 102585892391170),
  (36885362658000, 139026872498100), (19201072885200, 83324653367600), (52677477904200, 72896157317500),
  (48729449091400, 89428836113500), (45930890220500, 80022798965500), (182496526068200, 121090269961000),
  (109456133579290, 25531918200100), (144180948079200, 112222461115700), (71180280796200, 164540979326600),
  (129038650328500, 91131321269380), (149896196438200, 44040608111400), (43079500599500, 70881894669300),
  (122292064973700, 98257948632270), (63931853410400, 172236461735100), (119997723227500, 150137554820800),
  (156524667133100, 123907175567500), (159275597044400, 133216045588500), (175086056537600, 67192244693000),
  (41173401394300, 37048146976800), (177793471594000, 137633193398400), (186036675121200, 104888876069420),
  (107076021618940, 16638285091300), (16497328027500, 99018792756816), (54373911257600, 168944828893300),
  (30558146772000, 146518812603800), (116095193682100, 18504532639200), (95048098917250, 186715991983500),
  (61778975637000, 182074775678200), (185158301928500, 69200915281600), (16110967403300, 130002036886700),
  (153438096384700, 27255901465100), (45035194569300, 174111460575100), (122507622086700, 11496869806400),
  (78802099754000, 189404686809400), (15764089656600, 60534283217800), (11271790914400, 77444917201900),
  (190470352919000, 87498174253400), (160919225968200, 168082840617300), (86043141031400, 10125540658600),
  (166577199135300, 39333291848900), (68459196952600, 13874826856100), (52564058816600, 20857913114400),
  (8404496087400, 95243579742650), (31632899130700, 161964328053300), (21380747997800, 146717268558400),
  (9331231974800, 113005053545500), (125630487806500, 20929361254200), (131297061794300, 187304241300700),
  (48156024872400, 53764042727500), (104023414331730, 8441469983500), (182739598210300, 95510022599910),
  (179360587311900, 52433094701600), (81673843786900, 19265528305400), (151559749043100, 166045224434900),
  (40813889968500, 61304533884100), (66821496812800, 23343810570500), (171003402760400, 144395753634500),
  (139906325758000, 15289831001500), (190480971695200, 122664303616600), (46422981846700, 165819533022000),
  (77029222285000, 181252765026100), (113619439721900, 192337701833400), (156104985297600, 37132085093000),
  (34001924049600, 154006437226200), (24700365836000, 44172383594400), (193593060660400, 105025039004290),
  (19088667899400, 74673972211100), (99548111522034, 15281446691400), (15337097539500, 91538915906810),
  (148421398114800, 180786222453400), (166816897821600, 49175177284400), (85900398391300, 183946239581400),
  (37544917104200, 44327146212000), (73872349948400, 18774920443000), (36689996706000, 30267127452800),
  (144138966234100, 27900973193300), (185215367914700, 140303391464500), (95397089126530, 194344005410800),
  (68780269386300, 178965740629100), (15148056012900, 115098801283400)]

/-- the nodes of the cells, counted from one, tests/input/disk_cartesian.summit:426-1205 -/
def diskCells : List (Nat × Nat × Nat) := [
  (383, 253, 406), (84, 292, 382), (256, 67, 293), (65, 259, 373), (75, 299, 300), (88, 383, 406), (259, 260, 373),
  (264, 71, 265), (86, 299, 385), (299, 86, 399), (293, 67, 294), (273, 96, 373), (71, 264, 378), (260, 273, 373), (357, 72, 367),
  (72, 357, 371), (257, 380, 394), (292, 84, 411), (382, 292, 396), (299, 75, 385), (8, 9, 371), (255, 83, 256), (46, 47, 372),
  (16, 17, 373), (380, 82, 394), (96, 273, 388), (273, 368, 388), (83, 255, 274), (75, 300, 362), (392, 182, 398), (66, 257, 258),
  (263, 78, 349), (74, 266, 414), (266, 74, 395), (95, 262, 389), (267, 90, 387), (97, 98, 400), (227, 293, 294), (369, 376, 390),
  (253, 383, 414), (252, 374, 406), (94, 8, 371), (9, 72, 371), (345, 80, 379), (257, 66, 380), (67, 256, 391), (389, 262, 423),
  (47, 66, 372), (85, 46, 372), (265, 71, 271), (272, 392, 398), (96, 16, 373), (17, 65, 373), (227, 294, 295), (399, 384, 417),
  (275, 233, 279), (295, 247, 302), (276, 70, 419), (70, 276, 401), (91, 269, 349), (374, 252, 419), (86, 384, 399),
  (99, 381, 397), (262, 95, 366), (69, 97, 400), (266, 85, 361), (68, 382, 396), (256, 83, 391), (73, 274, 397), (101, 275, 279),
  (274, 275, 397), (294, 81, 295), (255, 233, 275), (78, 263, 364), (377, 404, 415), (227, 295, 302), (267, 387, 407),
  (376, 92, 390), (367, 72, 375), (269, 91, 363), (270, 363, 400), (80, 345, 412), (265, 271, 272), (270, 269, 363),
  (374, 88, 406), (349, 78, 402), (82, 364, 394), (77, 377, 415), (381, 73, 397), (274, 255, 275), (277, 103, 360),
  (270, 277, 360), (100, 103, 277), (105, 279, 291), (279, 233, 291), (105, 102, 279), (359, 231, 360), (278, 359, 360),
  (278, 107, 282), (231, 270, 360), (278, 282, 359), (104, 107, 278), (280, 105, 291), (106, 105, 280), (209, 282, 351),
  (282, 281, 351), (281, 111, 289), (281, 289, 351), (282, 209, 359), (108, 111, 281), (287, 288, 332), (280, 291, 358),
  (288, 210, 332), (288, 280, 358), (298, 202, 300), (300, 202, 301), (287, 109, 288), (183, 202, 298), (195, 283, 285),
  (194, 195, 285), (194, 285, 286), (283, 195, 297), (195, 183, 298), (304, 286, 336), (289, 111, 323), (111, 112, 323),
  (286, 285, 336), (286, 304, 324), (56, 57, 87), (41, 42, 88), (26, 27, 89), (258, 229, 290), (11, 12, 90), (290, 229, 309),
  (304, 305, 324), (115, 314, 356), (305, 211, 308), (50, 51, 78), (35, 36, 79), (5, 6, 77), (52, 53, 91), (37, 38, 92),
  (112, 115, 323), (225, 256, 293), (54, 55, 69), (39, 40, 70), (7, 8, 94), (305, 308, 324), (229, 188, 309), (24, 25, 71),
  (22, 23, 93), (296, 164, 329), (175, 310, 324), (201, 235, 292), (9, 10, 72), (164, 296, 330), (20, 21, 80), (200, 225, 293),
  (251, 252, 354), (175, 133, 310), (225, 255, 256), (247, 205, 302), (310, 286, 324), (323, 115, 356), (211, 305, 317),
  (144, 148, 306), (228, 229, 257), (308, 211, 316), (194, 286, 310), (257, 229, 258), (228, 188, 229), (110, 109, 287),
  (188, 170, 309), (214, 315, 320), (186, 158, 311), (322, 164, 330), (201, 234, 235), (241, 267, 268), (315, 251, 338),
  (135, 137, 322), (303, 146, 317), (242, 201, 292), (156, 181, 183), (191, 290, 309), (123, 125, 307), (142, 144, 306),
  (179, 180, 184), (133, 155, 156), (166, 171, 172), (227, 200, 293), (184, 193, 200), (311, 158, 322), (123, 307, 316),
  (201, 172, 234), (326, 319, 328), (184, 200, 227), (164, 149, 329), (312, 197, 319), (199, 172, 201), (191, 192, 232),
  (235, 283, 284), (200, 208, 225), (241, 268, 296), (149, 160, 329), (117, 114, 335), (194, 183, 195), (232, 243, 266),
  (129, 132, 133), (156, 183, 194), (166, 152, 171), (137, 164, 322), (165, 152, 166), (217, 332, 339), (168, 167, 191),
  (197, 312, 321), (191, 232, 290), (319, 197, 328), (154, 153, 167), (241, 296, 329), (163, 176, 177), (259, 207, 260),
  (117, 318, 325), (306, 148, 334), (184, 227, 302), (198, 240, 241), (158, 135, 322), (307, 308, 316), (144, 147, 148),
  (332, 210, 339), (315, 157, 320), (178, 177, 179), (191, 167, 192), (179, 177, 180), (148, 147, 153), (189, 228, 343),
  (129, 133, 175), (305, 303, 317), (318, 319, 325), (235, 234, 283), (206, 186, 207), (189, 188, 228), (168, 191, 309),
  (183, 181, 202), (241, 240, 267), (225, 233, 255), (133, 156, 310), (125, 129, 307), (152, 146, 303), (260, 207, 261),
  (325, 319, 326), (144, 145, 147), (140, 142, 213), (216, 250, 251), (260, 261, 273), (163, 162, 176), (297, 298, 299),
  (115, 116, 314), (207, 186, 311), (142, 143, 144), (232, 192, 243), (297, 195, 298), (151, 146, 152), (318, 117, 335),
  (148, 153, 154), (174, 170, 188), (296, 268, 344), (161, 162, 163), (213, 142, 306), (122, 120, 316), (154, 167, 168),
  (116, 119, 314), (60, 61, 83), (146, 143, 317), (179, 184, 302), (216, 251, 315), (246, 205, 247), (251, 250, 252),
  (234, 172, 336), (143, 141, 317), (45, 46, 85), (140, 141, 142), (134, 131, 135), (311, 322, 330), (184, 180, 193),
  (176, 212, 217), (206, 207, 259), (199, 201, 242), (151, 214, 320), (211, 122, 316), (156, 155, 181), (120, 123, 316),
  (170, 168, 309), (30, 31, 86), (125, 128, 129), (133, 132, 155), (312, 212, 321), (192, 167, 337), (135, 131, 136),
  (141, 211, 317), (197, 136, 328), (176, 162, 212), (166, 172, 199), (134, 135, 158), (136, 131, 328), (284, 283, 297),
  (161, 150, 162), (200, 193, 208), (137, 149, 164), (138, 197, 321), (130, 131, 134), (214, 216, 315), (130, 127, 131),
  (212, 162, 321), (119, 140, 314), (119, 122, 140), (150, 138, 321), (169, 168, 170), (129, 128, 132), (249, 264, 265),
  (217, 212, 237), (205, 179, 302), (190, 204, 209), (160, 198, 329), (166, 199, 313), (171, 303, 304), (116, 114, 117),
  (163, 177, 178), (113, 287, 331), (165, 166, 313), (120, 118, 121), (213, 306, 353), (180, 177, 339), (151, 152, 165),
  (114, 113, 335), (118, 117, 325), (162, 150, 321), (261, 207, 311), (116, 117, 118), (126, 124, 127), (123, 121, 124),
  (331, 287, 332), (217, 331, 332), (126, 130, 327), (237, 312, 318), (285, 234, 336), (198, 241, 329), (124, 121, 326),
  (237, 212, 312), (140, 213, 314), (121, 118, 325), (135, 136, 137), (121, 325, 326), (120, 121, 123), (138, 136, 197),
  (131, 127, 328), (141, 122, 211), (140, 122, 141), (126, 127, 130), (112, 113, 114), (142, 141, 143), (62, 63, 67),
  (318, 312, 319), (113, 110, 287), (127, 124, 326), (144, 143, 145), (171, 152, 303), (153, 147, 157), (169, 170, 173),
  (145, 143, 146), (145, 146, 151), (307, 175, 308), (113, 331, 335), (178, 179, 205), (112, 114, 115), (154, 168, 169),
  (129, 175, 307), (125, 124, 126), (119, 118, 120), (206, 259, 262), (127, 326, 328), (308, 175, 324), (261, 311, 330),
  (217, 237, 331), (176, 217, 339), (47, 48, 66), (115, 114, 116), (119, 120, 122), (224, 248, 249), (116, 118, 119),
  (160, 150, 161), (225, 208, 233), (159, 158, 186), (299, 298, 300), (222, 223, 224), (187, 186, 206), (149, 138, 150),
  (137, 136, 138), (190, 209, 341), (167, 153, 337), (123, 124, 125), (156, 194, 310), (304, 303, 305), (128, 126, 327),
  (32, 33, 68), (198, 226, 240), (151, 165, 214), (314, 213, 356), (238, 215, 239), (112, 110, 113), (236, 221, 289),
  (210, 180, 339), (172, 171, 336), (132, 128, 139), (145, 151, 320), (237, 318, 335), (137, 138, 149), (174, 188, 189),
  (219, 220, 222), (239, 215, 313), (125, 126, 128), (236, 289, 323), (177, 176, 339), (214, 165, 215), (163, 178, 342),
  (147, 145, 320), (111, 110, 112), (331, 237, 335), (169, 173, 196), (139, 128, 327), (171, 304, 336), (173, 170, 174),
  (244, 192, 337), (160, 185, 198), (327, 130, 340), (134, 158, 159), (153, 157, 337), (196, 173, 221), (148, 154, 334),
  (213, 353, 356), (214, 215, 216), (130, 134, 340), (203, 189, 343), (161, 163, 342), (160, 161, 185), (273, 261, 344),
  (224, 249, 355), (206, 262, 333), (149, 150, 160), (154, 169, 334), (190, 203, 204), (196, 221, 236), (159, 187, 219),
  (187, 206, 333), (249, 248, 264), (244, 337, 338), (216, 238, 250), (261, 330, 344), (283, 234, 285), (224, 223, 248),
  (157, 315, 338), (245, 220, 333), (204, 230, 231), (223, 220, 245), (169, 196, 334), (222, 220, 223), (231, 269, 270),
  (198, 185, 226), (327, 340, 347), (159, 186, 187), (337, 157, 338), (185, 161, 342), (219, 187, 220), (230, 203, 263),
  (193, 180, 210), (338, 251, 354), (330, 296, 344), (220, 187, 333), (190, 189, 203), (216, 215, 238), (250, 238, 276),
  (139, 347, 348), (244, 338, 354), (157, 147, 320), (134, 159, 340), (243, 192, 244), (178, 218, 342), (341, 209, 351),
  (174, 189, 190), (159, 219, 340), (215, 165, 313), (221, 173, 341), (204, 203, 230), (218, 205, 246), (347, 222, 348),
  (231, 230, 269), (181, 155, 182), (173, 174, 341), (222, 224, 348), (253, 244, 354), (243, 244, 253), (219, 222, 347),
  (132, 139, 346), (233, 208, 291), (178, 205, 218), (139, 327, 347), (263, 203, 343), (340, 219, 347), (306, 334, 353),
  (58, 59, 73), (174, 190, 341), (226, 185, 352), (43, 44, 74), (218, 246, 254), (223, 245, 345), (155, 132, 346), (28, 29, 75),
  (289, 221, 351), (346, 139, 348), (248, 223, 345), (221, 341, 351), (334, 196, 353), (199, 242, 350), (49, 1, 82), (64, 2, 81),
  (34, 4, 84), (230, 263, 349), (313, 199, 350), (239, 313, 350), (182, 155, 346), (185, 342, 352), (108, 110, 111),
  (109, 280, 288), (342, 218, 352), (15, 16, 96), (196, 236, 353), (346, 348, 355), (269, 230, 349), (218, 254, 352),
  (182, 346, 355), (353, 236, 356), (236, 323, 356), (210, 288, 358), (13, 14, 76), (348, 224, 355), (226, 352, 357), (19, 3, 95),
  (17, 18, 65), (352, 254, 357), (193, 210, 358), (291, 208, 358), (107, 281, 282), (109, 106, 280), (108, 109, 110),
  (208, 193, 358), (209, 204, 359), (107, 108, 281), (108, 106, 109), (204, 231, 359), (107, 106, 108), (104, 106, 107),
  (104, 105, 106), (103, 104, 278), (104, 102, 105), (103, 278, 360), (103, 102, 104), (102, 101, 279), (100, 102, 103),
  (100, 101, 102), (100, 99, 101), (98, 100, 277), (272, 301, 392), (258, 290, 361), (232, 266, 361), (290, 232, 361),
  (98, 99, 100), (66, 258, 372), (383, 74, 414), (247, 295, 370), (363, 69, 400), (259, 65, 423), (98, 87, 99), (333, 262, 366),
  (264, 93, 378), (85, 266, 395), (300, 301, 362), (226, 357, 367), (367, 375, 403), (344, 268, 368), (93, 264, 410),
  (70, 374, 419), (263, 343, 364), (369, 79, 376), (350, 242, 365), (245, 333, 366), (92, 276, 390), (276, 238, 390),
  (99, 87, 381), (350, 365, 369), (365, 79, 369), (240, 226, 367), (273, 344, 368), (364, 82, 409), (301, 202, 392),
  (181, 182, 392), (239, 350, 369), (228, 257, 394), (235, 284, 396), (265, 272, 398), (345, 379, 410), (90, 267, 403),
  (295, 81, 370), (249, 265, 398), (182, 355, 398), (98, 277, 400), (294, 67, 405), (81, 294, 405), (297, 299, 399),
  (258, 361, 372), (364, 343, 394), (97, 87, 98), (361, 85, 372), (301, 272, 416), (239, 369, 390), (253, 354, 406),
  (89, 362, 416), (264, 248, 410), (266, 243, 414), (250, 276, 419), (368, 76, 388), (242, 292, 411), (345, 245, 412),
  (89, 271, 408), (69, 55, 97), (70, 40, 374), (79, 36, 376), (77, 6, 377), (57, 58, 381), (42, 43, 383), (55, 56, 97),
  (40, 41, 374), (37, 92, 376), (56, 87, 97), (41, 88, 374), (72, 10, 375), (7, 94, 377), (24, 71, 378), (10, 11, 375),
  (87, 57, 381), (88, 42, 383), (93, 23, 378), (58, 73, 381), (43, 74, 383), (3, 20, 386), (22, 93, 379), (80, 21, 379),
  (11, 90, 375), (90, 12, 387), (36, 37, 376), (6, 7, 377), (23, 24, 378), (21, 22, 379), (20, 80, 386), (86, 31, 384),
  (29, 30, 385), (31, 32, 384), (48, 49, 380), (32, 68, 384), (33, 34, 382), (66, 48, 380), (30, 86, 385), (68, 33, 382),
  (14, 15, 388), (75, 29, 385), (12, 13, 387), (49, 82, 380), (34, 84, 382), (18, 19, 389), (95, 3, 386), (76, 14, 388),
  (15, 96, 388), (13, 76, 387), (19, 95, 389), (65, 18, 389), (238, 239, 390), (362, 301, 416), (370, 77, 415), (83, 61, 391),
  (62, 67, 391), (368, 268, 407), (366, 95, 386), (91, 349, 402), (61, 62, 391), (101, 99, 397), (284, 399, 417), (35, 79, 393),
  (84, 4, 393), (45, 85, 395), (74, 44, 395), (271, 71, 408), (202, 181, 392), (4, 35, 393), (343, 228, 394), (44, 45, 395),
  (276, 92, 401), (292, 235, 396), (39, 70, 401), (92, 38, 401), (76, 368, 407), (272, 271, 416), (79, 365, 393), (78, 51, 402),
  (52, 91, 402), (275, 101, 397), (247, 370, 415), (67, 63, 405), (64, 81, 405), (267, 240, 403), (83, 274, 413), (274, 73, 413),
  (71, 25, 408), (26, 89, 408), (362, 89, 418), (50, 78, 409), (82, 1, 409), (355, 249, 398), (77, 370, 421), (60, 83, 413),
  (73, 59, 413), (89, 27, 418), (28, 75, 418), (5, 77, 421), (81, 2, 421), (54, 69, 420), (91, 53, 420), (75, 362, 418),
  (78, 364, 409), (69, 363, 420), (363, 91, 420), (284, 297, 399), (277, 270, 400), (271, 89, 416), (38, 39, 401),
  (268, 267, 407), (370, 81, 421), (84, 393, 411), (51, 52, 402), (240, 367, 403), (377, 94, 404), (393, 365, 411),
  (254, 246, 404), (63, 64, 405), (354, 252, 406), (404, 246, 415), (357, 254, 422), (25, 26, 408), (1, 50, 409), (379, 93, 410),
  (248, 345, 410), (396, 284, 417), (59, 60, 413), (243, 253, 414), (246, 247, 415), (366, 386, 412), (27, 28, 418),
  (252, 250, 419), (53, 54, 420), (2, 5, 421), (262, 259, 423), (404, 94, 422), (375, 90, 403), (365, 242, 411), (386, 80, 412),
  (245, 366, 412), (387, 76, 407), (65, 389, 423), (371, 357, 422), (384, 68, 417), (254, 404, 422), (68, 396, 417),
  (94, 371, 422)]

/-- the coordinates of a node -/
def diskCoordinates (x : Nat × Nat) : List ℚ :=
  [mkRat (x.1 - 10 ^ 14) (10 ^ 14), mkRat (x.2 - 10 ^ 14) (10 ^ 14)]

/-- tests/input/disk_cartesian.summit:1-1205 -/
def diskFile : List Token :=
  [.num 2, .num 423, .num 780, .num 1] ++ diskNodes.flatMap (fun x => (diskCoordinates x).map .num) ++
    diskCells.flatMap fun c => [.num 3, .num c.1, .num c.2.1, .num c.2.2, .num 1]

end Mito.Summit
