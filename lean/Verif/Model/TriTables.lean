/-!
Tables of the triangle quadrature rules of `quadratures/bits/quad_raw_triangle.hpp`.
`dunavant_rules` (`:24-253`) in units of `10 ^ (-15)`, `triangle_gauss_rules` (`:352-2560`) in units of
`10 ^ (-21)`; the decimal literals of the source are represented exactly.
-/
namespace Verif.Quad

/-- `dunavant_rule_1`, `:33-35`: permutations, coordinates, weight. -/
def dunavant1 : List (Nat × (Int × Int × Int) × Int) := [
  (1, (333333333333333, 333333333333333, 333333333333333), 1000000000000000)]

/-- `dunavant_rule_2`, `:37-39`: permutations, coordinates, weight. -/
def dunavant2 : List (Nat × (Int × Int × Int) × Int) := [
  (3, (666666666666667, 166666666666667, 166666666666667), 333333333333333)]

/-- `dunavant_rule_3`, `:41-44`: permutations, coordinates, weight. -/
def dunavant3 : List (Nat × (Int × Int × Int) × Int) := [
  (1, (333333333333333, 333333333333333, 333333333333333), -562500000000000),
  (3, (600000000000000, 200000000000000, 200000000000000), 520833333333333)]

/-- `dunavant_rule_4`, `:46-49`: permutations, coordinates, weight. -/
def dunavant4 : List (Nat × (Int × Int × Int) × Int) := [
  (3, (108103018168070, 445948490915965, 445948490915965), 223381589678011),
  (3, (816847572980459, 91576213509771, 91576213509771), 109951743655322)]

/-- `dunavant_rule_5`, `:51-55`: permutations, coordinates, weight. -/
def dunavant5 : List (Nat × (Int × Int × Int) × Int) := [
  (1, (333333333333333, 333333333333333, 333333333333333), 225000000000000),
  (3, (59715871789770, 470142064105115, 470142064105115), 132394152788506),
  (3, (797426985353087, 101286507323456, 101286507323456), 125939180544827)]

/-- `dunavant_rule_6`, `:57-61`: permutations, coordinates, weight. -/
def dunavant6 : List (Nat × (Int × Int × Int) × Int) := [
  (3, (501426509658179, 249286745170910, 249286745170910), 116786275726379),
  (3, (873821971016996, 63089014491502, 63089014491502), 50844906370207),
  (6, (53145049844817, 310352451033784, 636502499121399), 82851075618374)]

/-- `dunavant_rule_7`, `:63-68`: permutations, coordinates, weight. -/
def dunavant7 : List (Nat × (Int × Int × Int) × Int) := [
  (1, (333333333333333, 333333333333333, 333333333333333), -149570044467682),
  (3, (479308067841920, 260345966079040, 260345966079040), 175615257433208),
  (3, (869739794195568, 65130102902216, 65130102902216), 53347235608838),
  (6, (48690315425316, 312865496004874, 638444188569810), 77113760890257)]

/-- `dunavant_rule_8`, `:70-76`: permutations, coordinates, weight. -/
def dunavant8 : List (Nat × (Int × Int × Int) × Int) := [
  (1, (333333333333333, 333333333333333, 333333333333333), 144315607677787),
  (3, (81414823414554, 459292588292723, 459292588292723), 95091634267285),
  (3, (658861384496480, 170569307751760, 170569307751760), 103217370534718),
  (3, (898905543365938, 50547228317031, 50547228317031), 32458497623198),
  (6, (8394777409958, 263112829634638, 728492392955404), 27230314174435)]

/-- `dunavant_rule_9`, `:78-85`: permutations, coordinates, weight. -/
def dunavant9 : List (Nat × (Int × Int × Int) × Int) := [
  (1, (333333333333333, 333333333333333, 333333333333333), 97135796282799),
  (3, (20634961602525, 489682519198738, 489682519198738), 31334700227139),
  (3, (125820817014127, 437089591492937, 437089591492937), 77827541004774),
  (3, (623592928761935, 188203535619033, 188203535619033), 79647738927210),
  (3, (910540973211095, 44729513394453, 44729513394453), 25577675658698),
  (6, (36838412054736, 221962989160766, 741198598784498), 43283539377289)]

/-- `dunavant_rule_10`, `:87-94`: permutations, coordinates, weight. -/
def dunavant10 : List (Nat × (Int × Int × Int) × Int) := [
  (1, (333333333333333, 333333333333333, 333333333333333), 90817990382754),
  (3, (28844733232685, 485577633383657, 485577633383657), 36725957756467),
  (3, (781036849029926, 109481575485037, 109481575485037), 45321059435528),
  (6, (141707219414880, 307939838764121, 550352941820999), 72757916845420),
  (6, (25003534762686, 246672560639903, 728323904597411), 28327242531057),
  (6, (9540815400299, 66803251012200, 923655933587500), 9421666963733)]

/-- `dunavant_rule_11`, `:96-104`: permutations, coordinates, weight. -/
def dunavant11 : List (Nat × (Int × Int × Int) × Int) := [
  (3, (-69222096541517, 534611048270758, 534611048270758), 927006328961),
  (3, (202061394068290, 398969302965855, 398969302965855), 77149534914813),
  (3, (593380199137435, 203309900431282, 203309900431282), 59322977380774),
  (3, (761298175434837, 119350912282581, 119350912282581), 36184540503418),
  (3, (935270103777448, 32364948111276, 32364948111276), 13659731002678),
  (6, (50178138310495, 356620648261293, 593201213428213), 52337111962204),
  (6, (21022016536166, 171488980304042, 807489003159792), 20707659639141)]

/-- `dunavant_rule_12`, `:106-115`: permutations, coordinates, weight. -/
def dunavant12 : List (Nat × (Int × Int × Int) × Int) := [
  (3, (23565220452390, 488217389773805, 488217389773805), 25731066440455),
  (3, (120551215411079, 439724392294460, 439724392294460), 43692544538038),
  (3, (457579229975768, 271210385012116, 271210385012116), 62858224217885),
  (3, (744847708916828, 127576145541586, 127576145541586), 34796112930709),
  (3, (957365299093579, 21317350453210, 21317350453210), 6166261051559),
  (6, (115343494534698, 275713269685514, 608943235779788), 40371557766381),
  (6, (22838332222257, 281325580989940, 695836086787803), 22356773202303),
  (6, (25734050548330, 116251915907597, 858014033544073), 17316231108659)]

/-- `dunavant_rule_13`, `:117-128`: permutations, coordinates, weight. -/
def dunavant13 : List (Nat × (Int × Int × Int) × Int) := [
  (1, (333333333333333, 333333333333333, 333333333333333), 52520923400802),
  (3, (9903630120591, 495048184939705, 495048184939705), 11280145209330),
  (3, (62566729780852, 468716635109574, 468716635109574), 31423518362454),
  (3, (170957326397447, 414521336801277, 414521336801277), 47072502504194),
  (3, (541200855914337, 229399572042831, 229399572042831), 47363586536355),
  (3, (771151009607340, 114424495196330, 114424495196330), 31167529045794),
  (3, (950377217273082, 24811391363459, 24811391363459), 7975771465074),
  (6, (94853828379579, 268794997058761, 636351174561660), 36848402728732),
  (6, (18100773278807, 291730066734288, 690169159986905), 17401463303822),
  (6, (22233076674090, 126357385491669, 851409537834241), 15521786839045)]

/-- `dunavant_rule_14`, `:130-141`: permutations, coordinates, weight. -/
def dunavant14 : List (Nat × (Int × Int × Int) × Int) := [
  (3, (22072179275643, 488963910362179, 488963910362179), 21883581369429),
  (3, (164710561319092, 417644719340454, 417644719340454), 32788353544125),
  (3, (453044943382323, 273477528308839, 273477528308839), 51774104507292),
  (3, (645588935174913, 177205532412543, 177205532412543), 42162588736993),
  (3, (876400233818255, 61799883090873, 61799883090873), 14433699669777),
  (3, (961218077502598, 19390961248701, 19390961248701), 4923403602400),
  (6, (57124757403648, 172266687821356, 770608554774996), 24665753212564),
  (6, (92916249356972, 336861459796345, 570222290846683), 38571510787061),
  (6, (14646950055654, 298372882136258, 686980167808088), 14436308113534),
  (6, (1268330932872, 118974497696957, 879757171370171), 5010228838501)]

/-- `dunavant_rule_15`, `:143-155`: permutations, coordinates, weight. -/
def dunavant15 : List (Nat × (Int × Int × Int) × Int) := [
  (3, (-13945833716486, 506972916858243, 506972916858243), 1916875642849),
  (3, (137187291433955, 431406354283023, 431406354283023), 44249027271145),
  (3, (444612710305711, 277693644847144, 277693644847144), 51186548718852),
  (3, (747070217917492, 126464891041254, 126464891041254), 23687735870688),
  (3, (858383228050628, 70808385974686, 70808385974686), 13289775690021),
  (3, (962069659517853, 18965170241073, 18965170241073), 4748916608192),
  (6, (133734161966621, 261311371140087, 604954466893291), 38550072599593),
  (6, (36366677396917, 388046767090269, 575586555512814), 27215814320624),
  (6, (-10174883126571, 285712220049916, 724462663076655), 2182077366797),
  (6, (36843869875878, 215599664072284, 747556466051838), 21505319847731),
  (6, (12459809331199, 103575616576386, 883964574092416), 7673942631049)]

/-- `dunavant_rule_16`, `:157-171`: permutations, coordinates, weight. -/
def dunavant16 : List (Nat × (Int × Int × Int) × Int) := [
  (1, (333333333333333, 333333333333333, 333333333333333), 46875697427642),
  (3, (5238916103123, 497380541948438, 497380541948438), 6405878578585),
  (3, (173061122901295, 413469438549352, 413469438549352), 41710296739387),
  (3, (59082801866017, 470458599066991, 470458599066991), 26891484250064),
  (3, (518892500060958, 240553749969521, 240553749969521), 42132522761650),
  (3, (704068411554854, 147965794222573, 147965794222573), 30000266842773),
  (3, (849069624685052, 75465187657474, 75465187657474), 14200098925024),
  (3, (966807194753950, 16596402623025, 16596402623025), 3582462351273),
  (6, (103575692245252, 296555596579887, 599868711174861), 32773147460627),
  (6, (20083411655416, 337723063403079, 642193524941505), 15298306248441),
  (6, (-4341002614139, 204748281642812, 799592720971327), 2386244192839),
  (6, (41941786468010, 189358492130623, 768699721401368), 19084792755899),
  (6, (14317320230681, 85283615682657, 900399064086661), 6850054546542)]

/-- `dunavant_rule_17`, `:173-189`: permutations, coordinates, weight. -/
def dunavant17 : List (Nat × (Int × Int × Int) × Int) := [
  (1, (333333333333333, 333333333333333, 333333333333333), 33437199290803),
  (3, (5658918886452, 497170540556774, 497170540556774), 5093415440507),
  (3, (35647354750751, 482176322624625, 482176322624625), 14670864527638),
  (3, (99520061958437, 450239969020782, 450239969020782), 24350878353672),
  (3, (199467521245206, 400266239377397, 400266239377397), 31107550868969),
  (3, (495717464058095, 252141267970953, 252141267970953), 31257111218620),
  (3, (675905990683077, 162047004658461, 162047004658461), 24815654339665),
  (3, (848248235478508, 75875882260746, 75875882260746), 14056073070557),
  (3, (968690546064356, 15654726967822, 15654726967822), 3194676173779),
  (6, (10186928826919, 334319867363658, 655493203809423), 8119655318993),
  (6, (135440871671036, 292221537796944, 572337590532020), 26805742283163),
  (6, (54423924290583, 319574885423190, 626001190286228), 18459993210822),
  (6, (12868560833637, 190704224192292, 796427214974071), 8476868534328),
  (6, (67165782413524, 180483211648746, 752351005937729), 18292796770025),
  (6, (14663182224828, 80711313679564, 904625504095608), 6665632004165)]

/-- `dunavant_rule_18`, `:191-209`: permutations, coordinates, weight. -/
def dunavant18 : List (Nat × (Int × Int × Int) × Int) := [
  (1, (333333333333333, 333333333333333, 333333333333333), 30809939937647),
  (3, (13310382738157, 493344808630921, 493344808630921), 9072436679404),
  (3, (61578811516086, 469210594241957, 469210594241957), 18761316939594),
  (3, (127437208225989, 436281395887006, 436281395887006), 19441097985477),
  (3, (210307658653168, 394846170673416, 394846170673416), 27753948610810),
  (3, (500410862393686, 249794568803157, 249794568803157), 32256225351457),
  (3, (677135612512315, 161432193743843, 161432193743843), 25074032616922),
  (3, (846803545029257, 76598227485371, 76598227485371), 15271927971832),
  (3, (951495121293100, 24252439353450, 24252439353450), 6793922022963),
  (3, (913707265566071, 43146367216965, 43146367216965), -2223098729920),
  (6, (8430536202420, 358911494940944, 632657968856636), 6331914076406),
  (6, (131186551737188, 294402476751957, 574410971510855), 27257538049138),
  (6, (50203151565675, 325017801641814, 624779046792512), 17676785649465),
  (6, (66329263810916, 184737559666046, 748933176523037), 18379484638070),
  (6, (11996194566236, 218796800013321, 769207005420443), 8104732808192),
  (6, (14858100590125, 101179597136408, 883962302273467), 7634129070725),
  (6, (-35222015287949, 20874755282586, 1014347260005363), 46187660794)]

/-- `dunavant_rule_19`, `:211-229`: permutations, coordinates, weight. -/
def dunavant19 : List (Nat × (Int × Int × Int) × Int) := [
  (1, (333333333333333, 333333333333333, 333333333333333), 32906331388919),
  (3, (20780025853987, 489609987073006, 489609987073006), 10330731891272),
  (3, (90926214604215, 454536892697893, 454536892697893), 22387247263016),
  (3, (197166638701138, 401416680649431, 401416680649431), 30266125869468),
  (3, (488896691193805, 255551654403098, 255551654403098), 30490967802198),
  (3, (645844115695741, 177077942152130, 177077942152130), 24159212741641),
  (3, (779877893544096, 110061053227952, 110061053227952), 16050803586801),
  (3, (888942751496321, 55528624251840, 55528624251840), 8084580261784),
  (3, (974756272445543, 12621863777229, 12621863777229), 2079362027485),
  (6, (3611417848412, 395754787356943, 600633794794645), 3884876904981),
  (6, (134466754530780, 307929983880436, 557603261588784), 25574160612022),
  (6, (14446025776115, 264566948406520, 720987025817365), 8880903573338),
  (6, (46933578838178, 358539352205951, 594527068955871), 16124546761731),
  (6, (2861120350567, 157807405968595, 839331473680839), 2491941817491),
  (6, (223861424097916, 75050596975911, 701087978926173), 18242840118951),
  (6, (34647074816760, 142421601113383, 822931324069857), 10258563736199),
  (6, (10161119296278, 65494628082938, 924344252620784), 3799928855302)]

/-- `dunavant_rule_20`, `:231-251`: permutations, coordinates, weight. -/
def dunavant20 : List (Nat × (Int × Int × Int) × Int) := [
  (1, (333333333333333, 333333333333333, 333333333333333), 33057055541624),
  (3, (-1900928704400, 500950464352200, 500950464352200), 867019185663),
  (3, (23574084130543, 488212957934729, 488212957934729), 11660052716448),
  (3, (89726636099435, 455136681950283, 455136681950283), 22876936356421),
  (3, (196007481363421, 401996259318289, 401996259318289), 30448982673938),
  (3, (488214180481157, 255892909759421, 255892909759421), 30624891725355),
  (3, (647023488009788, 176488255995106, 176488255995106), 24368057676800),
  (3, (791658289326483, 104170855336758, 104170855336758), 15997432032024),
  (3, (893862072318140, 53068963840930, 53068963840930), 7698301815602),
  (3, (916762569607942, 41618715196029, 41618715196029), -632060497488),
  (3, (976836157186356, 11581921406822, 11581921406822), 1751134301193),
  (6, (48741583664839, 344855770229001, 606402646106160), 16465839189576),
  (6, (6314115948605, 377843269594854, 615842614456541), 4839033540485),
  (6, (134316520547348, 306635479062357, 559048000390295), 25804906534650),
  (6, (13973893962392, 249419362774742, 736606743262866), 8471091054441),
  (6, (75549132909764, 212775724802802, 711675142287434), 18354914106280),
  (6, (-8368153208227, 146965436053239, 861402717154987), 704404677908),
  (6, (26686063258714, 137726978828923, 835586957912363), 10112684927462),
  (6, (10547719294141, 59696109149007, 929756171556853), 3573909385950)]

/-- `dunavant_rules`, `:259-281`; the last entry is the sentinel `{ 0, 0, NULL }`. -/
def dunavantRules : List (List (Nat × (Int × Int × Int) × Int)) := [
  dunavant1, dunavant2, dunavant3, dunavant4, dunavant5, dunavant6, dunavant7, dunavant8, dunavant9, dunavant10, dunavant11, dunavant12, dunavant13, dunavant14, dunavant15, dunavant16, dunavant17, dunavant18, dunavant19, dunavant20, []]

/-- `triangle_gauss_rule_1`, `:358-360`: coordinates, weight. -/
def triGauss1 : List ((Nat × Nat) × Nat) := [
  ((333333333333333370000, 333333333333333370000), 500000000000000000000)]

/-- `triangle_gauss_rule_2`, `:362-366`: coordinates, weight. -/
def triGauss2 : List ((Nat × Nat) × Nat) := [
  ((666666666666666630000, 166666666666666657000), 166666666666666657000),
  ((166666666666666657000, 666666666666666630000), 166666666666666657000),
  ((166666666666666657000, 166666666666666657000), 166666666666666657000)]

/-- `triangle_gauss_rule_3`, `:368-373`: coordinates, weight. -/
def triGauss3 : List ((Nat × Nat) × Nat) := [
  ((155051025721682195000, 178558728263616434000), 159020690871988585000),
  ((644948974278317766000, 75031110222608124500), 90979309128011415200),
  ((155051025721682195000, 666390246014701426000), 159020690871988585000),
  ((644948974278317766000, 280019915499074068000), 90979309128011415200)]

/-- `triangle_gauss_rule_4`, `:375-382`: coordinates, weight. -/
def triGauss4 : List ((Nat × Nat) × Nat) := [
  ((445948490915964890000, 445948490915964890000), 111690794839005736000),
  ((445948490915964890000, 108103018168070233000), 111690794839005736000),
  ((108103018168070233000, 445948490915964890000), 111690794839005736000),
  ((91576213509770743000, 91576213509770743000), 54975871827660935400),
  ((91576213509770743000, 816847572980458514000), 54975871827660935400),
  ((816847572980458514000, 91576213509770743000), 54975871827660935400)]

/-- `triangle_gauss_rule_5`, `:384-392`: coordinates, weight. -/
def triGauss5 : List ((Nat × Nat) × Nat) := [
  ((333333333333332982000, 333333333333332982000), 112500000000000003000),
  ((470142064105115054000, 470142064105115054000), 66197076394253096000),
  ((470142064105115054000, 59715871789769850400), 66197076394253096000),
  ((59715871789769850400, 470142064105115054000), 66197076394253096000),
  ((101286507323456329000, 101286507323456329000), 62969590272413583600),
  ((101286507323456329000, 797426985353087314000), 62969590272413583600),
  ((797426985353087314000, 101286507323456329000), 62969590272413583600)]

/-- `triangle_gauss_rule_6`, `:394-407`: coordinates, weight. -/
def triGauss6 : List ((Nat × Nat) × Nat) := [
  ((249286745170910429000, 249286745170910429000), 58393137863189684100),
  ((249286745170910429000, 501426509658179143000), 58393137863189684100),
  ((501426509658179143000, 249286745170910429000), 58393137863189684100),
  ((63089014491502226600, 63089014491502226600), 25422453185103409400),
  ((63089014491502226600, 873821971016995547000), 25422453185103409400),
  ((873821971016995547000, 63089014491502226600), 25422453185103409400),
  ((310352451033784393000, 636502499121398668000), 41425537809186785400),
  ((636502499121398668000, 310352451033784393000), 41425537809186785400),
  ((310352451033784393000, 53145049844816945300), 41425537809186785400),
  ((53145049844816945300, 310352451033784393000), 41425537809186785400),
  ((636502499121398668000, 53145049844816945300), 41425537809186785400),
  ((53145049844816945300, 636502499121398668000), 41425537809186785400)]

/-- `triangle_gauss_rule_7`, `:409-422`: coordinates, weight. -/
def triGauss7 : List ((Nat × Nat) × Nat) := [
  ((62382265094402117300, 67517867073916090800), 26517028157436249600),
  ((870099867831681806000, 62382265094402117300), 26517028157436249600),
  ((67517867073916090800, 870099867831681806000), 26517028157436249600),
  ((55225456656926609500, 321502493851981819000), 43881408714446054600),
  ((623272049491091606000, 55225456656926609500), 43881408714446054600),
  ((321502493851981819000, 623272049491091606000), 43881408714446054600),
  ((34324302945097147400, 660949196186735644000), 28775042784981583900),
  ((304726500868167216000, 34324302945097147400), 28775042784981583900),
  ((660949196186735644000, 304726500868167216000), 28775042784981583900),
  ((515842334353591725000, 277716166976391787000), 67493187009802779700),
  ((206441498670016488000, 515842334353591725000), 67493187009802779700),
  ((277716166976391787000, 206441498670016488000), 67493187009802779700)]

/-- `triangle_gauss_rule_8`, `:424-441`: coordinates, weight. -/
def triGauss8 : List ((Nat × Nat) × Nat) := [
  ((333333333333332982000, 333333333333332982000), 72157803838893586100),
  ((459292588292723181000, 459292588292723181000), 47545817133642309700),
  ((459292588292723181000, 81414823414553694200), 47545817133642309700),
  ((81414823414553694200, 459292588292723181000), 47545817133642309700),
  ((170569307751760213000, 170569307751760213000), 51608685267359122300),
  ((170569307751760213000, 658861384496479574000), 51608685267359122300),
  ((658861384496479574000, 170569307751760213000), 51608685267359122300),
  ((50547228317030977500, 50547228317030977500), 16229248811599039600),
  ((50547228317030977500, 898905543365938087000), 16229248811599039600),
  ((898905543365938087000, 50547228317030977500), 16229248811599039600),
  ((263112829634638112000, 728492392955404244000), 13615157087217496400),
  ((728492392955404244000, 263112829634638112000), 13615157087217496400),
  ((263112829634638112000, 8394777409957605160), 13615157087217496400),
  ((8394777409957605160, 263112829634638112000), 13615157087217496400),
  ((728492392955404244000, 8394777409957605160), 13615157087217496400),
  ((8394777409957605160, 728492392955404244000), 13615157087217496400)]

/-- `triangle_gauss_rule_9`, `:443-463`: coordinates, weight. -/
def triGauss9 : List ((Nat × Nat) × Nat) := [
  ((333333333333332982000, 333333333333332982000), 48567898141399418200),
  ((489682519198737620000, 489682519198737620000), 15667350113569535700),
  ((489682519198737620000, 20634961602524745600), 15667350113569535700),
  ((20634961602524745600, 489682519198737620000), 15667350113569535700),
  ((44729513394452712100, 44729513394452712100), 12788837829349015600),
  ((44729513394452712100, 910540973211094617000), 12788837829349015600),
  ((910540973211094617000, 44729513394452712100), 12788837829349015600),
  ((437089591492936635000, 437089591492936635000), 38913770502387139100),
  ((437089591492936635000, 125820817014126729000), 38913770502387139100),
  ((125820817014126729000, 437089591492936635000), 38913770502387139100),
  ((188203535619032719000, 188203535619032719000), 39823869463605124400),
  ((188203535619032719000, 623592928761934506000), 39823869463605124400),
  ((623592928761934506000, 188203535619032719000), 39823869463605124400),
  ((221962989160765706000, 741198598784498008000), 21641769688644688100),
  ((741198598784498008000, 221962989160765706000), 21641769688644688100),
  ((221962989160765706000, 36838412054736285900), 21641769688644688100),
  ((36838412054736285900, 221962989160765706000), 21641769688644688100),
  ((741198598784498008000, 36838412054736285900), 21641769688644688100),
  ((36838412054736285900, 741198598784498008000), 21641769688644688100)]

/-- `triangle_gauss_rule_10`, `:465-491`: coordinates, weight. -/
def triGauss10 : List ((Nat × Nat) × Nat) := [
  ((333333333333332982000, 333333333333332982000), 45408995191376790000),
  ((485577633383657392000, 485577633383657392000), 18362978878233352600),
  ((485577633383657392000, 28844733232685246900), 18362978878233352600),
  ((28844733232685246900, 485577633383657392000), 18362978878233352600),
  ((109481575485037050000, 109481575485037050000), 22660529717763968500),
  ((109481575485037050000, 781036849029925873000), 22660529717763968500),
  ((781036849029925873000, 109481575485037050000), 22660529717763968500),
  ((307939838764120954000, 550352941820999142000), 36378958422710057400),
  ((550352941820999142000, 307939838764120954000), 36378958422710057400),
  ((307939838764120954000, 141707219414879959000), 36378958422710057400),
  ((141707219414879959000, 307939838764120954000), 36378958422710057400),
  ((550352941820999142000, 141707219414879959000), 36378958422710057400),
  ((141707219414879959000, 550352941820999142000), 36378958422710057400),
  ((246672560639902699000, 728323904597410920000), 14163621265528742600),
  ((728323904597410920000, 246672560639902699000), 14163621265528742600),
  ((246672560639902699000, 25003534762686387100), 14163621265528742600),
  ((25003534762686387100, 246672560639902699000), 14163621265528742600),
  ((728323904597410920000, 25003534762686387100), 14163621265528742600),
  ((25003534762686387100, 728323904597410920000), 14163621265528742600),
  ((66803251012200262600, 923655933587500311000), 4710833481866411560),
  ((923655933587500311000, 66803251012200262600), 4710833481866411560),
  ((66803251012200262600, 9540815400299457880), 4710833481866411560),
  ((9540815400299457880, 66803251012200262600), 4710833481866411560),
  ((923655933587500311000, 9540815400299457880), 4710833481866411560),
  ((9540815400299457880, 923655933587500311000), 4710833481866411560)]

/-- `triangle_gauss_rule_11`, `:493-524`: coordinates, weight. -/
def triGauss11 : List ((Nat × Nat) × Nat) := [
  ((393550796299479699000, 393550796299479699000), 36089021198604638600),
  ((393550796299479699000, 212898407401040601000), 36089021198604638600),
  ((212898407401040601000, 393550796299479699000), 36089021198604638600),
  ((479790658088974475000, 479790658088974475000), 21607717807680421100),
  ((479790658088974475000, 40418683822051028300), 21607717807680421100),
  ((40418683822051028300, 479790658088974475000), 21607717807680421100),
  ((5100344564582806430, 56817155788572444600), 3114452429392797990),
  ((56817155788572444600, 5100344564582806430), 3114452429392797990),
  ((5100344564582806430, 938082499646844759000), 3114452429392797990),
  ((938082499646844759000, 5100344564582806430), 3114452429392797990),
  ((56817155788572444600, 938082499646844759000), 3114452429392797990),
  ((938082499646844759000, 56817155788572444600), 3114452429392797990),
  ((265976201903301568000, 125399563536620878000), 29086855161081511000),
  ((125399563536620878000, 265976201903301568000), 29086855161081511000),
  ((265976201903301568000, 608624234560077526000), 29086855161081511000),
  ((608624234560077526000, 265976201903301568000), 29086855161081511000),
  ((125399563536620878000, 608624234560077526000), 29086855161081511000),
  ((608624234560077526000, 125399563536620878000), 29086855161081511000),
  ((285364185386964619000, 12409970153698532400), 8487924161491701080),
  ((12409970153698532400, 285364185386964619000), 8487924161491701080),
  ((285364185386964619000, 702225844459336890000), 8487924161491701080),
  ((702225844459336890000, 285364185386964619000), 8487924161491701080),
  ((12409970153698532400, 702225844459336890000), 8487924161491701080),
  ((702225844459336890000, 12409970153698532400), 8487924161491701080),
  ((137235367478170861000, 52792057988217712400), 13795732078224796200),
  ((52792057988217712400, 137235367478170861000), 13795732078224796200),
  ((137235367478170861000, 809972574533611489000), 13795732078224796200),
  ((809972574533611489000, 137235367478170861000), 13795732078224796200),
  ((52792057988217712400, 809972574533611489000), 13795732078224796200),
  ((809972574533611489000, 52792057988217712400), 13795732078224796200)]

/-- `triangle_gauss_rule_12`, `:526-560`: coordinates, weight. -/
def triGauss12 : List ((Nat × Nat) × Nat) := [
  ((21317350453210370800, 21317350453210370800), 3083130525779508800),
  ((21317350453210370800, 957365299093579258000), 3083130525779508800),
  ((957365299093579258000, 21317350453210370800), 3083130525779508800),
  ((271210385012115918000, 271210385012115918000), 31429112108942551500),
  ((271210385012115918000, 457579229975768165000), 31429112108942551500),
  ((457579229975768165000, 271210385012115918000), 31429112108942551500),
  ((127576145541585917000, 127576145541585917000), 17398056465354472300),
  ((127576145541585917000, 744847708916828166000), 17398056465354472300),
  ((744847708916828166000, 127576145541585917000), 17398056465354472300),
  ((439724392294460253000, 439724392294460253000), 21846272269019202700),
  ((439724392294460253000, 120551215411079451000), 21846272269019202700),
  ((120551215411079451000, 439724392294460253000), 21846272269019202700),
  ((488217389773804855000, 488217389773804855000), 12865533220227667900),
  ((488217389773804855000, 23565220452390234200), 12865533220227667900),
  ((23565220452390234200, 488217389773804855000), 12865533220227667900),
  ((281325580989939539000, 695836086787803398000), 11178386601151722400),
  ((695836086787803398000, 281325580989939539000), 11178386601151722400),
  ((281325580989939539000, 22838332222257028100), 11178386601151722400),
  ((22838332222257028100, 281325580989939539000), 11178386601151722400),
  ((695836086787803398000, 22838332222257028100), 11178386601151722400),
  ((22838332222257028100, 695836086787803398000), 11178386601151722400),
  ((116251915907597148000, 858014033544072685000), 8658115554329446140),
  ((858014033544072685000, 116251915907597148000), 8658115554329446140),
  ((116251915907597148000, 25734050548330229800), 8658115554329446140),
  ((25734050548330229800, 116251915907597148000), 8658115554329446140),
  ((858014033544072685000, 25734050548330229800), 8658115554329446140),
  ((25734050548330229800, 858014033544072685000), 8658115554329446140),
  ((275713269685514184000, 608943235779787817000), 20185778883190463200),
  ((608943235779787817000, 275713269685514184000), 20185778883190463200),
  ((275713269685514184000, 115343494534697999000), 20185778883190463200),
  ((115343494534697999000, 275713269685514184000), 20185778883190463200),
  ((608943235779787817000, 115343494534697999000), 20185778883190463200),
  ((115343494534697999000, 608943235779787817000), 20185778883190463200)]

/-- `triangle_gauss_rule_13`, `:562-600`: coordinates, weight. -/
def triGauss13 : List ((Nat × Nat) × Nat) := [
  ((333333333333332982000, 333333333333332982000), 33980018293415820100),
  ((426941414259800422000, 426941414259800422000), 27800983765226664600),
  ((426941414259800422000, 146117171480399183000), 27800983765226664600),
  ((146117171480399183000, 426941414259800422000), 27800983765226664600),
  ((221372286291832893000, 221372286291832893000), 29139242559599990600),
  ((221372286291832893000, 557255427416334159000), 29139242559599990600),
  ((557255427416334159000, 221372286291832893000), 29139242559599990600),
  ((21509681108843183700, 21509681108843183700), 3026168551769585840),
  ((21509681108843183700, 956980637782313681000), 3026168551769585840),
  ((956980637782313681000, 21509681108843183700), 3026168551769585840),
  ((489076946452539352000, 489076946452539352000), 11997200964447365300),
  ((489076946452539352000, 21846107094921300000), 11997200964447365300),
  ((21846107094921300000, 489076946452539352000), 11997200964447365300),
  ((308441760892117778000, 623545995553675625000), 17320638070424186600),
  ((623545995553675625000, 308441760892117778000), 17320638070424186600),
  ((308441760892117778000, 68012243554206652800), 17320638070424186600),
  ((68012243554206652800, 308441760892117778000), 17320638070424186600),
  ((623545995553675625000, 68012243554206652800), 17320638070424186600),
  ((68012243554206652800, 623545995553675625000), 17320638070424186600),
  ((110922042803463392000, 864707770295442768000), 7482700552582833770),
  ((864707770295442768000, 110922042803463392000), 7482700552582833770),
  ((110922042803463392000, 24370186901093830000), 7482700552582833770),
  ((24370186901093830000, 110922042803463392000), 7482700552582833770),
  ((864707770295442768000, 24370186901093830000), 7482700552582833770),
  ((24370186901093830000, 864707770295442768000), 7482700552582833770),
  ((163597401067850479000, 748507115899952225000), 12089519905796909700),
  ((748507115899952225000, 163597401067850479000), 12089519905796909700),
  ((163597401067850479000, 87895483032197324600), 12089519905796909700),
  ((87895483032197324600, 163597401067850479000), 12089519905796909700),
  ((748507115899952225000, 87895483032197324600), 12089519905796909700),
  ((87895483032197324600, 748507115899952225000), 12089519905796909700),
  ((272515817773429647000, 722357793124188019000), 4795340501771631560),
  ((722357793124188019000, 272515817773429647000), 4795340501771631560),
  ((272515817773429647000, 5126389102382368500), 4795340501771631560),
  ((5126389102382368500, 272515817773429647000), 4795340501771631560),
  ((722357793124188019000, 5126389102382368500), 4795340501771631560),
  ((5126389102382368500, 722357793124188019000), 4795340501771631560)]

/-- `triangle_gauss_rule_14`, `:602-645`: coordinates, weight. -/
def triGauss14 : List ((Nat × Nat) × Nat) := [
  ((488963910362178622000, 488963910362178622000), 10941790684714444700),
  ((488963910362178622000, 22072179275642721300), 10941790684714444700),
  ((22072179275642721300, 488963910362178622000), 10941790684714444700),
  ((417644719340453940000, 417644719340453940000), 16394176772062674100),
  ((417644719340453940000, 164710561319092147000), 16394176772062674100),
  ((164710561319092147000, 417644719340453940000), 16394176772062674100),
  ((273477528308838647000, 273477528308838647000), 25887052253645792500),
  ((273477528308838647000, 453044943382322707000), 25887052253645792500),
  ((453044943382322707000, 273477528308838647000), 25887052253645792500),
  ((177205532412543443000, 177205532412543443000), 21081294368496508000),
  ((177205532412543443000, 645588935174913114000), 21081294368496508000),
  ((645588935174913114000, 177205532412543443000), 21081294368496508000),
  ((61799883090872601000, 61799883090872601000), 7216849834888333820),
  ((61799883090872601000, 876400233818254826000), 7216849834888333820),
  ((876400233818254826000, 61799883090872601000), 7216849834888333820),
  ((19390961248701047600, 19390961248701047600), 2461701801200040940),
  ((19390961248701047600, 961218077502597912000), 2461701801200040940),
  ((961218077502597912000, 19390961248701047600), 2461701801200040940),
  ((172266687821355569000, 770608554774996457000), 12332876606281836800),
  ((770608554774996457000, 172266687821355569000), 12332876606281836800),
  ((172266687821355569000, 57124757403647939700), 12332876606281836800),
  ((57124757403647939700, 172266687821355569000), 12332876606281836800),
  ((770608554774996457000, 57124757403647939700), 12332876606281836800),
  ((57124757403647939700, 770608554774996457000), 12332876606281836800),
  ((336861459796345020000, 570222290846683189000), 19285755393530341900),
  ((570222290846683189000, 336861459796345020000), 19285755393530341900),
  ((336861459796345020000, 92916249356971819500), 19285755393530341900),
  ((92916249356971819500, 336861459796345020000), 19285755393530341900),
  ((570222290846683189000, 92916249356971819500), 19285755393530341900),
  ((92916249356971819500, 570222290846683189000), 19285755393530341900),
  ((298372882136257733000, 686980167808087794000), 7218154056766920220),
  ((686980167808087794000, 298372882136257733000), 7218154056766920220),
  ((298372882136257733000, 14646950055654410500), 7218154056766920220),
  ((14646950055654410500, 298372882136257733000), 7218154056766920220),
  ((686980167808087794000, 14646950055654410500), 7218154056766920220),
  ((14646950055654410500, 686980167808087794000), 7218154056766920220),
  ((118974497696956852000, 879757171370171176000), 2505114419250335960),
  ((879757171370171176000, 118974497696956852000), 2505114419250335960),
  ((118974497696956852000, 1268330932872025090), 2505114419250335960),
  ((1268330932872025090, 118974497696956852000), 2505114419250335960),
  ((879757171370171176000, 1268330932872025090), 2505114419250335960),
  ((1268330932872025090, 879757171370171176000), 2505114419250335960)]

/-- `triangle_gauss_rule_15`, `:647-697`: coordinates, weight. -/
def triGauss15 : List ((Nat × Nat) × Nat) := [
  ((333333333333332982000, 333333333333332982000), 24777380743035579100),
  ((79031013655541632000, 79031013655541632000), 9243394302330773530),
  ((79031013655541632000, 841937972688916680000), 9243394302330773530),
  ((841937972688916680000, 79031013655541632000), 9243394302330773530),
  ((18789501810770076200, 18789501810770076200), 2248576896217540240),
  ((18789501810770076200, 962420996378459792000), 2248576896217540240),
  ((962420996378459792000, 18789501810770076200), 2248576896217540240),
  ((492501688232496682000, 492501688232496682000), 6705258190006414650),
  ((492501688232496682000, 14996623535006590000), 6705258190006414650),
  ((14996623535006590000, 492501688232496682000), 6705258190006414650),
  ((408863169077441080000, 408863169077441080000), 19011381726930579000),
  ((408863169077441080000, 182273661845117868000), 19011381726930579000),
  ((182273661845117868000, 408863169077441080000), 19011381726930579000),
  ((538778510642201391000, 194126203687746302000), 14605445387471889500),
  ((194126203687746302000, 538778510642201391000), 14605445387471889500),
  ((538778510642201391000, 267095285670052252000), 14605445387471889500),
  ((267095285670052252000, 538778510642201391000), 14605445387471889500),
  ((194126203687746302000, 267095285670052252000), 14605445387471889500),
  ((267095285670052252000, 194126203687746302000), 14605445387471889500),
  ((202505498048299981000, 98765911355712110400), 15087322572773133000),
  ((98765911355712110400, 202505498048299981000), 15087322572773133000),
  ((202505498048299981000, 698728590595987908000), 15087322572773133000),
  ((698728590595987908000, 202505498048299981000), 15087322572773133000),
  ((98765911355712110400, 698728590595987908000), 15087322572773133000),
  ((698728590595987908000, 98765911355712110400), 15087322572773133000),
  ((553496749187116444000, 77663767064308164600), 15630213780078804100),
  ((77663767064308164600, 553496749187116444000), 15630213780078804100),
  ((553496749187116444000, 368839483748575392000), 15630213780078804100),
  ((368839483748575392000, 553496749187116444000), 15630213780078804100),
  ((77663767064308164600, 368839483748575392000), 15630213780078804100),
  ((368839483748575392000, 77663767064308164600), 15630213780078804100),
  ((783450225673208100000, 21594628433980259100), 6180808608577820390),
  ((21594628433980259100, 783450225673208100000), 6180808608577820390),
  ((783450225673208100000, 194955145892811627000), 6180808608577820390),
  ((194955145892811627000, 783450225673208100000), 6180808608577820390),
  ((21594628433980259100, 194955145892811627000), 6180808608577820390),
  ((194955145892811627000, 21594628433980259100), 6180808608577820390),
  ((895146245287948839000, 12563596287784997000), 3220936645259466280),
  ((12563596287784997000, 895146245287948839000), 3220936645259466280),
  ((895146245287948839000, 92290158424266174900), 3220936645259466280),
  ((92290158424266174900, 895146245287948839000), 3220936645259466280),
  ((12563596287784997000, 92290158424266174900), 3220936645259466280),
  ((92290158424266174900, 12563596287784997000), 3220936645259466280),
  ((325157452411107828000, 15082654870922784400), 5874737324256969900),
  ((15082654870922784400, 325157452411107828000), 5874737324256969900),
  ((325157452411107828000, 659759892717969421000), 5874737324256969900),
  ((659759892717969421000, 325157452411107828000), 5874737324256969900),
  ((15082654870922784400, 659759892717969421000), 5874737324256969900),
  ((659759892717969421000, 15082654870922784400), 5874737324256969900)]

/-- `triangle_gauss_rule_16`, `:699-755`: coordinates, weight. -/
def triGauss16 : List ((Nat × Nat) × Nat) := [
  ((333333333333332982000, 333333333333332982000), 22668082505910087200),
  ((85402539407933200600, 85402539407933200600), 8404306071481858900),
  ((85402539407933200600, 829194921184133626000), 8404306071481858900),
  ((829194921184133626000, 85402539407933200600), 8404306071481858900),
  ((12425572001444092400, 12425572001444092400), 1085094963404974710),
  ((12425572001444092400, 975148855997111763000), 1085094963404974710),
  ((975148855997111763000, 12425572001444092400), 1085094963404974710),
  ((491748383418915913000, 491748383418915913000), 7225277337542364290),
  ((491748383418915913000, 16503233162168118300), 7225277337542364290),
  ((16503233162168118300, 491748383418915913000), 7225277337542364290),
  ((456694266953874661000, 456694266953874661000), 12997715227338366800),
  ((456694266953874661000, 86611466092250719000), 12997715227338366800),
  ((86611466092250719000, 456694266953874661000), 12997715227338366800),
  ((485067598804474365000, 323159128486343872000), 20054466616677715800),
  ((323159128486343872000, 485067598804474365000), 20054466616677715800),
  ((485067598804474365000, 191773272709181763000), 20054466616677715800),
  ((191773272709181763000, 485067598804474365000), 20054466616677715800),
  ((323159128486343872000, 191773272709181763000), 20054466616677715800),
  ((191773272709181763000, 323159128486343872000), 20054466616677715800),
  ((206220992786642049000, 153415536794146878000), 9729984160041700930),
  ((153415536794146878000, 206220992786642049000), 9729984160041700930),
  ((206220992786642049000, 640363470419211045000), 9729984160041700930),
  ((640363470419211045000, 206220992786642049000), 9729984160041700930),
  ((153415536794146878000, 640363470419211045000), 9729984160041700930),
  ((640363470419211045000, 153415536794146878000), 9729984160041700930),
  ((323749502700390934000, 74295478991330682300), 11651974438298103400),
  ((74295478991330682300, 323749502700390934000), 11651974438298103400),
  ((323749502700390934000, 601955018308278356000), 11651974438298103400),
  ((601955018308278356000, 323749502700390934000), 11651974438298103400),
  ((74295478991330682300, 601955018308278356000), 11651974438298103400),
  ((601955018308278356000, 74295478991330682300), 11651974438298103400),
  ((738343305566065866000, 71278762832147860000), 9129118555048445010),
  ((71278762832147860000, 738343305566065866000), 9129118555048445010),
  ((738343305566065866000, 190377931601786288000), 9129118555048445010),
  ((190377931601786288000, 738343305566065866000), 9129118555048445010),
  ((71278762832147860000, 190377931601786288000), 9129118555048445010),
  ((190377931601786288000, 71278762832147860000), 9129118555048445010),
  ((912106730616807915000, 16623223223705792900), 3556861404094714860),
  ((16623223223705792900, 912106730616807915000), 3556861404094714860),
  ((912106730616807915000, 71270046159486275000), 3556861404094714860),
  ((71270046159486275000, 912106730616807915000), 3556861404094714860),
  ((16623223223705792900, 71270046159486275000), 3556861404094714860),
  ((71270046159486275000, 16623223223705792900), 3556861404094714860),
  ((661299192225987209000, 14160772533794791600), 5835586168623432300),
  ((14160772533794791600, 661299192225987209000), 5835586168623432300),
  ((661299192225987209000, 324540035240218017000), 5835586168623432300),
  ((324540035240218017000, 661299192225987209000), 5835586168623432300),
  ((14160772533794791600, 324540035240218017000), 5835586168623432300),
  ((324540035240218017000, 14160772533794791600), 5835586168623432300),
  ((178071389060214774000, 14539694958941855300), 4741131439680423140),
  ((14539694958941855300, 178071389060214774000), 4741131439680423140),
  ((178071389060214774000, 807388915980843391000), 4741131439680423140),
  ((807388915980843391000, 178071389060214774000), 4741131439680423140),
  ((14539694958941855300, 807388915980843391000), 4741131439680423140),
  ((807388915980843391000, 14539694958941855300), 4741131439680423140)]

/-- `triangle_gauss_rule_17`, `:757-821`: coordinates, weight. -/
def triGauss17 : List ((Nat × Nat) × Nat) := [
  ((287968257546673601000, 287968257546673601000), 17464603792572003200),
  ((287968257546673601000, 424063484906652743000), 17464603792572003200),
  ((424063484906652743000, 287968257546673601000), 17464603792572003200),
  ((492161759862084658000, 492161759862084658000), 5942900355580172170),
  ((492161759862084658000, 15676480275830694700), 5942900355580172170),
  ((15676480275830694700, 492161759862084658000), 5942900355580172170),
  ((462528667631711743000, 462528667631711743000), 12490753345169579000),
  ((462528667631711743000, 74942664736576528100), 12490753345169579000),
  ((74942664736576528100, 462528667631711743000), 12490753345169579000),
  ((167302929516317922000, 344291606955017149000), 15386987188875607400),
  ((344291606955017149000, 167302929516317922000), 15386987188875607400),
  ((167302929516317922000, 488405463528664929000), 15386987188875607400),
  ((488405463528664929000, 167302929516317922000), 15386987188875607400),
  ((344291606955017149000, 488405463528664929000), 15386987188875607400),
  ((488405463528664929000, 344291606955017149000), 15386987188875607400),
  ((158163355008146517000, 225416234315506392000), 11185807311917705900),
  ((225416234315506392000, 158163355008146517000), 11185807311917705900),
  ((158163355008146517000, 616420410676347119000), 11185807311917705900),
  ((616420410676347119000, 158163355008146517000), 11185807311917705900),
  ((225416234315506392000, 616420410676347119000), 11185807311917705900),
  ((616420410676347119000, 225416234315506392000), 11185807311917705900),
  ((163522521383875657000, 80670083153531815800), 10301845740670206200),
  ((80670083153531815800, 163522521383875657000), 10301845740670206200),
  ((163522521383875657000, 755807395462592568000), 10301845740670206200),
  ((755807395462592568000, 163522521383875657000), 10301845740670206200),
  ((80670083153531815800, 755807395462592568000), 10301845740670206200),
  ((755807395462592568000, 80670083153531815800), 10301845740670206200),
  ((624476804889597670000, 65967451375050931200), 11767783072977050200),
  ((65967451375050931200, 624476804889597670000), 11767783072977050200),
  ((624476804889597670000, 309555743735351385000), 11767783072977050200),
  ((309555743735351385000, 624476804889597670000), 11767783072977050200),
  ((65967451375050931200, 309555743735351385000), 11767783072977050200),
  ((309555743735351385000, 65967451375050931200), 11767783072977050200),
  ((873172499352444564000, 45677879890996760100), 3804531284943121070),
  ((45677879890996760100, 873172499352444564000), 3804531284943121070),
  ((873172499352444564000, 81149620756558696300), 3804531284943121070),
  ((81149620756558696300, 873172499352444564000), 3804531284943121070),
  ((45677879890996760100, 81149620756558696300), 3804531284943121070),
  ((81149620756558696300, 45677879890996760100), 3804531284943121070),
  ((344281643222826950000, 11528411723154215900), 4513930217887635220),
  ((11528411723154215900, 344281643222826950000), 4513930217887635220),
  ((344281643222826950000, 644189945054018831000), 4513930217887635220),
  ((644189945054018831000, 344281643222826950000), 4513930217887635220),
  ((11528411723154215900, 644189945054018831000), 4513930217887635220),
  ((644189945054018831000, 11528411723154215900), 4513930217887635220),
  ((91584484467813670500, 9305771432390060400), 2217881251758058520),
  ((9305771432390060400, 91584484467813670500), 2217881251758058520),
  ((91584484467813670500, 899109744099796271000), 2217881251758058520),
  ((899109744099796271000, 91584484467813670500), 2217881251758058520),
  ((9305771432390060400, 899109744099796271000), 2217881251758058520),
  ((899109744099796271000, 9305771432390060400), 2217881251758058520),
  ((201720880133789887000, 15916814107619813700), 5221627153748366850),
  ((15916814107619813700, 201720880133789887000), 5221627153748366850),
  ((201720880133789887000, 782362305758590337000), 5221627153748366850),
  ((782362305758590337000, 201720880133789887000), 5221627153748366850),
  ((15916814107619813700, 782362305758590337000), 5221627153748366850),
  ((782362305758590337000, 15916814107619813700), 5221627153748366850),
  ((965387627582546481000, 10734733163764033400), 983811363894702582),
  ((10734733163764033400, 965387627582546481000), 983811363894702582),
  ((965387627582546481000, 23877639253689533800), 983811363894702582),
  ((23877639253689533800, 965387627582546481000), 983811363894702582),
  ((10734733163764033400, 23877639253689533800), 983811363894702582),
  ((23877639253689533800, 10734733163764033400), 983811363894702582)]

/-- `triangle_gauss_rule_18`, `:823-897`: coordinates, weight. -/
def triGauss18 : List ((Nat × Nat) × Nat) := [
  ((333333333333333315000, 333333333333333315000), 16453165694459499100),
  ((20780025853986999800, 489609987073006014000), 5165365945635999950),
  ((489609987073006014000, 20780025853986999800), 5165365945635999950),
  ((489609987073006014000, 489609987073006014000), 5165365945635999950),
  ((90926214604215002700, 454536892697892991000), 11193623631508000200),
  ((454536892697892991000, 90926214604215002700), 11193623631508000200),
  ((454536892697892991000, 454536892697892991000), 11193623631508000200),
  ((197166638701137986000, 401416680649430979000), 15133062934733999500),
  ((401416680649430979000, 197166638701137986000), 15133062934733999500),
  ((401416680649430979000, 401416680649430979000), 15133062934733999500),
  ((488896691193805022000, 255551654403098016000), 15245483901098999900),
  ((255551654403098016000, 488896691193805022000), 15245483901098999900),
  ((255551654403098016000, 255551654403098016000), 15245483901098999900),
  ((645844115695740961000, 177077942152129991000), 12079606370820500700),
  ((177077942152129991000, 645844115695740961000), 12079606370820500700),
  ((177077942152129991000, 177077942152129991000), 12079606370820500700),
  ((779877893544095979000, 110061053227951997000), 8025401793400499530),
  ((110061053227951997000, 779877893544095979000), 8025401793400499530),
  ((110061053227951997000, 110061053227951997000), 8025401793400499530),
  ((888942751496320960000, 55528624251839998900), 4042290130891999960),
  ((55528624251839998900, 888942751496320960000), 4042290130891999960),
  ((55528624251839998900, 55528624251839998900), 4042290130891999960),
  ((974756272445542971000, 12621863777229000400), 1039681013742499960),
  ((12621863777229000400, 974756272445542971000), 1039681013742499960),
  ((12621863777229000400, 12621863777229000400), 1039681013742499960),
  ((3611417848411999950, 395754787356943027000), 1942438452490500040),
  ((3611417848411999950, 600633794794644960000), 1942438452490500040),
  ((395754787356943027000, 3611417848411999950), 1942438452490500040),
  ((395754787356943027000, 600633794794644960000), 1942438452490500040),
  ((600633794794644960000, 3611417848411999950), 1942438452490500040),
  ((600633794794644960000, 395754787356943027000), 1942438452490500040),
  ((134466754530779997000, 307929983880436020000), 12787080306011000500),
  ((134466754530779997000, 557603261588784038000), 12787080306011000500),
  ((307929983880436020000, 134466754530779997000), 12787080306011000500),
  ((307929983880436020000, 557603261588784038000), 12787080306011000500),
  ((557603261588784038000, 134466754530779997000), 12787080306011000500),
  ((557603261588784038000, 307929983880436020000), 12787080306011000500),
  ((14446025776114999900, 264566948406520008000), 4440451786668999680),
  ((14446025776114999900, 720987025817364957000), 4440451786668999680),
  ((264566948406520008000, 14446025776114999900), 4440451786668999680),
  ((264566948406520008000, 720987025817364957000), 4440451786668999680),
  ((720987025817364957000, 14446025776114999900), 4440451786668999680),
  ((720987025817364957000, 264566948406520008000), 4440451786668999680),
  ((46933578838178002800, 358539352205951012000), 8062273380865500600),
  ((46933578838178002800, 594527068955871041000), 8062273380865500600),
  ((358539352205951012000, 46933578838178002800), 8062273380865500600),
  ((358539352205951012000, 594527068955871041000), 8062273380865500600),
  ((594527068955871041000, 46933578838178002800), 8062273380865500600),
  ((594527068955871041000, 358539352205951012000), 8062273380865500600),
  ((2861120350566999890, 157807405968594994000), 1245970908745499960),
  ((2861120350566999890, 839331473680839046000), 1245970908745499960),
  ((157807405968594994000, 2861120350566999890), 1245970908745499960),
  ((157807405968594994000, 839331473680839046000), 1245970908745499960),
  ((839331473680839046000, 2861120350566999890), 1245970908745499960),
  ((839331473680839046000, 157807405968594994000), 1245970908745499960),
  ((223861424097916012000, 75050596975911002000), 9121420059475500790),
  ((223861424097916012000, 701087978926173028000), 9121420059475500790),
  ((75050596975911002000, 223861424097916012000), 9121420059475500790),
  ((75050596975911002000, 701087978926173028000), 9121420059475500790),
  ((701087978926173028000, 223861424097916012000), 9121420059475500790),
  ((701087978926173028000, 75050596975911002000), 9121420059475500790),
  ((34647074816759999800, 142421601113383006000), 5129281868099499690),
  ((34647074816759999800, 822931324069857029000), 5129281868099499690),
  ((142421601113383006000, 34647074816759999800), 5129281868099499690),
  ((142421601113383006000, 822931324069857029000), 5129281868099499690),
  ((822931324069857029000, 34647074816759999800), 5129281868099499690),
  ((822931324069857029000, 142421601113383006000), 5129281868099499690),
  ((10161119296278000100, 65494628082938002900), 1899964427650999980),
  ((10161119296278000100, 924344252620784013000), 1899964427650999980),
  ((65494628082938002900, 10161119296278000100), 1899964427650999980),
  ((65494628082938002900, 924344252620784013000), 1899964427650999980),
  ((924344252620784013000, 10161119296278000100), 1899964427650999980),
  ((924344252620784013000, 65494628082938002900), 1899964427650999980)]

/-- `triangle_gauss_rule_19`, `:899-973`: coordinates, weight; entry by entry the same numbers as `triangle_gauss_rule_18`. -/
def triGauss19 : List ((Nat × Nat) × Nat) := triGauss18

/-- `triangle_gauss_rule_20`, `:975-1061`: coordinates, weight. -/
def triGauss20 : List ((Nat × Nat) × Nat) := [
  ((333333333333329984000, 333333333333329984000), 13805213498849760300),
  ((1500649324429999960, 499249675337790022000), 889514773663370017),
  ((499249675337790022000, 1500649324429999960), 889514773663370017),
  ((499249675337790022000, 499249675337790022000), 889514773663370017),
  ((94139751938949994800, 452930124030520020000), 10056199056980585200),
  ((452930124030520020000, 94139751938949994800), 10056199056980585200),
  ((452930124030520020000, 452930124030520020000), 10056199056980585200),
  ((204472124089530000000, 397763937955240010000), 13408923629665784500),
  ((397763937955240010000, 204472124089530000000), 13408923629665784500),
  ((397763937955240010000, 397763937955240010000), 13408923629665784500),
  ((470999594934429999000, 264500202532789996000), 12261566900751004800),
  ((264500202532789996000, 470999594934429999000), 12261566900751004800),
  ((264500202532789996000, 264500202532789996000), 12261566900751004800),
  ((577962071815850020000, 211018964092080014000), 8197289205347695410),
  ((211018964092080014000, 577962071815850020000), 8197289205347695410),
  ((211018964092080014000, 211018964092080014000), 8197289205347695410),
  ((784528785657459982000, 107735607171269995000), 7397953699324799970),
  ((107735607171269995000, 784528785657459982000), 7397953699324799970),
  ((107735607171269995000, 107735607171269995000), 7397953699324799970),
  ((921861824324390011000, 39069087837799998400), 2289641138852125360),
  ((39069087837799998400, 921861824324390011000), 2289641138852125360),
  ((39069087837799998400, 39069087837799998400), 2289641138852125360),
  ((977651240541340005000, 11174379729330000800), 825913257788108519),
  ((11174379729330000800, 977651240541340005000), 825913257788108519),
  ((11174379729330000800, 11174379729330000800), 825913257788108519),
  ((5349618187339999840, 63549665908349997600), 1174585454287791970),
  ((5349618187339999840, 931100715904309983000), 1174585454287791970),
  ((63549665908349997600, 5349618187339999840), 1174585454287791970),
  ((63549665908349997600, 931100715904309983000), 1174585454287791970),
  ((931100715904309983000, 5349618187339999840), 1174585454287791970),
  ((931100715904309983000, 63549665908349997600), 1174585454287791970),
  ((7954817066199999790, 157106918940709994000), 2232962877090896670),
  ((7954817066199999790, 834938263993090013000), 2232962877090896670),
  ((157106918940709994000, 7954817066199999790), 2232962877090896670),
  ((157106918940709994000, 834938263993090013000), 2232962877090896670),
  ((834938263993090013000, 7954817066199999790), 2232962877090896670),
  ((834938263993090013000, 157106918940709994000), 2232962877090896670),
  ((10422398281260000800, 395642114364370023000), 3049783403953986070),
  ((10422398281260000800, 593935487354359970000), 3049783403953986070),
  ((395642114364370023000, 10422398281260000800), 3049783403953986070),
  ((395642114364370023000, 593935487354359970000), 3049783403953986070),
  ((593935487354359970000, 10422398281260000800), 3049783403953986070),
  ((593935487354359970000, 395642114364370023000), 3049783403953986070),
  ((10964414796120000200, 273167570712909979000), 3445540663594101520),
  ((10964414796120000200, 715868014490970039000), 3445540663594101520),
  ((273167570712909979000, 10964414796120000200), 3445540663594101520),
  ((273167570712909979000, 715868014490970039000), 3445540663594101520),
  ((715868014490970039000, 10964414796120000200), 3445540663594101520),
  ((715868014490970039000, 273167570712909979000), 3445540663594101520),
  ((38566712085460003200, 101785382485020004000), 3998737536239081390),
  ((38566712085460003200, 859647905429519965000), 3998737536239081390),
  ((101785382485020004000, 38566712085460003200), 3998737536239081390),
  ((101785382485020004000, 859647905429519965000), 3998737536239081390),
  ((859647905429519965000, 38566712085460003200), 3998737536239081390),
  ((859647905429519965000, 101785382485020004000), 3998737536239081390),
  ((35580507817219997300, 446658549176410014000), 3693067142668011920),
  ((35580507817219997300, 517760943006369989000), 3693067142668011920),
  ((446658549176410014000, 35580507817219997300), 3693067142668011920),
  ((446658549176410014000, 517760943006369989000), 3693067142668011920),
  ((517760943006369989000, 35580507817219997300), 3693067142668011920),
  ((517760943006369989000, 446658549176410014000), 3693067142668011920),
  ((49670816362760002200, 199010794149499987000), 6399665939324130320),
  ((49670816362760002200, 751318389487729998000), 6399665939324130320),
  ((199010794149499987000, 49670816362760002200), 6399665939324130320),
  ((199010794149499987000, 751318389487729998000), 6399665939324130320),
  ((751318389487729998000, 49670816362760002200), 6399665939324130320),
  ((751318389487729998000, 199010794149499987000), 6399665939324130320),
  ((58519725084330002900, 324261183692280019000), 8629035587848275440),
  ((58519725084330002900, 617219091223390026000), 8629035587848275440),
  ((324261183692280019000, 58519725084330002900), 8629035587848275440),
  ((324261183692280019000, 617219091223390026000), 8629035587848275440),
  ((617219091223390026000, 58519725084330002900), 8629035587848275440),
  ((617219091223390026000, 324261183692280019000), 8629035587848275440),
  ((121497787004389998000, 208531363210129994000), 9336472951467734640),
  ((121497787004389998000, 669970849785469946000), 9336472951467734640),
  ((208531363210129994000, 121497787004389998000), 9336472951467734640),
  ((208531363210129994000, 669970849785469946000), 9336472951467734640),
  ((669970849785469946000, 121497787004389998000), 9336472951467734640),
  ((669970849785469946000, 208531363210129994000), 9336472951467734640),
  ((140710844943940011000, 323170566536259973000), 11409112029197629500),
  ((140710844943940011000, 536118588519799988000), 11409112029197629500),
  ((323170566536259973000, 140710844943940011000), 11409112029197629500),
  ((323170566536259973000, 536118588519799988000), 11409112029197629500),
  ((536118588519799988000, 140710844943940011000), 11409112029197629500),
  ((536118588519799988000, 323170566536259973000), 11409112029197629500)]

/-- `triangle_gauss_rule_21`, `:1063-1149`: coordinates, weight; entry by entry the same numbers as `triangle_gauss_rule_20`. -/
def triGauss21 : List ((Nat × Nat) × Nat) := triGauss20

/-- `triangle_gauss_rule_22`, `:1151-1278`: coordinates, weight. -/
def triGauss22 : List ((Nat × Nat) × Nat) := [
  ((27946483073169999000, 486026758463409980000), 4002790940010208550),
  ((486026758463409980000, 27946483073169999000), 4002790940010208550),
  ((486026758463409980000, 486026758463409980000), 4002790940010208550),
  ((131178601327649996000, 434410699336169992000), 7973538416195250640),
  ((434410699336169992000, 131178601327649996000), 7973538416195250640),
  ((434410699336169992000, 434410699336169992000), 7973538416195250640),
  ((220221729512070002000, 389889135243960017000), 6554570615397764880),
  ((389889135243960017000, 220221729512070002000), 6554570615397764880),
  ((389889135243960017000, 389889135243960017000), 6554570615397764880),
  ((403113531960390015000, 298443234019799997000), 9791500482817809890),
  ((298443234019799997000, 403113531960390015000), 9791500482817809890),
  ((298443234019799997000, 298443234019799997000), 9791500482817809890),
  ((531911655325259969000, 234044172337369988000), 8235442720768634820),
  ((234044172337369988000, 531911655325259969000), 8235442720768634820),
  ((234044172337369988000, 234044172337369988000), 8235442720768634820),
  ((697063330781960033000, 151468334609020011000), 4273639537046050080),
  ((151468334609020011000, 697063330781960033000), 4273639537046050080),
  ((151468334609020011000, 151468334609020011000), 4273639537046050080),
  ((774532212908009998000, 112733893545990005000), 4080942928613245920),
  ((112733893545990005000, 774532212908009998000), 4080942928613245920),
  ((112733893545990005000, 112733893545990005000), 4080942928613245920),
  ((844568615816949975000, 77715692091529994800), 3060573269991889550),
  ((77715692091529994800, 844568615816949975000), 3060573269991889550),
  ((77715692091529994800, 77715692091529994800), 3060573269991889550),
  ((930213812771410020000, 34893093614299999800), 1454249132468332430),
  ((34893093614299999800, 930213812771410020000), 1454249132468332430),
  ((34893093614299999800, 34893093614299999800), 1454249132468332430),
  ((985483630758129947000, 7258184620930000120), 346137622830998144),
  ((7258184620930000120, 985483630758129947000), 346137622830998144),
  ((7258184620930000120, 7258184620930000120), 346137622830998144),
  ((1292352704439999910, 227214452153360003000), 624144599638698483),
  ((1292352704439999910, 771493195142189947000), 624144599638698483),
  ((227214452153360003000, 1292352704439999910), 624144599638698483),
  ((227214452153360003000, 771493195142189947000), 624144599638698483),
  ((771493195142189947000, 1292352704439999910), 624144599638698483),
  ((771493195142189947000, 227214452153360003000), 624144599638698483),
  ((5399701272119999950, 435010554853569986000), 1702376454401511010),
  ((5399701272119999950, 559589743874310042000), 1702376454401511010),
  ((435010554853569986000, 5399701272119999950), 1702376454401511010),
  ((435010554853569986000, 559589743874310042000), 1702376454401511010),
  ((559589743874310042000, 5399701272119999950), 1702376454401511010),
  ((559589743874310042000, 435010554853569986000), 1702376454401511010),
  ((6384003033980000310, 320309599272199985000), 1679827163032025440),
  ((6384003033980000310, 673306397693819947000), 1679827163032025440),
  ((320309599272199985000, 6384003033980000310), 1679827163032025440),
  ((320309599272199985000, 673306397693819947000), 1679827163032025440),
  ((673306397693819947000, 6384003033980000310), 1679827163032025440),
  ((673306397693819947000, 320309599272199985000), 1679827163032025440),
  ((5028211501990000230, 91750322280009996600), 858078269748377030),
  ((5028211501990000230, 903221466218000035000), 858078269748377030),
  ((91750322280009996600, 5028211501990000230), 858078269748377030),
  ((91750322280009996600, 903221466218000035000), 858078269748377030),
  ((903221466218000035000, 5028211501990000230), 858078269748377030),
  ((903221466218000035000, 91750322280009996600), 858078269748377030),
  ((6826758621780000360, 38010835858719997600), 740428158357803005),
  ((6826758621780000360, 955162405519490054000), 740428158357803005),
  ((38010835858719997600, 6826758621780000360), 740428158357803005),
  ((38010835858719997600, 955162405519490054000), 740428158357803005),
  ((955162405519490054000, 6826758621780000360), 740428158357803005),
  ((955162405519490054000, 38010835858719997600), 740428158357803005),
  ((10016199639929999600, 157425218485309992000), 1755656305364342510),
  ((10016199639929999600, 832558581874759951000), 1755656305364342510),
  ((157425218485309992000, 10016199639929999600), 1755656305364342510),
  ((157425218485309992000, 832558581874759951000), 1755656305364342510),
  ((832558581874759951000, 10016199639929999600), 1755656305364342510),
  ((832558581874759951000, 157425218485309992000), 1755656305364342510),
  ((25757813173390001200, 239889659778529996000), 3696775074853241900),
  ((25757813173390001200, 734352527048079962000), 3696775074853241900),
  ((239889659778529996000, 25757813173390001200), 3696775074853241900),
  ((239889659778529996000, 734352527048079962000), 3696775074853241900),
  ((734352527048079962000, 25757813173390001200), 3696775074853241900),
  ((734352527048079962000, 239889659778529996000), 3696775074853241900),
  ((30227898119920000600, 361943118126060004000), 3991543738688279120),
  ((30227898119920000600, 607828983754019947000), 3991543738688279120),
  ((361943118126060004000, 30227898119920000600), 3991543738688279120),
  ((361943118126060004000, 607828983754019947000), 3991543738688279120),
  ((607828983754019947000, 30227898119920000600), 3991543738688279120),
  ((607828983754019947000, 361943118126060004000), 3991543738688279120),
  ((30504990107159998800, 83551960954830001300), 2177981306579020690),
  ((30504990107159998800, 885943048938010014000), 2177981306579020690),
  ((83551960954830001300, 30504990107159998800), 2177981306579020690),
  ((83551960954830001300, 885943048938010014000), 2177981306579020690),
  ((885943048938010014000, 30504990107159998800), 2177981306579020690),
  ((885943048938010014000, 83551960954830001300), 2177981306579020690),
  ((45956547362570002200, 148443220732420000000), 3682528350708915920),
  ((45956547362570002200, 805600231905009956000), 3682528350708915920),
  ((148443220732420000000, 45956547362570002200), 3682528350708915920),
  ((148443220732420000000, 805600231905009956000), 3682528350708915920),
  ((805600231905009956000, 45956547362570002200), 3682528350708915920),
  ((805600231905009956000, 148443220732420000000), 3682528350708915920),
  ((67442800540279998500, 283739708727530016000), 5481786423209775160),
  ((67442800540279998500, 648817490732189972000), 5481786423209775160),
  ((283739708727530016000, 67442800540279998500), 5481786423209775160),
  ((283739708727530016000, 648817490732189972000), 5481786423209775160),
  ((648817490732189972000, 67442800540279998500), 5481786423209775160),
  ((648817490732189972000, 283739708727530016000), 5481786423209775160),
  ((70045091415910004700, 406899375118789985000), 5874980871770560390),
  ((70045091415910004700, 523055533465299982000), 5874980871770560390),
  ((406899375118789985000, 70045091415910004700), 5874980871770560390),
  ((406899375118789985000, 523055533465299982000), 5874980871770560390),
  ((523055533465299982000, 70045091415910004700), 5874980871770560390),
  ((523055533465299982000, 406899375118789985000), 5874980871770560390),
  ((83911524640119999900, 194113987024889995000), 5007800356899285050),
  ((83911524640119999900, 721974488334990006000), 5007800356899285050),
  ((194113987024889995000, 83911524640119999900), 5007800356899285050),
  ((194113987024889995000, 721974488334990006000), 5007800356899285050),
  ((721974488334990006000, 83911524640119999900), 5007800356899285050),
  ((721974488334990006000, 194113987024889995000), 5007800356899285050),
  ((120375535677149995000, 324134347000699985000), 6654820393814340170),
  ((120375535677149995000, 555490117322140042000), 6654820393814340170),
  ((324134347000699985000, 120375535677149995000), 6654820393814340170),
  ((324134347000699985000, 555490117322140042000), 6654820393814340170),
  ((555490117322140042000, 120375535677149995000), 6654820393814340170),
  ((555490117322140042000, 324134347000699985000), 6654820393814340170),
  ((148066899157370008000, 229277483555979988000), 7077223252613069890),
  ((148066899157370008000, 622655617286649976000), 7077223252613069890),
  ((229277483555979988000, 148066899157370008000), 7077223252613069890),
  ((229277483555979988000, 622655617286649976000), 7077223252613069890),
  ((622655617286649976000, 148066899157370008000), 7077223252613069890),
  ((622655617286649976000, 229277483555979988000), 7077223252613069890),
  ((191771865867329999000, 325618122595979997000), 7440689780584004880),
  ((191771865867329999000, 482610011536689976000), 7440689780584004880),
  ((325618122595979997000, 191771865867329999000), 7440689780584004880),
  ((325618122595979997000, 482610011536689976000), 7440689780584004880),
  ((482610011536689976000, 191771865867329999000), 7440689780584004880),
  ((482610011536689976000, 325618122595979997000), 7440689780584004880)]

/-- `triangle_gauss_rule_23`, `:1280-1407`: coordinates, weight; entry by entry the same numbers as `triangle_gauss_rule_22`. -/
def triGauss23 : List ((Nat × Nat) × Nat) := triGauss22

/-- `triangle_gauss_rule_24`, `:1409-1536`: coordinates, weight; entry by entry the same numbers as `triangle_gauss_rule_22`. -/
def triGauss24 : List ((Nat × Nat) × Nat) := triGauss22

/-- `triangle_gauss_rule_25`, `:1538-1665`: coordinates, weight; entry by entry the same numbers as `triangle_gauss_rule_22`. -/
def triGauss25 : List ((Nat × Nat) × Nat) := triGauss22

/-- `triangle_gauss_rule_26`, `:1667-1843`: coordinates, weight. -/
def triGauss26 : List ((Nat × Nat) × Nat) := [
  ((333333333333329984000, 333333333333329984000), 7789980101449599760),
  ((7330116432769999760, 496334941783619976000), 1588616850267066980),
  ((496334941783619976000, 7330116432769999760), 1588616850267066980),
  ((496334941783619976000, 496334941783619976000), 1588616850267066980),
  ((82995675802959995000, 458502162098520016000), 5241713317865385330),
  ((458502162098520016000, 82995675802959995000), 5241713317865385330),
  ((458502162098520016000, 458502162098520016000), 5241713317865385330),
  ((150980956125409987000, 424509521937290024000), 6604729788871815250),
  ((424509521937290024000, 150980956125409987000), 6604729788871815250),
  ((424509521937290024000, 424509521937290024000), 6604729788871815250),
  ((235905859892170000000, 382047070053920024000), 7487503483135749680),
  ((382047070053920024000, 235905859892170000000), 7487503483135749680),
  ((382047070053920024000, 382047070053920024000), 7487503483135749680),
  ((438024308407850005000, 280987845796079994000), 7493952221692095140),
  ((280987845796079994000, 438024308407850005000), 7493952221692095140),
  ((280987845796079994000, 280987845796079994000), 7493952221692095140),
  ((545302048291929964000, 227348975854029994000), 6669432370510829790),
  ((227348975854029994000, 545302048291929964000), 6669432370510829790),
  ((227348975854029994000, 227348975854029994000), 6669432370510829790),
  ((650881776982540017000, 174559111508729992000), 5444585556951005330),
  ((174559111508729992000, 650881776982540017000), 5444585556951005330),
  ((174559111508729992000, 174559111508729992000), 5444585556951005330),
  ((753483145597130033000, 123258427201439993000), 4094720330446730350),
  ((123258427201439993000, 753483145597130033000), 4094720330446730350),
  ((123258427201439993000, 123258427201439993000), 4094720330446730350),
  ((839831542215609961000, 80084228892200001700), 2787693794303892570),
  ((80084228892200001700, 839831542215609961000), 2787693794303892570),
  ((80084228892200001700, 80084228892200001700), 2787693794303892570),
  ((904451065184200043000, 47774467407899999500), 1595608236705988020),
  ((47774467407899999500, 904451065184200043000), 1595608236705988020),
  ((47774467407899999500, 47774467407899999500), 1595608236705988020),
  ((956558970639719952000, 21720514680139999700), 648357572163522520),
  ((21720514680139999700, 956558970639719952000), 648357572163522520),
  ((21720514680139999700, 21720514680139999700), 648357572163522520),
  ((990470644769130049000, 4764677615440000330), 149131413067458594),
  ((4764677615440000330, 990470644769130049000), 149131413067458594),
  ((4764677615440000330, 4764677615440000330), 149131413067458594),
  ((925371193349999992, 415295270913309977000), 499452842539448204),
  ((925371193349999992, 583779357893340012000), 499452842539448204),
  ((415295270913309977000, 925371193349999992), 499452842539448204),
  ((415295270913309977000, 583779357893340012000), 499452842539448204),
  ((583779357893340012000, 925371193349999992), 499452842539448204),
  ((583779357893340012000, 415295270913309977000), 499452842539448204),
  ((1385925855560000110, 61189909785350001000), 231425424586626655),
  ((1385925855560000110, 937424164359090040000), 231425424586626655),
  ((61189909785350001000, 1385925855560000110), 231425424586626655),
  ((61189909785350001000, 937424164359090040000), 231425424586626655),
  ((937424164359090040000, 1385925855560000110), 231425424586626655),
  ((937424164359090040000, 61189909785350001000), 231425424586626655),
  ((3682415455909999940, 164908690136910008000), 617225668191206467),
  ((3682415455909999940, 831408894407180021000), 617225668191206467),
  ((164908690136910008000, 3682415455909999940), 617225668191206467),
  ((164908690136910008000, 831408894407180021000), 617225668191206467),
  ((831408894407180021000, 3682415455909999940), 617225668191206467),
  ((831408894407180021000, 164908690136910008000), 617225668191206467),
  ((3903223424160000030, 25035062231999999400), 285359926121603075),
  ((3903223424160000030, 971061714343840032000), 285359926121603075),
  ((25035062231999999400, 3903223424160000030), 285359926121603075),
  ((25035062231999999400, 971061714343840032000), 285359926121603075),
  ((971061714343840032000, 3903223424160000030), 285359926121603075),
  ((971061714343840032000, 25035062231999999400), 285359926121603075),
  ((3233248155009999830, 306064465151099974000), 563473062938812030),
  ((3233248155009999830, 690702286693890000000), 563473062938812030),
  ((306064465151099974000, 3233248155009999830), 563473062938812030),
  ((306064465151099974000, 690702286693890000000), 563473062938812030),
  ((690702286693890000000, 3233248155009999830), 563473062938812030),
  ((690702286693890000000, 306064465151099974000), 563473062938812030),
  ((6467432112239999800, 107073283730220001000), 873933474703668541),
  ((6467432112239999800, 886459284157540051000), 873933474703668541),
  ((107073283730220001000, 6467432112239999800), 873933474703668541),
  ((107073283730220001000, 886459284157540051000), 873933474703668541),
  ((886459284157540051000, 6467432112239999800), 873933474703668541),
  ((886459284157540051000, 107073283730220001000), 873933474703668541),
  ((3247475491329999790, 229957549345579992000), 591409407515828471),
  ((3247475491329999790, 766794975163080039000), 591409407515828471),
  ((229957549345579992000, 3247475491329999790), 591409407515828471),
  ((229957549345579992000, 766794975163080039000), 591409407515828471),
  ((766794975163080039000, 3247475491329999790), 591409407515828471),
  ((766794975163080039000, 229957549345579992000), 591409407515828471),
  ((8675090806750000020, 337036633305779987000), 995419647337516915),
  ((8675090806750000020, 654288275887459969000), 995419647337516915),
  ((337036633305779987000, 8675090806750000020), 995419647337516915),
  ((337036633305779987000, 654288275887459969000), 995419647337516915),
  ((654288275887459969000, 8675090806750000020), 995419647337516915),
  ((654288275887459969000, 337036633305779987000), 995419647337516915),
  ((15597026467309999700, 56256576182060001600), 950206397517989977),
  ((15597026467309999700, 928146397350629981000), 950206397517989977),
  ((56256576182060001600, 15597026467309999700), 950206397517989977),
  ((56256576182060001600, 928146397350629981000), 950206397517989977),
  ((928146397350629981000, 15597026467309999700), 950206397517989977),
  ((928146397350629981000, 56256576182060001600), 950206397517989977),
  ((17976721253690000600, 402451375212399987000), 2249182904408725610),
  ((17976721253690000600, 579571903533909971000), 2249182904408725610),
  ((402451375212399987000, 17976721253690000600), 2249182904408725610),
  ((402451375212399987000, 579571903533909971000), 2249182904408725610),
  ((579571903533909971000, 17976721253690000600), 2249182904408725610),
  ((579571903533909971000, 402451375212399987000), 2249182904408725610),
  ((17124245353890000400, 243654702010830004000), 1739359730137359430),
  ((17124245353890000400, 739221052635280040000), 1739359730137359430),
  ((243654702010830004000, 17124245353890000400), 1739359730137359430),
  ((243654702010830004000, 739221052635280040000), 1739359730137359430),
  ((739221052635280040000, 17124245353890000400), 1739359730137359430),
  ((739221052635280040000, 243654702010830004000), 1739359730137359430),
  ((22883405346579999800, 165389585614529988000), 2051199518361976680),
  ((22883405346579999800, 811727009038879954000), 2051199518361976680),
  ((165389585614529988000, 22883405346579999800), 2051199518361976680),
  ((165389585614529988000, 811727009038879954000), 2051199518361976680),
  ((811727009038879954000, 22883405346579999800), 2051199518361976680),
  ((811727009038879954000, 165389585614529988000), 2051199518361976680),
  ((32737597287770002500, 99301874495849998300), 2010880774872081040),
  ((32737597287770002500, 867960528216390026000), 2010880774872081040),
  ((99301874495849998300, 32737597287770002500), 2010880774872081040),
  ((99301874495849998300, 867960528216390026000), 2010880774872081040),
  ((867960528216390026000, 32737597287770002500), 2010880774872081040),
  ((867960528216390026000, 99301874495849998300), 2010880774872081040),
  ((33821012342340001100, 308478333069049981000), 3016582330397532970),
  ((33821012342340001100, 657700654588600053000), 3016582330397532970),
  ((308478333069049981000, 33821012342340001100), 3016582330397532970),
  ((308478333069049981000, 657700654588600053000), 3016582330397532970),
  ((657700654588600053000, 33821012342340001100), 3016582330397532970),
  ((657700654588600053000, 308478333069049981000), 3016582330397532970),
  ((35547614460019999500, 460668318592109993000), 1973145151064799060),
  ((35547614460019999500, 503784066947870035000), 1973145151064799060),
  ((460668318592109993000, 35547614460019999500), 1973145151064799060),
  ((460668318592109993000, 503784066947870035000), 1973145151064799060),
  ((503784066947870035000, 35547614460019999500), 1973145151064799060),
  ((503784066947870035000, 460668318592109993000), 1973145151064799060),
  ((50539790306870002700, 218815299453929996000), 3322022268840134180),
  ((50539790306870002700, 730644910239199974000), 3322022268840134180),
  ((218815299453929996000, 50539790306870002700), 3322022268840134180),
  ((218815299453929996000, 730644910239199974000), 3322022268840134180),
  ((730644910239199974000, 50539790306870002700), 3322022268840134180),
  ((730644910239199974000, 218815299453929996000), 3322022268840134180),
  ((57014714915729999800, 379209551560269975000), 4127152928039229050),
  ((57014714915729999800, 563775733523990019000), 4127152928039229050),
  ((379209551560269975000, 57014714915729999800), 4127152928039229050),
  ((379209551560269975000, 563775733523990019000), 4127152928039229050),
  ((563775733523990019000, 57014714915729999800), 4127152928039229050),
  ((563775733523990019000, 379209551560269975000), 4127152928039229050),
  ((64152806421199998200, 142960819418189999000), 3248028316703205350),
  ((64152806421199998200, 792886374160610030000), 3248028316703205350),
  ((142960819418189999000, 64152806421199998200), 3248028316703205350),
  ((142960819418189999000, 792886374160610030000), 3248028316703205350),
  ((792886374160610030000, 64152806421199998200), 3248028316703205350),
  ((792886374160610030000, 142960819418189999000), 3248028316703205350),
  ((80501148287629997700, 283731282105920024000), 4626389072073301170),
  ((80501148287629997700, 635767569606449978000), 4626389072073301170),
  ((283731282105920024000, 80501148287629997700), 4626389072073301170),
  ((283731282105920024000, 635767569606449978000), 4626389072073301170),
  ((635767569606449978000, 80501148287629997700), 4626389072073301170),
  ((635767569606449978000, 283731282105920024000), 4626389072073301170),
  ((104367068134530006000, 196737441004439989000), 4582460363147139970),
  ((104367068134530006000, 698895490861029978000), 4582460363147139970),
  ((196737441004439989000, 104367068134530006000), 4582460363147139970),
  ((196737441004439989000, 698895490861029978000), 4582460363147139970),
  ((698895490861029978000, 104367068134530006000), 4582460363147139970),
  ((698895490861029978000, 196737441004439989000), 4582460363147139970),
  ((113844894428749996000, 355889141211659987000), 5784762314048835260),
  ((113844894428749996000, 530265964359589947000), 5784762314048835260),
  ((355889141211659987000, 113844894428749996000), 5784762314048835260),
  ((355889141211659987000, 530265964359589947000), 5784762314048835260),
  ((530265964359589947000, 113844894428749996000), 5784762314048835260),
  ((530265964359589947000, 355889141211659987000), 5784762314048835260),
  ((145363487715519990000, 259818685351909995000), 5880558233804585210),
  ((145363487715519990000, 594817826932560023000), 5880558233804585210),
  ((259818685351909995000, 145363487715519990000), 5880558233804585210),
  ((259818685351909995000, 594817826932560023000), 5880558233804585210),
  ((594817826932560023000, 145363487715519990000), 5880558233804585210),
  ((594817826932560023000, 259818685351909995000), 5880558233804585210),
  ((189945652821980004000, 321923181231299982000), 6912351091082700150),
  ((189945652821980004000, 488131165946720014000), 6912351091082700150),
  ((321923181231299982000, 189945652821980004000), 6912351091082700150),
  ((321923181231299982000, 488131165946720014000), 6912351091082700150),
  ((488131165946720014000, 189945652821980004000), 6912351091082700150),
  ((488131165946720014000, 321923181231299982000), 6912351091082700150)]

/-- `triangle_gauss_rule_27`, `:1845-2021`: coordinates, weight; entry by entry the same numbers as `triangle_gauss_rule_26`. -/
def triGauss27 : List ((Nat × Nat) × Nat) := triGauss26

/-- `triangle_gauss_rule_28`, `:2023-2199`: coordinates, weight; entry by entry the same numbers as `triangle_gauss_rule_26`. -/
def triGauss28 : List ((Nat × Nat) × Nat) := triGauss26

/-- `triangle_gauss_rule_29`, `:2201-2377`: coordinates, weight; entry by entry the same numbers as `triangle_gauss_rule_26`. -/
def triGauss29 : List ((Nat × Nat) × Nat) := triGauss26

/-- `triangle_gauss_rule_30`, `:2379-2555`: coordinates, weight; entry by entry the same numbers as `triangle_gauss_rule_26`. -/
def triGauss30 : List ((Nat × Nat) × Nat) := triGauss26

/-- `triangle_gauss_rules`, `:2562-2594`; the last entry is the sentinel `{ 0, NULL }`. -/
def triGaussRules : List (List ((Nat × Nat) × Nat)) := [
  triGauss1, triGauss2, triGauss3, triGauss4, triGauss5, triGauss6, triGauss7, triGauss8, triGauss9, triGauss10, triGauss11, triGauss12, triGauss13, triGauss14, triGauss15, triGauss16, triGauss17, triGauss18, triGauss19, triGauss20, triGauss21, triGauss22, triGauss23, triGauss24, triGauss25, triGauss26, triGauss27, triGauss28, triGauss29, triGauss30, []]

end Verif.Quad
