/-!
Tables of the one-dimensional quadrature rules, node and weight, in units of `10 ^ (-16)`:
`quadratures/bits/quad_raw_gauss.hpp:19-287` and `quadratures/bits/quad_raw_gauss_lobatto.hpp:28-296`.
The decimal literals of the source have at most 16 decimals, so the scaled integers are exact.
-/
namespace Verif.Quad

/-- `gauss_rule_1`, `quadratures/bits/quad_raw_gauss.hpp:19-21`. -/
def gauss1 : List (Int × Int) := [
  (0, 20000000000000000)]

/-- `gauss_rule_2`, `quadratures/bits/quad_raw_gauss.hpp:23-26`. -/
def gauss2 : List (Int × Int) := [
  (-5773502691896260, 10000000000000000),
  (5773502691896260, 10000000000000000)]

/-- `gauss_rule_3`, `quadratures/bits/quad_raw_gauss.hpp:28-32`. -/
def gauss3 : List (Int × Int) := [
  (-7745966692414830, 5555555555555560),
  (0, 8888888888888890),
  (7745966692414830, 5555555555555560)]

/-- `gauss_rule_4`, `quadratures/bits/quad_raw_gauss.hpp:34-39`. -/
def gauss4 : List (Int × Int) := [
  (-8611363115940530, 3478548451374540),
  (-3399810435848560, 6521451548625460),
  (3399810435848560, 6521451548625460),
  (8611363115940520, 3478548451374530)]

/-- `gauss_rule_5`, `quadratures/bits/quad_raw_gauss.hpp:41-47`. -/
def gauss5 : List (Int × Int) := [
  (-9061798459386640, 2369268850561890),
  (-5384693101056830, 4786286704993660),
  (0, 5688888888888890),
  (5384693101056830, 4786286704993670),
  (9061798459386640, 2369268850561890)]

/-- `gauss_rule_6`, `quadratures/bits/quad_raw_gauss.hpp:49-56`. -/
def gauss6 : List (Int × Int) := [
  (-9324695142031520, 1713244923791700),
  (-6612093864662640, 3607615730481380),
  (-2386191860831970, 4679139345726910),
  (2386191860831970, 4679139345726910),
  (6612093864662640, 3607615730481380),
  (9324695142031520, 1713244923791710)]

/-- `gauss_rule_7`, `quadratures/bits/quad_raw_gauss.hpp:58-66`. -/
def gauss7 : List (Int × Int) := [
  (-9491079123427590, 1294849661688700),
  (-7415311855993940, 2797053914892760),
  (-4058451513773970, 3818300505051190),
  (0, 4179591836734690),
  (4058451513773970, 3818300505051190),
  (7415311855993940, 2797053914892760),
  (9491079123427580, 1294849661688700)]

/-- `gauss_rule_8`, `quadratures/bits/quad_raw_gauss.hpp:68-77`. -/
def gauss8 : List (Int × Int) := [
  (-9602898564975360, 1012285362903760),
  (-7966664774136270, 2223810344533750),
  (-5255324099163290, 3137066458778870),
  (-1834346424956500, 3626837833783620),
  (1834346424956500, 3626837833783620),
  (5255324099163290, 3137066458778880),
  (7966664774136270, 2223810344533740),
  (9602898564975360, 1012285362903770)]

/-- `gauss_rule_9`, `quadratures/bits/quad_raw_gauss.hpp:79-89`. -/
def gauss9 : List (Int × Int) := [
  (-9681602395076260, 812743883615746),
  (-8360311073266360, 1806481606948580),
  (-6133714327005900, 2606106964029360),
  (-3242534234038090, 3123470770400030),
  (0, 3302393550012600),
  (3242534234038090, 3123470770400030),
  (6133714327005910, 2606106964029360),
  (8360311073266370, 1806481606948570),
  (9681602395076270, 812743883615752)]

/-- `gauss_rule_10`, `quadratures/bits/quad_raw_gauss.hpp:91-102`. -/
def gauss10 : List (Int × Int) := [
  (-9739065285171710, 666713443086882),
  (-8650633666889840, 1494513491505800),
  (-6794095682990240, 2190863625159820),
  (-4333953941292470, 2692667193099960),
  (-1488743389816310, 2955242247147530),
  (1488743389816310, 2955242247147530),
  (4333953941292470, 2692667193099970),
  (6794095682990250, 2190863625159820),
  (8650633666889850, 1494513491505820),
  (9739065285171720, 666713443086878)]

/-- `gauss_rule_11`, `quadratures/bits/quad_raw_gauss.hpp:104-116`. -/
def gauss11 : List (Int × Int) := [
  (-9782286581460580, 556685671161741),
  (-8870625997680960, 1255803694649040),
  (-7301520055740500, 1862902109277350),
  (-5190961292068120, 2331937645919910),
  (-2695431559523450, 2628045445102470),
  (0, 2729250867779010),
  (2695431559523450, 2628045445102470),
  (5190961292068130, 2331937645919920),
  (7301520055740500, 1862902109277340),
  (8870625997680970, 1255803694649050),
  (9782286581460580, 556685671161723)]

/-- `gauss_rule_12`, `quadratures/bits/quad_raw_gauss.hpp:118-131`. -/
def gauss12 : List (Int × Int) := [
  (-9815606342467190, 471753363865106),
  (-9041172563704750, 1069393259953190),
  (-7699026741943050, 1600783285433470),
  (-5873179542866180, 2031674267230660),
  (-3678314989981800, 2334925365383550),
  (-1252334085114690, 2491470458134020),
  (1252334085114690, 2491470458134030),
  (3678314989981800, 2334925365383550),
  (5873179542866170, 2031674267230660),
  (7699026741943040, 1600783285433460),
  (9041172563704730, 1069393259953170),
  (9815606342467180, 471753363865120)]

/-- `gauss_rule_13`, `quadratures/bits/quad_raw_gauss.hpp:133-147`. -/
def gauss13 : List (Int × Int) := [
  (-9841830547185890, 404840047653166),
  (-9175983992229780, 921214998377284),
  (-8015780907333100, 1388735102197870),
  (-6423493394403400, 1781459807619460),
  (-4484927510364470, 2078160475368890),
  (-2304583159551350, 2262831802628970),
  (0, 2325515532308750),
  (2304583159551350, 2262831802628970),
  (4484927510364470, 2078160475368880),
  (6423493394403400, 1781459807619460),
  (8015780907333100, 1388735102197870),
  (9175983992229790, 921214998377297),
  (9841830547185890, 404840047653156)]

/-- `gauss_rule_14`, `quadratures/bits/quad_raw_gauss.hpp:149-164`. -/
def gauss14 : List (Int × Int) := [
  (-9862838086968130, 351194603317527),
  (-9284348836635730, 801580871597601),
  (-8272013150697650, 1215185706879020),
  (-6872929048116850, 1572031671581940),
  (-5152486363581540, 1855383974779380),
  (-3191123689278900, 2051984637212960),
  (-1080549487073440, 2152638534631580),
  (1080549487073440, 2152638534631580),
  (3191123689278900, 2051984637212960),
  (5152486363581540, 1855383974779380),
  (6872929048116860, 1572031671581950),
  (8272013150697640, 1215185706879020),
  (9284348836635730, 801580871597608),
  (9862838086968120, 351194603317510)]

/-- `gauss_rule_15`, `quadratures/bits/quad_raw_gauss.hpp:166-182`. -/
def gauss15 : List (Int × Int) := [
  (-9879925180204850, 307532419961169),
  (-9372733924007050, 703660474881079),
  (-8482065834104270, 1071592204671720),
  (-7244177313601700, 1395706779261550),
  (-5709721726085390, 1662692058169940),
  (-3941513470775640, 1861610000155620),
  (-2011940939974350, 1984314853271120),
  (0, 2025782419255610),
  (2011940939974350, 1984314853271120),
  (3941513470775630, 1861610000155620),
  (5709721726085380, 1662692058169940),
  (7244177313601700, 1395706779261550),
  (8482065834104260, 1071592204671710),
  (9372733924007050, 703660474881086),
  (9879925180204840, 307532419961168)]

/-- `gauss_rule_16`, `quadratures/bits/quad_raw_gauss.hpp:184-201`. -/
def gauss16 : List (Int × Int) := [
  (-9894009349916500, 271524594117561),
  (-9445750230732320, 622535239386456),
  (-8656312023878320, 951585116824928),
  (-7554044083550030, 1246289712555340),
  (-6178762444026440, 1495959888165770),
  (-4580167776572270, 1691565193950020),
  (-2816035507792590, 1826034150449230),
  (-950125098376372, 1894506104550680),
  (950125098376373, 1894506104550680),
  (2816035507792590, 1826034150449230),
  (4580167776572270, 1691565193950030),
  (6178762444026440, 1495959888165760),
  (7554044083550040, 1246289712555360),
  (8656312023878320, 951585116824934),
  (9445750230732330, 622535239386473),
  (9894009349916500, 271524594117542)]

/-- `gauss_rule_17`, `quadratures/bits/quad_raw_gauss.hpp:203-221`. -/
def gauss17 : List (Int × Int) := [
  (-9905754753144170, 241483028685482),
  (-9506755217687680, 554595293739856),
  (-8802391537269860, 850361483171798),
  (-7815140038968010, 1118838471934040),
  (-6576711592166910, 1351363684685260),
  (-5126905370864770, 1540457610768100),
  (-3512317634538760, 1680041021564500),
  (-1784841814958480, 1765627053669930),
  (0, 1794464703562070),
  (1784841814958480, 1765627053669920),
  (3512317634538760, 1680041021564500),
  (5126905370864760, 1540457610768110),
  (6576711592166900, 1351363684685250),
  (7815140038968010, 1118838471934050),
  (8802391537269840, 850361483171770),
  (9506755217687670, 554595293739875),
  (9905754753144160, 241483028685473)]

/-- `gauss_rule_18`, `quadratures/bits/quad_raw_gauss.hpp:223-242`. -/
def gauss18 : List (Int × Int) := [
  (-9915651684209310, 216160135264830),
  (-9558239495713980, 497145488949712),
  (-8926024664975560, 764257302548879),
  (-8037049589725230, 1009420441062870),
  (-6916870430603530, 1225552067114780),
  (-5597708310739470, 1406429146706510),
  (-4117511614628430, 1546846751262650),
  (-2518862256915060, 1642764837458320),
  (-847750130417353, 1691423829631440),
  (847750130417352, 1691423829631430),
  (2518862256915060, 1642764837458330),
  (4117511614628430, 1546846751262660),
  (5597708310739470, 1406429146706500),
  (6916870430603530, 1225552067114780),
  (8037049589725220, 1009420441062860),
  (8926024664975560, 764257302548886),
  (9558239495713980, 497145488949690),
  (9915651684209320, 216160135264855)]

/-- `gauss_rule_19`, `quadratures/bits/quad_raw_gauss.hpp:244-264`. -/
def gauss19 : List (Int × Int) := [
  (-9924068438435830, 194617882297263),
  (-9602081521348300, 448142267656976),
  (-9031559036148190, 690445427376437),
  (-8227146565371430, 914900216224497),
  (-7209661773352300, 1115666455473340),
  (-6005453046616800, 1287539625393360),
  (-4645707413759610, 1426067021736060),
  (-3165640999636300, 1527660420658600),
  (-1603586456402250, 1589688433939540),
  (0, 1610544498487830),
  (1603586456402250, 1589688433939540),
  (3165640999636300, 1527660420658600),
  (4645707413759600, 1426067021736060),
  (6005453046616810, 1287539625393360),
  (7209661773352290, 1115666455473340),
  (8227146565371430, 914900216224515),
  (9031559036148180, 690445427376399),
  (9602081521348310, 448142267656984),
  (9924068438435850, 194617882297286)]

/-- `gauss_rule_20`, `quadratures/bits/quad_raw_gauss.hpp:266-287`. -/
def gauss20 : List (Int × Int) := [
  (-9931285991850950, 176140071391534),
  (-9639719272779140, 406014298003863),
  (-9122344282513250, 626720483341077),
  (-8391169718222190, 832767415767044),
  (-7463319064601510, 1019301198172410),
  (-6360536807265150, 1181945319615190),
  (-5108670019508270, 1316886384491770),
  (-3737060887154200, 1420961093183820),
  (-2277858511416450, 1491729864726040),
  (-765265211334973, 1527533871307260),
  (765265211334971, 1527533871307250),
  (2277858511416450, 1491729864726030),
  (3737060887154200, 1420961093183830),
  (5108670019508280, 1316886384491770),
  (6360536807265170, 1181945319615190),
  (7463319064601520, 1019301198172400),
  (8391169718222180, 832767415767037),
  (9122344282513270, 626720483341074),
  (9639719272779150, 406014298003887),
  (9931285991850960, 176140071391520)]

/-- `gauss_rules`, `quadratures/bits/quad_raw_gauss.hpp:294-316`; the last entry is the sentinel `{ 0, NULL }`. -/
def gaussRules : List (List (Int × Int)) := [
  gauss1, gauss2, gauss3, gauss4, gauss5, gauss6, gauss7, gauss8, gauss9, gauss10, gauss11, gauss12, gauss13, gauss14, gauss15, gauss16, gauss17, gauss18, gauss19, gauss20, []]

/-- `lobatto_rule_1`, `quadratures/bits/quad_raw_gauss_lobatto.hpp:28-30`. -/
def lobatto1 : List (Int × Int) := [
  (10000000000000000, 20000000000000000)]

/-- `lobatto_rule_2`, `quadratures/bits/quad_raw_gauss_lobatto.hpp:32-35`. -/
def lobatto2 : List (Int × Int) := [
  (-10000000000000000, 10000000000000000),
  (10000000000000000, 10000000000000000)]

/-- `lobatto_rule_3`, `quadratures/bits/quad_raw_gauss_lobatto.hpp:37-41`. -/
def lobatto3 : List (Int × Int) := [
  (-10000000000000000, 3333333333333333),
  (0, 13333333333333333),
  (10000000000000000, 3333333333333333)]

/-- `lobatto_rule_4`, `quadratures/bits/quad_raw_gauss_lobatto.hpp:43-48`. -/
def lobatto4 : List (Int × Int) := [
  (-10000000000000000, 1666666666666667),
  (-4472135954999579, 8333333333333334),
  (4472135954999579, 8333333333333334),
  (10000000000000000, 1666666666666667)]

/-- `lobatto_rule_5`, `quadratures/bits/quad_raw_gauss_lobatto.hpp:50-56`. -/
def lobatto5 : List (Int × Int) := [
  (-10000000000000000, 1000000000000000),
  (-6546536707079771, 5444444444444445),
  (0, 7111111111111111),
  (6546536707079771, 5444444444444445),
  (10000000000000000, 1000000000000000)]

/-- `lobatto_rule_6`, `quadratures/bits/quad_raw_gauss_lobatto.hpp:58-65`. -/
def lobatto6 : List (Int × Int) := [
  (-10000000000000000, 666666666666667),
  (-7650553239294647, 3784749562978469),
  (-2852315164806451, 5548583770354865),
  (2852315164806451, 5548583770354865),
  (7650553239294647, 3784749562978469),
  (10000000000000000, 666666666666667)]

/-- `lobatto_rule_7`, `quadratures/bits/quad_raw_gauss_lobatto.hpp:67-75`. -/
def lobatto7 : List (Int × Int) := [
  (-10000000000000000, 476190476190476),
  (-8302238962785669, 2768260473615660),
  (-4688487934707142, 4317453812098627),
  (0, 4876190476190476),
  (4688487934707142, 4317453812098627),
  (8302238962785669, 2768260473615660),
  (10000000000000000, 476190476190476)]

/-- `lobatto_rule_8`, `quadratures/bits/quad_raw_gauss_lobatto.hpp:77-86`. -/
def lobatto8 : List (Int × Int) := [
  (-10000000000000000, 357142857142857),
  (-8717401485096067, 2107042271435060),
  (-5917001814331423, 3411226924835041),
  (-2092992179024789, 4124587946587037),
  (2092992179024789, 4124587946587037),
  (5917001814331423, 3411226924835041),
  (8717401485096067, 2107042271435060),
  (10000000000000000, 357142857142857)]

/-- `lobatto_rule_9`, `quadratures/bits/quad_raw_gauss_lobatto.hpp:88-98`. -/
def lobatto9 : List (Int × Int) := [
  (-10000000000000000, 277777777777778),
  (-8997579954114602, 1654953615608056),
  (-6771862795107377, 2745387125001617),
  (-3631174638261782, 3464285109730464),
  (0, 3715192743764172),
  (3631174638261782, 3464285109730464),
  (6771862795107377, 2745387125001617),
  (8997579954114602, 1654953615608056),
  (10000000000000000, 277777777777778)]

/-- `lobatto_rule_10`, `quadratures/bits/quad_raw_gauss_lobatto.hpp:100-111`. -/
def lobatto10 : List (Int × Int) := [
  (-10000000000000000, 222222222222222),
  (-9195339081664587, 1333059908510703),
  (-7387738651055050, 2248893420631264),
  (-4779249498104445, 2920426836796838),
  (-1652789576663870, 3275397611838974),
  (1652789576663870, 3275397611838974),
  (4779249498104445, 2920426836796838),
  (7387738651055050, 2248893420631264),
  (9195339081664587, 1333059908510703),
  (10000000000000000, 222222222222222)]

/-- `lobatto_rule_11`, `quadratures/bits/quad_raw_gauss_lobatto.hpp:113-125`. -/
def lobatto11 : List (Int × Int) := [
  (-10000000000000000, 181818181818182),
  (-9340014304080592, 1096122732669947),
  (-7844834736631444, 1871698817803051),
  (-5652353269962050, 2480481042640282),
  (-2957581355869394, 2868791247790080),
  (0, 3002175954556907),
  (2957581355869394, 2868791247790080),
  (5652353269962050, 2480481042640282),
  (7844834736631444, 1871698817803051),
  (9340014304080592, 1096122732669947),
  (10000000000000000, 181818181818182)]

/-- `lobatto_rule_12`, `quadratures/bits/quad_raw_gauss_lobatto.hpp:127-140`. -/
def lobatto12 : List (Int × Int) := [
  (-10000000000000000, 151515151515152),
  (-9448992722228823, 916845174131962),
  (-8192793216440066, 1579747055643702),
  (-6328761530318607, 2125084177610210),
  (-3995309409653489, 2512756031992011),
  (-1365529328549276, 2714052409106962),
  (1365529328549276, 2714052409106962),
  (3995309409653489, 2512756031992011),
  (6328761530318607, 2125084177610210),
  (8192793216440066, 1579747055643702),
  (9448992722228823, 916845174131962),
  (10000000000000000, 151515151515152)]

/-- `lobatto_rule_13`, `quadratures/bits/quad_raw_gauss_lobatto.hpp:142-156`. -/
def lobatto13 : List (Int × Int) := [
  (-10000000000000000, 128205128205128),
  (-9533098466421639, 778016867468189),
  (-8463475646518723, 1349819266896086),
  (-6861884690817575, 1836468652035502),
  (-4829098210913362, 2207677935661102),
  (-2492869301062400, 2440157903066764),
  (0, 2519308493334467),
  (2492869301062400, 2440157903066764),
  (4829098210913362, 2207677935661102),
  (6861884690817575, 1836468652035502),
  (8463475646518723, 1349819266896086),
  (9533098466421639, 778016867468189),
  (10000000000000000, 128205128205128)]

/-- `lobatto_rule_14`, `quadratures/bits/quad_raw_gauss_lobatto.hpp:158-173`. -/
def lobatto14 : List (Int × Int) := [
  (-10000000000000000, 109890109890110),
  (-9599350452672609, 668372844976813),
  (-8678010538303472, 1165866558987118),
  (-7288685990913262, 1600218517629521),
  (-5506394029286471, 1948261493734161),
  (-3427240133427129, 2191262530097708),
  (-1163318688837039, 2316127944684570),
  (1163318688837039, 2316127944684570),
  (3427240133427129, 2191262530097708),
  (5506394029286471, 1948261493734161),
  (7288685990913262, 1600218517629521),
  (8678010538303472, 1165866558987118),
  (9599350452672609, 668372844976813),
  (10000000000000000, 109890109890110)]

/-- `lobatto_rule_15`, `quadratures/bits/quad_raw_gauss_lobatto.hpp:175-191`. -/
def lobatto15 : List (Int × Int) := [
  (-10000000000000000, 95238095238095),
  (-9652459265038386, 580298930286013),
  (-8850820442229763, 1016600703257181),
  (-7635196899518152, 1405116998024280),
  (-6062532054698457, 1727896472536009),
  (-4206380547136725, 1969872359646133),
  (-2153539553637942, 2119735859268209),
  (0, 2170481163488157),
  (2153539553637942, 2119735859268209),
  (4206380547136725, 1969872359646133),
  (6062532054698457, 1727896472536009),
  (7635196899518152, 1405116998024280),
  (8850820442229763, 1016600703257181),
  (9652459265038386, 580298930286013),
  (10000000000000000, 95238095238095)]

/-- `lobatto_rule_16`, `quadratures/bits/quad_raw_gauss_lobatto.hpp:193-210`. -/
def lobatto16 : List (Int × Int) := [
  (-10000000000000000, 83333333333333),
  (-9695680462702180, 508503610059200),
  (-8992005330934721, 893936973259307),
  (-7920082918618151, 1242553821325141),
  (-6523887028824931, 1540269808071644),
  (-4860594218871376, 1774919133917042),
  (-2998304689007632, 1936900238252036),
  (-1013262735219495, 2019583081782300),
  (1013262735219494, 2019583081782299),
  (2998304689007632, 1936900238252036),
  (4860594218871376, 1774919133917042),
  (6523887028824931, 1540269808071644),
  (7920082918618151, 1242553821325141),
  (8992005330934721, 893936973259307),
  (9695680462702180, 508503610059200),
  (10000000000000000, 83333333333333)]

/-- `lobatto_rule_17`, `quadratures/bits/quad_raw_gauss_lobatto.hpp:212-230`. -/
def lobatto17 : List (Int × Int) := [
  (-10000000000000000, 73529411764706),
  (-9731321766314184, 449219405432543),
  (-9108799959155736, 791982705036871),
  (-8156962512217703, 1105929090070282),
  (-6910289806276847, 1379877462019267),
  (-5413853993301015, 1603946619976216),
  (-3721744335654770, 1770042535156578),
  (-1895119735183174, 1872163396776193),
  (0, 1906618747534694),
  (1895119735183174, 1872163396776193),
  (3721744335654770, 1770042535156578),
  (5413853993301015, 1603946619976216),
  (6910289806276847, 1379877462019267),
  (8156962512217703, 1105929090070282),
  (9108799959155736, 791982705036871),
  (9731321766314184, 449219405432543),
  (10000000000000000, 73529411764706)]

/-- `lobatto_rule_18`, `quadratures/bits/quad_raw_gauss_lobatto.hpp:232-251`. -/
def lobatto18 : List (Int × Int) := [
  (-10000000000000000, 65359477124183),
  (-9761055574121985, 399706288109139),
  (-9206491853475339, 706371668856337),
  (-8355935352180902, 990162717175028),
  (-7236793292832426, 1242105331329672),
  (-5885048343186617, 1454119615738023),
  (-4344150369121240, 1619395172376024),
  (-2663626528782810, 1732621094894563),
  (-897490934846521, 1790158634397031),
  (897490934846521, 1790158634397031),
  (2663626528782810, 1732621094894563),
  (4344150369121240, 1619395172376024),
  (5885048343186617, 1454119615738023),
  (7236793292832426, 1242105331329672),
  (8355935352180902, 990162717175028),
  (9206491853475339, 706371668856337),
  (9761055574121985, 399706288109139),
  (10000000000000000, 65359477124183)]

/-- `lobatto_rule_19`, `quadratures/bits/quad_raw_gauss_lobatto.hpp:253-273`. -/
def lobatto19 : List (Int × Int) := [
  (-10000000000000000, 58479532163743),
  (-9786117662220801, 357933651861766),
  (-9289015281525862, 633818917626298),
  (-8524605777966461, 891317570992071),
  (-7514942025526130, 1123153414773051),
  (-6289081372652205, 1322672804487508),
  (-4882292856807135, 1484139425959388),
  (-3335048478244986, 1602909240440613),
  (-1691860234092816, 1675565845271428),
  (0, 1700019192848272),
  (1691860234092816, 1675565845271428),
  (3335048478244986, 1602909240440613),
  (4882292856807135, 1484139425959388),
  (6289081372652205, 1322672804487508),
  (7514942025526130, 1123153414773051),
  (8524605777966461, 891317570992071),
  (9289015281525862, 633818917626298),
  (9786117662220801, 357933651861766),
  (10000000000000000, 58479532163743)]

/-- `lobatto_rule_20`, `quadratures/bits/quad_raw_gauss_lobatto.hpp:275-296`. -/
def lobatto20 : List (Int × Int) := [
  (-10000000000000000, 52631578947368),
  (-9807437048939142, 322371231884890),
  (-9359344988126654, 571818021275669),
  (-8668779780899502, 806317639961196),
  (-7753682609520559, 1019914996994507),
  (-6637764022903113, 1207092276286747),
  (-5349928640318863, 1363004823587242),
  (-3923531837139093, 1483615540709168),
  (-2395517059229865, 1565801026474754),
  (-805459372388218, 1607432863878458),
  (805459372388218, 1607432863878458),
  (2395517059229865, 1565801026474754),
  (3923531837139093, 1483615540709168),
  (5349928640318863, 1363004823587242),
  (6637764022903113, 1207092276286747),
  (7753682609520559, 1019914996994507),
  (8668779780899502, 806317639961196),
  (9359344988126654, 571818021275669),
  (9807437048939142, 322371231884890),
  (10000000000000000, 52631578947368)]

/-- `lobatto_rules`, `quadratures/bits/quad_raw_gauss_lobatto.hpp:304-325`; no sentinel. -/
def lobattoRules : List (List (Int × Int)) := [
  lobatto1, lobatto2, lobatto3, lobatto4, lobatto5, lobatto6, lobatto7, lobatto8, lobatto9, lobatto10, lobatto11, lobatto12, lobatto13, lobatto14, lobatto15, lobatto16, lobatto17, lobatto18, lobatto19, lobatto20]

end Verif.Quad
