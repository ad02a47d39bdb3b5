import Verif.Model.ArbqTables
import Verif.Lemmas.TriTables
/-!
Integer form of the moment conditions of the tetrahedron tables, checked by evaluation. The points in the unit
tetrahedron are written out so that they are computed once.
-/
namespace Verif.Quad

/-- The point in the unit tetrahedron, rounded down to a multiple of `10 ^ (-20)`. -/
def arbqPt (e : (Int × Int × Int) × Nat) : (Int × Int × Int) × Nat :=
  (((500000000000000 * (e.1.1 + 10 ^ 33) - 288675134594813 * (e.1.2.1 + 577350269189626 * 10 ^ 18) -
      204124145231932 * (e.1.2.2 + 408248290463863 * 10 ^ 18)) / 10 ^ 28,
    (577350269189626 * (e.1.2.1 + 577350269189626 * 10 ^ 18) - 204124145231932 * (e.1.2.2 + 408248290463863 * 10 ^ 18))
      / 10 ^ 28,
    612372435695795 * (e.1.2.2 + 408248290463863 * 10 ^ 18) / 10 ^ 28), e.2)

/-- The points of `arbq1`. -/
def arbqN1 : List ((Nat × Nat × Nat) × Nat) := [
  ((24999999999999966659, 25000000000000007447, 25000000000000018407), 970983543414646700000000000000000)]

/-- The points of `arbq2`. -/
def arbqN2 : List ((Nat × Nat × Nat) × Nat) := [
  ((18002969351036519323, 36531451881463486766, 692323557362743456), 291800886547715100000000000000000),
  ((15593312049918550685, 45746158708559560638, 38176535606934695647), 270688439235672400000000000000000),
  ((21607642918484738393, 37551502872910106, 43070170707783642772), 309834960175347000000000000000000),
  ((82157254096761968752, 12366680032845855134, 3993304864149840838), 98659257455912270000000000000000)]

/-- The points of `arbq3`. -/
def arbqN3 : List ((Nat × Nat × Nat) × Nat) := [
  ((19011700243928370424, 43985894764927544854, 1140332944455712434), 128721372740202500000000000000000),
  ((15868516322743997075, 12480486216524701646, 58566280565521626564), 217903433969599300000000000000000),
  ((1090521221118886794, 34544415571973088560, 28152380212354641877), 124350379206283600000000000000000),
  ((57122605214911491774, 14148275196950456618, 14691839008716965840), 244691718241007200000000000000000),
  ((17081692516498877587, 3787163178235706669, 15281814309092743200), 136543987582651200000000000000000),
  ((16200149169852408680, 64142979149569677773, 18385035049209784843), 118772651674903100000000000000000)]

/-- The points of `arbq4`. -/
def arbqN4 : List ((Nat × Nat × Nat) × Nat) := [
  ((9720464458758255051, 10660417256199333782, 68439041545304057353), 103378709064689400000000000000000),
  ((2956949520647915869, 32923295974264697966, 31790356021339488381), 107035625609016400000000000000000),
  ((43271023904776820009, 10384411641099306733, 35382323920929735468), 150479258274094000000000000000000),
  ((24027666492807241032, 30444840243449704321, 12680172591539209907), 187798715618658300000000000000000),
  ((12941137378890986804, 53800720391618598516, 33019041483746473955), 73952743125212980000000000000000),
  ((12154199133392742914, 899126009333569387, 30649398842969054733), 77121999254112700000000000000000),
  ((45076587609127649352, 43295349048135597507, 5945661629943384077), 67454193687019990000000000000000),
  ((41926631387951293216, 5334123953574529417, 4778143555908666346), 58194136481732440000000000000000),
  ((6722329489338306047, 74122888209362325704, 3518392977359871454), 53786467111521480000000000000000),
  ((75250850700965493210, 8140491840285935881, 6809937093820666577), 53669531839497440000000000000000),
  ((4049050672759031186, 17469405869723081104, 1356070187980284306), 38112163349091580000000000000000)]

/-- The points of `arbq5`. -/
def arbqN5 : List ((Nat × Nat × Nat) × Nat) := [
  ((9273525031089054023, 9273525031089095968, 72179424906732694757), 71360535421450540000000000000000),
  ((45449629587434989490, 4550370412564952344, 45449629587435074456), 41311486012323730000000000000000),
  ((4550370412564916766, 45449629587435030253, 45449629587435068332), 41311486012323750000000000000000),
  ((4550370412564921531, 4550370412564954385, 45449629587435068332), 41311486012323760000000000000000),
  ((31088591926330044811, 31088591926330086810, 6734224221009816292), 109418121413725600000000000000000),
  ((6734224221009785477, 31088591926330067193, 31088591926330081085), 109418121413725500000000000000000),
  ((31088591926330022475, 6734224221009819682, 31088591926330085371), 109418121413725500000000000000000),
  ((31088591926330030477, 31088591926330067193, 31088591926330081085), 109418121413725500000000000000000),
  ((72179424906732610020, 9273525031089138524, 9273525031089126291), 71360535421450500000000000000000),
  ((9273525031089100092, 9273525031089142256, 9273525031089132415), 71360535421450520000000000000000),
  ((9273525031089088655, 72179424906732661051, 9273525031089132415), 71360535421450500000000000000000),
  ((45449629587435013829, 45449629587435062551, 4550370412564962359), 41311486012323700000000000000000),
  ((45449629587435014482, 4550370412564984642, 4550370412564968483), 41311486012323730000000000000000),
  ((4550370412564948829, 45449629587435062551, 4550370412564962359), 41311486012323750000000000000000)]

/-- The points of `arbq6`. -/
def arbqN6 : List ((Nat × Nat × Nat) × Nat) := [
  ((3883608434488364106, 2431897424814241958, 90292879901361193680), 6889900028407776000000000000000),
  ((6476943693005223216, 26784419818357544801, 63676750855851448781), 30595118458814790000000000000000),
  ((6477516044710465764, 2346779557305443004, 39086205067101211638), 23528180793757750000000000000000),
  ((27790366933007744551, 6373289529499738598, 59490968902179605149), 47471459137564330000000000000000),
  ((6609866241467986912, 8367881406005483345, 63005455511099009942), 51494484767411000000000000000000),
  ((32511965857702480802, 32937971854919849545, 32683350461904605477), 41984645520127980000000000000000),
  ((31919428034893094869, 30416926534978209950, 4438334435720820062), 65187772716103110000000000000000),
  ((32838817123122126579, 3828867073824494162, 32028743369769272376), 58085544124133980000000000000000),
  ((5509902249072520705, 35193919733470453232, 38108430890631043126), 60797625077696430000000000000000),
  ((12464996363748598345, 15210381130993091192, 20123456736442109254), 62467276617544270000000000000000),
  ((6592492316000945297, 62432136355342977545, 25359367474320045647), 42325559167764660000000000000000),
  ((735452383806903600, 21129765858158640874, 25118449527752980906), 21910891573247070000000000000000),
  ((61745572014726856794, 6319998094256948552, 25844914898392575654), 45260586143889530000000000000000),
  ((27942005294598787150, 25582078426498628861, 26956992963327216817), 109332168762029200000000000000000),
  ((28772509482646391790, 57734578138972712994, 6462063807336852871), 52370007733985010000000000000000),
  ((59471730187579546192, 6517799276337052616, 6660329800760314120), 48324520797151380000000000000000),
  ((6678959978173787081, 53006327548101705017, 7699271710096728246), 61236399533873140000000000000000),
  ((62654020170888215886, 24844954011889522992, 6211553318359875090), 45779961692977930000000000000000),
  ((6001058302026896113, 21304118323618583461, 2584268626070330090), 24764279149209030000000000000000),
  ((27578630046985056680, 5399614083591456982, 6001614916616869856), 38561735258821200000000000000000),
  ((5132520616520263661, 84113895166231898769, 3726475213835548822), 15463378209631140000000000000000),
  ((4057605106681776907, 878195777751898055, 8860035046891023662), 10120887455194760000000000000000),
  ((90377000133218178290, 2286582381402324461, 2933572108317864167), 7031160695311595000000000000000)]

/-- The points of `arbq7`. -/
def arbqN7 : List ((Nat × Nat × Nat) × Nat) := [
  ((1920799348858468779, 199682581829950203, 65133489584823805875), 7484517057961263000000000000000),
  ((32345684178959711269, 6092218458545056435, 61517098831187100568), 11655484673330770000000000000000),
  ((6247402252314939151, 6396943032579859534, 81287255557100078020), 22543139787949850000000000000000),
  ((1403308447330467337, 23078490023767025666, 56616307453069777205), 21761066984377450000000000000000),
  ((6244441271290841401, 32394807098918234861, 58632128583012215590), 22615165045442700000000000000000),
  ((26150876917658254036, 35011530450717115438, 1197587688915754532), 26536897045367020000000000000000),
  ((26042058799826143137, 2253298349383178460, 56465010246769173057), 27960717482473930000000000000000),
  ((25828054736744355903, 50037866984981581596, 8266909560739217096), 41743710779298970000000000000000),
  ((39717440299491708924, 28986128190869078918, 17104887781877875301), 51250128743614690000000000000000),
  ((55045594162485953476, 15724185598600338959, 4374347016073186944), 40624525671613500000000000000000),
  ((2583316773172987117, 63154847391800486479, 28040523810190625496), 20111090930865750000000000000000),
  ((10746243078315292851, 11125113342694253399, 47584916173931573192), 58551779282026360000000000000000),
  ((25213053062939489134, 21755444421635330929, 44873925538357557522), 64775484319250770000000000000000),
  ((60182357763181144947, 4463026790663652207, 28999403436551330541), 30499687839390120000000000000000),
  ((3316569983103540669, 7624147028396885025, 27480153489799378761), 27491250839380570000000000000000),
  ((10989597632702072197, 43724808976454891232, 27657168273885779207), 64802945923571030000000000000000),
  ((41035809599493927203, 7400870213911578778, 24476165091934176844), 62326306277224860000000000000000),
  ((17643822301494770911, 21881262254750458443, 17576611026645141031), 79949006880830930000000000000000),
  ((19911057205288311577, 161353261999001764, 26374737533856502011), 20267053218644240000000000000000),
  ((52871130641365281739, 23439649733596239650, 21699829934586591434), 23849715205556090000000000000000),
  ((392965148708750617, 35052840683728345504, 24184461305858303766), 21700192226769440000000000000000),
  ((22347020253014249636, 55088897814221293552, 22552853769726450345), 21536724906814970000000000000000),
  ((29778523438352407005, 6801110489926152881, 4764944310089235327), 35864062809911520000000000000000),
  ((29377003652370673577, 62798322935859790608, 2748237819283437749), 16217368174893110000000000000000),
  ((5287762937885424400, 59901923987989787989, 5497958289551414230), 32815229044429250000000000000000),
  ((5300013833454663605, 27530981068713248895, 4497766312688006548), 27246942351652970000000000000000),
  ((59910094362002560216, 31965837609701209437, 3521379529745454379), 20480728517562610000000000000000),
  ((82074530074159472314, 6281507284523709970, 5891041282560915780), 19992889675114680000000000000000),
  ((5989419506998665253, 82454406669539595103, 5677586668994692719), 18645614241378270000000000000000),
  ((6201109193664397187, 5213668905801103827, 5718215451677882459), 17533125079280420000000000000000),
  ((63552151058376119277, 50043344427189245, 5989447223190852417), 12150992398667890000000000000000)]

/-- The points of `arbq8`. -/
def arbqN8 : List ((Nat × Nat × Nat) × Nat) := [
  ((885559427870483165, 1760715612687794976, 94856392979900558792), 1694544493019982000000000000000),
  ((3620467192851759026, 18907446887003295887, 73136736003608995428), 14626672271826820000000000000000),
  ((61133653369188399476, 23074349679464961661, 557577303043818474), 9589935274093377000000000000000),
  ((2777675799356492944, 2580684887253211098, 46654058589091946827), 9835015847019813000000000000000),
  ((15648668504006559215, 4648612941109239629, 75149653615183829221), 17101482793559580000000000000000),
  ((19554608192260146752, 24963708305787523149, 54179318246180994871), 15163256924429140000000000000000),
  ((4149415901827760653, 4908534432749591971, 71717735709395059607), 17466916055119990000000000000000),
  ((22097746499881754155, 25791667315430945399, 1239592336019544265), 16049743146400670000000000000000),
  ((41507658426998828006, 4312238337787963843, 49479916931999169343), 21851563206637850000000000000000),
  ((47940665335286547892, 19990672903292151946, 32009560675039829998), 12427990620668690000000000000000),
  ((6224439946102006247, 12397848932781828675, 40365477501005902912), 26464094269193890000000000000000),
  ((21251922611752862501, 3383673809722372830, 50564195098037075596), 31355972189740450000000000000000),
  ((39727545746144278528, 38288050116572741707, 8173362820479117889), 27367837168761120000000000000000),
  ((4544737426285818687, 47213321954967339709, 43566699454566320870), 23457354390058220000000000000000),
  ((21613969263007886948, 49359008083402059271, 3919057319753563432), 31305726416015960000000000000000),
  ((4529074988858302299, 25022744629303836177, 49314476795906508693), 35489536587424310000000000000000),
  ((42840777073601855499, 18224604922336102185, 6194696154684466699), 40361349134470770000000000000000),
  ((14251462990889432356, 22808018405507892393, 12814373976661781966), 37929248521610720000000000000000),
  ((18126219117094501678, 3082247209993098951, 25934638915961035340), 24409638871025940000000000000000),
  ((24952076607995207330, 16469550590032848230, 24990555072575512299), 51329033830252060000000000000000),
  ((48622524586615936419, 4243030114562277691, 27523602729990674524), 31777645206498420000000000000000),
  ((22746204998675427264, 20033070687780304556, 44895452866369817599), 54173587497755930000000000000000),
  ((15825909334588988227, 41189620364841261840, 20739173514062363838), 51805664155463700000000000000000),
  ((2882725890093495739, 51110607191357721054, 22954071307265569982), 26330683607319910000000000000000),
  ((22954061506357424408, 48351828029101042151, 24201755731748059510), 38935279902822110000000000000000),
  ((48531355763806891349, 20964230287064624948, 19861997766923129917), 50277162728976340000000000000000),
  ((2261090963666015515, 25047192191732097214, 22243464249277875430), 22083778452123250000000000000000),
  ((72051116571787145653, 3678064973474819701, 20436892390732555617), 14292787627931070000000000000000),
  ((46531516041303622956, 46181172516826319971, 542218330717803230), 6697289387082959000000000000000),
  ((3938021868450543482, 5045500693172471431, 17319560868335123322), 16482668255223130000000000000000),
  ((4543453035210924099, 74857456074576338849, 16329934329935417685), 16884629521302440000000000000000),
  ((42465005407958918888, 3095052921613290109, 13620624122519840871), 21904649581612710000000000000000),
  ((21626414889065111174, 5438301560623355551, 5125376513387383729), 22817068044030040000000000000000),
  ((20449181374722281083, 70165677606439060867, 4686865328087309311), 19562124686165950000000000000000),
  ((71957333007169488686, 4478021549603188998, 5599064468210204485), 19948892189426230000000000000000),
  ((4620058214866382218, 72370949504174948369, 4349881445195030090), 17379443943688840000000000000000),
  ((50032967203297616115, 3576257087872019771, 811205075570603673), 7302913219204132000000000000000),
  ((4105029814548206872, 44877800775248282803, 4568536574611815991), 21288327344549820000000000000000),
  ((3985667792342289562, 16438693098480826529, 3448207547894248715), 13337209110181690000000000000000),
  ((76236788495445265160, 15063771178142552890, 5243838992870328224), 14941927254185610000000000000000),
  ((49825496178220402470, 41392128343882035896, 7975787096690576138), 11521128232549640000000000000000),
  ((4868900463902193766, 457118437451580716, 2216207109666238130), 2472998490996246000000000000000),
  ((3005224777593190369, 94080820283160278074, 671967882215315988), 2018756899942699000000000000000),
  ((95738162605830267839, 97187836901514501, 1600798423129817205), 1470016064285112000000000000000)]

/-- The points of `arbq9`. -/
def arbqN9 : List ((Nat × Nat × Nat) × Nat) := [
  ((22334766781360018789, 4038577127605737874, 72372409480706756362), 5680408778529046000000000000000),
  ((4206648540987763397, 4195473200768717676, 87519602652840617809), 6887854441113948000000000000000),
  ((1492382397847609047, 21335378046222135900, 72761122983064054185), 6899595536569939000000000000000),
  ((3967712051591456626, 1167918776735317350, 47317164143189032127), 6990873936739353000000000000000),
  ((3313166695541744554, 4011137824044602150, 71369112406169762194), 11421229408421780000000000000000),
  ((18095213245166951881, 2545934399020693558, 68205861296849449299), 12208085908802940000000000000000),
  ((14321434039782318431, 61234080218208693080, 66621790874369948), 7651487209643779000000000000000),
  ((19462168026547026732, 38073703494152741599, 42050517420286686267), 9540263940869291000000000000000),
  ((43506617679943821970, 580738125855178882, 44718415034222624152), 9495638963926394000000000000000),
  ((41678208332525208354, 22683731996430103054, 779839281859616964), 13852484371880170000000000000000),
  ((12428564873051758174, 19237179527014755890, 65613822350437763613), 14463332318678840000000000000000),
  ((44434524781046321433, 6107660031735762140, 47485688286723547448), 11287638185507720000000000000000),
  ((13288343303959062669, 35675213689871913561, 2051457140178867750), 12900730483315960000000000000000),
  ((1552011599218239058, 36195088137438875972, 39243368052707061826), 14680085597371060000000000000000),
  ((3667546489013482943, 45824466951353611165, 46358572640041186344), 15261314678151270000000000000000),
  ((23131424887153173739, 10301151380639463730, 286457798839648323), 7960414659472547000000000000000),
  ((5281258992885309322, 18398539091736920797, 57914407248322115984), 25517925908748830000000000000000),
  ((2743271521385635842, 12423562298820195952, 41254312429268584994), 19311707797070980000000000000000),
  ((17990450159704978643, 3912033521689162394, 47650940100404422505), 25610262301722630000000000000000),
  ((22715986931503220474, 14171615987452162515, 51759897952850192011), 31692620133854350000000000000000),
  ((37449697907698629302, 22224757371626432786, 36392535276260919179), 24558724408885300000000000000000),
  ((36015671321152666643, 45874567579555067890, 3689983110212462797), 24655710701531970000000000000000),
  ((22898400907069305154, 33643452712150795756, 8273350534732910425), 34198392510138650000000000000000),
  ((33361919056802246617, 27096621310810668122, 19982303010145446011), 40660273504369950000000000000000),
  ((57295636858022369856, 16687497287067896164, 7774426835124651427), 30921266711442140000000000000000),
  ((14768706810147094043, 15246831717352361881, 9407076219108004669), 27311066427035760000000000000000),
  ((42222860167192105933, 8342378852063626312, 30314186457449812318), 37112045433886130000000000000000),
  ((41476192229903670617, 36335668011236452429, 16252636375060139795), 24907555261924370000000000000000),
  ((35370035843453821044, 10961245832859009940, 11793440619192367711), 34255682587654960000000000000000),
  ((16506284090730531472, 18197722347748060699, 30924644057908855856), 47677354896154010000000000000000),
  ((14348292241970654869, 37874439412116886307, 34694080625475994297), 43899508944933620000000000000000),
  ((13066568757553026617, 4580873781449241233, 23547710464769107077), 22341835376715720000000000000000),
  ((13250438541905536356, 55716032197494826785, 12240359518816989513), 34680165477817240000000000000000),
  ((33943229409528046362, 1538959981066755996, 24186951199808440780), 15997333316848610000000000000000),
  ((5503739382968010558, 35160917718837432102, 19694106193764724620), 32160018204243720000000000000000),
  ((64544946343700206999, 10315714682827419814, 20255171539540433109), 21731302087684480000000000000000),
  ((72038072033591956608, 689136683929509571, 24407866354067547353), 4172519829863862000000000000000),
  ((4483105915110967634, 70980271955863927692, 21131799235917117529), 12610679004398390000000000000000),
  ((21584553352671897071, 56551635208252920565, 18619093882693854887), 20734673599474840000000000000000),
  ((1758681325508132819, 60442629996060258546, 20371686346026062546), 12598762206422430000000000000000),
  ((2302476689782911636, 3138783669262654325, 20101510999608799575), 6842300320404830000000000000000),
  ((63353475577745177763, 27607743982347157509, 2029485866160773650), 10012283081710650000000000000000),
  ((2094427630108381025, 18385499781762591493, 17043891780726538622), 13280370501113050000000000000000),
  ((64435830983896810560, 1965056042084040541, 13409453544918656441), 14937351380148920000000000000000),
  ((73789844937506798806, 5137368203860864696, 1052487006572955972), 6932861063756816000000000000000),
  ((58661940636785095219, 27375496915228733838, 13317371325339263976), 6827617690151055000000000000000),
  ((18714729211454924613, 73049899426204651335, 3706986589769193384), 12706163977601850000000000000000),
  ((48373239669747123490, 3332720320375666730, 3722853145238250209), 12888754038061180000000000000000),
  ((3171156153538272629, 23077311207171022399, 2914913102984437582), 8899252930026689000000000000000),
  ((3020971497018391124, 75188934448830409100, 3931328269724702231), 8881169613715286000000000000000),
  ((78302383806765663176, 15557890830272612421, 3722731406074435145), 5288619835392034000000000000000),
  ((2448223828136341529, 50077011332283369509, 4933213970351709375), 12847183182609670000000000000000),
  ((44052140484732289706, 51528506155727744323, 3307435692542830862), 6409598847098365000000000000000),
  ((21830355054839494770, 837326895113099592, 6383760811337780441), 8055508398015583000000000000000),
  ((4589832979249507712, 4585901947602276780, 3930065125704701376), 7788463427997768000000000000000),
  ((87398428446928264668, 3474022441842909699, 4802973388725063119), 6545788868966830000000000000000),
  ((3746715582104070743, 88477359526231505682, 4313984945003825486), 5341431206058898000000000000000)]

/-- The points of `arbq10`. -/
def arbqN10 : List ((Nat × Nat × Nat) × Nat) := [
  ((53258892365005142023, 11212438646497910367, 23624195884576127008), 20070805961882330000000000000000),
  ((11904473103927562630, 53258892364993605674, 23624195884566093285), 20070805961923370000000000000000),
  ((11212438646502273346, 11904473103928249221, 23624195884569895506), 20070805961920140000000000000000),
  ((49089534676099702095, 11453798631584166281, 2495402206723795453), 12028509827059080000000000000000),
  ((36961264485621681112, 49089534676055334534, 2495402206723979165), 12028509827062340000000000000000),
  ((11453798631602435529, 36961264485614816645, 2495402206716508221), 12028509827036730000000000000000),
  ((3070196087069559925, 12663949087887098331, 81147722949819491423), 6428246923028596000000000000000),
  ((3118131875221017022, 3070196087074465487, 81147722949797145953), 6428246923032827000000000000000),
  ((12663949087858115886, 3118131875220164072, 81147722949849050641), 6428246923025550000000000000000),
  ((32998418756342797527, 62025830128988728675, 3240346370091290978), 5961017737373873000000000000000),
  ((1735404744578333823, 32998418756371174986, 3240346370092632073), 5961017737376429000000000000000),
  ((62025830129005075218, 1735404744568476487, 3240346370091627783), 5961017737354793000000000000000),
  ((29863508978936369659, 45348592435878979955, 12855639235995289732), 24669852537767780000000000000000),
  ((11932259349191670810, 29863508978933534456, 12855639235976342929), 24669852537761160000000000000000),
  ((45348592435899354538, 11932259349174169061, 12855639235995840868), 24669852537756160000000000000000),
  ((41747625187080989226, 40437701448836865292, 16133714217116069909), 12203433716698210000000000000000),
  ((1680959146964829753, 41747625187090826708, 16133714217108127438), 12203433716685630000000000000000),
  ((40437701448836600935, 1680959146959898715, 16133714217107515066), 12203433716666860000000000000000),
  ((3518958226876776863, 78057224582438893282, 3307359982554327589), 6782282187245643000000000000000),
  ((15116457208163977145, 3518958226870858545, 3307359982557701761), 6782282187250343000000000000000),
  ((78057224582415070598, 15116457208151781930, 3307359982557291472), 6782282187251558000000000000000),
  ((2309725877556946321, 63392803439035734110, 17336085927366024937), 12766994760099910000000000000000),
  ((16961384756039451600, 2309725877555648794, 17336085927373189694), 12766994760092630000000000000000),
  ((63392803439030144418, 16961384756040234843, 17336085927375878009), 12766994760090600000000000000000),
  ((17701835101891733164, 63358756531439849003, 16505305534639947714), 13308984680412840000000000000000),
  ((2434102832027331987, 17701835101894680846, 16505305534637498225), 13308984680409290000000000000000),
  ((63358756531426065855, 2434102832026449123, 16505305534650762212), 13308984680404680000000000000000),
  ((35103092666191359398, 3029393775770441385, 3266058005326464483), 8872828138103311000000000000000),
  ((58601455552725162148, 35103092666177215159, 3266058005328975210), 8872828138107657000000000000000),
  ((3029393775772110494, 58601455552747784347, 3266058005327199330), 8872828138112581000000000000000),
  ((32834552147384093493, 30200190732664525795, 30302612894209507733), 26048521957501690000000000000000),
  ((6662644225740181801, 32834552147382829891, 30302612894185507020), 26048521957507820000000000000000),
  ((30200190732674382278, 6662644225731251489, 30302612894207841468), 26048521957510940000000000000000),
  ((1267643164855081411, 41370112844953620104, 40907522401187170271), 10915982793648780000000000000000),
  ((16454721588991498160, 1267643164854544198, 40907522401194812679), 10915982793636670000000000000000),
  ((41370112844943412150, 16454721589001108060, 40907522401200660836), 10915982793643970000000000000000),
  ((33951306262113762802, 12071311163580857174, 41109265749486740089), 27277415836072400000000000000000),
  ((12868116824812992564, 33951306262090175124, 41109265749495858314), 27277415836096160000000000000000),
  ((12071311163585515599, 12868116824819338580, 41109265749501143088), 27277415836101150000000000000000),
  ((8302494688216765118, 15026879025170390783, 3849678186896472694), 12140672344721880000000000000000),
  ((72820948099742696754, 8302494688196372617, 3849678186899387586), 12140672344707340000000000000000),
  ((15026879025175488389, 72820948099706949378, 3849678186899534556), 12140672344713870000000000000000),
  ((13246701074477118199, 51591681661427480638, 10744646158505855416), 26530473870107740000000000000000),
  ((24416971105590388378, 13246701074464221146, 10744646158515414550), 26530473870111070000000000000000),
  ((51591681661444119800, 24416971105566479963, 10744646158519192888), 26530473870120450000000000000000),
  ((41260083617916946905, 1228042856243424682, 39790436218571756529), 11474076789569600000000000000000),
  ((17721437307270597002, 41260083617920228459, 39790436218556612558), 11474076789609030000000000000000),
  ((1228042856244349908, 17721437307274222475, 39790436218559392729), 11474076789577830000000000000000),
  ((81490228294050285399, 3220528641771449848, 11937679513633469857), 6941339438094368000000000000000),
  ((3351563550541961299, 81490228294079851052, 11937679513606960255), 6941339438087489000000000000000),
  ((3220528641772822420, 3351563550541753824, 11937679513586151839), 6941339438089641000000000000000),
  ((2935511686041748193, 17579960724930211123, 62084151043564201106), 16180886761274070000000000000000),
  ((17400376545457799017, 2935511686037188997, 62084151043572223185), 16180886761250950000000000000000),
  ((17579960724921442028, 17400376545462762888, 62084151043577691671), 16180886761254730000000000000000),
  ((59927380113922641885, 3114461249008670423, 33659752638302780839), 9879744049167588000000000000000),
  ((3298405998767614085, 59927380113951639315, 33659752638270698647), 9879744049174469000000000000000),
  ((3114461249007833055, 3298405998767914337, 33659752638251194585), 9879744049169482000000000000000),
  ((3573908441154070219, 33794891982642740966, 59253287017089821333), 11061656769039610000000000000000),
  ((3377912559111773476, 3573908441154532249, 59253287017071444037), 11061656769035090000000000000000),
  ((33794891982609445844, 3377912559113932231, 59253287017122289320), 11061656769041020000000000000000),
  ((18076024957022692170, 55966008885546011618, 743879573116728824), 7973762810133187000000000000000),
  ((25214086584332085654, 18076024957005641448, 743879573119956027), 7973762810143904000000000000000),
  ((55966008885570246208, 25214086584303374522, 743879573121431845), 7973762810145713000000000000000),
  ((666708044835069544, 94671984829235478812, 806750556190482780), 767173238084580600000000000000),
  ((3854556569737436145, 666708044865912133, 806750556177984258), 767173238090528700000000000000),
  ((94671984829185213568, 3854556569748021120, 806750556217390424), 767173238095189600000000000000),
  ((10359366024755449083, 87402513276493293646, 1855431505434553157), 1643453575966134000000000000000),
  ((382689193304382709, 10359366024800297962, 1855431505433683588), 1643453575957693000000000000000),
  ((87402513276516758156, 382689193302980115, 1855431505435710541), 1643453575955291000000000000000),
  ((25707198076255040154, 25707198076242788996, 22878405771246272558), 45226978323448390000000000000000),
  ((484488952757235971, 484488952776764503, 98546533141673818451), 370834458087949700000000000000),
  ((16695976931757972639, 16695976931720613724, 49912069204811269009), 11414014372295230000000000000000),
  ((31820620082059224698, 31820620082032418199, 4538139753862872869), 27101672896169610000000000000000),
  ((13365994953261050586, 13365994953239213679, 59902015140252790912), 11085693255443640000000000000000)]

/-- The points of `arbq11`. -/
def arbqN11 : List ((Nat × Nat × Nat) × Nat) := [
  ((11602308185442436592, 72887324948465384258, 13559236457549420415), 6188005592967251000000000000000),
  ((1951130408545580753, 11602308185431145981, 13559236457547240369), 6188005592972490000000000000000),
  ((72887324948414421718, 1951130408539935751, 13559236457610608669), 6188005592984317000000000000000),
  ((762104076479282232, 47339272628239600676, 50683735576362097193), 1421063031043561000000000000000),
  ((1214887718929157255, 762104076469366507, 50683735576406396215), 1421063031047919000000000000000),
  ((47339272628301419613, 1214887718924186618, 50683735576366561388), 1421063030985486000000000000000),
  ((36334752569690055356, 1688864018976842919, 28080286373081615511), 9481646089825704000000000000000),
  ((33896097038214234633, 36334752569762400387, 28080286373039474490), 9481646089870772000000000000000),
  ((1688864018974698786, 33896097038207235170, 28080286373025621400), 9481646089801222000000000000000),
  ((1730489583762186913, 68086074513459579082, 15777939673164411324), 6814905118771046000000000000000),
  ((14405496229637946791, 1730489583748776244, 15777939673188024406), 6814905118757536000000000000000),
  ((68086074513450281737, 14405496229628612814, 15777939673174637944), 6814905118753749000000000000000),
  ((14299464016654787706, 47418212864585448636, 14434886650329930378), 19120416743135530000000000000000),
  ((23847436468459344998, 14299464016643387718, 14434886650293518713), 19120416743098020000000000000000),
  ((47418212864557813501, 23847436468424661260, 14434886650384958165), 19120416743249840000000000000000),
  ((1779838979236252681, 81119898144302175353, 14529591088566114156), 3076029506690844000000000000000),
  ((2570671787901086028, 1779838979231118017, 14529591088556316197), 3076029506690773000000000000000),
  ((81119898144222684544, 2570671787902297528, 14529591088640529655), 3076029506710983000000000000000),
  ((2951774250327324118, 49450206212740476221, 29699800965903337041), 11358367249167170000000000000000),
  ((17898218570986243385, 2951774250352835031, 29699800965945489697), 11358367249217290000000000000000),
  ((49450206212653300514, 17898218570925365322, 29699800966074555149), 11358367249320700000000000000000),
  ((26899330170848901646, 55635186943158764065, 2218921322999259017), 10916033213919380000000000000000),
  ((15246561562986452267, 26899330170877711250, 2218921323001910590), 10916033213914540000000000000000),
  ((55635186943136289224, 15246561562987844843, 2218921323010943084), 10916033213951380000000000000000),
  ((2723844389722928756, 12133819923365214182, 82213715790479695250), 4213691001392970000000000000000),
  ((2928619896418232378, 2723844389731069830, 82213715790494539158), 4213691001384827000000000000000),
  ((12133819923719852590, 2928619896452726176, 82213715790073992388), 4213691001487200000000000000000),
  ((54467500455514067565, 2960272586707340549, 22788272251122557106), 12068378491340080000000000000000),
  ((19783954706604006526, 54467500455597578305, 22788272251087461429), 12068378491343120000000000000000),
  ((2960272586703647982, 19783954706630119004, 22788272251061297817), 12068378491329450000000000000000),
  ((1186743374839444164, 82834113113944317657, 3349202862194988543), 2578861292324762000000000000000),
  ((12629940649028635004, 1186743374856984605, 3349202862190799916), 2578861292345221000000000000000),
  ((82834113113933245327, 12629940649028910339, 3349202862186623536), 2578861292334968000000000000000),
  ((3229881331833209454, 49848205033239113889, 13205006627164445637), 12524561014427310000000000000000),
  ((33716907007769205924, 3229881331828372364, 13205006627158634223), 12524561014422670000000000000000),
  ((49848205033291936636, 33716907007716895649, 13205006627164439513), 12524561014446180000000000000000),
  ((55666940347665921914, 1942383515147992609, 7740138872115240921), 8063913155156468000000000000000),
  ((34650537265091893911, 55666940347659980394, 7740138872102779142), 8063913155154395000000000000000),
  ((1942383515155041728, 34650537265112177117, 7740138872070886785), 8063913155182456000000000000000),
  ((9328386025279898642, 73751582609092813134, 1187574741300853641), 4993280626450522000000000000000),
  ((15732456624323232088, 9328386025323472318, 1187574741303621565), 4993280626459499000000000000000),
  ((73751582609020605987, 15732456624296489127, 1187574741367736959), 4993280626580781000000000000000),
  ((3388950667074941383, 28016644454533163508, 65752455176027206751), 6150188384809636000000000000000),
  ((2841949702363587517, 3388950667083454381, 65752455176048413209), 6150188384813883000000000000000),
  ((28016644454859188196, 2841949702328556958, 65752455175730659276), 6150188384677927000000000000000),
  ((31077442366918450579, 12754562736156448901, 26099014511387572320), 26783884170774010000000000000000),
  ((30068980385439848211, 31077442366964702289, 26099014511448428668), 26783884170779270000000000000000),
  ((12754562736144618545, 30068980385496996656, 26099014511382113632), 26783884170786490000000000000000),
  ((28649491137753161372, 49108805261786662520, 11082033247164986638), 19468561277525510000000000000000),
  ((11159670353313546046, 28649491137724246165, 11082033247153553645), 19468561277482480000000000000000),
  ((49108805261796271197, 11159670353301358803, 11082033247176670704), 19468561277492810000000000000000),
  ((12553611316683928456, 46011130467502160980, 29947038537617601202), 21020941891709340000000000000000),
  ((11488219678178309054, 12553611316728199402, 29947038537589843585), 21020941891699740000000000000000),
  ((46011130467333173598, 11488219678149470455, 29947038537766523443), 21020941891744280000000000000000),
  ((25005324123744892282, 4060424219112369063, 45858090665128915236), 16853678187364970000000000000000),
  ((25076160992011601778, 25005324123763341729, 45858090665125479826), 16853678187299120000000000000000),
  ((4060424219100555365, 25076160992090623110, 45858090665039331272), 16853678187329970000000000000000),
  ((2344611593204985071, 63531947720671944543, 3266098604008429980), 5900869705091857000000000000000),
  ((30857342082119907949, 2344611593211192808, 3266098603998925960), 5900869705093673000000000000000),
  ((63531947720677489593, 30857342082123412795, 3266098603990052683), 5900869705073673000000000000000),
  ((9029353562634917858, 30909368023653184908, 50799603911384824419), 16905633244581300000000000000000),
  ((9261674502301864622, 9029353562658455306, 50799603911370672492), 16905633244596020000000000000000),
  ((30909368023532967790, 9261674502310299487, 50799603911583771976), 16905633244560190000000000000000),
  ((10023547459868538918, 67783513645382012026, 10117813530851589613), 14763411873977820000000000000000),
  ((12075125363903024931, 10023547459853455802, 10117813530867437812), 14763411873984140000000000000000),
  ((67783513645293768737, 12075125363867521333, 10117813530979734669), 14763411873974790000000000000000),
  ((15492858740134416609, 1216008923534210755, 67495628076497046105), 6992794755775152000000000000000),
  ((15795504259793770174, 15492858740173512773, 67495628076504596658), 6992794755747075000000000000000),
  ((1216008923516007986, 15795504259864196432, 67495628076434547375), 6992794755746150000000000000000),
  ((13810694191731223933, 49369562707905969156, 3273663417222187630), 15130567426915200000000000000000),
  ((33546079683154327835, 13810694191741315577, 3273663417213663406), 15130567426889110000000000000000),
  ((49369562707892756650, 33546079683143385169, 3273663417220136183), 15130567426926850000000000000000),
  ((11689819669336666790, 42262104589904621877, 45046833515044610980), 7015883109811540000000000000000),
  ((1001242225711618841, 11689819669338861124, 45046833515040287630), 7015883109809210000000000000000),
  ((42262104589872787072, 1001242225693250705, 45046833515078891589), 7015883109746114000000000000000),
  ((10552193042136107032, 607257838916151595, 48254715247387435539), 4965174122051565000000000000000),
  ((40585833871432338993, 10552193042126324998, 48254715247578618214), 4965174121903291000000000000000),
  ((607257838914495095, 40585833871603999541, 48254715247363773468), 4965174122041231000000000000000),
  ((3884286462496026641, 90662002108892279948, 2791260212209648210), 2712699778890213000000000000000),
  ((2662451216400011512, 3884286462495566687, 2791260212206555729), 2712699778885687000000000000000),
  ((90662002108883871674, 2662451216400477500, 2791260212224614592), 2712699778899985000000000000000),
  ((18516138669170505416, 75705567647551618640, 2607843400608576267), 5900718944404856000000000000000),
  ((3170450282669185687, 18516138669167390260, 2607843400609954105), 5900718944405426000000000000000),
  ((75705567647558486952, 3170450282669069936, 2607843400619941900), 5900718944424988000000000000000),
  ((3707747991970281941, 61335558598727322820, 31472491038979459901), 8768888887154097000000000000000),
  ((3484202370319404036, 3707747991972089347, 31472491038981701184), 8768888887160882000000000000000),
  ((61335558598564027544, 3484202370321750562, 31472491039135222954), 8768888887196669000000000000000),
  ((52805353378636299876, 3413212384056534835, 412497450827216738), 3175432879836244000000000000000),
  ((43368936786503239180, 52805353378607314642, 412497450826206324), 3175432879833069000000000000000),
  ((3413212384063662658, 43368936786546966988, 412497450795257021), 3175432879794895000000000000000),
  ((2174356162123404978, 2174356161974614028, 93476931513936318548), 1078986495318477000000000000000),
  ((11396953481160778515, 11396953481236801751, 65809139556369188662), 17474040760548220000000000000000),
  ((32777111272404668936, 32777111272420698234, 1668666182758011062), 11299828739051440000000000000000),
  ((29600846991348451351, 29600846991347119373, 11197459025968691576), 28900930282984770000000000000000),
  ((19682686450448936083, 19682686450445349245, 40951940648642728583), 26244314834860550000000000000000)]

/-- The points of `arbq12`. -/
def arbqN12 : List ((Nat × Nat × Nat) × Nat) := [
  ((43127482811150682833, 52247155135540219322, 1083320231285073241), 2025764222341204000000000000000),
  ((3542041822023702793, 43127482811151033279, 1083320231285079364), 2025764222341283000000000000000),
  ((52247155135540792420, 3542041822023308304, 1083320231284620085), 2025764222340314000000000000000),
  ((2887800338774384929, 10216956909428933997, 24743124363556345737), 6116300216663094000000000000000),
  ((62152118388240530779, 2887800338774447155, 24743124363555950880), 6116300216663310000000000000000),
  ((10216956909428262143, 62152118388240154742, 24743124363557184565), 6116300216663541000000000000000),
  ((8955250910701339295, 41069331409015147726, 36476024919336974118), 12758191592122410000000000000000),
  ((13499392760945927697, 8955250910700886857, 36476024919337868182), 12758191592121960000000000000000),
  ((41069331409015131175, 13499392760945793487, 36476024919338284595), 12758191592121620000000000000000),
  ((26005598736275163305, 7656778420928398870, 6193417797899654403), 8334684897884583000000000000000),
  ((60144205044896678151, 26005598736276716994, 6193417797899366588), 8334684897884422000000000000000),
  ((7656778420928084655, 60144205044895678481, 6193417797899342093), 8334684897884272000000000000000),
  ((25990315408583546048, 11476751676310615280, 23345393195130244498), 15076149541075000000000000000000),
  ((39187539719976331351, 25990315408583445654, 23345393195130443519), 15076149541073590000000000000000),
  ((11476751676309860235, 39187539719975668170, 23345393195131033234), 15076149541072020000000000000000),
  ((30506096657721009925, 65507963102984225263, 2647035150984010562), 2734637742973762000000000000000),
  ((1338905088310738938, 30506096657720595609, 2647035150983992191), 2734637742973644000000000000000),
  ((65507963102983419704, 1338905088311044468, 2647035150984071799), 2734637742974016000000000000000),
  ((7994348658717318346, 60214854663617151332, 19726008533411534763), 11543037985412270000000000000000),
  ((12064788144253691414, 7994348658717088012, 19726008533412216946), 11543037985412740000000000000000),
  ((60214854663617122781, 12064788144253902607, 19726008533412299616), 11543037985412550000000000000000),
  ((2013433532281421720, 54595046099892173524, 31557230285725680502), 7163952410599667000000000000000),
  ((11834290082100994486, 2013433532281286062, 31557230285726023430), 7163952410599083000000000000000),
  ((54595046099891697813, 11834290082100864688, 31557230285726158152), 7163952410598778000000000000000),
  ((23379217305788270188, 48104263226980240421, 26978192498259305146), 7580503447649259000000000000000),
  ((1538326968972462773, 23379217305788155931, 26978192498258974465), 7580503447650207000000000000000),
  ((48104263226980251101, 1538326968972462281, 26978192498259241460), 7580503447650126000000000000000),
  ((22084175931337068779, 10024975437213613506, 45145994950997699010), 18942491522407930000000000000000),
  ((22744853680451437573, 22084175931337636121, 45145994950997105009), 18942491522408050000000000000000),
  ((10024975437213528561, 22744853680451214803, 45145994950997864351), 18942491522407270000000000000000),
  ((13012709476202433224, 42612797425565277178, 12738316872602105570), 16417846975914190000000000000000),
  ((31636176225630888588, 13012709476202333545, 12738316872601358476), 16417846975912360000000000000000),
  ((42612797425565679209, 31636176225630156962, 12738316872601523816), 16417846975913170000000000000000),
  ((12803632767886087409, 7462605132720878294, 8026101789295083779), 8436640400263927000000000000000),
  ((71707660310097173950, 12803632767886587068, 8026101789294991923), 8436640400264633000000000000000),
  ((7462605132721113601, 71707660310097116642, 8026101789294998047), 8436640400264418000000000000000),
  ((5919699437842119665, 85198504894924473725, 1765696019083465060), 3036004079076158000000000000000),
  ((7116099648149776311, 5919699437842147411, 1765696019083367081), 3036004079076059000000000000000),
  ((85198504894924785089, 7116099648149699857, 1765696019083367081), 3036004079076094000000000000000),
  ((8568157353024318764, 46416106080497495013, 42682818675140096756), 7492415688372185000000000000000),
  ((2332917891338015315, 8568157353024205284, 42682818675139484384), 7492415688372261000000000000000),
  ((46416106080498687067, 2332917891338044027, 42682818675139472136), 7492415688372197000000000000000),
  ((23241799895638625023, 6123548744419499978, 69751890095238776069), 3062456464426824000000000000000),
  ((882761264703439296, 23241799895638695607, 69751890095239014895), 3062456464427586000000000000000),
  ((6123548744418589615, 882761264703257145, 69751890095238659719), 3062456464427105000000000000000),
  ((18590040868376540055, 29224826431062267336, 50259862335502800478), 8856133214568079000000000000000),
  ((1925270365058272532, 18590040868376671889, 50259862335502230972), 8856133214567973000000000000000),
  ((29224826431063299954, 1925270365058385806, 50259862335502292209), 8856133214568157000000000000000),
  ((2435991006993558074, 2461521681961553155, 85251447165013596481), 3071402699546415000000000000000),
  ((9851040146031444176, 2435991006993569135, 85251447165013290295), 3071402699546453000000000000000),
  ((2461521681961423743, 9851040146030436672, 85251447165014588524), 3071402699546178000000000000000),
  ((40450236856326603041, 9476261902902007953, 29182351556725128308), 18238351351988040000000000000000),
  ((20891149684046724447, 40450236856327625500, 29182351556724387950), 18238351351987570000000000000000),
  ((9476261902901879644, 20891149684046710889, 29182351556725032166), 18238351351987960000000000000000),
  ((6201821930269047681, 29622279508794826229, 56171396372075445679), 11216588611632830000000000000000),
  ((8004502188860036211, 6201821930268850765, 56171396372076505084), 11216588611632580000000000000000),
  ((29622279508794099985, 8004502188860662207, 56171396372076456094), 11216588611632930000000000000000),
  ((917208007007387235, 34253199795015122113, 48586246073940794075), 5177567930581361000000000000000),
  ((16243346124037130012, 917208007007437733, 48586246073941032900), 5177567930581481000000000000000),
  ((34253199795015095798, 16243346124036871337, 48586246073940677724), 5177567930580846000000000000000),
  ((2362764131444251691, 69413997252952893529, 26438108150681912314), 3242723020974106000000000000000),
  ((1785130464920971362, 2362764131444541496, 26438108150681352605), 3242723020974469000000000000000),
  ((69413997252953217877, 1785130464921005826, 26438108150681285244), 3242723020974430000000000000000),
  ((29729015531710958131, 2493156404027374929, 29744221741637323236), 11364229782085900000000000000000),
  ((38033606322624247498, 29729015531710676376, 29744221741637720053), 11364229782085480000000000000000),
  ((2493156404027229745, 38033606322624634837, 29744221741637257100), 11364229782085550000000000000000),
  ((56066588377001424636, 27089020392896944131, 15016256012779512073), 8174247103577847000000000000000),
  ((1828135217322203525, 56066588377002056024, 15016256012779132402), 8174247103578128000000000000000),
  ((27089020392896559357, 1828135217322303514, 15016256012779273248), 8174247103578329000000000000000),
  ((57487275891360728055, 37710639941761770794, 3049127948617778114), 4083194002127334000000000000000),
  ((1752956218259852180, 57487275891361229679, 3049127948617820980), 4083194002127503000000000000000),
  ((37710639941761319558, 1752956218260140200, 3049127948617955702), 4083194002128160000000000000000),
  ((48334269753205332453, 2995755412959144787, 47649367468328742495), 3128101586450114000000000000000),
  ((1020607365506944640, 48334269753204682771, 47649367468329269135), 3128101586450456000000000000000),
  ((2995755412959125766, 1020607365506849005, 47649367468328601649), 3128101586450350000000000000000),
  ((52675956699419899571, 23637803333829201983, 2542476511605204720), 10816640905793960000000000000000),
  ((21143763455146177179, 52675956699418959615, 2542476511605063874), 10816640905793640000000000000000),
  ((23637803333829830204, 21143763455145770554, 2542476511605014884), 10816640905793390000000000000000),
  ((457955574287806479, 95461848486672990850, 1790586600742476265), 491068013329868200000000000000),
  ((2289609338296811277, 457955574287595223, 1790586600742329296), 491068013329791700000000000000),
  ((95461848486673369436, 2289609338296690144, 1790586600742268059), 491068013329778000000000000000),
  ((2561185935109265314, 16333095462718986599, 11544787129923633918), 8074513061447679000000000000000),
  ((69560931472248146361, 2561185935109286361, 11544787129923542062), 8074513061447566000000000000000),
  ((16333095462719049755, 69560931472247647656, 11544787129923933981), 8074513061448123000000000000000),
  ((40288162462845062457, 44631551826494274212, 2619956075625246593), 11127083299747810000000000000000),
  ((12460329635035557125, 40288162462844534876, 2619956075625246593), 11127083299748030000000000000000),
  ((44631551826495111592, 12460329635034840438, 2619956075625222098), 11127083299748120000000000000000),
  ((23164769521725347281, 50754860512025505056, 12662371323439182702), 21315264876789640000000000000000),
  ((13417998642809700840, 23164769521725116341, 12662371323439311300), 21315264876790030000000000000000),
  ((50754860512025926625, 13417998642809568811, 12662371323439507259), 21315264876789860000000000000000),
  ((3438582765934742568, 84303254607833973155, 9908661326227763525), 3571026646377801000000000000000),
  ((2349501300003488219, 3438582765934714763, 9908661326227322617), 3571026646377656000000000000000),
  ((84303254607834422603, 2349501300003598862, 9908661326227279751), 3571026646377794000000000000000),
  ((2742002486773200226, 11831715754265422529, 70164890411884712439), 7768447076866043000000000000000),
  ((15261391347076433788, 2742002486773152384, 70164890411884614459), 7768447076865915000000000000000),
  ((11831715754265000912, 15261391347076555971, 70164890411885018625), 7768447076866019000000000000000),
  ((68983951036990051919, 8312515611213893006, 2408109553674169221), 7618830679555172000000000000000),
  ((20295423798122134212, 68983951036989523307, 2408109553674224335), 7618830679555604000000000000000),
  ((8312515611213982648, 20295423798122020311, 2408109553674230459), 7618830679555573000000000000000),
  ((36700989373749907801, 48910981472679983834, 11512444438172971762), 11803992169089690000000000000000),
  ((2875584715397048705, 36700989373750114109, 11512444438172769679), 11803992169089470000000000000000),
  ((48910981472680041256, 2875584715397047543, 11512444438172941143), 11803992169089330000000000000000),
  ((430783216071370042, 74423850766316430103, 15234372051626916934), 2753708273597594000000000000000),
  ((9910993965985155704, 430783216071248344, 15234372051627235368), 2753708273597404000000000000000),
  ((74423850766316169028, 9910993965985485801, 15234372051627131264), 2753708273597407000000000000000),
  ((11764534481603725817, 85890443918452265066, 1981617795956240061), 1252040626033346000000000000000),
  ((363403803987559935, 11764534481603529925, 1981617795956086968), 1252040626033167000000000000000),
  ((85890443918452480324, 363403803987436898, 1981617795956099215), 1252040626033129000000000000000),
  ((355709537726865095, 79398884991222590927, 3305477917755643484), 2035505637330654000000000000000),
  ((16939927553295027846, 355709537726879692, 3305477917755729216), 2035505637330660000000000000000),
  ((79398884991222617050, 16939927553294793531, 3305477917755716968), 2035505637330673000000000000000),
  ((29064176223692248111, 219091239834499707, 67226686877716634289), 2152733016776995000000000000000),
  ((3490045658756707625, 29064176223691879698, 67226686877717326270), 2152733016776493000000000000000),
  ((219091239833821459, 3490045658756739917, 67226686877716787382), 2152733016776350000000000000000),
  ((7282912711688541119, 69250141758804776360, 52457122101741314), 2538969965943544000000000000000),
  ((23414488407404868393, 7282912711688349791, 52457122101643335), 2538969965943405000000000000000),
  ((69250141758805088419, 23414488407405063452, 52457122101459623), 2538969965943241000000000000000),
  ((11768433971455825633, 11768433971455607245, 64694698085632851540), 10783728739582450000000000000000),
  ((533607701965030419, 533607701964284243, 98399176894105710001), 194390849303760300000000000000),
  ((33249695997664928354, 33249695997663603077, 250912007007472778), 4799528389705479000000000000000),
  ((30532958433606076211, 30532958433605656682, 8401124699181983393), 24776735444857540000000000000000),
  ((24821237155622372825, 24821237155622895136, 25536288533132828721), 28648837773021900000000000000000)]

/-- The points of `arbq13`. -/
def arbqN13 : List ((Nat × Nat × Nat) × Nat) := [
  ((1337142894356365085, 81802616219441282405, 10745712974379358876), 2068909148962774000000000000000),
  ((6114527911832575264, 1337142894352582507, 10745712974380969416), 2068909148960302000000000000000),
  ((81802616219429670051, 6114527911829670883, 10745712974384931465), 2068909148962221000000000000000),
  ((8291452043304377690, 40009792962989131174, 46413210895370027652), 6862179883351744000000000000000),
  ((5285544098335505298, 8291452043303976681, 46413210895359696929), 6862179883357749000000000000000),
  ((40009792963012595487, 5285544098330967143, 46413210895362526089), 6862179883341077000000000000000),
  ((3067086757608361622, 48691789291743363184, 41644212779928981565), 4745055930506758000000000000000),
  ((6596911170715400609, 3067086757606224272, 41644212779934076504), 4745055930499521000000000000000),
  ((48691789291753519233, 6596911170718434354, 41644212779919459174), 4745055930498638000000000000000),
  ((5182981415365481276, 16822762570371451349, 1275903790008804014), 2639271833496386000000000000000),
  ((76718352224256817884, 5182981415363312016, 1275903790005840131), 2639271833492975000000000000000),
  ((16822762570376389953, 76718352224253757133, 1275903790006470875), 2639271833493415000000000000000),
  ((48477465715878252939, 1583063435089838818, 1833057078756204209), 2420284628312029000000000000000),
  ((48106413770281232998, 48477465715874166181, 1833057078756234827), 2420284628310808000000000000000),
  ((1583063435090133737, 48106413770279284109, 1833057078755175423), 2420284628311964000000000000000),
  ((37044255595817617933, 21244175926656134334, 1068152306355010054), 5428029730193044000000000000000),
  ((40643416171182722886, 37044255595805709970, 1068152306357012512), 5428029730198515000000000000000),
  ((21244175926661540080, 40643416171173150076, 1068152306356988017), 5428029730197811000000000000000),
  ((28747063589288779217, 1782606090077840895, 38561729371495890699), 7363269664287002000000000000000),
  ((30908600949137116119, 28747063589288062830, 38561729371497041960), 7363269664287796000000000000000),
  ((1782606090078135275, 30908600949136998065, 38561729371496668412), 7363269664288242000000000000000),
  ((960895234835471675, 27207744154279872024, 21734734626390309131), 4622589345403796000000000000000),
  ((50096625984502785763, 960895234833765482, 21734734626392267498), 4622589345400746000000000000000),
  ((27207744154276525070, 50096625984496723451, 21734734626392010914), 4622589345402929000000000000000),
  ((7885099695144112325, 53332773092041848333, 16634216529447979851), 11130141795128930000000000000000),
  ((22147910683369538029, 7885099695140308554, 16634216529447998222), 11130141795125150000000000000000),
  ((53332773092047078295, 22147910683362457222, 16634216529445959022), 11130141795132680000000000000000),
  ((78002572247274485805, 16038086409574002410, 4144316733981209211), 3019898782414975000000000000000),
  ((1815024609170996010, 78002572247270366846, 4144316733980474364), 3019898782415646000000000000000),
  ((16038086409582106351, 1815024609171135944, 4144316733977614585), 3019898782415196000000000000000),
  ((27666877581829442596, 10243087892296474409, 40200054824072377751), 14979185931867460000000000000000),
  ((21889979701798645010, 27666877581837401466, 40200054824072432865), 14979185931863170000000000000000),
  ((10243087892291096007, 21889979701797311438, 40200054824069860900), 14979185931866220000000000000000),
  ((1756230923632591849, 48197145243093990852, 34143201486678149692), 6570279132551560000000000000000),
  ((15903422346592855286, 1756230923633339375, 34143201486680654295), 6570279132554112000000000000000),
  ((48197145243090710611, 15903422346593639878, 34143201486681983143), 6570279132553927000000000000000),
  ((1227254816727905316, 66198341747454110830, 17364566915828680180), 4504033084972921000000000000000),
  ((15209836519994828151, 1227254816726415115, 17364566915830860226), 4504033084968776000000000000000),
  ((66198341747446486516, 15209836519989477158, 17364566915835771453), 4504033084972839000000000000000),
  ((54381353389039987653, 7731864884330343950, 19608617551305178721), 12394294159954450000000000000000),
  ((18278164175325430393, 54381353389032755793, 19608617551308231398), 12394294159961960000000000000000),
  ((7731864884330797146, 18278164175317215716, 19608617551317247969), 12394294159956790000000000000000),
  ((8639757190646421503, 77962209289701117625, 7217289794218503581), 5367281142254301000000000000000),
  ((6180743725431099825, 8639757190638253306, 7217289794220665256), 5367281142251953000000000000000),
  ((77962209289715297611, 6180743725428454801, 7217289794213188189), 5367281142250357000000000000000),
  ((891301236246623758, 94128114935231020303, 3023687451099995242), 631616990442085500000000000000),
  ((1956896377423928210, 891301236248365294, 3023687451100693347), 631616990443175900000000000000),
  ((94128114935223578446, 1956896377427101563, 3023687451100656604), 631616990444082000000000000000),
  ((2890436352483492169, 17358023584509187662, 35708248421800169686), 8876101030265546000000000000000),
  ((44043291641199955883, 2890436352488764683, 35708248421802325237), 8876101030282007000000000000000),
  ((17358023584506359404, 44043291641208151132, 35708248421799281746), 8876101030274161000000000000000),
  ((2270085011178938541, 9035183340359502627, 86581765678522250402), 2162421606464688000000000000000),
  ((2112965969939156593, 2270085011179289647, 86581765678519249777), 2162421606465037000000000000000),
  ((9035183340349738337, 2112965969937996748, 86581765678534069190), 2162421606462924000000000000000),
  ((2148831270207052567, 44516947923320503222, 21273490919972086903), 8054280667477870000000000000000),
  ((32060729886504814236, 2148831270206690189, 21273490919973556597), 8054280667477506000000000000000),
  ((44516947923317664621, 32060729886501258383, 21273490919973627632), 8054280667478849000000000000000),
  ((61748664832498914277, 8023850116226492612, 7195784522707147081), 9049885628396499000000000000000),
  ((23031700528572501730, 61748664832491530924, 7195784522706393863), 9049885628398672000000000000000),
  ((8023850116232716424, 23031700528563278924, 7195784522713056475), 9049885628405025000000000000000),
  ((9452881219755275576, 65963749995521227984, 7065601264625673323), 9196546074381425000000000000000),
  ((17517767520095578955, 9452881219751602147, 7065601264629488404), 9196546074380063000000000000000),
  ((65963749995531729812, 17517767520092083459, 7065601264621815377), 9196546074381355000000000000000),
  ((69128491466053295461, 28209386754170331990, 589668853655626123), 1389679560298547000000000000000),
  ((2072452926121084435, 69128491466052439054, 589668853655081112), 1389679560298251000000000000000),
  ((28209386754178517160, 2072452926120910432, 589668853653654284), 1389679560296835000000000000000),
  ((1757754194098171900, 58455224193557440198, 8080118806644062805), 5469361348986402000000000000000),
  ((31706902805700433082, 1757754194097427402, 8080118806643193236), 5469361348984248000000000000000),
  ((58455224193561842338, 31706902805694490059, 8080118806646402067), 5469361348984599000000000000000),
  ((35894300107719312116, 9663461813536430455, 23058085944453801657), 17254505088394090000000000000000),
  ((31384152134292610550, 35894300107714385981, 23058085944456415263), 17254505088392780000000000000000),
  ((9663461813535825104, 31384152134290408944, 23058085944453333192), 17254505088391480000000000000000),
  ((8902566699071152776, 54711526635113625935, 2525485039503574386), 6733913747887457000000000000000),
  ((33860421626309962411, 8902566699068744356, 2525485039503886696), 6733913747885728000000000000000),
  ((54711526635117241025, 33860421626312090982, 2525485039504982843), 6733913747886398000000000000000),
  ((34977587186706631352, 56118546416241411980, 1001327495242353679), 4022564578398640000000000000000),
  ((7902538901814752525, 34977587186696647302, 1001327495243756011), 4022564578402713000000000000000),
  ((56118546416245535895, 7902538901810834625, 1001327495242861948), 4022564578399363000000000000000),
  ((3361314533023627159, 87881874683595720332, 841215865842343975), 1301944787144861000000000000000),
  ((7915594917539184967, 3361314533024495913, 841215865841492778), 1301944787144253000000000000000),
  ((87881874683590992255, 7915594917543570044, 841215865838884071), 1301944787143136000000000000000),
  ((3145181004767897811, 81087266514481308165, 14652045906116967285), 2027792916616635000000000000000),
  ((1115506574634976413, 3145181004765929883, 14652045906114793363), 2027792916617886000000000000000),
  ((81087266514483905903, 1115506574634481765, 14652045906116532501), 2027792916616735000000000000000),
  ((15619153416266816202, 70356014181655928230, 12823241350275788423), 4379548102164245000000000000000),
  ((1201591051801147193, 15619153416266668684, 12823241350274875988), 4379548102164029000000000000000),
  ((70356014181662708245, 1201591051800163612, 12823241350274428956), 4379548102160293000000000000000),
  ((23624230586195304403, 53213597683151740438, 3066111663210867747), 9788773323829804000000000000000),
  ((20096060067448508192, 23624230586189803312, 3066111663211835295), 9788773323830982000000000000000),
  ((53213597683155013897, 20096060067440620454, 3066111663213886743), 9788773323832441000000000000000),
  ((39092960743940368507, 12274906286695855939, 8756388655247148546), 14914984126169130000000000000000),
  ((39875744314117094775, 39092960743935400854, 8756388655250155294), 14914984126171510000000000000000),
  ((12274906286696837440, 39875744314113179627, 8756388655250051191), 14914984126171370000000000000000),
  ((7763792076797789282, 60689546730053862253, 30589524723316602228), 3816494659634458000000000000000),
  ((957136469831775952, 7763792076798622124, 30589524723313236017), 3816494659634902000000000000000),
  ((60689546730052647968, 957136469829867333, 30589524723317866777), 3816494659631925000000000000000),
  ((16456913121524188004, 3545951407500231451, 53855154684219375595), 10537532564195630000000000000000),
  ((26141980786752683800, 16456913121522598272, 53855154684223166180), 10537532564198000000000000000000),
  ((3545951407500513166, 26141980786757913877, 53855154684219981843), 10537532564196850000000000000000),
  ((6541766890802296123, 63847471898314992656, 22067286289576426059), 9378412737876001000000000000000),
  ((7543474921308065021, 6541766890798652652, 22067286289575961269), 9378412737873921000000000000000),
  ((63847471898319134293, 7543474921303880235, 22067286289572015141), 9378412737876034000000000000000),
  ((10031985363325111831, 24341356224078801798, 59060593323105300093), 10349439264483870000000000000000),
  ((6566065089494952058, 10031985363326507620, 59060593323101821817), 10349439264490780000000000000000),
  ((24341356224095081312, 6566065089490110637, 59060593323082740292), 10349439264497340000000000000000),
  ((8145578260858200492, 88449206822478910720, 2544900390363988138), 1253515438165336000000000000000),
  ((860314526297592182, 8145578260860426682, 2544900390362634795), 1253515438163976000000000000000),
  ((88449206822483920110, 860314526296303818, 2544900390361991804), 1253515438162651000000000000000),
  ((50543237699133538248, 2657234084597541603, 9690187156315636075), 7631115735488028000000000000000),
  ((37109341059956668692, 50543237699131276305, 9690187156314270484), 7631115735488942000000000000000),
  ((2657234084597460831, 37109341059953301268, 9690187156313021244), 7631115735487678000000000000000),
  ((11714202839550206633, 1515715824748904667, 73707557182933138700), 4662247664665583000000000000000),
  ((13062524152767618044, 11714202839548668613, 73707557182935624933), 4662247664663175000000000000000),
  ((1515715824751248475, 13062524152766904477, 73707557182933708207), 4662247664669866000000000000000),
  ((11084950229959845681, 40021279496230043422, 32631971053548474925), 19245087453583270000000000000000),
  ((16261799220260712837, 11084950229958472791, 32631971053548738245), 19245087453577230000000000000000),
  ((40021279496230391574, 16261799220257040918, 32631971053552222644), 19245087453585180000000000000000),
  ((2477429690598125236, 44641469996263680685, 52132878095397343707), 2150599791391388000000000000000),
  ((748222217739199010, 2477429690597800289, 52132878095399266557), 2150599791389261000000000000000),
  ((44641469996257057943, 748222217740101315, 52132878095406547665), 2150599791389503000000000000000),
  ((20692236263026734211, 44180558888038913176, 14043489408391138868), 18157941810070450000000000000000),
  ((21083715440542527788, 20692236263021311457, 14043489408395750032), 18157941810073550000000000000000),
  ((44180558888039221354, 21083715440539217747, 14043489408395976610), 18157941810070600000000000000000),
  ((741446097725745786, 26884285176817533246, 2821381240545040572), 2074509937828351000000000000000),
  ((69552887484913463764, 741446097723605185, 2821381240546332678), 2074509937826631000000000000000),
  ((26884285176817575728, 69552887484912222101, 2821381240546191832), 2074509937827053000000000000000),
  ((2712491103417995478, 23590812527504743272, 71480302566287972443), 3856301126724407000000000000000),
  ((2216393802789847050, 2712491103418126445, 71480302566285412726), 3856301126725213000000000000000),
  ((23590812527495790026, 2216393802790487193, 71480302566295376026), 3856301126727490000000000000000),
  ((259416526518668786, 34179307423202106329, 57976853458511192421), 2342776832115179000000000000000),
  ((7584422591768212074, 259416526520979504, 57976853458507591671), 2342776832117610000000000000000),
  ((34179307423208398471, 7584422591769525178, 57976853458500243202), 2342776832119853000000000000000),
  ((12082870476910847217, 70864310892357083528, 291446664138559560), 2485903899501151000000000000000),
  ((16761371966595417667, 12082870476910898397, 291446664141045792), 2485903899504086000000000000000),
  ((70864310892349625886, 16761371966599989207, 291446664135638543), 2485903899497665000000000000000),
  ((423850950551742760, 66061250441802741794, 30590641935370017729), 1958269886432824000000000000000),
  ((2924256672275299817, 423850950552497836, 30590641935371722574), 1958269886433108000000000000000),
  ((66061250441795566833, 2924256672275456899, 30590641935375479479), 1958269886434393000000000000000),
  ((13745039479674476138, 30064976944768707341, 56086939777820638792), 3112037442333638000000000000000),
  ((103043797737662479, 13745039479672719062, 56086939777824974389), 3112037442336383000000000000000),
  ((30064976944771057249, 103043797733829817, 56086939777821594093), 3112037442329971000000000000000),
  ((9511700072900557167, 9511700072889238371, 71464899781321518028), 8380938111968996000000000000000),
  ((1034510725652271383, 1034510725658743791, 96896467823028892229), 240861660747090900000000000000),
  ((30955501834309597453, 30955501834305153135, 7133494497075157342), 16512237971923080000000000000000),
  ((16686328704155897962, 16686328704167079089, 49941013887518932381), 13632741667170420000000000000000),
  ((25055888693954870242, 25055888693958251208, 24832333918130697084), 25074333956409730000000000000000)]

/-- The points of `arbq14`. -/
def arbqN14 : List ((Nat × Nat × Nat) × Nat) := [
  ((7162380480079716038, 21536932251427966354, 6614078429994570768), 4194830168311239000000000000000),
  ((64686608838484927689, 7162380480015634751, 6614078429932519069), 4194830168326290000000000000000),
  ((21536932251507884579, 64686608838454401909, 6614078429928018131), 4194830168354955000000000000000),
  ((24032632597437182028, 8400311873016900686, 10503653090556998104), 6505251369757091000000000000000),
  ((57063402438971870241, 24032632597186117152, 10503653090825315211), 6505251369749837000000000000000),
  ((8400311872986524800, 57063402438994130160, 10503653090737703086), 6505251369724089000000000000000),
  ((1455537626307965938, 72200749784083888840, 24311158083453563481), 1511857423469778000000000000000),
  ((2032554506140767113, 1455537626344415930, 24311158083562960143), 1511857423531536000000000000000),
  ((72200749784010673061, 2032554506145876566, 24311158083537077609), 1511857423435278000000000000000),
  ((1252905980804071094, 54975956322041012415, 12194064612228665482), 3576693638591392000000000000000),
  ((31577073085006849785, 1252905980810356507, 12194064612155934008), 3576693638610991000000000000000),
  ((54975956321856639258, 31577073085129647812, 12194064612202743757), 3576693638618915000000000000000),
  ((38456209686503555923, 51751352571723196004, 1294633315184830034), 3373656058688358000000000000000),
  ((8497804426566598038, 38456209686477242918, 1294633315189128889), 3373656058691433000000000000000),
  ((51751352571793191528, 8497804426593093113, 1294633315160561715), 3373656058671795000000000000000),
  ((35854452716358057463, 16775247028179925988, 34655632628529392491), 10767841547601140000000000000000),
  ((12714667626975777135, 35854452716452873994, 34655632628403856142), 10767841547619190000000000000000),
  ((16775247028324462422, 12714667626909151459, 34655632628380047102), 10767841547519740000000000000000),
  ((22473267551866166506, 65338801886631211858, 1699262706566812353), 3758938857122322000000000000000),
  ((10488667854884897897, 22473267551858689954, 1699262706599831474), 3758938857165091000000000000000),
  ((65338801886697572091, 10488667854954022036, 1699262706582881005), 3758938857143189000000000000000),
  ((8923568468759847458, 30640477477896076521, 9281715400051353404), 8302444588410703000000000000000),
  ((51154238653290864540, 8923568468861777270, 9281715399980728491), 8302444588357655000000000000000),
  ((30640477477872659992, 51154238653258663061, 9281715400041671796), 8302444588429193000000000000000),
  ((729435538130376341, 54047976806572714102, 24537631522293193145), 2942777031213149000000000000000),
  ((20684956133010108088, 729435538155168661, 24537631522168785092), 2942777031243674000000000000000),
  ((54047976806541513490, 20684956133125038245, 24537631522196024704), 2942777031245480000000000000000),
  ((9737203363532860810, 30898469281738706528, 49290887213599739759), 8843589566618218000000000000000),
  ((10073440141218426304, 9737203363634402327, 49290887213283804572), 8843589566569863000000000000000),
  ((30898469281773084599, 10073440141062295500, 49290887213695514808), 8843589566624911000000000000000),
  ((39901390622718074617, 924736361783196511, 58290374361211169065), 975902851928840600000000000000),
  ((883498654301882148, 39901390622540303925, 58290374361367066840), 975902851939756500000000000000),
  ((924736361820325232, 883498654308647631, 58290374361686896715), 975902851957542700000000000000),
  ((2152082553456041888, 58327801599222666605, 37912080846046397007), 2004802238525724000000000000000),
  ((1608035001269100536, 2152082553450787382, 37912080846438229634), 2004802238518510000000000000000),
  ((58327801599371820736, 1608035001313729139, 37912080845879127476), 2004802238530063000000000000000),
  ((6883317395885947051, 89896506053857538926, 1446762164046384608), 969576525945737000000000000000),
  ((1773414386215402113, 6883317395833559030, 1446762164064884380), 969576525957747500000000000000),
  ((89896506053866349114, 1773414386230775655, 1446762164021693752), 969576525939924800000000000000),
  ((274762397161547117, 38464570360739675113, 27645570880418415506), 1954897938090337000000000000000),
  ((33615096361651384423, 274762397135491143, 27645570880379965865), 1954897938078232000000000000000),
  ((38464570360484663060, 33615096361808806218, 27645570880599052515), 1954897938036924000000000000000),
  ((53039778396606723174, 22735638687752844515, 856896690510577736), 3691846518220940000000000000000),
  ((23367686225072837548, 53039778396647469160, 856896690513547743), 3691846518218663000000000000000),
  ((22735638687684124995, 23367686225047450626, 856896690519597982), 3691846518232707000000000000000),
  ((47308239457860767548, 37618181369129438971, 7236155120451864115), 7970801887754822000000000000000),
  ((7837424052573165050, 47308239457842911319, 7236155120465556763), 7970801887704541000000000000000),
  ((37618181369319235376, 7837424052530450130, 7236155120489984299), 7970801887626933000000000000000),
  ((55221821043452877821, 35085999644596833308, 493132522606700243), 1979189926163023000000000000000),
  ((9199046789365555976, 55221821043427389498, 493132522642707742), 1979189926220139000000000000000),
  ((35085999644508127430, 9199046789304387282, 493132522695237050), 1979189926268928000000000000000),
  ((66129820367822315780, 1341116464697132481, 9601282934079290278), 3698742482337427000000000000000),
  ((22927780233386763795, 66129820367832354378, 9601282934065732352), 3698742482364018000000000000000),
  ((1341116464707543408, 22927780233499761553, 9601282934041855951), 3698742482353030000000000000000),
  ((2228963644433803968, 83438389057758840826, 12428033912177877441), 1687317723859350000000000000000),
  ((1904613385629612917, 2228963644438801794, 12428033912088422075), 1687317723863163000000000000000),
  ((83438389057593973300, 1904613385630614169, 12428033912336928934), 1687317723875827000000000000000),
  ((766750793953446354, 26125966949594803518, 43044133981908483481), 3835254087109209000000000000000),
  ((30063148274454606737, 766750793968243842, 43044133981972525390), 3835254087144783000000000000000),
  ((26125966949521699458, 30063148274476823941, 43044133982028526850), 3835254087114301000000000000000),
  ((21600654434562177953, 6230404677908077324, 21451162810888531739), 10162604511048310000000000000000),
  ((50717778076467602745, 21600654434621926860, 21451162811032882619), 10162604510980460000000000000000),
  ((6230404677880872030, 50717778076517894236, 21451162810991586672), 10162604511022410000000000000000),
  ((39429915689815473519, 47392585491525725201, 11453359412867899056), 5267012161743862000000000000000),
  ((1724139405791802147, 39429915690011127403, 11453359412850899597), 5267012161757533000000000000000),
  ((47392585491461899815, 1724139405793898538, 11453359412891561127), 5267012161774349000000000000000),
  ((1883099256402150438, 7968733056157859745, 88191632746650674690), 1528430187195588000000000000000),
  ((1956534940768556851, 1883099256369901215, 88191632746880498065), 1528430187157122000000000000000),
  ((7968733056254093862, 1956534940798791353, 88191632746542835904), 1528430187208298000000000000000),
  ((1974995134615205164, 9857704079958537810, 7586181203295679472), 2982437800867588000000000000000),
  ((80581119582262712867, 1974995134613917077, 7586181203231104798), 2982437800865273000000000000000),
  ((9857704079908962932, 80581119582197902023, 7586181203272874722), 2982437800863566000000000000000),
  ((1952291262766572771, 77099002292628152694, 1015620879258830104), 1466557323209961000000000000000),
  ((19933085565366761444, 1952291262769867951, 1015620879265927500), 1466557323217223000000000000000),
  ((77099002292621981014, 19933085565342385627, 1015620879270440685), 1466557323219012000000000000000),
  ((17834349061354533528, 45264887199536158874, 21415536427038971097), 14610577956622500000000000000000),
  ((15485227311971960008, 17834349061310418429, 21415536427178976582), 14610577956626840000000000000000),
  ((45264887199480738014, 15485227312058683472, 21415536427096495526), 14610577956670470000000000000000),
  ((4604965750936851636, 4075932674082379605, 51632276820884822806), 5561076940885510000000000000000),
  ((39686824754176488743, 4604965750902184166, 51632276820908344031), 5561076940819906000000000000000),
  ((4075932674062018241, 39686824754112934836, 51632276820926782565), 5561076940859880000000000000000),
  ((5411126130896624124, 20566325305419989601, 20611451727047238491), 9751977499183117000000000000000),
  ((53411096836574749840, 5411126130928813902, 20611451726976592757), 9751977499261835000000000000000),
  ((20566325305406230126, 53411096836623169919, 20611451727070386169), 9751977499259098000000000000000),
  ((65021009791394770910, 22353314623667886744, 2642159417499197119), 5302530732607095000000000000000),
  ((9983516167429839552, 65021009791527177561, 2642159417490679018), 5302530732562353000000000000000),
  ((22353314623542337283, 9983516167455470863, 2642159417479950253), 5302530732501225000000000000000),
  ((7714531472976961433, 7136509125209872244, 65825287968653657395), 7136244952723934000000000000000),
  ((19323671432825300212, 7714531472941287837, 65825287969072624245), 7136244952687442000000000000000),
  ((7136509125118204035, 19323671432918293078, 65825287968999115058), 7136244952687213000000000000000),
  ((1940675068596577957, 70615325459020036764, 7543662479225495002), 3962851386077182000000000000000),
  ((19900336993117741165, 1940675068598710824, 7543662479224184525), 3962851386075291000000000000000),
  ((70615325458972391259, 19900336993159879554, 7543662479267595607), 3962851386117417000000000000000),
  ((9409500064304071432, 78776789862437726206, 1931078849337181674), 3518864309482585000000000000000),
  ((9882631223940275504, 9409500064289489605, 1931078849337506232), 3518864309488224000000000000000),
  ((78776789862415333152, 9882631223971054536, 1931078849337396005), 3518864309487660000000000000000),
  ((20392319120066585903, 76155505576095159917, 1440053742036035922), 1910503466789297000000000000000),
  ((2012121561803046610, 20392319120023629919, 1440053742030224508), 1910503466785413000000000000000),
  ((76155505576107959518, 2012121561804505630, 1440053742029752981), 1910503466785542000000000000000),
  ((4637577761701049168, 35026145151799398956, 24123871535757533312), 11143727027585990000000000000000),
  ((36212405550663483184, 4637577761704332580, 24123871535784861657), 11143727027636220000000000000000),
  ((35026145151814979320, 36212405550780126597, 24123871535740945368), 11143727027592300000000000000000),
  ((3830546711004494108, 16100456561349913331, 38636881567317065357), 9339073844350225000000000000000),
  ((41432115160378874199, 3830546710979158312, 38636881567304040195), 9339073844312899000000000000000),
  ((16100456561387285800, 41432115160271381709, 38636881567332123595), 9339073844325385000000000000000),
  ((28515106751575800050, 9704125425919978596, 36398508958365604863), 14275191726290880000000000000000),
  ((25382258864258911648, 28515106751538356449, 36398508958245230814), 14275191726331350000000000000000),
  ((9704125425935170984, 25382258864237875750, 36398508958336302842), 14275191726371840000000000000000),
  ((10144050962237786780, 1877419874737987385, 18430495314928258957), 4705321020321325000000000000000),
  ((69548033848056726858, 10144050962235580922, 18430495314955595262), 4705321020382762000000000000000),
  ((1877419874750495243, 69548033848057810368, 18430495314936826047), 4705321020369120000000000000000),
  ((67569492766879648687, 1823203771688220448, 21028448189471347837), 4787930353379107000000000000000),
  ((9578855271908850876, 67569492766944195262, 21028448189462973644), 4787930353341169000000000000000),
  ((1823203771678077349, 9578855271960066915, 21028448189458044046), 4787930353337981000000000000000),
  ((29354885057775239396, 820980056996933090, 60062135146688810035), 3363836009342347000000000000000),
  ((9761999738538257584, 29354885057703371996, 60062135146769967754), 3363836009325845000000000000000),
  ((820980056996732339, 9761999738502093299, 60062135146692863941), 3363836009335837000000000000000),
  ((50354454726257103103, 20767708028302538340, 7908151868236302538), 12845698874573500000000000000000),
  ((20969685377178625198, 50354454726258557725, 7908151868224306162), 12845698874569740000000000000000),
  ((20767708028259285479, 20969685377192304535, 7908151868295451591), 12845698874637060000000000000000),
  ((38230094649186752598, 57834473542716882851, 2255542412122658267), 2752818417406538000000000000000),
  ((1679889395968452749, 38230094649173086666, 2255542412116614151), 2752818417393949000000000000000),
  ((57834473542727470975, 1679889395970695676, 2255542412126638688), 2752818417406429000000000000000),
  ((1932237274817591429, 84790544759942526912, 5638385444701338019), 2544892612698709000000000000000),
  ((7638832520527902151, 1932237274818358088, 5638385444735508401), 2544892612676544000000000000000),
  ((84790544760031243144, 7638832520496107536, 5638385444661986967), 2544892612707782000000000000000),
  ((11145515833851165304, 11548607976972950742, 76275640927430554090), 3052619386398206000000000000000),
  ((1030235261682465158, 11145515833869675438, 76275640927434889686), 3052619386307692000000000000000),
  ((11548607977007001774, 1030235261706965202, 76275640927402109390), 3052619386349196000000000000000),
  ((17754788331360952520, 2946035672919226976, 40302415079961432168), 8865680919273325000000000000000),
  ((38996760915640336848, 17754788331433514219, 40302415080009546270), 8865680919243184000000000000000),
  ((2946035672918366878, 38996760915675686543, 40302415080032393886), 8865680919267345000000000000000),
  ((3822218952882805704, 19552219375788588231, 56285520722154718445), 9030103498125034000000000000000),
  ((20340040949150299301, 3822218952910467709, 56285520722145820673), 9030103498122236000000000000000),
  ((19552219375769681311, 20340040949159981821, 56285520722145373641), 9030103498131978000000000000000),
  ((1748287896096772434, 58019576240133632034, 2304572711565239332), 2991177381103681000000000000000),
  ((37927563152224439516, 1748287896089853030, 2304572711563004173), 2991177381087045000000000000000),
  ((58019576240141024167, 37927563152201518160, 2304572711563279740), 2991177381095963000000000000000),
  ((411013141124843271, 9120718428587531610, 39899049286349366691), 2211164766946887000000000000000),
  ((50569219143916801801, 411013141151697933, 39899049286503623308), 2211164766969601000000000000000),
  ((9120718428557402870, 50569219143833651658, 39899049286447156446), 2211164766996503000000000000000),
  ((95265919105842560741, 478884476429858947, 3329961033063354132), 297356206227932400000000000000),
  ((925235384642524071, 95265919105903004659, 3329961033024101059), 297356206220786100000000000000),
  ((478884476393087277, 925235384606483690, 3329961033004266316), 297356206207566900000000000000),
  ((39199335018389048653, 38598018918754858387, 3060828252764539305), 9172628789611696000000000000000),
  ((19141817810078360116, 39199335018335734456, 3060828252772310312), 9172628789611484000000000000000),
  ((38598018918692159843, 19141817810099247029, 3060828252764043284), 9172628789627685000000000000000),
  ((6794709903263498092, 54793562618520234342, 30361359236494150893), 9783236108387362000000000000000),
  ((8050368241686011547, 6794709903225462235, 30361359236500585090), 9783236108363432000000000000000),
  ((54793562618495225207, 8050368241747638381, 30361359236453561623), 9783236108405431000000000000000),
  ((33229608338548631206, 15380603608032298239, 16443270977701443494), 17381259819643040000000000000000),
  ((34946517075681578118, 33229608338574919253, 16443270977720457659), 17381259819651330000000000000000),
  ((15380603608034225772, 34946517075658068685, 16443270977711412918), 17381259819652020000000000000000),
  ((10151715917024392891, 68014691776350807002, 11627248810442489496), 9766706161581359000000000000000),
  ((10206343496184400875, 10151715916997776130, 11627248810455043131), 9766706161581049000000000000000),
  ((68014691776366408191, 10206343496165504279, 11627248810426990349), 9766706161590663000000000000000),
  ((10403477450915637393, 560141769488305007, 60294133196574431744), 3005216389199320000000000000000),
  ((28742247582968460200, 10403477450946107307, 60294133196614823830), 3005216389178637000000000000000),
  ((560141769466289465, 28742247583037533258, 60294133196592527350), 3005216389160241000000000000000),
  ((21294253714595505947, 2206929415866911307, 74370742105696595350), 2785222700150757000000000000000),
  ((2128074763837007347, 21294253714467585759, 74370742105824630179), 2785222700144989000000000000000),
  ((2206929415888838013, 2128074763856217345, 74370742106014245180), 2785222700178524000000000000000),
  ((1327553194082989587, 92329996515747430638, 201005864911591857), 375335957815589100000000000000),
  ((6141444425278522948, 1327553194070753378, 201005864981010396), 375335957829308100000000000000),
  ((92329996515854429326, 6141444425249768615, 201005864838762403), 375335957795814300000000000000),
  ((8400887661431637012, 323980932956946434, 38629615027093726459), 2191182863239439000000000000000),
  ((52645516378427073321, 8400887661498062082, 38629615027055998193), 2191182863316704000000000000000),
  ((323980932993659116, 52645516378484673010, 38629615027122097674), 2191182863281961000000000000000),
  ((23494061248840251898, 51564396354686001056, 24749127838673174731), 2531026444894308000000000000000),
  ((192414557825657236, 23494061248997615596, 24749127838584039514), 2531026444936393000000000000000),
  ((51564396354539139645, 192414557823001545, 24749127838747628748), 2531026444945725000000000000000),
  ((30291811932937623123, 30291811932930168067, 9124564201234241590), 14457489280296820000000000000000),
  ((685770368145947438, 685770368095921388, 97942688895784266340), 128782005235648700000000000000),
  ((16588752025504447438, 16588752025509184595, 50233743923516862600), 15748644630076650000000000000000),
  ((7781592316817307134, 7781592316882565696, 76655223049187900611), 4621613088145150000000000000000),
  ((33172395261398944817, 33172395261500176239, 482814215598724233), 2792502892512972000000000000000),
  ((24322103194166980909, 24322103194151511518, 27033690417470888581), 18515644708053420000000000000000)]

/-- The points of `arbq15`. -/
def arbqN15 : List ((Nat × Nat × Nat) × Nat) := [
  ((26780584731702515319, 40215339591245511059, 32038702893233675983), 2565379947273549000000000000000),
  ((965372783817702365, 26780584731704447342, 32038702893231875608), 2565379947271849000000000000000),
  ((40215339591249030557, 965372783817767001, 32038702893230289563), 2565379947272177000000000000000),
  ((26732678586842475090, 47741185664822747045, 16272823437492706199), 6723785911414816000000000000000),
  ((9253312310838818881, 26732678586841320758, 16272823437495314906), 6723785911411640000000000000000),
  ((47741185664824811709, 9253312310841953291, 16272823437493226716), 6723785911413937000000000000000),
  ((25579594190635087588, 20845779940810910411, 1133447823052512560), 3085562545744757000000000000000),
  ((52441178045502961954, 25579594190634346731, 1133447823052757509), 3085562545745181000000000000000),
  ((20845779940811688629, 52441178045500469555, 1133447823052402333), 3085562545744572000000000000000),
  ((7313934036770807957, 15437425379827846295, 70470387388206980311), 4446982777989968000000000000000),
  ((6778253195192690056, 7313934036770642824, 70470387388207953984), 4446982777989351000000000000000),
  ((15437425379825966255, 6778253195194372984, 70470387388207629426), 4446982777990241000000000000000),
  ((4765944606068965429, 1511843542458244399, 7509955896952652478), 1185105459270273000000000000000),
  ((86212255954520363139, 4765944606069031680, 7509955896952419776), 1185105459270278000000000000000),
  ((1511843542458275084, 86212255954520102200, 7509955896953191366), 1185105459270443000000000000000),
  ((23528575079422381529, 74269158348725079383, 1167275911784925650), 836416569430971500000000000000),
  ((1034990660067411732, 23528575079423296856, 1167275911784337773), 836416569430684800000000000000),
  ((74269158348725474452, 1034990660067179723, 1167275911784619464), 836416569430636700000000000000),
  ((882912276839015125, 7185958939199267131, 36312512663709693318), 1867492375962935000000000000000),
  ((55618616120252854867, 882912276839659794, 36312512663709191173), 1867492375963348000000000000000),
  ((7185958939197847562, 55618616120253712846, 36312512663709515730), 1867492375962387000000000000000),
  ((4848577326034395116, 27389889905025450865, 60534164000594373048), 4264615556690722000000000000000),
  ((7227368768344127448, 4848577326034419695, 60534164000595536556), 4264615556689985000000000000000),
  ((27389889905024409642, 7227368768344563780, 60534164000596008083), 4264615556689865000000000000000),
  ((45105846794905869139, 1367226401254371395, 1029208189693130645), 1036750961119152000000000000000),
  ((52497718614147317519, 45105846794904893808, 1029208189693369471), 1036750961119384000000000000000),
  ((1367226401253966061, 52497718614148033137, 1029208189692953057), 1036750961118855000000000000000),
  ((940743474102757187, 18566957142053038123, 49871510602750636061), 2897017453521770000000000000000),
  ((30620788781090850183, 940743474103242250, 49871510602753005943), 2897017453522957000000000000000),
  ((18566957142052801028, 30620788781092783739, 49871510602751462764), 2897017453522235000000000000000),
  ((909794171229015647, 37185838176170826482, 60570463655836307911), 993177463674694200000000000000),
  ((1333903996763918058, 909794171229402338, 60570463655836442633), 993177463674967600000000000000),
  ((37185838176169956691, 1333903996763902018, 60570463655837385686), 993177463674535900000000000000),
  ((2904413928681588996, 884804648943705434, 93726606130096156618), 296826753132768500000000000000),
  ((2484175292277925025, 2904413928681167410, 93726606130095605483), 296826753133185800000000000000),
  ((884804648943167461, 2484175292278334454, 93726606130096401567), 296826753132561000000000000000),
  ((1488093241522519827, 77060184044202972729, 14575078198884102815), 2082824878589059000000000000000),
  ((6876644515390202437, 1488093241522547992, 14575078198884623332), 2082824878589280000000000000000),
  ((77060184044202040321, 6876644515390473170, 14575078198884972384), 2082824878589393000000000000000),
  ((6882938877957167439, 66673493269980268196, 23206656780403651027), 3532360099744144000000000000000),
  ((3236911071658232699, 6882938877957373637, 23206656780403643066), 3532360099743258000000000000000),
  ((66673493269981755136, 3236911071658529901, 23206656780404061929), 3532360099742647000000000000000),
  ((34303057397782878481, 9109001795840516090, 23543386875416572500), 9852850436647919000000000000000),
  ((33044553930959219611, 34303057397780911995, 23543386875416950334), 9852850436649995000000000000000),
  ((9109001795841744623, 33044553930960834930, 23543386875415487376), 9852850436648092000000000000000),
  ((38282613232164481043, 22555506878883774278, 1264429188566548468), 4465622015302662000000000000000),
  ((37897450700385333576, 38282613232163681694, 1264429188566579086), 4465622015302984000000000000000),
  ((22555506878882500473, 37897450700384954189, 1264429188566762798), 4465622015303046000000000000000),
  ((33378477273630783775, 17528826325512634397, 15365688986232024459), 10644471268368570000000000000000),
  ((33727007414626346302, 33378477273631112940, 15365688986230089362), 10644471268361890000000000000000),
  ((17528826325511713803, 33727007414623876928, 15365688986230040372), 10644471268365310000000000000000),
  ((42366080566525527121, 1602307963396413600, 18970166018199628179), 4362160716691730000000000000000),
  ((37061445451877477151, 42366080566525000538, 18970166018201004179), 4362160716692162000000000000000),
  ((1602307963396213736, 37061445451877101856, 18970166018200039693), 4362160716691511000000000000000),
  ((12860811215365360574, 30238692652483931157, 50693613463271532911), 7013986090707679000000000000000),
  ((6206882668877941032, 12860811215365019580, 50693613463272555573), 7013986090706681000000000000000),
  ((30238692652484218675, 6206882668879423839, 50693613463272776027), 7013986090707788000000000000000),
  ((1371045105861754925, 45182010241281626649, 35402410236369495687), 4089047890127443000000000000000),
  ((18044534416486589168, 1371045105861944991, 35402410236368068859), 4089047890127423000000000000000),
  ((45182010241282153233, 18044534416486879868, 35402410236369305851), 4089047890126841000000000000000),
  ((10957554754814676242, 1277148036100555507, 86301275276589603078), 833169692094651500000000000000),
  ((1464021932495157475, 10957554754814689366, 86301275276589725553), 833169692094609600000000000000),
  ((1277148036100527574, 1464021932495308471, 86301275276590215451), 833169692094706300000000000000),
  ((29823862031372593820, 2418625266301123169, 32827668948485629582), 5692536319085584000000000000000),
  ((34929843753842782714, 29823862031371352868, 32827668948484368095), 5692536319084854000000000000000),
  ((2418625266301678228, 34929843753841670008, 32827668948483369928), 5692536319085869000000000000000),
  ((17255136606679708498, 34306677244807115955, 29102804255059939523), 11939943267362480000000000000000),
  ((19335381893453945937, 17255136606684716414, 29102804255064684185), 11939943267371740000000000000000),
  ((34306677244810271902, 19335381893448601549, 29102804255059177120), 11939943267362500000000000000000),
  ((45226988730673278023, 2198550415554814407, 36565284510192959835), 4894866890556946000000000000000),
  ((16009176343577316010, 45226988730677070396, 36565284510190387871), 4894866890557526000000000000000),
  ((2198550415555294601, 16009176343580581445, 36565284510189089641), 4894866890558155000000000000000),
  ((19559767224086571905, 1610664762850592110, 50488894960975843631), 4559845100025953000000000000000),
  ((28340673052085574437, 19559767224086984012, 50488894960976884664), 4559845100026132000000000000000),
  ((1610664762850586377, 28340673052085258009, 50488894960976296786), 4559845100026570000000000000000),
  ((17211273776170897399, 47385978307531774840, 16246886683326671830), 11125209262490360000000000000000),
  ((19155861232969041022, 17211273776172198990, 16246886683328582432), 11125209262492220000000000000000),
  ((47385978307533036415, 19155861232969889364, 16246886683326941274), 11125209262488860000000000000000),
  ((1132540328384584295, 60812309213979415926, 29609178808839758130), 2944181342559152000000000000000),
  ((8445971648796090755, 1132540328384952348, 29609178808840077788), 2944181342559592000000000000000),
  ((60812309213978732409, 8445971648796271093, 29609178808840025737), 2944181342559789000000000000000),
  ((8364528610476074844, 17276440052292459354, 28369432202266984628), 8953416346063897000000000000000),
  ((45989599134965860261, 8364528610473300165, 28369432202267912985), 8953416346061954000000000000000),
  ((17276440052291974437, 45989599134965016382, 28369432202267043416), 8953416346063781000000000000000),
  ((14688471844943681049, 64995163554955291688, 1829996483318700223), 3952683058023190000000000000000),
  ((18486368116781388476, 14688471844942681463, 1829996483318718594), 3952683058023330000000000000000),
  ((64995163554957183692, 18486368116780383278, 1829996483318706347), 3952683058022607000000000000000),
  ((1651093431189673686, 74151602970796447773, 22821265716173154286), 1439142717612964000000000000000),
  ((1376037881840694088, 1651093431189799671, 22821265716174064883), 1439142717612978000000000000000),
  ((74151602970796783707, 1376037881840442237, 22821265716173243080), 1439142717612582000000000000000),
  ((64253401625741226779, 14949833226470116761, 17773424907703400655), 5039224704625283000000000000000),
  ((3023340240085355888, 64253401625742410665, 17773424907703988532), 5039224704625251000000000000000),
  ((14949833226469303897, 3023340240085157906, 17773424907704025275), 5039224704625310000000000000000),
  ((4935190074327633393, 48699823979234623417, 14972523671215805344), 7617567889070472000000000000000),
  ((31392462275222030267, 4935190074328526021, 14972523671215688994), 7617567889069997000000000000000),
  ((48699823979233116609, 31392462275222631809, 14972523671216160520), 7617567889070361000000000000000),
  ((8624240167700996790, 32887444362628728196, 43233112850837921622), 10541108672913720000000000000000),
  ((15255202618831124432, 8624240167701173056, 43233112850838607479), 10541108672913540000000000000000),
  ((32887444362627315562, 15255202618833880365, 43233112850837737910), 10541108672914080000000000000000),
  ((1356847482581894397, 55964714400717777733, 40901552224799307978), 1741617181694419000000000000000),
  ((1776885891900912898, 1356847482581974029, 40901552224799773381), 1741617181694472000000000000000),
  ((55964714400717666725, 1776885891901008684, 40901552224799461071), 1741617181694386000000000000000),
  ((28985270031641431511, 8514028622192732357, 38910094543047029079), 11006403734984940000000000000000),
  ((23590606803118794719, 28985270031644255676, 38910094543045161343), 11006403734982030000000000000000),
  ((8514028622192701184, 23590606803119017054, 38910094543046037036), 11006403734984380000000000000000),
  ((19482177755837174327, 63240860411048869045, 7976498347271099273), 6926338144663090000000000000000),
  ((9300463485842214998, 19482177755836166937, 7976498347272820040), 6926338144663959000000000000000),
  ((63240860411049397818, 9300463485842688578, 7976498347271172758), 6926338144663389000000000000000),
  ((19589446318021109822, 71689888802073375186, 1586351574919182579), 2939871895670393000000000000000),
  ((7134313304985855574, 19589446318020955639, 1586351574919580621), 2939871895670890000000000000000),
  ((71689888802073706136, 7134313304985421546, 1586351574919133589), 2939871895670184000000000000000),
  ((1225149814117750149, 85813195995647062384, 1880574820318222245), 1098371982889171000000000000000),
  ((11081079369916995298, 1225149814117588809, 1880574820318087523), 1098371982888983000000000000000),
  ((85813195995647269109, 11081079369916878548, 1880574820318020162), 1098371982889088000000000000000),
  ((1343952012215557602, 72086448940575073027, 7671766832162949238), 2867324218775673000000000000000),
  ((18897832215046391872, 1343952012215382468, 7671766832162851259), 2867324218775326000000000000000),
  ((72086448940575877734, 18897832215046035301, 7671766832162526701), 2867324218775453000000000000000),
  ((7877407681846744916, 1871950766556433784, 81746470954027930691), 2627584056743849000000000000000),
  ((8504170597569017974, 7877407681846862560, 81746470954027648999), 2627584056743863000000000000000),
  ((1871950766556445177, 8504170597569259565, 81746470954027826587), 2627584056743943000000000000000),
  ((783983320806670940, 10072452537868695360, 68125769737842261508), 2450903116528004000000000000000),
  ((21017794403481912092, 783983320807340645, 68125769737842083920), 2450903116528749000000000000000),
  ((10072452537869181535, 21017794403481813883, 68125769737841483795), 2450903116529087000000000000000),
  ((1499093171087588942, 40317650797844970593, 50210663116400533528), 3781264707127557000000000000000),
  ((7972592914666991971, 1499093171087692226, 50210663116400251837), 3781264707127677000000000000000),
  ((40317650797844587189, 7972592914666872346, 50210663116400521281), 3781264707128319000000000000000),
  ((6988987460087734436, 47962455617607743180, 25729314007944625929), 9717660774153364000000000000000),
  ((19319242914360329435, 6988987460089363349, 25729314007945785763), 9717660774155940000000000000000),
  ((47962455617606643165, 19319242914360325623, 25729314007945106029), 9717660774153394000000000000000),
  ((22389067731112960532, 56134843234731481221, 18983510448306456713), 5844696436169811000000000000000),
  ((2492578585848616568, 22389067731111617387, 18983510448306098475), 5844696436168778000000000000000),
  ((56134843234732468934, 2492578585848870185, 18983510448305220946), 5844696436168716000000000000000),
  ((10835290253899208221, 62918588709538642870, 17589822412857950963), 7798609566561363000000000000000),
  ((8656298623704102164, 10835290253897529155, 17589822412859377790), 7798609566560966000000000000000),
  ((62918588709538270365, 8656298623703906404, 17589822412859494141), 7798609566562299000000000000000),
  ((14029641595260173116, 44984927455998168195, 6810558755187384450), 9537993724461966000000000000000),
  ((34174872193554628612, 14029641595260548831, 6810558755187402821), 9537993724462559000000000000000),
  ((44984927455996501698, 34174872193555673835, 6810558755187641646), 9537993724462396000000000000000),
  ((16525047454900961295, 5090872345953553821, 60689464908613226481), 6470868601806971000000000000000),
  ((17694615290531430924, 16525047454902122196, 60689464908612056850), 6470868601806687000000000000000),
  ((5090872345953125066, 17694615290530340834, 60689464908614089926), 6470868601806209000000000000000),
  ((26055902569048009058, 48198520136413283142, 6519355736441288093), 9788338589999005000000000000000),
  ((19226221558096633146, 26055902569046823502, 6519355736441459558), 9788338589999012000000000000000),
  ((48198520136412787464, 19226221558098013401, 6519355736441631022), 9788338589999477000000000000000),
  ((11264359775378871035, 33140849776210429152, 1348680642347956574), 4149912310618085000000000000000),
  ((54246109806061087211, 11264359775379378819, 1348680642348054554), 4149912310618563000000000000000),
  ((33140849776211792378, 54246109806061119722, 1348680642347993317), 4149912310618460000000000000000),
  ((70591806905139990742, 22896225807556015029, 1703231872933660703), 2801823664802904000000000000000),
  ((4808735414370190422, 70591806905139861174, 1703231872933685198), 2801823664802910000000000000000),
  ((22896225807556725684, 4808735414368968403, 1703231872933697446), 2801823664803036000000000000000),
  ((1588261437502414324, 6519129396751859806, 53258040361877104575), 3473047605746596000000000000000),
  ((38634568803868756203, 1588261437502286643, 53258040361878163979), 3473047605746489000000000000000),
  ((6519129396751416070, 38634568803868170692, 53258040361877729195), 3473047605747130000000000000000),
  ((9155687274905321699, 61075648988483499468, 8682921283620242952), 8146696772355114000000000000000),
  ((21085742452990926402, 9155687274905463650, 8682921283620659365), 8146696772356077000000000000000),
  ((61075648988483146880, 21085742452991367933, 8682921283620004127), 8146696772355570000000000000000),
  ((37665321562474035426, 8105206237388600639, 1518945086644216028), 4104346629768971000000000000000),
  ((52710527113492922470, 37665321562473907560, 1518945086644265017), 4104346629769071000000000000000),
  ((8105206237388435102, 52710527113492284151, 1518945086644173162), 4104346629768999000000000000000),
  ((21542086214053821236, 68879716063486309710, 7794412055942195087), 3673293016416287000000000000000),
  ((1783785666517335493, 21542086214054977507, 7794412055941288776), 3673293016415687000000000000000),
  ((68879716063486713641, 1783785666517590921, 7794412055941699066), 3673293016415978000000000000000),
  ((6700605011182883244, 49565071818593549310, 36287404420166424044), 7385814346097036000000000000000),
  ((7446918750056531018, 6700605011183500558, 36287404420166528147), 7385814346096885000000000000000),
  ((49565071818591950349, 7446918750057780493, 36287404420166399549), 7385814346097676000000000000000),
  ((2153556644468026423, 22214643364171566166, 73683190666980861761), 1952835342529582000000000000000),
  ((1948609324379294090, 2153556644467771111, 73683190666982080382), 1952835342529196000000000000000),
  ((22214643364171092390, 1948609324379484472, 73683190666981290422), 1952835342529467000000000000000),
  ((8946628745362874659, 78319019080470588320, 10939809439001570496), 2956577367937866000000000000000),
  ((1794542735165067813, 8946628745363572135, 10939809439001564373), 2956577367938132000000000000000),
  ((78319019080469794007, 1794542735164880241, 10939809439002133879), 2956577367937872000000000000000),
  ((58668667853379742557, 2410596555328872576, 1920458791743759173), 2429727102722713000000000000000),
  ((37000276799547719223, 58668667853379981717, 1920458791743636699), 2429727102722471000000000000000),
  ((2410596555328797633, 37000276799548765061, 1920458791743826534), 2429727102722800000000000000000),
  ((49479150546587464246, 5862614489007149302, 7977623817658049176), 7838569405690889000000000000000),
  ((36680611146747649036, 49479150546588507537, 7977623817657761361), 7838569405690287000000000000000),
  ((5862614489007723651, 36680611146746865998, 7977623817658073671), 7838569405690948000000000000000),
  ((7394396840975942569, 77544673778491208015, 6088720165051333903), 4786830078294293000000000000000),
  ((8972209215481665320, 7394396840975422646, 6088720165051376769), 4786830078294275000000000000000),
  ((77544673778490944332, 8972209215481265116, 6088720165051946276), 4786830078294352000000000000000),
  ((1991210660912631793, 94337920850733769442, 1608597865131471713), 646487937338809700000000000000),
  ((2062270623222039878, 1991210660912670170, 1608597865131557445), 646487937338815600000000000000),
  ((94337920850733919052, 2062270623222073906, 1608597865131355362), 646487937338740300000000000000),
  ((7459114246549634429, 82787784886518626673, 411031172598629796), 1094759729336998000000000000000),
  ((9342069694332719912, 7459114246549293191, 411031172598556311), 1094759729336943000000000000000),
  ((82787784886518411954, 9342069694332847808, 411031172598917611), 1094759729337179000000000000000),
  ((1909773271486868678, 56079351397768106333, 6348929065765115942), 4183486775030887000000000000000),
  ((35661946264979655701, 1909773271486835090, 6348929065765373139), 4183486775030987000000000000000),
  ((56079351397768332910, 35661946264979043249, 6348929065765740562), 4183486775031043000000000000000),
  ((63583762518553150557, 192202346444362960, 22608222996667679005), 1388382329059297000000000000000),
  ((13615812138334958539, 63583762518555467296, 22608222996666238705), 1388382329058254000000000000000),
  ((192202346443349877, 13615812138334787222, 22608222996666486103), 1388382329057900000000000000000),
  ((86030781907455021929, 1720187300674934877, 2182336879483837701), 1547261679853963000000000000000),
  ((10066693912386246188, 86030781907455100336, 2182336879483739721), 1547261679853909000000000000000),
  ((1720187300674852536, 10066693912386392651, 2182336879483788711), 1547261679853913000000000000000),
  ((316346535220135303, 1941685525440574262, 9225347133747910066), 524555903988795500000000000000),
  ((88516620805592115809, 316346535220337313, 9225347133747016002), 524555903988807800000000000000),
  ((1941685525440418924, 88516620805592654504, 9225347133747242580), 524555903988554800000000000000),
  ((70984791823912266269, 27925176081305518127, 782663616837468056), 471407346171744900000000000000),
  ((307368477944683942, 70984791823912645647, 782663616837425190), 471407346171706300000000000000),
  ((27925176081307583857, 307368477943657343, 782663616836953663), 471407346171284900000000000000),
  ((300915267100029237, 21374974954848582863, 68836735064510420252), 1734297963526248000000000000000),
  ((9487374713541050281, 300915267100135536, 68836735064510481489), 1734297963526404000000000000000),
  ((21374974954848427795, 9487374713541020078, 68836735064509611920), 1734297963527124000000000000000),
  ((54164479475849334323, 26321406928337376198, 19400964245213973472), 2194380264311005000000000000000),
  ((113149350599202890, 54164479475849642108, 19400964245214060429), 2194380264311055000000000000000),
  ((26321406928337864462, 113149350599932846, 19400964245214036546), 2194380264311861000000000000000),
  ((52872349357347224401, 142801265833680, 8835752618992143087), 1505920846848116000000000000000),
  ((38291755222394947834, 52872349357347108319, 8835752618992761583), 1505920846847692000000000000000),
  ((142801266267842, 38291755222395417974, 8835752618992381912), 1505920846848549000000000000000),
  ((31131774611098684878, 31131774611099486700, 6604676166701309599), 10921914823693070000000000000000),
  ((16272843201616500799, 16272843201617369575, 51181470395147846138), 14025796422060700000000000000000),
  ((22030718091586096835, 22030718091587197055, 33907845725256253127), 9137907285788647000000000000000),
  ((27189840912701888184, 27189840912706013023, 18430477261895540495), 8807144129412933000000000000000)]

/-- The points of all rules. -/
def arbqNat : List (List ((Nat × Nat × Nat) × Nat)) :=
  [arbqN1, arbqN2, arbqN3, arbqN4, arbqN5, arbqN6, arbqN7, arbqN8, arbqN9, arbqN10, arbqN11, arbqN12, arbqN13, arbqN14, arbqN15]

/-- Sum of `w a^i b^j c^k` over a table. -/
def tetSum (t : List ((Nat × Nat × Nat) × Nat)) (i j k : Nat) : Nat :=
  t.foldl (fun s e => s + e.2 * (e.1.1 ^ i * e.1.2.1 ^ j * e.1.2.2 ^ k)) 0

/-- The moment `i, j, k` of a table, divided by the sum `W` of the weights, is `6 i! j! k! / (i + j + k + 3)!` up to
`2 · 10^(-15)`. -/
def tetMomentOK (t : List ((Nat × Nat × Nat) × Nat)) (W i j k : Nat) : Bool :=
  Nat.ble (ndist (tetSum t i j k * factN (i + j + k + 3)) (6 * (factN i * factN j * factN k) * (W * 10 ^ (20 * (i + j + k))))
      * 500000000000000)
    (factN (i + j + k + 3) * (W * 10 ^ (20 * (i + j + k))))

/-- All moments of total degree at most `d`. -/
def tetMomentsOK (t : List ((Nat × Nat × Nat) × Nat)) (W d : Nat) : Bool :=
  (List.range (d + 1)).all fun i => (List.range (d + 1 - i)).all fun j => (List.range (d + 1 - i - j)).all fun k =>
    tetMomentOK t W i j k

/-- Nodes inside the tetrahedron, at least `10^(-6)` from its faces; positive weights. -/
def tetNodesOK (t : List ((Nat × Nat × Nat) × Nat)) : Bool := t.all fun e =>
  Nat.ble (10 ^ 14) e.1.1 && (Nat.ble (10 ^ 14) e.1.2.1 && (Nat.ble (10 ^ 14) e.1.2.2 &&
    (Nat.ble (e.1.1 + e.1.2.1 + e.1.2.2 + 10 ^ 14) (10 ^ 20) && Nat.ble 1 e.2)))

/-- Sums of the weights. -/
def arbqW : List Nat := [970983543414646700000000000000000, 970983543414646770000000000000000, 970983543414646900000000000000000, 970983543414646710000000000000000, 970983543414646580000000000000000, 970983543414647061000000000000000, 970983543414645993000000000000000, 970983543414647330000000000000000, 970983543414646453000000000000000, 970983543414646838600000000000000, 970983543414646237000000000000000, 970983543414646695200000000000000, 970983543414647127300000000000000, 970983543414647137700000000000000, 970983543414647477200000000000000]

/-- A table with natural numbers, as one with integers. -/
def tetCast (t : List ((Nat × Nat × Nat) × Nat)) : List ((Int × Int × Int) × Nat) :=
  t.map fun e => (((e.1.1 : Int), (e.1.2.1 : Int), (e.1.2.2 : Int)), e.2)

/-- Coordinates at most 13/10 in size. -/
def tetBoxOK (t : List ((Int × Int × Int) × Nat)) : Bool := t.all fun e =>
  Nat.ble (10 * e.1.1.natAbs) (13 * 10 ^ 33) && (Nat.ble (10 * e.1.2.1.natAbs) (13 * 10 ^ 33) &&
    Nat.ble (10 * e.1.2.2.natAbs) (13 * 10 ^ 33))

theorem arbq_box : ∀ n < 15, tetBoxOK (arbqRules.getD n []) = true := by decide +kernel
theorem arbq_nat : ∀ n < 15, (arbqRules.getD n []).map arbqPt = tetCast (arbqNat.getD n []) := by decide +kernel
theorem arbq_size : ∀ n < 15, (arbqRules.getD n []).length = arbqSizes.getD n 0 := by decide +kernel
theorem arbq_nodes : ∀ n < 15, tetNodesOK (arbqNat.getD n []) = true := by decide +kernel
theorem arbq_weights : ∀ n < 15, tetSum (arbqNat.getD n []) 0 0 0 = arbqW.getD n 0 := by decide +kernel
theorem arbq_moments1 : tetMomentsOK arbqN1 970983543414646700000000000000000 1 = true := by decide +kernel
theorem arbq_moments2 : tetMomentsOK arbqN2 970983543414646770000000000000000 2 = true := by decide +kernel
theorem arbq_moments3 : tetMomentsOK arbqN3 970983543414646900000000000000000 3 = true := by decide +kernel
theorem arbq_moments4 : tetMomentsOK arbqN4 970983543414646710000000000000000 4 = true := by decide +kernel
theorem arbq_moments5 : tetMomentsOK arbqN5 970983543414646580000000000000000 5 = true := by decide +kernel
theorem arbq_moments6 : tetMomentsOK arbqN6 970983543414647061000000000000000 6 = true := by decide +kernel
theorem arbq_moments7 : tetMomentsOK arbqN7 970983543414645993000000000000000 7 = true := by decide +kernel
theorem arbq_moments8 : tetMomentsOK arbqN8 970983543414647330000000000000000 8 = true := by decide +kernel
theorem arbq_moments9 : tetMomentsOK arbqN9 970983543414646453000000000000000 9 = true := by decide +kernel
theorem arbq_moments10 : tetMomentsOK arbqN10 970983543414646838600000000000000 10 = true := by decide +kernel
theorem arbq_moments11 : tetMomentsOK arbqN11 970983543414646237000000000000000 11 = true := by decide +kernel
theorem arbq_moments12 : tetMomentsOK arbqN12 970983543414646695200000000000000 12 = true := by decide +kernel
theorem arbq_moments13 : tetMomentsOK arbqN13 970983543414647127300000000000000 13 = true := by decide +kernel
theorem arbq_moments14 : tetMomentsOK arbqN14 970983543414647137700000000000000 14 = true := by decide +kernel
theorem arbq_moments15 : tetMomentsOK arbqN15 970983543414647477200000000000000 15 = true := by decide +kernel

end Verif.Quad
