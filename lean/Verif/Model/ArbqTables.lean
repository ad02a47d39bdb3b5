/-!
Tables of the tetrahedron rules of `libdiskpp/contrib/jburkardt/src/tetrahedron_arbq_rule.cpp`, in units of
`10 ^ (-33)`; the decimal literals of the source are represented exactly. All weights are positive.
-/
namespace Verif.Quad

/-- `rule01`, `:667-674`. -/
def arbq1 : List ((Int × Int × Int) × Nat) := [
  ((0, 0, 0), 970983543414646700000000000000000)]

/-- `rule02`, `:723-734`. -/
def arbq2 : List ((Int × Int × Int) × Nat) := [
  ((-267702858591007300000000000000000, 59390170061994880000000000000000, -396942694114215000000000000000000), 291800886547715100000000000000000),
  ((151093184153314200000000000000000, 435408773247630900000000000000000, 215171925430691900000000000000000), 270688439235672400000000000000000),
  ((-136769919523739000000000000000000, -328034111559041000000000000000000, 295084651993713300000000000000000), 309834960175347000000000000000000),
  ((806744930905196400000000000000000, -340097731428528800000000000000000, -343037895100255000000000000000000), 98659257455912270000000000000000)]

/-- `rule03`, `:783-798`. -/
def arbq3 : List ((Int × Int × Int) × Nat) := [
  ((-168503718027600000000000000000000, 191091491627170800000000000000000, -389626731458516300000000000000000), 128721372740202500000000000000000),
  ((27837994275344180000000000000000, -23049328388396570000000000000000, 548135066324183000000000000000000), 217903433969599300000000000000000),
  ((-351221617734344500000000000000000, 183514402633999300000000000000000, 51478153303435340000000000000000), 124350379206283600000000000000000),
  ((430853246354904300000000000000000, -247471582318044600000000000000000, -168331564100703300000000000000000), 244691718241007200000000000000000),
  ((-467676374796737700000000000000000, -423525082726437500000000000000000, -158697307788930700000000000000000), 136543987582651200000000000000000),
  ((149283125384843100000000000000000, 639784768516451600000000000000000, -108021925305539300000000000000000), 118772651674903100000000000000000)]

/-- `rule04`, `:847-874`. -/
def arbq4 : List ((Int × Int × Int) × Nat) := [
  ((-14596122809799870000000000000000, 2426564579199708000000000000000, 709356578010363300000000000000000), 103378709064689400000000000000000),
  ((-293724489630999300000000000000000, 176439650676461300000000000000000, 110886049494113400000000000000000), 107035625609016400000000000000000),
  ((323087833715827400000000000000000, -193207041095655600000000000000000, 169542639670465000000000000000000), 150479258274094000000000000000000),
  ((-88196541793965830000000000000000, 23178842701059800000000000000000, -201181939132558600000000000000000), 187798715618658300000000000000000),
  ((127020366331471000000000000000000, 545141067721521900000000000000000, 130950399075931500000000000000000), 73952743125212980000000000000000),
  ((-441430768809118400000000000000000, -384822563159018000000000000000000, 92254296791625320000000000000000), 77121999254112700000000000000000),
  ((393941858963342900000000000000000, 206874467063953000000000000000000, -311156042619824200000000000000000), 67454193687019990000000000000000),
  ((-60344697146142100000000000000000, -457373907492708000000000000000000, -330221532932237600000000000000000), 58194136481732440000000000000000),
  ((-89140598346011850000000000000000, 726809265959945900000000000000000, -350793173736373900000000000000000), 53786467111521480000000000000000),
  ((654521303360376000000000000000000, -397035624387057100000000000000000, -297042483395113700000000000000000), 53669531839497440000000000000000),
  ((-730764225967785700000000000000000, -266942008864898200000000000000000, -386103757024184600000000000000000), 38112163349091580000000000000000)]

/-- `rule05`, `:923-954`. -/
def arbq5 : List ((Int × Int × Int) × Nat) := [
  ((166418072157768500, 109436232414622600, 770436782529672000000000000000000), 71360535421450540000000000000000),
  ((408992591748700800000000000000000, -236131982942675000000000000000000, 333941052787583500000000000000000), 41311486012323730000000000000000),
  ((63384672754299990, 472263965885350000000000000000000, 333941052787583400000000000000000), 41311486012323750000000000000000),
  ((-408992591748700600000000000000000, -236131982942675000000000000000000, 333941052787583400000000000000000), 41311486012323760000000000000000),
  ((37239009310357820, 35480014893018070, -298278869430759200000000000000000), 109418121413725600000000000000000),
  ((-243543677053202300000000000000000, 140610007506097700000000000000000, 99426289810252990000000000000000), 109418121413725500000000000000000),
  ((7718657600705262, -281220015012195300000000000000000, 99426289810253060000000000000000), 109418121413725500000000000000000),
  ((243543677053202600000000000000000, 140610007506097700000000000000000, 99426289810252990000000000000000), 109418121413725500000000000000000),
  ((629058998756435000000000000000000, -363187382268184200000000000000000, -256812260843224000000000000000000), 71360535421450500000000000000000),
  ((-629058998756435100000000000000000, -363187382268184100000000000000000, -256812260843223900000000000000000), 71360535421450520000000000000000),
  ((-140776895379932700, 726374764536368400000000000000000, -256812260843223900000000000000000), 71360535421450500000000000000000),
  ((408992591748700600000000000000000, 236131982942675000000000000000000, -333941052787583500000000000000000), 41311486012323700000000000000000),
  ((-104796521146489500, -472263965885350000000000000000000, -333941052787583400000000000000000), 41311486012323730000000000000000),
  ((-408992591748700700000000000000000, 236131982942675000000000000000000, -333941052787583500000000000000000), 41311486012323750000000000000000)]

/-- `rule06`, `:1003-1054`. -/
def arbq6 : List ((Int × Int × Int) × Nat) := [
  ((4919941951523113000000000000000, -13922385034309220000000000000000, 1066228263967720000000000000000000), 6889900028407776000000000000000),
  ((34150580602195440000000000000000, 254207383054340200000000000000000, 631588696703923400000000000000000), 30595118458814790000000000000000),
  ((-456119832861723500000000000000000, -311038544744537500000000000000000, 230026765510698500000000000000000), 23528180793757750000000000000000),
  ((214449922976949300000000000000000, -123490387324972200000000000000000, 563235163630282700000000000000000), 47471459137564330000000000000000),
  ((-154069305999594300000000000000000, -68652144723021680000000000000000, 620626489628262100000000000000000), 51494484767411000000000000000000),
  ((306452540322294700000000000000000, 181849550192317800000000000000000, 125468587644291100000000000000000), 41984645520127980000000000000000),
  ((-13058829595147730000000000000000, -24888911690733960000000000000000, -335770592628266300000000000000000), 65187772716103110000000000000000),
  ((15352446898380720000000000000000, -326114310053292500000000000000000, 114778898592700300000000000000000), 58085544124133980000000000000000),
  ((-156778448777534000000000000000000, 252245430100092300000000000000000, 214059780070552200000000000000000), 60797625077696430000000000000000),
  ((-397361694050675700000000000000000, -197715908337849600000000000000000, -79633618028823290000000000000000), 62467276617544270000000000000000),
  ((9764884616649552000000000000000, 650418429113367600000000000000000, 5868446281578688000000000000000), 42325559167764660000000000000000),
  ((-522808798464745300000000000000000, -66350553041234200000000000000000, 1934272688455952000000000000000), 21910891573247070000000000000000),
  ((556560570221032800000000000000000, -318669005422011500000000000000000, 13797402514248390000000000000000), 45260586143889530000000000000000),
  ((84230819790234640000000000000000, 21380598228645210000000000000000, 31957561269125500000000000000000), 109332168762029200000000000000000),
  ((217416609116023600000000000000000, 459950700499799700000000000000000, -302723230375316200000000000000000), 52370007733985010000000000000000),
  ((321215894522564700000000000000000, -426005242154505100000000000000000, -299485560260426300000000000000000), 48324520797151380000000000000000),
  ((-259364807854539800000000000000000, 385198021113757700000000000000000, -282519709925312200000000000000000), 61236399533873140000000000000000),
  ((563645476720258400000000000000000, -111160622782169600000000000000000, -306814049530040900000000000000000), 45779961692977930000000000000000),
  ((-641094964462572900000000000000000, -193431833850761200000000000000000, -366047360516158700000000000000000), 24764279149209030000000000000000),
  ((-334415109058215500000000000000000, -449175869972365100000000000000000, -310242329274612800000000000000000), 38561735258821200000000000000000),
  ((-18945883868920190000000000000000, 901059945993096100000000000000000, -347395205043690200000000000000000), 15463378209631140000000000000000),
  ((-821465589619935100000000000000000, -510986035935517900000000000000000, -263564524010136200000000000000000), 10120887455194760000000000000000),
  ((859741547561565500000000000000000, -520808514122574400000000000000000, -360343258536933500000000000000000), 7031160695311595000000000000000)]

/-- `rule07`, `:1103-1170`. -/
def arbq7 : List ((Int × Int × Int) × Nat) := [
  ((-308252291356292000000000000000000, -197843287967888400000000000000000, 655377140534142000000000000000000), 7484517057961263000000000000000),
  ((323006856476516800000000000000000, -116660814480028900000000000000000, 596321726821281800000000000000000), 11655484673330770000000000000000),
  ((1790030943099486000000000000000, 2760223041671345000000000000000, 919167034243546200000000000000000), 22543139787949850000000000000000),
  ((-174985856285021700000000000000000, 149255307127258300000000000000000, 516292138739824400000000000000000), 21761066984377450000000000000000),
  ((35158182245122290000000000000000, 322257000983196000000000000000000, 549210359947021700000000000000000), 22615165045442700000000000000000),
  ((-114891280250506200000000000000000, 35981502469979870000000000000000, -388691765396646000000000000000000), 26536897045367020000000000000000),
  ((108024261958047300000000000000000, -212321108274526500000000000000000, 513821465706857200000000000000000), 27960717482473930000000000000000),
  ((99608860192095240000000000000000, 337060034616578600000000000000000, -273250222640217100000000000000000), 41743710779298970000000000000000),
  ((255258965717304000000000000000000, 23459313876527120000000000000000, -128926642642748800000000000000000), 51250128743614690000000000000000),
  ((301897209396454400000000000000000, -279744081272852900000000000000000, -336815502815559900000000000000000), 40624525671613500000000000000000),
  ((-36379952516628680000000000000000, 678415814779262800000000000000000, 49651545904999420000000000000000), 20111090930865750000000000000000),
  ((-197974843267435100000000000000000, -109926012070685300000000000000000, 368810136731088000000000000000000), 58551779282026360000000000000000),
  ((170554760858719400000000000000000, 58544811497166760000000000000000, 324539845033622700000000000000000), 64775484319250770000000000000000),
  ((538271457535773200000000000000000, -332620243815606000000000000000000, 65309984633894830000000000000000), 30499687839390120000000000000000),
  ((-582625595155966100000000000000000, -286639428866960000000000000000000, 40500736891942880000000000000000), 27491250839380570000000000000000),
  ((-66388274842551400000000000000000, 339664373274517100000000000000000, 43391376211546990000000000000000), 64802945923571030000000000000000),
  ((139486545048336500000000000000000, -307850231836866700000000000000000, -8554188228126980000000000000000), 62326306277224860000000000000000),
  ((-252544821156148300000000000000000, -96877078523207620000000000000000, -121223434312816700000000000000000), 79949006880830930000000000000000),
  ((-336417947935678300000000000000000, -422280930562355600000000000000000, 22449369921336640000000000000000), 20267053218644240000000000000000),
  ((508817409509134300000000000000000, -46079600146529470000000000000000, -53891551497801820000000000000000), 23849715205556090000000000000000),
  ((-399767677129958100000000000000000, 169411793400156500000000000000000, -13317691107619440000000000000000), 21700192226769440000000000000000),
  ((223357920899762800000000000000000, 507026392231845600000000000000000, -39961730600970810000000000000000), 21536724906814970000000000000000),
  ((-288768983232797900000000000000000, -432041161224172500000000000000000, -330437075713885400000000000000000), 35864062809911520000000000000000),
  ((243005680598845800000000000000000, 526215548808248600000000000000000, -363369754803439100000000000000000), 16217368174893110000000000000000),
  ((-240245918466879400000000000000000, 491923965978304200000000000000000, -318467007553823500000000000000000), 32815229044429250000000000000000),
  ((-573712249516894100000000000000000, -74531823343519100000000000000000, -334800074141429800000000000000000), 27246942351652970000000000000000),
  ((553074058634517900000000000000000, -3355026530466742000000000000000, -350744403540142100000000000000000), 20480728517562610000000000000000),
  ((763216087154035800000000000000000, -434539428837597800000000000000000, -312047989157561600000000000000000), 19992889675114680000000000000000),
  ((1108323525316276000000000000000, 883581509323175400000000000000000, -315533688400763000000000000000000), 18645614241378270000000000000000),
  ((-766658972551922100000000000000000, -454032742499625500000000000000000, -314870223157801400000000000000000), 17533125079280420000000000000000),
  ((331437926843702900000000000000000, -541903403372277400000000000000000, -310441026876215200000000000000000), 12150992398667890000000000000000)]

/-- `rule08`, `:1219-1310`. -/
def arbq8 : List ((Int × Int × Int) × Nat) := [
  ((-16117725516705250000000000000000, 799860011950069600000000000000, 1140750120480647000000000000000000), 1694544493019982000000000000000),
  ((-7148827236840712000000000000000, 172391459500714000000000000000000, 786069607279345400000000000000000), 14626672271826820000000000000000),
  ((458992337208855800000000000000000, -174471635165122900000000000000000, -399143091233099400000000000000000), 9589935274093377000000000000000),
  ((-452099049249417800000000000000000, -263294162907140400000000000000000, 353609296024044100000000000000000), 9835015847019813000000000000000),
  ((110956035643063100000000000000000, -62957203760056410000000000000000, 818940414230146500000000000000000), 17101482793559580000000000000000),
  ((182522429364889000000000000000000, 167838281859335900000000000000000, 476496271636175200000000000000000), 15163256924429140000000000000000),
  ((-150748980541997100000000000000000, -78269418732493070000000000000000, 762897429508123100000000000000000), 17466916055119990000000000000000),
  ((-287732473487860000000000000000000, -123468697478363500000000000000000, -388005832381779600000000000000000), 16049743146400670000000000000000),
  ((368074721237848700000000000000000, -216987676633974100000000000000000, 399755369527440800000000000000000), 21851563206637850000000000000000),
  ((478815642489051300000000000000000, -46294373005942420000000000000000, 114465646499508900000000000000000), 12427990620668690000000000000000),
  ((-347877936740081900000000000000000, -129563033616473300000000000000000, 250917196877863900000000000000000), 26464094269193890000000000000000),
  ((-35482858687347440000000000000000, -226810803130748100000000000000000, 417461557834331500000000000000000), 31355972189740450000000000000000),
  ((259165044293404300000000000000000, 133007144302729400000000000000000, -274777834511803200000000000000000), 27367837168761120000000000000000),
  ((-1305037378946309000000000000000, 491940911589453700000000000000000, 303192932475321000000000000000000), 23457354390058220000000000000000),
  ((-34939960708285970000000000000000, 300199516912219400000000000000000, -344250352423091800000000000000000), 31305726416015960000000000000000),
  ((-166046285970729700000000000000000, 140773645768750900000000000000000, 397053743418083300000000000000000), 35489536587424310000000000000000),
  ((101008552242242900000000000000000, -225925757531516100000000000000000, -307089325860143100000000000000000), 40361349134470770000000000000000),
  ((-358746816360514400000000000000000, -108319979557346300000000000000000, -198990439690391700000000000000000), 37929248521610720000000000000000),
  ((-347306756398568200000000000000000, -374230473903012700000000000000000, 15262589585683320000000000000000), 24409638871025940000000000000000),
  ((-86357411214011840000000000000000, -147806248208500800000000000000000, -154235018984394900000000000000), 51329033830252060000000000000000),
  ((290116820177848700000000000000000, -344951237372674900000000000000000, 41210260013144890000000000000000), 31777645206498420000000000000000),
  ((104209335515010500000000000000000, 28836711416804680000000000000000, 324891384827993100000000000000000), 54173587497755930000000000000000),
  ((-64193874519183640000000000000000, 255812557085304300000000000000000, -69579005153887800000000000000000), 51805664155463700000000000000000),
  ((-201698697211896800000000000000000, 440436807904118300000000000000000, -33409875648792160000000000000000), 26330683607319910000000000000000),
  ((184617067735639900000000000000000, 399856860528596300000000000000000, -13035274315457570000000000000000), 38935279902822110000000000000000),
  ((378889395816015700000000000000000, -99565851628155860000000000000000, -83903225122125950000000000000000), 50277162728976340000000000000000),
  ((-481871616316579600000000000000000, -15097473839097470000000000000000, -45014040313393410000000000000000), 22083778452123250000000000000000),
  ((682171905077817000000000000000000, -395651861881758700000000000000000, -74515235227443410000000000000000), 14292787627931070000000000000000),
  ((397864229301513700000000000000000, 225661601324835100000000000000000, -399393902200914500000000000000000), 6697289387082959000000000000000),
  ((-697588947015912900000000000000000, -389965102391844900000000000000000, -125421045820557900000000000000000), 16482668255223130000000000000000),
  ((2742964749336314000000000000000, 813499823087961900000000000000000, -141581579520531900000000000000000), 16884629521302440000000000000000),
  ((16456878600509910000000000000000, -445103670029463400000000000000000, -185824429941080000000000000000000), 21904649581612710000000000000000),
  ((-461834921478590300000000000000000, -453564747993794400000000000000000, -324551242480901700000000000000000), 22817068044030040000000000000000),
  ((157509056839709400000000000000000, 665014546017143500000000000000000, -331712100150823200000000000000000), 19562124686165950000000000000000),
  ((539917520321523800000000000000000, -467462446997303300000000000000000, -316815950570112100000000000000000), 19948892189426230000000000000000),
  ((-140390526208972500000000000000000, 701265398375963200000000000000000, -337215023915009100000000000000000), 17379443943688840000000000000000),
  ((44533965700378570000000000000000, -510724184730912700000000000000000, -395001367051170700000000000000000), 7302913219204132000000000000000),
  ((-423436030210434800000000000000000, 226332499768761300000000000000000, -333644400603586800000000000000000), 21288327344549820000000000000000),
  ((-721417637689403400000000000000000, -272715517063635200000000000000000, -351939297000166400000000000000000), 13337209110181690000000000000000),
  ((727811871619034200000000000000000, -286162780307072800000000000000000, -322616758291580800000000000000000), 14941927254185610000000000000000),
  ((490189077970134300000000000000000, 185630652333263200000000000000000, -278004232570756500000000000000000), 11521128232549640000000000000000),
  ((-875888735250777900000000000000000, -556637467888742000000000000000000, -372057779910459000000000000000000), 2472998490996246000000000000000),
  ((7632377205619759000000000000000, 1056056946669113000000000000000000, -397275100897422000000000000000000), 2018756899942699000000000000000),
  ((931743114716918700000000000000000, -566424712470591300000000000000000, -382107361679063200000000000000000), 1470016064285112000000000000000)]

/-- `rule09`, `:1359-1478`. -/
def arbq9 : List ((Int × Int × Int) × Nat) := [
  ((210805201710326500000000000000000, -89557760480759670000000000000000, 773588207426104300000000000000000), 5680408778529046000000000000000),
  ((1283729355850052000000000000000, 612119775491147200000000000000, 1020940836140086000000000000000000), 6887854441113948000000000000000),
  ((-29187341750184730000000000000000, 212275857965952800000000000000000, 779935872338807800000000000000000), 6899595536569939000000000000000),
  ((-435794929768926600000000000000000, -283935548031834100000000000000000, 364437764378333200000000000000000), 6990873936739353000000000000000),
  ((-179934163787020300000000000000000, -95825561520292580000000000000000, 757204434805819400000000000000000), 11421229408421780000000000000000),
  ((69422221862041580000000000000000, -139466668070750700000000000000000, 705548760498302000000000000000000), 12208085908802940000000000000000),
  ((-100564299113523000000000000000000, 483639752826183500000000000000000, -407160361174578900000000000000000), 7651487209643779000000000000000),
  ((190485569675335500000000000000000, 324884395173882100000000000000000, 278433783534253700000000000000000), 9540263940869291000000000000000),
  ((323123885199655200000000000000000, -309109700213472300000000000000000, 322000369135132300000000000000000), 9495638963926394000000000000000),
  ((68199879433401380000000000000000, -179954101765635800000000000000000, -395513568317632800000000000000000), 13852484371880170000000000000000),
  ((97081316235561430000000000000000, 134669034127363400000000000000000, 663220941750769100000000000000000), 14463332318678840000000000000000),
  ((424623978805520300000000000000000, -197403745136439900000000000000000, 367189752118327300000000000000000), 11287638185507720000000000000000),
  ((-356966425620310900000000000000000, 52406650948855400000000000000000, -374748135646346700000000000000000), 12900730483315960000000000000000),
  ((-214575206114175200000000000000000, 276138738286530800000000000000000, 232593226318609900000000000000000), 14680085597371060000000000000000),
  ((-4818674305781609000000000000000, 484004124635173500000000000000000, 348784030681801500000000000000000), 15261314678151270000000000000000),
  ((-431495410462145400000000000000000, -397275228639652300000000000000000, -403570454197209900000000000000000), 7960414659472547000000000000000),
  ((-131245356741702500000000000000000, 75690761877443070000000000000000, 537490019630354700000000000000000), 25517925908748830000000000000000),
  ((-408355822291398800000000000000000, -123985974201376600000000000000000, 265431810476576300000000000000000), 19311707797070980000000000000000),
  ((-124561260584963800000000000000000, -234479030043771100000000000000000, 369888302935578100000000000000000), 25610262301722630000000000000000),
  ((113634878033088800000000000000000, -33054769870344250000000000000000, 436987303689540100000000000000000), 31692620133854350000000000000000),
  ((335166884632846700000000000000000, 17706220728275250000000000000000, 186039322023310500000000000000000), 24558724408885300000000000000000),
  ((215958933320728700000000000000000, 238524676460651000000000000000000, -347991118600472400000000000000000), 24655710701531970000000000000000),
  ((-122863949389776700000000000000000, 53137636788516830000000000000000, -273145041975343200000000000000000), 34198392510138650000000000000000),
  ((138027624345606400000000000000000, 7344859267512056000000000000000, -81938648726951960000000000000000), 40660273504369950000000000000000),
  ((390531978382373000000000000000000, -243428663405389400000000000000000, -281292431872822300000000000000000), 30921266711442140000000000000000),
  ((-458086784432454300000000000000000, -258955617426663400000000000000000, -254631379075299000000000000000000), 27311066427035760000000000000000),
  ((231022856438977000000000000000000, -257836991797271000000000000000000, 86780301458403560000000000000000), 37112045433886130000000000000000),
  ((355406888461039600000000000000000, 145836601896361800000000000000000, -142843849837899300000000000000000), 24907555261924370000000000000000),
  ((-65052418610409610000000000000000, -319406461060355800000000000000000, -215662211604968500000000000000000), 34255682587654960000000000000000),
  ((-178650654128819700000000000000000, -83612956592043180000000000000000, 96749032329926610000000000000000), 47677354896154010000000000000000),
  ((12651045215342470000000000000000, 278960632394181100000000000000000, 158303673718776800000000000000000), 43899508944933620000000000000000),
  ((-457382782386755600000000000000000, -362054438107985200000000000000000, -23715788800663090000000000000000), 22341835376715720000000000000000),
  ((-55427311998770910000000000000000, 458349465064086400000000000000000, -208364056535058800000000000000000), 34680165477817240000000000000000),
  ((-63876300000686710000000000000000, -411051272548539800000000000000000, -13277031309676250000000000000000), 15997333316848610000000000000000),
  ((-341374973214617900000000000000000, 145358665232317500000000000000000, -86644883031134250000000000000000), 32160018204243720000000000000000),
  ((596607789097683000000000000000000, -281733562310855200000000000000000, -77482724301076290000000000000000), 21731302087684480000000000000000),
  ((691731471051810100000000000000000, -424495189591718300000000000000000, -9669501947122619000000000000000), 4172519829863862000000000000000),
  ((10782830220030150000000000000000, 774068604209678900000000000000000, -63167453964314070000000000000000), 12610679004398390000000000000000),
  ((183398357962906000000000000000000, 509650173780726100000000000000000, -104199760560025800000000000000000), 20734673599474840000000000000000),
  ((-156683210068973800000000000000000, 587162777730251600000000000000000, -75580045478616850000000000000000), 12598762206422430000000000000000),
  ((-721547519515626900000000000000000, -406928813430898400000000000000000, -79991990410630030000000000000000), 6842300320404830000000000000000),
  ((563441810039982900000000000000000, -87452874480389480000000000000000, -375106925048634700000000000000000), 10012283081710650000000000000000),
  ((-603817531772940800000000000000000, -160501116667619700000000000000000, -129922703170555400000000000000000), 13280370501113050000000000000000),
  ((442461715547963400000000000000000, -465894984005082600000000000000000, -189272831033158000000000000000000), 14937351380148920000000000000000),
  ((537695450854474200000000000000000, -482291905161232400000000000000000, -391061249617109500000000000000000), 6932861063756816000000000000000),
  ((580167495141382100000000000000000, -26304874597585450000000000000000, -190776527382174200000000000000000), 6827617690151055000000000000000),
  ((141863444388837000000000000000000, 709313400805059600000000000000000, -347713452942033500000000000000000), 12706163977601850000000000000000),
  ((38020528051081700000000000000000, -498131957310979700000000000000000, -347454353176201800000000000000000), 12888754038061180000000000000000),
  ((-676654633827679900000000000000000, -160810255413913100000000000000000, -360647958818098600000000000000000), 8899252930026689000000000000000),
  ((-148377942874081000000000000000000, 747657811481757800000000000000000, -344049968649168400000000000000000), 8881169613715286000000000000000),
  ((758853898498783800000000000000000, -286386495629027500000000000000000, -347456341168422200000000000000000), 5288619835392034000000000000000),
  ((-400933270410922300000000000000000, 318490934135071800000000000000000, -327689243668321800000000000000000), 12847183182609670000000000000000),
  ((429402228177351600000000000000000, 334245126683004500000000000000000, -354238091771872100000000000000000), 6409598847098365000000000000000),
  ((-491182021838701200000000000000000, -525990681712147600000000000000000, -304001912945509000000000000000000), 8055508398015583000000000000000),
  ((-823043669681940000000000000000000, -475229875889280200000000000000000, -344070595704639400000000000000000), 7788463427997768000000000000000),
  ((830738527244245100000000000000000, -489448455641651600000000000000000, -329816063460245700000000000000000), 6545788868966830000000000000000),
  ((2847756354434797000000000000000, 980029354692864700000000000000000, -337801211308476900000000000000000), 5341431206058898000000000000000)]

/-- `rule10`, `:1527-1678`. -/
def arbq10 : List ((Int × Int × Int) × Nat) := [
  ((413544192610843600000000000000000, -246750776531309200000000000000000, -22466787125398020000000000000000), 20070805961882330000000000000000),
  ((6920344574148628000000000000000, 481515164653911500000000000000000, -22466787125561870000000000000000), 20070805961923370000000000000000),
  ((-420464537184972700000000000000000, -234764388122768100000000000000000, -22466787125499780000000000000000), 20070805961920140000000000000000),
  ((121282701905073700000000000000000, -364557446136075800000000000000000, -367498543067273400000000000000000), 12028509827059080000000000000000),
  ((255074658540226800000000000000000, 287312623956678900000000000000000, -367498543067270400000000000000000), 12028509827062340000000000000000),
  ((-376357360444638000000000000000000, 77244822178975450000000000000000, -367498543067392400000000000000000), 12028509827036730000000000000000),
  ((-479357881541578800000000000000, 110502360149269000000000000000000, 916888476308095600000000000000000), 6428246923028596000000000000000),
  ((-95458172126862220000000000000000, -55666316177598550000000000000000, 916888476307730700000000000000000), 6428246923032827000000000000000),
  ((95937530007855790000000000000000, -54836043971606800000000000000000, 916888476308578300000000000000000), 6428246923025550000000000000000),
  ((312630140117656200000000000000000, 515676770951221200000000000000000, -355333655819840900000000000000000), 5961017737373873000000000000000),
  ((-602904253843795200000000000000000, 12907257855466680000000000000000, -355333655819819000000000000000000), 5961017737376429000000000000000),
  ((290274113726702600000000000000000, -528584028806338800000000000000000, -355333655819835400000000000000000), 5961017737354793000000000000000),
  ((179312496297470300000000000000000, 282332460052200400000000000000000, -198316580827253600000000000000000), 24669852537767780000000000000000),
  ((-334163330867067600000000000000000, 14122946983352910000000000000000, -198316580827563000000000000000000), 24669852537761160000000000000000),
  ((154850834569687400000000000000000, -296455407035972800000000000000000, -198316580827244600000000000000000), 24669852537756160000000000000000),
  ((400666660401149400000000000000000, 216199307780048900000000000000000, -144785840545056900000000000000000), 12203433716698210000000000000000),
  ((-387567423018713600000000000000000, 238887852466967200000000000000000, -144785840545186600000000000000000), 12203433716685630000000000000000),
  ((-13099237382593580000000000000000, -455087160247048900000000000000000, -144785840545196600000000000000000), 12203433716666860000000000000000),
  ((-115974989812532200000000000000000, 793735571318705900000000000000000, -354239328110807200000000000000000), 6782282187245643000000000000000),
  ((-629407673742434800000000000000000, -497305073040731000000000000000000, -354239328110752100000000000000000), 6782282187250343000000000000000),
  ((745382663555392200000000000000000, -296430498277664900000000000000000, -354239328110758800000000000000000), 6782282187251558000000000000000),
  ((-146516588784843200000000000000000, 620735233485335700000000000000000, -125151192736590700000000000000000), 12766994760099910000000000000000),
  ((-464314186829922300000000000000000, -437254704706162000000000000000000, -125151192736473700000000000000000), 12766994760092630000000000000000),
  ((610830775614764300000000000000000, -183480528779117200000000000000000, -125151192736429800000000000000000), 12766994760090600000000000000000),
  ((152677322698632900000000000000000, 615349010913590300000000000000000, -138717779739843400000000000000000), 13308984680412840000000000000000),
  ((-609246536994131300000000000000000, -175452065417948400000000000000000, -138717779739883400000000000000000), 13308984680409290000000000000000),
  ((456569214295293700000000000000000, -439896945495578500000000000000000, -138717779739666800000000000000000), 13308984680404680000000000000000),
  ((-234983628865203700000000000000000, -506023035146311100000000000000000, -354913786574649300000000000000000), 8872828138103311000000000000000),
  ((555720617769565200000000000000000, 49509725502203730000000000000000, -354913786574608300000000000000000), 8872828138107657000000000000000),
  ((-320736988903807900000000000000000, 456513309644504200000000000000000, -354913786574637300000000000000000), 8872828138112581000000000000000),
  ((261719079216422700000000000000000, 120684595399040000000000000000000, 86591305962106370000000000000000), 26048521957501690000000000000000),
  ((-235375465069512500000000000000000, 166313073556812700000000000000000, 86591305961714440000000000000000), 26048521957507820000000000000000),
  ((-26343614147120930000000000000000, -286997668956207300000000000000000, 86591305962079160000000000000000), 26048521957510940000000000000000),
  ((-151870784241489800000000000000000, 375380795135609600000000000000000, 259768753032010200000000000000000), 10915982793648780000000000000000),
  ((-249153912559675800000000000000000, -319214354813566200000000000000000, 259768753032135000000000000000000), 10915982793636670000000000000000),
  ((401024696800886600000000000000000, -56166440321983260000000000000000, 259768753032230500000000000000000), 10915982793643970000000000000000),
  ((210831894372951900000000000000000, -130924570230131200000000000000000, 263063208114240400000000000000000), 27277415836072400000000000000000),
  ((7968056612120857000000000000000, 248048061569682700000000000000000, 263063208114389300000000000000000), 27277415836096160000000000000000),
  ((-218799950985084200000000000000000, -117123491339812400000000000000000, 263063208114475600000000000000000), 27277415836101150000000000000000),
  ((-645184534114996000000000000000000, -294850962306783000000000000000000, -345383308918402700000000000000000), 12140672344721880000000000000000),
  ((577940690745811600000000000000000, -411320715519359700000000000000000, -345383308918355100000000000000000), 12140672344707340000000000000000),
  ((67243843369574670000000000000000, 706171677825659500000000000000000, -345383308918352700000000000000000), 12140672344713870000000000000000),
  ((-111702700311124100000000000000000, 378278113185099100000000000000000, -232788953429898000000000000000000), 26530473870107740000000000000000),
  ((-271747105558395700000000000000000, -285876432733471800000000000000000, -232788953429741900000000000000000), 26530473870111070000000000000000),
  ((383449805869739300000000000000000, -92401680452119110000000000000000, -232788953429680200000000000000000), 26530473870120450000000000000000),
  ((235386463106491400000000000000000, -326349752361119200000000000000000, 241526812057868400000000000000000), 11474076789569600000000000000000),
  ((164933944510181000000000000000000, 367025532937718300000000000000000, 241526812057621100000000000000000), 11474076789609030000000000000000),
  ((-400320407616776200000000000000000, -40675780576591370000000000000000, 241526812057666500000000000000000), 11474076789577830000000000000000),
  ((781386647435055100000000000000000, -452646852034878900000000000000000, -213306800322009400000000000000000), 6941339438094368000000000000000),
  ((1310349087707534000000000000000, 903024112874509900000000000000000, -213306800322442300000000000000000), 6941339438087489000000000000000),
  ((-782696996523264300000000000000000, -450377260839598900000000000000000, -213306800322782100000000000000000), 6941339438089641000000000000000),
  ((-144648648594219900000000000000000, 85586595690931260000000000000000, 605581650673549900000000000000000), 16180886761274070000000000000000),
  ((-1795841794748884000000000000000, -168062702151181600000000000000000, 605581650673680900000000000000000), 16180886761250950000000000000000),
  ((146444490388834400000000000000000, 82476106460277270000000000000000, 605581650673770200000000000000000), 16180886761254730000000000000000),
  ((566289741151567900000000000000000, -329071545508948100000000000000000, 141413168417081100000000000000000), 9879744049167588000000000000000),
  ((1839447497576211000000000000000, 654957074494562000000000000000000, 141413168416557200000000000000000), 9879744049174469000000000000000),
  ((-568129188649651700000000000000000, -325885528985560400000000000000000, 141413168416238700000000000000000), 9879744049169482000000000000000),
  ((1959958820407995000000000000000, 350093442409637200000000000000000, 559353834699797400000000000000000), 11061656769039610000000000000000),
  ((-304169794235503800000000000000000, -173349347076072700000000000000000, 559353834699497300000000000000000), 11061656769035090000000000000000),
  ((302209835414552100000000000000000, -176744095333465100000000000000000, 559353834700327600000000000000000), 11061656769041020000000000000000),
  ((-71380616272918740000000000000000, 396304230394379000000000000000000, -396100787902427300000000000000000), 7973762810133187000000000000000),
  ((-307519223012102300000000000000000, -259969542227603400000000000000000, -396100787902374600000000000000000), 7973762810143904000000000000000),
  ((378899839285653000000000000000000, -136334688167220400000000000000000, -396100787902350500000000000000000), 7973762810145713000000000000000),
  ((-31878485249038980000000000000000, 1067074385094486000000000000000000, -395074109048041600000000000000000), 767173238084580600000000000000),
  ((-908174282594812300000000000000000, -561144770606616900000000000000000, -395074109048245700000000000000000), 767173238090528700000000000000),
  ((940052767843358400000000000000000, -505929614487096300000000000000000, -395074109047602200000000000000000), 767173238095189600000000000000),
  ((99766768314387480000000000000000, 947218006642626200000000000000000, -377949220857205100000000000000000), 1643453575966134000000000000000),
  ((-870198240831572500000000000000000, -387208447506806100000000000000000, -377949220857219300000000000000000), 1643453575957693000000000000000),
  ((770431472517722100000000000000000, -560009559135280700000000000000000, -377949220857186200000000000000000), 1643453575955291000000000000000),
  ((-8207757778140335000, -146673911156923200000, -34645488677868560000000000000000), 45226978323448390000000000000000),
  ((-347841759723423100000, 24198543763878370000, 1201009856985286000000000000000000), 370834458087949700000000000000),
  ((479095201677493800000, -155248834093771300000, 406812386591265300000000000000000), 11414014372295230000000000000000),
  ((137478771276506200000, -230632360521964100000, -334140778607838500000000000000000), 27101672896169610000000000000000),
  ((142035845739461000000, -170617436886575900000, 569947520590081900000000000000000), 11085693255443640000000000000000)]

/-- `rule11`, `:1727-1922`. -/
def arbq11 : List ((Int × Int × Int) × Nat) := [
  ((96511777768997000000000000000000, 763379519383339500000000000000000, -186826886312269700000000000000000), 6188005592967251000000000000000),
  ((-709361945399304300000000000000000, -298108108379529000000000000000000, -186826886312305300000000000000000), 6188005592972490000000000000000),
  ((612850167629794100000000000000000, -465271411003715300000000000000000, -186826886311270500000000000000000), 6188005592984317000000000000000),
  ((-4527836424396549000000000000000, 535212668450515200000000000000000, 419413645671028400000000000000000), 1421063031043561000000000000000),
  ((-461243849092658400000000000000000, -271527555592882200000000000000000, 419413645671751800000000000000000), 1421063031047919000000000000000),
  ((465771685518936700000000000000000, -263685112857433700000000000000000, 419413645671101300000000000000000), 1421063030985486000000000000000),
  ((24386555314386150000000000000000, -385976677345992700000000000000000, 50300865837987760000000000000000), 9481646089825704000000000000000),
  ((322072330192303900000000000000000, 214107715087058200000000000000000, 50300865837299600000000000000000), 9481646089870772000000000000000),
  ((-346458885508177000000000000000000, 171868962258853900000000000000000, 50300865837073380000000000000000), 9481646089801222000000000000000),
  ((-126750066458516100000000000000000, 693029111438289300000000000000000, -150595614519409900000000000000000), 6814905118771046000000000000000),
  ((-536805782837872800000000000000000, -456283333203682100000000000000000, -150595614519024300000000000000000), 6814905118757536000000000000000),
  ((663555849297038400000000000000000, -236745778234388900000000000000000, -150595614519242900000000000000000), 6814905118753749000000000000000),
  ((-95479724517750220000000000000000, 327297126599052500000000000000000, -172527578542389900000000000000000), 19120416743135530000000000000000),
  ((-235707763961443800000000000000000, -246336430278646200000000000000000, -172527578542984500000000000000000), 19120416743098020000000000000000),
  ((331187488479252700000000000000000, -80960696320586860000000000000000, -172527578541491300000000000000000), 19120416743249840000000000000000),
  ((-7908328086591814000000000000000, 911574214979798400000000000000000, -170981061542019400000000000000000), 3076029506690844000000000000000),
  ((-785492263564103700000000000000000, -462635920514495900000000000000000, -170981061542179400000000000000000), 3076029506690773000000000000000),
  ((793400591649882200000000000000000, -448938294464900900000000000000000, -170981061540804200000000000000000), 3076029506710983000000000000000),
  ((-149464443207014900000000000000000, 450624307688046400000000000000000, 76747428394017620000000000000000), 11358367249167170000000000000000),
  ((-315519876417291400000000000000000, -354752158623110000000000000000000, 76747428394705970000000000000000), 11358367249217290000000000000000),
  ((464984319623065700000000000000000, -95872149065055840000000000000000, 76747428396813600000000000000000), 11358367249320700000000000000000),
  ((116527686078558300000000000000000, 399090383783251800000000000000000, -372013456992332600000000000000000), 10916033213919380000000000000000),
  ((-403886253801474700000000000000000, -98629255502862580000000000000000, -372013456992289300000000000000000), 10916033213914540000000000000000),
  ((287358567722713700000000000000000, -300461128279899400000000000000000, -372013456992141800000000000000000), 10916033213951380000000000000000),
  ((-2047755067090988000000000000000, 107474766209103400000000000000000, 934296066501945400000000000000000), 4213691001392970000000000000000),
  ((-92052000269377920000000000000000, -55510791013154800000000000000000, 934296066502187800000000000000000), 4213691001384827000000000000000),
  ((94099755339665580000000000000000, -51963975197707120000000000000000, 934296066495320300000000000000000), 4213691001487200000000000000000),
  ((346835457488580700000000000000000, -394508692759800400000000000000000, -36117362898028440000000000000000), 12068378491340080000000000000000),
  ((168236821198930900000000000000000, 497622663499451800000000000000000, -36117362898601550000000000000000), 12068378491343120000000000000000),
  ((-515072278689012500000000000000000, -103113970739210900000000000000000, -36117362899028800000000000000000), 12068378491329450000000000000000),
  ((-114431972741818000000000000000000, 876715287683552700000000000000000, -353556036747551800000000000000000), 2578861292324762000000000000000),
  ((-702041724648949400000000000000000, -537458639241080200000000000000000, -353556036747620200000000000000000), 2578861292345221000000000000000),
  ((816473697390820300000000000000000, -339256648442109800000000000000000, -353556036747688400000000000000000), 2578861292334968000000000000000),
  ((-304870256759300000000000000000000, 362285109955623400000000000000000, -192611435219708500000000000000000), 12524561014427310000000000000000),
  ((-161312980254745600000000000000000, -445167942189767900000000000000000, -192611435219803400000000000000000), 12524561014422670000000000000000),
  ((466183237014652300000000000000000, 82882832233223540000000000000000, -192611435219708600000000000000000), 12524561014446180000000000000000),
  ((210164030825950900000000000000000, -499019487215612200000000000000000, -281852351964105500000000000000000), 8063913155156468000000000000000),
  ((327081537499465600000000000000000, 431517133264639800000000000000000, -281852351964309000000000000000000), 8063913155154395000000000000000),
  ((-537245568325068400000000000000000, 67502353951256170000000000000000, -281852351964829800000000000000000), 8063913155182456000000000000000),
  ((-64040705990465340000000000000000, 706921078951721700000000000000000, -388855276146497500000000000000000), 4993280626450522000000000000000),
  ((-580191259847264400000000000000000, -408921417739124100000000000000000, -388855276146452300000000000000000), 4993280626459499000000000000000),
  ((644231965837054400000000000000000, -297999661211960800000000000000000, -388855276145405300000000000000000), 4993280626580781000000000000000),
  ((5470009647103604000000000000000, 287534224296398100000000000000000, 665484806312731700000000000000000), 6150188384809636000000000000000),
  ((-251746947521408500000000000000000, -139029944834592200000000000000000, 665484806313078000000000000000000), 6150188384813883000000000000000),
  ((246276937877777000000000000000000, -148504279463873500000000000000000, 665484806307889100000000000000000), 6150188384677927000000000000000),
  ((10084619813809650000000000000000, -205752031778813400000000000000000, 17946831818757850000000000000000), 26783884170774010000000000000000),
  ((173144176492928700000000000000000, 111609552836825500000000000000000, 17946831819751630000000000000000), 26783884170779270000000000000000),
  ((-183228796308316100000000000000000, 94142478942406140000000000000000, 17946831818668710000000000000000), 26783884170786490000000000000000),
  ((174898207844579900000000000000000, 337221337718767800000000000000000, -227279445343111200000000000000000), 19468561277525510000000000000000),
  ((-379491349084950900000000000000000, -17144377790174520000000000000000, -227279445343297900000000000000000), 19468561277482480000000000000000),
  ((204593141240705900000000000000000, -320076959928986900000000000000000, -227279445342920400000000000000000), 19468561277492810000000000000000),
  ((10653916384876680000000000000000, 392485195255571000000000000000000, 80784801033649020000000000000000), 21020941891709340000000000000000),
  ((-345229107893252900000000000000000, -187016035388081200000000000000000, 80784801033195740000000000000000), 21020941891699740000000000000000),
  ((334575191505823900000000000000000, -205469159866835300000000000000000, 80784801036080910000000000000000), 21020941891744280000000000000000),
  ((-708368682688562500000000000000, -242259848811423200000000000000000, 340611194255165000000000000000000), 16853678187364970000000000000000),
  ((210157367729121000000000000000000, 120516459131557000000000000000000, 340611194255108900000000000000000), 16853678187299120000000000000000),
  ((-209448999046688600000000000000000, 121743389680978800000000000000000, 340611194253702100000000000000000), 16853678187329970000000000000000),
  ((-285127304889096500000000000000000, 541912173452750200000000000000000, -354913123600949000000000000000000), 5900869705091857000000000000000),
  ((-326746056385500600000000000000000, -517883576072871600000000000000000, -354913123601104200000000000000000), 5900869705093673000000000000000),
  ((611873361274684500000000000000000, -24028597379781430000000000000000, -354913123601249100000000000000000), 5900869705073673000000000000000),
  ((-2323209396920720000000000000000, 251307339208139400000000000000000, 421305767658705300000000000000000), 16905633244581300000000000000000),
  ((-216476935213670600000000000000000, -127665627959788500000000000000000, 421305767658474200000000000000000), 16905633244596020000000000000000),
  ((218800144609600900000000000000000, -123641711247166800000000000000000, 421305767661954100000000000000000), 16905633244560190000000000000000),
  ((-20515779040293040000000000000000, 655109849960248900000000000000000, -243025087375771000000000000000000), 14763411873977820000000000000000),
  ((-557083882814730400000000000000000, -345322110807617000000000000000000, -243025087375512200000000000000000), 14763411873984140000000000000000),
  ((577599661854348100000000000000000, -309787739152588400000000000000000, -243025087373678400000000000000000), 14763411873974790000000000000000),
  ((-3026455196997997000000000000000, -166602186418557300000000000000000, 693950700576721500000000000000000), 6992794755775152000000000000000),
  ((145794953362657600000000000000000, 80680106125983000000000000000000, 693950700576844800000000000000000), 6992794755747075000000000000000),
  ((-142768498166691300000000000000000, 85922080293452080000000000000000, 693950700575700900000000000000000), 6992794755746150000000000000000),
  ((-197353854914093900000000000000000, 296656144937576900000000000000000, -354789590718461200000000000000000), 15130567426915200000000000000000),
  ((-158234830247363600000000000000000, -319241524359057200000000000000000, -354789590718600400000000000000000), 15130567426889110000000000000000),
  ((355588685161490400000000000000000, 22585379421640620000000000000000, -354789590718494700000000000000000), 15130567426926850000000000000000),
  ((106885774436226400000000000000000, 414728869215933200000000000000000, 327363420469224900000000000000000), 7015883109811540000000000000000),
  ((-412608623641975400000000000000000, -114798638643008900000000000000000, 327363420469154300000000000000000), 7015883109809210000000000000000),
  ((305722849205177900000000000000000, -299930230573074600000000000000000, 327363420469784700000000000000000), 7015883109746114000000000000000),
  ((-300336408294241200000000000000000, -288233526509174400000000000000000, 379747909798793400000000000000000), 4965174122051565000000000000000),
  ((399785760325697000000000000000000, -115982196008667300000000000000000, 379747909801915400000000000000000), 4965174121903291000000000000000),
  ((-99449352032031580000000000000000, 404215722519396200000000000000000, 379747909798407000000000000000000), 4965174122041231000000000000000),
  ((12218352460939860000000000000000, 1009077018844530000000000000000000, -362667202068887500000000000000000), 2712699778890213000000000000000),
  ((-879995508924978500000000000000000, -493957105798725500000000000000000, -362667202068938000000000000000000), 2712699778885687000000000000000),
  ((867777156463928400000000000000000, -515119913045772400000000000000000, -362667202068643100000000000000000), 2712699778899985000000000000000),
  ((153456883865012100000000000000000, 748965017517851500000000000000000, -365662386060026300000000000000000), 5900718944404856000000000000000),
  ((-725351173648842800000000000000000, -241584948946273700000000000000000, -365662386060003800000000000000000), 5900718944405426000000000000000),
  ((571894289784059900000000000000000, -507380068571563500000000000000000, -365662386059840700000000000000000), 5900718944424988000000000000000),
  ((2235456216473980000000000000000, 666719280580741100000000000000000, 105695336068241100000000000000000), 8768888887154097000000000000000),
  ((-578513562284073500000000000000000, -331423678417812700000000000000000, 105695336068277700000000000000000), 8768888887160882000000000000000),
  ((576278106065850800000000000000000, -335295602162005900000000000000000, 105695336070784700000000000000000), 8768888887196669000000000000000),
  ((94364165921563520000000000000000, -515850141384782600000000000000000, -401512235299026500000000000000000), 3175432879836244000000000000000),
  ((399557244024400000000000000000000, 339646835586886500000000000000000, -401512235299043000000000000000000), 3175432879833069000000000000000),
  ((-493921409945304500000000000000000, 176203305798363100000000000000000, -401512235299548400000000000000000), 3175432879794895000000000000000),
  ((1578951817317316000000, -806952626522489200000, 1118223609071020000000000000000000), 1078986495318477000000000000000),
  ((-723450889997721100000, 459685166655003500000, 666410458367556400000000000000000), 17474040760548220000000000000000),
  ((-119501050305224300000, 115625438680114800000, -380999085805230300000000000000000), 11299828739051440000000000000000),
  ((127319386408849200000, 57656541314033600000, -225394550268228300000000000000000), 28900930282984770000000000000000),
  ((-139831304526210400000, -122619858793023700000, 260494099975575500000000000000000), 26244314834860550000000000000000)]

/-- `rule12`, `:1971-2218`. -/
def arbq12 : List ((Int × Int × Int) × Nat) := [
  ((395854409891266600000000000000000, 333851555538772200000000000000000, -390557745165981100000000000000000), 2025764222341204000000000000000),
  ((-487051133135164800000000000000000, 175894197396554000000000000000000, -390557745165981000000000000000000), 2025764222341283000000000000000),
  ((91196723243895150000000000000000, -509745752935336500000000000000000, -390557745165988500000000000000000), 2025764222340314000000000000000),
  ((-592643180494659100000000000000000, -257532889411981400000000000000000, -4194761577597843000000000000000), 6116300216663094000000000000000),
  ((519351614788115000000000000000000, -384477604981992100000000000000000, -4194761577604291000000000000000), 6116300216663310000000000000000),
  ((73291565706539040000000000000000, 642010494393973300000000000000000, -4194761577584145000000000000000), 6116300216663541000000000000000),
  ((-45441418502451400000000000000000, 344585845204826400000000000000000, 187402702185600000000000000000000), 12758191592122410000000000000000),
  ((-275699386480693300000000000000000, -211646345409539700000000000000000, 187402702185614600000000000000000), 12758191592121960000000000000000),
  ((321140804983144000000000000000000, -132939499795295100000000000000000, 187402702185621400000000000000000), 12758191592121620000000000000000),
  ((-341386063086216100000000000000000, -408973262387964300000000000000000, -307110201339023200000000000000000), 8334684897884583000000000000000),
  ((524874266239694500000000000000000, -91162371936613330000000000000000, -307110201339027900000000000000000), 8334684897884422000000000000000),
  ((-183488203153488000000000000000000, 500135634324580700000000000000000, -307110201339028300000000000000000), 8334684897884272000000000000000),
  ((-131972243113920100000000000000000, -243782408641952200000000000000000, -27019615979118370000000000000000), 15076149541075000000000000000000),
  ((277107880436665900000000000000000, 7599889189904093000000000000000, -27019615979115120000000000000000), 15076149541073590000000000000000),
  ((-145135637322735400000000000000000, 236182519452052600000000000000000, -27019615979105490000000000000000), 15076149541072020000000000000000),
  ((291671915694102600000000000000000, 572563599327284200000000000000000, -365022387456384000000000000000000), 2734637742973762000000000000000),
  ((-641690580146739300000000000000000, -33686511102084240000000000000000, -365022387456384300000000000000000), 2734637742973644000000000000000),
  ((350018664452619600000000000000000, -538877088225203200000000000000000, -365022387456383000000000000000000), 2734637742974016000000000000000),
  ((-40704394855366450000000000000000, 579489770656000400000000000000000, -86123920006229940000000000000000), 11543037985412270000000000000000),
  ((-481500665193632800000000000000000, -324995925318420900000000000000000, -86123920006218800000000000000000), 11543037985412740000000000000000),
  ((522205060049004800000000000000000, -254493845337577600000000000000000, -86123920006217450000000000000000), 11543037985412550000000000000000),
  ((-98208565498192510000000000000000, 550459421679584400000000000000000, 107079122173014700000000000000000), 7163952410599667000000000000000),
  ((-427607560177906500000000000000000, -360280823430455900000000000000000, 107079122173020300000000000000000), 7163952410599083000000000000000),
  ((525816125676104700000000000000000, -190178598249124200000000000000000, 107079122173022500000000000000000), 7163952410598778000000000000000),
  ((218408903368161300000000000000000, 411598677519539100000000000000000, 32303748224911660000000000000000), 7580503447649259000000000000000),
  ((-465659362580079000000000000000000, -16651680030245890000000000000000, 32303748224906260000000000000000), 7580503447650207000000000000000),
  ((247250459211922500000000000000000, -394946997489293300000000000000000, 32303748224910620000000000000000), 7580503447650126000000000000000),
  ((-6606777491144762000000000000000, -143062077792865700000000000000000, 328982719937536500000000000000000), 18942491522407930000000000000000),
  ((127198782432376900000000000000000, 65809401751955960000000000000000, 328982719937526800000000000000000), 18942491522408050000000000000000),
  ((-120592004941237900000000000000000, 77252676040909960000000000000000, 328982719937539200000000000000000), 18942491522407270000000000000000),
  ((-186234667494277300000000000000000, 234269739501762700000000000000000, -200232446998791500000000000000000), 16417846975914190000000000000000),
  ((-109766211999345100000000000000000, -278418822866280200000000000000000, -200232446998803700000000000000000), 16417846975912360000000000000000),
  ((296000879493630600000000000000000, 44149083364506580000000000000000, -200232446998801000000000000000000), 16417846975913170000000000000000),
  ((-589040275422118500000000000000000, -401755436436729000000000000000000, -277182597081116300000000000000000), 8436640400263927000000000000000),
  ((642450551773759400000000000000000, -309246124149365000000000000000000, -277182597081117800000000000000000), 8436640400264633000000000000000),
  ((-53410276351656450000000000000000, 711001560586086000000000000000000, -277182597081117700000000000000000), 8436640400264418000000000000000),
  ((-11964002103078190000000000000000, 908525373598771100000000000000000, -379414595213076100000000000000000), 3036004079076158000000000000000),
  ((-780824052467749300000000000000000, -464623816551582500000000000000000, -379414595213077700000000000000000), 3036004079076059000000000000000),
  ((792788054570826400000000000000000, -443901557047194800000000000000000, -379414595213077700000000000000000), 3036004079076094000000000000000),
  ((62352394616862990000000000000000, 473029639538298800000000000000000, 288759219788336100000000000000000), 7492415688372185000000000000000),
  ((-440831881891602100000000000000000, -182516062044160200000000000000000, 288759219788326100000000000000000), 7492415688372261000000000000000),
  ((378479487274749600000000000000000, -290513577494148700000000000000000, 288759219788325900000000000000000), 7492415688372197000000000000000),
  ((223590386309356400000000000000000, -68574568480320770000000000000000, 730795305056315700000000000000000), 3062456464426824000000000000000),
  ((-52407874797152970000000000000000, 227922238826041200000000000000000, 730795305056319600000000000000000), 3062456464427586000000000000000),
  ((-171182511512207900000000000000000, -159347670345715200000000000000000, 730795305056313800000000000000000), 3062456464427105000000000000000),
  ((166647705033182300000000000000000, 219014023508551600000000000000000, 412491824632861000000000000000000), 8856133214568079000000000000000),
  ((-272995560660044700000000000000000, 34814134286834160000000000000000, 412491824632851700000000000000000), 8856133214567973000000000000000),
  ((106347855626873600000000000000000, -253828157795389800000000000000000, 412491824632852700000000000000000), 8856133214568157000000000000000),
  ((-74150491390375950000000000000000, -42516003323469740000000000000000, 983902012123621600000000000000000), 3071402699546415000000000000000),
  ((73895184640698870000000000000000, -42958207585432260000000000000000, 983902012123616600000000000000000), 3071402699546453000000000000000),
  ((255306749680119000000000000000, 85474210908892330000000000000000, 983902012123637800000000000000000), 3071402699546178000000000000000),
  ((195590871722803900000000000000000, -244732213104454300000000000000000, 68297514926076040000000000000000), 18238351351988040000000000000000),
  ((114148877811455100000000000000000, 291752770212531400000000000000000, 68297514926063950000000000000000), 18238351351987570000000000000000),
  ((-309739749534244500000000000000000, -47020557108057010000000000000000, 68297514926074470000000000000000), 18238351351987960000000000000000),
  ((-18026802585915410000000000000000, 260028370424514300000000000000000, 509026771210849800000000000000000), 11216588611632830000000000000000),
  ((-216177773199344800000000000000000, -145625854200664900000000000000000, 509026771210867100000000000000000), 11216588611632580000000000000000),
  ((234204575785254100000000000000000, -114402516223841000000000000000000, 509026771210866300000000000000000), 11216588611632930000000000000000),
  ((-153261381170292300000000000000000, 296445376975145700000000000000000, 385161785525852600000000000000000), 5177567930581361000000000000000),
  ((-180098536709771900000000000000000, -280950938000134400000000000000000, 385161785525856500000000000000000), 5177567930581481000000000000000),
  ((333359917880078200000000000000000, -15494438975006730000000000000000, 385161785525850700000000000000000), 5177567930580846000000000000000),
  ((5776336665233524000000000000000, 777575919372589000000000000000000, 23484207760721210000000000000000), 3242723020974106000000000000000),
  ((-676288667880321200000000000000000, -383785505393389700000000000000000, 23484207760712070000000000000000), 3242723020974469000000000000000),
  ((670512331215087700000000000000000, -393790413979200700000000000000000, 23484207760710970000000000000000), 3242723020974430000000000000000),
  ((-83045907909133370000000000000000, -362439189266012200000000000000000, 77472816624196760000000000000000), 11364229782085900000000000000000),
  ((355404499185969400000000000000000, 109299728703350300000000000000000, 77472816624203240000000000000000), 11364229782085480000000000000000),
  ((-272358591276836000000000000000000, 253139460562663400000000000000000, 77472816624195680000000000000000), 11364229782085550000000000000000),
  ((542384531596793300000000000000000, -21458278199970830000000000000000, -163033856608465600000000000000000), 8174247103577847000000000000000),
  ((-252608851755743800000000000000000, 480447922082539800000000000000000, -163033856608471800000000000000000), 8174247103578128000000000000000),
  ((-289775679841052800000000000000000, -458989643882559400000000000000000, -163033856608469500000000000000000), 8174247103578329000000000000000),
  ((557343196731010100000000000000000, 93421322880330960000000000000000, -358456239566711300000000000000000), 4083194002127334000000000000000),
  ((-359576837235012400000000000000000, 435962705555325400000000000000000, -358456239566710600000000000000000), 4083194002127503000000000000000),
  ((-197766359495992600000000000000000, -529384028435640500000000000000000, -358456239566708400000000000000000), 4083194002128160000000000000000),
  ((473136623876986300000000000000000, -250358512021128500000000000000000, 369862621961321100000000000000000), 3128101586450114000000000000000),
  ((-19751480474520810000000000000000, 534927591748828300000000000000000, 369862621961329700000000000000000), 3128101586450456000000000000000),
  ((-453385143402462200000000000000000, -284569079727707700000000000000000, 369862621961318800000000000000000), 3128101586450350000000000000000),
  ((315321932442742100000000000000000, -153252510670658800000000000000000, -366729822887569000000000000000000), 10816640905793960000000000000000),
  ((-24940398786836180000000000000000, 349703059201126700000000000000000, -366729822887571300000000000000000), 10816640905793640000000000000000),
  ((-290381533655895500000000000000000, -196450548530486100000000000000000, -366729822887572100000000000000000), 10816640905793390000000000000000),
  ((-18316537640089170000000000000000, 1086435405003431000000000000000000, -379008133716638400000000000000000), 491068013329868200000000000000),
  ((-931722391483764500000000000000000, -559080289407411800000000000000000, -379008133716640800000000000000000), 491068013329791700000000000000),
  ((950038929123857000000000000000000, -527355115596026900000000000000000, -379008133716641800000000000000000), 491068013329778000000000000000),
  ((-669997455371388300000000000000000, -227798897754622800000000000000000, -219722706081441900000000000000000), 8074513061447679000000000000000),
  ((532278360095291400000000000000000, -466335367945242200000000000000000, -219722706081443400000000000000000), 8074513061447566000000000000000),
  ((137719095276097000000000000000000, 694134265699857400000000000000000, -219722706081437000000000000000000), 8074513061448123000000000000000),
  ((278278328278096500000000000000000, 210817208106962100000000000000000, -365464586905286300000000000000000), 11127083299747810000000000000000),
  ((-321712221914591000000000000000000, 135587497558006100000000000000000, -365464586905286300000000000000000), 11127083299748030000000000000000),
  ((43433893636502900000000000000000, -346404705664988800000000000000000, -365464586905286700000000000000000), 11127083299748120000000000000000),
  ((97467708789154030000000000000000, 374855937111034800000000000000000, -201472632623355600000000000000000), 21315264876789640000000000000000),
  ((-373368618692161500000000000000000, -103018456695450200000000000000000, -201472632623353500000000000000000), 21315264876790030000000000000000),
  ((275900909903009500000000000000000, -271837480415593900000000000000000, -201472632623350300000000000000000), 21315264876789860000000000000000),
  ((10890814659312380000000000000000, 940032615892272900000000000000000, -246440528575148000000000000000000), 3571026646377801000000000000000),
  ((-819537533078309700000000000000000, -460584585783267700000000000000000, -246440528575155200000000000000000), 3571026646377656000000000000000),
  ((808646718418997400000000000000000, -479448030109010800000000000000000, -246440528575155900000000000000000), 3571026646377794000000000000000),
  ((-125193888603033500000000000000000, 32678242751005050000000000000000, 737539571985585200000000000000000), 7768447076866043000000000000000),
  ((34296755928107490000000000000000, -124760209304290700000000000000000, 737539571985583600000000000000000), 7768447076865915000000000000000),
  ((90897132674916910000000000000000, 92081966553284710000000000000000, 737539571985590200000000000000000), 7768447076866019000000000000000),
  ((486885272388681700000000000000000, -419470048425787900000000000000000, -368924026122376000000000000000000), 7618830679555172000000000000000),
  ((119829081869080200000000000000000, 631390038829988700000000000000000, -368924026122375100000000000000000), 7618830679555604000000000000000),
  ((-606714354257757800000000000000000, -211919990404208300000000000000000, -368924026122375000000000000000000), 7618830679555573000000000000000),
  ((338254046583527900000000000000000, 336279909351889100000000000000000, -220250860026090200000000000000000), 11803992169089690000000000000000),
  ((-460353967572830000000000000000000, 124796642598277100000000000000000, -220250860026093500000000000000000), 11803992169089470000000000000000),
  ((122099920989300900000000000000000, -461076551950166600000000000000000, -220250860026090700000000000000000), 11803992169089330000000000000000),
  ((-94802107499138880000000000000000, 799664327081630500000000000000000, -159472036609177500000000000000000), 2753708273597594000000000000000),
  ((-645128568003311800000000000000000, -481933196967373700000000000000000, -159472036609172300000000000000000), 2753708273597404000000000000000),
  ((739930675502449800000000000000000, -317731130114253300000000000000000, -159472036609174000000000000000000), 2753708273597407000000000000000),
  ((114011306776159600000000000000000, 921756734003682400000000000000000, -375888607361786900000000000000000), 1252040626033346000000000000000),
  ((-855270401144652600000000000000000, -362141679015031100000000000000000, -375888607361789400000000000000000), 1252040626033167000000000000000),
  ((741259094368485000000000000000000, -559615054988663500000000000000000, -375888607361789200000000000000000), 1252040626033129000000000000000),
  ((-165842180155680300000000000000000, 816962945157694300000000000000000, -354270062100271400000000000000000), 2035505637330654000000000000000),
  ((-624589574379273300000000000000000, -552105013612661700000000000000000, -354270062100270000000000000000000), 2035505637330660000000000000000),
  ((790431754534957500000000000000000, -264857931545034600000000000000000, -354270062100270200000000000000000), 2035505637330673000000000000000),
  ((255741305649357400000000000000000, -185422039944995600000000000000000, 689558909191225300000000000000000), 2152733016776995000000000000000),
  ((32709544189227310000000000000000, 314189487461838900000000000000000, 689558909191236600000000000000000), 2152733016776493000000000000000),
  ((-288450849838587200000000000000000, -128767447516842200000000000000000, 689558909191227800000000000000000), 2152733016776350000000000000000),
  ((-161315756957164000000000000000000, 622400231722007500000000000000000, -407391669247035400000000000000000), 2538969965943544000000000000000),
  ((-458356533514002700000000000000000, -450903659416628600000000000000000, -407391669247037000000000000000000), 2538969965943405000000000000000),
  ((619672290471167000000000000000000, -171496572305383700000000000000000, -407391669247040000000000000000000), 2538969965943241000000000000000),
  ((2156998987651826000, -1747363709921250000, 648211705357550700000000000000000), 10783728739582450000000000000000),
  ((2157685773910294000, -7841339838758449000, 1198603539538932000000000000000000), 194390849303760300000000000000),
  ((9329761593328095000, -10387424132163240000, -404150914547156700000000000000000), 4799528389705479000000000000000),
  ((-1937826095544789000, -6434088705165255000, -271058498607271900000000000000000), 24776735444857540000000000000000),
  ((5112100598082816000, 8511611593137641000, 8757555073873696000000000000000), 28648837773021900000000000000000)]

/-- `rule13`, `:2267-2562`. -/
def arbq13 : List ((Int × Int × Int) × Nat) := [
  ((-47773850174666110000000000000000, 901553008435599400000000000000000, -232771532399634100000000000000000), 2068909148962774000000000000000),
  ((-756880883076012800000000000000000, -492149872105709100000000000000000, -232771532399607800000000000000000), 2068909148960302000000000000000),
  ((804654733250739600000000000000000, -409403136329799800000000000000000, -232771532399543100000000000000000), 2068909148962221000000000000000),
  ((30059079449679900000000000000000, 383606470976430700000000000000000, 349676269655078600000000000000000), 6862179883351744000000000000000),
  ((-347242488646652400000000000000000, -165771309070485100000000000000000, 349676269654909900000000000000000), 6862179883357749000000000000000),
  ((317183409197187600000000000000000, -217835161906150800000000000000000, 349676269654956100000000000000000), 6862179883341077000000000000000),
  ((-35298244131108640000000000000000, 506449235044571500000000000000000, 271798856540911000000000000000000), 4745055930506758000000000000000),
  ((-420948781210288300000000000000000, -283793793648819100000000000000000, 271798856540994200000000000000000), 4745055930499521000000000000000),
  ((456247025341450000000000000000000, -222655441395830100000000000000000, 271798856540755500000000000000000), 4745055930498638000000000000000),
  ((-715353708088887800000000000000000, -278605040267896100000000000000000, -387412868821164700000000000000000), 2639271833496386000000000000000),
  ((598955896538827900000000000000000, -480211963762481600000000000000000, -387412868821213100000000000000000), 2639271833492975000000000000000),
  ((116397811550130100000000000000000, 758817004030299400000000000000000, -387412868821202800000000000000000), 2639271833493415000000000000000),
  ((3710519456025519000000000000000, -539347646199226400000000000000000, -378314593714866900000000000000000), 2420284628312029000000000000000),
  ((465233503351928700000000000000000, 272887227209696400000000000000000, -378314593714866400000000000000000), 2420284628310808000000000000000),
  ((-468944022807852700000000000000000, 266460418989514100000000000000000, -378314593714883700000000000000000), 2420284628311964000000000000000),
  ((-35991605753536180000000000000000, -203223368274529700000000000000000, -390805436342884400000000000000000), 5428029730193044000000000000000),
  ((193992402445281700000000000000000, 70442039231512970000000000000000, -390805436342851700000000000000000), 5428029730198515000000000000000),
  ((-158000796691467800000000000000000, 132781329042865200000000000000000, -390805436342852100000000000000000), 5428029730197811000000000000000),
  ((-21615373598486470000000000000000, -323838377680154000000000000000000, 221462113265869800000000000000000), 7363269664287002000000000000000),
  ((291259948590594000000000000000000, 143199726191489800000000000000000, 221462113265888600000000000000000), 7363269664287796000000000000000),
  ((-269644574992100000000000000000000, 180638651488654100000000000000000, 221462113265882500000000000000000), 7363269664288242000000000000000),
  ((-491357307496588400000000000000000, 19387232028967740000000000000000, -53321560267480390000000000000000), 4622589345403796000000000000000),
  ((228888818302316400000000000000000, -435221526641670200000000000000000, -53321560267448410000000000000000), 4622589345400746000000000000000),
  ((262468489194418200000000000000000, 415834294612734400000000000000000, -53321560267452600000000000000000), 4622589345402929000000000000000),
  ((-142628109882219200000000000000000, 442438151760314600000000000000000, -136612672009748400000000000000000), 11130141795128930000000000000000),
  ((-311848624086725900000000000000000, -344738642331983900000000000000000, -136612672009748100000000000000000), 11130141795125150000000000000000),
  ((454476733969026000000000000000000, -97699509428471480000000000000000, -136612672009781400000000000000000), 11130141795132680000000000000000),
  ((761875476381041900000000000000000, -275635240194294000000000000000000, -340571881592318700000000000000000), 3019898782414975000000000000000),
  ((-142230618004071600000000000000000, 797621137163423800000000000000000, -340571881592330700000000000000000), 3019898782415646000000000000000),
  ((-619644858376870300000000000000000, -521985896969213000000000000000000, -340571881592377400000000000000000), 3019898782415196000000000000000),
  ((57768978800278030000000000000000, -167839657889955800000000000000000, 248215855875381200000000000000000), 14979185931867460000000000000000),
  ((116468918095071900000000000000000, 133949232136840800000000000000000, 248215855875382100000000000000000), 14979185931863170000000000000000),
  ((-174237896895505700000000000000000, 33890425753162260000000000000000, 248215855875340100000000000000000), 14979185931866220000000000000000),
  ((-141471914229626200000000000000000, 454574639911820700000000000000000, 149307855052119800000000000000000), 6570279132551560000000000000000),
  ((-322937228965002400000000000000000, -349805591600753100000000000000000, 149307855052160700000000000000000), 6570279132554112000000000000000),
  ((464409143194571000000000000000000, -104769048311046700000000000000000, 149307855052182400000000000000000), 6570279132553927000000000000000),
  ((-139825817032613700000000000000000, 669493017476507400000000000000000, -124686100142566700000000000000000), 4504033084972921000000000000000),
  ((-509885052274530400000000000000000, -455839218393425900000000000000000, -124686100142531100000000000000000), 4504033084968776000000000000000),
  ((649710869307182500000000000000000, -213653799083051700000000000000000, -124686100142450900000000000000000), 4504033084972839000000000000000),
  ((361031892137155300000000000000000, -330220034803623100000000000000000, -88040906716661690000000000000000), 12394294159954450000000000000000),
  ((105462992909918800000000000000000, 477772807568842900000000000000000, -88040906716611840000000000000000), 12394294159961960000000000000000),
  ((-466494885047039100000000000000000, -147552772765384600000000000000000, -88040906716464600000000000000000), 12394294159956790000000000000000),
  ((24590134652124760000000000000000, 814663848466295900000000000000000, -290390441652983500000000000000000), 5367281142254301000000000000000),
  ((-717814655642788700000000000000000, -386036242942057600000000000000000, -290390441652948200000000000000000), 5367281142251953000000000000000),
  ((693224520990722500000000000000000, -428627605524494500000000000000000, -290390441653070300000000000000000), 5367281142250357000000000000000),
  ((-10655951411757320000000000000000, 1070453773333782000000000000000000, -358871681151518700000000000000000), 631616990442085500000000000000),
  ((-921712185578030800000000000000000, -544455211290932000000000000000000, -358871681151507300000000000000000), 631616990443175900000000000000),
  ((932368136989749200000000000000000, -525998562042731200000000000000000, -358871681151507900000000000000000), 631616990444082000000000000000),
  ((-411528552887236000000000000000000, -70538813129974730000000000000000, 174864964482490700000000000000000), 8876101030265546000000000000000),
  ((266852680566910600000000000000000, -321124774617903700000000000000000, 174864964482525900000000000000000), 8876101030282007000000000000000),
  ((144675872320202100000000000000000, 391663587747994000000000000000000, 174864964482476200000000000000000), 8876101030274161000000000000000),
  ((1571190412397715000000000000000, 79023754036479200000000000000000, 1005626022480115000000000000000000), 2162421606464688000000000000000),
  ((-69222173704230060000000000000000, -38151186206932580000000000000000, 1005626022480066000000000000000000), 2162421606465037000000000000000),
  ((67650983291716840000000000000000, -40872567829511310000000000000000, 1005626022480308000000000000000000), 2162421606462924000000000000000),
  ((-299118986162932700000000000000000, 316528443913752600000000000000000, -60853638452778590000000000000000), 8054280667477870000000000000000),
  ((-124562180368100900000000000000000, -417308862728220400000000000000000, -60853638452754590000000000000000), 8054280667477506000000000000000),
  ((423681166531102500000000000000000, 100780418814493700000000000000000, -60853638452753430000000000000000), 8054280667478849000000000000000),
  ((387169643039314800000000000000000, -396828227141253600000000000000000, -290741621266202400000000000000000), 9049885628396499000000000000000),
  ((150078504123429400000000000000000, 533712860016693300000000000000000, -290741621266214700000000000000000), 9049885628398672000000000000000),
  ((-537248147162582200000000000000000, -136884632875611200000000000000000, -290741621266105900000000000000000), 9049885628405025000000000000000),
  ((-80648863003425360000000000000000, 605968663231696200000000000000000, -292867504968553500000000000000000), 9196546074381425000000000000000),
  ((-484459824754277400000000000000000, -372828295763187700000000000000000, -292867504968491200000000000000000), 9196546074380063000000000000000),
  ((565108687757773700000000000000000, -233140367468673000000000000000000, -292867504968616500000000000000000), 9196546074381355000000000000000),
  ((670560385399325500000000000000000, -85344903389882920000000000000000, -398619038406075200000000000000000), 1389679560298547000000000000000),
  ((-261369338280503100000000000000000, 623394780222222200000000000000000, -398619038406084100000000000000000), 1389679560298251000000000000000),
  ((-409191047118684000000000000000000, -538049876832367200000000000000000, -398619038406107400000000000000000), 1389679560296835000000000000000),
  ((-299491486116021400000000000000000, 481774501202084100000000000000000, -276300502881569200000000000000000), 5469361348986402000000000000000),
  ((-267483213878585000000000000000000, -500254485794689600000000000000000, -276300502881583400000000000000000), 5469361348984248000000000000000),
  ((566974699994645900000000000000000, 18479984592498840000000000000000, -276300502881531000000000000000000), 5469361348984599000000000000000),
  ((45101479734288940000000000000000, -276848279538878800000000000000000, -31711323736179580000000000000000), 17254505088394090000000000000000),
  ((217206903207560600000000000000000, 177483166967531700000000000000000, -31711323736136900000000000000000), 17254505088392780000000000000000),
  ((-262308382941845700000000000000000, 99365112571272590000000000000000, -31711323736187230000000000000000), 17254505088391480000000000000000),
  ((-249578549272404900000000000000000, 384862064401038200000000000000000, -367007292465087200000000000000000), 6733913747887457000000000000000),
  ((-208511050088074400000000000000000, -408572396110128500000000000000000, -367007292465082100000000000000000), 6733913747885728000000000000000),
  ((458089599360515600000000000000000, 23710331709064870000000000000000, -367007292465064200000000000000000), 6733913747886398000000000000000),
  ((270750482848970300000000000000000, 400432634198049700000000000000000, -391896680938776900000000000000000), 4022564578398640000000000000000),
  ((-482160075144300900000000000000000, 34260479134920750000000000000000, -391896680938754000000000000000000), 4022564578402713000000000000000),
  ((211409592295447700000000000000000, -434693113333112400000000000000000, -391896680938768600000000000000000), 4022564578399363000000000000000),
  ((-45542803845146800000000000000000, 949665213040168400000000000000000, -394511292898214400000000000000000), 1301944787144861000000000000000),
  ((-799662797660556400000000000000000, -514273831609543500000000000000000, -394511292898228300000000000000000), 1301944787144253000000000000000),
  ((845205601505644400000000000000000, -435391381430545000000000000000000, -394511292898270900000000000000000), 1301944787143136000000000000000),
  ((20296744301340950000000000000000, 911716011790728700000000000000000, -168981382745051400000000000000000), 2027792916616635000000000000000),
  ((-799717599398493000000000000000000, -438280509716333400000000000000000, -168981382745086900000000000000000), 2027792916617886000000000000000),
  ((779420855097188500000000000000000, -473435502074434100000000000000000, -168981382745058500000000000000000), 2027792916616735000000000000000),
  ((144175623644653700000000000000000, 715286661071671600000000000000000, -198845636085638800000000000000000), 4379548102164245000000000000000),
  ((-691544231298561400000000000000000, -232783577853109900000000000000000, -198845636085653700000000000000000), 4379548102164029000000000000000),
  ((547368607654000300000000000000000, -482503083218601000000000000000000, -198845636085661000000000000000000), 4379548102160293000000000000000),
  ((35281705187532220000000000000000, 362038483159059200000000000000000, -358178896668777100000000000000000), 9788773323829804000000000000000),
  ((-331175376157013400000000000000000, -150464388598383900000000000000000, -358178896668761300000000000000000), 9788773323830982000000000000000),
  ((295893670969645400000000000000000, -211574094560774300000000000000000, -358178896668727800000000000000000), 9788773323832441000000000000000),
  ((-7827835701762442000000000000000, -314187622250228300000000000000000, -265257062498190600000000000000000), 14914984126169130000000000000000),
  ((276008380274197600000000000000000, 150314706550667700000000000000000, -265257062498141500000000000000000), 14914984126171510000000000000000),
  ((-268180544572430800000000000000000, 163872915699447800000000000000000, -265257062498143200000000000000000), 14914984126171370000000000000000),
  ((68066556069660930000000000000000, 650432218392058400000000000000000, 91276556511979620000000000000000), 3816494659634458000000000000000),
  ((-597324102602245400000000000000000, -266268742491590700000000000000000, 91276556511924650000000000000000), 3816494659634902000000000000000),
  ((529257546532530800000000000000000, -384163475900498500000000000000000, 91276556512000270000000000000000), 3816494659631925000000000000000),
  ((-96850676652319290000000000000000, -204999708658188000000000000000000, 471202702836114900000000000000000), 10537532564195630000000000000000),
  ((225960293792512200000000000000000, 18624707974466760000000000000000, 471202702836176800000000000000000), 10537532564198000000000000000000),
  ((-129109617140209900000000000000000, 186375000683748800000000000000000, 471202702836124800000000000000000), 10537532564196850000000000000000),
  ((-10017080305039530000000000000000, 655925920233165400000000000000000, -47891014348014530000000000000000), 9378412737876001000000000000000),
  ((-563039969770092200000000000000000, -336638006132562200000000000000000, -47891014348022120000000000000000), 9378412737873921000000000000000),
  ((573057050075142000000000000000000, -319287914100736900000000000000000, -47891014348086560000000000000000), 9378412737876034000000000000000),
  ((34659202738344220000000000000000, 185240882398686900000000000000000, 556207159853703500000000000000000), 10349439264483870000000000000000),
  ((-177752911345816700000000000000000, -62604691153018800000000000000000, 556207159853646700000000000000000), 10349439264490780000000000000000),
  ((143093708607631100000000000000000, -122636191245805700000000000000000, 556207159853335100000000000000000), 10349439264497340000000000000000),
  ((72852637345593040000000000000000, 969327921121760200000000000000000, -366690241113186400000000000000000), 1253515438165336000000000000000),
  ((-875888922961817500000000000000000, -421571725886871600000000000000000, -366690241113208500000000000000000), 1253515438163976000000000000000),
  ((803036285616261400000000000000000, -547756195234915700000000000000000, -366690241113219000000000000000000), 1253515438162651000000000000000),
  ((134338966391802700000000000000000, -475379303136391900000000000000000, -250008196830233500000000000000000), 7631115735488028000000000000000),
  ((344521069753589000000000000000000, 354030609181593200000000000000000, -250008196830255800000000000000000), 7631115735488942000000000000000),
  ((-478860036145387400000000000000000, 121348693954735700000000000000000, -250008196830276200000000000000000), 7631115735487678000000000000000),
  ((-13483213132174230000000000000000, -125546521197851000000000000000000, 795391078104131300000000000000000), 4662247664665583000000000000000),
  ((115468083280196500000000000000000, 51096455501809680000000000000000, 795391078104171900000000000000000), 4662247664663175000000000000000),
  ((-101984870147967700000000000000000, 74450065696018350000000000000000, 795391078104140600000000000000000), 4662247664669866000000000000000),
  ((-51768489903017370000000000000000, 304239398243766800000000000000000, 124629565419233700000000000000000), 19245087453583270000000000000000),
  ((-237594802759713100000000000000000, -196952526493477600000000000000000, 124629565419238000000000000000000), 19245087453577230000000000000000),
  ((289363292662701000000000000000000, -107286871750369900000000000000000, 124629565419294900000000000000000), 19245087453585180000000000000000),
  ((17292074728573600000000000000000, 496851984411353200000000000000000, 443078043912413800000000000000000), 2150599791391388000000000000000),
  ((-438932477785244500000000000000000, -233450616206588200000000000000000, 443078043912445200000000000000000), 2150599791389261000000000000000),
  ((421640403056608500000000000000000, -263401368204719300000000000000000, 443078043912564100000000000000000), 2150599791389503000000000000000),
  ((-3914791775164566000000000000000, 268959581722058000000000000000000, -178919068738941200000000000000000), 18157941810070450000000000000000),
  ((-230968434474978600000000000000000, -137870099988915900000000000000000, -178919068738865900000000000000000), 18157941810073550000000000000000),
  ((234883226250136600000000000000000, -131089481733251700000000000000000, -178919068738862200000000000000000), 18157941810070600000000000000000),
  ((-688114413871859300000000000000000, -95411538488285720000000000000000, -362175327735890000000000000000000), 2074509937828351000000000000000),
  ((426686023080968700000000000000000, -548218793879156500000000000000000, -362175327735868900000000000000000), 2074509937826631000000000000000),
  ((261428390790935700000000000000000, 643630332367427300000000000000000, -362175327735871200000000000000000), 2074509937827053000000000000000),
  ((4960973006288234000000000000000, 243946308989102700000000000000000, 759020162517205900000000000000000), 3856301126724407000000000000000),
  ((-213744187247166500000000000000000, -117676825843630100000000000000000, 759020162517164100000000000000000), 3856301126725213000000000000000),
  ((208783214240775600000000000000000, -126269483145421000000000000000000, 759020162517326800000000000000000), 3856301126727490000000000000000),
  ((-73250060652492690000000000000000, 349382220565784700000000000000000, 538509761972580200000000000000000), 2342776832115179000000000000000),
  ((-265948848314349100000000000000000, -238127523636683400000000000000000, 538509761972521400000000000000000), 2342776832117610000000000000000),
  ((339198908966866600000000000000000, -111254696929119200000000000000000, 538509761972401400000000000000000), 2342776832119853000000000000000),
  ((-46785014896826620000000000000000, 651738267999512400000000000000000, -403488986368024500000000000000000), 2485903899501151000000000000000),
  ((-541029389257572200000000000000000, -366386145416826900000000000000000, -403488986367983900000000000000000), 2485903899504086000000000000000),
  ((587814404154348800000000000000000, -285352122582576300000000000000000, -403488986368072200000000000000000), 2485903899497665000000000000000),
  ((-25004057217237050000000000000000, 743479306138410000000000000000000, 91294800508415320000000000000000), 1958269886432824000000000000000),
  ((-631369937695251300000000000000000, -393393801816989700000000000000000, 91294800508443160000000000000000), 1958269886433108000000000000000),
  ((656373994912421200000000000000000, -350085504321367100000000000000000, 91294800508504510000000000000000), 1958269886434393000000000000000),
  ((136419956819383900000000000000000, 267208504565108100000000000000000, 507647600801932800000000000000000), 3112037442333638000000000000000),
  ((-299619331470268900000000000000000, -15461104093797580000000000000000, 507647600802003600000000000000000), 3112037442336383000000000000000),
  ((163199374650976300000000000000000, -251747400471350900000000000000000, 507647600801948400000000000000000), 3112037442329971000000000000000),
  ((119874370298418100000, -61959676425460560000, 758768636091968400000000000000000), 8380938111968996000000000000000),
  ((-76629798630465580000, 30023703881936850000, 1174064403165666000000000000000000), 240861660747090900000000000000),
  ((-4829662024390088000, -54577949791323880000, -291758813125290800000000000000000), 16512237971923080000000000000000),
  ((-21110508299944010000, 116449404211564900000, 407285051280602200000000000000000), 13632741667170420000000000000000),
  ((-12706710252975580000, 31232833552859550000, -2737975651676979000000000000000), 25074333956409730000000000000000)]

/-- `rule14`, `:2611-2970`. -/
def arbq14 : List ((Int × Int × Int) × Nat) := [
  ((-575242283584180200000000000000000, -166133260583219400000000000000000, -300240841982295300000000000000000), 4194830168311239000000000000000),
  ((431496765869180200000000000000000, -415107800624731200000000000000000, -300240841983308600000000000000000), 4194830168326290000000000000000),
  ((143745517713982000000000000000000, 581241061205346200000000000000000, -300240841983382100000000000000000), 4194830168354955000000000000000),
  ((-330307698415517200000000000000000, -371209730161657200000000000000000, -236724353750048500000000000000000), 6505251369757091000000000000000),
  ((486630905659551900000000000000000, -100449992815378300000000000000000, -236724353745666900000000000000000), 6505251369749837000000000000000),
  ((-156323207242951000000000000000000, 471659722975368500000000000000000, -236724353747097600000000000000000), 6505251369724089000000000000000),
  ((-5770168798465761000000000000000, 813563937154317700000000000000000, -11248741393197640000000000000000), 1511857423469778000000000000000),
  ((-701681952778110500000000000000000, -411779081339492300000000000000000, -11248741391411200000000000000000), 1511857423531536000000000000000),
  ((707452121577043400000000000000000, -401784855813231800000000000000000, -11248741391833860000000000000000), 1511857423435278000000000000000),
  ((-303241671041221600000000000000000, 445263691118857400000000000000000, -209120049193933500000000000000000), 3576693638591392000000000000000),
  ((-233988832370199900000000000000000, -485246836167482200000000000000000, -209120049195121200000000000000000), 3576693638610991000000000000000),
  ((537230503410456900000000000000000, 39983145051685960000000000000000, -209120049194356800000000000000000), 3576693638618915000000000000000),
  ((299584052599151400000000000000000, 326484019886960400000000000000000, -387107016955792200000000000000000), 3373656058688358000000000000000),
  ((-432535481452004300000000000000000, 96205390175646650000000000000000, -387107016955722000000000000000000), 3373656058691433000000000000000),
  ((132951428853400400000000000000000, -422689410063098500000000000000000, -387107016956188500000000000000000), 3373656058671795000000000000000),
  ((231397850894254900000000000000000, -86710079296179150000000000000000, 157675820557768400000000000000000), 10767841547601140000000000000000),
  ((-40605794011916590000000000000000, 243751456904554700000000000000000, 157675820555718400000000000000000), 10767841547619190000000000000000),
  ((-190792056880618200000000000000000, -157041377608727300000000000000000, 157675820555329600000000000000000), 10767841547519740000000000000000),
  ((119845996969303600000000000000000, 564161674354200700000000000000000, -380499446663667100000000000000000), 3758938857122322000000000000000),
  ((-548501340317716800000000000000000, -178291159259750200000000000000000, -380499446663127900000000000000000), 3758938857165091000000000000000),
  ((428655343349320500000000000000000, -385870515093982500000000000000000, -380499446663404700000000000000000), 3758938857143189000000000000000),
  ((-422306701845328600000000000000000, 6946377256844247000000000000000, -256678512678140100000000000000000), 8302444588410703000000000000000),
  ((205137611754242500000000000000000, -369201520613540200000000000000000, -256678512679293400000000000000000), 8302444588357655000000000000000),
  ((217169090090456700000000000000000, 362255143357406700000000000000000, -256678512678298200000000000000000), 8302444588429193000000000000000),
  ((-199555205948733000000000000000000, 500456231209974200000000000000000, -7550445623527601000000000000000), 2942777031213149000000000000000),
  ((-333630206736557900000000000000000, -423047993414314900000000000000000, -7550445625559176000000000000000), 2942777031243674000000000000000),
  ((533185412684041300000000000000000, -77408237794408520000000000000000, -7550445625114355000000000000000), 2942777031245480000000000000000),
  ((-3362367775957516000000000000000, 242407987544823800000000000000000, 396668527152103500000000000000000), 8843589566618218000000000000000),
  ((-208250291406448600000000000000000, -124115889683323300000000000000000, 396668527146944300000000000000000), 8843589566569863000000000000000),
  ((211612659183040600000000000000000, -118292097862162900000000000000000, 396668527153667500000000000000000), 8843589566624911000000000000000),
  ((390178919684306100000000000000000, -224793732281383400000000000000000, 543629536874658300000000000000000), 975902851928840600000000000000),
  ((-412377074887697500000000000000, 450301722606289100000000000000000, 543629536877204100000000000000000), 975902851939756500000000000000),
  ((-389766542603637100000000000000000, -225507990323972600000000000000000, 543629536882426900000000000000000), 975902851957542700000000000000),
  ((5440475521812093000000000000000, 651802390266920000000000000000000, 210853397269184800000000000000000), 2004802238525724000000000000000),
  ((-567197665975727200000000000000000, -321189605120732800000000000000000, 210853397275583400000000000000000), 2004802238518510000000000000000),
  ((561757190459365600000000000000000, -330612785144309400000000000000000, 210853397266453300000000000000000), 2004802238530063000000000000000),
  ((51099030096758200000000000000000, 988055775141073000000000000000000, -384622763256673600000000000000000), 969576525945737000000000000000),
  ((-881230916676707500000000000000000, -449774829398799600000000000000000, -384622763256371500000000000000000), 969576525957747500000000000000),
  ((830131886579851700000000000000000, -538280945742860300000000000000000, -384622763257076800000000000000000), 969576525939924800000000000000),
  ((-333403339645187700000000000000000, 248487410268569000000000000000000, 43201991569271470000000000000000), 1954897938090337000000000000000),
  ((-48494739991817290000000000000000, -412979466974262400000000000000000, 43201991568643590000000000000000), 1954897938078232000000000000000),
  ((381898079633772300000000000000000, 164492056708287100000000000000000, 43201991572221260000000000000000), 1954897938036924000000000000000),
  ((296720921714768700000000000000000, -178610160343121100000000000000000, -394255226103659600000000000000000), 3691846518220940000000000000000),
  ((6320475373066934000000000000000, 346272936211606000000000000000000, -394255226103611100000000000000000), 3691846518218663000000000000000),
  ((-303041397090647000000000000000000, -167662775869138600000000000000000, -394255226103512300000000000000000), 3691846518232707000000000000000),
  ((394708154053028500000000000000000, 115993706074012900000000000000000, -290082372165631000000000000000000), 7970801887754822000000000000000),
  ((-297807573165451900000000000000000, 283830435453546900000000000000000, -290082372165407400000000000000000), 7970801887704541000000000000000),
  ((-96900580883410830000000000000000, -399824141528047100000000000000000, -290082372165008500000000000000000), 7970801887626933000000000000000),
  ((460227742541092900000000000000000, 33204172944958000000000000000000, -400195470090810300000000000000000), 1979189926163023000000000000000),
  ((-258869528551987900000000000000000, 381966830094237200000000000000000, -400195470090222300000000000000000), 1979189926220139000000000000000),
  ((-201358213989841200000000000000000, -415171003039598000000000000000000, -400195470089364500000000000000000), 1979189926268928000000000000000),
  ((432020401344210700000000000000000, -498688417766835700000000000000000, -251459996699953800000000000000000), 3698742482337427000000000000000),
  ((215866637686716300000000000000000, 623484851400747900000000000000000, -251459996700175200000000000000000), 3698742482364018000000000000000),
  ((-647887039030432800000000000000000, -124796433632327800000000000000000, -251459996700565100000000000000000), 3698742482353030000000000000000),
  ((3243502588043465000000000000000, 939598309554684200000000000000000, -205299346524921800000000000000000), 1687317723859350000000000000000),
  ((-815337756722135300000000000000000, -466990199139286500000000000000000, -205299346526382600000000000000000), 1687317723863163000000000000000),
  ((812094254131555100000000000000000, -472608110414890700000000000000000, -205299346522324500000000000000000), 1687317723875827000000000000000),
  ((-292963974805897500000000000000000, 123680175760900700000000000000000, 294659474040600900000000000000000), 3835254087109209000000000000000),
  ((39371813248500530000000000000000, -315554332455396400000000000000000, 294659474041646700000000000000000), 3835254087144783000000000000000),
  ((253592161555488200000000000000000, 191874156694663800000000000000000, 294659474042561200000000000000000), 3835254087114301000000000000000),
  ((-291171236420790000000000000000000, -345588148418140100000000000000000, -57952268623573770000000000000000), 10162604511048310000000000000000),
  ((444873733985900500000000000000000, -79367613380791170000000000000000, -57952268621216530000000000000000), 10162604510980460000000000000000),
  ((-153702497567287400000000000000000, 424955761799257800000000000000000, -57952268621890890000000000000000), 10162604511022410000000000000000),
  ((377057762840245900000000000000000, 309639391945563800000000000000000, -221215714449002600000000000000000), 5267012161743862000000000000000),
  ((-456684460855543500000000000000000, 171721905344289000000000000000000, -221215714449280200000000000000000), 5267012161757533000000000000000),
  ((79626698016092780000000000000000, -481361297286374700000000000000000, -221215714448616200000000000000000), 5267012161774349000000000000000),
  ((-734356843870206700000000000000, 69846865128078670000000000000000, 1031915041617615000000000000000000), 1528430187195588000000000000000),
  ((-60121981152123430000000000000000, -35559404245506290000000000000000, 1031915041621368000000000000000000), 1528430187157122000000000000000),
  ((60856337998499590000000000000000, -34287460882261460000000000000000, 1031915041615854000000000000000000), 1528430187208298000000000000000),
  ((-786061244475153600000000000000000, -362810988466513600000000000000000, -284366470168081000000000000000000), 2982437800867588000000000000000),
  ((707234155023704600000000000000000, -499343512413032000000000000000000, -284366470169135500000000000000000), 2982437800865273000000000000000),
  ((78827089452887150000000000000000, 862154500880183700000000000000000, -284366470168453400000000000000000), 2982437800863566000000000000000),
  ((-179807943025798700000000000000000, 763907312527733500000000000000000, -391663270955190100000000000000000), 1466557323209961000000000000000),
  ((-571659167272306800000000000000000, -537671902726336000000000000000000, -391663270955074200000000000000000), 1466557323217223000000000000000),
  ((751467110298567900000000000000000, -226235409801304100000000000000000, -391663270955000500000000000000000), 1466557323219012000000000000000),
  ((23491217492842320000000000000000, 330303232304993100000000000000000, -58534045035653470000000000000000), 14610577956622500000000000000000),
  ((-297796598875666500000000000000000, -144807625037826200000000000000000, -58534045033367190000000000000000), 14610577956626840000000000000000),
  ((274305381381166900000000000000000, -185495607266993200000000000000000, -58534045034714100000000000000000), 14610577956670470000000000000000),
  ((-350818590031590100000000000000000, -208653955178106800000000000000000, 434903259331463100000000000000000), 5561076940885510000000000000000),
  ((356108920801635900000000000000000, -199490833498607100000000000000000, 434903259331847200000000000000000), 5561076940819906000000000000000),
  ((-5290330768361618000000000000000, 408144788676785800000000000000000, 434903259332148300000000000000000), 5561076940859880000000000000000),
  ((-479999707057394900000000000000000, -102130793619859700000000000000000, -71664693202044380000000000000000), 9751977499183117000000000000000),
  ((328447715310549400000000000000000, -364626543310713700000000000000000, -71664693203198020000000000000000), 9751977499261835000000000000000),
  ((151551991745060500000000000000000, 466757336930631100000000000000000, -71664693201666380000000000000000), 9751977499259098000000000000000),
  ((550374936239566300000000000000000, -174924988222623900000000000000000, -365102007850781300000000000000000), 5302530732607095000000000000000),
  ((-123697984561224600000000000000000, 564101170503260300000000000000000, -365102007850920400000000000000000), 5302530732562353000000000000000),
  ((-426676951679799000000000000000000, -389176182278204600000000000000000, -365102007851095600000000000000000), 5302530732501225000000000000000),
  ((-116091399601824400000000000000000, -73699827972333140000000000000000, 666674160835910000000000000000000), 7136244952723934000000000000000),
  ((121871623076646200000000000000000, -63688187228103670000000000000000, 666674160842751700000000000000000), 7136244952687442000000000000000),
  ((-5780223478460763000000000000000, 137388015200054800000000000000000, 666674160841551300000000000000000), 7136244952687213000000000000000),
  ((-179596619245613000000000000000000, 689296401321286300000000000000000, -285060798024655300000000000000000), 3962851386077182000000000000000),
  ((-507149884659416100000000000000000, -500183435361116500000000000000000, -285060798024676700000000000000000), 3962851386075291000000000000000),
  ((686746503903722700000000000000000, -189112965959864100000000000000000, -285060798023967800000000000000000), 3962851386117417000000000000000),
  ((-4731311596169461000000000000000, 798252844734475700000000000000000, -376713904904149900000000000000000), 3518864309482585000000000000000),
  ((-688941586384924500000000000000000, -403223858402991900000000000000000, -376713904904144600000000000000000), 3518864309488224000000000000000),
  ((693672897981391200000000000000000, -395028986330868000000000000000000, -376713904904146400000000000000000), 3518864309487660000000000000000),
  ((183801975582643700000000000000000, 750015934305411400000000000000000, -384732311329371000000000000000000), 1910503466789297000000000000000),
  ((-741433840143400500000000000000000, -215830787033147500000000000000000, -384732311329465900000000000000000), 1910503466785413000000000000000),
  ((557631864560501800000000000000000, -534185147273039500000000000000000, -384732311329473600000000000000000), 1910503466785542000000000000000),
  ((-315748277890409300000000000000000, 168599598023018200000000000000000, -14307117910148960000000000000000), 11143727027585990000000000000000),
  ((11862603988162000000000000000000, -357745828865577900000000000000000, -14307117909702690000000000000000), 11143727027636220000000000000000),
  ((303885673901510700000000000000000, 189146230843337900000000000000000, -14307117910419840000000000000000), 11143727027592300000000000000000),
  ((-376015684493239700000000000000000, -75412041561106400000000000000000, 222689343484613800000000000000000), 9339073844350225000000000000000),
  ((253316585990410100000000000000000, -287933114212501400000000000000000, 222689343484401100000000000000000), 9339073844312899000000000000000),
  ((122699098503781400000000000000000, 363345155772190600000000000000000, 222689343484859700000000000000000), 9339073844325385000000000000000),
  ((31328478874372430000000000000000, -199122996930348200000000000000000, 186136871843591000000000000000000), 14275191726290880000000000000000),
  ((156781334383014700000000000000000, 126692757030960500000000000000000, 186136871841625300000000000000000), 14275191726331350000000000000000),
  ((-188109813255554200000000000000000, 72430239899593840000000000000000, 186136871843112500000000000000000), 14275191726371840000000000000000),
  ((-594039828858581500000000000000000, -438423888774048300000000000000000, -107279562274995300000000000000000), 4705321020321325000000000000000),
  ((676706139733046600000000000000000, -295241638264148600000000000000000, -107279562274548900000000000000000), 4705321020382762000000000000000),
  ((-82666310875043430000000000000000, 733665527037704200000000000000000, -107279562274855400000000000000000), 4705321020369120000000000000000),
  ((579906374949189000000000000000000, -424363651310160000000000000000000, -64855169485479540000000000000000), 4787930353379107000000000000000),
  ((77556515002249050000000000000000, 714395478178690200000000000000000, -64855169485616290000000000000000), 4787930353341169000000000000000),
  ((-657462889952257000000000000000000, -290031826867550600000000000000000, -64855169485696790000000000000000), 4787930353337981000000000000000),
  ((195928853192363200000000000000000, -216361578531986100000000000000000, 572562269345944600000000000000000), 3363836009342347000000000000000),
  ((89410196815499530000000000000000, 277860153464154400000000000000000, 572562269347269900000000000000000), 3363836009325845000000000000000),
  ((-285339050008114800000000000000000, -61498574933560370000000000000000, 572562269346010800000000000000000), 3363836009335837000000000000000),
  ((293847693490530600000000000000000, -171985278472678700000000000000000, -279108711226420100000000000000000), 12845698874573500000000000000000),
  ((2019773488401272000000000000000, 340472206642557200000000000000000, -279108711226616000000000000000000), 12845698874569740000000000000000),
  ((-295867466979936600000000000000000, -168486928169785800000000000000000, -279108711225454200000000000000000), 12845698874637060000000000000000),
  ((365502052532130500000000000000000, 437394577048286400000000000000000, -371415437111150500000000000000000), 2752818417406538000000000000000),
  ((-561545841467733900000000000000000, 97836774103763790000000000000000, -371415437111249200000000000000000), 2752818417393949000000000000000),
  ((196043788935522800000000000000000, -535231351152352300000000000000000, -371415437111085500000000000000000), 2752818417406429000000000000000),
  ((-57065952457209430000000000000000, 923818279609940200000000000000000, -316173841712837100000000000000000), 2544892612698709000000000000000),
  ((-771517122393903200000000000000000, -511329704323858600000000000000000, -316173841712279100000000000000000), 2544892612676544000000000000000),
  ((828583074852205900000000000000000, -412488575286834500000000000000000, -316173841713479700000000000000000), 2544892612707782000000000000000),
  ((101152805721059600000000000000000, 63055106759130900000000000000000, 837327710042495500000000000000000), 3052619386398206000000000000000),
  ((-105183727153303800000000000000000, 56073346039288960000000000000000, 837327710042566300000000000000000), 3052619386307692000000000000000),
  ((4030921431232027000000000000000, -119128452798902200000000000000000, 837327710042031000000000000000000), 3052619386349196000000000000000),
  ((-212419725843973700000000000000000, -293637332571483400000000000000000, 249887391854507200000000000000000), 8865680919273325000000000000000),
  ((360507252427238000000000000000000, -37142212558531420000000000000000, 249887391855292900000000000000000), 8865680919243184000000000000000),
  ((-148087526584551200000000000000000, 330779545130526400000000000000000, 249887391855666000000000000000000), 8865680919267345000000000000000),
  ((-165178219962909900000000000000000, 86268709810501860000000000000000, 510890414043656300000000000000000), 9030103498125034000000000000000),
  ((7878215733569789000000000000000, -186182889544597700000000000000000, 510890414043511000000000000000000), 9030103498122236000000000000000),
  ((157300004228448100000000000000000, 99914179734228960000000000000000, 510890414043503700000000000000000), 9030103498131978000000000000000),
  ((-361792752561075800000000000000000, 440883726379541200000000000000000, -370614775674015900000000000000000), 2991177381103681000000000000000),
  ((-200920130878982600000000000000000, -533763577812893100000000000000000, -370614775674052400000000000000000), 2991177381087045000000000000000),
  ((562712883440468500000000000000000, 92879851433157330000000000000000, -370614775674047900000000000000000), 2991177381095963000000000000000),
  ((-501582060028133500000000000000000, -189017523532352500000000000000000, 243300456027558200000000000000000), 2211164766946887000000000000000),
  ((414485007154889900000000000000000, -339874044299363400000000000000000, 243300456030077200000000000000000), 2211164766969601000000000000000),
  ((87097052873956790000000000000000, 528891567831824100000000000000000, 243300456029155100000000000000000), 2211164766996503000000000000000),
  ((943406837211783400000000000000000, -549830207759999700000000000000000, -353870254501487300000000000000000), 297356206227932400000000000000),
  ((4463509082121593000000000000000, 1091929391010154000000000000000000, -353870254502128300000000000000000), 297356206220786100000000000000),
  ((-947870346296030700000000000000000, -542099183250676600000000000000000, -353870254502452200000000000000000), 297356206207566900000000000000),
  ((200575172082975000000000000000000, 108858729355023500000000000000000, -358265174400078400000000000000000), 9172628789611696000000000000000),
  ((-194562011087352300000000000000000, 119273829713900600000000000000000, -358265174399951500000000000000000), 9172628789611484000000000000000),
  ((-6013160997523850000000000000000, -228132559069673600000000000000000, -358265174400086500000000000000000), 9172628789627685000000000000000),
  ((-12556583384585690000000000000000, 546993463921740300000000000000000, 87550629714454790000000000000000), 9783236108387362000000000000000),
  ((-467431943769018800000000000000000, -284371052157281300000000000000000, 87550629714559860000000000000000), 9783236108363432000000000000000),
  ((479988527151917000000000000000000, -262622411764873500000000000000000, 87550629713791970000000000000000), 9783236108405431000000000000000),
  ((-17169087371689690000000000000000, -216015130934395800000000000000000, -139730799812636500000000000000000), 17381259819643040000000000000000),
  ((195659134676585600000000000000000, 93138699644084430000000000000000, -139730799812326000000000000000000), 17381259819651330000000000000000),
  ((-178490047305620400000000000000000, 122876431289901500000000000000000, -139730799812473700000000000000000), 17381259819652020000000000000000),
  ((-546275791578987300000000000000, 667828701294577800000000000000000, -218376112477417900000000000000000), 9766706161581359000000000000000),
  ((-578083482801783600000000000000000, -334387439360658000000000000000000, -218376112477212900000000000000000), 9766706161581049000000000000000),
  ((578629758593253300000000000000000, -333441261934690000000000000000000, -218376112477671000000000000000000), 9766706161590663000000000000000),
  ((-183387701321058900000000000000000, -219539988831698800000000000000000, 576350781636214800000000000000000), 3005216389199320000000000000000),
  ((281821058134979500000000000000000, -49048413669060350000000000000000, 576350781636874400000000000000000), 3005216389178637000000000000000),
  ((-98433356814372620000000000000000, 268588402501900400000000000000000, 576350781636510300000000000000000), 3005216389160241000000000000000),
  ((191661789507546400000000000000000, -109745450674065900000000000000000, 806220842543314900000000000000000), 2785222700150757000000000000000),
  ((-788546520336479200000000000000, 220856703983876700000000000000000, 806220842545405700000000000000000), 2785222700144989000000000000000),
  ((-190873242983517400000000000000000, -111111253309188800000000000000000, 806220842548502100000000000000000), 2785222700178524000000000000000),
  ((-48138912311749980000000000000000, 1023012688991847000000000000000000, -404965878434928300000000000000000), 375335957815589100000000000000),
  ((-861885520903911900000000000000000, -553195865468262300000000000000000, -404965878433794700000000000000000), 375335957829308100000000000000),
  ((910024433217973900000000000000000, -469816823523960100000000000000000, -404965878436117600000000000000000), 375335957795814300000000000000),
  ((-442446287170859900000000000000000, -348710568478134000000000000000000, 222570681379663200000000000000000), 2191182863239439000000000000000),
  ((523215354454082700000000000000000, -208814440260070500000000000000000, 222570681379047100000000000000000), 2191182863316704000000000000000),
  ((-80769067284058480000000000000000, 557525008738728800000000000000000, 222570681380126500000000000000000), 2191182863281961000000000000000),
  ((233016466910397200000000000000000, 458660430488393600000000000000000, -4096725239466332000000000000000), 2531026444894308000000000000000),
  ((-513719817967669900000000000000000, -27532035397486570000000000000000, -4096725240921904000000000000000), 2531026444936393000000000000000),
  ((280703351056489500000000000000000, -431128395087878400000000000000000, -4096725238250503000000000000000), 2531026444945725000000000000000),
  ((396708065400328600000, 142484953050341400000, -259244781008597400000000000000000), 14457489280296820000000000000000),
  ((1722425458471176000000, 416320752022617900000, 1191149121741652000000000000000000), 128782005235648700000000000000),
  ((350241037314070800000, 256440763467915300000, 412065312751145400000000000000000), 15748644630076650000000000000000),
  ((-2947942461866533000000, -948925382567767200000, 843526260134418800000000000000000), 4621613088145150000000000000000),
  ((-1032091026644403000000, 572570760190481200000, -400363967338669800000000000000000), 2792502892512972000000000000000),
  ((-435939356582034900000, -430785817780272100000, 33210025450608880000000000000000), 18515644708053420000000000000000)]

/-- `rule15`, `:3019-3450`. -/
def arbq15 : List ((Int × Int × Int) × Nat) := [
  ((258152119478842700000000000000000, 304175382366057300000000000000000, 114941536929827400000000000000000), 2565379947273549000000000000000),
  ((-392499668074282200000000000000000, 71478602326467020000000000000000, 114941536929798000000000000000000), 2565379947271849000000000000000),
  ((134347548595461700000000000000000, -375653984692530500000000000000000, 114941536929772100000000000000000), 2565379947272177000000000000000),
  ((174793662760004300000000000000000, 343502512582009900000000000000000, -142514196488796000000000000000000), 6723785911414816000000000000000),
  ((-384878733539857000000000000000000, -20375503920316930000000000000000, -142514196488753400000000000000000), 6723785911411640000000000000000),
  ((210085070779848300000000000000000, -323127008661697900000000000000000, -142514196488787500000000000000000), 6723785911413937000000000000000),
  ((-268615838548664000000000000000000, -209746805323262100000000000000000, -389739165020216000000000000000000), 3085562545744757000000000000000),
  ((315953981046930300000000000000000, -127754737380383300000000000000000, -389739165020212000000000000000000), 3085562545745181000000000000000),
  ((-47338142498237490000000000000000, 337501542703614300000000000000000, -389739165020217800000000000000000), 3085562545744572000000000000000),
  ((5356808415765576000000000000000, 96894753054310510000000000000000, 742528316718603000000000000000000), 4446982777989968000000000000000),
  ((-86591721846359080000000000000000, -43808244355893940000000000000000, 742528316718618900000000000000000), 4446982777989351000000000000000),
  ((81234913430540500000000000000000, -53086508698409350000000000000000, 742528316718613600000000000000000), 4446982777990241000000000000000),
  ((-814463113484511600000000000000000, -507805620316221700000000000000000, -285611224208266000000000000000000), 1185105459270273000000000000000),
  ((847004124120621900000000000000000, -451442936564845000000000000000000, -285611224208269800000000000000000), 1185105459270278000000000000000),
  ((-32541010636101440000000000000000, 959248556881067800000000000000000, -285611224208257200000000000000000), 1185105459270443000000000000000),
  ((224935844193547700000000000000000, 715768558382950400000000000000000, -389186754644429300000000000000000), 836416569430971500000000000000),
  ((-732341676886575400000000000000000, -163084123898152800000000000000000, -389186754644438900000000000000000), 836416569430684800000000000000),
  ((507405832693027500000000000000000, -552684434484795800000000000000000, -389186754644434300000000000000000), 836416569430636700000000000000),
  ((-547357038434129500000000000000000, -243235419738212100000000000000000, 184732558232410900000000000000000), 1867492375962935000000000000000),
  ((484326571810546200000000000000000, -352407390355057700000000000000000, 184732558232402700000000000000000), 1867492375963348000000000000000),
  ((63030466623589830000000000000000, 595642810093305900000000000000000, 184732558232408000000000000000000), 1867492375962387000000000000000),
  ((-23787914423112870000000000000000, 246550698911715100000000000000000, 580270468252207100000000000000000), 4264615556690722000000000000000),
  ((-201625211366816900000000000000000, -143876287649317100000000000000000, 580270468252226100000000000000000), 4264615556689985000000000000000),
  ((225413125789894900000000000000000, -102674411262402200000000000000000, 580270468252233800000000000000000), 4264615556689865000000000000000),
  ((-73918718192407580000000000000000, -547727077011689800000000000000000, -391441391104917900000000000000000), 1036750961119152000000000000000),
  ((511304922128929000000000000000000, 209848050736020800000000000000000, -391441391104914000000000000000000), 1036750961119384000000000000000),
  ((-437386203936510800000000000000000, 337879026275675400000000000000000, -391441391104920800000000000000000), 1036750961118855000000000000000),
  ((-296800453069907300000000000000000, 32172162644184760000000000000000, 406150067393071000000000000000000), 2897017453521770000000000000000),
  ((120538316390380300000000000000000, -273122813535341700000000000000000, 406150067393109700000000000000000), 2897017453522957000000000000000),
  ((176262136679499300000000000000000, 240950650891170200000000000000000, 406150067393084500000000000000000), 2897017453522235000000000000000),
  ((-4241098255347354000000000000000, 416431076208372200000000000000000, 580863239140085000000000000000000), 993177463674694200000000000000),
  ((-358519341794062200000000000000000, -211888436933256000000000000000000, 580863239140087200000000000000000), 993177463674967600000000000000),
  ((362760440049413000000000000000000, -204542639275101300000000000000000, 580863239140102600000000000000000), 993177463674535900000000000000),
  ((4202386364031931000000000000000, -20894190327778480000000000000000, 1122300778479799000000000000000000), 296826753132768500000000000000),
  ((15993706433327760000000000000000, 14086468511647020000000000000000, 1122300778479790000000000000000000), 296826753133185800000000000000),
  ((-20196092797387760000000000000000, 6807721816119913000000000000000, 1122300778479803000000000000000000), 296826753132561000000000000000),
  ((-53885512738678610000000000000000, 841520524077910100000000000000000, -170238260141001000000000000000000), 2082824878589059000000000000000),
  ((-701835395288124000000000000000000, -467426484966597900000000000000000, -170238260140992500000000000000000), 2082824878589280000000000000000),
  ((755720908026795500000000000000000, -374094039111303500000000000000000, -170238260140986800000000000000000), 2082824878589393000000000000000),
  ((36460278062982920000000000000000, 711452204819021000000000000000000, -29285172144607060000000000000000), 3532360099744144000000000000000),
  ((-634365821983224800000000000000000, -324150575377920000000000000000000, -29285172144607190000000000000000), 3532360099743258000000000000000),
  ((597905543920261400000000000000000, -387301629441102500000000000000000, -29285172144600350000000000000000), 3532360099742647000000000000000),
  ((12585034668228840000000000000000, -283649922521734100000000000000000, -23786392719136690000000000000000), 9852850436647919000000000000000),
  ((239355521351163400000000000000000, 152723920991028500000000000000000, -23786392719130520000000000000000), 9852850436649995000000000000000),
  ((-251940556019401500000000000000000, 130926001530680600000000000000000, -23786392719154410000000000000000), 9852850436648092000000000000000),
  ((3851625317792869000000000000000, -179377244818764900000000000000000, -387600248278066900000000000000000), 4465622015302662000000000000000),
  ((153419438215009300000000000000000, 93024227780436010000000000000000, -387600248278066400000000000000000), 4465622015302984000000000000000),
  ((-157271063532832800000000000000000, 86353017038310890000000000000000, -387600248278063400000000000000000), 4465622015303046000000000000000),
  ((-3485301409937485000000000000000, -185028244536387200000000000000000, -157327640046717900000000000000000), 10644471268368570000000000000000),
  ((161981810891139200000000000000000, 89495762707335840000000000000000, -157327640046749500000000000000000), 10644471268361890000000000000000),
  ((-158496509481226300000000000000000, 95532481829021670000000000000000, -157327640046750300000000000000000), 10644471268365310000000000000000),
  ((53046351146471270000000000000000, -440073176598083400000000000000000, -98466776594036620000000000000000), 4362160716691730000000000000000),
  ((354591374884809900000000000000000, 265976075969953700000000000000000, -98466776594014150000000000000000), 4362160716692162000000000000000),
  ((-407637726031304000000000000000000, 174097100628107000000000000000000, -98466776594029900000000000000000), 4362160716691511000000000000000),
  ((66539285464862680000000000000000, 239078964888139400000000000000000, 419574950888795300000000000000000), 7013986090707679000000000000000),
  ((-240318099836064600000000000000000, -61914770881834700000000000000000, 419574950888812000000000000000000), 7013986090706681000000000000000),
  ((173778814371207200000000000000000, -177164194006293200000000000000000, 419574950888815600000000000000000), 7013986090707788000000000000000),
  ((-166734893106253100000000000000000, 409621014869640100000000000000000, 169870647828065000000000000000000), 4089047890127443000000000000000),
  ((-271374758247967500000000000000000, -349207160562123700000000000000000, 169870647828041700000000000000000), 4089047890127423000000000000000),
  ((438109651354205500000000000000000, -60413854307527060000000000000000, 169870647828061900000000000000000), 4089047890126841000000000000000),
  ((94935328223196520000000000000000, -56968771193025650000000000000000, 1001045633396894000000000000000000), 833169692094651500000000000000),
  ((1868738963948708000000000000000, 110700791554415000000000000000000, 1001045633396896000000000000000000), 833169692094609600000000000000),
  ((-96804067187132800000000000000000, -53732020361381370000000000000000, 1001045633396904000000000000000000), 833169692094706300000000000000),
  ((-51059817224680060000000000000000, -345927815689831300000000000000000, 127825298661452500000000000000000), 5692536319085584000000000000000),
  ((325112184875413400000000000000000, 128744809015723000000000000000000, 127825298661431900000000000000000), 5692536319084854000000000000000),
  ((-274052367650715500000000000000000, 217183006674083600000000000000000, 127825298661415600000000000000000), 5692536319085869000000000000000),
  ((-20802452867734800000000000000000, 184883929787422300000000000000000, 66998512929442980000000000000000), 11939943267362480000000000000000),
  ((-149712953513426600000000000000000, -110457417538084500000000000000000, 66998512929520460000000000000000), 11939943267371740000000000000000),
  ((170515406381283700000000000000000, -74426512249308930000000000000000, 66998512929430530000000000000000), 11939943267362500000000000000000),
  ((292178123870943900000000000000000, -328160490412648100000000000000000, 188860305200578400000000000000000), 4894866890556946000000000000000),
  ((138106259280221500000000000000000, 417113922908688000000000000000000, 188860305200536400000000000000000), 4894866890557526000000000000000),
  ((-430284383151196800000000000000000, -88953432495983490000000000000000, 188860305200515200000000000000000), 4894866890558155000000000000000),
  ((-87809058280003380000000000000000, -257954966189383200000000000000000, 416231911745253800000000000000000), 4559845100025953000000000000000),
  ((267300082892351000000000000000000, 52932607941832840000000000000000, 416231911745270800000000000000000), 4559845100026132000000000000000),
  ((-179491024612371900000000000000000, 205022358247536100000000000000000, 416231911745261200000000000000000), 4559845100026570000000000000000),
  ((-19445874567997320000000000000000, 337200394761510900000000000000000, -142937741910734600000000000000000), 11125209262490360000000000000000),
  ((-282301170745611100000000000000000, -185440818755414000000000000000000, -142937741910703400000000000000000), 11125209262492220000000000000000),
  ((301747045313629300000000000000000, -151759576006076000000000000000000, -142937741910730200000000000000000), 11125209262488860000000000000000),
  ((-73134313204116090000000000000000, 646898497210061000000000000000000, 75267574766043470000000000000000), 2944181342559152000000000000000),
  ((-523663375651827400000000000000000, -386785421728115200000000000000000, 75267574766048690000000000000000), 2944181342559592000000000000000),
  ((596797688855938100000000000000000, -260113075481936100000000000000000, 75267574766047840000000000000000), 2944181342559789000000000000000),
  ((-376250705244883600000000000000000, -114322556557384600000000000000000, 55022597456375080000000000000000), 8953416346063897000000000000000),
  ((287131590826729800000000000000000, -268681390655231100000000000000000, 55022597456390240000000000000000), 8953416346061954000000000000000),
  ((89119114418160550000000000000000, 383003947212582000000000000000000, 55022597456376040000000000000000), 8953416346063781000000000000000),
  ((-37978962718386430000000000000000, 558964475667290500000000000000000, -378364573029073400000000000000000), 3952683058023190000000000000000),
  ((-465087954381758200000000000000000, -312372984357167900000000000000000, -378364573029073100000000000000000), 3952683058023330000000000000000),
  ((503066917100134600000000000000000, -246591491310174800000000000000000, -378364573029073300000000000000000), 3952683058022607000000000000000),
  ((2750555493489867000000000000000, 838751807936126600000000000000000, -35578581869893020000000000000000), 1439142717612964000000000000000),
  ((-727755650889547100000000000000000, -416993853036175500000000000000000, -35578581869878150000000000000000), 1439142717612978000000000000000),
  ((725005095396072900000000000000000, -421757954899948800000000000000000, -35578581869891570000000000000000), 1439142717612582000000000000000),
  ((612300613856560000000000000000000, -215796645511508400000000000000000, -118009477093553000000000000000000), 5039224704625283000000000000000),
  ((-119264929863828600000000000000000, 638166209108364200000000000000000, -118009477093543400000000000000000), 5039224704625251000000000000000),
  ((-493035683992721800000000000000000, -422369563596830900000000000000000, -118009477093542800000000000000000), 5039224704625310000000000000000),
  ((-264572722008942800000000000000000, 352599331047573700000000000000000, -163748002755720200000000000000000), 7617567889070472000000000000000),
  ((-173073617040117000000000000000000, -405426363931915400000000000000000, -163748002755722100000000000000000), 7617567889069997000000000000000),
  ((437646339049050500000000000000000, 52827032884369570000000000000000, -163748002755714400000000000000000), 7617567889070361000000000000000),
  ((-66309624511312860000000000000000, 241883469905417600000000000000000, 297745486047570400000000000000000), 10541108672913720000000000000000),
  ((-176322417437979000000000000000000, -178367554294906700000000000000000, 297745486047581600000000000000000), 10541108672913540000000000000000),
  ((242632041949263200000000000000000, -63515915610478690000000000000000, 297745486047567400000000000000000), 10541108672914080000000000000000),
  ((-4200384093190587000000000000000, 628132240414236100000000000000000, 259671260459845700000000000000000), 1741617181694419000000000000000),
  ((-541878285088163600000000000000000, -317703759537469800000000000000000, 259671260459853300000000000000000), 1741617181694472000000000000000),
  ((546078669181358700000000000000000, -310428480876761800000000000000000, 259671260459848200000000000000000), 1741617181694386000000000000000),
  ((53946632285226880000000000000000, -205235432096071300000000000000000, 227150892695585900000000000000000), 11006403734984940000000000000000),
  ((150765781809270700000000000000000, 149336870055697300000000000000000, 227150892695555400000000000000000), 11006403734982030000000000000000),
  ((-204712414094494800000000000000000, 55898562040409730000000000000000, 227150892695569700000000000000000), 11006403734984380000000000000000),
  ((101817142699943300000000000000000, 564065898953327700000000000000000, -277992617897412900000000000000000), 6926338144663090000000000000000),
  ((-539403969252065700000000000000000, -193856717357775900000000000000000, -277992617897384800000000000000000), 6926338144663959000000000000000),
  ((437586826552126700000000000000000, -370209181595563000000000000000000, -277992617897411700000000000000000), 6926338144663389000000000000000),
  ((124551330130347800000000000000000, 673513833840005300000000000000000, -382343277722446500000000000000000), 2939871895670393000000000000000),
  ((-645555754970877500000000000000000, -228892300951980400000000000000000, -382343277722440000000000000000000), 2939871895670890000000000000000),
  ((521004424840519700000000000000000, -444621532888042700000000000000000, -382343277722447300000000000000000), 2939871895670184000000000000000),
  ((-98559295557992120000000000000000, 919835388841061400000000000000000, -377538632244491000000000000000000), 1098371982889171000000000000000),
  ((-747321166257303300000000000000000, -545272548152854900000000000000000, -377538632244493200000000000000000), 1098371982888983000000000000000),
  ((845880461815294400000000000000000, -374562840688214100000000000000000, -377538632244494300000000000000000), 1098371982889088000000000000000),
  ((-175538802028308500000000000000000, 715516618290423700000000000000000, -282968862701147500000000000000000), 2867324218775673000000000000000),
  ((-531886167255289700000000000000000, -509779371051618600000000000000000, -282968862701149100000000000000000), 2867324218775326000000000000000),
  ((707424969283603300000000000000000, -205737247238819000000000000000000, -282968862701154400000000000000000), 2867324218775453000000000000000),
  ((-6267629157220122000000000000000, -72963660714093440000000000000000, 926665990273565400000000000000000), 2627584056743849000000000000000),
  ((66322198310126810000000000000000, 31053904285393750000000000000000, 926665990273560800000000000000000), 2627584056743863000000000000000),
  ((-60054569152898900000000000000000, 41909756428706790000000000000000, 926665990273563700000000000000000), 2627584056743943000000000000000),
  ((-202338110826755900000000000000000, -9565958696542072000000000000000, 704240870816491200000000000000000), 2450903116528004000000000000000),
  ((109453418656133600000000000000000, -170446964781440800000000000000000, 704240870816488300000000000000000), 2450903116528749000000000000000),
  ((92884692170617720000000000000000, 180012923477979800000000000000000, 704240870816478500000000000000000), 2450903116529087000000000000000),
  ((-64734997435792360000000000000000, 410863325711682400000000000000000, 411688404749234700000000000000000), 3781264707127557000000000000000),
  ((-323450578831779900000000000000000, -261493815149158400000000000000000, 411688404749230100000000000000000), 3781264707127677000000000000000),
  ((388185576267566500000000000000000, -149369510562524500000000000000000, 411688404749234500000000000000000), 3781264707128319000000000000000),
  ((-123302554542721200000000000000000, 401932094350525500000000000000000, 11909647878189360000000000000000), 9717660774153364000000000000000),
  ((-286432127032441500000000000000000, -307749191760741400000000000000000, 11909647878208300000000000000000), 9717660774155940000000000000000),
  ((409734681575187600000000000000000, -94182902589739670000000000000000, 11909647878197200000000000000000), 9717660774153394000000000000000),
  ((198964891452638900000000000000000, 504535085060001700000000000000000, -98248862962903530000000000000000), 5844696436169811000000000000000),
  ((-536422646488850200000000000000000, -79958892070828350000000000000000, -98248862962909380000000000000000), 5844696436168778000000000000000),
  ((337457755036190600000000000000000, -424576192989210700000000000000000, -98248862962923710000000000000000), 5844696436168716000000000000000),
  ((21789916301950390000000000000000, 613986541715490700000000000000000, -121007693279375200000000000000000), 7798609566561363000000000000000),
  ((-542622900858348600000000000000000, -288122649793941200000000000000000, -121007693279351900000000000000000), 7798609566560966000000000000000),
  ((520832984556399700000000000000000, -325863891921567400000000000000000, -121007693279350000000000000000000), 7798609566562299000000000000000),
  ((-201452305982940900000000000000000, 241132309402655600000000000000000, -297032331707505300000000000000000), 9537993724461966000000000000000),
  ((-108100552624427800000000000000000, -295028969333504500000000000000000, -297032331707505000000000000000000), 9537993724462559000000000000000),
  ((309552858607363300000000000000000, 53896659930880020000000000000000, -297032331707501100000000000000000), 9537993724462396000000000000000),
  ((-11695678356311980000000000000000, -138782984589614500000000000000000, 582806521460454400000000000000000), 6470868601806971000000000000000),
  ((126037429445771400000000000000000, 59262737723761900000000000000000, 582806521460435300000000000000000), 6470868601806687000000000000000),
  ((-114341751089492200000000000000000, 79520246865838030000000000000000, 582806521460468500000000000000000), 6470868601806209000000000000000),
  ((68296810109506000000000000000000, 295112105963141000000000000000000, -301787657090745700000000000000000), 9788338589999005000000000000000),
  ((-289722985783184400000000000000000, -88409280429316710000000000000000, -301787657090742900000000000000000), 9788338589999012000000000000000),
  ((221426175673652300000000000000000, -206702825533832800000000000000000, -301787657090740100000000000000000), 9788338589999477000000000000000),
  ((-429817500306838700000000000000000, 4452698313519278000000000000000, -386224427799052700000000000000000), 4149912310618085000000000000000),
  ((211052600298496100000000000000000, -374459223413598900000000000000000, -386224427799051100000000000000000), 4149912310618563000000000000000),
  ((218764900008327000000000000000000, 370006525100059700000000000000000, -386224427799052100000000000000000), 4149912310618460000000000000000),
  ((657830714907696600000000000000000, -170942391383752500000000000000000, -380434630448313800000000000000000), 2801823664802904000000000000000),
  ((-180874903931860700000000000000000, 655169306191617100000000000000000, -380434630448313400000000000000000), 2801823664802910000000000000000),
  ((-476955810975838800000000000000000, -484226914807891500000000000000000, -380434630448313200000000000000000), 2801823664803036000000000000000),
  ((-370463073663661200000000000000000, -156950196432308000000000000000000, 461451866783806100000000000000000), 3473047605746596000000000000000),
  ((321154394071180500000000000000000, -242355334740639100000000000000000, 461451866783823400000000000000000), 3473047605746489000000000000000),
  ((49308679592488190000000000000000, 399305531172946900000000000000000, 461451866783816300000000000000000), 3473047605747130000000000000000),
  ((-119300551780856000000000000000000, 530641871747839700000000000000000, -266456779653052900000000000000000), 8146696772355114000000000000000),
  ((-399899065354920100000000000000000, -368638244401637800000000000000000, -266456779653046100000000000000000), 8146696772356077000000000000000),
  ((519199617135776800000000000000000, -162003627346192100000000000000000, -266456779653056800000000000000000), 8146696772355570000000000000000),
  ((-150452055510191100000000000000000, -428194345553230800000000000000000, -383444021066623600000000000000000), 4104346629768971000000000000000),
  ((446053208761040200000000000000000, 83801870653200790000000000000000, -383444021066622800000000000000000), 4104346629769071000000000000000),
  ((-295601153250866700000000000000000, 344392474900011500000000000000000, -383444021066624300000000000000000), 4104346629768999000000000000000),
  ((197583005475361600000000000000000, 660682468125868800000000000000000, -280966074583490100000000000000000), 3673293016416287000000000000000),
  ((-670959303969690500000000000000000, -159229331965177400000000000000000, -280966074583504900000000000000000), 3673293016415687000000000000000),
  ((473376298494327300000000000000000, -501453136160682100000000000000000, -280966074583498200000000000000000), 3673293016415978000000000000000),
  ((-7463137388742009000000000000000, 490647384618176500000000000000000, 184322542332287300000000000000000), 7385814346097036000000000000000),
  ((-421181530685368500000000000000000, -251786958879661700000000000000000, 184322542332289000000000000000000), 7385814346096885000000000000000),
  ((428644668074081400000000000000000, -238860425738493000000000000000000, 184322542332286900000000000000000), 7385814346097676000000000000000),
  ((2049473200886011000000000000000, 232828740261373200000000000000000, 794993174564848200000000000000000), 1952835342529582000000000000000),
  ((-202660340397914400000000000000000, -114639474274342000000000000000000, 794993174564868100000000000000000), 1952835342529196000000000000000),
  ((200610867197030800000000000000000, -118189265987026500000000000000000, 794993174564855200000000000000000), 1952835342529467000000000000000),
  ((71520860101979260000000000000000, 842335952518595100000000000000000, -229601950404950200000000000000000), 2956577367937866000000000000000),
  ((-765244763453047100000000000000000, -359229094510459300000000000000000, -229601950404950300000000000000000), 2956577367938132000000000000000),
  ((693723903351066200000000000000000, -483106858008123100000000000000000, -229601950404941000000000000000000), 2956577367937872000000000000000),
  ((216683910538321200000000000000000, -524509738082016300000000000000000, -376887329718435600000000000000000), 2429727102722713000000000000000),
  ((345896802442190600000000000000000, 449908640158551600000000000000000, -376887329718437600000000000000000), 2429727102722471000000000000000),
  ((-562580712980498100000000000000000, 74601097923486900000000000000000, -376887329718434500000000000000000), 2429727102722800000000000000000),
  ((127985393998401400000000000000000, -429747975001943200000000000000000, -277974239042955300000000000000000), 7838569405690889000000000000000),
  ((308179966577415800000000000000000, 325712590016963300000000000000000, -277974239042960000000000000000000), 7838569405690287000000000000000),
  ((-436165360575796000000000000000000, 104035384984987100000000000000000, -277974239042954900000000000000000), 7838569405690948000000000000000),
  ((-15778123745055630000000000000000, 800916121480508800000000000000000, -308819906524060800000000000000000), 4786830078294293000000000000000),
  ((-685724645630098600000000000000000, -414122316727536500000000000000000, -308819906524060100000000000000000), 4786830078294275000000000000000),
  ((701502769375151100000000000000000, -386793804752983100000000000000000, -308819906524050800000000000000000), 4786830078294352000000000000000),
  ((-710599623094926300000000000000, 1065917694853711000000000000000000, -381979997324513300000000000000000), 646487937338809700000000000000),
  ((-922756502275116900000000000000000, -533574244752374900000000000000000, -381979997324511900000000000000000), 646487937338815600000000000000),
  ((923467101898212700000000000000000, -532343450101337900000000000000000, -381979997324515200000000000000000), 646487937338740300000000000000),
  ((-18829554477834740000000000000000, 858949317087155700000000000000000, -401536179522233100000000000000000), 1094759729336998000000000000000),
  ((-734457151921867100000000000000000, -445781531063332800000000000000000, -401536179522234300000000000000000), 1094759729336943000000000000000),
  ((753286706399685900000000000000000, -413167786023833500000000000000000, -401536179522228400000000000000000), 1094759729337179000000000000000),
  ((-337521729934930300000000000000000, 430628148626657900000000000000000, -304570712968865500000000000000000), 4183486775030887000000000000000),
  ((-204174051327884700000000000000000, -507616466766248900000000000000000, -304570712968861300000000000000000), 4183486775030987000000000000000),
  ((541695781262814600000000000000000, 76988318139579280000000000000000, -304570712968855300000000000000000), 4183486775031043000000000000000),
  ((499679503802183800000000000000000, -443492590565618200000000000000000, -39057554911248320000000000000000), 1388382329059297000000000000000),
  ((134236097918916600000000000000000, 654481439325934200000000000000000, -39057554911271840000000000000000), 1388382329058254000000000000000),
  ((-633915601721119900000000000000000, -210988848760292200000000000000000, -39057554911267800000000000000000), 1388382329057900000000000000000),
  ((759640879950688200000000000000000, -534956023308264100000000000000000, -372610878453242300000000000000000), 1547261679853963000000000000000),
  ((83465066117113360000000000000000, 925346311444592900000000000000000, -372610878453243900000000000000000), 1547261679853909000000000000000),
  ((-843105946067801100000000000000000, -390390288136326400000000000000000, -372610878453243100000000000000000), 1547261679853913000000000000000),
  ((-882002742703712300000000000000000, -490456722855413500000000000000000, -257599002612331800000000000000000), 524555903988795500000000000000),
  ((865749352801516000000000000000000, -518608419961260100000000000000000, -257599002612346400000000000000000), 524555903988807800000000000000),
  ((16253389902207500000000000000000, 1009065142816689000000000000000000, -257599002612342700000000000000000), 524555903988554800000000000000),
  ((706774233459675200000000000000000, -89153320859682620000000000000000, -395467447120576600000000000000000), 471407346171744900000000000000),
  ((-276178076033605600000000000000000, 656661101346199000000000000000000, -395467447120577300000000000000000), 471407346171706300000000000000),
  ((-430596157426042200000000000000000, -567507780486533300000000000000000, -395467447120585000000000000000000), 471407346171284900000000000000),
  ((-91864594464408260000000000000000, 190304232329774900000000000000000, 715850885984145500000000000000000), 1734297963526248000000000000000),
  ((-118876002413071700000000000000000, -174709188679418800000000000000000, 715850885984146500000000000000000), 1734297963526404000000000000000),
  ((210740596877476000000000000000000, -15595043650357130000000000000000, 715850885984132300000000000000000), 1734297963527124000000000000000),
  ((540513301252500500000000000000000, -9438608628742183000000000000000, -91431871005497840000000000000000), 2194380264311005000000000000000),
  ((-262082575777378600000000000000000, 472817554282432700000000000000000, -91431871005496420000000000000000), 2194380264311055000000000000000),
  ((-278430725475102700000000000000000, -463378945653674500000000000000000, -91431871005496810000000000000000), 2194380264311861000000000000000),
  ((145805941349524400000000000000000, -526334554268467300000000000000000, -263961054397257400000000000000000), 1505920846848116000000000000000),
  ((382916124211297800000000000000000, 389438926365626500000000000000000, -263961054397247300000000000000000), 1505920846847692000000000000000),
  ((-528722065560796500000000000000000, 136895627902853300000000000000000, -263961054397253500000000000000000), 1505920846848549000000000000000),
  ((-18231580013920150000, -1738343488671503000, -300394380298933900000000000000000), 10921914823693070000000000000000),
  ((-16991069718109070000, -249020633102366500, 427541621225973300000000000000000), 14025796422060700000000000000000),
  ((156992255283359800000, 102872783354631500000, 145464511562067400000000000000000), 9137907285788647000000000000000),
  ((53599856569247110000, 78104439375328530000, -107279857079785100000000000000000), 8807144129412933000000000000000)]

/-- The rules of degrees 1 to 15. -/
def arbqRules : List (List ((Int × Int × Int) × Nat)) :=
  [arbq1, arbq2, arbq3, arbq4, arbq5, arbq6, arbq7, arbq8, arbq9, arbq10, arbq11, arbq12, arbq13, arbq14, arbq15]

/-- `n_save`, `:3765-3768`. -/
def arbqSizes : List Nat := [1, 4, 6, 11, 14, 23, 31, 44, 57, 74, 95, 122, 146, 177, 214]

end Verif.Quad
