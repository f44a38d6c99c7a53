import Verif.Proof.FillLaw
import Mathlib.Data.List.GetD
/-
The law of a tree with 128 cells in numbers.
-/
namespace Dh

/-- The factorials up to 127!. -/
def factTable : List Nat :=
  [1, 1, 2, 6, 24, 120, 720, 5040, 40320, 362880, 3628800, 39916800, 479001600, 6227020800, 87178291200, 1307674368000,
   20922789888000, 355687428096000, 6402373705728000, 121645100408832000, 2432902008176640000, 51090942171709440000,
   1124000727777607680000, 25852016738884976640000, 620448401733239439360000, 15511210043330985984000000,
   403291461126605635584000000, 10888869450418352160768000000, 304888344611713860501504000000,
   8841761993739701954543616000000, 265252859812191058636308480000000, 8222838654177922817725562880000000,
   263130836933693530167218012160000000, 8683317618811886495518194401280000000,
   295232799039604140847618609643520000000, 10333147966386144929666651337523200000000,
   371993326789901217467999448150835200000000, 13763753091226345046315979581580902400000000,
   523022617466601111760007224100074291200000000, 20397882081197443358640281739902897356800000000,
   815915283247897734345611269596115894272000000000, 33452526613163807108170062053440751665152000000000,
   1405006117752879898543142606244511569936384000000000, 60415263063373835637355132068513997507264512000000000,
   2658271574788448768043625811014615890319638528000000000, 119622220865480194561963161495657715064383733760000000000,
   5502622159812088949850305428800254892961651752960000000000,
   258623241511168180642964355153611979969197632389120000000000,
   12413915592536072670862289047373375038521486354677760000000000,
   608281864034267560872252163321295376887552831379210240000000000,
   30414093201713378043612608166064768844377641568960512000000000000,
   1551118753287382280224243016469303211063259720016986112000000000000,
   80658175170943878571660636856403766975289505440883277824000000000000,
   4274883284060025564298013753389399649690343788366813724672000000000000,
   230843697339241380472092742683027581083278564571807941132288000000000000,
   12696403353658275925965100847566516959580321051449436762275840000000000000,
   710998587804863451854045647463724949736497978881168458687447040000000000000,
   40526919504877216755680601905432322134980384796226602145184481280000000000000,
   2350561331282878571829474910515074683828862318181142924420699914240000000000000,
   138683118545689835737939019720389406345902876772687432540821294940160000000000000,
   8320987112741390144276341183223364380754172606361245952449277696409600000000000000,
   507580213877224798800856812176625227226004528988036003099405939480985600000000000000,
   31469973260387937525653122354950764088012280797258232192163168247821107200000000000000,
   1982608315404440064116146708361898137544773690227268628106279599612729753600000000000000,
   126886932185884164103433389335161480802865516174545192198801894375214704230400000000000000,
   8247650592082470666723170306785496252186258551345437492922123134388955774976000000000000000,
   544344939077443064003729240247842752644293064388798874532860126869671081148416000000000000000,
   36471110918188685288249859096605464427167635314049524593701628500267962436943872000000000000000,
   2480035542436830599600990418569171581047399201355367672371710738018221445712183296000000000000000,
   171122452428141311372468338881272839092270544893520369393648040923257279754140647424000000000000000,
   11978571669969891796072783721689098736458938142546425857555362864628009582789845319680000000000000000,
   850478588567862317521167644239926010288584608120796235886430763388588680378079017697280000000000000000,
   61234458376886086861524070385274672740778091784697328983823014963978384987221689274204160000000000000000,
   4470115461512684340891257138125051110076800700282905015819080092370422104067183317016903680000000000000000,
   330788544151938641225953028221253782145683251820934971170611926835411235700971565459250872320000000000000000,
   24809140811395398091946477116594033660926243886570122837795894512655842677572867409443815424000000000000000000,
   1885494701666050254987932260861146558230394535379329335672487982961844043495537923117729972224000000000000000000,
   145183092028285869634070784086308284983740379224208358846781574688061991349156420080065207861248000000000000000000,
   11324281178206297831457521158732046228731749579488251990048962825668835325234200766245086213177344000000000000000000,
   894618213078297528685144171539831652069808216779571907213868063227837990693501860533361810841010176000000000000000000,
   71569457046263802294811533723186532165584657342365752577109445058227039255480148842668944867280814080000000000000000000,
   5797126020747367985879734231578109105412357244731625958745865049716390179693892056256184534249745940480000000000000000000,
   475364333701284174842138206989404946643813294067993328617160934076743994734899148613007131808479167119360000000000000000000,
   39455239697206586511897471180120610571436503407643446275224357528369751562996629334879591940103770870906880000000000000000000,
   3314240134565353266999387579130131288000666286242049487118846032383059131291716864129885722968716753156177920000000000000000000,
   281710411438055027694947944226061159480056634330574206405101912752560026159795933451040286452340924018275123200000000000000000000,
   24227095383672732381765523203441259715284870552429381750838764496720162249742450276789464634901319465571660595200000000000000000000,
   2107757298379527717213600518699389595229783738061356212322972511214654115727593174080683423236414793504734471782400000000000000000000,
   185482642257398439114796845645546284380220968949399346684421580986889562184028199319100141244804501828416633516851200000000000000000000,
   16507955160908461081216919262453619309839666236496541854913520707833171034378509739399912570787600662729080382999756800000000000000000000,
   1485715964481761497309522733620825737885569961284688766942216863704985393094065876545992131370884059645617234469978112000000000000000000000,
   135200152767840296255166568759495142147586866476906677791741734597153670771559994765685283954750449427751168336768008192000000000000000000000,
   12438414054641307255475324325873553077577991715875414356840239582938137710983519518443046123837041347353107486982656753664000000000000000000000,
   1156772507081641574759205162306240436214753229576413535186142281213246807121467315215203289516844845303838996289387078090752000000000000000000000,
   108736615665674308027365285256786601004186803580182872307497374434045199869417927630229109214583415458560865651202385340530688000000000000000000000,
   10329978488239059262599702099394727095397746340117372869212250571234293987594703124871765375385424468563282236864226607350415360000000000000000000000,
   991677934870949689209571401541893801158183648651267795444376054838492222809091499987689476037000748982075094738965754305639874560000000000000000000000,
   96192759682482119853328425949563698712343813919172976158104477319333745612481875498805879175589072651261284189679678167647067832320000000000000000000000,
   9426890448883247745626185743057242473809693764078951663494238777294707070023223798882976159207729119823605850588608460429412647567360000000000000000000000,
   933262154439441526816992388562667004907159682643816214685929638952175999932299156089414639761565182862536979208272237582511852109168640000000000000000000000,
   93326215443944152681699238856266700490715968264381621468592963895217599993229915608941463976156518286253697920827223758251185210916864000000000000000000000000,
   9425947759838359420851623124482936749562312794702543768327889353416977599316221476503087861591808346911623490003549599583369706302603264000000000000000000000000,
   961446671503512660926865558697259548455355905059659464369444714048531715130254590603314961882364451384985595980362059157503710042865532928000000000000000000000000,
   99029007164861804075467152545817733490901658221144924830052805546998766658416222832141441073883538492653516385977292093222882134415149891584000000000000000000000000,
   10299016745145627623848583864765044283053772454999072182325491776887871732475287174542709871683888003235965704141638377695179741979175588724736000000000000000000000000,
   1081396758240290900504101305800329649720646107774902579144176636573226531909905153326984536526808240339776398934872029657993872907813436816097280000000000000000000000000,
   114628056373470835453434738414834942870388487424139673389282723476762012382449946252660360871841673476016298287096435143747350528228224302506311680000000000000000000000000,
   12265202031961379393517517010387338887131568154382945052653251412013535324922144249034658613287059061933743916719318560380966506520420000368175349760000000000000000000000000,
   1324641819451828974499891837121832599810209360673358065686551152497461815091591578895743130235002378688844343005686404521144382704205360039762937774080000000000000000000000000,
   144385958320249358220488210246279753379312820313396029159834075622223337844983482099636001195615259277084033387619818092804737714758384244334160217374720000000000000000000000000,
   15882455415227429404253703127090772871724410234473563207581748318444567162948183030959960131517678520479243672638179990208521148623422266876757623911219200000000000000000000000000,
   1762952551090244663872161047107075788761409536026565516041574063347346955087248316436555574598462315773196047662837978913145847497199871623320096254145331200000000000000000000000000,
   197450685722107402353682037275992488341277868034975337796656295094902858969771811440894224355027779366597957338237853638272334919686385621811850780464277094400000000000000000000000000,
   22311927486598136465966070212187151182564399087952213171022161345724023063584214692821047352118139068425569179220877461124773845924561575264739138192463311667200000000000000000000000000,
   2543559733472187557120132004189335234812341496026552301496526393412538629248600474981599398141467853800514886431180030568224218435400019580180261753940817530060800000000000000000000000000,
   292509369349301569068815180481773552003419272043053514672100535242441942363589054622883930786268803187059211939585703515345785120071002251720730101703194015956992000000000000000000000000000,
   33931086844518982011982560935885732032396635556994207701963662088123265314176330336254535971207181169698868584991941607780111073928236261199604691797570505851011072000000000000000000000000000,
   3969937160808720895401959629498630647790406360168322301129748464310422041758630649341780708631240196854767624444057168110272995649603642560353748940315749184568295424000000000000000000000000000,
   468452584975429065657431236280838416439267950499862031533310318788629800927518416622330123618486343228862579684398745837012213486653229822121742374957258403779058860032000000000000000000000000000,
   55745857612076058813234317117419771556272886109483581752463927935846946310374691578057284710599874844234646982443450754604453404911734348832487342619913750049708004343808000000000000000000000000000,
   6689502913449127057588118054090372586752746333138029810295671352301633557244962989366874165271984981308157637893214090552534408589408121859898481114389650005964960521256960000000000000000000000000000,
   809429852527344373968162284544935082997082306309701607045776233628497660426640521713391773997910182738287074185078904956856663439318382745047716214841147650721760223072092160000000000000000000000000000,
   98750442008336013624115798714482080125644041369783596059584700502676714572050143649033796427745042294071023050579626404736512939596842694895821378210620013388054747214795243520000000000000000000000000000,
   12146304367025329675766243241881295855454217088483382315328918161829235892362167668831156960612640202170735835221294047782591091570411651472186029519906261646730733907419814952960000000000000000000000000000,
   1506141741511140879795014161993280686076322918971939407100785852066825250652908790935063463115967385069171243567440461925041295354731044782551067660468376444194611004520057054167040000000000000000000000000000,
   188267717688892609974376770249160085759540364871492425887598231508353156331613598866882932889495923133646405445930057740630161919341380597818883457558547055524326375565007131770880000000000000000000000000000000,
   23721732428800468856771473051394170805702085973808045661837377170052497697783313457227249544076486314839447086187187275319400401837013955325179315652376928996065123321190898603130880000000000000000000000000000000,
   3012660018457659544809977077527059692324164918673621799053346900596667207618480809067860692097713761984609779945772783965563851033300772326297773087851869982500270661791244122597621760000000000000000000000000000000]

/-- All of `k` paths mark a node, in two empty trees of height 0, among 2^1 ways of each path. -/
def ftWays1 : List Nat :=
  [1, 2, 2]

/-- All of `k` paths mark a node, in two empty trees of height 1, among 2^2 ways of each path. -/
def ftWays2 : List Nat :=
  [1, 4, 16, 56, 160, 320, 320]

/-- All of `k` paths mark a node, in two empty trees of height 2, among 2^3 ways of each path. -/
def ftWays3 : List Nat :=
  [1, 8, 64, 512, 4032, 30720, 222720, 1507840, 9328640, 51363840, 243302400, 946176000, 2811494400, 5622988800,
   5622988800]

/-- All of `k` paths mark a node, in two empty trees of height 3, among 2^4 ways of each path. -/
def ftWays4 : List Nat :=
  [1, 16, 256, 4096, 65536, 1047552, 16695296, 264593408, 4157087744, 64530317312, 986165542912, 14781222748160,
   216431578316800, 3082870335733760, 42527375040184320, 565415671203102720, 7207400936099020800, 87579184274499174400,
   1007979614702875443200, 10909182576289225113600, 110110513277571799449600, 1026547835914671882240000,
   8739419085947201912832000, 67007232012446085414912000, 454777434106879342018560000, 2672110285205664442613760000,
   13191430521901381425561600000, 52427480279351644127232000000, 156944199029801050806681600000,
   313888398059602101613363200000, 313888398059602101613363200000]

/-- All of `k` paths mark a node, in two empty trees of height 4, among 2^5 ways of each path. -/
def ftWays5 : List Nat :=
  [1, 32, 1024, 32768, 1048576, 33554432, 1073709056, 34353446912, 1098818256896, 35126822305792, 1121904116105216,
   35783794308939776, 1139221169640046592, 36180080867076472832, 1145500399895916314624, 36131721426416269524992,
   1134580170925772631965696, 35440881881063385055887360, 1100404238349357352518418432, 33932913109429463068696379392,
   1038345418334977969634362261504, 31501651513073848263093075836928, 946679253561755556560727900684288,
   28154374268475891245348127066030080, 827838148021012017652777835560960000, 24042050142144274417791480405740748800,
   688937815747067061900088195107363225600, 19458609539587254178784955547820595609600,
   541116915072314626990279004583698104320000, 14798718846223916259313048896151530504192000,
   397554893363221782613385448711117669924864000, 10477902917720871854205557009745190991167488000,
   270580144335636047477107387639418467362275328000, 6837145328788563510190148395251810984441937920000,
   168808419734469084634553571074388776332390563840000, 4066337955998005653874007136333389784750206484480000,
   95414691587289152776140155487475426689111828725760000, 2177208233216355066074120920044760077362338002370560000,
   48225989313906394428124367328437471626153301114880000000,
   1034973692803810974913994237012797647529148015443968000000,
   21476079519754807639279478003443240530251538474467328000000,
   429932793410740889718257843160962683064406397478240256000000,
   8283816813498747120504639162687414622272822772160790528000000,
   153221528045544196927005523020080371085246510372090806272000000,
   2712940288796397186306990163100396210310095846422559588352000000,
   45839880628536596416706172869241013611597813811629306937344000000,
   736614860406891176598864006398156318108040888588726171598848000000,
   11214398250609166687224504043123201434360847181829468793602048000000,
   161063260943588286514820898011106049060340555861187885929594880000000,
   2171748541097151549175973353154040279447441672047132838513868800000000,
   27342041660922161313627881676395070560806504917694240760895897600000000,
   319385599247399177953802368723902141584958899469996796757095219200000000,
   3436075228113314623248311442592523108611958465115488024846873395200000000,
   33751198885286396078071404762620486630346026955531178576686612480000000000,
   299532692355267401630199875542139068609975083308719804909306773504000000000,
   2371047953786875722896442991275758203629801325989471381006537719808000000000,
   16471733129187096039640475364952599907462191416972503024689003626496000000000,
   98328920787022160069617376747553981839930981235043828251358906023936000000000,
   490141103617266424811854202136125352902408255085998287613807390883840000000000,
   1957557413833376948174951445341212299015139718165551443169255285063680000000000,
   5869665240864442093452388972820347784450925852318212622221791576719360000000000,
   11739330481728884186904777945640695568901851704636425244443583153438720000000000,
   11739330481728884186904777945640695568901851704636425244443583153438720000000000]

/-- All of `k` paths mark a node, in two empty trees of height 5, among 2^6 ways of each path. -/
def ftWays6 : List Nat :=
  [1, 64, 4096, 262144, 16777216, 1073741824, 68719476736, 4398044413952, 281474037186560, 18014160860217344,
   1152876820589182976, 73780022130551816192, 4721419047568976904192, 302114589502141672456192,
   19329470680825414071353344, 1236508315257794828848594944, 79082147616905396016214179840,
   5056330537118339192384963739648, 323172975798116250284827049197568, 20646193211065177519173308705144832,
   1318284072480671092672386283614502912, 84119531237942371357419977312439369728,
   5363576549774788075992808511834693828608, 341687676148147452571935427420514875867136,
   21745296724214027540380207074120551062568960, 1382303330484218897920748110185906257495326720,
   87756877348670473123791331947411673477556469760, 5563316115354167011748031957302150761100964003840,
   352122210735895853147713794401927227930507990794240, 22247953312375164415401054058805037551498815088885760,
   1402979100989619103969029287625560429836148184931368960, 88288100317340325933053220155732221743627786204877946880,
   5543272794859176025154211281471652804734725247437740441600,
   347188043635407347101732316886673157765062777296481293434880,
   21687883070558685559678068594927038197561970696401054681006080,
   1350955827850663575142157659978114008008813737576923501994967040,
   83898212359112583948958326720179564152653715821095648522089267200,
   5193572325798042675210524843093808161732889715900075010010434764800,
   320401345998281416815861094553948571776489315827648406756827028520960,
   19694653637134071608434986987581523422560940085286892725716516738170880,
   1205973871068077542910558669457166597155091812032063470331457616289464320,
   73548046419714372536871296302971125896195595845558550130188053980150497280,
   4466370346623059620211602336462971762593776306822891380565013510559702712320,
   270018686854217278079189012111931370815784699506607752441359660804221509304320,
   16247706018517037065676139689289264286636627740958827295087184789405744234496000,
   972862678657459412873973195870315865604955098340805913823696857811939808090521600,
   57952591447191984759515680691183695844928362635759666476323806855828930814174822400,
   3433641858480315911795918674785129672799560652832094463428693617950633864041647308800,
   202299736293868999373728540276507422607095826052430064982766025682645201774487325900800,
   11849213884373866252633216966245949708450712184137527723052487854428667363332806672384000,
   689813456423828167956928586497828316234355444626947477923846622698148331073497884262400000,
   39903769162291340770751487901505507935679869404989448624012298853302988111253735431208960000,
   2293119633770555954496318604416939714026370285710567366730205395429911852486020739691970560000,
   130875556855322375009908300770973091468115924471643537940295024474951574536085668369908367360000,
   7416447586925292200889625901959148596701281499792688800487965435182028526895990658752839680000000,
   417179869136588951328538149683016510470697811647110116186316875708332375926627320051784692531200000,
   23287511944423228447566567736717418117134460332783208426776209359659951483152446977538219468390400000,
   1289660030124160810805748053677673467952038202553398124916304560278510880458373549918097043672268800000,
   70836567626744472023643282843020071359261846308353348616142531090418807749191401895548177561210060800000,
   3857848382124455644011358045697576378325782660963173046239197574413336792719751229449666206285955072000000,
   208262394041423392457213714840945265329590129518797667208710389952772932612479318385545884239516401664000000,
   11141010552297362127357191144974479400001123901783837041677445521051970616595609034158407008134373572608000000,
   590409688541829669186888865191084894194440341367969710725355318516114434270200193259738133213564995895296000000,
   30985725922073891343598509034974311015595369133351336950842725178066012598320570841147272074556031658622976000000,
   1609941869290662140696989905357024411004732530386205654176214385239884523269231261962284623776108593524244480000000,
   82785970682990413839913520931032968842631967816641313917932965136804412019772158456912308382170114128630251520000000,
   4211681875772983479824839804333510916771178282350917156309497952518546197675361830096187620999367508486709575680000000,
   211912810216463647075633206730833860414424973659031691891998146367648031207804334835563957509796903929228317163520000000,
   10541645557898546068331950519929180859215286327166268985077159422866718319644106822829103810496465534626119884472320000000,
   518264899075724701633582205472455963312951262744337653852286616625874069051999047545880740038446905350526372256153600000000,
   25172462882608351002190500231853543643827072131683025142779526665851796623030602419282974096638867401942705825329971200000000,
   1207435518280857695217832177583757959194509916142118714876622185869428606527347938366130608506890237810524409394993561600000000,
   57173595676859402103118821886801866000129545835217110499772529812379243602840429257034964262376074865952342689365308211200000000,
   2671433100459097863195250451074511098707732721924268783666675896224679254662000280301399692655019542829730693016135611187200000000,
   123120076111122706762311029990865259207020463553815963378477091868432457600315625871135548106879218481678062404539890270208000000000,
   5594510100424243600089833753503883597136894856988316896322949084498391752318380554909981774822614017409824151252714641162240000000000,
   250524761805229296009206351460245949206007684872620262170770179896054336289397884323500079230911453447266407134710580442562560000000000,
   11050833610134432037701366342624358908871690120841111777351230192230953510371342505839661329220762634924446663710668848659169280000000000,
   479942012636643083254039379654516940949092610496789213322328753472070857356068301580661731769287225794802525500705903306950574080000000000,
   20512479137219422699801238148408123243912855432313344135789786511266926087451321646717757694158481165794623232896991697970397184000000000000,
   862306739480080185840079804848882988988361194945861280503668482119884899481372283267905973048035326149461079543480443633344813465600000000000,
   35636087139327854803615296169609981357104618650595724206352415592851245826848467466511668325144578052972356448696891718364426351411200000000000,
   1446986322973106901041660059757406083466666524271719018269386255595450994599926332076755741533359485103544812504095653243925201053286400000000000,
   57694872533831476294318530647101779798554719120319198567944189767492830460029449107374027122703272865246419183438221595791071621047910400000000000,
   2257618456543128559102855344604401957437368863650989548067334874495641435384075456107898983537258059887181750125105489580359897113952256000000000000,
   86643466115694750855262321078683393388136169917706996703033863276220687559663539047704759273239935165016332115568599125178660155159478272000000000000,
   3259214167065712174266204398340544763568151982428069790424468187102535493471843099915266413294484733414029999159302297330133144334797635584000000000000,
   120085139107351637991305746511215858038677829264102105047654902167247723144749659384042923158058753535999390975201764871276868723873801043968000000000000,
   4330709456742208947570232000091970394238969750235288469293186046279032828261262006565995965357169349973773661831400067146539129574706053644288000000000000,
   152757308625297367641201431877770557171276392054003954504954374565550193865753224540844711675279591820509789886623346108344607623336316203171840000000000000,
   5266017911555835913953126629468054312461749001171846058284724699879899621960931177816157384647245782928310719113386711863048545189943547013365760000000000000,
   177274985484219225393621480779008631763594529800794442214298703084591389057056569199150516052973490557239053092611603669940023591206959842580234240000000000000,
   5822728772326379996740907586302327785061268084390906934548917754107284156469437883557998045428990768891433501109029463911246279687816254386140610560000000000000,
   186435674029032511557728373918961535458672216658401561414255473629182874241701181246619306420330843245885033341241159257098594455604330628445382901760000000000000,
   5813566383632493020859695493335708690556318256940035862533996596364402099903261620862884600797930851687994325279357036459713607819291817444520440627200000000000000,
   176372826377934682506062103300960629706932789816211190224836640462243336145192736510287880858272799521754242598048986173059842226232583879241043542016000000000000000,
   5200374390295740668458705968889203335049815049145555155693048974506918691326121921421813121855719776649353265795400617716256457692582136742326331611545600000000000000,
   148854382171583902305091279038381475446219149263064828788760894321822901513827915256100210566500859802102859730691983282168193334560820622088591092429619200000000000000,
   4131347624862510934243967432793045168818720953550522459968950092866798793486062548776257768493851806282116965224540956016430049087792510580690441934680883200000000000000,
   111037473056068072601037911747649192635811115016630293185801327082164605228470202265962083932963333498255590393544335041862975759596120662219360233513287680000000000000000,
   2886035007445223824990041055775968269773452994328881379938103290419328409405817566955704200961648144181263433744834003112495088962399390640345656574062100480000000000000000,
   72435569077612392467103968683729227386023395769004653223271825471991590615338372519131351437474091999609794594362955366423129819249621197451626072545878343680000000000000000,
   1752819146637227020725071293144995170447466776967234815432911006089478831143167424835178186381182473337751517630566749989012058684087684368582594180608006553600000000000000000,
   40824498838241655217600588658506097643969444426531510804664929323200050334316631925075926140458684412642115625447812378943922081827263539848708798779566220902400000000000000000,
   913496432167708699094100138205846391958991974715612687192300729685327383402200825228548776079416810962446134153746717970543520831680766351339479296185437519872000000000000000000,
   19598870045003477497289216771665692792390690194166474329985774574404104090549554521401254416779524268402798092206201005372860875182890790372799548481738287087616000000000000000000,
   402301984365116528463742474236630460658759780140221977534704309032606214862192314389712054960901138339651860524071114822386217704152718974823487688265737292480512000000000000000000,
   7882077044657869359573444272717123143427636651571797829407744574982755203582500267264080102464432819553814907869138639274606257416775120198313605628564070840926208000000000000000000,
   147016145228878835870808233170275014794192056034316953929778080034056730610188355955645433188205770546102531778052915860140192328161303766023657743103844618761928704000000000000000000,
   2603007392550180338416022959441569918655878879970392832575702471027784435714467539707296907905806007793031830408562555623560097017843649026371730471928844677262868480000000000000000000,
   43609732158099626620874048015221764158127511798193599628416631159223343486302654934641045850609969698506549515711419981705149978312508899595690465295243936064109281280000000000000000000,
   688869736450484621568334860109346984384166974314324217749174891334927919724621113626573223894044680257696567825345182681322507640800111508702596029389416650226479923200000000000000000000,
   10218550726933175278424844685933258669376993648372440309441041435409358381128588168639321106003698916070717497185853871880377895739170198757992818284737053905127053721600000000000000000000,
   141695939591993088817017183162481605127086638608694899477738178882386575484049682782844696005174369269560745755006690951925752478188133308419198761290526600266802916229120000000000000000000,
   1827136950693605470745336904799634678583456863941717243591245410346579809418141529134558894213122875859295314317933200353281950305543129323205859317563684603262937669304320000000000000000000,
   21777268455890749807154261881236960370742083213469488736586259124974437246716172947936619706951618558138232178662452294085080557770587176032522494217682071666564277762785280000000000000000000,
   238219662739538185131066749806036975202338749936766968725962020639350705052539817059572856541870381193148939122846579779432608223887495363519112746136052278971911153354014720000000000000000000,
   2371584776692029790024412406807154426680312257395754757797373961183283361428757509170260920241411558015434503443676719621629242181703146165959691229798577278016354845909319680000000000000000000,
   21270132312716068485560510971698989802812264119455585198194439886569582607289777687369682220043954607617336504819860020546387722329058679073152850234296213457976725252582932480000000000000000000,
   169716883500318867880148914773604375886528627290279163783091328000196609834454997020010020350588261889257984660477800367931262209890730584794297313677183351208844168923814297600000000000000000000,
   1185799137097910247321002846331861760609408866796369639065954383463686038351811541870439243092776269722444268789612096824629226784594640745136696430337746379007202418826936320000000000000000000000,
   7105922289549764705329268034143401614191845194653021037912421620722375440138546543586147824672473171481931546458236218762649119015833421595700802497654986575926941045100432588800000000000000000000,
   35502997506589461112019638792311976604239406328341311103277791917766475045486221307655135573457225508452796565450513542432112077779482338609231724838470981619050709191625382297600000000000000000000,
   141958762144039119618825152412437843483517986023517656240542535299375095871531862410069335194018621335897463928120719066966181276518559815698382324054276023955034844698747967897600000000000000000000,
   425823058549798634027222054480503467517114318780705380549058973526434483304182564409656798482245583309778669450680822098136276794956309908356602396863220169343936542028490342400000000000000000000000,
   851646117099597268054444108961006935034228637561410761098117947052868966608365128819313596964491166619557338901361644196272553589912619816713204793726440338687873084056980684800000000000000000000000,
   851646117099597268054444108961006935034228637561410761098117947052868966608365128819313596964491166619557338901361644196272553589912619816713204793726440338687873084056980684800000000000000000000000]

theorem fact_zero : factTable.getD 0 0 = 1 := by decide +kernel

theorem fact_step : ∀ k < 127, factTable.getD (k + 1) 0 = Nat.mul (k + 1) (factTable.getD k 0) := by decide +kernel

theorem fact_table : ∀ k < 128, factTable.getD k 0 = k.factorial
  | 0, _ => fact_zero
  | k + 1, h => by rw [fact_step k (by omega), fact_table k (by omega), Nat.factorial_succ]; rfl

/-- The first `j` terms of the sum over the divisions of `k` paths. -/
def waySum (L : List Nat) (k : Nat) (j : Nat) : Nat :=
  Nat.rec 0 (fun j s => Nat.add s (Nat.mul (Nat.div (factTable.getD k 0) (Nat.mul (factTable.getD j 0) (factTable.getD (Nat.sub k j) 0)))
    (Nat.mul (L.getD j 0) (L.getD (Nat.sub k j) 0)))) j

theorem waySum_eq (L : List Nat) (k : Nat) (hk : k < 128) : ∀ j ≤ k + 1,
    waySum L k j = ∑ i ∈ Finset.range j, k.choose i * (L.getD i 0 * L.getD (k - i) 0)
  | 0, _ => rfl
  | j + 1, hj => by
    have e : waySum L k (j + 1) = waySum L k j + factTable.getD k 0 / (factTable.getD j 0 * factTable.getD (k - j) 0) * (L.getD j 0 * L.getD (k - j) 0) := rfl
    rw [e, waySum_eq L k hk j (by omega), Finset.sum_range_succ, fact_table k hk, fact_table j (by omega), fact_table (k - j) (by omega),
      Nat.choose_eq_factorial_div_factorial (by omega)]

/-- The numbers of one tree from those of its two subtrees. -/
def nextWays (h : Nat) (R : List Nat) : List Nat := 1 :: R.map fun x => Nat.mul (2 ^ h) x

set_option maxRecDepth 100000 in
theorem ways1 : ∀ k < 3, ftWays1.getD k 0 = waySum [1, 1] k (k + 1) := by decide +kernel
set_option maxRecDepth 100000 in
theorem ways2 : ∀ k < 7, ftWays2.getD k 0 = waySum (nextWays 1 ftWays1) k (k + 1) := by decide +kernel
set_option maxRecDepth 100000 in
theorem ways3 : ∀ k < 15, ftWays3.getD k 0 = waySum (nextWays 2 ftWays2) k (k + 1) := by decide +kernel
set_option maxRecDepth 100000 in
theorem ways4 : ∀ k < 31, ftWays4.getD k 0 = waySum (nextWays 3 ftWays3) k (k + 1) := by decide +kernel
set_option maxRecDepth 100000 in
theorem ways5 : ∀ k < 63, ftWays5.getD k 0 = waySum (nextWays 4 ftWays4) k (k + 1) := by decide +kernel
set_option maxRecDepth 100000 in
theorem ways6 : ∀ k < 127, ftWays6.getD k 0 = waySum (nextWays 5 ftWays5) k (k + 1) := by decide +kernel

/-- `f` is the law with the numbers of the list among the `2 ^ h` ways of each path. -/
def HasWays (h : Nat) (f : Nat → ℝ) (L : List Nat) : Prop := ∀ k, f k = (L.getD k 0 : ℝ) / 2 ^ (h * k)

theorem HasWays.conv {h : Nat} {f : Nat → ℝ} {L R : List Nat} (hf : HasWays h f L) (hR : R.length = 2 * L.length - 1) (hL : 0 < L.length)
    (h128 : R.length ≤ 128) (hc : ∀ k < R.length, R.getD k 0 = waySum L k (k + 1)) : HasWays (h + 1) (binConv f f) R := by
  intro k
  have e : binConv f f k = ((∑ j ∈ Finset.range (k + 1), k.choose j * (L.getD j 0 * L.getD (k - j) 0) : ℕ) : ℝ) / 2 ^ ((h + 1) * k) := by
    rw [binConv, Nat.add_mul, Nat.one_mul, pow_add, ← div_div]
    congr 1
    push_cast
    rw [Finset.sum_div]
    refine Finset.sum_congr rfl fun j hj => ?_
    have hjk := Finset.mem_range.1 hj
    rw [hf j, hf (k - j), mul_assoc, div_mul_div_comm, ← pow_add, ← Nat.mul_add, show j + (k - j) = k by omega]
    ring
  rw [e]
  congr 2
  by_cases hk : k < R.length
  · rw [hc k hk, waySum_eq L k (by omega) _ le_rfl]
  · have h0 : ∀ (l : List Nat) i, l.length ≤ i → l.getD i 0 = 0 := fun l i h => List.getD_eq_default _ _ h
    rw [h0 R k (by omega)]
    refine Finset.sum_eq_zero fun j hj => ?_
    rcases Nat.lt_or_ge j L.length with hj' | hj'
    · rw [h0 L (k - j) (by omega)]; ring
    · rw [h0 L j hj']; ring

theorem HasWays.next {h : Nat} {R : List Nat} (hR : HasWays (h + 1) (binConv (emptyLaw h) (emptyLaw h)) R) :
    HasWays (h + 1) (emptyLaw (h + 1)) (nextWays (h + 1) R) := by
  intro k
  cases k with
  | zero => simp [emptyLaw, nextWays]
  | succ k =>
    rw [emptyLaw, hR k, nextWays, List.getD_cons_succ]
    have e : (R.map fun x => Nat.mul (2 ^ (h + 1)) x).getD k 0 = 2 ^ (h + 1) * R.getD k 0 := by
      simp only [List.getD_eq_getElem?_getD, List.getElem?_map]
      cases R[k]? <;> simp
    rw [e, Nat.mul_succ, pow_add (2 : ℝ) ((h + 1) * k) (h + 1), Nat.cast_mul, Nat.cast_pow, Nat.cast_ofNat]
    rw [mul_comm ((2 : ℝ) ^ ((h + 1) * k)), mul_div_mul_left _ _ (by positivity)]

theorem hasWays_zero : HasWays 0 (emptyLaw 0) [1, 1] := by
  intro k
  match k with
  | 0 => simp [emptyLaw]
  | 1 => simp [emptyLaw]
  | k + 2 => simp [emptyLaw]

theorem hasWays6 : HasWays 6 (binConv (emptyLaw 5) (emptyLaw 5)) ftWays6 := by
  have h1 := hasWays_zero.conv (R := ftWays1) (by decide +kernel) (by norm_num) (by decide +kernel) ways1
  have h2 := h1.next.conv (R := ftWays2) (by decide +kernel) (by simp [nextWays]) (by decide +kernel) ways2
  have h3 := h2.next.conv (R := ftWays3) (by decide +kernel) (by simp [nextWays]) (by decide +kernel) ways3
  have h4 := h3.next.conv (R := ftWays4) (by decide +kernel) (by simp [nextWays]) (by decide +kernel) ways4
  have h5 := h4.next.conv (R := ftWays5) (by decide +kernel) (by simp [nextWays]) (by decide +kernel) ways5
  exact h5.next.conv (R := ftWays6) (by decide +kernel) (by simp [nextWays]) (by decide +kernel) ways6

end Dh
