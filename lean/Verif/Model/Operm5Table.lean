/-
The table `pseudoInv[120][120]` of include/dieharder/diehard_operm5.h, lines 40-2682, in units of 10^-14 (the decimal literals have at
most 14 decimals).  Row `i` is at lines 43 + 22 i to 62 + 22 i.
-/
namespace Dh

/-- diehard_operm5.h:43-62. -/
def op5Row0 : List Int := [
  10170279646000000, 347959864133000, 204238410188000, 174181938409000, 301521299803000, 228539648409000,
  227752614391000, 1258798490470000, 139654183047000, 161928012390000, 424056105166000, 190846053913000,
  358974770676000, 243658406577000, 217703943527000, 78807212621700, 144529123062000, 101893534483000,
  -1176026535130000, 216993674850000, 201281383095000, 170972351290000, -1257370718420000, -1386473226860000,
  222704751677000, 193731693654000, -841395982155000, 178089271632000, 172684525309000, 381509686603000,
  -61089468485500, 779473120283000, 812910672884000, 796997978451000, -19580132941400, 75235839771800,
  85960653125900, -208846228834000, 215730956894000, 286356084676000, -54806366706500, 195882504879000,
  -116278277850000, -20834479867200, 108285467559000, 66369196936300, -107761585802000, 130130103982000,
  163743331504000, 83533697427300, 126843494328000, -544848887444000, -121391220419000, -155906670230000,
  -288743618262000, 59063379222500, -205424388182000, 168554765668000, 202872233283000, 162075751509000,
  31700940864400, 9672803486650, 132144544549000, 139656074305000, 102605720546000, 188772939286000,
  -32468263739700, -213068687021000, -290550450174000, 125294322978000, 10098160067300, 116047660536000,
  244549621665000, -8463871436690, -139501835562000, -334650475961000, 28344839227400, -302612919136000,
  -380493410954000, -138665779695000, 12167330344400, 17173296606500, -234887107486000, 24717744911200,
  156010340800000, -148444614454000, 544933609520000, 887802925086000, 181852923469000, 1014709932630000,
  -35897155202600, -183014139735000, -174931105086000, -81754563027100, 102558937862000, 860717933673000,
  -3543624885690000, -536799149000000, -665812491595000, -426269341359000, -419712666694000, -477986206737000,
  -443349551400000, -605454160848000, -414858224039000, -325072542614000, -266162830552000, -100718051189000,
  -205132354587000, -190101638341000, -510130764631000, -141314885590000, -98336934287200, -143661669760000,
  -1741343395460000, -396687513396000, -409070881500000, -290571696531000, -1577146963970000, -2969341464190000]

/-- diehard_operm5.h:65-84. -/
def op5Row1 : List Int := [
  347959864133000, 9835583459970000, 191572793238000, 203244291996000, 327367538387000, 351750054562000,
  1086704431940000, 163728269312000, 246532995184000, 218522773610000, 28331512615800, 332191661492000,
  211540301866000, 171359022390000, 176170682652000, 387026004778000, 481301106985000, 399144669601000,
  238263262964000, -1083438350930000, -1235829584520000, -1276036805860000, 90823575480900, 140680050611000,
  351283765151000, 372182254444000, 282412258514000, -839291090002000, 551065378265000, 243697755210000,
  866481634482000, 6983596632950, 84050123741800, -7894357475660, 773624059467000, 733279444374000,
  -139535571638000, 57398329404900, 11039646268100, -49148324301700, 72383172661300, 168554765668000,
  40595007301300, 82782741077600, 155270079570000, 106176307263000, -8236576663450, 61344067396800,
  -148564295720000, -235072651678000, -588796619628000, 11606651766600, 90919889273100, 30130220995200,
  259871803433000, 11246280462200, 291664946903000, 218345616634000, 24351448852900, 91878259164000,
  -179665727600000, -229004601420000, -7623302751880, 181968452702000, -237331479701000, 54533155895800,
  -37704024234900, -128003934163000, 138687323822000, 140809620370000, 11039618643100, 291434752106000,
  -134997010910000, 194203511105000, -3348585249310, -24422298488900, -405226447797000, -257697065912000,
  84292783072000, 44876544489800, 274121610464000, 255767805912000, 51699301581000, 216874029149000,
  438149458079000, 517250072782000, -290550450174000, -254840826787000, 444558063180000, -345130216438000,
  -240015513230000, -6222952963450, 92648166524600, 188241502240000, 838996332437000, -499338303655000,
  -288446862464000, -3619480238400000, -529037912148000, -665812491595000, -456409239301000, -422796727586000,
  -502467448805000, -448983028873000, -215868159775000, -211393300786000, -386961435551000, -327561900621000,
  -192029423174000, -171528642262000, -433004449477000, -560682842900000, -222568304570000, -422556084587000,
  -175773570496000, -1839768658980000, -1732201712210000, -1678778152130000, -1273599228230000, -469893147886000]

/-- diehard_operm5.h:87-106. -/
def op5Row2 : List Int := [
  204238410188000, 191572793238000, 9805012380840000, 154283271895000, 132988350128000, 189214896281000,
  183617274451000, -1137718812300000, -1041791013690000, -1119770460070000, 1203682255250000, 395863320677000,
  200594589649000, 285356476469000, 275496955568000, 244544825138000, 351366877414000, 439505757541000,
  59295151689600, 322581106136000, 293931202527000, 237667671700000, 85474529868300, 86615445419000,
  742132958226000, 785572434880000, 691329582535000, 524659988964000, 768438220043000, -555402788282000,
  83991923549400, 238836929911000, 205840148048000, 213971609673000, -132849163946000, -113547734156000,
  31475592360700, 891907078347000, 632770429109000, 713294881956000, 79575517212900, 125294322978000,
  475341046185000, 462640633331000, 311848761998000, 320833846878000, 372152299620000, 287816600487000,
  141674265601000, -94080187703200, 2098094156850, 134264207773000, 83120651290900, 123620042522000,
  290077588087000, 157307864629000, 151640273628000, 140809620370000, 50313844441300, 5556784678290,
  -298199746189000, -267167545957000, -219163227797000, -275719522516000, -377733627693000, -209613711355000,
  -87737685616900, 40127778542000, 291664946903000, 266041333492000, -64411816780300, 72231179619100,
  442099749479000, -183309503743000, -116880599602000, -119922432959000, 633445073191000, 673360604526000,
  24827533492100, -9461035067330, -311650166621000, -230497741046000, -81859381631800, -256428697012000,
  -270812576928000, -215700853736000, -205424388182000, -364547457306000, -361315415637000, -426389011473000,
  538238026713000, -406087251037000, -242109281648000, -287516480264000, -486937681595000, -736658175599000,
  -223364079297000, -499880484738000, -3619480238400000, -536799149000000, -285350911338000, -236940709009000,
  -125286666352000, -1702162525000000, -1808744366840000, -1796606200960000, -480044307096000, -391494167754000,
  -207073322809000, -188530104907000, -304232718639000, -361884557138000, -306686059009000, -604286677972000,
  -1409124404270000, -553141230965000, -363980243567000, -414106321047000, -304768959184000, -532764231058000]

/-- diehard_operm5.h:109-128. -/
def op5Row3 : List Int := [
  174181938409000, 203244291996000, 154283271895000, 9643003993840000, 153038477142000, 261336859710000,
  -1290376043380000, 188099997551000, 311372650764000, 255730386708000, -1246585631580000, 51493759123500,
  154681324423000, 294636891811000, 366237190690000, 544273872863000, 616196222431000, 534531479332000,
  287699128121000, 46661529038800, 102899668126000, 103203693157000, 230547304932000, 252173697735000,
  432886732400000, 539916098902000, 426729074902000, 842273496448000, -6798830473090, 835094501318000,
  360249764016000, -32981523499000, -37461965966300, 5092808644590, 251277142788000, 69220743145200,
  1363256479730000, 644221687032000, 294831173152000, 93477714525600, 1318156858860000, 887802925086000,
  238840824158000, 199892364104000, -28859370811000, -969180416599, 224103669192000, -29995118668200,
  -79413334296100, 206849456445000, 139551041680000, 483644746149000, 292211067478000, 369530622097000,
  317949645052000, -33853229170200, 79575517212900, -254840826787000, 8245104493750, -22280848864200,
  -199850697532000, -137002058804000, -167990502431000, -290899564007000, -143305365901000, -316798642674000,
  226535029574000, 319550859524000, 72383172661300, -364547457306000, -182528689767000, -352437410739000,
  -252050917818000, 305921950333000, 580288007867000, 729488051492000, -130327712967000, 22897020724800,
  11148493452800, -83874015536100, -339699380325000, -448756391546000, -50368488592100, -331540906326000,
  -236678986350000, -54616244107700, -54806366706500, -312036899949000, -409790992519000, -376674627657000,
  -360435018208000, 395300330661000, -559032944961000, -687236432478000, -640393467745000, -423299685560000,
  -395123677566000, -223364079297000, -288446862464000, -3543624885690000, -437094940786000, -344918321285000,
  -1556112555510000, -212754545184000, -304136462819000, -411294492957000, -1784818972040000, -2140306424410000,
  -408938603508000, -393793507938000, -270739810248000, -434479292116000, -718637400837000, -427079623153000,
  -342432463260000, -1392857184170000, -211136224508000, -320809872200000, -603443377457000, -380182453265000]

/-- diehard_operm5.h:131-150. -/
def op5Row4 : List Int := [
  301521299803000, 327367538387000, 132988350128000, 153038477142000, 9821959150610000, 177456287105000,
  306745698764000, 206125308493000, 1194165228980000, 177152941632000, 463861937546000, 264266037378000,
  -1087519161750000, 390350490143000, 139081975589000, 117416486145000, -1268143958740000, -1264570441710000,
  347037493945000, 165442854956000, 196270324942000, 12403950175300, 210113876234000, 170988267819000,
  395791893946000, -723976744124000, 427652301649000, 323350409469000, 276659868630000, 482579845901000,
  -83151602608200, 105528116547000, -28843336088600, -25719774085900, -101550367500000, 19149821326900,
  89238422694200, -2064016879210, 55947617458200, 287309717622000, -50368488592100, 130130103982000,
  -187300467473000, 670357901341000, 685809515971000, 751502639263000, -129869010121000, 33906137645500,
  582889224441000, 448072367247000, 293182498382000, 26696458573700, 466367182442000, 71958327766700,
  -177820375188000, 93429468924900, -81859381631800, 61344067396800, -81181519780300, 42984644357600,
  318700577505000, 262950027646000, -120360863110000, 61845466688700, 530877759488000, 252869602862000,
  375027773845000, 163938994047000, 51699301581000, 287816600487000, 391173751298000, 130519160208000,
  -119832194615000, -227239000576000, -265884432854000, -445236155393000, -140296912034000, -305199614679000,
  -442205372104000, -329214336856000, -220848872348000, 599953633686000, 294669958734000, 612522600352000,
  -60702859229300, -253679733505000, -234887107486000, -29995118668200, -56111443696500, -146189605730000,
  -358084102688000, -378092960240000, -470370169779000, 635850336621000, -529277408478000, -293284896764000,
  -344918321285000, -236940709009000, -422796727586000, -477986206737000, -3623867046980000, -534623743353000,
  -515925382175000, -255234384466000, -473280164616000, -148524032158000, -354614834121000, -174755203283000,
  -1835753035070000, -622632330604000, -366840017366000, -277501741267000, -1735427217700000, -1676345773740000,
  -243434134683000, -53790600109600, -161502794398000, -1192430452260000, -417525572483000, -200425841399000]

/-- diehard_operm5.h:153-172. -/
def op5Row5 : List Int := [
  228539648409000, 351750054562000, 189214896281000, 261336859710000, 177456287105000, 9809863073050000,
  413254115806000, 336886108025000, 296750226889000, 1335345077870000, 604967090955000, 397585019365000,
  381386715783000, -1061873030800000, -1123852794780000, -1167297866310000, 82737772615300, 173634316499000,
  193512326132000, 112297208977000, 110735995817000, 303302590491000, 232430877087000, 304187382428000,
  -709732086170000, 385417816513000, 435351409207000, 304775298559000, 276355973272000, 496993552301000,
  -172833866992000, -15970586331800, -149399239261000, -85292398370000, 35957367601500, 11582023533700,
  334668012401000, 228514157604000, 252120643985000, 119191624916000, 224103669192000, 24717744911200,
  792839152050000, -33026336574700, -177477694233000, -178976586390000, 801997590090000, 612522600352000,
  235700464670000, 462879146440000, 719934538749000, 427517288855000, -103526516990000, 372198225871000,
  228500868480000, 496574729528000, 372152299620000, 216874029149000, 276544260503000, 188972013476000,
  333342800563000, 470409238607000, 282072520664000, 70269494477200, 88858324948000, -163606896922000,
  -82209928325000, 155050062551000, -8236576663440, -256428697012000, -40240686448600, -290479889313000,
  -132677197557000, -203263840131000, -288072342083000, -156432015213000, -296608171915000, -165265185841000,
  643466143584000, 575150332245000, 337785124710000, -431705493911000, -129869010121000, -473421493710000,
  -268666481829000, -111357560461000, -107761585802000, -331540906326000, -278206804744000, -357155025876000,
  -330981984540000, -378301578534000, 634108150200000, -477212084362000, -533485524048000, -314490568256000,
  -437094940786000, -285350911338000, -456409239301000, -419712666694000, -522527665799000, -3623867046980000,
  -267053226402000, -97384916687400, -299859433160000, -613796778300000, -324361929777000, -474087329353000,
  -624502277907000, -1803013077050000, -1695430235180000, -1816473444000000, -433829916575000, -399370888359000,
  -352702931314000, -197808516555000, -1319430480890000, -290566379430000, -549689862569000, -331381710689000]

/-- diehard_operm5.h:175-194. -/
def op5Row6 : List Int := [
  227752614391000, 1086704431940000, 183617274451000, -1290376043380000, 306745698764000, 413254115806000,
  9413723065300000, 382132646761000, 440043954301000, 411196661189000, -1360046201300000, -109564831427000,
  212704020822000, 361354047806000, 527981451917000, 543369561992000, 510925342427000, 378761175390000,
  240375639965000, 1107964915790000, 1321372680240000, 1282342896220000, 164544241710000, 360711007986000,
  593887287961000, 613080095654000, 564432273403000, -833851406616000, 2348732533830000, 1108837371530000,
  -1476250520360000, 11946267914400, -132629124690000, -174931022596000, -1636065878860000, -2078294739550000,
  295258478977000, 954021935880000, 472477703040000, 65926157058000, 1363256479730000, 1014709932630000,
  408962687016000, 457598222658000, -250206994411000, -204081972113000, 334668012401000, -146189605730000,
  730349562037000, 604429774214000, 727804666997000, 584810605862000, 254581189924000, 418885217231000,
  493464750296000, 624180265424000, 31475592360700, -345130216438000, -21762123229800, -60786252486800,
  -266294670741000, -98660312102400, -281004665660000, -335210644563000, -345626513000000, -537432696832000,
  -214215935276000, -53882363314900, -139535571638000, -426389011473000, -358332670710000, -503263931039000,
  64806010535600, -302221399632000, -183170587234000, -237033491174000, -52704934016100, 127190685484000,
  186609684761000, 227346737812000, -435783988847000, -409579126929000, 89238422694200, -357155025876000,
  8728167739130, 196844187389000, 85960653125900, -376674627657000, -583850222330000, -761047757684000,
  -790607148418000, -1008696088610000, -761785716243000, -856595466210000, -979598600926000, -762228100824000,
  -342432463260000, -1409124404270000, -175773570496000, -1741343395460000, -352702931314000, -243434134683000,
  434231891950000, -259637492575000, -418361147861000, -491534081789000, 277691764137000, -200135462423000,
  -802880140394000, -668837691359000, -420846320503000, -514678983453000, -849276272601000, -620630988686000,
  -510373631855000, -788809678529000, -650929731674000, -784653437912000, -1188936352320000, -679922199279000]

/-- diehard_operm5.h:197-216. -/
def op5Row7 : List Int := [
  1258798490470000, 163728269312000, -1137718812300000, 188099997551000, 206125308493000, 336886108025000,
  382132646761000, 9582535609150000, -1149379246010000, -1281697780430000, 1313791984170000, 544249526303000,
  66074162179800, 151214093103000, 126119834948000, 596833742143000, 411048986679000, 470113281529000,
  1294236416280000, 195804453141000, 407022363329000, 284956457467000, 1144420990560000, 1213250787360000,
  1145175163350000, 1170347912760000, -829754156395000, 486683987463000, 780962418292000, 1528332153160000,
  6884749559510, -1425152331150000, -1853897438610000, -1955882182500000, -150027454550000, -227303616948000,
  624180265424000, -529735570343000, 1007304985430000, 854277559021000, -33853229170200, 116047660536000,
  666691905449000, 695343835880000, 120670176701000, 118570542996000, 496574729528000, 130519160208000,
  442154249574000, 461452225228000, 564722424249000, 218987516681000, 273971784574000, 337896290047000,
  491037153642000, 860637122639000, 157307864629000, 291434752106000, -116301986843000, -261762276351000,
  -504394247808000, -427782577163000, -137163023510000, -210738078932000, -570466629849000, -405435495795000,
  -150142740200000, -457224088644000, 11246280462200, 72231179619100, -300247208670000, -72522673807200,
  -131988516118000, 5307627242690, 205301896597000, 65147201681800, -349650206722000, -304675227459000,
  234670913657000, 271151189023000, -321707086342000, -308366691349000, 93429468924900, -290479889313000,
  -123652875064000, -120420235933000, 59063379222500, -352437410739000, -788914111836000, -503263931039000,
  -850314641749000, -852814552557000, -735459035667000, -544641221973000, -653319254708000, -868936039711000,
  -1392857184170000, -553141230965000, -1839768658980000, -396687513396000, -197808516555000, -53790600109600,
  -331927402712000, 397463653510000, 84618224121800, 69967323068600, -393903347767000, -378877759863000,
  -419782340310000, -306099501395000, -603427973474000, -597302395553000, -453722062451000, -815841326488000,
  -788809678529000, -736238199152000, -672390343177000, -630970603601000, -742705630041000, -1359534392290000]

/-- diehard_operm5.h:219-238. -/
def op5Row8 : List Int := [
  139654183047000, 246532995184000, -1041791013690000, 311372650763000, 1194165228980000, 296750226889000,
  440043954301000, -1149379246010000, 9645187011140000, -1268392407680000, 1328184057650000, 580496011766000,
  1039773108500000, 67732756369800, 347335810570000, 685570362359000, 1385279655630000, 1484689417770000,
  187942139897000, 217686565290000, 361855263797000, 226907424018000, 131728951722000, 272936358630000,
  680378366108000, -1200894313000000, 721247353087000, 394284580098000, 614401133253000, 1367630178790000,
  -105510526828000, 256894077997000, 401875400135000, 290487823575000, 30416135488700, -70232138338300,
  727804666997000, 1553497773040000, -784888069700000, 988998691768000, 139551041680000, 188772939286000,
  851096261755000, -1125058937660000, -1698465874150000, -1836290956340000, 719934538749000, 252869602862000,
  338103514287000, 405940570669000, 736241256775000, 415777877683000, 8495879428690, 106752938523000,
  252357226846000, 564722424249000, 2098094156860, 54533155895800, 51413621244100, -230163312917000,
  -307052267766000, -268209384482000, -351454627695000, -623340209851000, -700279693580000, -661848412260000,
  -249753689780000, -137410684853000, -588796619628000, -209613711355000, -470767664646000, -405435495795000,
  -242287091649000, -38021096143000, 105158253708000, 53047570447700, -139059221097000, -64295791416600,
  197210592684000, 161158816726000, -411852072757000, -312264250823000, 293182498382000, -163606896922000,
  45068862723500, 157698579440000, 126843494328000, -316798642674000, -683419264548000, -537432696832000,
  -844202922569000, -994818435373000, -601767315498000, -874645850396000, -933963865749000, -652606891117000,
  -211136224508000, -363980243567000, -1732201712210000, -409070881500000, -1319430480890000, -161502794398000,
  -227640071874000, 379095739238000, 502034622785000, -47912394523500, -572021533230000, -649664214697000,
  -541431685967000, -383821499890000, -340654646337000, -386241095315000, -733354399261000, -619424392149000,
  -650929731674000, -672390343177000, -320219830206000, -962141229527000, -657582963161000, -470076357543000]

/-- diehard_operm5.h:241-260. -/
def op5Row9 : List Int := [
  161928012390000, 218522773610000, -1119770460070000, 255730386708000, 177152941632000, 1335345077870000,
  411196661189000, -1281697780430000, -1268392407680000, 9514104457340000, 1463302254980000, 704208824378000,
  -49781748456200, 1192331627160000, 1390060862750000, 1733597616590000, 291896715975000, 741429879343000,
  237060247004000, 218580016393000, 300527857918000, 319368144731000, 204681763800000, 314984948426000,
  -987229649908000, 942849253750000, 929575996071000, 609790724766000, 895675841254000, 1656124109210000,
  117284223635000, 418954888030000, 273539255755000, 257472739991000, -327086927080000, -168292210904000,
  543369561992000, 1230881342600000, 754335481944000, -939177531702000, 544273872863000, -143661669760000,
  -1224326435290000, 791720330292000, 248195738147000, 155758494558000, -1167297866310000, -1676345773740000,
  351830820868000, 826954420328000, 685570362359000, 323790008991000, -58032342539600, 107416732004000,
  233851044078000, 596833742143000, 244544825138000, -422556084587000, -227483562655000, -245959713642000,
  -602998849958000, -382849120087000, -388232908528000, -443922102010000, -693544144105000, -619424392149000,
  520850413779, 426348616172000, 387026004778000, -604286677972000, -851024383753000, -815841326488000,
  -179190636860000, 6170253131140, 71686381449900, 16604170123600, -312338044576000, -140380767879000,
  301638553195000, 362606894482000, -178446843887000, -508978296436000, 117416486145000, -399370888359000,
  -65550061914700, 62558658087600, 78807212621700, -427079623153000, -704349262793000, -620630988686000,
  -809631305473000, -679002948435000, -715385672093000, -684928104137000, -793679465698000, -722139710446000,
  -320809872200000, -414106321047000, -1678778152130000, -290571696531000, -290566379430000, -1192430452260000,
  -440884437221000, 170108151577000, -4384660366960, 406630928290000, -424027216807000, -315759783481000,
  -470358055171000, -378271517431000, -326077886935000, -630293519068000, -736867393869000, -615054479643000,
  -784653437912000, -630970603601000, -962141229527000, -459832563694000, -747507811941000, -570081880516000]

/-- diehard_operm5.h:263-282. -/
def op5Row10 : List Int := [
  424056105166000, 28331512615800, 1203682255250000, -1246585631580000, 463861937546000, 604967090955000,
  -1360046201300000, 1313791984170000, 1328184057650000, 1463302254980000, 9505495735110000, -20102844330800,
  422568698788000, 557269052947000, 731803758939000, 895675841254000, 576091246408000, 618971629783000,
  357441254429000, 117390695484000, 209320522335000, 330475352149000, 396775742616000, 559392466674000,
  582666009926000, 542245148490000, 525351092114000, 869796976280000, 2119065301240000, -1069005025800000,
  317239108681000, -45321232534900, -280677249714000, -378922402605000, 519487052725000, 34272187013900,
  2348732533830000, -937774635473000, -1477531242990000, -1985823507030000, -6798830473090, 860717933673000,
  343150830196000, 317903115692000, -276899080156000, -379629591723000, 276355973272000, -293284896764000,
  278643342225000, 267799341696000, 614401133253000, 349249165404000, 21968648645200, 167444252606000,
  511985745270000, 780962418292000, 768438220043000, -499338303655000, -28835077080600, -275213165922000,
  -473781547117000, -337577633747000, -305018339346000, -529810362710000, -739504638297000, -652606891117000,
  267602940790000, 238818731746000, 551065378265000, -736658175599000, -1303981381200000, -868936039711000,
  96356173030800, -300379402614000, -148303979002000, -96370492135000, 143073220478000, 300380912726000,
  335725030544000, 326675519699000, -299515736580000, -384237277717000, 276659868630000, -314490568256000,
  -139758341021000, 13582443157600, 172684525309000, -423299685560000, -704252427141000, -762228100824000,
  -933786975830000, -678794619835000, -646198437092000, -679811016906000, -867247228685000, -1082038661550000,
  -603443377457000, -304768959184000, -1273599228230000, -1577146963970000, -549689862569000, -417525572483000,
  323042948793000, -315950591385000, -551170646267000, -645874811277000, 487083197795000, 47052325330400,
  -390690736715000, -261517726585000, -336354084830000, -530466293646000, -650728434006000, -722139710446000,
  -1188936352320000, -742705630041000, -657582963161000, -747507811941000, -726558298022000, -941793008863000]

/-- diehard_operm5.h:285-304. -/
def op5Row11 : List Int := [
  190846053913000, 332191661492000, 395863320677000, 51493759123500, 264266037378000, 397585019365000,
  -109564831427000, 544249526303000, 580496011766000, 704208824378000, -20102844330800, 11983642531800000,
  261850268380000, 395757418947000, 583649997367000, 704208824378000, 211615664827000, 538523171468000,
  177926900938000, 310532137185000, 415892129831000, 538523171468000, 233797744968000, 400304809629000,
  583649997367000, 564316448556000, 536585346694000, 706585597865000, -20102844330800, 694511364434000,
  142851903350000, -675287102231, -202802672410000, -254663857301000, 138599815357000, 185902383774000,
  -109564831427000, 706585597865000, 142851903350000, 231078513921000, 51493759123500, -2969341464190000,
  395757418947000, 337243472607000, -202151439206000, -335031062359000, 397585019365000, -200425841399000,
  -4243970352940, 415892129831000, 580496011766000, 564316448556000, 202183256873000, 337243472607000,
  536585346694000, 544249526303000, 395863320677000, -469893147886000, -675287102233, -169030572390000,
  -335179369511000, -202151439206000, -202802672410000, -421925717124000, -573626900280000, -470076357543000,
  -172460020986000, 310532137185000, 332191661492000, -532764231058000, -1017404823570000, -1359534392290000,
  -82276162712000, -172460020986000, -4243970352940, 211615664827000, 17065799026200, 233797744968000,
  261850268380000, 202183256873000, -335179369511000, -480906526575000, 264266037378000, -331381710689000,
  -82276162712000, 177926900938000, 190846053913000, -380182453265000, -675964659113000, -679922199279000,
  -675964659112000, -1017404823570000, -573626900280000, -815448489157000, -1078158270170000, -941793008863000,
  -380182453265000, -532764231058000, -469893147886000, -2969341464190000, -331381710689000, -200425841399000,
  231078513921000, -169030572390000, -421925717124000, -522313360386000, 185902383774000, 158839264994000,
  -480906526575000, -335031062359000, -254663857301000, -522313360386000, -815448489157000, -570081880516000,
  -679922199279000, -1359534392290000, -470076357543000, -570081880516000, -941793008863000, -707451952436000]

/-- diehard_operm5.h:307-326. -/
def op5Row12 : List Int := [
  358974770676000, 211540301866000, 200594589649000, 154681324423000, -1087519161750000, 381386715783000,
  212704020822000, 66074162179800, 1039773108500000, -49781748456200, 422568698788000, 261850268380000,
  9623288235140000, 595579816464000, 409190734571000, 301638553195000, -1240197707430000, -1477458972650000,
  226290931654000, 89712520473800, -15831985791900, 284939790460000, 401280807894000, 165867317606000,
  -17536490106500, 1139822559530000, 163364398023000, 299488054707000, 335725030544000, 496241427809000,
  62460250858600, -115408470499000, -167373580774000, 811963810962000, -87354768147500, -105467036139000,
  186609684761000, 309071169008000, -315515491248000, 172765665257000, 11148493452800, 66369196936300,
  -262487054875000, -904793938552000, 913690958564000, 1826606628210000, 643466143584000, 751502639263000,
  739312816784000, 754195229339000, 197210592684000, 268655900288000, -1139997753140000, 214946668185000,
  318541284620000, 234670913657000, 24827533492100, 106176307263000, -285326303442000, 160500993770000,
  -1931723779730000, -865304489492000, -550478634897000, -90102895311800, -1772148135540000, -1836290956340000,
  263094122274000, 237222909638000, 84292783072000, 320833846878000, 135133816440000, 118570542996000,
  75252343797300, 112185793523000, -96676368430400, -14394888061800, -37687068632300, -265468288836000,
  -103267698428000, -113586621270000, -254666298514000, -542499548254000, -442205372104000, -178976586390000,
  -98100061593500, -166259948970000, -380493410954000, -969180416603, -178235877809000, -204081972113000,
  -737680265761000, -362453739721000, -338273805882000, -403303910361000, -341068706800000, -379629591723000,
  -393793507938000, -188530104907000, -171528642262000, -190101638341000, -1803013077050000, -622632330604000,
  -329390863627000, -298679387144000, -274395919415000, -1090411611620000, -173724798100000, -128902728442000,
  554952664487000, -269413426189000, -364730771509000, -318226111466000, 234564145219000, 155758494558000,
  -668837691359000, -306099501395000, -383821499890000, -378271517431000, -261517726585000, -335031062359000]

/-- diehard_operm5.h:329-348. -/
def op5Row13 : List Int := [
  243658406577000, 171359022390000, 285356476469000, 294636891811000, 390350490143000, -1061873030800000,
  361354047806000, 151214093103000, 67732756369800, 1192331627160000, 557269052947000, 395757418947000,
  595579816464000, 9290816092730000, -1096961967370000, -1224326435290000, 335728059368000, 569324816715000,
  289791410635000, 216723095516000, 370110750688000, 78307924883200, 73598843624600, 277936969810000,
  1141123204030000, -24262443420100, 122098483369000, 333357224677000, 343150830196000, 508742069869000,
  -52354328077400, -226824927103000, 886483341561000, -456923963793000, 24191228248700, -37120701986200,
  408962687016000, 524852905716000, -51840816269900, -34417682336900, 238840824158000, 17173296606500,
  345654007290000, 1006771630240000, 758738509851000, -542499548254000, 792839152050000, 599953633686000,
  134710462072000, 192792536871000, 851096261755000, 926811669461000, 360317294936000, -1205867682210000,
  733859822326000, 666691905449000, 475341046185000, 255767805912000, 172187882714000, 178263563452000,
  -564241517623000, -1889453730990000, -2149125395980000, -2103304812200000, -253196272433000, -312264250823000,
  -30805504142700, 58098275352200, 40595007301300, -230497741046000, -292596621497000, -308366691349000,
  -145370351642000, -53243221348800, 140874140874000, 40724273872600, -67588848294400, 119185087310000,
  -262487054875000, -207282329380000, -422320070153000, -117578717837000, -187300467473000, -431705493911000,
  -213442715547000, -109661117536000, -116278277850000, -448756391546000, -403545319173000, -409579126929000,
  -729749260730000, -349052670024000, -436964974991000, -319563732100000, -349946492897000, -384237277717000,
  -408938603508000, -207073322809000, -192029423174000, -205132354587000, -624502277907000, -1835753035070000,
  -108325212653000, -97973346289800, -1054583017590000, -567174203167000, -275853109518000, -345806031990000,
  -359775002064000, 554952664487000, 298812055676000, 173375230332000, -423601380227000, -508978296436000,
  -802880140394000, -419782340310000, -541431685967000, -470358055171000, -390690736715000, -480906526575000]

/-- diehard_operm5.h:351-370. -/
def op5Row14 : List Int := [
  217703943527000, 176170682652000, 275496955568000, 366237190690000, 139081975589000, -1123852794780000,
  527981451917000, 126119834948000, 347335810570000, 1390060862750000, 731803758939000, 583649997367000,
  409190734571000, -1096961967370000, 9866846183070000, -987229649908000, 283654536530000, 571434286053000,
  299608668066000, 200550909998000, 470811456921000, 381743460173000, 305266424708000, 467733974278000,
  2466072236080000, 1413276130270000, 1123693803020000, 498178812755000, 582666009926000, 718696222212000,
  31385428694300, 629032662774000, -647364612549000, -659806078449000, -20656037920100, -114299204712000,
  593887287961000, 702062231512000, 183839328834000, -419956382234000, 432886732400000, -81754563027100,
  1141123204030000, 82373392317900, -470149806626000, -403303910361000, -709732086170000, 635850336621000,
  145528844758000, 287287451220000, 680378366108000, -1200204628980000, 225691717471000, 665935094182000,
  -746208658743000, 1145175163350000, 742132958226000, 188241502240000, -1311200218980000, -2158847452390000,
  -308262042966000, 103529123844000, 446226543485000, -389444925619000, -1148563216580000, -874645850396000,
  100101216412000, 225972447542000, 351283765151000, -287516480264000, -538655433290000, -544641221973000,
  -101728261213000, 62532611813300, 291476006270000, 201415320722000, -129945312138000, -61450943176200,
  -17536490106500, 112394241249000, -628473382085000, -319563732100000, 395791893946000, -477212084362000,
  76874741843600, 26194394116400, 222704751677000, -687236432478000, -870938048563000, -856595466210000,
  -922655396238000, -577589734195000, -781212664565000, -715322553675000, -635861885328000, -679811016906000,
  -718637400837000, -306686059009000, -222568304570000, -98336934287200, -433829916575000, -1735427217700000,
  -62228133568000, -1181689608180000, -376698308645000, -559596919541000, -310671340685000, -370888639990000,
  -423601380227000, 234564145219000, 433952915306000, 142580257187000, -449896444709000, -684928104137000,
  -849276272601000, -453722062451000, -733354399261000, -736867393869000, -650728434006000, -815448489157000]

/-- diehard_operm5.h:373-392. -/
def op5Row15 : List Int := [
  78807212621700, 387026004778000, 244544825138000, 544273872863000, 117416486145000, -1167297866310000,
  543369561992000, 596833742143000, 685570362359000, 1733597616590000, 895675841254000, 704208824378000,
  301638553195000, -1224326435290000, -987229649908000, 9514104457340000, 16604170123600, 319368144731000,
  62558658087600, 426348616172000, 826954420328000, 741429879343000, -140380767879000, 314984948426000,
  1390060862750000, 323790008991000, 233851044078000, 1230881342600000, 1463302254980000, 1656124109210000,
  754335481944000, -227483562655000, -388232908528000, -326077886935000, -327086927080000, -424027216807000,
  411196661190000, 609790724766000, 117284223635000, -440884437221000, 255730386708000, -290571696531000,
  1192331627160000, 107416732004000, -382849120087000, -378271517431000, 1335345077870000, -1192430452260000,
  71686381449900, 300527857918000, -1268392407680000, 942849253750000, 362606894482000, 791720330292000,
  929575996071000, -1281697780430000, -1119770460070000, -1678778152130000, 418954888030000, 170108151577000,
  -178446843887000, 248195738147000, 273539255755000, -4384660366970, -715385672093000, -962141229527000,
  6170253131150, 218580016393000, 218522773610000, -414106321047000, -679002948435000, -630970603601000,
  -65550061914700, 520850413776, 351830820868000, 291896715975000, -312338044576000, 204681763800000,
  -49781748456200, -58032342539600, -602998849958000, -470358055171000, 177152941632000, -290566379430000,
  -179190636860000, 237060247004000, 161928012390000, -320809872200000, -809631305473000, -784653437912000,
  -704349262793000, -851024383753000, -693544144105000, -736867393869000, -793679465698000, -747507811941000,
  -427079623153000, -604286677972000, -422556084587000, -143661669760000, -399370888359000, -1676345773740000,
  -939177531702000, -245959713642000, -443922102010000, -630293519068000, -168292210904000, -315759783481000,
  -508978296436000, 155758494558000, 257472739991000, 406630928290000, -684928104137000, -459832563694000,
  -620630988686000, -815841326488000, -619424392149000, -615054479643000, -722139710446000, -570081880516000]

/-- diehard_operm5.h:395-414. -/
def op5Row16 : List Int := [
  144529123062000, 481301106985000, 351366877414000, 616196222431000, -1268143958740000, 82737772615300,
  510925342427000, 411048986679000, 1385279655630000, 291896715975000, 576091246408000, 211615664827000,
  -1240197707430000, 335728059368000, 283654536530000, 16604170123600, 9213653555160000, -1615534578420000,
  -3100571294300, 183082030725000, 358769338251000, 424731476814000, 213648776433000, 102050137931000,
  201415320722000, 1163250472440000, 197189302591000, 129179650177000, -96370492135000, 332517390895000,
  -152362951526000, -77477626436600, -149196964868000, -195176042081000, -205718013166000, 861627206225000,
  -237033491174000, 277259210961000, -383870245603000, 1204590183560000, 729488051492000, 796997978451000,
  40724273872600, 1038041091130000, -1004187954770000, 811963810962000, -156432015213000, -25719774085900,
  -1624024783260000, 373619642794000, 53047570447700, 426622830396000, 717934350437000, 335790524138000,
  436501661673000, 65147201681800, -119922432959000, -7894357475660, -187628143369000, 247431235715000,
  -114582454271000, -450485903284000, -705793411218000, 19345313246300, 568294330736000, 290487823575000,
  -1514655589180000, 441797286516000, -24422298488900, 213971609673000, -1609492043730000, -1955882182500000,
  -202931849394000, -183079589154000, 1699545123050, 120436215199000, 33709911079100, -121452928814000,
  -14394888061800, -234515277457000, -17270830744000, -456923963793000, -445236155393000, -85292398370000,
  -73720848458900, -195883804573000, -334650475961000, 5092808644580, -105123128530000, -174931022596000,
  -251407232447000, -579854447676000, -440445015800000, -659806078449000, -382010252008000, -378922402605000,
  -270739810248000, -304232718639000, -433004449477000, -510130764631000, -1695430235180000, -366840017366000,
  -205981445593000, -277795348368000, -390795863113000, -212699636533000, -61205798947300, -1083104463240000,
  298812055676000, -364730771509000, -153071571540000, -245376070600000, 433952915306000, 257472739991000,
  -420846320503000, -603427973474000, -340654646337000, -326077886935000, -336354084830000, -254663857301000]

/-- diehard_operm5.h:417-436. -/
def op5Row17 : List Int := [
  101893534483000, 399144669601000, 439505757541000, 534531479332000, -1264570441710000, 173634316499000,
  378761175390000, 470113281529000, 1484689417770000, 741429879343000, 618971629783000, 538523171468000,
  -1477458972650000, 569324816715000, 571434286053000, 319368144731000, -1615534578420000, 9303690897470000,
  -191776405385000, 247930316206000, 299133463145000, 687948754021000, 151405062145000, 353162357437000,
  381743460173000, 1257848023690000, 244550709798000, 307354155736000, 330475352149000, 353402648425000,
  -48653465796200, -100719159757000, -421039938474000, -212699636533000, 916556607048000, -281745826544000,
  1282342896220000, 1329704366770000, 803071032466000, -530094184162000, 103203693157000, -325072542614000,
  78307924883200, 916691233076000, 560836397767000, -1090411611620000, 303302590491000, -148524032158000,
  326782880655000, -1437509557120000, 226907424018000, 482287665170000, 485576722241000, 467724015175000,
  549448637986000, 284956457467000, 237667671700000, -211393300786000, 14958062067000, -176475194051000,
  -76848146356900, -62465799725400, 3800883574870, -514903647973000, -335219702054000, -47912394523500,
  183679897869000, -1497169980520000, -1276036805860000, -1796606200960000, -180161412778000, 69967323068600,
  -410591299042000, -108861127329000, 86451127664900, 424731476814000, -15623661684400, 271948844032000,
  284939790460000, 49340397779200, -396373655670000, -567174203167000, 12403950175300, -613796778300000,
  -174888357212000, 222998910694000, 170972351290000, -411294492957000, -467353237935000, -491534081789000,
  -768846714904000, -713738360177000, -552024849453000, -559596919541000, -626867919373000, -645874811277000,
  -434479292116000, -361884557138000, -560682842900000, -141314885590000, -1816473444000000, -277501741267000,
  -85072293385200, -341769576679000, -671315349486000, -303529803528000, -1035306549490000, -181557029447000,
  173375230332000, -318226111466000, -245376070600000, -332889805364000, 142580257187000, 406630928290000,
  -514678983453000, -597302395553000, -386241095315000, -630293519068000, -530466293646000, -522313360386000]

/-- diehard_operm5.h:439-458. -/
def op5Row18 : List Int := [
  -1176026535130000, 238263262964000, 59295151689600, 287699128121000, 347037493945000, 193512326132000,
  240375639965000, 1294236416280000, 187942139897000, 237060247004000, 357441254429000, 177926900938000,
  226290931654000, 289791410635000, 299608668066000, 62558658087600, -3100571294310, -191776405385000,
  9243478191760000, 187872915877000, 128248388672000, 222998910694000, -1464638524850000, -1484005674090000,
  26194394116400, 817510064863, 1172889267800000, 120036859623000, 13582443157600, 192241176595000,
  -192153663320000, -1044597404650000, 935576439192000, 1204590183560000, 261461575929000, 222376399657000,
  196844187389000, -68527678543800, 438226922329000, 356684831254000, -54616244107700, 286356084676000,
  -109661117536000, -138754417573000, -111372675128000, 172765665257000, -111357560461000, 287309717622000,
  41919601099200, -191084817595000, 157698579440000, -23398577662500, -177000131659000, -77143447541100,
  -640891589527000, -120420235933000, -215700853736000, -49148324301700, 26523199491100, 82907160707300,
  -6478289948340, -1398642048160, -99512419110300, -23036202641100, -8597379993840, 988998691768000,
  -115480161496000, -473130890527000, 517250072782000, 713294881956000, -136735936182000, 854277559021000,
  -1473039643830000, -37980194354800, -204207166717000, -195883804573000, 526249155547000, 402652212184000,
  -166259948970000, -200355051992000, -130237338382000, -34417682336900, -253679733505000, 119191624916000,
  267912768460000, 96037871161100, -148444614454000, 93477714525600, 314499930424000, 65926157058000,
  -1761002533040000, -307743593625000, -218365247431000, -419956382234000, -1888968834030000, -1985823507030000,
  -1556112555510000, -125286666352000, -502467448805000, -443349551400000, -267053226402000, -515925382175000,
  -298718992499000, -410554906252000, -487087529660000, -530094184162000, -453452165872000, -169920580331000,
  -108325212653000, -329390863627000, -205981445593000, -85072293385200, -62228133568000, -939177531702000,
  434231891950000, -331927402712000, -227640071874000, -440884437221000, 323042948793000, 231078513921000]

/-- diehard_operm5.h:461-480. -/
def op5Row19 : List Int := [
  216993674850000, -1083438350930000, 322581106136000, 46661529038800, 165442854956000, 112297208977000,
  1107964915790000, 195804453141000, 217686565290000, 218580016393000, 117390695484000, 310532137185000,
  89712520473800, 216723095516000, 200550909998000, 426348616172000, 183082030725000, 247930316206000,
  187872915877000, 9364261020940000, -1579056035610000, -1497169980520000, 294467407897000, 168664098403000,
  225972447542000, 260278409476000, 246454329810000, 1147623960340000, 238818731746000, 60640147297400,
  -1072808052750000, -18843899876100, -15602566946800, 247431235715000, 1106760359140000, 1212892946350000,
  -53882363314900, 271510318704000, -26779210105300, 82907160707300, 319550859524000, 162075751509000,
  58098275352200, -29517057558400, -20166105304700, 160500993770000, 155050062551000, 42984644357600,
  -451946838500000, -319998558894000, -137410684853000, 114479443151000, 29256496695800, 104860798325000,
  148147473050000, -457224088644000, 40127778542000, 91878259164000, 65126587529200, -5826420729110,
  -218819474404000, -248488946318000, -87645061486400, -146089485254000, 759505512494000, -230163312917000,
  771072711834000, 906274797268000, -128003934163000, 5556784678290, 767248056184000, -261762276351000,
  -165035733438000, -1529788411640000, 147846360711000, 441797286516000, 73391909973500, -69574109909500,
  237222909638000, 27984360803500, 165480029254000, 178263563452000, 163938994047000, 188972013476000,
  -401214234100000, -473130890527000, -213068687021000, -22280848864200, -267538276240000, -60786252486800,
  -226857129554000, -1782249160680000, -1870964526610000, -2158847452390000, -381099339358000, -275213165922000,
  -212754545184000, -1702162525000000, -448983028873000, -605454160848000, -97384916687400, -255234384466000,
  -410554906252000, -191383293954000, -153452144760000, -176475194051000, -585849699332000, -769733034196000,
  -97973346289800, -298679387144000, -277795348368000, -341769576679000, -1181689608180000, -245959713642000,
  -259637492575000, 397463653510000, 379095739238000, 170108151577000, -315950591385000, -169030572390000]

/-- diehard_operm5.h:483-502. -/
def op5Row20 : List Int := [
  201281383095000, -1235829584520000, 293931202527000, 102899668126000, 196270324942000, 110735995817000,
  1321372680240000, 407022363329000, 361855263797000, 300527857918000, 209320522335000, 415892129831000,
  -15831985791900, 370110750688000, 470811456921000, 826954420328000, 358769338251000, 299133463145000,
  128248388672000, -1579056035610000, 9274903098980000, -1437509557120000, 289820975974000, 344568326186000,
  287287451220000, 305273950099000, 349246198396000, 1106142156360000, 267799341696000, 119761159601000,
  775620353226000, 13755430028200, -129586693892000, 19345313246300, -783212364819000, 793840729882000,
  604429774214000, 559187838003000, 282235210499000, -23036202641100, 206849456445000, 139656074305000,
  192792536871000, 225917246856000, -264461858054000, -90102895311800, 462879146440000, 61845466688700,
  1141590726850000, 1100672615240000, 405940570669000, 213910789756000, 864381642659000, 141439353302000,
  269155885333000, 461452225228000, -94080187703200, 181968452702000, -5677761772970, -146089485254000,
  448066186429000, -278247617573000, -185841628415000, -273796049663000, -734212250355000, -623340209851000,
  -309523932096000, -319998558894000, -235072651678000, -275719522516000, -388179659482000, -210738078932000,
  -70115031390700, 98243786894000, -1594801584320000, 373619642794000, 58690482588900, 202175215248000,
  754195229339000, -1274971040770000, -1801697508100000, -2103304812200000, 448072367247000, 70269494477200,
  -250966202192000, -191084817595000, 83533697427300, -290899564007000, -765647231212000, -335210644563000,
  -613678692008000, -379742931057000, 121387395923000, -389444925619000, -703436867550000, -529810362710000,
  -304136462819000, -1808744366840000, -215868159775000, -414858224039000, -299859433160000, -473280164616000,
  -487087529660000, -153452144760000, -250996423442000, -514903647973000, -93625112603700, -525391663395000,
  -1054583017590000, -274395919415000, -390795863113000, -671315349486000, -376698308645000, -443922102010000,
  -418361147861000, 84618224121800, 502034622785000, -4384660366960, -551170646267000, -421925717124000]

/-- diehard_operm5.h:505-524. -/
def op5Row21 : List Int := [
  170972351290000, -1276036805860000, 237667671700000, 103203693157000, 12403950175300, 303302590491000,
  1282342896220000, 284956457467000, 226907424018000, 319368144731000, 330475352149000, 538523171468000,
  284939790460000, 78307924883100, 381743460173000, 741429879343000, 424731476814000, 687948754021000,
  222998910694000, -1497169980520000, -1437509557120000, 9303690897470000, 271948844032000, 353162357437000,
  571434286053000, 482287665170000, 549448637986000, 1329704366770000, 618971629783000, 353402648425000,
  803071032466000, 14958062067000, 3800883574870, -245376070600000, 916556607048000, -1035306549490000,
  378761175390000, 307354155736000, -48653465796200, -85072293385200, 534531479332000, -141314885590000,
  569324816715000, 467724015175000, -62465799725400, -318226111466000, 173634316499000, -277501741267000,
  86451127664900, 299133463145000, 1484689417770000, 1257848023690000, 49340397779200, 916691233076000,
  244550709798000, 470113281529000, 439505757541000, -560682842900000, -100719159757000, -341769576679000,
  -396373655670000, 560836397767000, -421039938474000, -671315349486000, -552024849453000, -386241095315000,
  -108861127329000, 247930316206000, 399144669601000, -361884557138000, -713738360177000, -597302395553000,
  -174888357212000, 183679897869000, 326782880655000, -1615534578420000, -15623661684400, 151405062145000,
  -1477458972650000, 485576722241000, -76848146356900, 173375230332000, -1264570441710000, -1816473444000000,
  -410591299042000, -191776405385000, 101893534483000, -434479292116000, -768846714904000, -514678983453000,
  -467353237935000, -180161412778000, -335219702054000, 142580257187000, -626867919373000, -530466293646000,
  -411294492957000, -1796606200960000, -211393300786000, -325072542614000, -613796778300000, -148524032158000,
  -530094184162000, -176475194051000, -514903647973000, -332889805364000, -281745826544000, -181557029447000,
  -567174203167000, -1090411611620000, -212699636533000, -303529803528000, -559596919541000, -630293519068000,
  -491534081789000, 69967323068600, -47912394523500, 406630928290000, -645874811277000, -522313360386000]

/-- diehard_operm5.h:527-546. -/
def op5Row22 : List Int := [
  -1257370718420000, 90823575480900, 85474529868300, 230547304932000, 210113876234000, 232430877087000,
  164544241710000, 1144420990560000, 131728951722000, 204681763800000, 396775742616000, 233797744968000,
  401280807894000, 73598843624600, 305266424708000, -140380767879000, 213648776433000, 151405062145000,
  -1464638524850000, 294467407897000, 289820975974000, 271948844032000, 9265781171540000, -1519985714200000,
  -61450943176200, 114597346545000, 1072870140560000, 403107288934000, 300380912726000, 468667942184000,
  178584284172000, 866578251209000, -706529346522000, 861627206225000, -141387342026000, -137831976503000,
  127190685484000, 145683591274000, -54158875330100, 222376399657000, 22897020724800, 75235839771800,
  119185087310000, 297337347268000, 213889983533000, -105467036139000, -165265185841000, 19149821326900,
  175832614461000, 202175215248000, -64295791416600, 292767457208000, 208159759315000, 19460594319500,
  64601877745700, -304675227459000, 673360604526000, 733279444374000, -468783610204000, 1212892946350000,
  -232574635157000, -482797426774000, -573844782065000, 793840729882000, 21665185312500, -70232138338300,
  -10261216878300, -69574109909500, -257697065912000, -113547734156000, -119535906150000, -227303616948000,
  266720371507000, 27761611853300, -60167662853300, -121452928814000, -1759874022660000, 6818137073660,
  -265468288836000, -52066932345900, -62725834438100, -37120701986200, -305199614679000, 11582023533700,
  -1532857981950000, 402652212184000, -302612919136000, 69220743145200, -1516687251730000, -2078294739550000,
  -54063794214900, -256168688630000, -440138514720000, -114299204712000, 380636994282000, 34272187013900,
  -1784818972040000, -480044307096000, -386961435551000, -266162830552000, -324361929777000, -354614834121000,
  -453452165872000, -585849699332000, -93625112603700, -281745826544000, -164566691985000, -150296632734000,
  -275853109518000, -173724798100000, -61205798947300, -1035306549490000, -310671340685000, -168292210904000,
  277691764137000, -393903347767000, -572021533230000, -424027216807000, 487083197795000, 185902383774000]

/-- diehard_operm5.h:549-568. -/
def op5Row23 : List Int := [
  -1386473226860000, 140680050611000, 86615445419000, 252173697735000, 170988267819000, 304187382428000,
  360711007986000, 1213250787360000, 272936358630000, 314984948426000, 559392466674000, 400304809629000,
  165867317606000, 277936969810000, 467733974278000, 314984948426000, 102050137931000, 353162357437000,
  -1484005674090000, 168664098403000, 344568326186000, 353162357437000, -1519985714200000, 9543613125370000,
  467733974278000, 157770453761000, 1070751525350000, 292665381643000, 559392466674000, 698051591347000,
  180036779883000, 902880381129000, 909063855211000, -1083104463240000, -67535871895900, -150296632734000,
  360711007986000, 292665381643000, 180036779883000, -169920580331000, 252173697735000, -100718051189000,
  277936969810000, 88823159435300, -72646491944200, -128902728442000, 304187382428000, -174755203283000,
  172996653042000, 344568326186000, 272936358630000, 157770453761000, 65783913265100, 88823159435300,
  1070751525350000, 1213250787360000, 86615445419000, -327561900621000, 902880381129000, -769733034196000,
  -270772471001000, -72646491944200, 909063855211000, -525391663395000, -575346587156000, -649664214697000,
  -35402980196400, 168664098403000, 140680050611000, -391494167754000, -349132852619000, -378877759863000,
  217786885862000, -35402980196400, 172996653042000, 102050137931000, 22034580076100, -1519985714200000,
  165867317606000, 65783913265100, -270772471001000, -345806031990000, 170988267819000, -474087329353000,
  217786885862000, -1484005674090000, -1386473226860000, -2140306424410000, -237328471558000, -200135462423000,
  -237328471558000, -349132852619000, -575346587156000, -370888639990000, -138620940730000, 47052325330400,
  -2140306424410000, -391494167754000, -327561900621000, -100718051189000, -474087329353000, -174755203283000,
  -169920580331000, -769733034196000, -525391663395000, -181557029447000, -150296632734000, -319605235187000,
  -345806031990000, -128902728442000, -1083104463240000, -181557029447000, -370888639990000, -315759783481000,
  -200135462423000, -378877759863000, -649664214697000, -315759783481000, 47052325330400, 158839264994000]

/-- diehard_operm5.h:571-590. -/
def op5Row24 : List Int := [
  222704751677000, 351283765151000, 742132958226000, 432886732399000, 395791893946000, -709732086170000,
  593887287961000, 1145175163350000, 680378366108000, -987229649908000, 582666009926000, 583649997367000,
  -17536490106500, 1141123204030000, 2466072236080000, 1390060862750000, 201415320722000, 381743460173000,
  26194394116300, 225972447542000, 287287451220000, 571434286053000, -61450943176200, 467733974278000,
  9866846183070000, -1200204628980000, -746208658743000, 702062231512000, 731803758939000, 718696222212000,
  183839328834000, -1311200218980000, 446226543485000, 433952915306000, -20656037920100, -310671340685000,
  527981451917000, 498178812755000, 31385428694300, -62228133568000, 366237190690000, -98336934287200,
  -1096961967370000, 665935094182000, 103529123844000, 234564145219000, -1123852794780000, -1735427217700000,
  291476006270000, 470811456921000, 347335810570000, 1413276130270000, 112394241249000, 82373392317900,
  1123693803020000, 126119834948000, 275496955568000, -222568304570000, 629032662774000, -1181689608180000,
  -628473382085000, -470149806626000, -647364612549000, -376698308645000, -781212664565000, -733354399261000,
  62532611813300, 200550909998000, 176170682652000, -306686059009000, -577589734195000, -453722062451000,
  76874741843600, 100101216412000, 145528844758000, 283654536530000, -129945312138000, 305266424708000,
  409190734571000, 225691717471000, -308262042966000, -423601380227000, 139081975589000, -433829916575000,
  -101728261213000, 299608668066000, 217703943527000, -718637400837000, -922655396238000, -849276272601000,
  -870938048563000, -538655433290000, -1148563216580000, -449896444709000, -635861885328000, -650728434006000,
  -687236432478000, -287516480264000, 188241502240000, -81754563027100, -477212084362000, 635850336621000,
  -419956382234000, -2158847452390000, -389444925619000, 142580257187000, -114299204712000, -370888639990000,
  -319563732100000, -403303910361000, -659806078449000, -559596919541000, -715322553675000, -736867393869000,
  -856595466210000, -544641221973000, -874645850396000, -684928104137000, -679811016906000, -815448489157000]

/-- diehard_operm5.h:593-612. -/
def op5Row25 : List Int := [
  193731693654000, 372182254444000, 785572434880000, 539916098902000, -723976744124000, 385417816513000,
  613080095654000, 1170347912760000, -1200894313000000, 942849253750000, 542245148490000, 564316448556000,
  1139822559530000, -24262443420100, 1413276130270000, 323790008991000, 1163250472440000, 1257848023690000,
  817510064861, 260278409476000, 305273950099000, 482287665170000, 114597346545000, 157770453761000,
  -1200204628980000, 9472986961590000, -861710023958000, 510529079514000, 349249165404000, 332405577632000,
  -118330443691000, -1461128114530000, 492079954057000, 568294330736000, 150969080752000, 21665185312500,
  584810605862000, 585134547356000, 339335561421000, -8597379993840, 483644746149000, 102605720546000,
  926811669461000, -1221029955190000, -1807862096120000, -1772148135540000, 427517288855000, 530877759488000,
  112338280046000, 213910789756000, 415777877683000, 1515807479430000, 101326108039000, 132288537996000,
  1380487633060000, 218987516681000, 134264207773000, -237331479701000, -990097087751000, 759505512494000,
  -279810435903000, -432478909853000, -429947966233000, -734212250355000, -841736996603000, -700279693580000,
  -33200104184100, 114479443151000, 11606651766600, -377733627693000, -647950333593000, -570466629849000,
  -23451134727000, 34198652827600, 112502630644000, 426622830396000, 150831284227000, 292767457208000,
  268655900288000, 82185355121900, -535965896485000, -253196272433000, 26696458573700, 88858324948000,
  -205191827869000, -23398577662500, -544848887444000, -143305365901000, -344409149145000, -345626513000000,
  -864938121805000, -706730433692000, -628804067827000, -1148563216580000, -703341058696000, -739504638297000,
  -559032944961000, -242109281648000, 92648166524600, -174931105086000, 634108150200000, -470370169779000,
  -218365247431000, -1870964526610000, 121387395923000, -335219702054000, -440138514720000, -575346587156000,
  -436964974991000, -338273805882000, -440445015800000, -552024849453000, -781212664565000, -693544144105000,
  -761785716243000, -735459035667000, -601767315498000, -715385672093000, -646198437092000, -573626900280000]

/-- diehard_operm5.h:615-634. -/
def op5Row26 : List Int := [
  -841395982155000, 282412258514000, 691329582535000, 426729074902000, 427652301649000, 435351409207000,
  564432273403000, -829754156395000, 721247353087000, 929575996071000, 525351092114000, 536585346694000,
  163364398023000, 122098483369000, 1123693803020000, 233851044078000, 197189302591000, 244550709798000,
  1172889267800000, 246454329810000, 349246198396000, 549448637986000, 1072870140560000, 1070751525350000,
  -746208658743000, -861710023958000, 10287300033700000, 625670358802000, 511985745270000, 490918856470000,
  -42468735622000, -3191897391660000, -1785741159660000, -1609492043730000, -6623816763930, -119535906150000,
  493464750296000, 653891567913000, -27249757981500, -136735936182000, 317949645052000, 10098160067300,
  733859822326000, 606537020449000, 53246967508400, 135133816440000, 228500868480000, 391173751298000,
  207207252862000, 269155885333000, 252357226846000, 1380487633060000, 359856635699000, 310256892136000,
  -521236288663000, 491037153642000, 290077588087000, 11039618643100, 955041595013000, 767248056184000,
  -439348055773000, -494217489682000, -321798506775000, -388179659482000, -647950333593000, -470767664646000,
  51578186735300, 148147473050000, 259871803433000, -64411816780300, -433084423350000, -300247208670000,
  30691458668100, 59847844513700, 206949985359000, 436501661673000, 9779043988230, 64601877745700,
  318541284620000, 181135952795000, -396916466957000, -292596621497000, -177820375188000, -40240686448600,
  -373188144194000, -640891589527000, -288743618262000, -182528689767000, -384681126387000, -358332670710000,
  -753423166744000, -519815138695000, -706730433692000, -538655433290000, -572755448944000, -1303981381200000,
  395300330661000, -406087251037000, -6222952963450, -183014139735000, -378301578534000, -378092960240000,
  -307743593625000, -1782249160680000, -379742931057000, -180161412778000, -256168688630000, -349132852619000,
  -349052670024000, -362453739721000, -579854447676000, -713738360177000, -577589734195000, -851024383753000,
  -1008696088610000, -852814552557000, -994818435373000, -679002948435000, -678794619835000, -1017404823570000]

/-- diehard_operm5.h:637-656. -/
def op5Row27 : List Int := [
  178089271632000, -839291090002000, 524659988964000, 842273496448000, 323350409469000, 304775298559000,
  -833851406616000, 486683987463000, 394284580098000, 609790724766000, 869796976280000, 706585597865000,
  299488054707000, 333357224677000, 498178812755000, 1230881342600000, 129179650177000, 307354155736000,
  120036859623000, 1147623960340000, 1106142156360000, 1329704366770000, 403107288934000, 292665381643000,
  702062231512000, 510529079514000, 625670358802000, 10273984061700000, -937774635473000, -753144107416000,
  -3230954098930000, -42523642337000, -331243791773000, -105123128530000, -1410073884230000, -1516687251730000,
  954021935880000, 959785708953000, 384465259820000, 314499930424000, 644221687032000, 181852923469000,
  524852905716000, 312219281403000, -310406777656000, -178235877809000, 228514157604000, -56111443696500,
  362078617726000, 559187838003000, 1553497773040000, 585134547356000, 346667425859000, 394431849865000,
  653891567913000, -529735570343000, 891907078347000, 444558063180000, 99214246153200, -267538276240000,
  -196636597240000, -159619979390000, -220778938257000, -765647231212000, -344409149145000, -683419264548000,
  68895787956900, 271510318704000, 57398329404900, -361315415637000, -384681126387000, -788914111836000,
  -40548544722800, 30335811658800, 50124328302900, 277259210961000, 272940983215000, 145683591274000,
  309071169008000, 106590212299000, -517763354174000, -403545319173000, -2064016879210, -278206804744000,
  -297318505675000, -68527678543800, -208846228834000, -409790992519000, -260446624975000, -583850222330000,
  -610713465110000, -753423166744000, -864938121805000, -870938048563000, -1245122148060000, -704252427141000,
  -360435018208000, 538238026713000, -240015513230000, -35897155202600, -330981984540000, -358084102688000,
  -1761002533040000, -226857129554000, -613678692008000, -467353237935000, -54063794214900, -237328471558000,
  -729749260730000, -737680265761000, -251407232447000, -768846714904000, -922655396238000, -704349262793000,
  -790607148418000, -850314641749000, -844202922569000, -809631305473000, -933786975830000, -675964659113000]

/-- diehard_operm5.h:659-678. -/
def op5Row28 : List Int := [
  172684525309000, 551065378265000, 768438220043000, -6798830473090, 276659868630000, 276355973272000,
  2348732533830000, 780962418292000, 614401133253000, 895675841254000, 2119065301240000, -20102844330800,
  335725030544000, 343150830196000, 582666009926000, 1463302254980000, -96370492135000, 330475352149000,
  13582443157600, 238818731746000, 267799341696000, 618971629783000, 300380912726000, 559392466674000,
  731803758939000, 349249165404000, 511985745270000, -937774635473000, 9505495735110000, -1069005025800000,
  -1477531242990000, -28835077080600, -305018339346000, -336354084830000, 519487052725000, 487083197795000,
  -1360046201300000, 869796976280000, 317239108681000, 323042948793000, -1246585631580000, -1577146963970000,
  557269052947000, 167444252606000, -337577633747000, -261517726585000, 604967090955000, -417525572483000,
  -148303979002000, 209320522335000, 1328184057650000, 542245148490000, 326675519699000, 317903115692000,
  525351092114000, 1313791984170000, 1203682255250000, -1273599228230000, -45321232534900, -315950591385000,
  -299515736580000, -276899080156000, -280677249714000, -551170646267000, -646198437092000, -657582963161000,
  -300379402614000, 117390695484000, 28331512615800, -304768959184000, -678794619835000, -742705630041000,
  -139758341021000, 267602940790000, 278643342225000, 576091246408000, 143073220478000, 396775742616000,
  422568698788000, 21968648645200, -473781547117000, -390690736715000, 463861937546000, -549689862569000,
  96356173030800, 357441254429000, 424056105166000, -603443377457000, -933786975830000, -1188936352320000,
  -704252427141000, -1303981381200000, -739504638297000, -650728434006000, -867247228685000, -726558298022000,
  -423299685560000, -736658175599000, -499338303655000, 860717933673000, -314490568256000, -293284896764000,
  -1985823507030000, -275213165922000, -529810362710000, -530466293646000, 34272187013900, 47052325330400,
  -384237277717000, -379629591723000, -378922402605000, -645874811277000, -679811016906000, -747507811941000,
  -762228100824000, -868936039712000, -652606891117000, -722139710446000, -1082038661550000, -941793008863000]

/-- diehard_operm5.h:681-700. -/
def op5Row29 : List Int := [
  381509686603000, 243697755210000, -555402788282000, 835094501318000, 482579845901000, 496993552301000,
  1108837371530000, 1528332153160000, 1367630178790000, 1656124109210000, -1069005025800000, 694511364434000,
  496241427809000, 508742069869000, 718696222212000, 1656124109210000, 332517390895000, 353402648425000,
  192241176595000, 60640147297400, 119761159601000, 353402648425000, 468667942184000, 698051591347000,
  718696222212000, 332405577632000, 490918856470000, -753144107416000, -1069005025800000, 9876456812020000,
  -1329658859450000, -92890284398500, -444273544243000, -382010252008000, 883892629996000, 380636994282000,
  1108837371530000, -753144107416000, -1329658859450000, -1888968834030000, 835094501318000, 102558937862000,
  508742069869000, 153728882691000, -381440143326000, -341068706800000, 496993552301000, -529277408478000,
  69158768763500, 119761159601000, 1367630178790000, 332405577632000, 136958351942000, 153728882691000,
  490918856470000, 1528332153160000, -555402788282000, 838996332437000, -92890284398500, -381099339358000,
  -378125589665000, -381440143326000, -444273544243000, -703436867550000, -703341058696000, -933963865749000,
  115099202692000, 60640147297400, 243697755210000, -486937681595000, -572755448944000, -653319254708000,
  49351113992400, 115099202692000, 69158768763500, 332517390895000, 278891110681000, 468667942184000,
  496241427809000, 136958351942000, -378125589665000, -349946492897000, 482579845901000, -533485524048000,
  49351113992400, 192241176595000, 381509686603000, -640393467745000, -1245122148060000, -979598600926000,
  -1245122148060000, -572755448944000, -703341058696000, -635861885328000, -753425426384000, -867247228685000,
  -640393467745000, -486937681595000, 838996332437000, 102558937862000, -533485524048000, -529277408478000,
  -1888968834030000, -381099339358000, -703436867550000, -626867919373000, 380636994282000, -138620940730000,
  -349946492897000, -341068706800000, -382010252008000, -626867919373000, -635861885328000, -793679465698000,
  -979598600926000, -653319254708000, -933963865749000, -793679465698000, -867247228685000, -1078158270170000]

/-- diehard_operm5.h:703-722. -/
def op5Row30 : List Int := [
  -61089468485500, 866481634482000, 83991923549400, 360249764016000, -83151602608200, -172833866992000,
  -1476250520360000, 6884749559510, -105510526828000, 117284223635000, 317239108681000, 142851903350000,
  62460250858600, -52354328077400, 31385428694300, 754335481944000, -152362951526000, -48653465796200,
  -192153663320000, -1072808052750000, 775620353226000, 803071032466000, 178584284172000, 180036779883000,
  183839328834000, -118330443691000, -42468735622000, -3230954098930000, -1477531242990000, -1329658859450000,
  9558856130060000, -77532909876500, 40164758829700, -73720848458900, -1504328811930000, -1532857981950000,
  472477703040000, 384465259820000, 327695081497000, 267912768460000, 294831173152000, 156010340800000,
  -51840816269900, -7134802820700, -25309131695200, -98100061593500, 252120643985000, -60702859229300,
  165895067518000, 282235210499000, -784888069700000, 339335561421000, 131823289283000, 239181914006000,
  -27249757981500, 1007304985430000, 632770429109000, 438149458079000, -161785491827000, -401214234100000,
  -189452057505000, 22084681719700, -72181088803300, -250966202192000, -205191827869000, 45068862723500,
  -113007910406000, -26779210105300, 11039646268100, -270812576928000, -373188144194000, -123652875064000,
  -80797569844900, 168797633181000, -67363330904900, -383870245603000, -350345230039000, -54158875330100,
  -315515491248000, -75593166423300, -174089982198000, -213442715547000, 55947617458200, -268666481829000,
  468499435657000, 438226922329000, 215730956894000, -236678986350000, -297318505675000, 8728167739140,
  -40548544722700, 30691458668100, -23451134727000, 76874741843600, 49351113992400, -139758341021000,
  -252050917818000, 442099749479000, -134997010910000, 244549621665000, -132677197557000, -119832194615000,
  -1473039643830000, -165035733438000, -70115031390700, -174888357212000, 266720371507000, 217786885862000,
  -145370351642000, 75252343797300, -202931849394000, -410591299042000, -101728261213000, -65550061914700,
  64806010535600, -131988516118000, -242287091649000, -179190636860000, 96356173030800, -82276162712000]

/-- diehard_operm5.h:725-744. -/
def op5Row31 : List Int := [
  779473120283000, 6983596632960, 238836929911000, -32981523499000, 105528116547000, -15970586331800,
  11946267914400, -1425152331150000, 256894077997000, 418954888030000, -45321232534900, -675287102232,
  -115408470499000, -226824927103000, 629032662774000, -227483562655000, -77477626436600, -100719159757000,
  -1044597404650000, -18843899876100, 13755430028200, 14958062067000, 866578251209000, 902880381129000,
  -1311200218980000, -1461128114530000, -3191897391660000, -42523642337000, -28835077080600, -92890284398500,
  -77532909876500, 9425527881080000, -1483566270790000, -1514655589180000, -48084813714000, -10261216878300,
  -21762123229800, 99214246153200, -161785491827000, -115480161496000, 8245104493750, -32468263739700,
  172187882714000, 273461452022000, 276337481959000, 263094122274000, 276544260503000, 375027773845000,
  -8708702396590, -5677761772970, 51413621244100, -990097087751000, 120692085121000, 184284292672000,
  955041595013000, -116301986843000, 50313844441300, -37704024234900, 566463862396000, 771072711834000,
  -138639355346000, 20825547463100, -332096648140000, -309523932096000, -33200104184100, -249753689780000,
  -616635518708, 65126587529200, 24351448852900, -87737685616900, 51578186735300, -150142740200000,
  168797633181000, -29883167502300, 65288881480700, -187628143369000, -242952720868000, -468783610204000,
  -285326303442000, -23066796293100, -110748966817000, -30805504142700, -81181519780300, -82209928325000,
  -113007910406000, 26523199491100, 202872233283000, 226535029574000, 68895787956900, -214215935276000,
  30335811658800, 59847844513700, 34198652827600, 100101216412000, 115099202692000, 267602940790000,
  305921950333000, -183309503743000, 194203511105000, -8463871436680, -203263840131000, -227239000576000,
  -37980194354800, -1529788411640000, 98243786894000, 183679897869000, 27761611853300, -35402980196400,
  -53243221348800, 112185793523000, -183079589154000, -108861127329000, 62532611813300, 520850413772,
  -302221399632000, 5307627242690, -38021096143000, 6170253131150, -300379402614000, -172460020986000]

/-- diehard_operm5.h:747-766. -/
def op5Row32 : List Int := [
  812910672884000, 84050123741800, 205840148048000, -37461965966300, -28843336088600, -149399239261000,
  -132629124690000, -1853897438610000, 401875400135000, 273539255755000, -280677249714000, -202802672410000,
  -167373580774000, 886483341561000, -647364612549000, -388232908528000, -149196964868000, -421039938474000,
  935576439192000, -15602566946800, -129586693892000, 3800883574870, -706529346522000, 909063855211000,
  446226543485000, 492079954057000, -1785741159660000, -331243791773000, -305018339346000, -444273544243000,
  40164758829700, -1483566270790000, 9278539280950000, -1624024783260000, 73656690047500, 175832614461000,
  -281004665660000, -220778938257000, -72181088803300, 41919601099200, -167990502431000, 163743331504000,
  -2149125395980000, -1573887625140000, -1113906708120000, 739312816784000, 282072520664000, 582889224441000,
  -104954137496000, -185841628415000, -351454627695000, -429947966233000, 88217711070700, -1139783705660000,
  -321798506775000, -137163023510000, -219163227797000, -148564295720000, -332096648140000, -451946838500000,
  -64253265342700, 880731107037000, 1077796497590000, 1141590726850000, 112338280046000, 338103514287000,
  -8708702396590, -87645061486400, -7623302751880, 141674265601000, 207207252862000, 442154249574000,
  -67363330904900, 65288881480700, -40089330274500, -705793411218000, -143426408258000, -573844782065000,
  -550478634897000, -332897663818000, 241906046605000, 134710462072000, -120360863110000, 235700464670000,
  165895067518000, -99512419110300, 132144544549000, -79413334296100, 362078617725000, 730349562037000,
  50124328302900, 206949985359000, 112502630644000, 145528844758000, 69158768763500, 278643342225000,
  580288007867000, -116880599602000, -3348585249310, -139501835562000, -288072342083000, -265884432854000,
  -204207166717000, 147846360711000, -1594801584320000, 326782880655000, -60167662853300, 172996653042000,
  140874140874000, -96676368430400, 1699545123050, 86451127664900, 291476006270000, 351830820868000,
  -183170587234000, 205301896597000, 105158253708000, 71686381449900, -148303979002000, -4243970352940]

/-- diehard_operm5.h:769-788. -/
def op5Row33 : List Int := [
  796997978451000, -7894357475660, 213971609673000, 5092808644590, -25719774085900, -85292398370000,
  -174931022596000, -1955882182500000, 290487823575000, 257472739991000, -378922402605000, -254663857301000,
  811963810962000, -456923963793000, -659806078449000, -326077886935000, -195176042081000, -212699636533000,
  1204590183560000, 247431235715000, 19345313246300, -245376070600000, 861627206225000, -1083104463240000,
  433952915306000, 568294330736000, -1609492043730000, -105123128530000, -336354084830000, -382010252008000,
  -73720848458900, -1514655589180000, -1624024783260000, 9213653555160000, 33709911079100, 213648776433000,
  -420846320503000, -251407232447000, -202931849394000, -3100571294300, -270739810248000, 144529123062000,
  298812055676000, -114582454271000, 717934350437000, -1240197707430000, -1695430235180000, -1268143958740000,
  -149196964868000, -390795863113000, -340654646337000, -440445015800000, -1004187954770000, -17270830744000,
  -579854447676000, -603427973474000, -304232718639000, 481301106985000, -183079589154000, 183082030725000,
  1038041091130000, -234515277457000, 1699545123050, 358769338251000, 1163250472440000, 1385279655630000,
  -77477626436600, -277795348368000, -433004449477000, 351366877414000, 197189302591000, 411048986679000,
  -383870245603000, -187628143369000, -705793411218000, -153071571540000, -205718013166000, -61205798947300,
  -364730771509000, -450485903284000, 335790524138000, 335728059368000, -366840017366000, 82737772615300,
  -152362951526000, -205981445593000, -510130764631000, 616196222431000, 129179650177000, 510925342427000,
  277259210961000, 436501661673000, 426622830396000, 283654536530000, 332517390895000, 576091246408000,
  729488051492000, -119922432959000, -24422298488900, -334650475961000, -156432015213000, -445236155393000,
  -195883804573000, 441797286516000, 373619642794000, -1615534578420000, -121452928814000, 102050137931000,
  40724273872600, -14394888061800, 120436215200000, 424731476814000, 201415320722000, 291896715975000,
  -237033491174000, 65147201681800, 53047570447700, 16604170123600, -96370492135000, 211615664827000]

/-- diehard_operm5.h:791-810. -/
def op5Row34 : List Int := [
  -19580132941400, 773624059467000, -132849163946000, 251277142788000, -101550367500000, 35957367601500,
  -1636065878860000, -150027454550000, 30416135488700, -327086927080000, 519487052725000, 138599815357000,
  -87354768147500, 24191228248700, -20656037920100, -327086927080000, -205718013166000, 916556607048000,
  261461575929000, 1106760359140000, -783212364819000, 916556607048000, -141387342026000, -67535871895900,
  -20656037920100, 150969080752000, -6623816763930, -1410073884230000, 519487052725000, 883892629996000,
  -1504328811930000, -48084813714000, 73656690047500, 33709911079100, 8957516331700000, -1759874022660000,
  -1636065878860000, -1410073884230000, -1504328811930000, 526249155547000, 251277142788000, 28344839227500,
  24191228248700, -94851287154500, 176478425866000, -37687068632300, 35957367601500, -140296912034000,
  -143426408258000, -783212364819000, 30416135488700, 150969080752000, -180231008148000, -94851287154500,
  -6623816763930, -150027454550000, -132849163946000, -405226447797000, -48084813714000, 73391909973500,
  131873349495000, 176478425866000, 73656690047500, 58690482588900, 150831284227000, -139059221097000,
  -242952720868000, 1106760359140000, 773624059467000, 633445073191000, 9779043988220, -349650206722000,
  -350345230039000, -242952720868000, -143426408258000, -205718013166000, -150120357998000, -141387342026000,
  -87354768147500, -180231008148000, 131873349495000, -67588848294400, -101550367500000, -296608171915000,
  -350345230039000, 261461575929000, -19580132941400, -130327712967000, 272940983215000, -52704934016100,
  272940983215000, 9779043988230, 150831284227000, -129945312138000, 278891110681000, 143073220478000,
  -130327712967000, 633445073191000, -405226447797000, 28344839227500, -296608171915000, -140296912034000,
  526249155547000, 73391909973500, 58690482588900, -15623661684400, -1759874022660000, 22034580076100,
  -67588848294400, -37687068632300, 33709911079100, -15623661684400, -129945312138000, -312338044576000,
  -52704934016100, -349650206722000, -139059221097000, -312338044576000, 143073220478000, 17065799026200]

/-- diehard_operm5.h:813-832. -/
def op5Row35 : List Int := [
  75235839771800, 733279444374000, -113547734156000, 69220743145200, 19149821326900, 11582023533700,
  -2078294739550000, -227303616948000, -70232138338300, -168292210904000, 34272187013900, 185902383774000,
  -105467036139000, -37120701986200, -114299204712000, -424027216807000, 861627206225000, -281745826544000,
  222376399657000, 1212892946350000, 793840729882000, -1035306549490000, -137831976503000, -150296632734000,
  -310671340685000, 21665185312500, -119535906150000, -1516687251730000, 487083197795000, 380636994282000,
  -1532857981950000, -10261216878300, 175832614461000, 213648776433000, -1759874022660000, 9265781171540000,
  277691764137000, -54063794214900, 266720371507000, -1464638524850000, -1784818972040000, -1257370718420000,
  -275853109518000, -232574635157000, 208159759315000, 401280807894000, -324361929777000, 210113876234000,
  -706529346522000, -93625112603700, -572021533230000, -440138514720000, 213889983533000, -62725834438100,
  -256168688630000, -393903347767000, -480044307096000, 90823575480900, 27761611853300, 294467407897000,
  297337347268000, -52066932345900, -60167662853300, 289820975974000, 114597346545000, 131728951722000,
  866578251209000, -585849699332000, -386961435551000, 85474529868300, 1072870140560000, 1144420990560000,
  -54158875330100, -468783610204000, -573844782065000, -61205798947300, -141387342026000, -164566691985000,
  -173724798100000, -482797426774000, 19460594319500, 73598843624600, -354614834121000, 232430877087000,
  178584284172000, -453452165872000, -266162830552000, 230547304932000, 403107288934000, 164544241710000,
  145683591274000, 64601877745700, 292767457208000, 305266424708000, 468667942184000, 396775742616000,
  22897020724800, 673360604526000, -257697065912000, -302612919136000, -165265185841000, -305199614679000,
  402652212184000, -69574109909500, 202175215248000, 151405062145000, 6818137073650, -1519985714200000,
  119185087310000, -265468288836000, -121452928814000, 271948844032000, -61450943176200, 204681763800000,
  127190685484000, -304675227459000, -64295791416600, -140380767879000, 300380912726000, 233797744968000]

/-- diehard_operm5.h:835-854. -/
def op5Row36 : List Int := [
  85960653125900, -139535571638000, 31475592360700, 1363256479730000, 89238422694200, 334668012401000,
  295258478977000, 624180265424000, 727804666997000, 543369561992000, 2348732533830000, -109564831427000,
  186609684761000, 408962687016000, 593887287961000, 411196661190000, -237033491174000, 1282342896220000,
  196844187389000, -53882363314900, 604429774214000, 378761175390000, 127190685484000, 360711007986000,
  527981451917000, 584810605862000, 493464750296000, 954021935880000, -1360046201300000, 1108837371530000,
  472477703040000, -21762123229800, -281004665660000, -420846320503000, -1636065878860000, 277691764137000,
  9413723065300000, -833851406616000, -1476250520360000, 434231891950000, -1290376043380000, -1741343395460000,
  361354047806000, 418885217231000, -98660312102400, -668837691359000, 413254115806000, -243434134683000,
  -183170587234000, 1321372680240000, 440043954301000, 613080095654000, 227346737812000, 457598222658000,
  564432273403000, 382132646761000, 183617274451000, -175773570496000, 11946267914400, -259637492575000,
  -435783988847000, -250206994411000, -132629124690000, -418361147861000, -761785716243000, -650929731674000,
  -302221399632000, 1107964915790000, 1086704431940000, -1409124404270000, -1008696088610000, -788809678529000,
  8728167739130, -214215935276000, 730349562037000, 510925342427000, -52704934016100, 164544241710000,
  212704020822000, 254581189924000, -266294670741000, -802880140394000, 306745698764000, -352702931314000,
  64806010535600, 240375639965000, 227752614391000, -342432463260000, -790607148418000, -510373631855000,
  -583850222330000, -358332670710000, -345626513000000, -849276272601000, -979598600926000, -1188936352320000,
  -376674627657000, -426389011473000, -345130216438000, 1014709932630000, -357155025876000, -146189605730000,
  65926157058000, -60786252486800, -335210644563000, -514678983453000, -2078294739550000, -200135462423000,
  -409579126929000, -204081972113000, -174931022596000, -491534081789000, -856595466210000, -784653437912000,
  -761047757684000, -503263931039000, -537432696832000, -620630988686000, -762228100824000, -679922199279000]

/-- diehard_operm5.h:857-876. -/
def op5Row37 : List Int := [
  -208846228834000, 57398329404900, 891907078347000, 644221687032000, -2064016879210, 228514157604000,
  954021935880000, -529735570343000, 1553497773040000, 1230881342600000, -937774635473000, 706585597865000,
  309071169008000, 524852905716000, 702062231512000, 609790724766000, 277259210961000, 1329704366770000,
  -68527678543800, 271510318704000, 559187838003000, 307354155736000, 145683591274000, 292665381643000,
  498178812755000, 585134547356000, 653891567913000, 959785708953000, 869796976280000, -753144107416000,
  384465259820000, 99214246153200, -220778938257000, -251407232447000, -1410073884230000, -54063794214900,
  -833851406616000, 10273984061700000, -3230954098930000, -1761002533040000, 842273496448000, -35897155202600,
  333357224677000, 394431849865000, -159619979390000, -737680265761000, 304775298559000, -358084102688000,
  50124328302900, 1106142156360000, 394284580098000, 510529079514000, 106590212299000, 312219281403000,
  625670358802000, 486683987463000, 524659988964000, -240015513230000, -42523642337000, -226857129554000,
  -517763354174000, -310406777656000, -331243791773000, -613678692008000, -864938121805000, -844202922569000,
  30335811658900, 1147623960340000, -839291090002000, 538238026713000, -753423166744000, -850314641749000,
  -297318505675000, 68895787956900, 362078617726000, 129179650177000, 272940983215000, 403107288934000,
  299488054707000, 346667425859000, -196636597240000, -729749260730000, 323350409469000, -330981984540000,
  -40548544722800, 120036859623000, 178089271632000, -360435018208000, -610713465110000, -790607148418000,
  -260446624975000, -384681126387000, -344409149145000, -922655396238000, -1245122148060000, -933786975830000,
  -409790992519000, -361315415637000, 444558063180000, 181852923469000, -278206804744000, -56111443696500,
  314499930424000, -267538276240000, -765647231212000, -768846714904000, -1516687251730000, -237328471558000,
  -403545319173000, -178235877809000, -105123128530000, -467353237935000, -870938048563000, -809631305473000,
  -583850222330000, -788914111836000, -683419264548000, -704349262793000, -704252427141000, -675964659113000]

/-- diehard_operm5.h:879-898. -/
def op5Row38 : List Int := [
  215730956894000, 11039646268100, 632770429109000, 294831173152000, 55947617458200, 252120643985000,
  472477703040000, 1007304985430000, -784888069700000, 754335481944000, -1477531242990000, 142851903350000,
  -315515491248000, -51840816269900, 183839328834000, 117284223635000, -383870245603000, 803071032466000,
  438226922329000, -26779210105300, 282235210499000, -48653465796200, -54158875330100, 180036779883000,
  31385428694300, 339335561421000, -27249757981500, 384465259820000, 317239108681000, -1329658859450000,
  327695081497000, -161785491827000, -72181088803300, -202931849394000, -1504328811930000, 266720371507000,
  -1476250520360000, -3230954098930000, 9558856130060000, -1473039643830000, 360249764016000, 244549621665000,
  -52354328077400, 239181914006000, 22084681719700, 75252343797300, -172833866992000, -119832194615000,
  -67363330904900, 775620353226000, -105510526828000, -118330443691000, -75593166423300, -7134802820710,
  -42468735622000, 6884749559510, 83991923549400, -134997010910000, -77532909876500, -165035733438000,
  -174089982198000, -25309131695200, 40164758829700, -70115031390700, -23451134727000, -242287091649000,
  168797633181000, -1072808052750000, 866481634482000, 442099749479000, 30691458668200, -131988516118000,
  468499435657000, -113007910406000, 165895067518000, -152362951526000, -350345230039000, 178584284172000,
  62460250858600, 131823289283000, -189452057505000, -145370351642000, -83151602608200, -132677197557000,
  -80797569844900, -192153663320000, -61089468485500, -252050917818000, -40548544722800, 64806010535600,
  -297318505675000, -373188144194000, -205191827869000, -101728261213000, 49351113992400, 96356173030800,
  -236678986350000, -270812576928000, 438149458079000, 156010340800000, -268666481829000, -60702859229300,
  267912768460000, -401214234100000, -250966202192000, -410591299042000, -1532857981950000, 217786885862000,
  -213442715547000, -98100061593500, -73720848458900, -174888357212000, 76874741843600, -179190636860000,
  8728167739140, -123652875064000, 45068862723500, -65550061914700, -139758341021000, -82276162712000]

/-- diehard_operm5.h:901-920. -/
def op5Row39 : List Int := [
  286356084676000, -49148324301700, 713294881956000, 93477714525600, 287309717622000, 119191624916000,
  65926157058000, 854277559021000, 988998691768000, -939177531702000, -1985823507030000, 231078513921000,
  172765665257000, -34417682336900, -419956382234000, -440884437221000, 1204590183560000, -530094184162000,
  356684831254000, 82907160707300, -23036202641100, -85072293385200, 222376399657000, -169920580331000,
  -62228133568000, -8597379993840, -136735936182000, 314499930424000, 323042948793000, -1888968834030000,
  267912768460000, -115480161496000, 41919601099200, -3100571294300, 526249155547000, -1464638524850000,
  434231891950000, -1761002533040000, -1473039643830000, 9243478191760000, -1556112555510000, -1176026535130000,
  -108325212653000, -6478289948340, -177000131659000, 226290931654000, -267053226402000, 347037493945000,
  935576439192000, -487087529660000, -227640071874000, -218365247431000, -111372675128000, -130237338382000,
  -307743593625000, -331927402712000, -125286666352000, 238263262964000, -37980194354800, 187872915877000,
  -138754417573000, -200355051992000, -204207166717000, 128248388672000, 817510064863, 187942139897000,
  -1044597404650000, -410554906252000, -502467448805000, 59295151689600, 1172889267800000, 1294236416280000,
  438226922329000, 26523199491100, -99512419110300, -205981445593000, 261461575929000, -453452165872000,
  -329390863627000, -1398642048160, -77143447541100, 289791410635000, -515925382175000, 193512326132000,
  -192153663320000, -298718992499000, -443349551400000, 287699128121000, 120036859623000, 240375639965000,
  -68527678543800, -640891589527000, -23398577662500, 299608668066000, 192241176595000, 357441254429000,
  -54616244107700, -215700853736000, 517250072782000, -148444614454000, -111357560461000, -253679733505000,
  96037871161100, -473130890527000, -191084817595000, -191776405385000, 402652212184000, -1484005674090000,
  -109661117536000, -166259948970000, -195883804573000, 222998910694000, 26194394116400, 237060247004000,
  196844187389000, -120420235933000, 157698579440000, 62558658087600, 13582443157600, 177926900938000]

/-- diehard_operm5.h:923-942. -/
def op5Row40 : List Int := [
  -54806366706500, 72383172661300, 79575517212900, 1318156858860000, -50368488592100, 224103669192000,
  1363256479730000, -33853229170200, 139551041680000, 544273872863000, -6798830473090, 51493759123500,
  11148493452800, 238840824158000, 432886732400000, 255730386708000, 729488051492000, 103203693157000,
  -54616244107700, 319550859524000, 206849456445000, 534531479332000, 22897020724800, 252173697735000,
  366237190690000, 483644746149000, 317949645052000, 644221687032000, -1246585631580000, 835094501318000,
  294831173152000, 8245104493750, -167990502431000, -270739810248000, 251277142788000, -1784818972040000,
  -1290376043380000, 842273496448000, 360249764016000, -1556112555510000, 9643003993840000, -3543624885690000,
  294636891811000, 369530622097000, -137002058804000, -393793507938000, 261336859710000, -344918321285000,
  580288007867000, 102899668126000, 311372650764000, 539916098902000, -83874015536100, 199892364104000,
  426729074902000, 188099997551000, 154283271895000, -288446862464000, -32981523499000, -212754545184000,
  -339699380325000, -28859370811000, -37461965966300, -304136462819000, -559032944961000, -211136224508000,
  305921950333000, 46661529038800, 203244291996000, -223364079297000, 395300330661000, -1392857184170000,
  -236678986350000, 226535029574000, -79413334296100, 616196222431000, -130327712967000, 230547304932000,
  154681324423000, 292211067478000, -199850697532000, -408938603508000, 153038477142000, -437094940786000,
  -252050917818000, 287699128121000, 174181938409000, -395123677566000, -360435018208000, -342432463260000,
  -409790992519000, -182528689767000, -143305365901000, -718637400837000, -640393467745000, -603443377457000,
  -312036899949000, -364547457306000, -254840826787000, 887802925086000, -331540906326000, -29995118668200,
  93477714525600, -22280848864200, -290899564007000, -434479292116000, 69220743145200, -2140306424410000,
  -448756391546000, -969180416605, 5092808644580, -411294492957000, -687236432478000, -320809872200000,
  -376674627657000, -352437410739000, -316798642674000, -427079623153000, -423299685560000, -380182453265000]

/-- diehard_operm5.h:945-964. -/
def op5Row41 : List Int := [
  195882504879000, 168554765668000, 125294322978000, 887802925086000, 130130103982000, 24717744911200,
  1014709932630000, 116047660536000, 188772939286000, -143661669760000, 860717933673000, -2969341464190000,
  66369196936300, 17173296606500, -81754563027100, -290571696531000, 796997978451000, -325072542614000,
  286356084676000, 162075751509000, 139656074305000, -141314885590000, 75235839771800, -100718051189000,
  -98336934287200, 102605720546000, 10098160067300, 181852923469000, -1577146963970000, 102558937862000,
  156010340800000, -32468263739700, 163743331504000, 144529123062000, 28344839227400, -1257370718420000,
  -1741343395460000, -35897155202600, 244549621665000, -1176026535130000, -3543624885690000, 10170279646000000,
  -205132354587000, 31700940864400, -121391220419000, 358974770676000, -419712666694000, 301521299803000,
  812910672884000, -414858224039000, -409070881500000, -174931105086000, 108285467559000, 12167330344400,
  -183014139735000, -396687513396000, -536799149000000, 347959864133000, -8463871436680, 216993674850000,
  -20834479867200, -138665779695000, -139501835562000, 201281383095000, 193731693654000, 139654183047000,
  779473120283000, -605454160848000, -665812491595000, 204238410188000, -841395982155000, 1258798490470000,
  215730956894000, 202872233283000, 132144544549000, -510130764631000, -19580132941400, -266162830552000,
  -190101638341000, 9672803486650, -155906670230000, 243658406577000, -477986206737000, 228539648409000,
  -61089468485500, -443349551400000, -426269341359000, 174181938409000, 178089271632000, 227752614391000,
  -208846228834000, -288743618262000, -544848887444000, 217703943527000, 381509686603000, 424056105166000,
  -54806366706500, -205424388182000, -290550450174000, 544933609520000, -107761585802000, -234887107486000,
  -148444614454000, -213068687021000, 83533697427300, 101893534483000, -302612919136000, -1386473226860000,
  -116278277850000, -380493410954000, -334650475961000, 170972351290000, 222704751677000, 161928012390000,
  85960653125900, 59063379222500, 126843494328000, 78807212621700, 172684525309000, 190846053913000]

/-- diehard_operm5.h:967-986. -/
def op5Row42 : List Int := [
  -116278277850000, 40595007301300, 475341046185000, 238840824158000, -187300467473000, 792839152050000,
  408962687016000, 666691905449000, 851096261755000, -1224326435290000, 343150830196000, 395757418947000,
  -262487054875000, 345654007290000, 1141123204030000, 1192331627160000, 40724273872600, 78307924883200,
  -109661117536000, 58098275352200, 192792536871000, 569324816715000, 119185087310000, 277936969810000,
  -1096961967370000, 926811669461000, 733859822326000, 524852905716000, 557269052947000, 508742069869000,
  -51840816269900, 172187882714000, -2149125395980000, 298812055676000, 24191228248700, -275853109518000,
  361354047806000, 333357224677000, -52354328077400, -108325212653000, 294636891811000, -205132354587000,
  9290816092730000, -1205867682210000, -1889453730990000, 554952664487000, -1061873030800000, -1835753035070000,
  140874140874000, 370110750688000, 67732756369800, -24262443420100, -207282329380000, 1006771630240000,
  122098483369000, 151214093103000, 285356476469000, -192029423174000, -226824927103000, -97973346289800,
  -422320070153000, 758738509851000, 886483341561000, -1054583017590000, -436964974991000, -541431685967000,
  -53243221348800, 216723095516000, 171359022390000, -207073322809000, -349052670024000, -419782340310000,
  -213442715547000, -30805504142700, 134710462072000, 335728059368000, -67588848294400, 73598843624600,
  595579816464000, 360317294936000, -564241517623000, -359775002064000, 390350490143000, -624502277907000,
  -145370351642000, 289791410635000, 243658406577000, -408938603508000, -729749260730000, -802880140394000,
  -403545319173000, -292596621497000, -253196272433000, -423601380227000, -349946492897000, -390690736715000,
  -448756391546000, -230497741046000, 255767805912000, 17173296606500, -431705493911000, 599953633686000,
  -34417682336900, 178263563452000, -2103304812200000, 173375230332000, -37120701986200, -345806031990000,
  -117578717837000, -542499548254000, -456923963793000, -567174203167000, -319563732100000, -470358055171000,
  -409579126929000, -308366691349000, -312264250823000, -508978296436000, -384237277717000, -480906526575000]

/-- diehard_operm5.h:989-1008. -/
def op5Row43 : List Int := [
  -20834479867200, 82782741077600, 462640633331000, 199892364104000, 670357901341000, -33026336574700,
  457598222658000, 695343835880000, -1125058937660000, 791720330292000, 317903115692000, 337243472607000,
  -904793938552000, 1006771630240000, 82373392317900, 107416732004000, 1038041091130000, 916691233076000,
  -138754417573000, -29517057558400, 225917246856000, 467724015175000, 297337347268000, 88823159435300,
  665935094182000, -1221029955190000, 606537020449000, 312219281403000, 167444252606000, 153728882691000,
  -7134802820710, 273461452022000, -1573887625140000, -114582454271000, -94851287154500, -232574635157000,
  418885217231000, 394431849865000, 239181914006000, -6478289948340, 369530622097000, 31700940864400,
  -1205867682210000, 9751061653520000, -3415167569240000, -1931723779730000, 372198225871000, 318700577505000,
  -64253265342700, 141439353302000, 106752938523000, 132288537996000, 118069247113000, 693429729132000,
  310256892136000, 337896290047000, 123620042522000, -179665727600000, 184284292672000, -218819474404000,
  -58668181873800, 745957428690000, -1139783705660000, 448066186429000, -279810435903000, -307052267766000,
  -138639355346000, 104860798325000, 30130220995200, -298199746189000, -439348055773000, -504394247808000,
  -174089982198000, -110748966817000, 241906046605000, 335790524138000, 131873349495000, 19460594319500,
  214946668185000, 133472273249000, -322786966042000, -564241517623000, 71958327766700, 333342800563000,
  -189452057505000, -77143447541100, -155906670230000, -199850697532000, -196636597240000, -266294670741000,
  -517763354174000, -396916466957000, -535965896485000, -308262042966000, -378125589665000, -473781547117000,
  -339699380325000, -311650166621000, 274121610464000, 12167330344400, 337785124710000, -220848872348000,
  -130237338382000, 165480029254000, -1801697508100000, -76848146356900, -62725834438100, -270772471001000,
  -422320070153000, -254666298514000, -17270830744000, -396373655670000, -628473382085000, -602998849958000,
  -435783988847000, -321707086342000, -411852072757000, -178446843887000, -299515736580000, -335179369511000]

/-- diehard_operm5.h:1011-1030. -/
def op5Row44 : List Int := [
  108285467559000, 155270079570000, 311848761998000, -28859370811000, 685809515971000, -177477694233000,
  -250206994411000, 120670176701000, -1698465874150000, 248195738147000, -276899080156000, -202151439206000,
  913690958564000, 758738509851000, -470149806626000, -382849120087000, -1004187954770000, 560836397767000,
  -111372675128000, -20166105304700, -264461858054000, -62465799725400, 213889983533000, -72646491944200,
  103529123844000, -1807862096120000, 53246967508400, -310406777656000, -337577633747000, -381440143326000,
  -25309131695200, 276337481959000, -1113906708120000, 717934350437000, 176478425866000, 208159759315000,
  -98660312102400, -159619979390000, 22084681719700, -177000131659000, -137002058804000, -121391220419000,
  -1889453730990000, -3415167569240000, 9792792542430000, -1139997753140000, 470409238607000, 466367182442000,
  88217711070700, -278247617573000, -268209384482000, -432478909853000, -141292452560000, 745957428690000,
  -494217489682000, -427782577163000, -267167545957000, 90919889273100, 20825547463100, 29256496695800,
  118069247113000, -1150515194930000, 880731107037000, 864381642659000, 101326108039000, 8495879428700,
  120692085121000, -248488946318000, -229004601420000, 83120651290900, 359856635699000, 273971784574000,
  -75593166423300, -23066796293100, -332897663818000, -450485903284000, -180231008148000, -482797426774000,
  -865304489492000, -316965487642000, 133472273249000, 360317294936000, 262950027646000, -103526516990000,
  131823289283000, -1398642048160, 9672803486650, 292211067478000, 346667425859000, 254581189924000,
  106590212299000, 181135952795000, 82185355121900, 225691717471000, 136958351942000, 21968648645200,
  -83874015536100, -9461035067330, 44876544489800, -138665779695000, 575150332245000, -329214336856000,
  -200355051992000, 27984360803500, -1274971040770000, 485576722241000, -52066932345900, 65783913265100,
  -207282329380000, -113586621270000, -234515277457000, 49340397779300, 112394241249000, -58032342539600,
  227346737812000, 271151189023000, 161158816726000, 362606894482000, 326675519699000, 202183256873000]

/-- diehard_operm5.h:1033-1052. -/
def op5Row45 : List Int := [
  66369196936300, 106176307263000, 320833846878000, -969180416605, 751502639263000, -178976586390000,
  -204081972113000, 118570542996000, -1836290956340000, 155758494558000, -379629591723000, -335031062359000,
  1826606628210000, -542499548254000, -403303910361000, -378271517431000, 811963810962000, -1090411611620000,
  172765665257000, 160500993770000, -90102895311800, -318226111466000, -105467036139000, -128902728442000,
  234564145219000, -1772148135540000, 135133816440000, -178235877809000, -261517726585000, -341068706800000,
  -98100061593500, 263094122274000, 739312816784000, -1240197707430000, -37687068632300, 401280807894000,
  -668837691359000, -737680265761000, 75252343797300, 226290931654000, -393793507938000, 358974770676000,
  554952664487000, -1931723779730000, -1139997753140000, 9623288235140000, -1803013077050000, -1087519161750000,
  -167373580774000, -274395919415000, -383821499890000, -338273805882000, 913690958564000, -254666298514000,
  -362453739721000, -306099501395000, -188530104907000, 211540301866000, 112185793523000, 89712520473800,
  -904793938552000, -113586621270000, -96676368430400, -15831985791900, 1139822559530000, 1039773108500000,
  -115408470499000, -298679387144000, -171528642262000, 200594589649000, 163364398023000, 66074162179800,
  -315515491248000, -285326303442000, -550478634897000, -364730771509000, -87354768147500, -173724798100000,
  -269413426189000, -865304489492000, 214946668185000, 595579816464000, -622632330604000, 381386715783000,
  62460250858600, -329390863627000, -190101638341000, 154681324423000, 299488054707000, 212704020822000,
  309071169008000, 318541284620000, 268655900288000, 409190734571000, 496241427809000, 422568698788000,
  11148493452800, 24827533492100, 84292783072000, -380493410954000, 643466143584000, -442205372104000,
  -166259948970000, 237222909638000, 754195229339000, -1477458972650000, -265468288836000, 165867317606000,
  -262487054875000, -103267698428000, -14394888061800, 284939790460000, -17536490106500, -49781748456200,
  186609684761000, 234670913657000, 197210592684000, 301638553195000, 335725030544000, 261850268380000]

/-- diehard_operm5.h:1055-1074. -/
def op5Row46 : List Int := [
  -107761585802000, -8236576663440, 372152299620000, 224103669192000, -129869010121000, 801997590090000,
  334668012401000, 496574729528000, 719934538749000, -1167297866310000, 276355973272000, 397585019365000,
  643466143584000, 792839152050000, -709732086170000, 1335345077870000, -156432015213000, 303302590491000,
  -111357560461000, 155050062551000, 462879146440000, 173634316499000, -165265185841000, 304187382428000,
  -1123852794780000, 427517288855000, 228500868480000, 228514157604000, 604967090955000, 496993552301000,
  252120643985000, 276544260503000, 282072520664000, -1695430235180000, 35957367601500, -324361929777000,
  413254115806000, 304775298559000, -172833866992000, -267053226402000, 261336859710000, -419712666694000,
  -1061873030800000, 372198225871000, 470409238607000, -1803013077050000, 9809863073050000, -3623867046980000,
  -288072342083000, 110735995817000, 296750226889000, 385417816513000, 575150332245000, -33026336574700,
  435351409207000, 336886108025000, 189214896281000, -456409239301000, -15970586331800, -97384916687400,
  337785124710000, -177477694233000, -149399239261000, -299859433160000, 634108150200000, -1319430480890000,
  -203263840131000, 112297208977000, 351750054562000, -285350911338000, -378301578534000, -197808516555000,
  -268666481829000, -82209928325000, 235700464670000, 82737772615300, -296608171915000, 232430877087000,
  381386715783000, -103526516990000, 333342800563000, -624502277907000, 177456287105000, -522527665799000,
  -132677197557000, 193512326132000, 228539648409000, -437094940786000, -330981984540000, -352702931314000,
  -278206804744000, -40240686448600, 88858324948000, -433829916575000, -533485524048000, -549689862569000,
  -331540906326000, -256428697012000, 216874029149000, 24717744911200, -473421493710000, 612522600352000,
  119191624916000, 188972013476000, 70269494477200, -1816473444000000, 11582023533700, -474087329353000,
  -431705493911000, -178976586390000, -85292398370000, -613796778300000, -477212084362000, -290566379430000,
  -357155025876000, -290479889313000, -163606896922000, -399370888359000, -314490568256000, -331381710689000]

/-- diehard_operm5.h:1077-1096. -/
def op5Row47 : List Int := [
  130130103982000, 61344067396800, 287816600487000, -29995118668200, 33906137645500, 612522600352000,
  -146189605730000, 130519160208000, 252869602862000, -1676345773740000, -293284896764000, -200425841399000,
  751502639263000, 599953633686000, 635850336621000, -1192430452260000, -25719774085900, -148524032158000,
  287309717622000, 42984644357600, 61845466688700, -277501741267000, 19149821326800, -174755203283000,
  -1735427217700000, 530877759488000, 391173751298000, -56111443696500, -417525572483000, -529277408478000,
  -60702859229300, 375027773845000, 582889224441000, -1268143958740000, -140296912034000, 210113876234000,
  -243434134683000, -358084102688000, -119832194615000, 347037493945000, -344918321285000, 301521299803000,
  -1835753035070000, 318700577505000, 466367182442000, -1087519161750000, -3623867046980000, 9821959150610000,
  -28843336088600, -473280164616000, -161502794398000, -470370169779000, 685809515971000, -220848872348000,
  -378092960240000, -53790600109600, -236940709009000, 327367538387000, -227239000576000, 165442854956000,
  670357901341000, -329214336856000, -265884432854000, 196270324942000, -723976744124000, 1194165228980000,
  105528116547000, -255234384466000, -422796727586000, 132988350128000, 427652301649000, 206125308493000,
  55947617458200, -81181519780300, -120360863110000, -366840017366000, -101550367500000, -354614834121000,
  -622632330604000, 262950027646000, 71958327766700, 390350490143000, -534623743353000, 177456287105000,
  -83151602608200, -515925382175000, -477986206737000, 153038477142000, 323350409469000, 306745698764000,
  -2064016879210, -177820375188000, 26696458573700, 139081975589000, 482579845901000, 463861937546000,
  -50368488592100, -81859381631800, 51699301581000, -234887107486000, -129869010121000, 294669958734000,
  -253679733505000, 163938994047000, 448072367247000, -1264570441710000, -305199614679000, 170988267819000,
  -187300467473000, -442205372104000, -445236155393000, 12403950175300, 395791893946000, 177152941632000,
  89238422694200, 93429468924900, 293182498382000, 117416486145000, 276659868630000, 264266037378000]

/-- diehard_operm5.h:1099-1118. -/
def op5Row48 : List Int := [
  163743331504000, -148564295720000, 141674265601000, -79413334296100, 582889224441000, 235700464670000,
  730349562037000, 442154249574000, 338103514287000, 351830820868000, 278643342225000, -4243970352940,
  739312816784000, 134710462072000, 145528844758000, 71686381449900, -1624024783260000, 326782880655000,
  41919601099200, -451946838500000, 1141590726850000, 86451127664900, 175832614461000, 172996653042000,
  291476006270000, 112338280046000, 207207252862000, 362078617726000, -148303979002000, 69158768763500,
  165895067518000, -8708702396590, -104954137496000, -149196964868000, -143426408258000, -706529346522000,
  -183170587234000, 50124328302900, -67363330904900, 935576439192000, 580288007867000, 812910672884000,
  140874140874000, -64253265342700, 88217711070700, -167373580774000, -288072342083000, -28843336088600,
  9278539280950000, -1594801584320000, 105158253708000, 112502630644000, -1113906708120000, 241906046605000,
  206949985359000, 205301896597000, -116880599602000, 84050123741800, 65288881480700, -15602566946800,
  -1573887625140000, -332897663818000, -40089330274500, -129586693892000, 492079954057000, 401875400135000,
  -1483566270790000, 147846360711000, -3348585249310, 205840148048000, -1785741159660000, -1853897438610000,
  -72181088803300, -332096648140000, 1077796497590000, 1699545123050, 73656690047500, -60167662853300,
  -96676368430400, 880731107037000, -1139783705660000, 886483341561000, -265884432854000, -149399239261000,
  40164758829700, -204207166717000, -139501835562000, -37461965966300, -331243791773000, -132629124690000,
  -220778938257000, -321798506775000, -429947966233000, -647364612549000, -444273544243000, -280677249714000,
  -167990502431000, -219163227797000, -7623302751880, 132144544549000, 282072520664000, -120360863110000,
  -99512419110300, -87645061486400, -185841628415000, -421039938474000, -573844782065000, 909063855211000,
  -2149125395980000, -550478634897000, -705793411218000, 3800883574870, 446226543485000, 273539255755000,
  -281004665660000, -137163023510000, -351454627695000, -388232908528000, -305018339346000, -202802672410000]

/-- diehard_operm5.h:1121-1140. -/
def op5Row49 : List Int := [
  83533697427300, -235072651678000, -94080187703200, 206849456445000, 448072367247000, 462879146440000,
  604429774214000, 461452225228000, 405940570669000, 826954420328000, 267799341696000, 415892129831000,
  754195229339000, 192792536871000, 287287451220000, 300527857918000, 373619642794000, -1437509557120000,
  -191084817595000, -319998558894000, 1100672615240000, 299133463145000, 202175215248000, 344568326186000,
  470811456921000, 213910789756000, 269155885333000, 559187838003000, 209320522335000, 119761159601000,
  282235210499000, -5677761772970, -185841628415000, -390795863113000, -783212364819000, -93625112603700,
  1321372680240000, 1106142156360000, 775620353226000, -487087529660000, 102899668126000, -414858224039000,
  370110750688000, 141439353302000, -278247617573000, -274395919415000, 110735995817000, -473280164616000,
  -1594801584320000, 9274903098980000, 361855263797000, 305273950099000, -1274971040770000, 225917246856000,
  349246198396000, 407022363329000, 293931202527000, -215868159775000, 13755430028200, -153452144760000,
  -1801697508100000, -264461858054000, -129586693892000, -250996423442000, 121387395923000, 502034622785000,
  98243786894000, -1579056035610000, -1235829584520000, -1808744366840000, -379742931057000, 84618224121800,
  -250966202192000, -309523932096000, 1141590726850000, 358769338251000, 58690482588900, 289820975974000,
  -15831985791900, 864381642659000, 448066186429000, -1054583017590000, 196270324942000, -299859433160000,
  -70115031390700, 128248388672000, 201281383095000, -304136462819000, -613678692008000, -418361147861000,
  -765647231212000, -388179659482000, -734212250355000, -376698308645000, -703436867550000, -551170646267000,
  -290899564007000, -275719522516000, 181968452702000, 139656074305000, 70269494477200, 61845466688700,
  -23036202641100, -146089485254000, -273796049663000, -671315349486000, 793840729882000, -525391663395000,
  -2103304812200000, -90102895311800, 19345313246300, -514903647973000, -389444925619000, -4384660366960,
  -335210644563000, -210738078932000, -623340209851000, -443922102010000, -529810362710000, -421925717124000]

/-- diehard_operm5.h:1143-1162. -/
def op5Row50 : List Int := [
  126843494328000, -588796619628000, 2098094156850, 139551041680000, 293182498382000, 719934538749000,
  727804666997000, 564722424249000, 736241256775000, 685570362359000, 614401133253000, 580496011766000,
  197210592684000, 851096261755000, 680378366108000, -1268392407680000, 53047570447800, 226907424018000,
  157698579440000, -137410684853000, 405940570669000, 1484689417770000, -64295791416600, 272936358630000,
  347335810570000, 415777877683000, 252357226846000, 1553497773040000, 1328184057650000, 1367630178790000,
  -784888069700000, 51413621244100, -351454627695000, -340654646337000, 30416135488700, -572021533230000,
  440043954301000, 394284580098000, -105510526828000, -227640071874000, 311372650763000, -409070881500000,
  67732756369800, 106752938523000, -268209384482000, -383821499890000, 296750226889000, -161502794398000,
  105158253708000, 361855263797000, 9645187011140000, -1200894313000000, 161158816726000, -1125058937660000,
  721247353087000, -1149379246010000, -1041791013690000, -1732201712210000, 256894077997000, 379095739238000,
  -411852072757000, -1698465874150000, 401875400135000, 502034622785000, -601767315498000, -320219830206000,
  -38021096143000, 217686565290000, 246532995184000, -363980243567000, -994818435373000, -672390343177000,
  45068862723500, -249753689780000, 338103514287000, 1385279655630000, -139059221097000, 131728951722000,
  1039773108500000, 8495879428690, -307052267766000, -541431685967000, 1194165228980000, -1319430480890000,
  -242287091649000, 187942139897000, 139654183047000, -211136224508000, -844202922569000, -650929731674000,
  -683419264548000, -470767664646000, -700279693580000, -733354399261000, -933963865749000, -657582963161000,
  -316798642674000, -209613711355000, 54533155895800, 188772939286000, -163606896922000, 252869602862000,
  988998691768000, -230163312917000, -623340209851000, -386241095315000, -70232138338300, -649664214697000,
  -312264250823000, -1836290956340000, 290487823575000, -47912394523500, -874645850396000, -962141229527000,
  -537432696832000, -405435495795000, -661848412260000, -619424392149000, -652606891117000, -470076357543000]

/-- diehard_operm5.h:1165-1184. -/
def op5Row51 : List Int := [
  -544848887444000, 11606651766600, 134264207773000, 483644746149000, 26696458573700, 427517288855000,
  584810605862000, 218987516681000, 415777877683000, 323790008991000, 349249165404000, 564316448556000,
  268655900288000, 926811669461000, -1200204628980000, 942849253750000, 426622830396000, 482287665170000,
  -23398577662500, 114479443151000, 213910789756000, 1257848023690000, 292767457208000, 157770453761000,
  1413276130270000, 1515807479430000, 1380487633060000, 585134547356000, 542245148490000, 332405577632000,
  339335561421000, -990097087751000, -429947966233000, -440445015800000, 150969080752000, -440138514720000,
  613080095654000, 510529079514000, -118330443691000, -218365247431000, 539916098902000, -174931105086000,
  -24262443420100, 132288537996000, -432478909853000, -338273805882000, 385417816513000, -470370169779000,
  112502630644000, 305273950099000, -1200894313000000, 9472986961590000, 82185355121900, -1221029955190000,
  -861710023958000, 1170347912760000, 785572434880000, 92648166524600, -1461128114530000, -1870964526610000,
  -535965896485000, -1807862096120000, 492079954057000, 121387395923000, -628804067827000, -601767315498000,
  34198652827600, 260278409476000, 372182254444000, -242109281648000, -706730433692000, -735459035667000,
  -205191827869000, -33200104184100, 112338280046000, 1163250472440000, 150831284227000, 114597346545000,
  1139822559530000, 101326108039000, -279810435903000, -436964974991000, -723976744124000, 634108150200000,
  -23451134727000, 817510064861, 193731693654000, -559032944961000, -864938121805000, -761785716243000,
  -344409149145000, -647950333593000, -841736996603000, -781212664565000, -703341058696000, -646198437092000,
  -143305365901000, -377733627693000, -237331479701000, 102605720546000, 88858324948000, 530877759488000,
  -8597379993840, 759505512494000, -734212250355000, -552024849453000, 21665185312500, -575346587156000,
  -253196272433000, -1772148135540000, 568294330736000, -335219702054000, -1148563216580000, -715385672093000,
  -345626513000000, -570466629849000, -700279693580000, -693544144105000, -739504638297000, -573626900280000]

/-- diehard_operm5.h:1187-1206. -/
def op5Row52 : List Int := [
  -121391220419000, 90919889273100, 83120651290900, 292211067478000, 466367182442000, -103526516990000,
  254581189924000, 273971784574000, 8495879428700, -58032342539600, 21968648645200, 202183256873000,
  -1139997753140000, 360317294936000, 225691717471000, 362606894482000, 717934350437000, 485576722241000,
  -177000131659000, 29256496695800, 864381642659000, 49340397779300, 208159759315000, 65783913265100,
  112394241249000, 101326108039000, 359856635699000, 346667425859000, 326675519699000, 136958351942000,
  131823289283000, 120692085121000, 88217711070700, -1004187954770000, -180231008148000, 213889983533000,
  227346737812000, 106590212299000, -75593166423300, -111372675128000, -83874015536100, 108285467559000,
  -207282329380000, 118069247113000, -141292452560000, 913690958564000, 575150332245000, 685809515971000,
  -1113906708120000, -1274971040770000, 161158816726000, 82185355121900, 9792792542430000, 133472273249000,
  181135952795000, 271151189023000, -9461035067320, 155270079570000, -23066796293100, -20166105304700,
  -3415167569240000, -316965487642000, -332897663818000, -264461858054000, -1807862096120000, -1698465874150000,
  276337481959000, 27984360803500, 44876544489800, 311848761998000, 53246967508400, 120670176701000,
  22084681719700, 20825547463100, 880731107037000, -234515277457000, 176478425866000, -52066932345900,
  -113586621270000, -1150515194930000, 745957428690000, 758738509851000, -329214336856000, -177477694233000,
  -25309131695200, -200355051992000, -138665779695000, -28859370811000, -310406777656000, -250206994411000,
  -159619979390000, -494217489682000, -432478909853000, -470149806626000, -381440143326000, -276899080156000,
  -137002058804000, -267167545957000, -229004601420000, 9672803486650, 470409238607000, 262950027646000,
  -1398642048160, -248488946318000, -278247617573000, 560836397767000, -482797426774000, -72646491944200,
  -1889453730990000, -865304489492000, -450485903284000, -62465799725400, 103529123844000, 248195738147000,
  -98660312102400, -427782577163000, -268209384482000, -382849120087000, -337577633747000, -202151439206000]

/-- diehard_operm5.h:1209-1228. -/
def op5Row53 : List Int := [
  -155906670230000, 30130220995200, 123620042522000, 369530622097000, 71958327766700, 372198225871000,
  418885217231000, 337896290047000, 106752938523000, 107416732004000, 167444252606000, 337243472607000,
  214946668185000, -1205867682210000, 665935094182000, 791720330292000, 335790524138000, 467724015175000,
  -77143447541100, 104860798325000, 141439353302000, 916691233076000, 19460594319500, 88823159435300,
  82373392317900, 132288537996000, 310256892136000, 394431849865000, 317903115692000, 153728882691000,
  239181914006000, 184284292672000, -1139783705660000, -17270830744000, -94851287154500, -62725834438100,
  457598222658000, 312219281403000, -7134802820710, -130237338382000, 199892364104000, 12167330344400,
  1006771630240000, 693429729132000, 745957428690000, -254666298514000, -33026336574700, -220848872348000,
  241906046605000, 225917246856000, -1125058937660000, -1221029955190000, 133472273249000, 9751061653520000,
  606537020449000, 695343835880000, 462640633331000, 274121610464000, 273461452022000, 165480029254000,
  -322786966042000, -3415167569240000, -1573887625140000, -1801697508100000, -535965896485000, -411852072757000,
  -110748966817000, -29517057558400, 82782741077600, -311650166621000, -396916466957000, -321707086342000,
  -189452057505000, -138639355346000, -64253265342700, 1038041091130000, 131873349495000, 297337347268000,
  -904793938552000, 118069247113000, -58668181873800, -422320070153000, 670357901341000, 337785124710000,
  -174089982198000, -138754417573000, -20834479867200, -339699380325000, -517763354174000, -435783988847000,
  -196636597240000, -439348055773000, -279810435903000, -628473382085000, -378125589665000, -299515736580000,
  -199850697532000, -298199746189000, -179665727600000, 31700940864400, 333342800563000, 318700577505000,
  -6478289948340, -218819474404000, 448066186429000, -396373655670000, -232574635157000, -270772471001000,
  -564241517623000, -1931723779730000, -114582454271000, -76848146356900, -308262042966000, -178446843887000,
  -266294670741000, -504394247808000, -307052267766000, -602998849958000, -473781547117000, -335179369511000]

/-- diehard_operm5.h:1231-1250. -/
def op5Row54 : List Int := [
  -288743618262000, 259871803433000, 290077588087000, 317949645052000, -177820375188000, 228500868480000,
  493464750296000, 491037153642000, 252357226846000, 233851044078000, 511985745270000, 536585346694000,
  318541284620000, 733859822326000, -746208658743000, 929575996071000, 436501661673000, 549448637986000,
  -640891589527000, 148147473050000, 269155885333000, 244550709798000, 64601877745700, 1070751525350000,
  1123693803020000, 1380487633060000, -521236288663000, 653891567913000, 525351092114000, 490918856470000,
  -27249757981500, 955041595013000, -321798506775000, -579854447676000, -6623816763930, -256168688630000,
  564432273403000, 625670358802000, -42468735622000, -307743593625000, 426729074902000, -183014139735000,
  122098483369000, 310256892136000, -494217489682000, -362453739721000, 435351409207000, -378092960240000,
  206949985359000, 349246198396000, 721247353087000, -861710023958000, 181135952795000, 606537020449000,
  10287300033700000, -829754156395000, 691329582535000, -6222952963450, -3191897391660000, -1782249160680000,
  -396916466957000, 53246967508400, -1785741159660000, -379742931057000, -706730433692000, -994818435373000,
  59847844513700, 246454329810000, 282412258514000, -406087251037000, -519815138695000, -852814552557000,
  -373188144194000, 51578186735300, 207207252862000, 197189302591000, 9779043988220, 1072870140560000,
  163364398023000, 359856635699000, -439348055773000, -349052670024000, 427652301649000, -378301578534000,
  30691458668200, 1172889267800000, -841395982155000, 395300330661000, -753423166744000, -1008696088610000,
  -384681126387000, -433084423350000, -647950333593000, -577589734195000, -572755448944000, -678794619835000,
  -182528689767000, -64411816780300, 11039618643100, 10098160067300, -40240686448600, 391173751298000,
  -136735936182000, 767248056184000, -388179659482000, -713738360177000, -119535906150000, -349132852619000,
  -292596621497000, 135133816440000, -1609492043730000, -180161412778000, -538655433290000, -679002948435000,
  -358332670710000, -300247208670000, -470767664646000, -851024383753000, -1303981381200000, -1017404823570000]

/-- diehard_operm5.h:1253-1272. -/
def op5Row55 : List Int := [
  59063379222500, 11246280462200, 157307864629000, -33853229170200, 93429468924900, 496574729528000,
  624180265424000, 860637122639000, 564722424249000, 596833742143000, 780962418292000, 544249526303000,
  234670913657000, 666691905449000, 1145175163350000, -1281697780430000, 65147201681800, 284956457467000,
  -120420235933000, -457224088644000, 461452225228000, 470113281529000, -304675227459000, 1213250787360000,
  126119834948000, 218987516681000, 491037153642000, -529735570343000, 1313791984170000, 1528332153160000,
  1007304985430000, -116301986843000, -137163023510000, -603427973474000, -150027454550000, -393903347767000,
  382132646761000, 486683987463000, 6884749559520, -331927402712000, 188099997551000, -396687513396000,
  151214093103000, 337896290047000, -427782577163000, -306099501395000, 336886108025000, -53790600109600,
  205301896597000, 407022363329000, -1149379246010000, 1170347912760000, 271151189023000, 695343835880000,
  -829754156395000, 9582535609150000, -1137718812300000, -1839768658980000, -1425152331150000, 397463653510000,
  -321707086342000, 120670176701000, -1853897438610000, 84618224121800, -735459035667000, -672390343177000,
  5307627242700, 195804453141000, 163728269312000, -553141230965000, -852814552557000, -736238199152000,
  -123652875064000, -150142740200000, 442154249574000, 411048986679000, -349650206722000, 1144420990560000,
  66074162179800, 273971784574000, -504394247808000, -419782340310000, 206125308493000, -197808516555000,
  -131988516118000, 1294236416280000, 1258798490470000, -1392857184170000, -850314641749000, -788809678529000,
  -788914111836000, -300247208670000, -570466629849000, -453722062451000, -653319254708000, -742705630041000,
  -352437410739000, 72231179619100, 291434752106000, 116047660536000, -290479889313000, 130519160208000,
  854277559021000, -261762276351000, -210738078932000, -597302395553000, -227303616948000, -378877759863000,
  -308366691349000, 118570542996000, -1955882182500000, 69967323068600, -544641221973000, -630970603601000,
  -503263931039000, -72522673807200, -405435495795000, -815841326488000, -868936039711000, -1359534392290000]

/-- diehard_operm5.h:1275-1294. -/
def op5Row56 : List Int := [
  -205424388182000, 291664946903000, 151640273628000, 79575517212900, -81859381631800, 372152299620000,
  31475592360700, 157307864629000, 2098094156850, 244544825138000, 768438220043000, 395863320677000,
  24827533492100, 475341046185000, 742132958226000, -1119770460070000, -119922432959000, 237667671700000,
  -215700853736000, 40127778542000, -94080187703200, 439505757541000, 673360604526000, 86615445419000,
  275496955568000, 134264207773000, 290077588087000, 891907078347000, 1203682255250000, -555402788282000,
  632770429109000, 50313844441300, -219163227797000, -304232718639000, -132849163946000, -480044307096000,
  183617274451000, 524659988964000, 83991923549400, -125286666352000, 154283271895000, -536799149000000,
  285356476469000, 123620042522000, -267167545957000, -188530104907000, 189214896281000, -236940709009000,
  -116880599602000, 293931202527000, -1041791013690000, 785572434880000, -9461035067330, 462640633331000,
  691329582535000, -1137718812300000, 9805012380840000, -3619480238400000, 238836929911000, -1702162525000000,
  -311650166621000, 311848761998000, 205840148048000, -1808744366840000, -242109281648000, -363980243567000,
  -183309503743000, 322581106136000, 191572793238000, -499880484738000, -406087251037000, -553141230965000,
  -270812576928000, -87737685616900, 141674265601000, 351366877414000, 633445073191000, 85474529868300,
  200594589649000, 83120651290900, -298199746189000, -207073322809000, 132988350128000, -285350911338000,
  442099749479000, 59295151689600, 204238410188000, -223364079297000, 538238026713000, -1409124404270000,
  -361315415637000, -64411816780300, -377733627693000, -306686059009000, -486937681595000, -304768959184000,
  -364547457306000, 266041333492000, 140809620370000, 125294322978000, -256428697012000, 287816600487000,
  713294881956000, 5556784678300, -275719522516000, -361884557138000, -113547734156000, -391494167754000,
  -230497741046000, 320833846878000, 213971609673000, -1796606200960000, -287516480264000, -414106321047000,
  -426389011473000, 72231179619100, -209613711355000, -604286677972000, -736658175599000, -532764231058000]

/-- diehard_operm5.h:1297-1316. -/
def op5Row57 : List Int := [
  168554765668000, 218345616634000, 140809620370000, -254840826787000, 61344067396800, 216874029149000,
  -345130216438000, 291434752106000, 54533155895800, -422556084587000, -499338303655000, -469893147886000,
  106176307263000, 255767805912000, 188241502240000, -1678778152130000, -7894357475660, -211393300786000,
  -49148324301700, 91878259164000, 181968452702000, -560682842900000, 733279444374000, -327561900621000,
  -222568304570000, -237331479701000, 11039618643100, 444558063180000, -1273599228230000, 838996332437000,
  438149458079000, -37704024234900, -148564295720000, 481301106985000, -405226447797000, 90823575480900,
  -175773570496000, -240015513230000, -134997010910000, 238263262964000, -288446862464000, 347959864133000,
  -192029423174000, -179665727600000, 90919889273100, 211540301866000, -456409239301000, 327367538387000,
  84050123741800, -215868159775000, -1732201712210000, 92648166524600, 155270079570000, 274121610464000,
  -6222952963450, -1839768658980000, -3619480238400000, 9835583459970000, 194203511105000, -1083438350930000,
  82782741077600, 44876544489800, -3348585249310, -1235829584520000, 372182254444000, 246532995184000,
  6983596632960, -448983028873000, -529037912148000, 191572793238000, 282412258514000, 163728269312000,
  11039646268200, 24351448852900, -7623302751880, -433004449477000, 773624059467000, -386961435551000,
  -171528642262000, -229004601420000, 30130220995200, 171359022390000, -422796727586000, 351750054562000,
  866481634482000, -502467448805000, -665812491595000, 203244291996000, -839291090002000, 1086704431940000,
  57398329404900, 259871803433000, 11606651766600, 176170682652000, 243697755210000, 28331512615800,
  72383172661300, 291664946903000, 138687323822000, -290550450174000, -8236576663440, 51699301581000,
  517250072782000, -128003934163000, -235072651678000, 399144669601000, -257697065912000, 140680050611000,
  40595007301400, 84292783072000, -24422298488900, -1276036805860000, 351283765151000, 218522773610000,
  -139535571638000, 11246280462200, -588796619628000, 387026004778000, 551065378265000, 332191661492000]

/-- diehard_operm5.h:1319-1338. -/
def op5Row58 : List Int := [
  202872233283000, 24351448852900, 50313844441300, 8245104493750, -81181519780300, 276544260503000,
  -21762123229800, -116301986843000, 51413621244100, -227483562655000, -28835077080600, -675287102233,
  -285326303442000, 172187882714000, -1311200218980000, 418954888030000, -187628143369000, 14958062067000,
  26523199491100, 65126587529200, -5677761772980, -100719159757000, -468783610204000, 902880381129000,
  629032662774000, -990097087751000, 955041595013000, 99214246153200, -45321232534900, -92890284398500,
  -161785491827000, 566463862396000, -332096648140000, -183079589154000, -48084813714000, 27761611853300,
  11946267914400, -42523642337000, -77532909876500, -37980194354800, -32981523499000, -8463871436690,
  -226824927103000, 184284292672000, 20825547463100, 112185793523000, -15970586331800, -227239000576000,
  65288881480700, 13755430028200, 256894077997000, -1461128114530000, -23066796293100, 273461452022000,
  -3191897391660000, -1425152331150000, 238836929911000, 194203511105000, 9425527881080000, -1529788411640000,
  -110748966817000, 276337481959000, -1483566270790000, 98243786894000, 34198652827600, -38021096143000,
  -29883167502300, -18843899876100, 6983596632950, -183309503743000, 59847844513700, 5307627242690,
  -113007910406000, -616635518711, -8708702396590, -77477626436600, -242952720868000, 866578251209000,
  -115408470499000, 120692085121000, -138639355346000, -53243221348800, 105528116547000, -203263840131000,
  168797633181000, -1044597404650000, 779473120283000, 305921950333000, 30335811658900, -302221399632000,
  68895787956900, 51578186735300, -33200104184100, 62532611813300, 115099202692000, -300379402614000,
  226535029574000, -87737685616900, -37704024234900, -32468263739700, -82209928325000, 375027773845000,
  -115480161496000, 771072711834000, -309523932096000, -108861127329000, -10261216878300, -35402980196400,
  -30805504142700, 263094122274000, -1514655589180000, 183679897869000, 100101216412000, 6170253131150,
  -214215935276000, -150142740200000, -249753689780000, 520850413778, 267602940790000, -172460020986000]

/-- diehard_operm5.h:1341-1360. -/
def op5Row59 : List Int := [
  162075751509000, 91878259164000, 5556784678290, -22280848864200, 42984644357600, 188972013476000,
  -60786252486800, -261762276351000, -230163312917000, -245959713642000, -275213165922000, -169030572390000,
  160500993770000, 178263563452000, -2158847452390000, 170108151577000, 247431235715000, -176475194051000,
  82907160707300, -5826420729110, -146089485254000, -341769576679000, 1212892946350000, -769733034196000,
  -1181689608180000, 759505512494000, 767248056184000, -267538276240000, -315950591385000, -381099339358000,
  -401214234100000, 771072711834000, -451946838500000, 183082030725000, 73391909973500, 294467407897000,
  -259637492575000, -226857129554000, -165035733438000, 187872915877000, -212754545184000, 216993674850000,
  -97973346289800, -218819474404000, 29256496695800, 89712520473800, -97384916687400, 165442854956000,
  -15602566946800, -153452144760000, 379095739238000, -1870964526610000, -20166105304700, 165480029254000,
  -1782249160680000, 397463653510000, -1702162525000000, -1083438350930000, -1529788411640000, 9364261020940000,
  -29517057558400, 27984360803500, 147846360711000, -1579056035610000, 260278409476000, 217686565290000,
  -18843899876100, -191383293954000, -448983028873000, 322581106136000, 246454329810000, 195804453141000,
  -26779210105300, 65126587529200, -87645061486400, -277795348368000, 1106760359140000, -585849699332000,
  -298679387144000, -248488946318000, 104860798325000, 216723095516000, -255234384466000, 112297208977000,
  -1072808052750000, -410554906252000, -605454160848000, 46661529038800, 1147623960340000, 1107964915790000,
  271510318704000, 148147473050000, 114479443151000, 200550909998000, 60640147297400, 117390695484000,
  319550859524000, 40127778542000, -128003934163000, -213068687021000, 155050062551000, 163938994047000,
  -473130890527000, 906274797268000, -319998558894000, 247930316206000, -69574109909500, 168664098403000,
  58098275352200, 237222909638000, 441797286516000, -1497169980520000, 225972447542000, 218580016393000,
  -53882363314900, -457224088644000, -137410684853000, 426348616172000, 238818731746000, 310532137185000]

/-- diehard_operm5.h:1363-1382. -/
def op5Row60 : List Int := [
  31700940864400, -179665727600000, -298199746189000, -199850697532000, 318700577505000, 333342800563000,
  -266294670741000, -504394247808000, -307052267766000, -602998849958000, -473781547117000, -335179369511000,
  -1931723779730000, -564241517623000, -308262042966000, -178446843887000, -114582454271000, -76848146356900,
  -6478289948340, -218819474404000, 448066186429000, -396373655670000, -232574635157000, -270772471001000,
  -628473382085000, -279810435903000, -439348055773000, -196636597240000, -299515736580000, -378125589665000,
  -189452057505000, -138639355346000, -64253265342700, 1038041091130000, 131873349495000, 297337347268000,
  -435783988847000, -517763354174000, -174089982198000, -138754417573000, -339699380325000, -20834479867200,
  -422320070153000, -58668181873800, 118069247113000, -904793938552000, 337785124710000, 670357901341000,
  -1573887625140000, -1801697508100000, -411852072757000, -535965896485000, -3415167569240000, -322786966042000,
  -396916466957000, -321707086342000, -311650166621000, 82782741077600, -110748966817000, -29517057558400,
  9751061653520000, 133472273249000, 241906046605000, 225917246856000, -1221029955190000, -1125058937660000,
  273461452022000, 165480029254000, 274121610464000, 462640633331000, 606537020449000, 695343835880000,
  239181914006000, 184284292672000, -1139783705660000, -17270830744000, -94851287154500, -62725834438100,
  -254666298514000, 745957428690000, 693429729132000, 1006771630240000, -220848872348000, -33026336574700,
  -7134802820710, -130237338382000, 12167330344400, 199892364104000, 312219281403000, 457598222658000,
  394431849865000, 310256892136000, 132288537996000, 82373392317900, 153728882691000, 317903115692000,
  369530622097000, 123620042522000, 30130220995200, -155906670230000, 372198225871000, 71958327766700,
  -77143447541100, 104860798325000, 141439353302000, 916691233076000, 19460594319500, 88823159435300,
  -1205867682210000, 214946668185000, 335790524138000, 467724015175000, 665935094182000, 791720330292000,
  418885217231000, 337896290047000, 106752938523000, 107416732004000, 167444252606000, 337243472607000]

/-- diehard_operm5.h:1385-1404. -/
def op5Row61 : List Int := [
  9672803486650, -229004601420000, -267167545957000, -137002058804000, 262950027646000, 470409238607000,
  -98660312102400, -427782577163000, -268209384482000, -382849120087000, -337577633747000, -202151439206000,
  -865304489492000, -1889453730990000, 103529123844000, 248195738147000, -450485903284000, -62465799725400,
  -1398642048160, -248488946318000, -278247617573000, 560836397767000, -482797426774000, -72646491944200,
  -470149806626000, -432478909853000, -494217489682000, -159619979390000, -276899080156000, -381440143326000,
  22084681719700, 20825547463100, 880731107037000, -234515277457000, 176478425866000, -52066932345900,
  -250206994411000, -310406777656000, -25309131695200, -200355051992000, -28859370811000, -138665779695000,
  758738509851000, 745957428690000, -1150515194930000, -113586621270000, -177477694233000, -329214336856000,
  -332897663818000, -264461858054000, -1698465874150000, -1807862096120000, -316965487642000, -3415167569240000,
  53246967508400, 120670176701000, 311848761998000, 44876544489800, 276337481959000, 27984360803500,
  133472273249000, 9792792542430000, -1113906708120000, -1274971040770000, 82185355121900, 161158816726000,
  -23066796293100, -20166105304700, 155270079570000, -9461035067330, 181135952795000, 271151189023000,
  131823289283000, 120692085121000, 88217711070700, -1004187954770000, -180231008148000, 213889983533000,
  913690958564000, -141292452560000, 118069247113000, -207282329380000, 685809515971000, 575150332245000,
  -75593166423300, -111372675128000, 108285467559000, -83874015536100, 106590212299000, 227346737812000,
  346667425859000, 359856635699000, 101326108039000, 112394241249000, 136958351942000, 326675519699000,
  292211067478000, 83120651290900, 90919889273100, -121391220419000, -103526516990000, 466367182442000,
  -177000131659000, 29256496695800, 864381642659000, 49340397779200, 208159759315000, 65783913265100,
  360317294936000, -1139997753140000, 717934350437000, 485576722241000, 225691717471000, 362606894482000,
  254581189924000, 273971784574000, 8495879428700, -58032342539600, 21968648645200, 202183256873000]

/-- diehard_operm5.h:1407-1426. -/
def op5Row62 : List Int := [
  132144544549000, -7623302751880, -219163227797000, -167990502431000, -120360863110000, 282072520664000,
  -281004665660000, -137163023510000, -351454627695000, -388232908528000, -305018339346000, -202802672410000,
  -550478634897000, -2149125395980000, 446226543485000, 273539255755000, -705793411218000, 3800883574870,
  -99512419110300, -87645061486400, -185841628415000, -421039938474000, -573844782065000, 909063855211000,
  -647364612549000, -429947966233000, -321798506775000, -220778938257000, -280677249714000, -444273544243000,
  -72181088803300, -332096648140000, 1077796497590000, 1699545123050, 73656690047500, -60167662853300,
  -132629124690000, -331243791773000, 40164758829700, -204207166717000, -37461965966300, -139501835562000,
  886483341561000, -1139783705660000, 880731107037000, -96676368430400, -149399239261000, -265884432854000,
  -40089330274500, -129586693892000, 401875400135000, 492079954057000, -332897663818000, -1573887625140000,
  -1785741159660000, -1853897438610000, 205840148048000, -3348585249310, -1483566270790000, 147846360711000,
  241906046605000, -1113906708120000, 9278539280950000, -1594801584320000, 112502630644000, 105158253708000,
  65288881480700, -15602566946800, 84050123741800, -116880599602000, 206949985359000, 205301896597000,
  165895067518000, -8708702396590, -104954137496000, -149196964868000, -143426408258000, -706529346522000,
  -167373580774000, 88217711070700, -64253265342700, 140874140874000, -28843336088600, -288072342083000,
  -67363330904900, 935576439192000, 812910672884000, 580288007867000, 50124328302900, -183170587234000,
  362078617726000, 207207252862000, 112338280046000, 291476006270000, 69158768763500, -148303979002000,
  -79413334296100, 141674265601000, -148564295720000, 163743331504000, 235700464670000, 582889224441000,
  41919601099200, -451946838500000, 1141590726850000, 86451127664900, 175832614461000, 172996653042000,
  134710462072000, 739312816784000, -1624024783260000, 326782880655000, 145528844758000, 71686381449900,
  730349562037000, 442154249574000, 338103514287000, 351830820868000, 278643342225000, -4243970352940]

/-- diehard_operm5.h:1429-1448. -/
def op5Row63 : List Int := [
  139656074305000, 181968452702000, -275719522516000, -290899564007000, 61845466688700, 70269494477200,
  -335210644563000, -210738078932000, -623340209851000, -443922102010000, -529810362710000, -421925717124000,
  -90102895311800, -2103304812200000, -389444925619000, -4384660366960, 19345313246300, -514903647973000,
  -23036202641100, -146089485254000, -273796049663000, -671315349486000, 793840729882000, -525391663395000,
  -376698308645000, -734212250355000, -388179659482000, -765647231212000, -551170646267000, -703436867550000,
  -250966202192000, -309523932096000, 1141590726850000, 358769338251000, 58690482588900, 289820975974000,
  -418361147861000, -613678692008000, -70115031390700, 128248388672000, -304136462819000, 201281383095000,
  -1054583017590000, 448066186429000, 864381642659000, -15831985791900, -299859433160000, 196270324942000,
  -129586693892000, -250996423442000, 502034622785000, 121387395923000, -264461858054000, -1801697508100000,
  -379742931057000, 84618224121800, -1808744366840000, -1235829584520000, 98243786894000, -1579056035610000,
  225917246856000, -1274971040770000, -1594801584320000, 9274903098980000, 305273950099000, 361855263797000,
  13755430028200, -153452144760000, -215868159775000, 293931202527000, 349246198396000, 407022363329000,
  282235210499000, -5677761772970, -185841628415000, -390795863113000, -783212364819000, -93625112603600,
  -274395919415000, -278247617573000, 141439353302000, 370110750688000, -473280164616000, 110735995817000,
  775620353226000, -487087529660000, -414858224039000, 102899668126000, 1106142156360000, 1321372680240000,
  559187838003000, 269155885333000, 213910789756000, 470811456921000, 119761159601000, 209320522335000,
  206849456445000, -94080187703200, -235072651678000, 83533697427300, 462879146440000, 448072367247000,
  -191084817595000, -319998558894000, 1100672615240000, 299133463145000, 202175215248000, 344568326186000,
  192792536871000, 754195229339000, 373619642794000, -1437509557120000, 287287451220000, 300527857918000,
  604429774214000, 461452225228000, 405940570669000, 826954420328000, 267799341696000, 415892129831000]

/-- diehard_operm5.h:1451-1470. -/
def op5Row64 : List Int := [
  102605720546000, -237331479701000, -377733627693000, -143305365901000, 530877759488000, 88858324948000,
  -345626513000000, -570466629849000, -700279693580000, -693544144105000, -739504638297000, -573626900280000,
  -1772148135540000, -253196272433000, -1148563216580000, -715385672093000, 568294330736000, -335219702054000,
  -8597379993850, 759505512494000, -734212250355000, -552024849453000, 21665185312500, -575346587156000,
  -781212664565000, -841736996603000, -647950333593000, -344409149145000, -646198437092000, -703341058696000,
  -205191827869000, -33200104184100, 112338280046000, 1163250472440000, 150831284227000, 114597346545000,
  -761785716243000, -864938121805000, -23451134727000, 817510064862, -559032944961000, 193731693654000,
  -436964974991000, -279810435903000, 101326108039000, 1139822559530000, 634108150200000, -723976744124000,
  492079954057000, 121387395923000, -601767315498000, -628804067827000, -1807862096120000, -535965896485000,
  -706730433692000, -735459035667000, -242109281648000, 372182254444000, 34198652827600, 260278409476000,
  -1221029955190000, 82185355121900, 112502630644000, 305273950099000, 9472986961590000, -1200894313000000,
  -1461128114530000, -1870964526610000, 92648166524600, 785572434880000, -861710023958000, 1170347912760000,
  339335561421000, -990097087751000, -429947966233000, -440445015800000, 150969080752000, -440138514720000,
  -338273805882000, -432478909853000, 132288537996000, -24262443420100, -470370169779000, 385417816513000,
  -118330443691000, -218365247431000, -174931105086000, 539916098902000, 510529079514000, 613080095654000,
  585134547356000, 1380487633060000, 1515807479430000, 1413276130270000, 332405577632000, 542245148490000,
  483644746149000, 134264207773000, 11606651766600, -544848887444000, 427517288855000, 26696458573700,
  -23398577662500, 114479443151000, 213910789756000, 1257848023690000, 292767457208000, 157770453761000,
  926811669461000, 268655900288000, 426622830396000, 482287665170000, -1200204628980000, 942849253750000,
  584810605862000, 218987516681000, 415777877683000, 323790008991000, 349249165404000, 564316448556000]

/-- diehard_operm5.h:1473-1492. -/
def op5Row65 : List Int := [
  188772939286000, 54533155895800, -209613711355000, -316798642674000, 252869602862000, -163606896922000,
  -537432696832000, -405435495795000, -661848412260000, -619424392149000, -652606891117000, -470076357543000,
  -1836290956340000, -312264250823000, -874645850396000, -962141229527000, 290487823575000, -47912394523500,
  988998691768000, -230163312917000, -623340209851000, -386241095315000, -70232138338300, -649664214697000,
  -733354399261000, -700279693580000, -470767664646000, -683419264548000, -657582963161000, -933963865749000,
  45068862723500, -249753689780000, 338103514287000, 1385279655630000, -139059221097000, 131728951722000,
  -650929731674000, -844202922569000, -242287091649000, 187942139897000, -211136224508000, 139654183047000,
  -541431685967000, -307052267766000, 8495879428700, 1039773108500000, -1319430480890000, 1194165228980000,
  401875400135000, 502034622785000, -320219830206000, -601767315498000, -1698465874150000, -411852072757000,
  -994818435373000, -672390343177000, -363980243567000, 246532995184000, -38021096143000, 217686565290000,
  -1125058937660000, 161158816726000, 105158253708000, 361855263797000, -1200894313000000, 9645187011140000,
  256894077997000, 379095739238000, -1732201712210000, -1041791013690000, 721247353087000, -1149379246010000,
  -784888069700000, 51413621244100, -351454627695000, -340654646337000, 30416135488700, -572021533230000,
  -383821499890000, -268209384482000, 106752938523000, 67732756369800, -161502794398000, 296750226889000,
  -105510526828000, -227640071874000, -409070881500000, 311372650763000, 394284580098000, 440043954301000,
  1553497773040000, 252357226846000, 415777877683000, 347335810570000, 1367630178790000, 1328184057650000,
  139551041680000, 2098094156850, -588796619628000, 126843494328000, 719934538749000, 293182498382000,
  157698579440000, -137410684853000, 405940570669000, 1484689417770000, -64295791416600, 272936358630000,
  851096261755000, 197210592684000, 53047570447700, 226907424018000, 680378366108000, -1268392407680000,
  727804666997000, 564722424249000, 736241256775000, 685570362359000, 614401133253000, 580496011766000]

/-- diehard_operm5.h:1495-1514. -/
def op5Row66 : List Int := [
  -32468263739700, -37704024234900, -87737685616900, 226535029574000, 375027773845000, -82209928325000,
  -214215935276000, -150142740200000, -249753689780000, 520850413778, 267602940790000, -172460020986000,
  263094122274000, -30805504142700, 100101216412000, 6170253131150, -1514655589180000, 183679897869000,
  -115480161496000, 771072711834000, -309523932096000, -108861127329000, -10261216878300, -35402980196400,
  62532611813300, -33200104184100, 51578186735300, 68895787956900, -300379402614000, 115099202692000,
  -113007910406000, -616635518705, -8708702396590, -77477626436600, -242952720868000, 866578251209000,
  -302221399632000, 30335811658800, 168797633181000, -1044597404650000, 305921950333000, 779473120283000,
  -53243221348800, -138639355346000, 120692085120000, -115408470499000, -203263840131000, 105528116547000,
  -1483566270790000, 98243786894000, -38021096143000, 34198652827600, 276337481959000, -110748966817000,
  59847844513700, 5307627242700, -183309503743000, 6983596632960, -29883167502300, -18843899876100,
  273461452022000, -23066796293100, 65288881480700, 13755430028200, -1461128114530000, 256894077997000,
  9425527881080000, -1529788411640000, 194203511105000, 238836929911000, -3191897391660000, -1425152331150000,
  -161785491827000, 566463862396000, -332096648140000, -183079589154000, -48084813714000, 27761611853300,
  112185793523000, 20825547463100, 184284292672000, -226824927103000, -227239000576000, -15970586331800,
  -77532909876500, -37980194354800, -8463871436680, -32981523499000, -42523642337000, 11946267914400,
  99214246153200, 955041595013000, -990097087751000, 629032662774000, -92890284398500, -45321232534900,
  8245104493750, 50313844441300, 24351448852900, 202872233283000, 276544260503000, -81181519780300,
  26523199491100, 65126587529200, -5677761772970, -100719159757000, -468783610204000, 902880381129000,
  172187882714000, -285326303442000, -187628143369000, 14958062067000, -1311200218980000, 418954888030000,
  -21762123229800, -116301986843000, 51413621244100, -227483562655000, -28835077080600, -675287102232]

/-- diehard_operm5.h:1517-1536. -/
def op5Row67 : List Int := [
  -213068687021000, -128003934163000, 40127778542000, 319550859524000, 163938994047000, 155050062551000,
  -53882363314900, -457224088644000, -137410684853000, 426348616172000, 238818731746000, 310532137185000,
  237222909638000, 58098275352200, 225972447542000, 218580016393000, 441797286516000, -1497169980520000,
  -473130890527000, 906274797268000, -319998558894000, 247930316206000, -69574109909500, 168664098403000,
  200550909998000, 114479443151000, 148147473050000, 271510318704000, 117390695484000, 60640147297400,
  -26779210105300, 65126587529200, -87645061486400, -277795348368000, 1106760359140000, -585849699332000,
  1107964915790000, 1147623960340000, -1072808052750000, -410554906252000, 46661529038800, -605454160848000,
  216723095516000, 104860798325000, -248488946318000, -298679387144000, 112297208977000, -255234384466000,
  147846360711000, -1579056035610000, 217686565290000, 260278409476000, 27984360803500, -29517057558400,
  246454329810000, 195804453141000, 322581106136000, -448983028873000, -18843899876100, -191383293954000,
  165480029254000, -20166105304700, -15602566946800, -153452144760000, -1870964526610000, 379095739238000,
  -1529788411640000, 9364261020940000, -1083438350930000, -1702162525000000, -1782249160680000, 397463653510000,
  -401214234100000, 771072711834000, -451946838500000, 183082030725000, 73391909973500, 294467407897000,
  89712520473800, 29256496695800, -218819474404000, -97973346289800, 165442854956000, -97384916687400,
  -165035733438000, 187872915877000, 216993674850000, -212754545184000, -226857129554000, -259637492575000,
  -267538276240000, 767248056184000, 759505512494000, -1181689608180000, -381099339358000, -315950591385000,
  -22280848864200, 5556784678290, 91878259164000, 162075751509000, 188972013476000, 42984644357600,
  82907160707300, -5826420729110, -146089485254000, -341769576679000, 1212892946350000, -769733034196000,
  178263563452000, 160500993770000, 247431235715000, -176475194051000, -2158847452390000, 170108151577000,
  -60786252486800, -261762276351000, -230163312917000, -245959713642000, -275213165922000, -169030572390000]

/-- diehard_operm5.h:1539-1558. -/
def op5Row68 : List Int := [
  -290550450174000, 138687323822000, 291664946903000, 72383172661300, 51699301581000, -8236576663450,
  -139535571638000, 11246280462200, -588796619628000, 387026004778000, 551065378265000, 332191661492000,
  84292783072000, 40595007301400, 351283765151000, 218522773610000, -24422298488900, -1276036805860000,
  517250072782000, -128003934163000, -235072651678000, 399144669601000, -257697065912000, 140680050611000,
  176170682652000, 11606651766600, 259871803433000, 57398329404900, 28331512615800, 243697755210000,
  11039646268100, 24351448852900, -7623302751880, -433004449477000, 773624059467000, -386961435551000,
  1086704431940000, -839291090002000, 866481634482000, -502467448805000, 203244291996000, -665812491595000,
  171359022390000, 30130220995200, -229004601420000, -171528642262000, 351750054562000, -422796727586000,
  -3348585249310, -1235829584520000, 246532995184000, 372182254444000, 44876544489800, 82782741077600,
  282412258514000, 163728269312000, 191572793238000, -529037912148000, 6983596632960, -448983028873000,
  274121610464000, 155270079570000, 84050123741800, -215868159775000, 92648166524600, -1732201712210000,
  194203511105000, -1083438350930000, 9835583459970000, -3619480238400000, -6222952963450, -1839768658980000,
  438149458079000, -37704024234900, -148564295720000, 481301106985000, -405226447797000, 90823575480900,
  211540301866000, 90919889273100, -179665727600000, -192029423174000, 327367538387000, -456409239301000,
  -134997010910000, 238263262964000, 347959864133000, -288446862464000, -240015513230000, -175773570496000,
  444558063180000, 11039618643100, -237331479701000, -222568304570000, 838996332437000, -1273599228230000,
  -254840826787000, 140809620370000, 218345616634000, 168554765668000, 216874029149000, 61344067396800,
  -49148324301700, 91878259164000, 181968452702000, -560682842900000, 733279444374000, -327561900621000,
  255767805912000, 106176307263000, -7894357475660, -211393300786000, 188241502240000, -1678778152130000,
  -345130216438000, 291434752106000, 54533155895800, -422556084587000, -499338303655000, -469893147886000]

/-- diehard_operm5.h:1561-1580. -/
def op5Row69 : List Int := [
  125294322978000, 140809620370000, 266041333492000, -364547457306000, 287816600487000, -256428697012000,
  -426389011473000, 72231179619100, -209613711355000, -604286677972000, -736658175599000, -532764231058000,
  320833846878000, -230497741046000, -287516480264000, -414106321047000, 213971609673000, -1796606200960000,
  713294881956000, 5556784678290, -275719522516000, -361884557138000, -113547734156000, -391494167754000,
  -306686059009000, -377733627693000, -64411816780300, -361315415637000, -304768959184000, -486937681595000,
  -270812576928000, -87737685616900, 141674265601000, 351366877414000, 633445073191000, 85474529868300,
  -1409124404270000, 538238026713000, 442099749479000, 59295151689600, -223364079297000, 204238410188000,
  -207073322809000, -298199746189000, 83120651290900, 200594589649000, -285350911338000, 132988350128000,
  205840148048000, -1808744366840000, -363980243567000, -242109281648000, 311848761998000, -311650166621000,
  -406087251037000, -553141230965000, -499880484738000, 191572793238000, -183309503743000, 322581106136000,
  462640633331000, -9461035067330, -116880599602000, 293931202527000, 785572434880000, -1041791013690000,
  238836929911000, -1702162525000000, -3619480238400000, 9805012380840000, 691329582535000, -1137718812300000,
  632770429109000, 50313844441300, -219163227797000, -304232718639000, -132849163946000, -480044307096000,
  -188530104907000, -267167545957000, 123620042522000, 285356476469000, -236940709009000, 189214896281000,
  83991923549400, -125286666352000, -536799149000000, 154283271895000, 524659988964000, 183617274451000,
  891907078347000, 290077588087000, 134264207773000, 275496955568000, -555402788282000, 1203682255250000,
  79575517212900, 151640273628000, 291664946903000, -205424388182000, 372152299620000, -81859381631800,
  -215700853736000, 40127778542000, -94080187703200, 439505757541000, 673360604526000, 86615445419000,
  475341046185000, 24827533492100, -119922432959000, 237667671700000, 742132958226000, -1119770460070000,
  31475592360700, 157307864629000, 2098094156850, 244544825138000, 768438220043000, 395863320677000]

/-- diehard_operm5.h:1583-1602. -/
def op5Row70 : List Int := [
  10098160067300, 11039618643100, -64411816780300, -182528689767000, 391173751298000, -40240686448600,
  -358332670710000, -300247208670000, -470767664646000, -851024383753000, -1303981381200000, -1017404823570000,
  135133816440000, -292596621497000, -538655433290000, -679002948435000, -1609492043730000, -180161412778000,
  -136735936182000, 767248056184000, -388179659482000, -713738360177000, -119535906150000, -349132852619000,
  -577589734195000, -647950333593000, -433084423350000, -384681126387000, -678794619835000, -572755448944000,
  -373188144194000, 51578186735300, 207207252862000, 197189302591000, 9779043988220, 1072870140560000,
  -1008696088610000, -753423166744000, 30691458668100, 1172889267800000, 395300330661000, -841395982155000,
  -349052670024000, -439348055773000, 359856635699000, 163364398023000, -378301578534000, 427652301649000,
  -1785741159660000, -379742931057000, -994818435373000, -706730433692000, 53246967508400, -396916466957000,
  -519815138695000, -852814552557000, -406087251037000, 282412258514000, 59847844513700, 246454329810000,
  606537020449000, 181135952795000, 206949985359000, 349246198396000, -861710023958000, 721247353087000,
  -3191897391660000, -1782249160680000, -6222952963440, 691329582535000, 10287300033700000, -829754156395000,
  -27249757981500, 955041595013000, -321798506775000, -579854447676000, -6623816763930, -256168688630000,
  -362453739721000, -494217489682000, 310256892136000, 122098483369000, -378092960240000, 435351409207000,
  -42468735622000, -307743593625000, -183014139735000, 426729074902000, 625670358802000, 564432273403000,
  653891567913000, -521236288663000, 1380487633060000, 1123693803020000, 490918856470000, 525351092114000,
  317949645052000, 290077588087000, 259871803433000, -288743618262000, 228500868480000, -177820375188000,
  -640891589527000, 148147473050000, 269155885333000, 244550709798000, 64601877745700, 1070751525350000,
  733859822326000, 318541284620000, 436501661673000, 549448637986000, -746208658743000, 929575996071000,
  493464750296000, 491037153642000, 252357226846000, 233851044078000, 511985745270000, 536585346694000]

/-- diehard_operm5.h:1605-1624. -/
def op5Row71 : List Int := [
  116047660536000, 291434752106000, 72231179619100, -352437410739000, 130519160208000, -290479889313000,
  -503263931039000, -72522673807200, -405435495795000, -815841326488000, -868936039711000, -1359534392290000,
  118570542996000, -308366691349000, -544641221973000, -630970603601000, -1955882182500000, 69967323068600,
  854277559021000, -261762276351000, -210738078932000, -597302395553000, -227303616948000, -378877759863000,
  -453722062451000, -570466629849000, -300247208670000, -788914111836000, -742705630041000, -653319254708000,
  -123652875064000, -150142740200000, 442154249574000, 411048986679000, -349650206722000, 1144420990560000,
  -788809678529000, -850314641749000, -131988516118000, 1294236416280000, -1392857184170000, 1258798490470000,
  -419782340310000, -504394247808000, 273971784574000, 66074162179800, -197808516555000, 206125308493000,
  -1853897438610000, 84618224121800, -672390343177000, -735459035667000, 120670176701000, -321707086342000,
  -852814552557000, -736238199152000, -553141230965000, 163728269312000, 5307627242700, 195804453141000,
  695343835880000, 271151189023000, 205301896597000, 407022363329000, 1170347912760000, -1149379246010000,
  -1425152331150000, 397463653510000, -1839768658980000, -1137718812300000, -829754156395000, 9582535609150000,
  1007304985430000, -116301986843000, -137163023510000, -603427973474000, -150027454550000, -393903347767000,
  -306099501395000, -427782577163000, 337896290047000, 151214093103000, -53790600109600, 336886108025000,
  6884749559510, -331927402712000, -396687513396000, 188099997551000, 486683987463000, 382132646761000,
  -529735570343000, 491037153642000, 218987516681000, 126119834948000, 1528332153160000, 1313791984170000,
  -33853229170200, 157307864629000, 11246280462200, 59063379222500, 496574729528000, 93429468924900,
  -120420235933000, -457224088644000, 461452225228000, 470113281529000, -304675227459000, 1213250787360000,
  666691905449000, 234670913657000, 65147201681700, 284956457467000, 1145175163350000, -1281697780430000,
  624180265424000, 860637122639000, 564722424249000, 596833742143000, 780962418292000, 544249526303000]

/-- diehard_operm5.h:1627-1646. -/
def op5Row72 : List Int := [
  244549621665000, -134997010910000, 442099749479000, -252050917818000, -119832194615000, -132677197557000,
  64806010535600, -131988516118000, -242287091649000, -179190636860000, 96356173030800, -82276162712000,
  75252343797300, -145370351642000, -101728261213000, -65550061914700, -202931849394000, -410591299042000,
  -1473039643830000, -165035733438000, -70115031390700, -174888357212000, 266720371507000, 217786885862000,
  76874741843600, -23451134727000, 30691458668100, -40548544722700, -139758341021000, 49351113992400,
  -80797569844900, 168797633181000, -67363330904900, -383870245603000, -350345230039000, -54158875330100,
  8728167739140, -297318505675000, 468499435657000, 438226922329000, -236678986350000, 215730956894000,
  -213442715547000, -174089982198000, -75593166423300, -315515491248000, -268666481829000, 55947617458200,
  -72181088803300, -250966202192000, 45068862723500, -205191827869000, 22084681719700, -189452057505000,
  -373188144194000, -123652875064000, -270812576928000, 11039646268200, -113007910406000, -26779210105300,
  239181914006000, 131823289283000, 165895067518000, 282235210499000, 339335561421000, -784888069700000,
  -161785491827000, -401214234100000, 438149458079000, 632770429109000, -27249757981500, 1007304985430000,
  9558856130060000, -77532909876500, 40164758829700, -73720848458900, -1504328811930000, -1532857981950000,
  -98100061593500, -25309131695200, -7134802820710, -51840816269900, -60702859229300, 252120643985000,
  327695081497000, 267912768460000, 156010340800000, 294831173152000, 384465259820000, 472477703040000,
  -3230954098930000, -42468735622000, -118330443691000, 183839328834000, -1329658859450000, -1477531242990000,
  360249764016000, 83991923549400, 866481634482000, -61089468485500, -172833866992000, -83151602608200,
  -192153663320000, -1072808052750000, 775620353226000, 803071032466000, 178584284172000, 180036779883000,
  -52354328077400, 62460250858600, -152362951526000, -48653465796200, 31385428694300, 754335481944000,
  -1476250520360000, 6884749559510, -105510526828000, 117284223635000, 317239108681000, 142851903350000]

/-- diehard_operm5.h:1649-1668. -/
def op5Row73 : List Int := [
  -8463871436690, 194203511105000, -183309503743000, 305921950333000, -227239000576000, -203263840131000,
  -302221399632000, 5307627242700, -38021096143000, 6170253131150, -300379402614000, -172460020986000,
  112185793523000, -53243221348800, 62532611813300, 520850413776, -183079589154000, -108861127329000,
  -37980194354800, -1529788411640000, 98243786894000, 183679897869000, 27761611853300, -35402980196400,
  100101216412000, 34198652827600, 59847844513700, 30335811658900, 267602940790000, 115099202692000,
  168797633181000, -29883167502300, 65288881480700, -187628143369000, -242952720868000, -468783610204000,
  -214215935276000, 68895787956900, -113007910406000, 26523199491100, 226535029574000, 202872233283000,
  -30805504142700, -110748966817000, -23066796293100, -285326303442000, -82209928325000, -81181519780300,
  -332096648140000, -309523932096000, -249753689780000, -33200104184100, 20825547463100, -138639355346000,
  51578186735300, -150142740200000, -87737685616900, 24351448852900, -616635518708, 65126587529200,
  184284292672000, 120692085120000, -8708702396590, -5677761772970, -990097087751000, 51413621244100,
  566463862396000, 771072711834000, -37704024234900, 50313844441300, 955041595013000, -116301986843000,
  -77532909876500, 9425527881080000, -1483566270790000, -1514655589180000, -48084813714000, -10261216878300,
  263094122274000, 276337481959000, 273461452022000, 172187882714000, 375027773845000, 276544260503000,
  -161785491827000, -115480161496000, -32468263739700, 8245104493750, 99214246153200, -21762123229800,
  -42523642337000, -3191897391660000, -1461128114530000, -1311200218980000, -92890284398500, -28835077080600,
  -32981523499000, 238836929911000, 6983596632960, 779473120283000, -15970586331800, 105528116547000,
  -1044597404650000, -18843899876100, 13755430028200, 14958062067000, 866578251209000, 902880381129000,
  -226824927103000, -115408470499000, -77477626436600, -100719159757000, 629032662774000, -227483562655000,
  11946267914400, -1425152331150000, 256894077997000, 418954888030000, -45321232534900, -675287102231]

/-- diehard_operm5.h:1671-1690. -/
def op5Row74 : List Int := [
  -139501835562000, -3348585249300, -116880599602000, 580288007867000, -265884432854000, -288072342083000,
  -183170587234000, 205301896597000, 105158253708000, 71686381449900, -148303979002000, -4243970352940,
  -96676368430400, 140874140874000, 291476006270000, 351830820868000, 1699545123050, 86451127664900,
  -204207166717000, 147846360711000, -1594801584320000, 326782880655000, -60167662853300, 172996653042000,
  145528844758000, 112502630644000, 206949985359000, 50124328302900, 278643342225000, 69158768763500,
  -67363330904900, 65288881480700, -40089330274500, -705793411218000, -143426408258000, -573844782065000,
  730349562037000, 362078617726000, 165895067518000, -99512419110300, -79413334296100, 132144544549000,
  134710462072000, 241906046605000, -332897663818000, -550478634897000, 235700464670000, -120360863110000,
  1077796497590000, 1141590726850000, 338103514287000, 112338280046000, 880731107037000, -64253265342700,
  207207252862000, 442154249574000, 141674265601000, -7623302751880, -8708702396590, -87645061486400,
  -1139783705660000, 88217711070700, -104954137496000, -185841628415000, -429947966233000, -351454627695000,
  -332096648140000, -451946838500000, -148564295720000, -219163227797000, -321798506775000, -137163023510000,
  40164758829700, -1483566270790000, 9278539280950000, -1624024783260000, 73656690047500, 175832614461000,
  739312816784000, -1113906708120000, -1573887625140000, -2149125395980000, 582889224441000, 282072520664000,
  -72181088803300, 41919601099200, 163743331504000, -167990502431000, -220778938257000, -281004665660000,
  -331243791773000, -1785741159660000, 492079954057000, 446226543485000, -444273544243000, -305018339346000,
  -37461965966300, 205840148048000, 84050123741800, 812910672884000, -149399239261000, -28843336088600,
  935576439192000, -15602566946800, -129586693892000, 3800883574870, -706529346522000, 909063855211000,
  886483341561000, -167373580774000, -149196964868000, -421039938474000, -647364612549000, -388232908528000,
  -132629124690000, -1853897438610000, 401875400135000, 273539255755000, -280677249714000, -202802672410000]

/-- diehard_operm5.h:1693-1712. -/
def op5Row75 : List Int := [
  -334650475961000, -24422298488900, -119922432959000, 729488051492000, -445236155393000, -156432015213000,
  -237033491174000, 65147201681700, 53047570447800, 16604170123600, -96370492135000, 211615664827000,
  -14394888061800, 40724273872600, 201415320722000, 291896715975000, 120436215199000, 424731476814000,
  -195883804573000, 441797286516000, 373619642794000, -1615534578420000, -121452928814000, 102050137931000,
  283654536530000, 426622830396000, 436501661673000, 277259210961000, 576091246408000, 332517390895000,
  -383870245603000, -187628143369000, -705793411218000, -153071571540000, -205718013166000, -61205798947300,
  510925342427000, 129179650177000, -152362951526000, -205981445593000, 616196222431000, -510130764631000,
  335728059368000, 335790524138000, -450485903284000, -364730771509000, 82737772615300, -366840017366000,
  1699545123050, 358769338251000, 1385279655630000, 1163250472440000, -234515277457000, 1038041091130000,
  197189302591000, 411048986679000, 351366877414000, -433004449477000, -77477626436600, -277795348368000,
  -17270830744000, -1004187954770000, -149196964868000, -390795863113000, -440445015800000, -340654646337000,
  -183079589154000, 183082030725000, 481301106985000, -304232718639000, -579854447676000, -603427973474000,
  -73720848458900, -1514655589180000, -1624024783260000, 9213653555160000, 33709911079100, 213648776433000,
  -1240197707430000, 717934350437000, -114582454271000, 298812055676000, -1268143958740000, -1695430235180000,
  -202931849394000, -3100571294300, 144529123062000, -270739810248000, -251407232447000, -420846320503000,
  -105123128530000, -1609492043730000, 568294330736000, 433952915306000, -382010252008000, -336354084830000,
  5092808644590, 213971609673000, -7894357475660, 796997978451000, -85292398370000, -25719774085900,
  1204590183560000, 247431235715000, 19345313246300, -245376070600000, 861627206225000, -1083104463240000,
  -456923963793000, 811963810962000, -195176042081000, -212699636533000, -659806078449000, -326077886935000,
  -174931022596000, -1955882182500000, 290487823575000, 257472739991000, -378922402605000, -254663857301000]

/-- diehard_operm5.h:1715-1734. -/
def op5Row76 : List Int := [
  28344839227400, -405226447797000, 633445073191000, -130327712967000, -140296912034000, -296608171915000,
  -52704934016100, -349650206722000, -139059221097000, -312338044576000, 143073220478000, 17065799026200,
  -37687068632300, -67588848294400, -129945312138000, -312338044576000, 33709911079100, -15623661684400,
  526249155547000, 73391909973500, 58690482588900, -15623661684400, -1759874022660000, 22034580076100,
  -129945312138000, 150831284227000, 9779043988220, 272940983215000, 143073220478000, 278891110681000,
  -350345230039000, -242952720868000, -143426408258000, -205718013166000, -150120357998000, -141387342026000,
  -52704934016100, 272940983215000, -350345230039000, 261461575929000, -130327712967000, -19580132941400,
  -67588848294400, 131873349495000, -180231008148000, -87354768147500, -296608171915000, -101550367500000,
  73656690047500, 58690482588900, -139059221097000, 150831284227000, 176478425866000, 131873349495000,
  9779043988220, -349650206722000, 633445073191000, 773624059467000, -242952720868000, 1106760359140000,
  -94851287154500, -180231008148000, -143426408258000, -783212364819000, 150969080752000, 30416135488700,
  -48084813714000, 73391909973500, -405226447797000, -132849163946000, -6623816763930, -150027454550000,
  -1504328811930000, -48084813714000, 73656690047500, 33709911079100, 8957516331700000, -1759874022660000,
  -37687068632300, 176478425866000, -94851287154500, 24191228248700, -140296912034000, 35957367601500,
  -1504328811930000, 526249155547000, 28344839227500, 251277142788000, -1410073884230000, -1636065878860000,
  -1410073884230000, -6623816763930, 150969080752000, -20656037920100, 883892629996000, 519487052725000,
  251277142788000, -132849163946000, 773624059467000, -19580132941400, 35957367601500, -101550367500000,
  261461575929000, 1106760359140000, -783212364819000, 916556607048000, -141387342026000, -67535871895900,
  24191228248700, -87354768147500, -205718013166000, 916556607048000, -20656037920100, -327086927080000,
  -1636065878860000, -150027454550000, 30416135488700, -327086927080000, 519487052725000, 138599815357000]

/-- diehard_operm5.h:1737-1756. -/
def op5Row77 : List Int := [
  -302612919136000, -257697065912000, 673360604526000, 22897020724800, -305199614679000, -165265185841000,
  127190685484000, -304675227459000, -64295791416600, -140380767879000, 300380912726000, 233797744968000,
  -265468288836000, 119185087310000, -61450943176200, 204681763800000, -121452928814000, 271948844032000,
  402652212184000, -69574109909500, 202175215248000, 151405062145000, 6818137073660, -1519985714200000,
  305266424708000, 292767457208000, 64601877745700, 145683591274000, 396775742616000, 468667942184000,
  -54158875330100, -468783610204000, -573844782065000, -61205798947300, -141387342026000, -164566691985000,
  164544241710000, 403107288934000, 178584284172000, -453452165872000, 230547304932000, -266162830552000,
  73598843624600, 19460594319500, -482797426774000, -173724798100000, 232430877087000, -354614834121000,
  -60167662853300, 289820975974000, 131728951722000, 114597346545000, -52066932345900, 297337347268000,
  1072870140560000, 1144420990560000, 85474529868300, -386961435551000, 866578251209000, -585849699332000,
  -62725834438100, 213889983533000, -706529346522000, -93625112603600, -440138514720000, -572021533230000,
  27761611853300, 294467407897000, 90823575480900, -480044307096000, -256168688630000, -393903347767000,
  -1532857981950000, -10261216878300, 175832614461000, 213648776433000, -1759874022660000, 9265781171540000,
  401280807894000, 208159759315000, -232574635157000, -275853109518000, 210113876234000, -324361929777000,
  266720371507000, -1464638524850000, -1257370718420000, -1784818972040000, -54063794214900, 277691764137000,
  -1516687251730000, -119535906150000, 21665185312500, -310671340685000, 380636994282000, 487083197795000,
  69220743145200, -113547734156000, 733279444374000, 75235839771800, 11582023533700, 19149821326800,
  222376399657000, 1212892946350000, 793840729882000, -1035306549490000, -137831976503000, -150296632734000,
  -37120701986200, -105467036139000, 861627206225000, -281745826544000, -114299204712000, -424027216807000,
  -2078294739550000, -227303616948000, -70232138338300, -168292210904000, 34272187013900, 185902383774000]

/-- diehard_operm5.h:1759-1778. -/
def op5Row78 : List Int := [
  -380493410954000, 84292783072000, 24827533492100, 11148493452800, -442205372104000, 643466143584000,
  186609684761000, 234670913657000, 197210592684000, 301638553195000, 335725030544000, 261850268380000,
  -103267698428000, -262487054875000, -17536490106500, -49781748456200, -14394888061800, 284939790460000,
  -166259948970000, 237222909638000, 754195229339000, -1477458972650000, -265468288836000, 165867317606000,
  409190734571000, 268655900288000, 318541284620000, 309071169008000, 422568698788000, 496241427809000,
  -315515491248000, -285326303442000, -550478634897000, -364730771509000, -87354768147500, -173724798100000,
  212704020822000, 299488054707000, 62460250858600, -329390863627000, 154681324423000, -190101638341000,
  595579816464000, 214946668185000, -865304489492000, -269413426189000, 381386715783000, -622632330604000,
  -96676368430400, -15831985791900, 1039773108500000, 1139822559530000, -113586621270000, -904793938552000,
  163364398023000, 66074162179800, 200594589649000, -171528642262000, -115408470499000, -298679387144000,
  -254666298514000, 913690958564000, -167373580774000, -274395919415000, -338273805882000, -383821499890000,
  112185793523000, 89712520473800, 211540301866000, -188530104907000, -362453739721000, -306099501395000,
  -98100061593500, 263094122274000, 739312816784000, -1240197707430000, -37687068632300, 401280807894000,
  9623288235140000, -1139997753140000, -1931723779730000, 554952664487000, -1087519161750000, -1803013077050000,
  75252343797300, 226290931654000, 358974770676000, -393793507938000, -737680265761000, -668837691359000,
  -178235877809000, 135133816440000, -1772148135540000, 234564145219000, -341068706800000, -261517726585000,
  -969180416604, 320833846878000, 106176307263000, 66369196936300, -178976586390000, 751502639263000,
  172765665257000, 160500993770000, -90102895311800, -318226111466000, -105467036139000, -128902728442000,
  -542499548254000, 1826606628210000, 811963810962000, -1090411611620000, -403303910361000, -378271517431000,
  -204081972113000, 118570542996000, -1836290956340000, 155758494558000, -379629591723000, -335031062359000]

/-- diehard_operm5.h:1781-1800. -/
def op5Row79 : List Int := [
  -138665779695000, 44876544489800, -9461035067330, -83874015536100, -329214336856000, 575150332245000,
  227346737812000, 271151189023000, 161158816726000, 362606894482000, 326675519699000, 202183256873000,
  -113586621270000, -207282329380000, 112394241249000, -58032342539600, -234515277457000, 49340397779200,
  -200355051992000, 27984360803500, -1274971040770000, 485576722241000, -52066932345900, 65783913265100,
  225691717471000, 82185355121900, 181135952795000, 106590212299000, 21968648645200, 136958351942000,
  -75593166423300, -23066796293100, -332897663818000, -450485903284000, -180231008148000, -482797426774000,
  254581189924000, 346667425859000, 131823289283000, -1398642048160, 292211067478000, 9672803486650,
  360317294936000, 133472273249000, -316965487642000, -865304489492000, -103526516990000, 262950027646000,
  880731107037000, 864381642659000, 8495879428690, 101326108039000, -1150515194930000, 118069247113000,
  359856635699000, 273971784574000, 83120651290900, -229004601420000, 120692085121000, -248488946318000,
  745957428690000, -141292452560000, 88217711070700, -278247617573000, -432478909853000, -268209384482000,
  20825547463100, 29256496695800, 90919889273100, -267167545957000, -494217489682000, -427782577163000,
  -25309131695200, 276337481959000, -1113906708120000, 717934350437000, 176478425866000, 208159759315000,
  -1139997753140000, 9792792542430000, -3415167569240000, -1889453730990000, 466367182442000, 470409238607000,
  22084681719700, -177000131659000, -121391220419000, -137002058804000, -159619979390000, -98660312102400,
  -310406777656000, 53246967508400, -1807862096120000, 103529123844000, -381440143326000, -337577633747000,
  -28859370811000, 311848761998000, 155270079570000, 108285467559000, -177477694233000, 685809515971000,
  -111372675128000, -20166105304700, -264461858054000, -62465799725400, 213889983533000, -72646491944200,
  758738509851000, 913690958564000, -1004187954770000, 560836397767000, -470149806626000, -382849120087000,
  -250206994411000, 120670176701000, -1698465874150000, 248195738147000, -276899080156000, -202151439206000]

/-- diehard_operm5.h:1803-1822. -/
def op5Row80 : List Int := [
  12167330344400, 274121610464000, -311650166621000, -339699380325000, -220848872348000, 337785124710000,
  -435783988847000, -321707086342000, -411852072757000, -178446843887000, -299515736580000, -335179369511000,
  -254666298514000, -422320070153000, -628473382085000, -602998849958000, -17270830744000, -396373655670000,
  -130237338382000, 165480029254000, -1801697508100000, -76848146356900, -62725834438100, -270772471001000,
  -308262042966000, -535965896485000, -396916466957000, -517763354174000, -473781547117000, -378125589665000,
  -174089982198000, -110748966817000, 241906046605000, 335790524138000, 131873349495000, 19460594319500,
  -266294670741000, -196636597240000, -189452057505000, -77143447541100, -199850697532000, -155906670230000,
  -564241517623000, -322786966042000, 133472273249000, 214946668185000, 333342800563000, 71958327766700,
  -1139783705660000, 448066186429000, -307052267766000, -279810435903000, 745957428690000, -58668181873800,
  -439348055773000, -504394247808000, -298199746189000, 30130220995200, -138639355346000, 104860798325000,
  693429729132000, 118069247113000, -64253265342700, 141439353302000, 132288537996000, 106752938523000,
  184284292672000, -218819474404000, -179665727600000, 123620042522000, 310256892136000, 337896290047000,
  -7134802820710, 273461452022000, -1573887625140000, -114582454271000, -94851287154500, -232574635157000,
  -1931723779730000, -3415167569240000, 9751061653520000, -1205867682210000, 318700577505000, 372198225871000,
  239181914006000, -6478289948340, 31700940864400, 369530622097000, 394431849865000, 418885217231000,
  312219281403000, 606537020449000, -1221029955190000, 665935094182000, 153728882691000, 167444252606000,
  199892364104000, 462640633331000, 82782741077600, -20834479867200, -33026336574700, 670357901341000,
  -138754417573000, -29517057558400, 225917246856000, 467724015175000, 297337347268000, 88823159435300,
  1006771630240000, -904793938552000, 1038041091130000, 916691233076000, 82373392317900, 107416732004000,
  457598222658000, 695343835880000, -1125058937660000, 791720330292000, 317903115692000, 337243472607000]

/-- diehard_operm5.h:1825-1844. -/
def op5Row81 : List Int := [
  17173296606500, 255767805912000, -230497741046000, -448756391546000, 599953633686000, -431705493911000,
  -409579126929000, -308366691349000, -312264250823000, -508978296436000, -384237277717000, -480906526575000,
  -542499548254000, -117578717837000, -319563732100000, -470358055171000, -456923963793000, -567174203167000,
  -34417682336900, 178263563452000, -2103304812200000, 173375230332000, -37120701986200, -345806031990000,
  -423601380227000, -253196272433000, -292596621497000, -403545319173000, -390690736715000, -349946492897000,
  -213442715547000, -30805504142700, 134710462072000, 335728059368000, -67588848294400, 73598843624600,
  -802880140394000, -729749260730000, -145370351642000, 289791410635000, -408938603508000, 243658406577000,
  -359775002064000, -564241517623000, 360317294936000, 595579816464000, -624502277907000, 390350490143000,
  886483341561000, -1054583017590000, -541431685967000, -436964974991000, 758738509851000, -422320070153000,
  -349052670024000, -419782340310000, -207073322809000, 171359022390000, -53243221348800, 216723095516000,
  1006771630240000, -207282329380000, 140874140874000, 370110750688000, -24262443420100, 67732756369800,
  -226824927103000, -97973346289800, -192029423174000, 285356476469000, 122098483369000, 151214093103000,
  -51840816269900, 172187882714000, -2149125395980000, 298812055676000, 24191228248700, -275853109518000,
  554952664487000, -1889453730990000, -1205867682210000, 9290816092730000, -1835753035070000, -1061873030800000,
  -52354328077400, -108325212653000, -205132354587000, 294636891811000, 333357224677000, 361354047806000,
  524852905716000, 733859822326000, 926811669461000, -1096961967370000, 508742069869000, 557269052947000,
  238840824158000, 475341046185000, 40595007301400, -116278277850000, 792839152050000, -187300467473000,
  -109661117537000, 58098275352200, 192792536871000, 569324816715000, 119185087310000, 277936969810000,
  345654007290000, -262487054875000, 40724273872600, 78307924883200, 1141123204030000, 1192331627160000,
  408962687016000, 666691905449000, 851096261755000, -1224326435290000, 343150830196000, 395757418947000]

/-- diehard_operm5.h:1847-1866. -/
def op5Row82 : List Int := [
  -234887107486000, 51699301581000, -81859381631800, -50368488592100, 294669958734000, -129869010121000,
  89238422694200, 93429468924900, 293182498382000, 117416486145000, 276659868630000, 264266037378000,
  -442205372104000, -187300467473000, 395791893946000, 177152941632000, -445236155393000, 12403950175300,
  -253679733505000, 163938994047000, 448072367247000, -1264570441710000, -305199614679000, 170988267819000,
  139081975589000, 26696458573700, -177820375188000, -2064016879210, 463861937546000, 482579845901000,
  55947617458200, -81181519780300, -120360863110000, -366840017366000, -101550367500000, -354614834121000,
  306745698764000, 323350409469000, -83151602608200, -515925382175000, 153038477142000, -477986206737000,
  390350490143000, 71958327766700, 262950027646000, -622632330604000, 177456287105000, -534623743353000,
  -265884432854000, 196270324942000, 1194165228980000, -723976744124000, -329214336856000, 670357901341000,
  427652301649000, 206125308493000, 132988350128000, -422796727586000, 105528116547000, -255234384466000,
  -220848872348000, 685809515971000, -28843336088600, -473280164616000, -470370169779000, -161502794398000,
  -227239000576000, 165442854956000, 327367538387000, -236940709009000, -378092960240000, -53790600109600,
  -60702859229300, 375027773845000, 582889224441000, -1268143958740000, -140296912034000, 210113876234000,
  -1087519161750000, 466367182442000, 318700577505000, -1835753035070000, 9821959150610000, -3623867046980000,
  -119832194615000, 347037493945000, 301521299803000, -344918321285000, -358084102688000, -243434134683000,
  -56111443696500, 391173751298000, 530877759488000, -1735427217700000, -529277408478000, -417525572483000,
  -29995118668200, 287816600487000, 61344067396800, 130130103982000, 612522600352000, 33906137645500,
  287309717622000, 42984644357600, 61845466688700, -277501741267000, 19149821326900, -174755203283000,
  599953633686000, 751502639263000, -25719774085900, -148524032158000, 635850336621000, -1192430452260000,
  -146189605730000, 130519160208000, 252869602862000, -1676345773740000, -293284896764000, -200425841399000]

/-- diehard_operm5.h:1869-1888. -/
def op5Row83 : List Int := [
  24717744911200, 216874029149000, -256428697012000, -331540906326000, 612522600352000, -473421493710000,
  -357155025876000, -290479889313000, -163606896922000, -399370888359000, -314490568256000, -331381710689000,
  -178976586390000, -431705493911000, -477212084362000, -290566379430000, -85292398370000, -613796778300000,
  119191624916000, 188972013476000, 70269494477200, -1816473444000000, 11582023533700, -474087329353000,
  -433829916575000, 88858324948000, -40240686448600, -278206804744000, -549689862569000, -533485524048000,
  -268666481829000, -82209928325000, 235700464670000, 82737772615300, -296608171915000, 232430877087000,
  -352702931314000, -330981984540000, -132677197557000, 193512326132000, -437094940786000, 228539648409000,
  -624502277907000, 333342800563000, -103526516990000, 381386715783000, -522527665799000, 177456287105000,
  -149399239261000, -299859433160000, -1319430480890000, 634108150200000, -177477694233000, 337785124710000,
  -378301578534000, -197808516555000, -285350911338000, 351750054562000, -203263840131000, 112297208977000,
  -33026336574700, 575150332245000, -288072342083000, 110735995817000, 385417816513000, 296750226889000,
  -15970586331800, -97384916687400, -456409239301000, 189214896281000, 435351409207000, 336886108025000,
  252120643985000, 276544260503000, 282072520664000, -1695430235180000, 35957367601500, -324361929777000,
  -1803013077050000, 470409238607000, 372198225871000, -1061873030800000, -3623867046980000, 9809863073050000,
  -172833866992000, -267053226402000, -419712666694000, 261336859710000, 304775298559000, 413254115806000,
  228514157604000, 228500868480000, 427517288855000, -1123852794780000, 496993552301000, 604967090955000,
  224103669192000, 372152299620000, -8236576663450, -107761585802000, 801997590090000, -129869010121000,
  -111357560461000, 155050062551000, 462879146440000, 173634316499000, -165265185841000, 304187382428000,
  792839152050000, 643466143584000, -156432015213000, 303302590491000, -709732086170000, 1335345077870000,
  334668012401000, 496574729528000, 719934538749000, -1167297866310000, 276355973272000, 397585019365000]

/-- diehard_operm5.h:1891-1910. -/
def op5Row84 : List Int := [
  156010340800000, 438149458079000, -270812576928000, -236678986350000, -60702859229300, -268666481829000,
  8728167739130, -123652875064000, 45068862723500, -65550061914700, -139758341021000, -82276162712000,
  -98100061593500, -213442715547000, 76874741843600, -179190636860000, -73720848458900, -174888357212000,
  267912768460000, -401214234100000, -250966202192000, -410591299042000, -1532857981950000, 217786885862000,
  -101728261213000, -205191827869000, -373188144194000, -297318505675000, 96356173030800, 49351113992400,
  468499435657000, -113007910406000, 165895067518000, -152362951526000, -350345230039000, 178584284172000,
  64806010535600, -40548544722800, -80797569844900, -192153663320000, -252050917818000, -61089468485500,
  -145370351642000, -189452057505000, 131823289283000, 62460250858600, -132677197557000, -83151602608200,
  40164758829700, -70115031390700, -242287091649000, -23451134727000, -25309131695200, -174089982198000,
  30691458668100, -131988516118000, 442099749479000, 866481634482000, 168797633181000, -1072808052750000,
  -7134802820710, -75593166423300, -67363330904900, 775620353226000, -118330443691000, -105510526828000,
  -77532909876500, -165035733438000, -134997010910000, 83991923549400, -42468735622000, 6884749559520,
  327695081497000, -161785491827000, -72181088803300, -202931849394000, -1504328811930000, 266720371507000,
  75252343797300, 22084681719700, 239181914006000, -52354328077400, -119832194615000, -172833866992000,
  9558856130060000, -1473039643830000, 244549621665000, 360249764016000, -3230954098930000, -1476250520360000,
  384465259820000, -27249757981500, 339335561421000, 31385428694300, -1329658859450000, 317239108681000,
  294831173152000, 632770429109000, 11039646268100, 215730956894000, 252120643985000, 55947617458200,
  438226922329000, -26779210105300, 282235210499000, -48653465796200, -54158875330100, 180036779883000,
  -51840816269900, -315515491248000, -383870245603000, 803071032466000, 183839328834000, 117284223635000,
  472477703040000, 1007304985430000, -784888069700000, 754335481944000, -1477531242990000, 142851903350000]

/-- diehard_operm5.h:1913-1932. -/
def op5Row85 : List Int := [
  -148444614454000, 517250072782000, -215700853736000, -54616244107700, -253679733505000, -111357560461000,
  196844187389000, -120420235933000, 157698579440000, 62558658087600, 13582443157600, 177926900938000,
  -166259948970000, -109661117536000, 26194394116400, 237060247004000, -195883804573000, 222998910694000,
  96037871161100, -473130890527000, -191084817595000, -191776405385000, 402652212184000, -1484005674090000,
  299608668066000, -23398577662500, -640891589527000, -68527678543800, 357441254429000, 192241176595000,
  438226922329000, 26523199491100, -99512419110300, -205981445593000, 261461575929000, -453452165872000,
  240375639965000, 120036859623000, -192153663320000, -298718992499000, 287699128121000, -443349551400000,
  289791410635000, -77143447541100, -1398642048160, -329390863627000, 193512326132000, -515925382175000,
  -204207166717000, 128248388672000, 187942139897000, 817510064860, -200355051992000, -138754417573000,
  1172889267800000, 1294236416280000, 59295151689600, -502467448805000, -1044597404650000, -410554906252000,
  -130237338382000, -111372675128000, 935576439192000, -487087529660000, -218365247431000, -227640071874000,
  -37980194354800, 187872915877000, 238263262964000, -125286666352000, -307743593625000, -331927402712000,
  267912768460000, -115480161496000, 41919601099200, -3100571294300, 526249155547000, -1464638524850000,
  226290931654000, -177000131659000, -6478289948340, -108325212653000, 347037493945000, -267053226402000,
  -1473039643830000, 9243478191760000, -1176026535130000, -1556112555510000, -1761002533040000, 434231891950000,
  314499930424000, -136735936182000, -8597379993840, -62228133568000, -1888968834030000, 323042948793000,
  93477714525600, 713294881956000, -49148324301700, 286356084676000, 119191624916000, 287309717622000,
  356684831254000, 82907160707300, -23036202641100, -85072293385200, 222376399657000, -169920580331000,
  -34417682336900, 172765665257000, 1204590183560000, -530094184162000, -419956382234000, -440884437221000,
  65926157058000, 854277559021000, 988998691768000, -939177531702000, -1985823507030000, 231078513921000]

/-- diehard_operm5.h:1935-1954. -/
def op5Row86 : List Int := [
  544933609520000, -290550450174000, -205424388182000, -54806366706500, -234887107486000, -107761585802000,
  85960653125900, 59063379222500, 126843494328000, 78807212621700, 172684525309000, 190846053913000,
  -380493410954000, -116278277850000, 222704751677000, 161928012390000, -334650475961000, 170972351290000,
  -148444614454000, -213068687021000, 83533697427300, 101893534483000, -302612919136000, -1386473226860000,
  217703943527000, -544848887444000, -288743618262000, -208846228834000, 424056105166000, 381509686603000,
  215730956894000, 202872233283000, 132144544549000, -510130764631000, -19580132941400, -266162830552000,
  227752614391000, 178089271632000, -61089468485500, -443349551400000, 174181938409000, -426269341359000,
  243658406577000, -155906670230000, 9672803486650, -190101638341000, 228539648409000, -477986206737000,
  -139501835562000, 201281383095000, 139654183047000, 193731693654000, -138665779695000, -20834479867200,
  -841395982155000, 1258798490470000, 204238410188000, -665812491595000, 779473120283000, -605454160848000,
  12167330344400, 108285467559000, 812910672884000, -414858224039000, -174931105086000, -409070881500000,
  -8463871436680, 216993674850000, 347959864133000, -536799149000000, -183014139735000, -396687513396000,
  156010340800000, -32468263739700, 163743331504000, 144529123062000, 28344839227400, -1257370718420000,
  358974770676000, -121391220419000, 31700940864400, -205132354587000, 301521299803000, -419712666694000,
  244549621665000, -1176026535130000, 10170279646000000, -3543624885690000, -35897155202600, -1741343395460000,
  181852923469000, 10098160067300, 102605720546000, -98336934287200, 102558937862000, -1577146963970000,
  887802925086000, 125294322978000, 168554765668000, 195882504879000, 24717744911200, 130130103982000,
  286356084676000, 162075751509000, 139656074305000, -141314885590000, 75235839771800, -100718051189000,
  17173296606500, 66369196936300, 796997978451000, -325072542614000, -81754563027100, -290571696531000,
  1014709932630000, 116047660536000, 188772939286000, -143661669760000, 860717933673000, -2969341464190000]

/-- diehard_operm5.h:1957-1976. -/
def op5Row87 : List Int := [
  887802925086000, -254840826787000, -364547457306000, -312036899949000, -29995118668200, -331540906326000,
  -376674627657000, -352437410739000, -316798642674000, -427079623153000, -423299685560000, -380182453265000,
  -969180416601, -448756391546000, -687236432478000, -320809872200000, 5092808644580, -411294492957000,
  93477714525600, -22280848864200, -290899564007000, -434479292116000, 69220743145200, -2140306424410000,
  -718637400837000, -143305365901000, -182528689767000, -409790992519000, -603443377457000, -640393467745000,
  -236678986350000, 226535029574000, -79413334296100, 616196222431000, -130327712967000, 230547304932000,
  -342432463260000, -360435018208000, -252050917818000, 287699128121000, -395123677566000, 174181938409000,
  -408938603508000, -199850697532000, 292211067478000, 154681324423000, -437094940786000, 153038477142000,
  -37461965966300, -304136462819000, -211136224508000, -559032944961000, -28859370811000, -339699380325000,
  395300330661000, -1392857184170000, -223364079297000, 203244291996000, 305921950333000, 46661529038800,
  199892364104000, -83874015536100, 580288007867000, 102899668126000, 539916098902000, 311372650763000,
  -32981523499000, -212754545184000, -288446862464000, 154283271895000, 426729074902000, 188099997551000,
  294831173152000, 8245104493750, -167990502431000, -270739810248000, 251277142788000, -1784818972040000,
  -393793507938000, -137002058804000, 369530622097000, 294636891811000, -344918321285000, 261336859710000,
  360249764016000, -1556112555510000, -3543624885690000, 9643003993840000, 842273496448000, -1290376043380000,
  644221687032000, 317949645052000, 483644746149000, 366237190690000, 835094501318000, -1246585631580000,
  1318156858860000, 79575517212900, 72383172661300, -54806366706500, 224103669192000, -50368488592100,
  -54616244107700, 319550859524000, 206849456445000, 534531479332000, 22897020724800, 252173697735000,
  238840824158000, 11148493452800, 729488051492000, 103203693157000, 432886732400000, 255730386708000,
  1363256479730000, -33853229170200, 139551041680000, 544273872863000, -6798830473100, 51493759123500]

/-- diehard_operm5.h:1979-1998. -/
def op5Row88 : List Int := [
  181852923469000, 444558063180000, -361315415637000, -409790992519000, -56111443696500, -278206804744000,
  -583850222330000, -788914111836000, -683419264548000, -704349262793000, -704252427141000, -675964659113000,
  -178235877809000, -403545319173000, -870938048563000, -809631305473000, -105123128530000, -467353237935000,
  314499930424000, -267538276240000, -765647231212000, -768846714904000, -1516687251730000, -237328471558000,
  -922655396238000, -344409149145000, -384681126387000, -260446624975000, -933786975830000, -1245122148060000,
  -297318505675000, 68895787956900, 362078617726000, 129179650177000, 272940983215000, 403107288934000,
  -790607148418000, -610713465110000, -40548544722800, 120036859623000, -360435018208000, 178089271632000,
  -729749260730000, -196636597240000, 346667425859000, 299488054707000, -330981984540000, 323350409469000,
  -331243791773000, -613678692008000, -844202922569000, -864938121805000, -310406777656000, -517763354174000,
  -753423166744000, -850314641749000, 538238026713000, -839291090002000, 30335811658800, 1147623960340000,
  312219281403000, 106590212299000, 50124328302900, 1106142156360000, 510529079514000, 394284580098000,
  -42523642337000, -226857129554000, -240015513230000, 524659988964000, 625670358802000, 486683987463000,
  384465259820000, 99214246153200, -220778938257000, -251407232447000, -1410073884230000, -54063794214900,
  -737680265761000, -159619979390000, 394431849865000, 333357224677000, -358084102688000, 304775298559000,
  -3230954098930000, -1761002533040000, -35897155202600, 842273496448000, 10273984061700000, -833851406616000,
  959785708953000, 653891567913000, 585134547356000, 498178812755000, -753144107416000, 869796976280000,
  644221687032000, 891907078347000, 57398329404900, -208846228834000, 228514157604000, -2064016879210,
  -68527678543800, 271510318704000, 559187838003000, 307354155736000, 145683591274000, 292665381643000,
  524852905716000, 309071169008000, 277259210961000, 1329704366770000, 702062231512000, 609790724766000,
  954021935880000, -529735570343000, 1553497773040000, 1230881342600000, -937774635473000, 706585597865000]

/-- diehard_operm5.h:2001-2020. -/
def op5Row89 : List Int := [
  1014709932630000, -345130216438000, -426389011473000, -376674627657000, -146189605730000, -357155025876000,
  -761047757684000, -503263931039000, -537432696832000, -620630988686000, -762228100824000, -679922199279000,
  -204081972113000, -409579126929000, -856595466210000, -784653437912000, -174931022596000, -491534081789000,
  65926157058000, -60786252486800, -335210644563000, -514678983453000, -2078294739550000, -200135462423000,
  -849276272601000, -345626513000000, -358332670710000, -583850222330000, -1188936352320000, -979598600926000,
  8728167739140, -214215935276000, 730349562037000, 510925342427000, -52704934016100, 164544241710000,
  -510373631855000, -790607148418000, 64806010535600, 240375639965000, -342432463260000, 227752614391000,
  -802880140394000, -266294670741000, 254581189924000, 212704020822000, -352702931314000, 306745698764000,
  -132629124690000, -418361147861000, -650929731674000, -761785716243000, -250206994411000, -435783988847000,
  -1008696088610000, -788809678529000, -1409124404270000, 1086704431940000, -302221399632000, 1107964915790000,
  457598222658000, 227346737812000, -183170587234000, 1321372680240000, 613080095654000, 440043954301000,
  11946267914400, -259637492575000, -175773570496000, 183617274451000, 564432273403000, 382132646761000,
  472477703040000, -21762123229800, -281004665660000, -420846320503000, -1636065878860000, 277691764137000,
  -668837691359000, -98660312102400, 418885217231000, 361354047806000, -243434134683000, 413254115806000,
  -1476250520360000, 434231891950000, -1741343395460000, -1290376043380000, -833851406616000, 9413723065300000,
  954021935880000, 493464750296000, 584810605862000, 527981451917000, 1108837371530000, -1360046201300000,
  1363256479730000, 31475592360700, -139535571638000, 85960653125900, 334668012401000, 89238422694200,
  196844187389000, -53882363314900, 604429774214000, 378761175390000, 127190685484000, 360711007986000,
  408962687016000, 186609684761000, -237033491174000, 1282342896220000, 593887287961000, 411196661190000,
  295258478977000, 624180265424000, 727804666997000, 543369561992000, 2348732533830000, -109564831427000]

/-- diehard_operm5.h:2023-2042. -/
def op5Row90 : List Int := [
  -35897155202600, -240015513230000, 538238026713000, -360435018208000, -358084102688000, -330981984540000,
  -790607148418000, -850314641749000, -844202922569000, -809631305473000, -933786975830000, -675964659113000,
  -737680265761000, -729749260730000, -922655396238000, -704349262793000, -251407232447000, -768846714904000,
  -1761002533040000, -226857129554000, -613678692008000, -467353237935000, -54063794214900, -237328471558000,
  -870938048563000, -864938121805000, -753423166744000, -610713465110000, -704252427141000, -1245122148060000,
  -40548544722700, 30335811658900, 50124328302900, 277259210961000, 272940983215000, 145683591274000,
  -583850222330000, -260446624975000, -297318505675000, -68527678543800, -409790992519000, -208846228834000,
  -403545319173000, -517763354174000, 106590212299000, 309071169008000, -278206804744000, -2064016879210,
  -220778938257000, -765647231212000, -683419264548000, -344409149145000, -159619979390000, -196636597240000,
  -384681126387000, -788914111836000, -361315415637000, 57398329404900, 68895787956900, 271510318704000,
  394431849865000, 346667425859000, 362078617725000, 559187838003000, 585134547356000, 1553497773040000,
  99214246153200, -267538276240000, 444558063180000, 891907078347000, 653891567913000, -529735570343000,
  -3230954098930000, -42523642337000, -331243791773000, -105123128530000, -1410073884230000, -1516687251730000,
  -178235877809000, -310406777656000, 312219281403000, 524852905716000, -56111443696500, 228514157604000,
  384465259820000, 314499930424000, 181852923469000, 644221687032000, 959785708953000, 954021935880000,
  10273984061700000, 625670358802000, 510529079514000, 702062231512000, -753144107416000, -937774635473000,
  842273496448000, 524659988964000, -839291090002000, 178089271632000, 304775298559000, 323350409469000,
  120036859623000, 1147623960340000, 1106142156360000, 1329704366770000, 403107288934000, 292665381643000,
  333357224677000, 299488054707000, 129179650177000, 307354155736000, 498178812755000, 1230881342600000,
  -833851406616000, 486683987463000, 394284580098000, 609790724766000, 869796976280000, 706585597865000]

/-- diehard_operm5.h:2045-2064. -/
def op5Row91 : List Int := [
  -183014139735000, -6222952963450, -406087251037000, 395300330661000, -378092960240000, -378301578534000,
  -1008696088610000, -852814552557000, -994818435373000, -679002948435000, -678794619835000, -1017404823570000,
  -362453739721000, -349052670024000, -577589734195000, -851024383753000, -579854447676000, -713738360177000,
  -307743593625000, -1782249160680000, -379742931057000, -180161412778000, -256168688630000, -349132852619000,
  -538655433290000, -706730433692000, -519815138695000, -753423166744000, -1303981381200000, -572755448944000,
  30691458668100, 59847844513700, 206949985359000, 436501661673000, 9779043988230, 64601877745700,
  -358332670710000, -384681126387000, -373188144194000, -640891589527000, -182528689767000, -288743618262000,
  -292596621497000, -396916466957000, 181135952795000, 318541284620000, -40240686448600, -177820375188000,
  -321798506775000, -388179659482000, -470767664646000, -647950333593000, -494217489682000, -439348055773000,
  -433084423350000, -300247208670000, -64411816780300, 259871803433000, 51578186735300, 148147473050000,
  310256892136000, 359856635699000, 207207252862000, 269155885333000, 1380487633060000, 252357226846000,
  955041595013000, 767248056184000, 11039618643100, 290077588087000, -521236288663000, 491037153642000,
  -42468735622000, -3191897391660000, -1785741159660000, -1609492043730000, -6623816763920, -119535906150000,
  135133816440000, 53246967508400, 606537020449000, 733859822326000, 391173751298000, 228500868480000,
  -27249757981500, -136735936182000, 10098160067300, 317949645052000, 653891567913000, 493464750296000,
  625670358802000, 10287300033700000, -861710023958000, -746208658743000, 490918856470000, 511985745270000,
  426729074902000, 691329582535000, 282412258514000, -841395982155000, 435351409207000, 427652301649000,
  1172889267800000, 246454329810000, 349246198396000, 549448637986000, 1072870140560000, 1070751525350000,
  122098483369000, 163364398023000, 197189302591000, 244550709798000, 1123693803020000, 233851044078000,
  564432273403000, -829754156395000, 721247353087000, 929575996071000, 525351092114000, 536585346694000]

/-- diehard_operm5.h:2067-2086. -/
def op5Row92 : List Int := [
  -174931105086000, 92648166524600, -242109281648000, -559032944961000, -470370169779000, 634108150200000,
  -761785716243000, -735459035667000, -601767315498000, -715385672093000, -646198437092000, -573626900280000,
  -338273805882000, -436964974991000, -781212664565000, -693544144105000, -440445015800000, -552024849453000,
  -218365247431000, -1870964526610000, 121387395923000, -335219702054000, -440138514720000, -575346587156000,
  -1148563216580000, -628804067827000, -706730433692000, -864938121805000, -739504638297000, -703341058696000,
  -23451134727000, 34198652827600, 112502630644000, 426622830396000, 150831284227000, 292767457208000,
  -345626513000000, -344409149145000, -205191827869000, -23398577662500, -143305365901000, -544848887444000,
  -253196272433000, -535965896485000, 82185355121900, 268655900288000, 88858324948000, 26696458573700,
  -429947966233000, -734212250355000, -700279693580000, -841736996603000, -432478909853000, -279810435903000,
  -647950333593000, -570466629849000, -377733627693000, 11606651766600, -33200104184100, 114479443151000,
  132288537996000, 101326108039000, 112338280046000, 213910789756000, 1515807479430000, 415777877683000,
  -990097087751000, 759505512494000, -237331479701000, 134264207773000, 1380487633060000, 218987516681000,
  -118330443691000, -1461128114530000, 492079954057000, 568294330736000, 150969080752000, 21665185312500,
  -1772148135540000, -1807862096120000, -1221029955190000, 926811669461000, 530877759488000, 427517288855000,
  339335561421000, -8597379993840, 102605720546000, 483644746149000, 585134547356000, 584810605862000,
  510529079514000, -861710023958000, 9472986961590000, -1200204628980000, 332405577632000, 349249165404000,
  539916098902000, 785572434880000, 372182254444000, 193731693654000, 385417816513000, -723976744124000,
  817510064859, 260278409476000, 305273950099000, 482287665170000, 114597346545000, 157770453761000,
  -24262443420100, 1139822559530000, 1163250472440000, 1257848023690000, 1413276130270000, 323790008991000,
  613080095654000, 1170347912760000, -1200894313000000, 942849253750000, 542245148490000, 564316448556000]

/-- diehard_operm5.h:2089-2108. -/
def op5Row93 : List Int := [
  -81754563027100, 188241502240000, -287516480264000, -687236432478000, 635850336621000, -477212084362000,
  -856595466210000, -544641221973000, -874645850396000, -684928104137000, -679811016906000, -815448489157000,
  -403303910361000, -319563732100000, -715322553675000, -736867393869000, -659806078449000, -559596919541000,
  -419956382234000, -2158847452390000, -389444925619000, 142580257187000, -114299204712000, -370888639990000,
  -449896444709000, -1148563216580000, -538655433290000, -870938048563000, -650728434006000, -635861885328000,
  76874741843600, 100101216412000, 145528844758000, 283654536530000, -129945312138000, 305266424708000,
  -849276272601000, -922655396238000, -101728261213000, 299608668066000, -718637400837000, 217703943527000,
  -423601380227000, -308262042966000, 225691717471000, 409190734571000, -433829916575000, 139081975589000,
  -647364612549000, -376698308645000, -733354399261000, -781212664565000, -470149806626000, -628473382085000,
  -577589734195000, -453722062451000, -306686059009000, 176170682652000, 62532611813300, 200550909998000,
  82373392317900, 112394241249000, 291476006270000, 470811456921000, 1413276130270000, 347335810570000,
  629032662774000, -1181689608180000, -222568304570000, 275496955568000, 1123693803020000, 126119834948000,
  183839328834000, -1311200218980000, 446226543485000, 433952915306000, -20656037920100, -310671340685000,
  234564145219000, 103529123844000, 665935094182000, -1096961967370000, -1735427217700000, -1123852794780000,
  31385428694300, -62228133568000, -98336934287200, 366237190690000, 498178812755000, 527981451917000,
  702062231512000, -746208658743000, -1200204628980000, 9866846183070000, 718696222212000, 731803758939000,
  432886732400000, 742132958226000, 351283765151000, 222704751677000, -709732086170000, 395791893946000,
  26194394116400, 225972447542000, 287287451220000, 571434286053000, -61450943176200, 467733974278000,
  1141123204030000, -17536490106500, 201415320722000, 381743460173000, 2466072236080000, 1390060862750000,
  593887287961000, 1145175163350000, 680378366108000, -987229649908000, 582666009926000, 583649997367000]

/-- diehard_operm5.h:2111-2130. -/
def op5Row94 : List Int := [
  102558937862000, 838996332437000, -486937681595000, -640393467745000, -529277408478000, -533485524048000,
  -979598600926000, -653319254708000, -933963865749000, -793679465698000, -867247228685000, -1078158270170000,
  -341068706800000, -349946492897000, -635861885328000, -793679465698000, -382010252008000, -626867919373000,
  -1888968834030000, -381099339358000, -703436867550000, -626867919373000, 380636994282000, -138620940730000,
  -635861885328000, -703341058696000, -572755448944000, -1245122148060000, -867247228685000, -753425426384000,
  49351113992400, 115099202692000, 69158768763500, 332517390895000, 278891110681000, 468667942184000,
  -979598600926000, -1245122148060000, 49351113992400, 192241176595000, -640393467745000, 381509686603000,
  -349946492897000, -378125589665000, 136958351942000, 496241427809000, -533485524048000, 482579845901000,
  -444273544243000, -703436867550000, -933963865749000, -703341058696000, -381440143326000, -378125589665000,
  -572755448944000, -653319254708000, -486937681595000, 243697755210000, 115099202692000, 60640147297400,
  153728882691000, 136958351942000, 69158768763500, 119761159601000, 332405577632000, 1367630178790000,
  -92890284398500, -381099339358000, 838996332437000, -555402788282000, 490918856470000, 1528332153160000,
  -1329658859450000, -92890284398500, -444273544243000, -382010252008000, 883892629996000, 380636994282000,
  -341068706800000, -381440143326000, 153728882691000, 508742069869000, -529277408478000, 496993552301000,
  -1329658859450000, -1888968834030000, 102558937862000, 835094501318000, -753144107416000, 1108837371530000,
  -753144107416000, 490918856470000, 332405577632000, 718696222212000, 9876456812020000, -1069005025800000,
  835094501318000, -555402788282000, 243697755210000, 381509686603000, 496993552301000, 482579845901000,
  192241176595000, 60640147297400, 119761159601000, 353402648425000, 468667942184000, 698051591347000,
  508742069869000, 496241427809000, 332517390895000, 353402648425000, 718696222212000, 1656124109210000,
  1108837371530000, 1528332153160000, 1367630178790000, 1656124109210000, -1069005025800000, 694511364434000]

/-- diehard_operm5.h:2133-2152. -/
def op5Row95 : List Int := [
  860717933673000, -499338303655000, -736658175599000, -423299685560000, -293284896764000, -314490568256000,
  -762228100824000, -868936039711000, -652606891117000, -722139710446000, -1082038661550000, -941793008863000,
  -379629591723000, -384237277717000, -679811016906000, -747507811941000, -378922402605000, -645874811277000,
  -1985823507030000, -275213165922000, -529810362710000, -530466293646000, 34272187013900, 47052325330400,
  -650728434006000, -739504638297000, -1303981381200000, -704252427141000, -726558298022000, -867247228685000,
  -139758341021000, 267602940790000, 278643342225000, 576091246408000, 143073220478000, 396775742616000,
  -1188936352320000, -933786975830000, 96356173030800, 357441254429000, -603443377457000, 424056105166000,
  -390690736715000, -473781547117000, 21968648645200, 422568698788000, -549689862569000, 463861937546000,
  -280677249714000, -551170646267000, -657582963161000, -646198437092000, -276899080156000, -299515736580000,
  -678794619835000, -742705630041000, -304768959184000, 28331512615800, -300379402614000, 117390695484000,
  317903115692000, 326675519699000, -148303979002000, 209320522335000, 542245148490000, 1328184057650000,
  -45321232534900, -315950591385000, -1273599228230000, 1203682255250000, 525351092114000, 1313791984170000,
  -1477531242990000, -28835077080600, -305018339346000, -336354084830000, 519487052725000, 487083197795000,
  -261517726585000, -337577633747000, 167444252606000, 557269052947000, -417525572483000, 604967090955000,
  317239108681000, 323042948793000, -1577146963970000, -1246585631580000, 869796976280000, -1360046201300000,
  -937774635473000, 511985745270000, 349249165404000, 731803758939000, -1069005025800000, 9505495735110000,
  -6798830473090, 768438220043000, 551065378265000, 172684525309000, 276355973272000, 276659868630000,
  13582443157600, 238818731746000, 267799341696000, 618971629783000, 300380912726000, 559392466674000,
  343150830196000, 335725030544000, -96370492135000, 330475352149000, 582666009926000, 1463302254980000,
  2348732533830000, 780962418292000, 614401133253000, 895675841254000, 2119065301240000, -20102844330800]

/-- diehard_operm5.h:2155-2174. -/
def op5Row96 : List Int := [
  -3543624885690000, -288446862464000, -223364079297000, -395123677566000, -344918321285000, -437094940786000,
  -342432463260000, -1392857184170000, -211136224508000, -320809872200000, -603443377457000, -380182453265000,
  -393793507938000, -408938603508000, -718637400837000, -427079623153000, -270739810248000, -434479292116000,
  -1556112555510000, -212754545184000, -304136462819000, -411294492957000, -1784818972040000, -2140306424410000,
  -687236432478000, -559032944961000, 395300330661000, -360435018208000, -423299685560000, -640393467745000,
  -252050917818000, 305921950333000, 580288007867000, 729488051492000, -130327712967000, 22897020724800,
  -376674627657000, -409790992519000, -236678986350000, -54616244107700, -312036899949000, -54806366706500,
  -448756391546000, -339699380325000, -83874015536100, 11148493452800, -331540906326000, -50368488592100,
  -167990502431000, -290899564007000, -316798642674000, -143305365901000, -137002058804000, -199850697532000,
  -182528689767000, -352437410739000, -364547457306000, 72383172661300, 226535029574000, 319550859524000,
  369530622097000, 292211067478000, -79413334296100, 206849456445000, 483644746149000, 139551041680000,
  8245104493750, -22280848864200, -254840826787000, 79575517212900, 317949645052000, -33853229170200,
  360249764016000, -32981523499000, -37461965966300, 5092808644580, 251277142788000, 69220743145200,
  -969180416604, -28859370811000, 199892364104000, 238840824158000, -29995118668200, 224103669192000,
  294831173152000, 93477714525600, 887802925086000, 1318156858860000, 644221687032000, 1363256479730000,
  842273496448000, 426729074902000, 539916098902000, 432886732400000, 835094501318000, -6798830473090,
  9643003993840000, 154283271895000, 203244291996000, 174181938409000, 261336859710000, 153038477142000,
  287699128121000, 46661529038800, 102899668126000, 103203693157000, 230547304932000, 252173697735000,
  294636891811000, 154681324423000, 616196222431000, 534531479332000, 366237190690000, 544273872863000,
  -1290376043380000, 188099997551000, 311372650764000, 255730386708000, -1246585631580000, 51493759123500]

/-- diehard_operm5.h:2177-2196. -/
def op5Row97 : List Int := [
  -536799149000000, -3619480238400000, -499880484738000, -223364079297000, -236940709009000, -285350911338000,
  -1409124404270000, -553141230965000, -363980243567000, -414106321047000, -304768959184000, -532764231058000,
  -188530104907000, -207073322809000, -306686059009000, -604286677972000, -304232718639000, -361884557138000,
  -125286666352000, -1702162525000000, -1808744366840000, -1796606200960000, -480044307096000, -391494167754000,
  -287516480264000, -242109281648000, -406087251037000, 538238026713000, -736658175599000, -486937681595000,
  442099749479000, -183309503743000, -116880599602000, -119922432959000, 633445073191000, 673360604526000,
  -426389011473000, -361315415637000, -270812576928000, -215700853736000, -364547457306000, -205424388182000,
  -230497741046000, -311650166621000, -9461035067330, 24827533492100, -256428697012000, -81859381631800,
  -219163227797000, -275719522516000, -209613711355000, -377733627693000, -267167545957000, -298199746189000,
  -64411816780300, 72231179619100, 266041333492000, 291664946903000, -87737685616900, 40127778542000,
  123620042522000, 83120651290900, 141674265601000, -94080187703200, 134264207773000, 2098094156860,
  50313844441300, 5556784678290, 140809620370000, 151640273628000, 290077588087000, 157307864629000,
  83991923549400, 238836929911000, 205840148048000, 213971609673000, -132849163946000, -113547734156000,
  320833846878000, 311848761998000, 462640633331000, 475341046185000, 287816600487000, 372152299620000,
  632770429109000, 713294881956000, 125294322978000, 79575517212900, 891907078347000, 31475592360700,
  524659988964000, 691329582535000, 785572434880000, 742132958226000, -555402788282000, 768438220043000,
  154283271895000, 9805012380840000, 191572793238000, 204238410188000, 189214896281000, 132988350128000,
  59295151689600, 322581106136000, 293931202527000, 237667671700000, 85474529868300, 86615445419000,
  285356476469000, 200594589649000, 351366877414000, 439505757541000, 275496955568000, 244544825138000,
  183617274451000, -1137718812300000, -1041791013690000, -1119770460070000, 1203682255250000, 395863320677000]

/-- diehard_operm5.h:2199-2218. -/
def op5Row98 : List Int := [
  -665812491595000, -529037912148000, -3619480238400000, -288446862464000, -422796727586000, -456409239301000,
  -175773570496000, -1839768658980000, -1732201712210000, -1678778152130000, -1273599228230000, -469893147886000,
  -171528642262000, -192029423174000, -222568304570000, -422556084587000, -433004449477000, -560682842900000,
  -502467448805000, -448983028873000, -215868159775000, -211393300786000, -386961435551000, -327561900621000,
  188241502240000, 92648166524600, -6222952963450, -240015513230000, -499338303655000, 838996332437000,
  -134997010910000, 194203511105000, -3348585249310, -24422298488900, -405226447797000, -257697065912000,
  -345130216438000, 444558063180000, 438149458079000, 517250072782000, -254840826787000, -290550450174000,
  255767805912000, 274121610464000, 44876544489800, 84292783072000, 216874029149000, 51699301581000,
  -7623302751880, 181968452702000, 54533155895800, -237331479701000, -229004601420000, -179665727600000,
  11039618643100, 291434752106000, 140809620370000, 138687323822000, -37704024234900, -128003934163000,
  30130220995200, 90919889273100, -148564295720000, -235072651678000, 11606651766600, -588796619628000,
  24351448852900, 91878259164000, 218345616634000, 291664946903000, 259871803433000, 11246280462200,
  866481634482000, 6983596632960, 84050123741800, -7894357475660, 773624059467000, 733279444374000,
  106176307263000, 155270079570000, 82782741077600, 40595007301300, 61344067396800, -8236576663450,
  11039646268100, -49148324301700, 168554765668000, 72383172661300, 57398329404900, -139535571638000,
  -839291090002000, 282412258514000, 372182254444000, 351283765151000, 243697755210000, 551065378265000,
  203244291996000, 191572793238000, 9835583459970000, 347959864133000, 351750054562000, 327367538387000,
  238263262964000, -1083438350930000, -1235829584520000, -1276036805860000, 90823575480900, 140680050611000,
  171359022390000, 211540301866000, 481301106985000, 399144669601000, 176170682652000, 387026004778000,
  1086704431940000, 163728269312000, 246532995184000, 218522773610000, 28331512615800, 332191661492000]

/-- diehard_operm5.h:2221-2240. -/
def op5Row99 : List Int := [
  -426269341359000, -665812491595000, -536799149000000, -3543624885690000, -477986206737000, -419712666694000,
  -1741343395460000, -396687513396000, -409070881500000, -290571696531000, -1577146963970000, -2969341464190000,
  -190101638341000, -205132354587000, -98336934287200, -143661669760000, -510130764631000, -141314885590000,
  -443349551400000, -605454160848000, -414858224039000, -325072542614000, -266162830552000, -100718051189000,
  -81754563027100, -174931105086000, -183014139735000, -35897155202600, 860717933673000, 102558937862000,
  244549621665000, -8463871436680, -139501835562000, -334650475961000, 28344839227400, -302612919136000,
  1014709932630000, 181852923469000, 156010340800000, -148444614454000, 887802925086000, 544933609520000,
  17173296606500, 12167330344400, -138665779695000, -380493410954000, 24717744911200, -234887107486000,
  132144544549000, 139656074305000, 188772939286000, 102605720546000, 9672803486650, 31700940864400,
  10098160067300, 116047660536000, 125294322978000, -290550450174000, -32468263739700, -213068687021000,
  -155906670230000, -121391220419000, 163743331504000, 83533697427300, -544848887444000, 126843494328000,
  202872233283000, 162075751509000, 168554765668000, -205424388182000, -288743618262000, 59063379222500,
  -61089468485500, 779473120283000, 812910672884000, 796997978451000, -19580132941400, 75235839771800,
  66369196936300, 108285467559000, -20834479867200, -116278277850000, 130130103982000, -107761585802000,
  215730956894000, 286356084676000, 195882504879000, -54806366706500, -208846228834000, 85960653125900,
  178089271632000, -841395982155000, 193731693654000, 222704751677000, 381509686603000, 172684525309000,
  174181938409000, 204238410188000, 347959864133000, 10170279646000000, 228539648409000, 301521299803000,
  -1176026535130000, 216993674850000, 201281383095000, 170972351290000, -1257370718420000, -1386473226860000,
  243658406577000, 358974770676000, 144529123062000, 101893534483000, 217703943527000, 78807212621700,
  227752614391000, 1258798490470000, 139654183047000, 161928012390000, 424056105166000, 190846053913000]

/-- diehard_operm5.h:2243-2262. -/
def op5Row100 : List Int := [
  -419712666694000, -456409239301000, -285350911338000, -437094940786000, -3623867046980000, -522527665799000,
  -352702931314000, -197808516555000, -1319430480890000, -290566379430000, -549689862569000, -331381710689000,
  -1803013077050000, -624502277907000, -433829916575000, -399370888359000, -1695430235180000, -1816473444000000,
  -267053226402000, -97384916687400, -299859433160000, -613796778300000, -324361929777000, -474087329353000,
  -477212084362000, 634108150200000, -378301578534000, -330981984540000, -314490568256000, -533485524048000,
  -132677197557000, -203263840131000, -288072342083000, -156432015213000, -296608171915000, -165265185841000,
  -357155025876000, -278206804744000, -268666481829000, -111357560461000, -331540906326000, -107761585802000,
  -431705493911000, 337785124710000, 575150332245000, 643466143584000, -473421493710000, -129869010121000,
  282072520664000, 70269494477200, -163606896922000, 88858324948000, 470409238607000, 333342800563000,
  -40240686448600, -290479889313000, -256428697012000, -8236576663450, -82209928325000, 155050062551000,
  372198225871000, -103526516990000, 235700464670000, 462879146440000, 427517288855000, 719934538749000,
  276544260503000, 188972013476000, 216874029149000, 372152299620000, 228500868480000, 496574729528000,
  -172833866992000, -15970586331800, -149399239261000, -85292398370000, 35957367601500, 11582023533700,
  -178976586390000, -177477694233000, -33026336574700, 792839152050000, 612522600352000, 801997590090000,
  252120643985000, 119191624916000, 24717744911200, 224103669192000, 228514157604000, 334668012401000,
  304775298559000, 435351409207000, 385417816513000, -709732086170000, 496993552301000, 276355973272000,
  261336859710000, 189214896281000, 351750054562000, 228539648409000, 9809863073050000, 177456287105000,
  193512326132000, 112297208977000, 110735995817000, 303302590491000, 232430877086000, 304187382428000,
  -1061873030800000, 381386715783000, 82737772615300, 173634316499000, -1123852794780000, -1167297866310000,
  413254115806000, 336886108025000, 296750226889000, 1335345077870000, 604967090955000, 397585019365000]

/-- diehard_operm5.h:2265-2284. -/
def op5Row101 : List Int := [
  -477986206737000, -422796727586000, -236940709009000, -344918321285000, -534623743353000, -3623867046980000,
  -243434134683000, -53790600109600, -161502794398000, -1192430452260000, -417525572483000, -200425841399000,
  -622632330604000, -1835753035070000, -1735427217700000, -1676345773740000, -366840017366000, -277501741267000,
  -515925382175000, -255234384466000, -473280164616000, -148524032158000, -354614834121000, -174755203283000,
  635850336621000, -470370169779000, -378092960240000, -358084102688000, -293284896764000, -529277408478000,
  -119832194615000, -227239000576000, -265884432854000, -445236155393000, -140296912034000, -305199614679000,
  -146189605730000, -56111443696500, -60702859229300, -253679733505000, -29995118668200, -234887107486000,
  599953633686000, -220848872348000, -329214336856000, -442205372104000, 612522600352000, 294669958734000,
  -120360863110000, 61845466688700, 252869602862000, 530877759488000, 262950027646000, 318700577505000,
  391173751298000, 130519160208000, 287816600487000, 51699301581000, 375027773845000, 163938994047000,
  71958327766700, 466367182442000, 582889224441000, 448072367247000, 26696458573700, 293182498382000,
  -81181519780300, 42984644357600, 61344067396800, -81859381631800, -177820375188000, 93429468924900,
  -83151602608200, 105528116547000, -28843336088600, -25719774085900, -101550367500000, 19149821326800,
  751502639263000, 685809515971000, 670357901341000, -187300467473000, 33906137645500, -129869010121000,
  55947617458200, 287309717622000, 130130103982000, -50368488592100, -2064016879210, 89238422694200,
  323350409469000, 427652301649000, -723976744124000, 395791893946000, 482579845901000, 276659868630000,
  153038477142000, 132988350128000, 327367538387000, 301521299803000, 177456287105000, 9821959150610000,
  347037493945000, 165442854956000, 196270324942000, 12403950175300, 210113876234000, 170988267819000,
  390350490143000, -1087519161750000, -1268143958740000, -1264570441710000, 139081975589000, 117416486145000,
  306745698764000, 206125308493000, 1194165228980000, 177152941632000, 463861937546000, 264266037378000]

/-- diehard_operm5.h:2287-2306. -/
def op5Row102 : List Int := [
  -443349551400000, -502467448805000, -125286666352000, -1556112555510000, -515925382175000, -267053226402000,
  434231891950000, -331927402712000, -227640071874000, -440884437221000, 323042948793000, 231078513921000,
  -329390863627000, -108325212653000, -62228133568000, -939177531702000, -205981445593000, -85072293385200,
  -298718992499000, -410554906252000, -487087529660000, -530094184162000, -453452165872000, -169920580331000,
  -419956382234000, -218365247431000, -307743593625000, -1761002533040000, -1985823507030000, -1888968834030000,
  -1473039643830000, -37980194354800, -204207166717000, -195883804573000, 526249155547000, 402652212184000,
  65926157058000, 314499930424000, 267912768460000, 96037871161100, 93477714525600, -148444614454000,
  -34417682336900, -130237338382000, -200355051992000, -166259948970000, 119191624916000, -253679733505000,
  -99512419110300, -23036202641100, 988998691768000, -8597379993850, -1398642048160, -6478289948340,
  -136735936182000, 854277559021000, 713294881956000, 517250072782000, -115480161496000, -473130890527000,
  -77143447541100, -177000131659000, 41919601099200, -191084817595000, -23398577662500, 157698579440000,
  26523199491100, 82907160707300, -49148324301700, -215700853736000, -640891589527000, -120420235933000,
  -192153663320000, -1044597404650000, 935576439192000, 1204590183560000, 261461575929000, 222376399657000,
  172765665257000, -111372675128000, -138754417573000, -109661117537000, 287309717622000, -111357560461000,
  438226922329000, 356684831254000, 286356084676000, -54616244107700, -68527678543800, 196844187389000,
  120036859623000, 1172889267800000, 817510064860, 26194394116400, 192241176595000, 13582443157600,
  287699128121000, 59295151689600, 238263262964000, -1176026535130000, 193512326132000, 347037493945000,
  9243478191760000, 187872915877000, 128248388672000, 222998910694000, -1464638524850000, -1484005674090000,
  289791410635000, 226290931654000, -3100571294300, -191776405385000, 299608668066000, 62558658087600,
  240375639965000, 1294236416280000, 187942139897000, 237060247004000, 357441254429000, 177926900938000]

/-- diehard_operm5.h:2309-2328. -/
def op5Row103 : List Int := [
  -605454160848000, -448983028873000, -1702162525000000, -212754545184000, -255234384466000, -97384916687400,
  -259637492575000, 397463653510000, 379095739238000, 170108151577000, -315950591385000, -169030572390000,
  -298679387144000, -97973346289800, -1181689608180000, -245959713642000, -277795348368000, -341769576679000,
  -410554906252000, -191383293954000, -153452144760000, -176475194051000, -585849699332000, -769733034196000,
  -2158847452390000, -1870964526610000, -1782249160680000, -226857129554000, -275213165922000, -381099339358000,
  -165035733438000, -1529788411640000, 147846360711000, 441797286516000, 73391909973500, -69574109909500,
  -60786252486800, -267538276240000, -401214234100000, -473130890527000, -22280848864200, -213068687021000,
  178263563452000, 165480029254000, 27984360803500, 237222909638000, 188972013476000, 163938994047000,
  -87645061486400, -146089485254000, -230163312917000, 759505512494000, -248488946318000, -218819474404000,
  767248056184000, -261762276351000, 5556784678290, -128003934163000, 771072711834000, 906274797268000,
  104860798325000, 29256496695800, -451946838500000, -319998558894000, 114479443151000, -137410684853000,
  65126587529200, -5826420729110, 91878259164000, 40127778542000, 148147473050000, -457224088644000,
  -1072808052750000, -18843899876100, -15602566946800, 247431235715000, 1106760359140000, 1212892946350000,
  160500993770000, -20166105304700, -29517057558400, 58098275352200, 42984644357600, 155050062551000,
  -26779210105300, 82907160707300, 162075751509000, 319550859524000, 271510318704000, -53882363314900,
  1147623960340000, 246454329810000, 260278409476000, 225972447542000, 60640147297400, 238818731746000,
  46661529038800, 322581106136000, -1083438350930000, 216993674850000, 112297208977000, 165442854956000,
  187872915877000, 9364261020940000, -1579056035610000, -1497169980520000, 294467407897000, 168664098403000,
  216723095516000, 89712520473800, 183082030725000, 247930316206000, 200550909998000, 426348616172000,
  1107964915790000, 195804453141000, 217686565290000, 218580016393000, 117390695484000, 310532137185000]

/-- diehard_operm5.h:2331-2350. -/
def op5Row104 : List Int := [
  -414858224039000, -215868159775000, -1808744366840000, -304136462819000, -473280164616000, -299859433160000,
  -418361147861000, 84618224121800, 502034622785000, -4384660366960, -551170646267000, -421925717124000,
  -274395919415000, -1054583017590000, -376698308645000, -443922102010000, -390795863113000, -671315349486000,
  -487087529660000, -153452144760000, -250996423442000, -514903647973000, -93625112603600, -525391663395000,
  -389444925619000, 121387395923000, -379742931057000, -613678692008000, -529810362710000, -703436867550000,
  -70115031390700, 98243786894000, -1594801584320000, 373619642795000, 58690482588900, 202175215248000,
  -335210644563000, -765647231212000, -250966202192000, -191084817595000, -290899564007000, 83533697427300,
  -2103304812200000, -1801697508100000, -1274971040770000, 754195229339000, 70269494477200, 448072367247000,
  -185841628415000, -273796049663000, -623340209851000, -734212250355000, -278247617573000, 448066186429000,
  -388179659482000, -210738078932000, -275719522516000, -235072651678000, -309523932096000, -319998558894000,
  141439353302000, 864381642659000, 1141590726850000, 1100672615240000, 213910789756000, 405940570669000,
  -5677761772980, -146089485254000, 181968452702000, -94080187703200, 269155885333000, 461452225228000,
  775620353226000, 13755430028200, -129586693892000, 19345313246300, -783212364819000, 793840729882000,
  -90102895311800, -264461858054000, 225917246856000, 192792536871000, 61845466688700, 462879146440000,
  282235210499000, -23036202641100, 139656074305000, 206849456445000, 559187838003000, 604429774214000,
  1106142156360000, 349246198396000, 305273950099000, 287287451220000, 119761159601000, 267799341696000,
  102899668126000, 293931202527000, -1235829584520000, 201281383095000, 110735995817000, 196270324942000,
  128248388672000, -1579056035610000, 9274903098980000, -1437509557120000, 289820975974000, 344568326186000,
  370110750688000, -15831985791900, 358769338251000, 299133463145000, 470811456921000, 826954420328000,
  1321372680240000, 407022363329000, 361855263797000, 300527857918000, 209320522335000, 415892129831000]

/-- diehard_operm5.h:2353-2372. -/
def op5Row105 : List Int := [
  -325072542614000, -211393300786000, -1796606200960000, -411294492957000, -148524032158000, -613796778300000,
  -491534081789000, 69967323068600, -47912394523500, 406630928290000, -645874811277000, -522313360386000,
  -1090411611620000, -567174203167000, -559596919541000, -630293519068000, -212699636533000, -303529803528000,
  -530094184162000, -176475194051000, -514903647973000, -332889805364000, -281745826544000, -181557029447000,
  142580257187000, -335219702054000, -180161412778000, -467353237935000, -530466293646000, -626867919373000,
  -174888357212000, 183679897869000, 326782880655000, -1615534578420000, -15623661684400, 151405062145000,
  -514678983453000, -768846714904000, -410591299042000, -191776405385000, -434479292116000, 101893534483000,
  173375230332000, -76848146356900, 485576722241000, -1477458972650000, -1816473444000000, -1264570441710000,
  -421039938474000, -671315349486000, -386241095315000, -552024849453000, 560836397767000, -396373655670000,
  -713738360177000, -597302395553000, -361884557138000, 399144669601000, -108861127329000, 247930316206000,
  916691233076000, 49340397779200, 86451127664900, 299133463145000, 1257848023690000, 1484689417770000,
  -100719159757000, -341769576679000, -560682842900000, 439505757541000, 244550709798000, 470113281529000,
  803071032466000, 14958062067000, 3800883574870, -245376070600000, 916556607048000, -1035306549490000,
  -318226111466000, -62465799725400, 467724015175000, 569324816715000, -277501741267000, 173634316499000,
  -48653465796200, -85072293385200, -141314885590000, 534531479332000, 307354155736000, 378761175390000,
  1329704366770000, 549448637986000, 482287665170000, 571434286053000, 353402648425000, 618971629783000,
  103203693157000, 237667671700000, -1276036805860000, 170972351290000, 303302590491000, 12403950175300,
  222998910694000, -1497169980520000, -1437509557120000, 9303690897470000, 271948844032000, 353162357437000,
  78307924883200, 284939790460000, 424731476814000, 687948754021000, 381743460173000, 741429879343000,
  1282342896220000, 284956457467000, 226907424018000, 319368144731000, 330475352149000, 538523171468000]

/-- diehard_operm5.h:2375-2394. -/
def op5Row106 : List Int := [
  -266162830552000, -386961435551000, -480044307096000, -1784818972040000, -354614834121000, -324361929777000,
  277691764137000, -393903347767000, -572021533230000, -424027216807000, 487083197795000, 185902383774000,
  -173724798100000, -275853109518000, -310671340685000, -168292210904000, -61205798947300, -1035306549490000,
  -453452165872000, -585849699332000, -93625112603700, -281745826544000, -164566691985000, -150296632734000,
  -114299204712000, -440138514720000, -256168688630000, -54063794214900, 34272187013900, 380636994282000,
  266720371507000, 27761611853300, -60167662853300, -121452928814000, -1759874022660000, 6818137073660,
  -2078294739550000, -1516687251730000, -1532857981950000, 402652212184000, 69220743145200, -302612919136000,
  -37120701986200, -62725834438100, -52066932345900, -265468288836000, 11582023533700, -305199614679000,
  -573844782065000, 793840729882000, -70232138338300, 21665185312500, -482797426774000, -232574635157000,
  -119535906150000, -227303616948000, -113547734156000, -257697065912000, -10261216878300, -69574109909500,
  19460594319500, 208159759315000, 175832614461000, 202175215248000, 292767457208000, -64295791416600,
  -468783610204000, 1212892946350000, 733279444374000, 673360604526000, 64601877745700, -304675227459000,
  178584284172000, 866578251209000, -706529346522000, 861627206225000, -141387342026000, -137831976503000,
  -105467036139000, 213889983533000, 297337347268000, 119185087310000, 19149821326800, -165265185841000,
  -54158875330100, 222376399657000, 75235839771800, 22897020724800, 145683591274000, 127190685484000,
  403107288934000, 1072870140560000, 114597346545000, -61450943176200, 468667942184000, 300380912726000,
  230547304932000, 85474529868300, 90823575480900, -1257370718420000, 232430877087000, 210113876234000,
  -1464638524850000, 294467407897000, 289820975974000, 271948844032000, 9265781171540000, -1519985714200000,
  73598843624600, 401280807894000, 213648776433000, 151405062145000, 305266424708000, -140380767879000,
  164544241710000, 1144420990560000, 131728951722000, 204681763800000, 396775742616000, 233797744968000]

/-- diehard_operm5.h:2397-2416. -/
def op5Row107 : List Int := [
  -100718051189000, -327561900621000, -391494167754000, -2140306424410000, -174755203283000, -474087329353000,
  -200135462423000, -378877759863000, -649664214697000, -315759783481000, 47052325330400, 158839264994000,
  -128902728442000, -345806031990000, -370888639990000, -315759783481000, -1083104463240000, -181557029447000,
  -169920580331000, -769733034196000, -525391663395000, -181557029447000, -150296632734000, -319605235187000,
  -370888639990000, -575346587156000, -349132852619000, -237328471558000, 47052325330400, -138620940730000,
  217786885862000, -35402980196400, 172996653042000, 102050137931000, 22034580076100, -1519985714200000,
  -200135462423000, -237328471558000, 217786885862000, -1484005674090000, -2140306424410000, -1386473226860000,
  -345806031990000, -270772471001000, 65783913265100, 165867317606000, -474087329353000, 170988267819000,
  909063855211000, -525391663395000, -649664214697000, -575346587156000, -72646491944200, -270772471001000,
  -349132852619000, -378877759863000, -391494167754000, 140680050611000, -35402980196400, 168664098403000,
  88823159435300, 65783913265100, 172996653042000, 344568326186000, 157770453761000, 272936358630000,
  902880381129000, -769733034196000, -327561900621000, 86615445419000, 1070751525350000, 1213250787360000,
  180036779883000, 902880381129000, 909063855211000, -1083104463240000, -67535871895900, -150296632734000,
  -128902728442000, -72646491944200, 88823159435300, 277936969810000, -174755203283000, 304187382428000,
  180036779883000, -169920580331000, -100718051189000, 252173697735000, 292665381643000, 360711007986000,
  292665381643000, 1070751525350000, 157770453761000, 467733974278000, 698051591347000, 559392466674000,
  252173697735000, 86615445419000, 140680050611000, -1386473226860000, 304187382428000, 170988267819000,
  -1484005674090000, 168664098403000, 344568326186000, 353162357437000, -1519985714200000, 9543613125370000,
  277936969810000, 165867317606000, 102050137931000, 353162357437000, 467733974278000, 314984948426000,
  360711007986000, 1213250787360000, 272936358630000, 314984948426000, 559392466674000, 400304809629000]

/-- diehard_operm5.h:2419-2438. -/
def op5Row108 : List Int := [
  -205132354587000, -192029423174000, -207073322809000, -408938603508000, -1835753035070000, -624502277907000,
  -802880140394000, -419782340310000, -541431685967000, -470358055171000, -390690736715000, -480906526575000,
  554952664487000, -359775002064000, -423601380227000, -508978296436000, 298812055676000, 173375230332000,
  -108325212653000, -97973346289800, -1054583017590000, -567174203167000, -275853109518000, -345806031990000,
  -319563732100000, -436964974991000, -349052670024000, -729749260730000, -384237277717000, -349946492897000,
  -145370351642000, -53243221348800, 140874140874000, 40724273872600, -67588848294400, 119185087310000,
  -409579126929000, -403545319173000, -213442715547000, -109661117536000, -448756391546000, -116278277850000,
  -117578717837000, -422320070153000, -207282329380000, -262487054875000, -431705493911000, -187300467473000,
  -2149125395980000, -2103304812200000, -312264250823000, -253196272433000, -1889453730990000, -564241517623000,
  -292596621497000, -308366691349000, -230497741046000, 40595007301400, -30805504142700, 58098275352200,
  -1205867682210000, 360317294936000, 134710462072000, 192792536871000, 926811669461000, 851096261755000,
  172187882714000, 178263563452000, 255767805912000, 475341046185000, 733859822326000, 666691905449000,
  -52354328077400, -226824927103000, 886483341561000, -456923963793000, 24191228248700, -37120701986200,
  -542499548254000, 758738509851000, 1006771630240000, 345654007290000, 599953633686000, 792839152050000,
  -51840816269900, -34417682336900, 17173296606500, 238840824158000, 524852905716000, 408962687016000,
  333357224677000, 122098483369000, -24262443420100, 1141123204030000, 508742069869000, 343150830196000,
  294636891811000, 285356476469000, 171359022390000, 243658406577000, -1061873030800000, 390350490143000,
  289791410635000, 216723095516000, 370110750688000, 78307924883200, 73598843624600, 277936969810000,
  9290816092730000, 595579816464000, 335728059368000, 569324816715000, -1096961967370000, -1224326435290000,
  361354047806000, 151214093103000, 67732756369800, 1192331627160000, 557269052947000, 395757418947000]

/-- diehard_operm5.h:2441-2460. -/
def op5Row109 : List Int := [
  -190101638341000, -171528642262000, -188530104907000, -393793507938000, -622632330604000, -1803013077050000,
  -668837691359000, -306099501395000, -383821499890000, -378271517431000, -261517726585000, -335031062359000,
  -269413426189000, 554952664487000, 234564145219000, 155758494558000, -364730771509000, -318226111466000,
  -329390863627000, -298679387144000, -274395919415000, -1090411611620000, -173724798100000, -128902728442000,
  -403303910361000, -338273805882000, -362453739721000, -737680265761000, -379629591723000, -341068706800000,
  75252343797300, 112185793523000, -96676368430400, -14394888061800, -37687068632300, -265468288836000,
  -204081972113000, -178235877809000, -98100061593500, -166259948970000, -969180416607, -380493410954000,
  -542499548254000, -254666298514000, -113586621270000, -103267698428000, -178976586390000, -442205372104000,
  -550478634897000, -90102895311800, -1836290956340000, -1772148135540000, -865304489492000, -1931723779730000,
  135133816440000, 118570542996000, 320833846878000, 84292783072000, 263094122274000, 237222909638000,
  214946668185000, -1139997753140000, 739312816784000, 754195229339000, 268655900288000, 197210592684000,
  -285326303442000, 160500993770000, 106176307263000, 24827533492100, 318541284620000, 234670913657000,
  62460250858600, -115408470499000, -167373580774000, 811963810962000, -87354768147500, -105467036139000,
  1826606628210000, 913690958564000, -904793938552000, -262487054875000, 751502639263000, 643466143584000,
  -315515491248000, 172765665257000, 66369196936300, 11148493452800, 309071169008000, 186609684761000,
  299488054707000, 163364398023000, 1139822559530000, -17536490106500, 496241427809000, 335725030544000,
  154681324423000, 200594589649000, 211540301866000, 358974770676000, 381386715783000, -1087519161750000,
  226290931654000, 89712520473800, -15831985791900, 284939790460000, 401280807894000, 165867317606000,
  595579816464000, 9623288235140000, -1240197707430000, -1477458972650000, 409190734571000, 301638553195000,
  212704020822000, 66074162179800, 1039773108500000, -49781748456200, 422568698788000, 261850268380000]

/-- diehard_operm5.h:2463-2482. -/
def op5Row110 : List Int := [
  -510130764631000, -433004449477000, -304232718639000, -270739810248000, -366840017366000, -1695430235180000,
  -420846320503000, -603427973474000, -340654646337000, -326077886935000, -336354084830000, -254663857301000,
  -364730771509000, 298812055676000, 433952915306000, 257472739991000, -153071571540000, -245376070600000,
  -205981445593000, -277795348368000, -390795863113000, -212699636533000, -61205798947300, -1083104463240000,
  -659806078449000, -440445015800000, -579854447676000, -251407232447000, -378922402605000, -382010252008000,
  -202931849394000, -183079589154000, 1699545123050, 120436215200000, 33709911079100, -121452928814000,
  -174931022596000, -105123128530000, -73720848458900, -195883804573000, 5092808644580, -334650475961000,
  -456923963793000, -17270830744000, -234515277457000, -14394888061800, -85292398370000, -445236155393000,
  -705793411218000, 19345313246300, 290487823575000, 568294330736000, -450485903284000, -114582454271000,
  -1609492043730000, -1955882182500000, 213971609673000, -24422298488900, -1514655589180000, 441797286516000,
  335790524138000, 717934350437000, -1624024783260000, 373619642794000, 426622830396000, 53047570447800,
  -187628143369000, 247431235715000, -7894357475660, -119922432959000, 436501661673000, 65147201681800,
  -152362951526000, -77477626436600, -149196964868000, -195176042081000, -205718013166000, 861627206225000,
  811963810962000, -1004187954770000, 1038041091130000, 40724273872600, -25719774085900, -156432015213000,
  -383870245603000, 1204590183560000, 796997978451000, 729488051492000, 277259210961000, -237033491174000,
  129179650177000, 197189302591000, 1163250472440000, 201415320722000, 332517390895000, -96370492135000,
  616196222431000, 351366877414000, 481301106985000, 144529123062000, 82737772615300, -1268143958740000,
  -3100571294300, 183082030725000, 358769338251000, 424731476814000, 213648776433000, 102050137931000,
  335728059368000, -1240197707430000, 9213653555160000, -1615534578420000, 283654536530000, 16604170123600,
  510925342427000, 411048986679000, 1385279655630000, 291896715975000, 576091246408000, 211615664827000]

/-- diehard_operm5.h:2485-2504. -/
def op5Row111 : List Int := [
  -141314885590000, -560682842900000, -361884557138000, -434479292116000, -277501741267000, -1816473444000000,
  -514678983453000, -597302395553000, -386241095315000, -630293519068000, -530466293646000, -522313360386000,
  -318226111466000, 173375230332000, 142580257187000, 406630928290000, -245376070600000, -332889805364000,
  -85072293385200, -341769576679000, -671315349486000, -303529803528000, -1035306549490000, -181557029447000,
  -559596919541000, -552024849453000, -713738360177000, -768846714904000, -645874811277000, -626867919373000,
  -410591299042000, -108861127329000, 86451127664900, 424731476814000, -15623661684400, 271948844032000,
  -491534081789000, -467353237935000, -174888357212000, 222998910694000, -411294492957000, 170972351290000,
  -567174203167000, -396373655670000, 49340397779200, 284939790460000, -613796778300000, 12403950175300,
  3800883574870, -514903647973000, -47912394523500, -335219702054000, -62465799725400, -76848146356900,
  -180161412778000, 69967323068600, -1796606200960000, -1276036805860000, 183679897869000, -1497169980520000,
  467724015175000, 485576722241000, 326782880655000, -1437509557120000, 482287665170000, 226907424018000,
  14958062067000, -176475194051000, -211393300786000, 237667671700000, 549448637986000, 284956457467000,
  -48653465796200, -100719159757000, -421039938474000, -212699636533000, 916556607048000, -281745826544000,
  -1090411611620000, 560836397767000, 916691233076000, 78307924883200, -148524032158000, 303302590491000,
  803071032466000, -530094184162000, -325072542614000, 103203693157000, 1329704366770000, 1282342896220000,
  307354155736000, 244550709798000, 1257848023690000, 381743460173000, 353402648425000, 330475352149000,
  534531479332000, 439505757541000, 399144669601000, 101893534483000, 173634316499000, -1264570441710000,
  -191776405385000, 247930316206000, 299133463145000, 687948754021000, 151405062145000, 353162357437000,
  569324816715000, -1477458972650000, -1615534578420000, 9303690897470000, 571434286053000, 319368144731000,
  378761175390000, 470113281529000, 1484689417770000, 741429879343000, 618971629783000, 538523171468000]

/-- diehard_operm5.h:2507-2526. -/
def op5Row112 : List Int := [
  -98336934287200, -222568304570000, -306686059009000, -718637400837000, -1735427217700000, -433829916575000,
  -849276272601000, -453722062451000, -733354399261000, -736867393869000, -650728434006000, -815448489157000,
  234564145219000, -423601380227000, -449896444709000, -684928104137000, 433952915306000, 142580257187000,
  -62228133568000, -1181689608180000, -376698308645000, -559596919541000, -310671340685000, -370888639990000,
  -715322553675000, -781212664565000, -577589734195000, -922655396238000, -679811016906000, -635861885328000,
  -101728261213000, 62532611813300, 291476006270000, 201415320722000, -129945312138000, -61450943176200,
  -856595466210000, -870938048563000, 76874741843600, 26194394116300, -687236432478000, 222704751677000,
  -319563732100000, -628473382085000, 112394241249000, -17536490106500, -477212084362000, 395791893946000,
  446226543485000, -389444925619000, -874645850396000, -1148563216580000, 103529123844000, -308262042966000,
  -538655433290000, -544641221973000, -287516480264000, 351283765151000, 100101216412000, 225972447542000,
  665935094182000, 225691717471000, 145528844758000, 287287451220000, -1200204628980000, 680378366108000,
  -1311200218980000, -2158847452390000, 188241502240000, 742132958226000, -746208658743000, 1145175163350000,
  31385428694300, 629032662774000, -647364612549000, -659806078449000, -20656037920100, -114299204712000,
  -403303910361000, -470149806626000, 82373392317900, 1141123204030000, 635850336621000, -709732086170000,
  183839328834000, -419956382234000, -81754563027100, 432886732399000, 702062231512000, 593887287961000,
  498178812755000, 1123693803020000, 1413276130270000, 2466072236080000, 718696222212000, 582666009926000,
  366237190690000, 275496955568000, 176170682652000, 217703943527000, -1123852794780000, 139081975589000,
  299608668066000, 200550909998000, 470811456921000, 381743460173000, 305266424708000, 467733974278000,
  -1096961967370000, 409190734571000, 283654536530000, 571434286053000, 9866846183070000, -987229649908000,
  527981451917000, 126119834948000, 347335810570000, 1390060862750000, 731803758939000, 583649997367000]

/-- diehard_operm5.h:2529-2548. -/
def op5Row113 : List Int := [
  -143661669760000, -422556084587000, -604286677972000, -427079623153000, -1676345773740000, -399370888359000,
  -620630988686000, -815841326488000, -619424392149000, -615054479643000, -722139710446000, -570081880516000,
  155758494558000, -508978296436000, -684928104137000, -459832563694000, 257472739991000, 406630928290000,
  -939177531702000, -245959713642000, -443922102010000, -630293519068000, -168292210904000, -315759783481000,
  -736867393869000, -693544144105000, -851024383753000, -704349262793000, -747507811941000, -793679465698000,
  -65550061914700, 520850413779, 351830820868000, 291896715975000, -312338044576000, 204681763800000,
  -784653437912000, -809631305473000, -179190636860000, 237060247004000, -320809872200000, 161928012390000,
  -470358055171000, -602998849958000, -58032342539600, -49781748456200, -290566379430000, 177152941632000,
  273539255755000, -4384660366960, -962141229527000, -715385672093000, 248195738147000, -178446843887000,
  -679002948435000, -630970603601000, -414106321047000, 218522773610000, 6170253131150, 218580016393000,
  791720330292000, 362606894482000, 71686381449900, 300527857918000, 942849253750000, -1268392407680000,
  418954888030000, 170108151577000, -1678778152130000, -1119770460070000, 929575996071000, -1281697780430000,
  754335481944000, -227483562655000, -388232908528000, -326077886935000, -327086927080000, -424027216807000,
  -378271517431000, -382849120087000, 107416732004000, 1192331627160000, -1192430452260000, 1335345077870000,
  117284223635000, -440884437221000, -290571696531000, 255730386708000, 609790724766000, 411196661189000,
  1230881342600000, 233851044078000, 323790008991000, 1390060862750000, 1656124109210000, 1463302254980000,
  544273872863000, 244544825138000, 387026004778000, 78807212621700, -1167297866310000, 117416486145000,
  62558658087600, 426348616172000, 826954420328000, 741429879343000, -140380767879000, 314984948426000,
  -1224326435290000, 301638553195000, 16604170123600, 319368144731000, -987229649908000, 9514104457340000,
  543369561992000, 596833742143000, 685570362359000, 1733597616590000, 895675841254000, 704208824378000]

/-- diehard_operm5.h:2551-2570. -/
def op5Row114 : List Int := [
  -1741343395460000, -175773570496000, -1409124404270000, -342432463260000, -243434134683000, -352702931314000,
  -510373631855000, -788809678529000, -650929731674000, -784653437912000, -1188936352320000, -679922199279000,
  -668837691359000, -802880140394000, -849276272601000, -620630988686000, -420846320503000, -514678983453000,
  434231891950000, -259637492575000, -418361147861000, -491534081789000, 277691764137000, -200135462423000,
  -856595466210000, -761785716243000, -1008696088610000, -790607148418000, -762228100824000, -979598600926000,
  64806010535600, -302221399632000, -183170587234000, -237033491174000, -52704934016100, 127190685484000,
  -761047757684000, -583850222330000, 8728167739140, 196844187389000, -376674627657000, 85960653125900,
  -409579126929000, -435783988847000, 227346737812000, 186609684761000, -357155025876000, 89238422694200,
  -281004665660000, -335210644563000, -537432696832000, -345626513000000, -98660312102400, -266294670741000,
  -358332670710000, -503263931039000, -426389011473000, -139535571638000, -214215935276000, -53882363314900,
  418885217231000, 254581189924000, 730349562037000, 604429774214000, 584810605862000, 727804666997000,
  -21762123229800, -60786252486800, -345130216438000, 31475592360700, 493464750296000, 624180265424000,
  -1476250520360000, 11946267914400, -132629124690000, -174931022596000, -1636065878860000, -2078294739550000,
  -204081972113000, -250206994411000, 457598222658000, 408962687016000, -146189605730000, 334668012401000,
  472477703040000, 65926157058000, 1014709932630000, 1363256479730000, 954021935880000, 295258478977000,
  -833851406616000, 564432273403000, 613080095654000, 593887287961000, 1108837371530000, 2348732533830000,
  -1290376043380000, 183617274451000, 1086704431940000, 227752614391000, 413254115806000, 306745698764000,
  240375639965000, 1107964915790000, 1321372680240000, 1282342896220000, 164544241710000, 360711007986000,
  361354047806000, 212704020822000, 510925342427000, 378761175390000, 527981451917000, 543369561992000,
  9413723065300000, 382132646761000, 440043954301000, 411196661190000, -1360046201300000, -109564831427000]

/-- diehard_operm5.h:2573-2592. -/
def op5Row115 : List Int := [
  -396687513396000, -1839768658980000, -553141230965000, -1392857184170000, -53790600109600, -197808516555000,
  -788809678529000, -736238199152000, -672390343177000, -630970603601000, -742705630041000, -1359534392290000,
  -306099501395000, -419782340310000, -453722062451000, -815841326488000, -603427973474000, -597302395553000,
  -331927402712000, 397463653510000, 84618224121800, 69967323068600, -393903347767000, -378877759863000,
  -544641221973000, -735459035667000, -852814552557000, -850314641749000, -868936039711000, -653319254708000,
  -131988516118000, 5307627242690, 205301896597000, 65147201681800, -349650206722000, -304675227459000,
  -503263931039000, -788914111836000, -123652875064000, -120420235933000, -352437410739000, 59063379222500,
  -308366691349000, -321707086342000, 271151189023000, 234670913657000, -290479889313000, 93429468924900,
  -137163023510000, -210738078932000, -405435495795000, -570466629849000, -427782577163000, -504394247808000,
  -300247208670000, -72522673807200, 72231179619100, 11246280462200, -150142740200000, -457224088644000,
  337896290047000, 273971784574000, 442154249574000, 461452225228000, 218987516681000, 564722424249000,
  -116301986843000, -261762276351000, 291434752106000, 157307864629000, 491037153642000, 860637122639000,
  6884749559510, -1425152331150000, -1853897438610000, -1955882182500000, -150027454550000, -227303616948000,
  118570542996000, 120670176701000, 695343835880000, 666691905449000, 130519160208000, 496574729528000,
  1007304985430000, 854277559021000, 116047660536000, -33853229170200, -529735570343000, 624180265424000,
  486683987463000, -829754156395000, 1170347912760000, 1145175163350000, 1528332153160000, 780962418292000,
  188099997551000, -1137718812300000, 163728269312000, 1258798490470000, 336886108025000, 206125308493000,
  1294236416280000, 195804453141000, 407022363329000, 284956457467000, 1144420990560000, 1213250787360000,
  151214093103000, 66074162179800, 411048986679000, 470113281529000, 126119834948000, 596833742143000,
  382132646761000, 9582535609150000, -1149379246010000, -1281697780430000, 1313791984170000, 544249526303000]

/-- diehard_operm5.h:2595-2614. -/
def op5Row116 : List Int := [
  -409070881500000, -1732201712210000, -363980243567000, -211136224508000, -161502794398000, -1319430480890000,
  -650929731674000, -672390343177000, -320219830206000, -962141229527000, -657582963161000, -470076357543000,
  -383821499890000, -541431685967000, -733354399261000, -619424392149000, -340654646337000, -386241095315000,
  -227640071874000, 379095739238000, 502034622785000, -47912394523500, -572021533230000, -649664214697000,
  -874645850396000, -601767315498000, -994818435373000, -844202922569000, -652606891117000, -933963865749000,
  -242287091649000, -38021096143000, 105158253708000, 53047570447700, -139059221097000, -64295791416600,
  -537432696832000, -683419264548000, 45068862723500, 157698579440000, -316798642674000, 126843494328000,
  -312264250823000, -411852072757000, 161158816726000, 197210592684000, -163606896922000, 293182498382000,
  -351454627695000, -623340209851000, -661848412260000, -700279693580000, -268209384482000, -307052267766000,
  -470767664646000, -405435495795000, -209613711355000, -588796619628000, -249753689780000, -137410684853000,
  106752938523000, 8495879428700, 338103514287000, 405940570669000, 415777877683000, 736241256775000,
  51413621244100, -230163312917000, 54533155895800, 2098094156850, 252357226846000, 564722424249000,
  -105510526828000, 256894077997000, 401875400135000, 290487823575000, 30416135488700, -70232138338300,
  -1836290956340000, -1698465874150000, -1125058937660000, 851096261755000, 252869602862000, 719934538749000,
  -784888069700000, 988998691768000, 188772939286000, 139551041680000, 1553497773040000, 727804666997000,
  394284580098000, 721247353087000, -1200894313000000, 680378366108000, 1367630178790000, 614401133253000,
  311372650764000, -1041791013690000, 246532995184000, 139654183047000, 296750226889000, 1194165228980000,
  187942139897000, 217686565290000, 361855263797000, 226907424018000, 131728951722000, 272936358630000,
  67732756369800, 1039773108500000, 1385279655630000, 1484689417770000, 347335810570000, 685570362359000,
  440043954301000, -1149379246010000, 9645187011140000, -1268392407680000, 1328184057650000, 580496011766000]

/-- diehard_operm5.h:2617-2636. -/
def op5Row117 : List Int := [
  -290571696531000, -1678778152130000, -414106321047000, -320809872200000, -1192430452260000, -290566379430000,
  -784653437912000, -630970603601000, -962141229527000, -459832563694000, -747507811941000, -570081880516000,
  -378271517431000, -470358055171000, -736867393869000, -615054479643000, -326077886935000, -630293519068000,
  -440884437221000, 170108151577000, -4384660366960, 406630928290000, -424027216807000, -315759783481000,
  -684928104137000, -715385672093000, -679002948435000, -809631305473000, -722139710446000, -793679465698000,
  -179190636860000, 6170253131140, 71686381449900, 16604170123600, -312338044576000, -140380767879000,
  -620630988686000, -704349262793000, -65550061914700, 62558658087600, -427079623153000, 78807212621700,
  -508978296436000, -178446843887000, 362606894482000, 301638553195000, -399370888359000, 117416486145000,
  -388232908528000, -443922102010000, -619424392149000, -693544144105000, -382849120087000, -602998849958000,
  -851024383753000, -815841326488000, -604286677972000, 387026004778000, 520850413777, 426348616172000,
  107416732004000, -58032342539600, 351830820868000, 826954420328000, 323790008991000, 685570362359000,
  -227483562655000, -245959713642000, -422556084587000, 244544825138000, 233851044078000, 596833742143000,
  117284223635000, 418954888030000, 273539255755000, 257472739991000, -327086927080000, -168292210904000,
  155758494558000, 248195738147000, 791720330292000, -1224326435290000, -1676345773740000, -1167297866310000,
  754335481944000, -939177531702000, -143661669760000, 544273872863000, 1230881342600000, 543369561992000,
  609790724766000, 929575996071000, 942849253750000, -987229649908000, 1656124109210000, 895675841254000,
  255730386708000, -1119770460070000, 218522773610000, 161928012390000, 1335345077870000, 177152941632000,
  237060247004000, 218580016393000, 300527857918000, 319368144731000, 204681763800000, 314984948426000,
  1192331627160000, -49781748456200, 291896715975000, 741429879343000, 1390060862750000, 1733597616590000,
  411196661190000, -1281697780430000, -1268392407680000, 9514104457340000, 1463302254980000, 704208824378000]

/-- diehard_operm5.h:2639-2658. -/
def op5Row118 : List Int := [
  -1577146963970000, -1273599228230000, -304768959184000, -603443377457000, -417525572483000, -549689862569000,
  -1188936352320000, -742705630041000, -657582963161000, -747507811941000, -726558298022000, -941793008863000,
  -261517726585000, -390690736715000, -650728434006000, -722139710446000, -336354084830000, -530466293646000,
  323042948793000, -315950591385000, -551170646267000, -645874811277000, 487083197795000, 47052325330400,
  -679811016906000, -646198437092000, -678794619835000, -933786975830000, -1082038661550000, -867247228685000,
  96356173030800, -300379402614000, -148303979002000, -96370492135000, 143073220478000, 300380912726000,
  -762228100824000, -704252427141000, -139758341021000, 13582443157600, -423299685560000, 172684525309000,
  -384237277717000, -299515736580000, 326675519699000, 335725030544000, -314490568256000, 276659868630000,
  -305018339346000, -529810362710000, -652606891117000, -739504638297000, -337577633747000, -473781547117000,
  -1303981381200000, -868936039712000, -736658175599000, 551065378265000, 267602940790000, 238818731746000,
  167444252606000, 21968648645200, 278643342225000, 267799341696000, 349249165404000, 614401133253000,
  -28835077080600, -275213165922000, -499338303655000, 768438220043000, 511985745270000, 780962418292000,
  317239108681000, -45321232534900, -280677249714000, -378922402605000, 519487052725000, 34272187013900,
  -379629591723000, -276899080156000, 317903115692000, 343150830196000, -293284896764000, 276355973272000,
  -1477531242990000, -1985823507030000, 860717933673000, -6798830473090, -937774635473000, 2348732533830000,
  869796976280000, 525351092114000, 542245148490000, 582666009926000, -1069005025800000, 2119065301240000,
  -1246585631580000, 1203682255250000, 28331512615800, 424056105166000, 604967090955000, 463861937546000,
  357441254429000, 117390695484000, 209320522335000, 330475352149000, 396775742616000, 559392466674000,
  557269052947000, 422568698788000, 576091246408000, 618971629783000, 731803758939000, 895675841254000,
  -1360046201300000, 1313791984170000, 1328184057650000, 1463302254980000, 9505495735110000, -20102844330800]

/-- diehard_operm5.h:2661-2680. -/
def op5Row119 : List Int := [
  -2969341464190000, -469893147886000, -532764231058000, -380182453265000, -200425841399000, -331381710689000,
  -679922199279000, -1359534392290000, -470076357543000, -570081880516000, -941793008863000, -707451952436000,
  -335031062359000, -480906526575000, -815448489157000, -570081880516000, -254663857301000, -522313360386000,
  231078513921000, -169030572390000, -421925717124000, -522313360386000, 185902383774000, 158839264994000,
  -815448489157000, -573626900280000, -1017404823570000, -675964659113000, -941793008863000, -1078158270170000,
  -82276162712000, -172460020986000, -4243970352940, 211615664827000, 17065799026200, 233797744968000,
  -679922199279000, -675964659112000, -82276162712000, 177926900938000, -380182453265000, 190846053913000,
  -480906526575000, -335179369511000, 202183256873000, 261850268380000, -331381710689000, 264266037378000,
  -202802672410000, -421925717124000, -470076357543000, -573626900280000, -202151439206000, -335179369511000,
  -1017404823570000, -1359534392290000, -532764231058000, 332191661492000, -172460020986000, 310532137185000,
  337243472607000, 202183256873000, -4243970352950, 415892129831000, 564316448556000, 580496011766000,
  -675287102233, -169030572390000, -469893147886000, 395863320677000, 536585346694000, 544249526303000,
  142851903350000, -675287102233, -202802672410000, -254663857301000, 138599815357000, 185902383774000,
  -335031062359000, -202151439206000, 337243472607000, 395757418947000, -200425841399000, 397585019365000,
  142851903350000, 231078513921000, -2969341464190000, 51493759123500, 706585597865000, -109564831427000,
  706585597865000, 536585346694000, 564316448556000, 583649997367000, 694511364434000, -20102844330800,
  51493759123500, 395863320677000, 332191661492000, 190846053913000, 397585019365000, 264266037378000,
  177926900938000, 310532137185000, 415892129831000, 538523171468000, 233797744968000, 400304809629000,
  395757418947000, 261850268380000, 211615664827000, 538523171468000, 583649997367000, 704208824378000,
  -109564831427000, 544249526303000, 580496011766000, 704208824378000, -20102844330800, 11983642531800000]

/-- `pseudoInv`, diehard_operm5.h:40-2682, times 10^14. -/
def op5Table : List (List Int) := [
  op5Row0, op5Row1, op5Row2, op5Row3, op5Row4, op5Row5, op5Row6, op5Row7, op5Row8, op5Row9,
  op5Row10, op5Row11, op5Row12, op5Row13, op5Row14, op5Row15, op5Row16, op5Row17, op5Row18, op5Row19,
  op5Row20, op5Row21, op5Row22, op5Row23, op5Row24, op5Row25, op5Row26, op5Row27, op5Row28, op5Row29,
  op5Row30, op5Row31, op5Row32, op5Row33, op5Row34, op5Row35, op5Row36, op5Row37, op5Row38, op5Row39,
  op5Row40, op5Row41, op5Row42, op5Row43, op5Row44, op5Row45, op5Row46, op5Row47, op5Row48, op5Row49,
  op5Row50, op5Row51, op5Row52, op5Row53, op5Row54, op5Row55, op5Row56, op5Row57, op5Row58, op5Row59,
  op5Row60, op5Row61, op5Row62, op5Row63, op5Row64, op5Row65, op5Row66, op5Row67, op5Row68, op5Row69,
  op5Row70, op5Row71, op5Row72, op5Row73, op5Row74, op5Row75, op5Row76, op5Row77, op5Row78, op5Row79,
  op5Row80, op5Row81, op5Row82, op5Row83, op5Row84, op5Row85, op5Row86, op5Row87, op5Row88, op5Row89,
  op5Row90, op5Row91, op5Row92, op5Row93, op5Row94, op5Row95, op5Row96, op5Row97, op5Row98, op5Row99,
  op5Row100, op5Row101, op5Row102, op5Row103, op5Row104, op5Row105, op5Row106, op5Row107, op5Row108, op5Row109,
  op5Row110, op5Row111, op5Row112, op5Row113, op5Row114, op5Row115, op5Row116, op5Row117, op5Row118, op5Row119]

end Dh
