import Verif.Model.ItuTables

/-!
# Bernstein coefficients of the cubic splines through the ITU tables

Generated by `tools/gen_ituspline.py`; nothing is assumed about these numbers, `SplineCert.ok` is checked by the kernel.
-/

namespace Verif.KR

/-- The knots, the values, and for each interval the two inner Bernstein coefficients of the spline times `D`
(all in units of 1e-7). -/
structure SplineCert where
  X : List Nat
  Y : List Nat
  D : Int
  B : List (Int × Int)

/-- row 1 of `ITU_table_2003` -/
def cert2003_1 : SplineCert where
  X := rawTable2003.getD 0 []
  Y := rawTable2003.getD 1 []
  D := 684732958029
  B := [
    (700201566541488, 1036194539681996),
    (2036008668810008, 2691665034504000),
    (5525130461844000, 7702939523490008),
    (14636320105037996, 17558558130400488),
    (23525419351339512, 26570042546916044),
    (39298864240082912, 52578014844110520),
    (85738042677747480, 105618919907356832),
    (163396110412594752, 205329922403830590),
    (327908784251330350, 415724076243730400),
    (612744826715827600, 721950285195524750),
    (976187450716395250, 1121219157757568600),
    (1439682105270891400, 1613113345743040850),
    (1988582013489499150, 2190619440763808000),
    (2602511265439192000, 2812365662840267150),
    (3240673686136092850, 3459127312030843400),
    (4092251341044633200, 4484684895493210600),
    (5197439131036849400, 5517759812131910800),
    (6136395133521669200, 6434709773816366200),
    (6917582907749133800, 7102141401387204400),
    (7414197308827595600, 7541694722629916200)]

/-- row 2 of `ITU_table_2003` -/
def cert2003_2 : SplineCert where
  X := rawTable2003.getD 0 []
  Y := rawTable2003.getD 2 []
  D := 228244319343
  B := [
    (64546156296066, 119889932029472),
    (444953093970056, 873704314917600),
    (1865227517198400, 2427999498531656),
    (4263863914966172, 5041103127850116),
    (6827601477985884, 7836860615237708),
    (11715597090684584, 15436033492571040),
    (25191455350482960, 31226440806508424),
    (49022952914297364, 62139003799923480),
    (100333252279874200, 127556858397497300),
    (187876790934528700, 220973117353937000),
    (294859044361243000, 335648644949140700),
    (426687381656479300, 476936517775920200),
    (586682010362459800, 646178366829558500),
    (768936413097041500, 832198102897425800),
    (961802247138554200, 1028144701579298300),
    (1223581465800313400, 1349085176479367200),
    (1581571883884752800, 1688554880611084600),
    (1890316046687155400, 1985094216036894400),
    (2150692850458265600, 2221513315529897800),
    (2338808184943242200, 2385282589284954400)]

/-- row 3 of `ITU_table_2003` -/
def cert2003_3 : SplineCert where
  X := rawTable2003.getD 0 []
  Y := rawTable2003.getD 3 []
  D := 684732958029
  B := [
    (6344301722754588000, 6459227877018232000),
    (6863479403421346000, 7212277839172998000),
    (8139435079837182000, 8717793884749714000),
    (9075563694154123000, 9109858897628194500),
    (9131427104264365500, 9118700107426465000),
    (9021818844281560000, 8878964305343352000),
    (8595420783556728000, 8454731800708312000),
    (8150902546969857000, 8011708877771110500),
    (7718667432127242500, 7616914103828425000),
    (7433516313648995000, 7351871851768382500),
    (7178161517606997500, 7086095645326225000),
    (6896151357625955000, 6798272942206457500),
    (6608798376001362500, 6517202225215765000),
    (6342082726568855000, 6258559378707542500),
    (6107717843296197500, 6040399655746165000),
    (5852356859287180000, 5745544016569340000),
    (5566244450069740000, 5493757726287980000),
    (5366106988051960000, 5310942973597700000),
    (5220249920888320000, 5184720882633200000),
    (5127357465283540000, 5105523086189000000)]

/-- row 4 of `ITU_table_2003` -/
def cert2003_4 : SplineCert where
  X := rawTable2003.getD 0 []
  Y := rawTable2003.getD 4 []
  D := 76081439781
  B := [
    (677463449149884750, 688424647018346500),
    (729845773499197000, 768843234987051000),
    (866907720304449000, 925974744133993000),
    (980657947777478500, 993232793641835250),
    (1003144186211604750, 1000480732917017500),
    (989039117559265000, 976809700022109000),
    (946529097641571000, 928477912798189000),
    (889726324232716500, 872214107282117250),
    (834839529808951250, 821193614438672500),
    (799341052896627500, 791134406724861250),
    (776143252763738750, 769358744974382500),
    (752270050645617500, 741965864106208750),
    (723362666075851250, 715063654584902500),
    (698529496546077500, 690294349998201250),
    (674606679672938750, 667154155895552500),
    (646852380106135000, 636058923636845000),
    (617763203954035000, 610260940740515000),
    (596390694186145000, 590022710845295000),
    (580109832986485000, 576564938468525000),
    (570743173428955000, 568466302907345000)]

/-- row 1 of `ITU_table_2005` -/
def cert2005_1 : SplineCert where
  X := rawTable2005.getD 0 []
  Y := rawTable2005.getD 1 []
  D := 28331641592400651518122246295637126653278497139066734730290
  B := [
    (7943498203327427483065394998446311857198318359023818454540612, 9727794285186446108297867204953432160323573848265634166640891),
    (15374040165680531136758443012981062054481174616947492804396049, 19235989964315597539986546614501571645513519896387535730050928),
    (28757810893211106131712538610307720905140254257191512903060332, 34417682023471548320210427004593360573734643338555447150414857),
    (40434515063650972990668547708479928044227146102858866007011323, 40791476973569955472628780018080855846125259785798350616253264),
    (37970486653303855747751064683790356249988962260807171933952936, 34792534423118773540913117039898928851954551052876508642410667),
    (30653557655326731465949271903022833717118777338367648584559233, 29692533117719771597823374410038165980317414831789451818250068),
    (30993843173202423953994477155216559311005126040091493974031112, 33256177766292036178291477393379620378494199754971732896121321),
    (42672621701341709890276142678927879052292172577727116181055879, 49826731043301771377963807726313076658601071685602260543900228),
    (72679287202238645786396785256021858990175149943722300429873732, 88377734019215458707142097738345443715440329093967195953002887),
    (133119039950172834861537623800945612459890961539256536168404333, 162161899064153398095187837381222196479076414834300980860676624),
    (275400391099630195145236034823602304038446397771162679049425472, 385705938714661536310731575387256183080444550464708296657834004),
    (699395934274283416833350457735645767740121889961547643512272996, 902780382218873956190473799520381473357801076764841372758303456),
    (1428913720835699663750987070610554050207019237780350895544563544, 1751662611507934831954376999915990921438558211992566689084793172),
    (2517915776466843351826645516836524065210511306864790234769909828, 2961420050753516703495524104451620337750925427524797986914796856),
    (3934501512836801876015430643906456289657060776124045246437789144, 4464078700633413696866458595746195969022782004063284753815894404),
    (5576655079713377201156065491427601716899117382021966034598881596, 6159654270996728884594644435269267785409731532041407808003763528),
    (7360205096896862019853291497008769053534767302721238005290624472, 7977756731513643471673359614906604253149188923381626429172603484),
    (9253547684984432781648590582099896177374793036598761633789774516, 9911787003838440639803753431395352901985975529155508414524966536),
    (11268948250640286435144437899222962984005028932010782469839837464, 11967870178588124372329959517755116341412899842309309744419516372),
    (13422947016521339518211197612394876565255289293722297920866381628, 14179101926506716726906914088502483431689807834836758822733567976),
    (15750444251705331536837426898208577164833596542873339746344788024, 16565631666918569138072223231807064031542866709795459768088821724),
    (18259622178460311708003641914790092050667061973545370562383646276, 19138425274788816676700264264174633203081987070373161334934437128),
    (20967846563413545612353587591929283287299053479689708349264086872, 21918464755709769579310288570299392219101194792178464591042945764),
    (23888133370883603795189759240486714153919479382264632120889926236, 24907183793761214044112528932303927156935622659862043408958047816),
    (27019048916790700058301924078339798573193206896619468004717464184, 28111863616942575823568549532558456986434647855779481312408758972),
    (30364644629772368909835766821636572425932170239254259170909801028, 31524610942450286230836358656496029452188251663569023721719548296),
    (33921481135995218776026030286425733116885076727675133505250351704, 35158385016862234000215110081495979755325820367466478737971407844),
    (37710597158792241704395307390882709996906474274213162988334472156, 39025905419855234184386424905199193600046384541168502005976480328),
    (41719273118486622642261977037366617361797332305171691975350019672, 43097332556055018620146411655217557520408369802219542927081550844),
    (45920685327267828449793686205674294424192668208728137595489629156, 47365978660912242301556526138280091169365929118188881312166176296),
    (50321521549685204132928979089076721531138329017313220037873743704, 51831771104813752112538592107267555147737468006976815046904763972),
    (54921854415351902807746031934693138081815909213026641416827956028, 56501688170761505523343858743927887399295211429412872777720127816),
    (59714705641265967003993595560775606132453183835038873085929452184, 61347889356360825769045505568388575548131854024278642033246604764),
    (64671252446637272183562245954605363805650901250290194047083315236, 66361431821818859833027076333209182647491278287061977113602873128),
    (69800437671258671363068439363622848048165178963292750000170866872, 71549264145516895243644972015432694606998702602751739820219302724),
    (75095312736748877014155774810785072950370798589057679143761737276, 76892534853722634904090044954327604734909370935904628647255735976),
    (80518065833655384930597155464232270950705959168750149514235504024, 82346374696614377067169995830594405381963975054748720877721273372),
    (86056902928615095556548636150672675445123411939863950359122486628, 87939122297656821909354436104388811077024832938980608477037930536),
    (91740148681348110018576849902541846158067395916980623182461249464, 93658955695997671774993463746978745607208537895863979769969124484),
    (97522961769521924669295454255980585049114760798558346190027795516, 99468160828396615807180830920545525041879841722369356022578591528),
    (103386392973192049062574452556216301795594197793348464646297808472, 105359426059112791180082697527322138556543472940516563437466229404),
    (109337753928099346024247684901016007222000978379331152348671390596, 111343048711165158750904427303604039126509208670977642468708130856),
    (115366747311224854697109787554084248353025325435834368843072449144, 117385151128218737916658405401976425675033211909044605097400027172),
    (121450587495718754381112130870244552012104518973287968678944672828, 123497620046224887626017238490620501027167939564321096006161740456),
    (127577387745629686127582108181315715374186102082088307173668239544, 129610122894528351384241870251634980706140844008822391013957671004),
    (133704154065243303825186286820016474409429508401663841569357588996, 135765450087059591009470941318078702780763430867771208284468075528),
    (139901422606998748261858515138470539555636346295348120641253624472, 141976099105121618329961434460800147959175339256817666282928686884),
    (146100032606408206306305565873238155851360419653212892454660033116, 148149289609571924214546777963346555340006507088138572984716316936),
    (152279437836244584483621521755589535691358676574525082095278843064, 154360329059753526844455053457724116554064758625985910675785085372),
    (158477657403534467218650790138701035951436406783588974216077094628, 160514094523806465232012995117543374486101972889731209175862861576),
    (164619824390583411589957903371188290986922060278198638588945178424, 166689117137088359934540606645990868953076581560523833042241728324),
    (170797397511588200949331591227638583740776876360039111064972751676, 172836385139583093619539872534483720562322649877229194634407225128),
    (176889398677010548720161135738860970845747118807410578876292534872, 178903424586443111150574117636393084307625814220401879548743371164),
    (182948301831698010038883212051484297308047151239758456426520508836, 184979153167520346496779324569043396846589792846123732631846810216),
    (188998515852168253542434326533366674976686369389557165807981189784, 190987027200993824130193215980130853568240304326625322778789267972),
    (194946594570687850849668023059038085702719383701741737717221112028, 196917650591556306981383940691181139245644528139789995684844877896),
    (200858597365748840333052397299564118966385571692706959928426722104, 202828488119072917553004936275804045144201470807575666204384800444),
    (206733722740670900792970256173926257755592483834773051056687439556, 208669066608944806812983037095808544189167597747101729633032000328),
    (212509117303683278655422276335132980638470540722264348867459139672, 214413824130147844477848734652575130654198369785098289525541718244),
    (218210342985810104203877966281803793341364281528450749805986581756, 220102155015007798107480739593590306012802364208969269428348866696),
    (223854668737910411181494859859043468644071685960206463795295433304, 225715370431615330351906206812710118603902925030925138539879714972),
    (229404120108708735635209557680404683954362853011042888167498845028, 231232168092097221748101561594432599344991541920441963050533693416),
    (234879999386078297028045634461389408354746293011483956732197386584, 236699782696670886195097703414318301973872355193126875530826231364),
    (240291735152986482764008435219028362360724422640200670388336208636, 242063904298709490165867098070809529128450427905631546447217341128),
    (245580310789690523764053005169696694827779064851985091730534138872, 247324548134948549960380249416802693759381696532907760954969804124),
    (250802374342639705031245084953089267058560840166163569072988975876, 252535963205072833905782676242269841426137352118496707966572482376),
    (255960340095334059541475400271825307746905114533473046972672437624, 257651128123162156302630533012200199700096364996116247085188886372),
    (260987902867324170388115307675733040814819803631639398887499853628, 262633889583658087712444949598890989976351991804519350577294372136),
    (265921215964168467009643677292515244867211650821909652550995867864, 267562555628344928982512763062981550596539121666420002834902845084),
    (270795297910452251164846161046715130069058880970126090510067734916, 272386700528383111374310473259982403812251169429321827901325647528),
    (275547247868645488986173770097639625662154965240228821782482952472, 277116392590977006388572754722029573768866472591940078272382344804),
    (280223660814728610275928074405743981754428123127780727341882535196, 281761784316148696760884409465068441633278266311910119921483333256),
    (284814384248679532298524271955082817178985119475146441214856086744, 286328860679790281351207799385772732845841829454253369928628042172),
    (289313433194606156194000000848982406495470675417304546321404177828, 290783529278311281984108674881502164478242811401248794000408358056),
    (293698236772914158834753266197491758378892584577697943485474341944, 295142848183811909895289183480961594296770221770202845291536145604),
    (298008400194688130288118164964497289316268394333298313021815294396, 299429340794666599620411229164563148417888929703888878946032639528),
    (302221400061553636018432793169586873191133235541332299786405800472, 303592518728462203084161292974544738862757006008185154702561616284),
    (306331061472739022797974425277931323729022480401643510571121503716, 307698485550107275446059057776360042923664184328249011523525575336),
    (310384607429705338073295867409259512144259509257630873352481064664, 311703305231935148052448044543730262170213130260407234229032482372),
    (314312647393749647891981109604667688360628542524411336371455357628, 315603291753334337752361997531134364525090333785639077637326815176),
    (318175530668668236708032652102268158708749647215283778279260484824, 319457125224417445803322418746935276727947169383700737655322696924),
    (321971240427533304566965237386289270702278005844770136638442903076, 323203761074899954235318289380976146657411320137422576245500897128),
    (325647494674259766832717395281705327955972821341483782547600682872, 326858707626252929761763449187747633299401008252892549242642474564),
    (329245448370561358094911530526616945737222428493614893641413345436, 330420976162876623499013557959443952831615661822928471345142424616),
    (332766090232037827237191983328829907868327399208345655221485895384, 333935676508883765571268381265388855810645903264449261394100286972),
    (336220973717761245438395232611611738046003668063035281916179373028, 337336684649792786971445686021275672339042928805517696265644067496),
    (339562896275843579099531022474086557661086924841064729910444612504, 340673396969862829694565905517233508690091660134129349205780463044),
    (342855788088395288831651408611307808946905361842994692897196076956, 343927678512908497373702028662235158174714328258795417293275840328),
    (346061120828416969698647157621711424339230191066035840328206819672, 347122672719412233481541666530260341275937087457475538967058035644),
    (349212414338610979530866902923908957608341815226506667234009584356, 350240604066814461797297630409008657004039646604098096862109917096),
    (352270780858352093246061588737609535490653968456200657510160922904, 353272767921686242428394819581110714581570458930711788530111595972),
    (355244925021069250736806315780182548763618197523069113604980724028, 356215095057118109862884581135753203854749445640915307659899179016),
    (358138916053671917515049736962441307581014581223513341829632880984, 359092567014176866041136627433558756216148468688265181944448127964),
    (360984435698278092943458384416354454803577814598254947960602512036, 361922653421874371319693250928032704755873273043492873861941649128),
    (363764014325875916665489965688416657341202152676562469519706410872, 364667157506281183635051813937122359974235573864394139276132035524),
    (366459185427210029441610873968089330440269323306362017173731704476, 367348070167733608278608085750350598273269651560498225314905748776),
    (369104621385128927283461584458440871952051603072402477264252511224, 369972287862000667451317871384269877797833226330170521072425229372),
    (371693425743863587990086292142918823731691271776318460697106390628, 372546897148854768360998425975738763819767693964698356513614833736),
    (374218511943641604353667741884664620507346933626822637507368986264, 375036655333437259975424923960770537106849751100567022684614695684),
    (376658459396136826103394514755073707257935334993151583179439584316, 377462120069040736609606923473270960809518101411991758497018763528),
    (379049373731241460227293297112831595086324329195368192271184816472, 379832966720538273338767262034194975811547790559904450727771690204),
    (381381579584082431650141251436983343108738870572540578005660029796, 382146599458329776850041275918408329680706489220640446826961495656),
    (383657672784259833684803041452663203757411288448333392932777204344, 384403726235942545319664782505493091262148469027926470217291447172),
    (385876945378246368155042849780289108187187311189019913629833072828, 386604111068867479355559176002255237607488972770520279757860455656)]

/-- row 2 of `ITU_table_2005` -/
def cert2005_2 : SplineCert where
  X := rawTable2005.getD 0 []
  Y := rawTable2005.getD 2 []
  D := 3863405671690997934289397222132335452719795064418191099585
  B := [
    (1370791141396245382786220762148878399698933410648832582931561, 1743324823796174292399356987068343724652570587130930954235473),
    (2691864887305091336164871023939577375069754146821152428088107, 3267871268414079470317248835891345700533300530029275530636829),
    (4443486452281152406524388019484795863095410418549433904134831, 5043095255039237208579149391126477700193973923861469175084111),
    (6268956551672004743020205675277000505369586024754994364500769, 6895209045546687475406500587785841473446634620336484282968147),
    (8110258583301148501373518222976149424917049409863769947819993, 8699055627180926794954240945657616408310415603809565694204461),
    (9428043784393235512731610820587301535850862838440586945048359, 9568234897725765936928257972835519679997943879125812449507789),
    (9447447818337325895644155154499835418288887427940524142649581, 9186469625616355430163405183915933012432749936070010331331943),
    (8948356597301188873391025376773249602633968096308978690120047, 8971221761706992782099395540214468598691323748418460860225789),
    (9789476180024493186809917370460152359716001084396275119358971, 10584865433936189682812069037264617124683322768264607208386411),
    (13484151900698727447810875656619832745761000483060723342028139, 15588049113549568716807530609170583601871356513988507386642427),
    (25360980372426926336775977730343429811358767944718793778042036, 36491254038778276500726252162486118805892166682468230382384102),
    (73615807604415164626521568668285441596621992653450215955788398, 99610087503700702588366610741942075392818419886682764924850628),
    (166964903842978154877601797585189070844847439558172420946514372, 208325440282970069204991942354779432500680031996429527999115886),
    (308675506702719274361615193910969697782282943524012804947348814, 367665036682476565190848300697569601408053262613338974842980228),
    (504691963985350768371697592059911743816076462932288575443312772, 582729361308467680723313776635653982598329344161912006148013902),
    (754781682230955804127675541666560551133263707139665752528313098, 848796605830327015180421122121724880885945188887796068203911164),
    (1048135578969952970555672913945251826399474187741535761692323836, 1153459628510207714878179125313614442160321704847145139505138442),
    (1370116956238352135799655140183227075556248431230817286743783558, 1481450234426241812398624943684477093191327640508880056169614068),
    (1706632125853169682976985644019126122393047246649011239207927932, 1820480739092207876956376540852525133959687643511079652820411286),
    (2049106381673495654027883716835222055484459093010180552523924714, 2163883411015745237119999995984519965442590145647213038614954788),
    (2394162600445294125754630846687209401676224071353368820675428212, 2509664760532593431297145418240600927951726944422492116644871562),
    (2742248909564149160575861165526095886475562466147596864130977438, 2859330898508405584312062341258199318723895114803578315647639964),
    (3096495284970436831188472416381009015188940956503505083472596036, 3216577682488211654328681315771715279405654149547450399780889582),
    (3460932680462509175297112842961813317075239639792951096741824418, 3585205280919031873125335470761205090528111936994506477394465708),
    (3841033101205404356165743869621570116689878135830140454227821292, 3972588321035254141377929640682543369398772037464219050408535586),
    (4241012136979807466921328853570801803083512269488855227309174414, 4377880733094511007252542295398086984059358599879412808029098948),
    (4662488538662424158984647204391577975304961850859154364999801052, 4810227748115633770385538671557783785574718771448338341250578622),
    (5110998016786848924869633394878053657009714953977576402483701378, 5264029076004854467952836651032117718174954215917630487466046564),
    (5584414050103467731531790748715480233062230324968650120168633436, 5751767964984075452027541590244778686784267172079615667888875122),
    (6093433824420524214503750292812961811254624495426558243438734878, 6267745768976365256484208153851846482002944971662535271268352948),
    (6628302363128185848173799773625889259175730953365386619146377052, 6814547012724165397882933532361047365600196458832260939194783086),
    (7194161952827393111850420795090800985961780444748099987900426914, 7387532243334641276108774299085396499898898925197064716557664708),
    (7787925235067598609779977989450417158384456087837589922612215292, 7994947936293307779192828175820842302932894770029150400009528082),
    (8416799357050051445668531223797318700220794663619325391027551918, 8631628076581085942731384085403369952960255875017939904648262964),
    (9070496711107066592182633986406991091401845110146211713650207036, 9294536626102012744571031025804560977103973133875869009031440062),
    (9752053335334607071475697279307852804804616533705813111922609938, 9985530129572255245991966493413574746803131909806099919432546788),
    (10459612685016505822267523606110744468990023571094967379571273212, 10700218446223108224026811504702192249178399856283548032200062786),
    (11189838089578086071656913155899620425931958978709922738048547214, 11438851971726461517527726908505600822497141815947716791268242068),
    (11942479153347457980791705079839293337363057913911175743420177932, 12197092452820078998184869498567005455663791174636840642352418942),
    (12714147318243475682113163789742293543473447400731655567771661058, 12976588884194251348648293662189869512982370366100805594258662164),
    (13503193589575848492971234898305157679959105005421476202296927836, 13767356729006669970759046261972869877426916679372996783848192402),
    (14304148881500121019787713954040679522035114258689579745736417598, 14576777894562750591028570282440776969175500164054642126073378228),
    (15125084909397641527788315561312617991334284291192411047536101772, 15400762911169902893307204511784361566352682512965117588661864686),
    (15954637520274236341385543343041672967921174229852921375569995314, 16232834127606308423944993223827240794471267724968018621352363028),
    (16791557554008341918360774230959962655377540485678678897900216972, 17072084373078303330217105357307116689733719751274241928665703202),
    (17636752181393622111438839286329785017500919107458786910005936798, 17920893170638979480804242089005299310911939198047768860580684164),
    (18487841879376985051939037332369829995519409489029264061908355836, 18770649598869633253708429773058846386715859689421777312661280142),
    (19337983946690370370122184426054510518912198825999259693645159858, 19622510575018459284766546638361158259912087762184228823876115268),
    (20193748277428965426019981132934690915818120171709648648446894732, 20480459351511382652629053415201575830724263645050099342786718786),
    (21051151619166845140981966722721030286013533297445454977752031214, 21335132812739890402725807747973599826396659476500359918377519588),
    (21904103464825758477841125962131498560443286884468034868177800412, 22189092923338581291212603151036827754106788113380804877352592862),
    (22757768661114488676310244131250762902835307666060430375219297138, 23041454940377573248036407922559368857900325989827285863911208964),
    (23605305139619535810573774137466449398238479617957953472478081036, 23885469059598413801384976561064923983511614922321765592353041282),
    (24445735893255970356575382687810592530013021333549805063455308718, 24725838806934648920954586390957786491241292440414032414682615908),
    (25282084207433628340487371252323163608763734873415033178345624092, 25558226694253929195640952410541346765057906199551806590781325086),
    (26110960758941477177545446038256507579616632991977081175068464914, 26387552336808724304296358507753485237881188458265582346919903748),
    (26935172743870429184765901952117008680557423020834291209552266252, 27206201573064886938484532926983554464969102117114498900333189922),
    (27746880701067867678847853160626785014517262879169851300163850078, 28016530999876390665492542419403469779653744544944996009213586564),
    (28551454845023201088372811707058185919069494788266158070909983436, 28816728391361488524608391735936217293348763365812175423556643822),
    (29342980590274794378184194046043960611895031533939273389595946178, 29603959242849812795524416327273672556162031124520354002988588148),
    (30124292441493015268589664726892233542886000571384880396595511852, 30383646987561199324314690845281082585342970427668326176809793586),
    (30897693776801409909383727892182022365698418884133021044807476414, 31152386019973436438727738820694113103596897484314270132590877508),
    (31658863390378807976949281216733396686721530672996680764462052492, 31910648517612152985826812684260589531947685261497842308549826382),
    (32407329104699580624223072269798531084931462970936203117341253618, 32652224564553663253741800387809279792689086091873402382044906964),
    (33141574024344031567206634305104392967129023855168392043887643036, 33386028024280317251152740104388757433811338497526182441026725762),
    (33868137908516574788957086738490938127134853983865688220548954238, 34105793792816546642815327573308754353776054827847403602932099988),
    (34577832238506014632981576241759905324676461827379197765490030012, 34812214799895510769289584075393240068935667982929276545664814286),
    (35277690895922573754588660328531589714306854075745546383006255714, 35508784430560140603579728748036604615418834013011737440172912868),
    (35964220495723321180774119861411601259897374678724797902149587132, 36188563026248934908977442555281583003263935407171667306959604242),
    (36636633885126376152377695081912940280504201557111234920217645758, 36860362213478203667574624914674315814377906978603933128665670164),
    (37301573060302192679044644161377995536031279077967663218967989836, 37519055578774354175317733575320299723810945755838695100822285102),
    (37948710812037599473091351761812741009617531032506249838471104898, 38160883526828683274591880534362878107644449631302772694265629428),
    (38581806735641299692132705886073833325181559528300175307890810572, 38790557229662832308173002465234651444691750826501055065721467186),
    (39203876470435033989261348655172936674815471933973386852700512814, 39408445217185703054309398265950403785429001743244838881848901828),
    (39814551486509900586228981171095267008043115847714587806241108172, 40016089009083429053100514465462663120043700142912884701484925502),
    (40412290264179765942936156904888296334676993508145017609675604498, 40606953996702574365900266049946533437309702578178853622622466164),
    (40995900600754684002160382075932655995037808772462178782811903836, 41190183472283985215456388956860541450133205896711667930054479842),
    (41571692826680572532891078335658348618030243973254821805255390158, 41758919309547858637029760833528270330831884925548486533213724468),
    (42131071445550470508130210447853261689525745103228115003174965532, 42315997098685796275091977564308331335417964328614078745177872286),
    (42678927678516158279274761322603048624417527088586125445692127714, 42856932605211194516495777964442696267524870623172208404203476388),
    (43212018948720857463603413350221472948166723821936252912351153612, 43389100365535484173490032094160601985701233486114214461987482162),
    (43738424342439901240604454059367827144035584806644831215853437838, 43910666902529691597832257280635923264835426462997486420083064964),
    (44252250525458881262651787328423971766230296907025634472446635036, 44421591588298280570243514154943924146825325694701127320580577982),
    (44753538125673333749024352526314642772852983982199559640040392018, 44916143600208987620213464071165409018285613482022499111366263108),
    (45240291154372140174363909504514771106383524141240408388549296892, 45401833233999638857325243393013366949048805300635378194406459586),
    (45720452938504238420824479488199897038800281088732077080405350414, 45877530563381339301362381694887831285886475717433806160547078548),
    (46187426593015141472753954108525722552426240667651687742563471452, 46340244997771842763607624315475679571879810989167840244438136222),
    (46644202708487095518869588026805370104180216621249183140373643778, 46795342014445646983277881531185103617027051931814373534434486564),
    (47093142618988984815823049761074912554969407723676506567680183436, 47239803917573771183959924486584987980064928204973449206865037522),
    (47529537209006408144158989372321200675151644725204778465955012478, 47672609201854258736221179532547337945142840764139165085860133348),
    (47954407983841322133309980509672229180577526670339901011067786652, 48093134772980534938336591326570983146021016537606250316370319086),
    (48368378037800301485001078515629168437486826630787145058067960914, 48504894513480855226638954887788599763509146856701690494463070308),
    (48775660299698472758768067165503606935975292865348361393087229692, 48909909610235536549259303071059182782419118648080486855316279682),
    (49174233582655519006479913604436549691231038447368548780947700318, 49304308244538437673209288232258340753599132463924485244350070964),
    (49560242894034199465256386682108123481500423234537024994030079036, 49686102881647042590574110504136115147033619988593628280307716462),
    (49935675768577030143012286265768286836799015542493847413591093538, 50059388667894174570132738205372466861031214342337463260596833188),
    (50304163871294569766837222831181343529723621841118305124422296812, 50425226175377820536421255517386040174183830540055531141242020786),
    (50664646630088831412195112196928649281682327115510857170499089214, 50783004780716591518384936190266561744720614992028957182936433668),
    (51017734668341204050140680612920477434445984955390378291128316332, 51134106405338056475706601042236480661133067042233699386882854542),
    (51362046064624118720991107260934378899523096016780910485107195458, 51473613986913328540709693050316273911226042904484800487576998164),
    (51694771069923080296554370369505612018203364495738574635740841836, 51804360230643622232680461899313055113477739199288458781434882802),
    (52020803790380256253412799048271327842914033361886008828812407198, 52127658189396348338019044667422157477075952820933674730495890628),
    (52338831173128235805166256219036193164467305720934212602282509372, 52443149757844031187707222151499399217696739161887084572385644686),
    (52649211323494494620832961084944389767187126180416549718525525314, 52750954304429162671417734085926174263448079757993142894562270628)]

/-- row 3 of `ITU_table_2005` -/
def cert2005_3 : SplineCert where
  X := rawTable2005.getD 0 []
  Y := rawTable2005.getD 3 []
  D := 8499492477720195455436673888691137995983549141720020419087
  B := [
    (83754845176702074550706920871154406284687954531375125381331822550, 85171712396738282876484018056097687309385180706323916700390317525),
    (87962949374422098550761029056540793668799715310512899236411872475, 89337319132069705899260942872040619003517023739753090453374932450),
    (91939856432746622774292437825963972174820112354851505044912603550, 93168023975775932300824018964387500011405892540709728419487214675),
    (97373598389755409419155336272290431582553312118369689335605151325, 100351005260705577010955072441769835317114951510171426877148476850),
    (109110487360230919792826318871134569455903633538376756330831551150, 114892562588806094982897829131019899860130676174780348242971299925),
    (126306034943937611651484102482257214189890481368950391209879586075, 131937432070493953129998865573609198115423243926716842264648123450),
    (140199318081151264962172558994503658239978032492874771513679442550, 142829806965252235315831489324046134439000058501266249707942224275),
    (145268990059551509841650008807028679072858323206475562417430727725, 145077684269749814013809597960468747507694561903293396932656449450),
    (143378091439118179352800240473931093799995128868400656050318156550, 141869804398288240519631293833953371657459457136690080652754141925),
    (138596448381522769118868071145076799934005697441787153136278684075, 136831379405587236551273795096177950353087609478594801017367240850),
    (131763032376078850121781754298211381702240075102855371955715418300, 128686614220804207533174776897873642724217358204145922308057546100),
    (123068352969267981856859503685157864716815367373601082505299393900, 120526509873006398769151207872779825687436093441765692350199113900),
    (115844375932392236846542692971720721980866408189468075504610356100, 113704085088039658011642473883039657303675996869005848814121878300),
    (109917562000778684420896416128424183370651181049647888412057091700, 108271329757870289665050577462489774114816776550752154700480782900),
    (105422910116970864475538277446982817380201615970372598676204571100, 104220722718979834041871816097410269901420859888888776363504668100),
    (102146954640066511616130625920010560641059713272073319411927691900, 101275373959144219624055897092183398859479322736741684773050618700),
    (99737623138938402897021440375362014745531614464936798138356931300, 99071452999654878162061712486367792413164296728463546142540317100),
    (97878786694077490931316894862383257229766503983472767008543646900, 97352290527783628435531805127392944378736028974955239870363590900),
    (96368142024415066384780866143655472825721023063127465521467313100, 95910489687340366829815016894908314123736492159817218310751091300),
    (95039108317121544272025298688426792094029922858064760424457450700, 94625379283977421269201429730692428766307884459622549748880031900),
    (93825367932034752368740503729367482880639367110593742983116932100, 93439085613236206471103446685776900322692888160007146892931251100),
    (92682800663880633612048838128781639513354870945377860244235874900, 92312798033323606650631286615376961261963332681335169685726179700),
    (91582221214630542223196589640344500419136736548919192101640152300, 91221647026494504757179444178716717827701678680545905076063820100),
    (90514501132118714470967516909277194802418569067711571524854413900, 90167929425878961650772735101465454368570517323250524999221339900),
    (89477343583215089495336804209910438314537777336143826578601492100, 89133329446790970160095655126167162694353089093498174683614718300),
    (88455066382694793685798209104145474593727186673599931952789059700, 88120817455022736546741912165867062113285972496347341116950174900),
    (87461698149721061171668897026714466607742185673304840700549071100, 87136827772091442935652178825840283582639613027514931119986852100),
    (86490804562776709828008195372342283399312328839541646001122383900, 86169651731091594956380930119718466241087617297358270462820134700),
    (85537095303811793634350755779619903553772042463669582043575439300, 85225691708217107183947846692145158024681179172164269162632993100),
    (84611166981587838406587770951681161411062099777685178851563440900, 84308045850553256079630604298691910326533883674711401421436334900),
    (83709921449019567683441565132954505578068915758809962223075481100, 83414918178520461614209692620206351914132163945882300454841733300),
    (82835154685686561494131648642592307287306057266161298942499986700, 82550394463351767443285477177726416324416702399367959198391987900),
    (81982780920355776183057655959556633001832841886048196074294158100, 81699927599694578973676006206252740642138336239521772694304327100),
    (81150348273424365952490665501069463360906465315833818535402592900, 80883622267815350140686974549190078439369100038672287756490689700),
    (80351750034536757648946729119280809344438827179756499593589700300, 80086603806867180969010174641250925171045919598002242209600614100),
    (79567862894628970465912307683923410945509067480066621342529593900, 79314268210060336642750995204625780893365122943885257859447659900),
    (78810289845446179610192885820584150383912825288674002017246888100, 78559906165400656400796088915840149926604472169644109658128050300),
    (78068741214027105451990937504960141063380371413972426624807185700, 77827959942699077712582582998824132657464623777330635950605158900),
    (77355773715516250912780208860898664873203016452193496861085287100, 77124368759661451852386189229109205494857156763698148445767442100),
    (76665448132207764718284988112868245404469181406583901017192735900, 76437932460608876644577806628416744692427065737965002003935874700),
    (75991965634825108653223502891370124127541904569641844191970383300, 75773514480640228735576380638775004274698859069937585393261753100),
    (75347461773224846462087681102153429293888644669844377658105106900, 75139860219994344106246103818126974165921475769455428721657090900),
    (74723191147168142164013330187275170979260462697351971307684893100, 74514123627572442577622133840449822920566618525637462830160711300),
    (74108001837842895156143545777203416077201721766478814217994570700, 73910947567709047321056154060782357292530669179034674083352611900),
    (73521248950825463048948391212454122385799974233240800106130490100, 73328604604075726611928020080546946263740331874891066263550327100),
    (72947660937488837176137137543827538647136548854110485148936942900, 72759361617651684177366626139015307152592408191679637876903721700),
    (72394970916853813810580890532051947542814644050614870840264064300, 72218879535893096442565666329900819427581020571980951075657628100),
    (71864516946419656917996829431191351880332104478456835068705195900, 71686245737906934761443216734633012448316811863566638826359199900),
    (71343213677168514362645131464261457748094353093297864786036836100, 71178452824942816120400658890448242479887186937919286988060468300),
    (70848066477761649939946161789580673432997919220222254214883301700, 70682440982806182001736137262526319654315817657903799239682502900),
    (70358137192482741385780029246414424251035196799798219594647175100, 70199458897114768708033945757356882626436677504011094924812646100),
    (69889176120669492788473313276050453823364179449818281622579287900, 69737571639592189546658764283801566644890200691412592990180458700),
    (69433118190598290840661333969627126901344432955111021351950079300, 69280269222681695376478452647701574336272643977215138346118529100),
    (68989474404870444292565358173525858582387733460286153831588786900, 68851528554975788672835145021275695393574611921253052322890594900),
    (68568265824804331450664998411082623725487410602076237812908021100, 68422948944527529848225064953139715246213330821932524811623639300),
    (68146896187480570729731411090349490073250336787224763282266276700, 68016160310710413213677690685502173379561422532660714754193295900),
    (67754732528391988991467738012450064968279791457174891420302442100, 67624040622843722285311505744245273250687074636253116614484569100),
    (67364898908308421937933748955947380401523652832544247681455164900, 67236449099321388296712224435854279269952947849757153554243633700),
    (66987536108835938335543729614356171962619260196285408903978270300, 66867072927337522015596759312951165786856277525600758380924438100),
    (66625955927735867807491640782831847578061345294253882321255983900, 66505302109632629919333492554117535545029395733591656784641361900),
    (66273769377312263485498226935015422228225608958358502202335752100, 66162890463095134939821109544627620944453771743787573156644764300),
    (65936221625632142828575676033410045789122549016824984196805389700, 65820431702386279263007359912580271917563163504433324282657002900),
    (65598720988123382868954491754362103776334473324841631437266191100, 65492800197106350040469939716973709506665168657641598506023766100),
    (65280391065096577236878724734428139699537718436862635662048815900, 65173902724103837261772061789270964162079572883283705749316290700),
    (64970326094747795551874288794367740832420531574733246907743853300, 64873237806384493817083178744621693040219635819761717978903941100),
    (64676026539026725314682604666808632294561620198334833248820112900, 64575903560032258547073140638741619341104500331879477447576196900),
    (64378396311938546902812075600480326333957907246296672350811767100, 64281012042839302026160474590286046280268434027169223055291253300),
    (64095322340646530132755047824504902011067092209369965354598794700, 64007016907553003116001222068918037795555223610698156949426849900),
    (63825349957358736533766353216996677664037355480770950153641630100, 63731988440257996968285310120662181748031355949515551763028355100),
    (63556410906079650172334318036376300879818275996883474033218556900, 63474194889002042941864369048424915927611195575506794694022033700),
    (63304234908672392471429058675292098420479423422389029877079658300, 63216490945420349231463697290110665865554731690647944399333806100),
    (63051969303590874454503530000284880202776874358744678946622665900, 62975191625013442917508724095640527094923708758582498971657377900),
    (62817297045245449822954049456988315245632818538873803230830222100, 62736180144054888265394180722980456504195093919327287464968354300),
    (62580336947451673529564139091881682108586354626192693594050373700, 62505610652039020351293966194790766454415339952604615488994260900),
    (62351933845670650889070773230082050706582996939262484467393769100, 62272983334714934605117753162464250612921668599508431550849390100),
    (62125588569197846080653405872419245096293556638705787302907941900, 62057144314636473840142078649992039673326773017657195971510872700),
    (61916452965390297072857246690456899136089274763471021861292109300, 61844205870705492546083741953348964021818560130333439082470415100),
    (61704416785435268594143749692665417887798310193708777729378216900, 61636874794849849168977262169089806868048774890221699155107712900),
    (61503772222360342589389269130267400417760885075017956676624743100, 61438211640456255434967763615020604987222530563301292772412277300),
    (61311458722778807332448680685456809950771886141419242120042176700, 61250266387005446384351103271139810344859596231253855371884541900),
    (61125426307209927783026127378235194521311544311230998622130084100, 61061778563187770129798728899647578303675782301373528620533261100),
    (60939936462007915437539288098625016490672082078875644475041536900, 60881742104850218398507245776190070895304143866235230331146635700),
    (60762994236281218959702430918757496103212411450061701906826508300, 60702440724869916559929658383759866906488617246528587626401282100),
    (60585316932197272589151678007862672296196629005816103753970207900, 60528746650935931018146470166963106882628434968636734161964359900),
    (60419031307022450312717399269111786800217469318039156401643650100, 60365886244370311178293536212160032131374697704620948233328788300),
    (60258910999434702725263739616144598307623831714669581554353915700, 60205080817151233406657806077080919152715737338136423043693904900),
    (60096735712500413069592876143453448042435417213768745968063493100, 60042220790133062051133879748889656087063191465934227403093092100),
    (59936615025365216997810208863874447864240588218585580832738999900, 59885524182964722962945534373423031596790210719071452827355308700),
    (59787329903335629049602833979348191386658161196346434673389651300, 59740226466107029171124808075724767443976489173135544524807685100),
    (59643644875950836195938713364830956847608442071463862281688316900, 59594166723023243099230644557560570193922066993003070187150914900),
    (59500721874792135622348029970779655405799423580777855925096129100, 59456755179488621242173484191269127271363155247013433757578745300),
    (59366149659039711224831216772632981912486861754232451701257514700, 59319510833894315587663495133507364688046836595215891812453667900),
    (59231410245346970624767232265956628079931706833494952992971808100, 59189948481945021299038691037531508696256602230790574062293795100),
    (59105987822964659049728936145271749931842434723668670130559070900, 59063488927386246126147722481437110551103371819251145129502359700),
    (58977462603191828358956804484705413937116158660956498450777896300, 58933935174575823515347100151808356703868008407079376773110144100),
    (58852031581670645106094326597673433644472015598876666194597501900, 58813655417381471540451257376435567818324173044551077293752611900),
    (58734325549488831608237942504162870666128311585436805102220598100, 58693371845885365241667696853128039340080292680648121811533474300),
    (58616623331608772434269276158587047280484652573371600012705299700, 58580828520935645993441101115080886546937031370883761504564248900),
    (58508179852137766600654518375528230485732341605451239788778263100, 58471325994013013648696110679481735158075273042506556581133328100),
    (58396695574639673863558155290021412286698527656143724181312921900, 58358919013391087030378607596607584742978850832725574989137450700),
    (58288115750840875400034304851789593113899377588239985242412537300, 58255089049539250602869549800385429028539581167172544687863095100),
    (58187957895227427136612882474683161516435042074391735053628804900, 58153853442217228467520970200385058089690299402678365973943956900),
    (58085205683084164581030981901354945143380718659484633277489855100, 58050662376961299363632905876622935623815880588004269660720601300),
    (57984408928874808993988566051788480297351532294757449100655122700, 57952698786911183841742302251686034490452022072990992157358897900)]

/-- row 4 of `ITU_table_2005` -/
def cert2005_4 : SplineCert where
  X := rawTable2005.getD 0 []
  Y := rawTable2005.getD 4 []
  D := 314796017693340572423580514395968073925316634878519274781
  B := [
    (2730218204709693023274030429156135574433950264129919261585301100, 2770515923346765497222090421098867253256551248480108933052425050),
    (2868739937611737517173930913790504823041570948733685355374408950, 2926666233239637063177711414539410714003989664637072106229268900),
    (3048162182579967001421846748696063329098520065357223729114111100, 3111731836292397393662201582103810053230631750173988601144093350),
    (3237703840582281952121417393262865997843004775325745171188676650, 3300106191159736118340278371014175218323266115660736869203277700),
    (3428973483053111957786178704714038329904302271502491148515378300, 3495438424369033631013218060662592221005077087009253729812877850),
    (3673726082579104565361404574191184694570083955714144234049616150, 3785548799473253826482551731771223277034316008912272156988854900),
    (4069241434010980136630629263436972103550184664576540787346657100, 4241111351654557185657559637522682347601821267042681494765220550),
    (4564992447298951987319681672190128552384986277049016697958473450, 4717003625299769739954873332771864513116514684589211193733162900),
    (4926457580718025355669092145234221463511635108279348269907991100, 4983900358135463218748119297114842453175227124429290850308129850),
    (5015280347875806723714492162158687446988530465851995393835554150, 4989217560198712365601837875321911451138241791124757356962839700),
    (4874900178445156838030547240615534697815656517858538747341024600, 4750516565646423215338583118549885174571640670235053675588252200),
    (4532817996130190265432806250987213325485946892332479737703437800, 4439503039412690938218993505490190999644268962053390871571395800),
    (4246978272817348817237287208752152032250918260784469996735518200, 4147768462939506023469393657511135390699245489794637988031682600),
    (3970820833371747339334747808760881235834670523722374108570307400, 3893083013681831448967995511251643722521768328639942237812767800),
    (3760237768478664547794093954743132090750529698526618370662904200, 3705130342965413536986944695743857972292193263495726374270580200),
    (3608840332121661322702524975732064257288613431271790455991173800, 3567657746791160119225254514719544660743370034078746534104091400),
    (3493846522105855601380503584210811173549332719516197837783300600, 3461217882751052287013023114714597282900538802146693063349592200),
    (3401964894999158872965879260146298664819214471474784165425769800, 3375340546602068773286215875074213937386684058172380041935655800),
    (3327296262124538694756660437444738292631157731661052356701396200, 3305876326044098715906768384887347375308161818452128794957250600),
    (3267064523392852436297592755700466008252449517811353662470029400, 3249672656822046135538309179070975558519733130379502091726953800),
    (3218126322705329265476576069708584488349822449834554927923472200, 3203971855159418696174126536975683867912628156721459334863066200),
    (3178202607555368069141544811888172862849241298805640442046927800, 3166587827497228011411412619533562478223048734002917142291195400),
    (3145072327254250465681376694105597403979549795311394317067854600, 3135171607069412977681472961032242714362243421422594791600246200),
    (3116677304320330790650836054871683233794544947264798005550413800, 3108083721756086091620102881784478442844152846995800744968189800),
    (3091509050696563141689891768729716805041032960301757852568824200, 3083527962201284890790413828762159958188305173876712220751682600),
    (3068215815561976575511196583563848142460232504919311447018619400, 3060884757417946511131457278333093173584887622386956305102697800),
    (3046157985832860593886004700948687460566255094256317625648702200, 3038762272391804741020291428795036716422967448658034088110628200),
    (3024209028381934683857869278471308387378630939102247144171431800, 3017051497813120479561160400301230802477582075144743737770309400),
    (3002477952518937946322546195978470707122322617002301834591972600, 2995061937793569617380640869825788196668112022817363337814758200),
    (2980396070061421128363764454438477782582248340446689536078183800, 2973146217054640968288793365203849878950595252260954231118823800),
    (2958240348323282097316310687044980569950220782120105944304778200, 2950584332598703386418799098120739164581499400164992962450092600),
    (2935471606231378636757309360055071881674071038793560437405045400, 2928014895588632597993331210913646004135364059377240894214683800),
    (2912710416693608382753781653189145639474960784158805730071990200, 2904862648441330206278210244606071152353264488356690109119658200),
    (2889272853222296369750212703366117216316113493217335662499427800, 2881530826255540709697786570709237767400658793880096836831529400),
    (2866014864789471461611946461132347326327772325731908082119968600, 2858240930290157873578532484212336334170340556920958153076306200),
    (2842714950136239893012510631498645484617143700729025913207603800, 2834962904481635500479902755704965627221378613348043602382563800),
    (2819403165326147861392450443875412916625158782339919611233758200, 2811595471825264614837606007839540063424704038712777930909992600),
    (2796180787363904342316057275610235205480886495013164430038741400, 2788573796403427316349352979416803200737523694940692609491255800),
    (2773242244202513917230467548931160729374970610092985937339452200, 2765517682962077544078286414638950262755780325317751085735134200),
    (2750338139060635965927691358607202328563617751023663646977547800, 2742883156399630760929277436867664860990645461504811059824279400),
    (2728271631110628387792551903334260263831357652683853935869500600, 2721115088482631219654240291540393134245042133381749399067990200),
    (2706597848585946930073134937674888396375267285193679936706011800, 2699237151317259808630341195603250788091807956307715011145543800),
    (2685033935309637342102579922625387148326807766654478664708680200, 2678191416570701997017612391719161116845266905887207243832284600),
    (2664526595720674198155396098609209033815207021271021887750847400, 2657704293609581744378147336405482982266687997422107952545805800),
    (2644090236381660176379795687051411318783494767201913673315796200, 2637298481264831062158692799901065706848820560830633329290828200),
    (2624202158461663265329031917713144680738921674528937829398805800, 2617897590775324582720473922675569266563696994598522673531751400),
    (2605197934792582194931573972182333016005156611305869133634600600, 2598802846496178489751232016726672179621840907943630749604504200),
    (2586517156948527419209986216403713934075974701775338744588127800, 2580626555697280053849082371536416524913424198969285123601847800),
    (2568806701730385029855847682952829228356905314373533173265750200, 2562877449014737371223516839236539340962936932583834843915932600),
    (2551298654431273568369972197640357988027757117652589294176193400, 2545649112563457424148758399760466522486545684511042073786271800),
    (2534529020971672733622983941561666254520214169158501982629506200, 2529058471247704187318423281242757452095094086947509111862662200),
    (2518380876447318550921266686582194645223432836694668939975891800, 2513173831370901460828670752240540640776891668652821638855965400),
    (2502785914554787220168661164144814649149103591501504485504488600, 2497605042815090069601247510390742661967856682392034633272938200),
    (2487504693376651235298573515583807756713457547544196602158977800, 2482585215677909551563313174530944838640305321805828423276567800),
    (2472933694850657739528691283090384581092029144451822000325934200, 2468201651722147611229329732702687241616905192836183756257710600),
    (2458985617214019028344552478623005051462150776282399932614501400, 2454501625834400573759136774931020200782520311344254353039515800),
    (2445613185580138776586317512156618837938958427174776678201530200, 2441208736705495433998913953074202325775027007943444582938530200),
    (2432463209222803308262959570804175394736725133245790829220911800, 2428122130614754525114408747616564975862354677779469170766293400),
    (2419736541862690290208731174081343362587521499349727660861106600, 2415692031718674838451604423733732168187058776386307809410538200),
    (2407612551378689412222496217841290660496642703222364518783943800, 2403577581182719437750514762296460347206689353021841079607917800),
    (2395802504569950929419393760184468907858688062336063783703208200, 2392062398153152395560254213617307781800640121850809926974524600),
    (2384652374325597450395156511827111771942114495795841548552369400, 2380982456914841039089198356604076888141636810226127026858897800),
    (2373696594325374966796561732832624900426345642979028099433326200, 2370080649146665305809883264284207796511532161301643693701226200),
    (2363192272890403541151073350173568163029528760731772121905889800, 2359919841812851437478941904611345633462338841839284955842653400),
    (2353206135091843612846905556925088369347501815561905626178478600, 2349764859448387891887000654801053634799854708177013462577540200),
    (2343214172323933361803737653814038411278765684591951885857607800, 2340104760842934552680379554951057922305323768391782472738613800),
    (2333986509867786266664943922800276039337777626284471719209674200, 2330977670373636789772866389512474645343673400377330378799728600),
    (2324855431310870276371889418403893168011759629475969695211261400, 2321742031742253239862989980583113084673950084481750352032739800),
    (2315832900916040073081198157498288580393814580548595604040952200, 2313037169658443942808305772234244159451488621609660199227686200),
    (2307538778044408979225009018069775229624308945137245716007831800, 2304836117687970145914604649169350720739455227603766637601243400),
    (2299370437094829066352683954386078328492225874129456275345662600, 2296607416858126820101167628503230445129850238188624991496670200),
    (2291229745004618682400094788303608264257714398530914919161623800, 2288615093387812790950538273986833966747954194814036130675569800),
    (2283482267590265682929545117100206338943344610161577816243674200, 2280964093409524466358108474530353008648495229225998290297832600),
    (2276023058719273660045643051865680829494388377275446731431923400, 2273600198209764070304614271770861980635130906260474698511855800),
    (2268906337105140389767652550962957326107188135036558436577974200, 2266635336510026298971719610249871520438502834827614207564160200),
    (2262020174026371175913909669850525191051102274534764079435305800, 2259676012137830143652032670164264667332387014450858180320265400),
    (2255128473620060346046959067302709448904504162976865258588836600, 2252925096990831580703762464127414754195336571586778235972448200),
    (2248657956023938604953438891734928702936691307176047393395851800, 2246594191686274394546311922517737346387213634155403573435643800),
    (2242397020620762168213946212768767387787801579212281284941416200, 2240263613892914152288707472236988785737867197289802816407396600),
    (2236135757706388787574607442473677225480135350682741270978423400, 2234141308247711438785746153242144267272337885998158194083469800),
    (2230295814679244559325472701921474957136502629849002160860672200, 2228444770569455028654060539832338605208464838384429204532828200),
    (2224659695720540708849909416813025768539064278607104456519197800, 2222725664981415919717170455882849283797701510294352664833411400),
    (2219046144671619557179550602244260239288516207841554302326498600, 2217300655100947983774669709535847679520693673701507731505372200),
    (2213768089950513913659649611101798929052063278848529580311983800, 2211981014370751416949510405376162738351255418135597999939721800),
    (2208384666079136901022407177772020955708040768828569656535080200, 2206575393367284881805443155893515363765633980234472893502700600),
    (2203087222481029856704072689765205415780201441143825107629547400, 2201408324306626850819666245515401059737175690647274084788773800),
    (2198180818975500989372295023682648741443049598414911299550482200, 2196632211818778133809330246099700779191949256679099537152964200),
    (2193513050932549489209923607666469979770516533336730268942861800, 2191942497203043700173481746816187142600184151730172763130277400),
    (2188758885017483705673064691518104574144522139239301464722118600, 2187145826561429500209089497070304842859192508354987672126544200),
    (2184111675128297688464749525832107831667754283568130977482421800, 2182690582151220082184384749041710551761645689665588075433873800),
    (2179752631043093570461594019457615016695392236480932034481224200, 2178235772912044665019168066663916761535247377198818895577122600),
    (2175393151786855451598950447432321700851881683171102674644107400, 2174067388792715143621158780994424895328660848425499592615193800),
    (2171376839446158118113946639727518397136409979437580476461730200, 2170012053093741400584526164898508704467379945195264442337180200),
    (2167247478685105006267566162449139418075632650160974125595437800, 2165847690628885329480026634828779824352915389368999842978245400),
    (2163227144689934222489052599144573128268038973480397223810066600, 2162006386807202792285618091080726025905879818383768887259080200),
    (2159513344086976585945295210547123692940866945228543716934487800, 2158241059249481809808406838077368462338013227169946883160881800),
    (2155723567220057394684340531204978022734525937205281258437942200, 2154478360028127755697162596802342813733892365299212467488608600),
    (2151931162016771275057418840134500437564439199838931211515471400, 2150629171197344433404853017869293270395619606284718746491667800),
    (2148225246422914423611562486722046747128504359616340469917668200, 2147123312467911255470837777840007391030208706502174658367472200),
    (2144805592763094108952258955434621328867558293431557133996681800, 2143589807013280130574404841911274622803203533475105421176087400),
    (2141413585828471741255373120046642799468206500491298947142884600, 2140453150393477330314195511705357682197564227463944185930276200),
    (2138254322094407730067110839964640378595339473804889796893075800, 2137015929230332540761203776565208192263756993173190169068483800),
    (2134766030868299027026783803788078570902789742128316389709686200, 2133754525370340702598270894410381135873404971715142238175480600),
    (2131731514374424053741245075654986265814635430888793935107069400, 2130720008876465729312732166277288830785250660475619783572863800)]

end Verif.KR
