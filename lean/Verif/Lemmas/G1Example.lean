import Verif.Lemmas.ScalarMul
import Verif.Lemmas.HashGadget
import Verif.Props.HashToCurve

/-! A concrete point of G1's curve and its multiple by the cofactor, for examples and witnesses. -/

set_option exponentiation.threshold 800

namespace Verif

theorem one_sqrtTwo_on : sqrtTwo * sqrtTwo = (1 : Fq) ^ 3 + 1 := by
  rw [sqrtTwo_sq]; norm_num

/-- The point `(1, √2)` of G1's curve. -/
def onePoint : G1Point := .some 1 sqrtTwo (g1_nonsingular 1 sqrtTwo one_sqrtTwo_on)

/-- Slopes of the double-and-add chain for the cofactor. -/
def cofactorCert : List (Fq × Option Fq) :=
  [(1823643620269031552496944229855352482787193814042284884144175494957100842558949488663171878086549280398712275864, none),
   (23334130362273874388217528255873051489590750861457741553955120176397649153156545019016661473284139807246828632065, some 217075942265007139793967126097365575308153355813878704957963766499378671470892974693523906272833276056473093449163),
   (257845730611808167660926596081490460927788470859034568099832342023639386056254979419168665753105221470109080373488, some 165206475291436655543391841426696278238158276439089233470142969830744483788706921654546229850126608198475677002627),
   (251117631445178120974881658134238919219690608121290349107465122910133366087110975137462389129904575308112755845362, some 32982335201565666706324249936616660288889873647765677212998764079049204259476252671793860649716518053177123457496),
   (189167836572577336773996802861687663647637990476504047069798640184406748634700886967824383551660166943480709171454, none),
   (90335530017301418029280211264992883074811292746736526740712816599469569639742613751708883978960081271172062949984, none),
   (40396307295478044064149108638025825877523033778682087524500258400840937305543009596004337933140660758447413261602, none),
   (14593611769175433703844152884932425232511694707196424140530830621222954851075857400089731465338236487553612621091, none),
   (62883259132387774237019315645649443937386379564728069863827212427253373969271148713269681065838867675369168240143, some 51754079729616658458285886857407822366888169560141191756930833797668565938114459029458734345837156084637908910429),
   (191183324736400685470930064949803169715658439009586659886598986152807122265636757597214130542905603547192044143327, none),
   (29110213179599566816730684604532788031276444064184960287402417581250339955376166669175333815696846134199772359005, some 18217808476013140466209528589963329657410733235041609556867738869911860545877916942371704096369634800667840260038),
   (109453675045052693371322258843797849753922402216996174805492166869775514058611495114001958978607821785709129399447, some 173305709083467348955878964778713771974686161056455322076048819671206984585372974277642272575612210551009040239966),
   (138667532495212761284960694903751975127875866089140599041732391713610080402120646480237861707408927950484808617013, none),
   (189670323221215374361119816697260053360385139713747679859171560446756469911127388498043986841884445991468781565219, some 234185533224801706816355644027535408556465917039302310212894092968047251534293343049024861595459456958375594851650),
   (123020815358726612796863461307733556484895931177458839918972222245556659218057023173063455845429336492891625905227, none),
   (119177944001589824850814204232303319387999561897339527416356750482136818627265426361648582113337652554027729271159, some 126051922910752915315452226306378220380143714850825078476262592439785589815781886487008231804882141941411134867411),
   (229264736863391966033006693343483726980927836783895302765995506252389257696978663536590678238521998268506703213781, some 21416194960545940127101838886074208511497977475232349478854332292402733692564678332728501510384639393962958792774),
   (25617092163281493940757184343916574964313799132959127196494783079763619330815299108598878041268085321146520204837, some 54179696354255069373479919577008000777106019619049660802742683092663571545139734869200150749758208612344943346619),
   (229535062040084876871285296303714641445529366138605026779082966291114718502778235870593784997947075323291232615042, none),
   (140757329534112715567179281653237121419309200307281394719824258038580063028910460511897922762175875816985617467941, some 12189734364225930888873837848014771787010565299387461138396012796158425017013995223119144530327730852078016979736),
   (124541839886407870908814739420520471147881990648232578331844607007017924293711474798450513860327452890330151126006, none),
   (160462414557580223016954075090981405781437295651922291741260186524916343940181084482294926216350784904633966272328, some 247479174146949967970355378807116808654814440465491056509302655194410858629136585698313792099752569069864471943248),
   (192466344733465810243837258692252720545795012212446719987077459284498728066870007904518778123481164407472994680895, none),
   (180707895290077000152013502762233096365547638481929495431637645008631136451335158450867754204025615024544116319593, none),
   (251920509432469755478452383217670282119425100089633435727327376597372791677003760093941426944227693750799093237243, none),
   (10267379974518587759788399189309519498041148254786177941327788307888758211984051176270590697337336143326521595463, some 35565117203079014504523368617313259605041773884534483303619099405668617565827248628351851452618284808308806696826),
   (99277733403016877160644581208080953986620931907097755855305597267303648292411685213820152453112328296644471512082, none),
   (40147729267217741139190500724013297034284607119266731261436950008310321779590667103892357580144437864952389140970, none),
   (39580509582932065326450000973437057688387546191399128805035652535666493669439769036239118090245496435310506038341, none),
   (209105644537342690819887837007878745582977607143618940216346830982053157718264247916986607431613289582726543293424, none),
   (181488865996483293991237234899632607419072545543946707359527526440467901770642180408197731695825280607089220627350, some 121359951483769800826517873955655055475533616534100877562369049957842668077242917821130435664143764431901903934165),
   (196511906577908102996981902186447245262105742958320660100048642574571518388645510404823518939387575949374817690954, some 113762770702075963051067358448582536584925051712168904297661432265139611000662150251099921244879489356133898992154),
   (15505207222423549997387130214570318512984547609028467312402963490467819452020912143557784902972000239936791197001, none),
   (169272288410771457656380787366566871567441108832273858931472383785215021818641571293778274655651451289157357809111, none),
   (1734705647893080012469601290009420123510939208712779058671150879774541430939234770631495464413932239881699069656, none),
   (194175124227715829876581862610599744716469517400502385151722599993809690765550805721975934815890761379356312065512, none),
   (144661640355983733574708431086274834732838065578848337429434852726246021954155280282276328936356151687354456998199, none),
   (91779463895611837205753304053858055821110256095071301842471769333621382600793739838024378680711697069249738198603, none),
   (63148086350003608219064322993431473878150247650332194232888484621406488342330566020150750813133150474419988840452, none),
   (3134841525504663565438241965899284782083520266499718976295626605048795647476064440226645634873320682701182337826, none),
   (23400950637002120486589629294319526772609912359193548013299090907229325131785283785314725662153873479021567432512, none),
   (17725783457354780167458175242004441802397769706395840263885629575875407685209503802841673100096285224412212672975, none),
   (58371962263053821235623133303954895872830316532010018070161399395352043551887513518938056110871735600127124403190, none),
   (93354071788626844447367430538804226573524897919095643381986131850843126659961075786209540175832049175652441581790, none),
   (148811778083520255100306831573386201980173164161454687022574228884179545612706455115421713894718897521681888595079, none),
   (86244844986151308476144834411829901200781936490892476454401190980364806697612240805102556103154471528605778666470, none),
   (179796136080392818044726589721042036712270495994261638495630438029200688008559590954796831320139603631714503000038, none),
   (185943864617661357613713922771982756907262545341195830293160281498403487838173511035199975747009362025318517647689, none),
   (72281712789675968805979734530662434265991226388345657367763328096516121862422300195353188165323737161420303866427, none),
   (5394079366649125455846660947132912710517308510845857231289383871240661429025411176799676090503811662019038777380, none),
   (184624221320038503754880447809449683412482967843602527443847919035334066050474450513101568057708393505570894566786, none),
   (103830584038089269494749856986968847566123255818439725143564760179262114022009736518867001031850318175010026867540, none),
   (205449481112513823932214378103289312495388268881871217970949500699375098306971013857044011185185736234752137253801, none),
   (103366076595096975546329961397993349711180431277552150609512385650078724390698769786150396160136012557909548713459, none),
   (95707918437494110633884168059150243521775549198290849357588981412528179249033929323599720491772628068917350926784, none),
   (71520374963272231848404204860639072351324538375672774388824964059801030603627222861893834440072399705651158018572, none),
   (181888486535179201072898349511471258423363663226886418917539873125378002763296980460800724003305257280274219885481, none),
   (207480822420057131533954888114941901402901285387086411189418647919980705958618173396163986874118504770523327669600, none),
   (9383070459020907038880152852041860051320432999278172517780801750580856736176152417190453381529304331842863466441, none),
   (79174680712001200474103535859687234132298990996194570811135105416238082021281794369016768953621644902764734152400, none),
   (79542560885676887858626204167769764030146659055808679634555093085976241256286003480754886134001929583382652777358, none),
   (131476780605821168552972349659606494943088801357055153716912301142273243187276775024944007321041287488925075654881, none),
   (221412061509367830599913139097262002856959816671728694343954192252533465172263656185386457099891255087652693517910, none),
   (67122332747562475084249177862121104494225447167477909806189306895888052361843405992518296832232650408144417417260, none),
   (63081484831991113346644329639067957304478960412837167818491581875360311055766083817288453857702198974184216070800, none),
   (239563873439620850145462149788624241935167468486749402787690156325221446060845471629953498825204922261892782712186, none),
   (142030405179226957188090060311883454957274225924053975051374644713037941881968213365168415122547306046818518118627, none),
   (238394454210394752367385191814737373677653998054388583926560562456929137198093415365070691056844347891446832587267, none),
   (193614063052766887125174984800091016563725471862012145073958198260618481050519025912676527042457412882896805598745, none),
   (191585998328428948628413794552363093190978954548041042935099178554833749232526417966751636299928759148693915273854, none),
   (34732582034165235199469740718624179192210414972108643645995895614682532477243011910330815117206777338794161481897, none),
   (253708265784704919198305340384691317886120911489149568074665470847854715477637284178478748733334637772004754691538, none),
   (41597517778168185190414984555303535338156852072827250322014255428441335632163121081469960794315211992408369848246, none),
   (26535732458052747429334904816892914981342176893354122467261809510766518593015254310959932836318183940970039783115, none),
   (193639523881605776087110929173290318868122010702134715484415617654750567349146541999438617245882438152377646167122, none),
   (30294214937990057838595187451924634652792355738530781715585435123102677511392179682572834986809964527955557919340, none),
   (73047838180076653530207173302275514253224959693012655717278549767435242719666015393993905783879892065472250939703, none),
   (125298014736892942558284264058551232200824935210229468421502491827055737892585224342625639641561022122405949682916, none),
   (98897315484158499080984903684141086247129826958603076688921598137964693508833513642996182701624047686162068877104, none),
   (187411445259046804473987162934040396531551239392300607595533357658061055078888215171122133925456292168061641823355, none),
   (215106348775135317768623088815697267360774699864918597154596195694598909364819597420605754688690493124390692424861, none),
   (4574141236519208065621370069067619294580481510292204610493577422595277736092917982396957791795457384092834260484, none),
   (163933482181585154408172998739764178203613315592981714518974513954828854099996659351008144511518951875379719430527, none),
   (251514160768064856316666908628814736139139721644342105948169431702214623624890362105414910892487491648799284150535, none),
   (104808604956346991341496491345737404601040084941455612456247579991884515537114223835549893630110961104430376788661, none),
   (219327290522352481570692805067776243726211528778126182319646794469114766937353318805225434507645508605781955084519, none),
   (226999603567844310117182219683487724262510725154616004137451246133656143242343508789190640184626706404380426946759, none),
   (8510973480752526442499990658072274772264313319391139308336714845106435230718258231799720351543498330451376045174, none),
   (115769023511203552930700197596969433838110733289710056297562997607101402382200834816853654855194919903606637624062, none),
   (95719981286329079632967902743752226158016534293656532238746518942858268932439281611293746327336398325544821661640, none),
   (193541156463575052341457578859210235221549557616644982916191787262810866998023292669835107007580768315169782812185, none),
   (91909336273814106876586282228436679479829173604504132991076477189802458017713266945682305928927753308721629117861, none),
   (14552654543027730092636874466092363772579362165871576011797434144074862018082401456524406172297387606705498521081, none),
   (13604995239925421956715805064323192811510251586933341230170029427603651397636738825100159412438649244456167595188, none),
   (221885568701798912820422890713016222820740551213833227684421843965585745828805930640459807259555698127713787133271, none),
   (56589214776723169049268604714350487526720265085759908372734502809663748611170846388262926048149846929822641600935, none),
   (194447738086378880921009852419863133792095937504115980227077458879883822734096987259968628263030268633613870656106, none),
   (60813525541860208870227172299888580099899309857063439964893661652407356353806460043604201019452511873394750556851, none),
   (30576901781071523704229777095623989837178630465109478511923855821305224714146829078152023244332424710033579787704, none),
   (159033620450618775867749828656862072125610723460275540635666339798366259591581109237465262543249567436873697759788, none),
   (73744934463500421698804769700871839567490653129220790940902288556598209266050075342339625496125259705031511709300, none),
   (55484383064121677682422734060156294943529840637488766498332717349942460565501874552453987225784979520348838223009, none),
   (254180134578733087371566809540101442317822991812215465534587011465618509177953153276828819017118984644401904572408, none),
   (41933287924672472620825485966743312537665701496156529687800096704410316607443500462879894132372156621264728324729, none),
   (116963428068172486189451399421441834622500925430411165177136056523682519901028340421620106709380295029266178167500, none),
   (92800934423492902311675203262920394237844564953211079570569657074401824997486671490146362205664690316916935855098, none),
   (107871929781677488325255701993328208774164670019284488666435406774441402505448309909010173694964257512484667868303, none),
   (174627744091080742221361888428788624935129223210033792075946441032567345049887583919377153094572679401034416842664, none),
   (228615457998498391185839463430283351599862144787748222467369799787376598492530883918203836844183882346589285157518, none),
   (38608577989610350991681185216569256276385642036628486724629624041127069164195844352091718851130695141420059540450, none),
   (204890921581513921815736377854976920565892877319894891316452617559097968759226829701182762991932493448346653011252, none),
   (116621017756588920518992099026558662973492346908554280695935766778633877603865142658119146909385729554951518288912, none),
   (3711018938304642565369946325322626194020533405781913999779849072776235514187209606434290760389358580010654313306, none),
   (210841456702227694662207014154753075168340516392085945637372945524485671298220663945867116644972155372121731556458, none),
   (184460697164528890705555767298968709970367186167833186494690436393208775217952199157126620525932448100421620225220, none),
   (103560061890561922641756523013001280806367505099783342628392365237487674450355563964860090353924639428719791274402, none),
   (102639924016734537769087335852370143983913030151407338605276400518408516450901384393548752254227405593341946825150, none),
   (78918598432451646612484841755953719501286261015831398280875408738573185476802176936280237187562271406399050504742, none),
   (10428331467116934576751088783045089262188767747045228827321453440889546771835398712274274075335499079258654871026, none),
   (99200925985710082959514998902218757665512182903980866034222303461690541645330340909394050009552918341961492740096, none),
   (249070788234062316090177888616407680907271672485491905639996621203253474522599283328311752966436927099894066761994, none),
   (164918447869823710251229655411570023305549093981021442058927558225901553832187380020700975541293309106817732016518, none),
   (117940263417289745421113373382132359238551529557829055526987852967109759548826758632149747083478330998836791825096, none),
   (153034599932855854813964682965188486150645285477843035475320722473236440456581192406013196783017977373139515788221, none)]

/-- The coordinates of the cofactor times `(1, √2)`. -/
def cofactorPoint : Fq × Fq :=
  (81937999373150964239938255573465948239988671502647976594219695644855304257327692006745978603320413799295628339695,
   241266749859715473739788878240585681733927191168601896383759122102112907357779751001206799952863815012735208165030)

theorem cofactorCert_ok :
    mulCert (1, sqrtTwo) cofactorCert (1, sqrtTwo) 1 = some (cofactorPoint, G1_COFACTOR) := by
  decide +kernel

theorem cofactor_onePoint :
    ∃ h, G1_COFACTOR • onePoint = .some cofactorPoint.1 cofactorPoint.2 h := by
  have hb : IsPoint (1, sqrtTwo) onePoint := ⟨g1_nonsingular 1 sqrtTwo one_sqrtTwo_on, rfl⟩
  exact mulCert_spec (W := g1Curve) ⟨rfl, rfl, rfl, rfl⟩ hb cofactorCert (1, sqrtTwo) cofactorPoint
    1 G1_COFACTOR (by rw [one_nsmul]; exact hb) cofactorCert_ok

theorem cofactorPoint_y : cofactorPoint.2 ≠ -cofactorPoint.2 := by decide +kernel

/-- The cofactor multiple is not zero, and is not its own negative. -/
theorem cofactor_onePoint_ne :
    G1_COFACTOR • onePoint ≠ 0 ∧ G1_COFACTOR • onePoint ≠ -(G1_COFACTOR • onePoint) := by
  obtain ⟨h, e⟩ := cofactor_onePoint
  rw [e]
  refine ⟨fun h => (by cases h), ?_⟩
  rw [WeierstrassCurve.Affine.Point.neg_some]
  intro h'
  injection h' with _ hy
  have hn : g1Curve.negY cofactorPoint.1 cofactorPoint.2 = -cofactorPoint.2 := by
    simp only [WeierstrassCurve.Affine.negY, g1Curve]
    ring
  exact cofactorPoint_y (hy.trans hn)

end Verif
