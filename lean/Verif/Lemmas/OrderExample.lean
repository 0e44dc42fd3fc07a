import Verif.Lemmas.G1Example
import Verif.Model.G2

/-! Orders of concrete points, for examples: the generator of G2, a point of the prime-order subgroup
of G1 and a point of G1's curve outside it. -/

set_option exponentiation.threshold 800

namespace Verif

open WeierstrassCurve

/-- Slopes of the double-and-add chain for `r - 1` on the generator of G2. -/
def g2OrderCert : List (Fq2 × Option Fq2) :=
  [(⟨117675943972582769762454621485826225777927092553943499391659692761590546628151997643860244519223531680843377827173, 220378914987440985825206311583751250944431461621502291091232284747631967129593579222467892710114172375205090752082⟩, none),
   (⟨58229467206911744208489981098783883889567900593462714558485510373407048492106979664355208166883175469464957040356, 199881586147954352201966808575646018802352309294961710305466660597863894280886872768518684357190682830210605635508⟩, none),
   (⟨182623213328636297514108230412334377805650125829916592601254860802992381484386441082289784095966651289937709336708, 158628816350266789547622322188891334592148707485080323303760880551809731130710577308297618035791821340733742352311⟩, some ⟨102398884164080630741309213433524298411424086248980719299211342910167833935764440629367656728414478720024742478436, 40925699071603158591675266754668791758658202586146722538975554870897421458152943285676950838655619219089411330701⟩),
   (⟨118832176234320788310237401815646652540647025699300598792561624700219578596143568007044522992806039588302039091797, 52543366033455897667139223295819458926181353154385531000117857628639502718908225658159753193994939662390750972336⟩, none),
   (⟨55320826612626353270346526969264675120343971812002636652358405413791972508647125052167138364809987933002849966185, 165772232173536885155727347087146340567331485047406200936245147564530734394673946757387263138025781956971059209933⟩, some ⟨60419131165543900977589777002055843318805531485611708045375350563889225511178551674851597918573798926086182384151, 93858731692443988854702895563481729782939763761808257228319733015128195199841525708704167752812630247615463881461⟩),
   (⟨172273141939252455855221474552961906461574773875346318099266687112922353280465309972769792207963919077963362177532, 115225705803379268184536858736400826371656861283033483535604603290945498096725235823588003802374791242089654268976⟩, none),
   (⟨17344968072113439962114814930806448417467438184261854241897207906167617634109485220507005738067993827445521437559, 256105955881541610832616957661442820819025769658078643505451726213892375821147659013307302745369465696900451763006⟩, some ⟨142494623142714273137569222313477385128766928852237837943859279493666263251609643981633885523773493966310386586764, 86775020245342502726758626299302527838284477714467264720850581599283411088371307898249555330064261956790113734568⟩),
   (⟨254799176094678916645136993388002947621641983627221972537081072224343346049302965333304072455779433812477946638723, 150332927568284975762756298548095705363938671428586449568323218368912536958321503730696957990978395755261705735457⟩, none),
   (⟨66957608636343557150569759470266155033829019612479792188862420555846527023934602809388357753420897311141604344935, 72246539463305372055838742342790659782614197661976217078928547896121141361071812301544068128203047352185594786722⟩, some ⟨24980117486697120482368029214141654823130796168109099185773697466024253396083036991758123631458158587650041652896, 251611220850107742383616366889643309777087130655942451494552841341306823825726107458528214896409329195452380901627⟩),
   (⟨228872258271556223648912559838946174930582581554768300531741907159431653794659406671019532925420752732675229795921, 115678596304588041791616513638871057121252553326120481767450279491029031058518226578653347818522717397195366092887⟩, none),
   (⟨82272387586600773555617676468909637622815388297763952180141352727243250515178690867135937537384541088438812842280, 244288393350847333810865283152866819085734842064122851392726537590422083804512362051663390908331515306573565368389⟩, some ⟨53355172442419140205242859231075273769877678417322204355798631429358342147081498930373483493095019530013680537959, 99949711812105883588219186452803420792683983672129382880748903880664128428436746805722984844260200781969146676685⟩),
   (⟨77437809166099645999722226551751764957174352189634458976757485369865327240460327072315339458771732147260685230601, 603310952979204272374925387686883170134089452885204135767101817103725301922842392742914064337087624422731921363⟩, some ⟨31454580879633506531267082811870504650175846747691847378440511133758531383237058684209150211648565515031479784483, 143084349020193716194944488022968324560553523464165284054378925475917538775063556259614617056024825403771390818716⟩),
   (⟨11941203179315428163942764194004959658957010320179054957775593863646964410174183051840122178607976591271953587116, 242577287644881206962750707483588093371943087334234966497037850012635919812088039577702779854433021149613297774539⟩, none),
   (⟨182449202239182153608980212237618821090709974169178760797796193330690876837010218270212544776030333074689072373123, 81415781750894651304879614247385776719145544932974478248225524226610041228494175299568267651052962410873407560178⟩, some ⟨84365915264288811644800381344952650051876341637667838308898500233460033361183911324195551039577355489856341244982, 247970902119506512043406520219987271695473863884639580398623909403672712747068457776650880122269320300716930529737⟩),
   (⟨242265804562660833018886258598646892434306507238138452938306096383879641830382740689107336214361493060077289000443, 83641163334601326612861016887855340548136398338983077697060766220778358629277590160285552859874299319875831462756⟩, some ⟨188159388687276558713538925360935659993689742100348165950803218637156829961091426510372816692631525636580147128835, 105034284415479389435012473034491375167624462858978303194638226699668583892447737235072925685532003723429245815621⟩),
   (⟨37874005726703203228875198506157168329989507711636592483210469572829296641340747290433026298628298214486444915687, 229592500010843345771729803953387681972189961218602076500329381375250818602139754481541453948430043642724334132718⟩, none),
   (⟨197345712645435988213641038144597252500317155308729195787687081479439143181783224415108681686068167205173013037367, 95352473796950013068782198862834770211267530902524556241267669332129498199766067520454559002639423965875856959035⟩, none),
   (⟨223862227681033057623572341709748480669132217805912900947185435955475999162122525542186855785545239103981618005682, 46563120328594846320833176788150506378150359391378854793101449778442329247650459359872961489111663749998409524149⟩, some ⟨127962291048228566826357879934274498057977110792220061611716698909155351084882819042578560408807077283424910309139, 66101913192362981539872147958021796578321662613909656915355317599534341312505718372148166153329876873190933311224⟩),
   (⟨59743246408188940767734949280781174065737765260998892190237825818262870548185650275742889182677958506535175187465, 165796559543095329840721275371476790966599589981364073109312259758777704111537933968099183315237898059477625788733⟩, none),
   (⟨219752146973442480617761608160992457337941319385082422802677996917574773355992891046735600129522690297470448835308, 251292410511307699072739406258058016268137204471489542936837696586480767257243352707375136627340806202276360097261⟩, some ⟨54500700749195873789572803169415890285999138681953637409957576962641317423716771967258375689546701761416247771915, 127691643510834964212573925757935169931400380188175118481693908954885093327940293000863661622042755508323703304982⟩),
   (⟨5177134150916516180178397355175010382644149753445444586663337323495258230701649043948181378366571376609997398385, 18689685045294164311278469428432037913739704698050199086717184889344017973860039369323041835756935489966509064178⟩, none),
   (⟨172232035000255844554093013050623002703576158743161082954836098896135653976129528003058050824557393314525674526401, 184508092244486682543699945270124975824391715691089197942385120547739320118137994653871001936859980873588588589100⟩, some ⟨229910168148376239777730891047071331414431278066053506461655748534546096673259000528597843113068803233119218515993, 59656650294887585446439902537166722017418565636016710865359210306510021233715757068632525842053313991409677799269⟩),
   (⟨162790093878783554064067103603213843298206631265683876487043285942209275159972313348123421390088304549053893552930, 164621070753855842212598082720340306597710591969235781634565320199613138434728750434578276659433173948597306208241⟩, none),
   (⟨195604834294804476299912099980934835494182898738937428681248177043302672072700352453802664529909260541977360608424, 17256766638425910939575456155072188576685381809208933163636605777167658568431897643705771032871491600038720209873⟩, some ⟨122470947303467769056364929843491427650899886462965336250693361007031798228082384909285701873408593524723546955917, 196279129983047294490623805198691083803728878757876484665757883993036777665654537537929369308747383564689671822170⟩),
   (⟨238800994575162223038916275717409455549377221545957246033116840954456898063324198734059051760943216055707588077299, 192772960975515682600386422835692142668091278065797564325484143170604301911845890212212790457607272992207437289043⟩, some ⟨254873207420534703377425227860259583262314165877615902926252990417744219108242610917425765061128702353799271482135, 75164959375283120523812210098744483251137512941983351177092201906115341000353458357982235988260303405727745282636⟩),
   (⟨141603990602027678910421310680707521709055864751217726209680926144666240409106335646822766440906101905469241032139, 147125648184593140199670578975966453232670860757595531405549993220368283421150746768199450192115966602894288913553⟩, some ⟨54048220160659644697020692404030283595571879609040709917747900242062833696715265287378514672473324352402247828551, 210917519756326748124621913874121984983124458393934540663741938195218090642904436749842130796451178018361767034637⟩),
   (⟨32978787755635660269901084240279305004064615933140287600531310559989579928049104902084679043598232691489760746833, 131040330352157292048878283117776827829965745664518126037593181507103012498535038378337872270480985872707753263079⟩, some ⟨147927004687615350084523832509971545689209125082382682548991700932761023854186100728305266784106309482016168926345, 144864343590893036783856593298084030601137816220913476563313307516300802615708728526847699670184252881387736175830⟩),
   (⟨128549245644553560590765049378818756471203304248934634517567896959847442467062647254014544263456494024986089595237, 193062033047710867954679441350424926151954540164796258532821337315570462071982646475593495213502878808743784844729⟩, none),
   (⟨247977997244838270843962070344460048017553277445612638678208240746518854789624419624768726336588920251355254832831, 19676258681215669392647236791781150067969863471823613507962623049299462103518937104500978163754004340069707091317⟩, some ⟨173072434991122882649052933135610482391726608309223332184320491887806740694555975945043336524031221277944723594863, 127966113177120740022543279794452651771111406020388952446363605660036496709797060577472402911876364768601551844083⟩),
   (⟨59549430249342805943794512661617817566815223992424369551211594389346012484301638680010219000197952195312415123562, 166605585050953322356458494815019981125887280232081484741170899229881445871218962628770015000185865618138711743459⟩, none),
   (⟨8483249149750460846518224086042182033915476266585537484123304885822865449575750115535164968787939454802720825596, 131491871002489677802370147287634112042372617170480660693738717815179172476293380860582717719282426842303666854218⟩, none),
   (⟨211735549637269405776971296400546930873826393552293137214696781498373989276001317187187484963450325355645490612089, 231116537497503190017151201935262817931450976731270742218303874209313798807425648888114350319593550395918613758620⟩, some ⟨110709280581721061459406457856666995058557992862536437989978932938354623959133636933669305814844842811909392324445, 143446534125672819921192963725309513847495929696273363630813702197313032029299628069029869916727586236939342911107⟩),
   (⟨106292503323565275473169469061058597993516257597432102332670733876020940672634387640559875979452528602377636434326, 79819465263960584437808356469597977969264732290279410602367723390360629042312293478023277273366004875582062177879⟩, some ⟨66483007379431186220193007849350472101798596193562019591764808127820728519451662552197923258442601621624844296894, 88226226034884168232460630667926561674971205798829329487093695479776692863111584599954870513001929281746589644610⟩),
   (⟨227593713932941908245115044775745397723011524015165588428678715696431271625853524298553732754409864978659627764016, 137540972108940494363284536224983236005937194812127278900165193675563540463419239515231828900178827552442903035520⟩, none),
   (⟨127527714304119589077179680403428298132629645259524208821777728418478681731025162056143375898277298911605269263913, 39329092123122070557640470134077280506383699235643148679043723179026967208584197636755283967181834204137981750267⟩, some ⟨169420779636445605957321741969543997997589270860297087406233679479419263854989317660690149628053827303228822014765, 181895817995657222778050970705869555406658459753594700954316962194348159108308466849044733444402326897608164808076⟩),
   (⟨29996868919993358006448604643913439690752873765998380752423741024189563666629544562252381886062709113581672473373, 256578877663839615962219591150740065476638640726937086777745439619394733571071885664414576160699937410737975855817⟩, none),
   (⟨142504649812777099762104642128086533481450260388025880048759318633918733916588164216204275241000404455353371008099, 235259084021830491186644797113190439505685648757515252318125869756249632582336718336407619837258605793146050926454⟩, none),
   (⟨116786456257569388791615554689532530137922082579339807182830620212629200827104017233968677285536517055946411257950, 161888723322214663366348099088774934555011190744222735959246088553205434462122943163257944850156458457206712622663⟩, none),
   (⟨28476201387172239671727882577958974931014323464948987116105938204766113292377673500154155090920480316992096247647, 148944917854364840060117906973832123001309481615479041418627276907270979948407389212832016832137422624915236206116⟩, some ⟨113566059524328067166170948452510401655072718301601489593745963782885429686151188042685781132766110231049484792772, 217763775369152279938609803619993613717959174388291055172559886138476763313854348868801719882836212144907306303508⟩),
   (⟨140925881749722695296848238715578026964940187804456767801215454309800926423852667193204673989762423506134271553825, 250197161000613540442143762984464044384008570976091224499068801515926453730955825886612048306237507883073158373182⟩, none),
   (⟨99163904127964750611727153475966902668919522115778668216505931719249136709712347808678740871113494621434105261105, 48265400207622991408732483854979359798246542483314537668605336536776111793050585995276422214256521701019093094717⟩, some ⟨50866769331996670420867941067564100621830194051190781259660028505710331218407721230303236693046213860719735892772, 224150908657873983472314211441051630967034964863667695427493855096082172376091859595935346195962355291572208922294⟩),
   (⟨61857721775524870753772221256316522397100916916133314243139886622084174305195764975221536111515689206554284756575, 103146576177705242905450650912454092345327625128640530752684253522609516853705145137698990522975252102419884411179⟩, some ⟨113090418135676146569166812299224949739575077697046545882290701499270256526544619100823089775674503222764257030418, 80071394685690281933419867925792135635627854023817132485777476138268413015022967919617182153704454208927803035771⟩),
   (⟨170305559898924482300494059005066212630393802014134398822690014366733384343432464936500435580659383300544914916999, 24745942402014904652270752939822965042901167666628541054369196696757132274147000819379960572775612560690820763774⟩, none),
   (⟨163388788578085192200648043760283068864497621633835605687478380726130075317563140471994742793771570455527737034717, 102733226584790544369793217598554745183823389216509644724705614994776657459958169369996298022425712650470866254248⟩, none),
   (⟨94298283700877663671836269777108768175361900926525881300591288568684874246583170326719513690473183516630273648927, 207385436137655993860257582227783041636245348856639164638157864999118079319124364197502007031278191388143483907345⟩, some ⟨7178928106198813290871589774885792141146056934379159645496600838325261848679641335723128529907685201886009611438, 28504665099067616158216224615000194148232080694335993485388145861765354076526656490921143980376858002748805596084⟩),
   (⟨67216346527362048960772295004199980762429602770171384016682358066637520106463729773215964022646292122037849946420, 132604664269875655715322230700082341131885489226357719106153487122138280065870376201927251357017270981638845552590⟩, none),
   (⟨56581988445084731538608660481933442925693151908368315339075577693543916457422165567499799481665843575011143367102, 106714654342527630223171100538057709380446514632091337442930804409552012197122582440491391927987427475127067295927⟩, some ⟨55376434122149962429598118166022468777110930415701490388743336914176666541836180683485405250807560510654986780972, 224046991740295146350531317342787138892706482719830576087005428863962440946846202387565477064799392987845261531862⟩),
   (⟨186050936173234043883431568956192395797949571558127069153673710895615784395662720157926810205256185452181512018198, 90029914791066647056677749986434275674723856329745156220260825629613099737737349316316469977288063613650856541634⟩, none),
   (⟨121034546531699803815167554054679937165859410437616543765170934842139769283765659980074046699369748913724225664177, 168701651328130174761668307867226048212506854104191471256295066985075962469318237425145018439549631799327791141744⟩, none),
   (⟨10845368794719702035703169616300345318875894826524849672547067563170402268958435047273224322928413360187469170283, 99644755131407097194136216657829154725537662232483600441900166595040892688877718028846302325751746681947903138140⟩, some ⟨31968624557109537598553193766861286817319084030840727621676788892150623090015974172497970133711379313194326662417, 114263888496351451056743461139677409710554110489863038677005623750534886290772113373032889366706999853644751448838⟩),
   (⟨248061051224354294212359660301188182147297110699809698516740976188336776924115109044942217549108330990742396425114, 19341995651623977253543512841328582914735757615201141903038864607746839972403887007492428588220899089289303372138⟩, none),
   (⟨188806594593467218439497209357633399993827664913573998551133705470481446350144109974957994701794135513743299887621, 171450471476768628838242362857154036123485053687038410265464220035079923111630415331759694528528210017344109435832⟩, some ⟨25429135709545792408210091331386344145001152125706284326285403069521385077119606633260561812105293651261770874506, 107110730575127813190866621428551571161867240304879404428571814335471568274481496518497453855260958291085113101685⟩),
   (⟨93125112242230118302846592782519966417015927530475873889102357072234786013224741130478711179675692449942261251173, 78549753395921918140545838009425508148162592248023717783579289822663053905665843923057321809913725762686884009429⟩, none),
   (⟨195572433306514500139565660856295736179854736490092792471141093107130151026896848833702515433351624056917198722030, 115806258933453632241029280703348689259353967755985220279184195108355717677454198136460036934572752567242809106438⟩, some ⟨138039545006995678378143687985909100268168970796803564546780341169535071127629981931358760294955781812648352642700, 214526029285171425419721990986881697576713376268347668284825470115558194017573527336693706098536913136994754759527⟩),
   (⟨23233771870874259616594306327481253853456955847443441016794999514476466926309287110037950536197943329210997555689, 163392919657923529067123777195548871638294459222347611065554640954840893255055359713716268284904050866390176561686⟩, none),
   (⟨228128127358155716928608713135812649313693755834614705067336026347540860794968830088922143615613738444803989333907, 19661343785072931241825564687132224942495642148447518945698623177694472197292722625200530283832043829876622683956⟩, some ⟨29099866646139909339289463945970210633660454310928549003179932836560937885233469716368484374781340852414544241382, 64466047867943407208449789129921298820110749615369093902640793661393719647683983244151268203966472868828196461457⟩),
   (⟨98536778339813949292162529728902036821737520263091396664233938590358916690614607729866603733662465998471444167549, 198255397927110410831536906483390977121692354606149819820124591631460642547142808721980621268804817272624542359002⟩, none),
   (⟨188463572882673934576616771189324485069139202199324039853420064608150832554570624593511327638660376846400439727509, 238521018038706100304067585917155216215256481870614118337978308428233582845700800066539085625642357182063602730360⟩, some ⟨188481095543240759669359151652605431862640174748910035378116435494478378391729088201950394195886370943224631877015, 256085466958012639037244568852519213561367199894178224029823998369559586856387254707011793031980632624296956532243⟩),
   (⟨233921092677567684760058694936499159259359977787123866492632622090327436278129839664834867135548271122065036637726, 86474356529385558830510730164232284777032544431307574551507749409695817813107154522096080842811447091381769755769⟩, some ⟨211084426744322397241877349319231684506409808528536783786716202761629919199083528075353410131154973754100594510378, 51007766729609737334713445771430728305213758978770082012648469651711511558751738433539204211481328171955593602299⟩),
   (⟨153288782367668398262061685415682206893399153830517103581719812756406756242192857148723694181417072145342420844321, 43195857272371825500212447239428214394568121560694425225151603045839462318839159238230336738463899014674867292176⟩, none),
   (⟨148905872605249322692468634023346517782662898923015229197702118577881524167455719146013841587417153996872872809819, 256086373341267269413734115476116595520034712268895764107957727559654239396509270633287423595675814818961592144791⟩, none),
   (⟨3454869077055748787109570925290559145243745824628228819804684500667655732717325537668673606413444400489015831802, 116164588353598516007744995779165190837434179545482871677135267998827715307243660066903118274544159181877973715160⟩, some ⟨32827402380359254650179925444105649239924799716402216446016773906855331487965375665997749596208236692516462884055, 33021572080569471407839906650489587466909686836323643389988500068280535398385385425165230269390561241147371711200⟩),
   (⟨26677905809044913411187316114982588216194423513127070272355676601271065484971005943150343202492902155741985601013, 166018162183605867444514235783824589736502541378728696280116820420527586138654516696840374704849878347160106909721⟩, some ⟨137135309870201430904787504232972137096522010425844911509187780261073991856685685561235683303231075829165224794545, 149797709403945049603862530157635750946451171755050014688267503907272598929927315635990594005330841788145669278018⟩),
   (⟨155972764153018224404358971997766874092568854477771996523321812572101038511010536581257106046160470409854918837386, 147903179110618965437001633398953740341191038979929102877461176822033375266753760156431117608229885325244390264753⟩, none),
   (⟨141074134796050591053988002854314978349253984510317955214974577474949240613789443266347718155509840308505791379425, 116249471478248129190774646217065725757369545045570584659968034447245375628227903563703868577224002307508629495433⟩, none),
   (⟨63588504569417975949240471032176294392931629050387911141610127700642769846666661142711113763688413667170666903457, 155426915920439504386754123271854342473661997885895362763579231191933564670820866197245891334548527987525032837126⟩, none),
   (⟨55255995107842076953850899202316012228118920362122615210234613523292474156206541295644465568912023649649230292048, 257214727046140582072071786815425086189103949752416730285320062739042867046160234547978618391705959309765657647333⟩, none),
   (⟨126855280988370468246871874266801615233769627341772448547833139639615363300637099968633380648614645644592853427004, 185143144283021020105029689398896169228147592390656380952270872142896529307463125150076244843296355517112312623331⟩, none),
   (⟨13901791404225237885074476300748312243691327694759998417030271096670506396163670599234145482306902392190567504050, 123816279061470558479611351402096499191215371450769497052537714607481362531139426955960074315413136131053403226949⟩, some ⟨246933303581150428683954729875604044969613457674667562807324999660045700939312646441713736911542858622596910555107, 210175190587680435734181103159956337364590855327344892922875163248169769064202987159411331123160089271005898618543⟩),
   (⟨47674697668884362818285369840184242644400109902740481888113961873650834529018711900303092048709669711522112846595, 247828364589854237177448605907298260231593774709870551311776326693706265649505682113341173565707258483567601718075⟩, none),
   (⟨107320395106901236328546906547380757690413816362069775060224694615783982428785975443740371629692030430242440689888, 58932455307055377885284162734667224419116836854363673750393710204471728188150961781297514779745092471242051272270⟩, some ⟨252669309613663707449801172225521250525819483997329301112085748584489190428655959649962523658658378853903385139443, 117886918055136809468827799090104395651534348360659289659178887407943454961319291779817401136585572862988939438629⟩),
   (⟨137818670450990043207240945055717769820239534723098838241863880719499834166593310121160899937580820503256783291562, 73376182093035806107257508078938186560048607919614298858913270139980011027115924363585617498010874987737886949393⟩, some ⟨5417517959960123830801147639443482590547178137066259271300553883949756100242413282962821292450635927802008766146, 218365060419470062370463505353280175739521720480659922849535764694096401858459710582294378500455793770835286661983⟩),
   (⟨195375755467936103162845671291763767641374824531391318191653824634075074313174980693367583977861277635700334227564, 51861905928164883389317884698315388816464212443101772826903747516326664480177216751444488930612095465351393074597⟩, none),
   (⟨2330411163794490467580168167760906350289214673589917698530994882330988238977378127603929499886412979984401646444, 166211966715164732058988123664327739816633884107652114469923476900458335337247443616069948384684030004687224003612⟩, some ⟨112038234176015651974571558266958487345676479845716052585709226673400371887161868911677521869887117589928003112081, 93646608529756691564074310538573725318406678736908743393322921669301344139530555881386108579490700766814283466978⟩),
   (⟨196770188945429618929719492133933925402815912014758850348055901958408102291777090399169822323998954887332150962947, 217221277746424693636627717432481400278291675808312576606654169595683498917070280869211782958320669134967974907724⟩, none),
   (⟨119716972675600525122273716086125370535822681749651792191098652423626708662973813083686450704371027690356985806289, 237845207239389782985934844405125602456573727612493870330238536293076544193291745450742836800611417256578824395922⟩, none),
   (⟨191783817141361163040157864306678979642495848836568508447637431299911815551317281102763240792847550425599782932213, 224401402228755595702460042402543108345297981246825007768409811559104116367467071891967051731281951532341447924491⟩, none),
   (⟨37806931623654880721438928172140389710219445314243193027560098003611363640404441925420487978566254787645449438565, 63102046339170978572034097510046205670043118150506878131590274788240505588478719520661596059711098559516927639707⟩, some ⟨78450769933659676715421510902995593928227498410005524088596031614861317701898103700097702995966469369192138380146, 183099421992304657873391641358407346284522248871572875705170308357302147409378002632298982658140677892774441308331⟩),
   (⟨28067757507727057921566022941927078059673636692888946046402122369807795161840362756246713390390145681121496748980, 93627531362159231667366450457987871403858084352841143258862795876001961296161277943918516777078907578969654034051⟩, none),
   (⟨195706954512855271336222442260460872488698820818559962076091160616855459667652360153262025166297587208801140683267, 25058668104769496113819484842803531812642246269376632797880735215987365324429536750486497027219468399923722849191⟩, none),
   (⟨157022855276073606087101474593548418797137811945945154925913404410728857828326075150450105791277657276443072526361, 51207607711254872631918975585172415929164623458748945715264222620468491729505003020187578437813214082550248449630⟩, some ⟨254417686184460010942816471425445586750327177251968316773847931970592686880702486528182397817295642546702949856443, 121679213167856965611227212362609660745104308966453384508653749608355325276132204583981427022261257532934276671902⟩),
   (⟨160601339013303124458800799720881334505575496202764311483357524017259189796590453541630072908091175376082024136236, 194842548464838002436993605939268491315413224831349755996990738045923138035191790977639314559024741278992665268151⟩, some ⟨256731875853577900936471456252651725999031461837132673461858066832342199846691699022633901624202116149271338561750, 53454514391454313282620934728098901429131250443686996995737285437360561930842512725974206050865178843149376445779⟩),
   (⟨49633047912190990694099194579213543758143378364277047954239694353590082965932808516954180415392303152128719127555, 167214204829113649286430777411488612081473359641731947678694277800254669213780833073557492704394643289845945581162⟩, none),
   (⟨12479897568373569850836458094253822884241437975484128095202609083554891958579642092749844596916209868990859602667, 187230414832186837972499873523953658431347531589222532644095866844284228668422994029419618253516724003057372027276⟩, some ⟨47508420270755899086088388366264561844546663355449152194249773860113944109974917776048995704314538604073693145630, 136736298177739067069020690246311186062999808653119779017674918476503549782445963279238093605068253015497396621513⟩),
   (⟨148056869714386832887865514622721189995240274571216655998175061705159564766330470800576754853826746165877786574086, 11847551246166053699843623706571774862754068045205184718554358834574519021610576971152389670500016572163419827633⟩, none),
   (⟨167454436717546313656551879807586632356349000177661126355254987448523749096365677229763725445094768216988944027574, 146343416445530131694244225987391473568334836096249918284856575959986325892330956860035700009846362350566330032416⟩, none),
   (⟨84386837581255010446216819456695389824282288861219318674073995799889579532611360784697464587104660923808483745246, 54212501759416263903324551518414100233780440458145262911521580246347695944612983342608432460454485715883618779202⟩, none),
   (⟨234263124029140585329236656089830882779456041290336309816331049159240125030178639573939287107193516018723556654147, 76747133134274024054751647283789191410761599741541849929128326490557641079089162004733200021938127707725678052929⟩, some ⟨29430417963888738102750570107966022863353003668180742843782419998888327684038017561070805102698344937947392521244, 23308711258167856039094376448928478197349956267364599668587819223096102326560579072353720925187805338631441463524⟩),
   (⟨81381126602713835252666620537115219157619183169736417613586462749001029515832571282731802008151496855774740907011, 157260112409184150384070177437327624633281683073917770575254292304834831814779050605132183727702996177482909964158⟩, some ⟨59111092877254984168958673157568487452688243849881532421987735332923174439475302094345935397102585739105612762617, 50362812930215586070741059964790634953153353472372970135138121859607327995920055535649091103569790053898924414037⟩),
   (⟨99508801725584794061089998114525326926875639445071930044906755627731926970085216457311498420226697756909144395341, 1337392122302425702959842181151803180845167386899515241157995358467905986505568551328981902053144377509661351976⟩, some ⟨167732577347515247604521854779381523842000259359430780170020484301087421328199742350222818499665495200200335568345, 37809447596449170341693634127121816093511375004280940325749117380586738372894323935485586980426611181257719612097⟩),
   (⟨26728739924114793926128009878352916008316076269422998173206152093361784798190562999906701159560202730404762313401, 47564333867821813657993786402166921343431554234330785563216142737871476564913341353352209625312072535477577748529⟩, some ⟨141222181380909956397712082516232601153730937134584022288392419066641790406429569228452023576881566740926797958971, 32220421517733106448542608662163246320410697429493767302009011273411860945226664825559330517579455318872624053657⟩),
   (⟨187384562389613866681608029939401606955514709512479587802598523113598829495820894953578959525289302530016431114203, 201953722879882839764260092667855094036894190701695605430595068150478715735752630728507989206595308519460267539109⟩, none),
   (⟨4909736792046079186942002380918824666266260543819687044936993970192722488891277308223581773018960682386033869176, 23533004323339400914256816482063509964173263001246243794756315904063474302602216635216107367253966119487302651917⟩, none),
   (⟨68937650821101160812598043643062530261233704769453436697574840440944943384788674258815604162364229652417681230368, 54363210424856410244821734723407025651963870403148027890679757275421558885340381768482521690553491564691953122257⟩, some ⟨126287361350813826120827389976038325576518446171986873654204104092732354627456605087930312535281739994214995530405, 103619646901792923075286120093721587080597655921604670667033518453873911826495698598498786715903827625972545414658⟩),
   (⟨155182959869320953756536374443396672639810746545518341866293092994806802024589193865471771925745056046540678661079, 132299069698492993570573108065760277091908649820434375283929737776493901738673864426847538131976560799719261756716⟩, none),
   (⟨115721443218853710064081522399548291440148032272010562044727857125049178253231052989423177719746690695886803157756, 64886243954837382636427211333666984055693897519883546214129450386301939803945438968296664158855154294787170718314⟩, some ⟨180155467503994652318764810847718539360548089324287402159027707687624082831337333342367508613537264782386211964238, 92749171078069014163840746121037757167891537224846151564933792758684037704146595824334117050257509118507042984518⟩),
   (⟨174486330924449980306507069611892354219193906353113360621500979826933686915007781603080497559125195862315732096991, 166369061954589316005994072950461897482197355086939615831102153829163478306970859939424902780447175202980418655090⟩, some ⟨35151478631441106631952376182956478353067765608431232573413938031172715178928680714584702680360265632175545564452, 55342555944332360201547415740241700717809322085817331487943899495618038032109818129106127383349303183402962129056⟩),
   (⟨217547243854908597301829216067892832131996777806980622535787573997100881093565927150427501504149487098341602354023, 154957260340390571880251895092086027896947237601596628384188934341432185735408137148895540711157626451888775869274⟩, some ⟨254314135513713103937170318402154682129061262711041393702483228977877181667467768572778745274543098543971806745037, 254411123824949027975745312790902319237504343950325562119336016233494739418871257022574125177398728840955911548752⟩),
   (⟨205109627911290463970751695219773846328583702996715831668063307438114072257582193332659722320714253260231758222729, 210726220012878288485933425176619418295325206227569855406087536587697852561398356405242818127721040945044504034677⟩, none),
   (⟨213948414432265986754700381051133124398079990658314406198686901980120400195521029970677911634023287032180718077555, 237636089823001529085691531268751119773874668801967746315850427416172437728070527143810030106176571126101823770050⟩, none),
   (⟨45950407557131494066288774447555877540147792044568363817829450885759982268514517782952532781937837325051670906919, 115223766931470046288405521004025578735507781400860756161954302123979847019969868487151161245128361480078760958626⟩, none),
   (⟨27440805199385013010888433977257905272438235840302972426585130371207254368137742876479655034601694239188971727781, 152161907788203493536739379958861586808543216953037993956780521373103398863025739306781020073285453748059143456534⟩, none),
   (⟨177105518201129470589806960744004616184634574192395414114529861285252282064776278832513835671243399158213122771956, 104801947071565997564063749289241712065403747733155776827616889909225976463966632707666283675529775958137299467939⟩, some ⟨221162219614024344542281630732216848289183290026660467562355623793958172650801823146527365110155865496592785385794, 139794172676856663641462649439730242366361025232782707015653020145036464185195923141710705536223963394085134860652⟩),
   (⟨167618419559849735010680004702854014013754234442192380938854658379234588807746279299778043239153914576026047540306, 213820332999737030494915327497419622890520327176524811872848280418107768742123084300523525031877859548956960313598⟩, some ⟨202229693661638984016395527226217342487919764812720002863855496928158093586571838700078263758771319892793713633672, 68070796033973900488002767059351760203097532831399655437403148822743040909206418310725612519802368117311927976869⟩),
   (⟨49580005059487916377055509801744199564517743211121348703318425023216287590349797757173978860222212914397772212020, 247050058456145457565817382754370701197380780557077275522492396753078801738781720088632256297680933902732031516183⟩, none),
   (⟨86990470843654252910216250483438619907825674809779360920907025073156107037602426965493954906304194378093960334823, 52427918490901898090426367398717024521780718014873026572246494781982686320079991468342652667765392940856074534862⟩, some ⟨237535786487432651430043683435185457986786109769537645503632200154944398590099873816526276781486997924935113371084, 182559610017271595628277420639049006764460365837148288149811282804163458653319990371136305014193550210816130518825⟩),
   (⟨144489625075012132285367456212371390403988499913854726324741242369525979855923073407627502069690400141049910255561, 53026298530715496243097873881202907692015348247425189330257650004531684231813194358118765788668983522462392523850⟩, some ⟨42516275983897438260162190799905237350199634621209486078940874184532918876664041861381260813363843536058630069549, 89037953759095367664485123135217690753187927122242243566455948087167325964802043142506790365506955378979298276082⟩),
   (⟨158870873482375995713882025435740795754236564898839269794463890575737526048774167546300285663230166227290106585068, 78770124865955859292981035708147273406910264025997143711960048418849960314145986014246806711548114347935883810400⟩, some ⟨45217105652980030759908811307605238622973338716196748451428809322372060038297281319786470870033232837153517535862, 136056623067276789577580112082928191710648276421281113326251663898758604188369635140190439887493385777282707691891⟩),
   (⟨70931447836372809111830048578097308268324626559097491481390888888816029016874095628388709359170550790948060030443, 230288250819907571436222599357147188419722432005284368093915108188651565655536225758114327356177719186876675197262⟩, some ⟨24099201524688746206160655444879332327421246374279197489531779040104148750186629009879966763528815514453627910923, 244384883704172795503273849510348325992241331061670051792291465817531246429149922928559824139974704104821520758310⟩),
   (⟨114028506386122215247954298494979184682045689730927372717811178081183671210844320201340382659073601770214210073313, 170516589549194505428403253878182381575931504772478750928521216207774770944327447434516232275903644896307792984696⟩, none),
   (⟨168735925690830017360937728293681437829589384326357563848823583118576890036152448003793729472184077203471301211123, 26459722940279605563859006923663115237105415656583469162167187528149714646930220913496801454804175724700256408475⟩, some ⟨34535037384236664254871280973426193589228387208423511383027601019996496800307094079276499557819521476921688022804, 197936267350378543968838348039811185761406850826009630763733838257101554171582535911758137908058761954238949707156⟩),
   (⟨220517597347617202198470355924756882526070604911692702982036721829652735732634135960685966474541752504238413868454, 251701696413577096536220677982498577560666605977884364052603059261847536883265454518762480854907868900907844066274⟩, some ⟨195614445749158828330143166663874152442888103571508133301259383581823857370518502287126018500082748232357053171009, 237382045891580790848366144494430689968513403056093121408452492479119277719903742336135035769123526895833777816987⟩),
   (⟨10670614042328979118937772651872701557186330712124760880557554857441072172740948434001464392042556004209513980125, 209769215310331118837731148740739362149724772938797758472307719900013835960699173486316101891464351475866349090⟩, none),
   (⟨248185964046374667339294196324429700005499507478805410394280922183601980459330165741975075276690040349368506702681, 127258881799496004797943670068540785803901578261914028047343897740831388633359324555546394377015701287173449520779⟩, none),
   (⟨86187888841799735259818571859880124941461105015020032633361080089620071357093474908023887487521550536382677408861, 211090820131394350842892250834154777155208791725227042349633874094734106883276767876162659065380006972066939399614⟩, none),
   (⟨191462997876986850683975719523142286544353422257977031356017988040404582170898362684681687685827211701033147377861, 208597429636780975702067128358208016060971426676473256187735231232854407137415727790825408414529800427648525838950⟩, none),
   (⟨57345581667949574775116533395052065134588767589581309126324662399062777749145107757524914878213515109124038971349, 177738717918786855128062319095624965068839258690194397892961246003999999850914533621907479643589478132811601966322⟩, none),
   (⟨8305766565431922246818794946843718582239932902840462508852806283052867958938459257150741250279637791458233303271, 205204281065416358477914926933716362867915193296283150995109390656966057543764494328566368809543326366372652741297⟩, none),
   (⟨124269440494056786132890446108657047149140581353077461126859430604244991659116781223689467513874469430990968535609, 36115109725801545701234843210411144635223137220718189282239021996379577915943001977042497895063578712403743176498⟩, none),
   (⟨83592071737890025566528790622642636852165259521926054069787524419266381793576636837801595997027085453057828928539, 143992594897697166269848646593252200800121117273545492319960225285164106238102430051714903977219443844568705808110⟩, none),
   (⟨33859892006119187200905387395190726700310401197490079752493828015237105775062176690651399201926169329962107254992, 139756446372321570879953870426950057941818041354030163204315926695039671122568482946177248310741721460680575759734⟩, none),
   (⟨191521754730773971113821996890984923149358639727190722846495828715831816277422698312213971223745512583591843242326, 134048135700182465997669140133906082738639310066337248739029706221754868881951185842297797327820437085194659549590⟩, none),
   (⟨168334413156580075243300572244093459559368983838721944902684036883762435395330022967576073201384410560753696069994, 106064174385404683017577342966813852560359840983118038556740963423596327714157336943117483007684054162054301328198⟩, none),
   (⟨116393540813485821274815928793879787245363556572304744399033390578185103184026946358397160511461091993292016783826, 70646274309109189663198187094893206428534568255078549087659753142777041868377317674125284565080256418207651060934⟩, some ⟨67028777060769883745578138958073987235683682899725270130419502727800106190802136291661193898198412047032113734868, 228735226479324715385962583146505028476606011452982116694304366097527143622864257026607078710626206598519242486385⟩),
   (⟨8524688765331067639761050481727766062510910621130937373747058183784311109904773275251942339401227050808440598982, 70168209376747562026085248824040852393840772814659340321175098810695335120347027038058306149471299866526887571502⟩, none),
   (⟨234174302459091327650258205721095642648311066957554092659012946688723426960455722633840004870932402640652563880157, 198616057174373062979490026590772706086639541159683153802914412320186007524257761592200547194301151285430111304103⟩, some ⟨17521098382689866072672748729710872532420945974375319393954370070896175266991525157530774838229186166316609262527, 36303941395045425587053843221277685823929597034184720494162156543178928193443467057914837203593680291056896702620⟩),
   (⟨234536568389075690918361643676488076345303184208491060687670019190135403328700187668441551650348833274976220591470, 88794078294597806710914579756938566600850430405418135655809349750486570056473628736155317587149021917460475385620⟩, none),
   (⟨8972437540452065097843517042866508333435101137658796552144895685775090391037749074142706352877191281217730106439, 247341580342900656527459977343354829913067993822816823570840113729754465440175279649333063114110409266849647682666⟩, some ⟨159681788675575184828122227528574124019187453261949563308568754083199401750769028311449523608247405929745085649919, 72558409424657605150003849787706151536475655879772818930748176288096414919821783675345591865871318941612401583962⟩),
   (⟨135957814883302945455264091740120385945290469832405269846629523531749092872432446524942495073317771138361544931582, 114691762213345005571196070773667334581883222568614888769989447354060463169211140993031282883336791124700975614224⟩, some ⟨192848113514168970756472169991222518476950148346723874163169768515618763963403483142936113903251955855065959114170, 29190421709772146175159291166939656455862349313900237639503130032744262121409174081290951797950086051642764700421⟩),
   (⟨181514336540072276970100723017571069819188356429092285821558129601686887264343078129989992450361594994250472380612, 53551054694918795420181412487460855576939615156324251766710197802121198365595963273901266486242762808244899527581⟩, none),
   (⟨252215470692415054688057570386672444814014771117423365370449823756498806628597883635743996208458077677501631819976, 185867082540697220418621447194416750925815172525819955621804765626053133441820622019030921904927518702499918219024⟩, none),
   (⟨91336822318542514483431908591660025649886465082322639028757268596883169810015173958272070615623201611675651046847, 28970786442731559471719609445352348190483693484990946707385181307168137352464314027793956484707239194844144369055⟩, some ⟨197231743625855729775868312481100342537970943227688870262793002666213746501683299519539577858127025846166065038689, 25612960001101409342434448974823426118413082793627571895960278224405200111043202695231448572784412551204681779432⟩),
   (⟨100192042125447012397380473214255044898860598655179116939734712516483240692753513989400173496513789368234909303926, 7125081543201821448457193617487645695887532076894667006268623384077156559503812602802605356446576259032332772194⟩, some ⟨116429837018602245849882570907627835649175351946932771438535277506928724896989564618952719876813409089794793414595, 203893319448654435305022347620925686977196649551721987615264383532525840507455982035672452059875915401400826559890⟩),
   (⟨6919407751916309559724304171058943390580066376849615321551866738401561757386462427625600387640296975115934049936, 257263549890130179028043195284500610696168232302875715894382671207287742602258297261121868160328331245996641819684⟩, none),
   (⟨113051167123625161407658897133535775121793850728610295240579772350692330793033301468293273404206047383379687495109, 226707442430550944570579184707047620520333817744778479108814519770815494602365546558927744255814511738949043849652⟩, some ⟨135447940710685434447430948160420890605113295918422126559991900259585602609731480733409943308235306418316429247636, 223909216821000417619182024772667951177774540713298867238744688851847962424033959167716443441883690450550957358172⟩),
   (⟨60064809682750910155117360273325524089941529645348493866316658700164976604968022703547662469538250642247511852600, 31753856434416434653545177106957356658679087994771061427933519286806491593284860531422602194948632727933058652918⟩, none),
   (⟨94712435872406815600285140353815036468956190411318372227461720003489022333089344899870148417947638969726717313967, 114937613537762910563819585416795765909646173109827313371879427012547627115793564171371912089299437949507220165980⟩, some ⟨210843734486155914942650296420899980451347573238503730437517614946509048148684963186187829209037849646757706223064, 119687161114197038074744861326510533581572934882878499722196108454360639027008253050602147546827416260731545282352⟩),
   (⟨55485724648229472249513476979737666680280944381254308788967058535602936997341918312789509825929024963795592582185, 183689889355444700290106336040680003516522793894244595585833711642904842681814644021640431291104789798106421847823⟩, none),
   (⟨141903507243225631071193660182816727377722778534158505858593646074504073754287521151099644128871603543924226899112, 239730814562322311473081302200783886919513775264818091778447254625103490296129544887758790195967537399358584999574⟩, some ⟨161632621047761984555938136466875370914418226729149578076063051675195023486056100728652845062388926214683508646106, 90757133792534933564080163750865786161587035260322993470126038602769526236327587431146433521994231229366061591512⟩),
   (⟨249210148602785856891082834949118017948471295669835499510808299241598985865756106733658348152998601821281885913478, 203719864119840008605904451826884785317854228794748222091463394855774906980198378774031645785949439893064377056203⟩, none),
   (⟨137596576006026847517938643453583173077525557092589757717023294862872867890709060734225410955506414055615981173446, 7343449045548782845592151362495086095553414377162454612953590725993368093558107230843458630785179127852706158867⟩, none),
   (⟨205591655737244305861814535040929654510271690788294834328011444084512280622909992932403902258053622873563644487221, 132255218127825630407421171258214616966729011142347550641038980897882447438260292778979328058665912204386653783199⟩, some ⟨240957274791338663285452111698314042736285070192937607154239998118629561346299533200887050206367371190343836391550, 115243094279355921219082812516728523921958346076477142578842147758335611727660135989000413203437262945943136972683⟩),
   (⟨155982199573490589136416359277215617691566442655038246111815025827891929772359331960223175527009285198245155616305, 63658635958074560766208080268844184058566839737028122797896850155491963840500914375216765041903548895285560828445⟩, some ⟨175746476094258664139468725496857539583455046641749502784960505516035301370532775176287209307740592916919815961275, 190074256491092948429968463248607513732048667079302842896830292838468468241644042113744284347267507113943670979330⟩),
   (⟨209643022138417600087490891212850407292616882080052276265027272956670233029811034973566892416331050428500592284264, 25332035952921510077631340238715937762471808154467401450218463438825823240925628046670386531847096321977605975470⟩, some ⟨169154280141441050012956228021367429397733930256489815490790977406506329660225711744584007718345067982621114031276, 30981800447363975513300606828261734614587589485543881417074444981298493524453131894426616597312030877667453519871⟩),
   (⟨125508969212617894966011449490005534668785123860772419009242319033879650936706327487745673874470566096105345703931, 23499671216593258002173987697634098871422820985070665640633380947187410557838483067024139752386511171452053542818⟩, none),
   (⟨182962729790943552993386165055510656468330304346614193602348529113801450793375113266832809367877246103469550705847, 4018006184154874345759459370053668078829536839723839115526989438461242600889355825591444821773897985164526206001⟩, some ⟨86024828839551994378302679566794057755045933889109011455656927715361861316626138186272160011826814136152870523404, 111920290971400870973108793725329193508367484869362469216982758583437518490641685168006686431739809324427839206435⟩),
   (⟨146545047218012106201856871071598372155554239611254547958118324846138760843101494928645141835654646844340225942205, 240001118189445443219423919086376716420743573863838928594190026414677304267127028822573445294042540196287873420861⟩, some ⟨256887629698088622398500549070925989245354329931493429511023470537778963858165270496297435232298213167058603474417, 251612147182621511862756052509925930655032009663101388778109533386839309901257152020785820250801547706059784696796⟩),
   (⟨13468311147584598347927368901193613592719030686289388731883801809538369387795899410212808665900825021842786380292, 96568972288823218551496465168695726262695365507285259331208854961756542498502354847103520331739921764431369386229⟩, none),
   (⟨162170217776203243165381271126948421895798961060022826186970610752636656213320045785602320253872051795623208845333, 20146899393259207302531121552529682718797812491368401320517206062097835562308186960743595143733717174736909958166⟩, some ⟨155777656261718907181760560673969162313207096118556208114614722866276472652492695588509522881083021790248380043795, 162541761487832431264194706830687038414208436017128430033617189276085547191995777187092043884802600110304709229453⟩),
   (⟨89840484700684983008202486826375662094258630913401898666752487415892589704640649221445193724013339562671202102552, 42961426746447559834954146316905425499711102115709607549769401162376848910255832905461039230427881821664072434776⟩, some ⟨70111990812969405891213888417702548286268736980209993009012698441515764077673588265551704823553515236102573890737, 110575874840557531177551275361488180629865892905724628305297295400598093743528551688275539352058105545649892933040⟩),
   (⟨245430267248484787925539017830079912864384963473564356978697979344855175810983084337795552130515811337623243396390, 9107190505526757887111242770877423593308434079242594191295856648615392315439797857979538136667960443766160514058⟩, some ⟨102383150357533001401786638934449614673099952915927863637501795353957061558080138073933744262028296192595363767732, 141529482610157524973226213519282209425982310231692906378632659648639730984405223690260694973984675256249416059304⟩),
   (⟨5983350120904020603863832760688054936639098699778881815558354577794946032569312299688096943884077400553260446375, 239983546110313363730064853044527093820614935991731510202445803409053753002943382630595333618002992968731539459662⟩, some ⟨218118939697579433313047965511888095399571624357505302392662140911866909624011997642140731828979885001704092291561, 159817010745596942394356642566251030285466700056643614891659197899743878526573108652225711888161288329929282236561⟩),
   (⟨57733140786218819792328627091912445183697511922798594428821424044311213656323054694737858050791981956288937912950, 15296627804278475529439496710879518408007779830580895677294530475314038550935659384955500842015310721176399456357⟩, some ⟨210180847237900422027121694231744247037386290114735803083806028677019502064135686253531202266135782501484685477868, 163542477207224649215005222201796643802739752004795343887105205508187232288631629935365482697512266521331122951656⟩),
   (⟨98702620053519826684536220386321227953643142422778936614459791626562590481930925341412887329470639597762155564658, 226005906484494396555970243200676900676344959613159356705532159577513497089959257285758071288634436274901298600010⟩, some ⟨245821154055167147092104047619419356341272712961796154328032451204162778324728140476639044298093601205953289131578, 150940045726165985558137492096633878844399210717321788863435208967585418177759154545419495209546846233686831535662⟩),
   (⟨143800701440913818266969878493723492333488526963476243268898647791622523220931450073216582022182433999761425737870, 233458628385948969083436639709701873464796966206595305871109448713260030246971644399770223973211083475725495794248⟩, some ⟨24379034936401493094699269617761604341180694079511339803878487869445775216651073601255107092430567743886871979609, 168392649587817663749152204341105211525697630824138836969495834431362081365880649427649692363390709184549518333589⟩),
   (⟨53976733585825319864556480531489823066082789039915379138253123495104840333277061699627276357646838648398850393420, 229866403563842263817750256233822667152867760562030695911832421543467866688471796262448656595320335729594802007605⟩, none),
   (⟨170416349080630195746603196423261538018764216768915747969194188087320873279924629019979795935371121462948724523592, 20918617830310432013326254089548294364541760517424764747396082028895116449603844686168250564441594501474195037108⟩, some ⟨42060743923439784804499820532064917134511423827487641443247566156199637653475263894131863715822891214033910693175, 249064573330581530156373821562461462683557429892266986416250739937972060874873735255227518527603024646087600491161⟩),
   (⟨157211654416202740598331880052691636080078584623691457643176623694354837614104131042173213261684966262234904507122, 122963229798304858378360279383421702904569670329494755739208356268369982668587317426287289811182418758353211261019⟩, some ⟨109712403027780562892814080709457988470850478365309158955443759758162683728434098633690417330749202526741063063745, 248070718235187285376341752385562613970860923135840257840157654106017720883706634776915601463780883386466412261313⟩),
   (⟨86020324885896473664567795936349620310708988888668971467198541891356416432983060279111047079956021481666666722530, 72547703520348502708972615639770582903662029111107077493733703655197190864769934427222732732549945127072734895361⟩, none),
   (⟨39111001877139853186113678291219454325221562928537066967161286142964926524425231849693457808319837676616660294002, 168565580282905990412387427116361915935703107175311645024963733253791902805323934583786732793018583749511622290402⟩, some ⟨211196380965653015684147577612144539187452250122790602601566518332484037571342268380869998020022489669302432587808, 11441043528575522394060201638640405028368020287348884839475915077643089823129406186404922621393540848589723458064⟩),
   (⟨175542970339504205873318444393262046446008859751271843171136777435463315957584924835949153696797577081948664561435, 45996661970961554476542856876188769802449118495148706461833449171906153707565950869723370578859928221694221822565⟩, none),
   (⟨75103650762426209582793697128321406324323442467586878414843570625597674353360220005869408302866475420361324654044, 207251271367537511426810644981766275232752335430376614123379684949845206042460883472724089747416439061025342515736⟩, none),
   (⟨117761712988449284732083040753951562567816019981484724814271825027512897775225696266785371826216895857988448022026, 174638944685572784755425389881698310156623895243541852850150567004093821038175325130421326073866196985414069232660⟩, none),
   (⟨145893014841971934444853943779750330966911181473738948183872001697184331483812937230732703998431162294835015207357, 190339770786465626816050184752892034559763745269841586394864146314168318977798114802946494083366212030272035338988⟩, none),
   (⟨109312250032716372095024721080794688076667268050581270491433466694738391778357546203349540871228550460238094297130, 188449382183149098258957288123991694726763333677760173877554641076141135057187443748377082089346345114968503762870⟩, none),
   (⟨156896505841847536917461698935988847223393009937488735988685422438721934119056571247235038078628812647004650733183, 169029397635869560061123597163518131733410759263733081052587642444371289475391430731391392875763710920247332030313⟩, none),
   (⟨84174816588549275560391894424970961135556291168086661643363602379195952987163323561412881998513935525155191169935, 16779244710963721445589157906327143721195607197935955019909407271648203327549822957750709074993768921440543086583⟩, none),
   (⟨202107385053913171395847611998640281279910344127842517486484988292122314593590591221740099268753559794818820699841, 208033968321341969440091554412326970154378680420266798917304806755626591885734201014622961160042160131220814556808⟩, none),
   (⟨204034901516209961611866190241391216311597767680559964678373190216409969348915930607920927352642861160949221330964, 212747086881613949900341101450729905427501605887119038341863795124986233628703192848653984336543192194229811169897⟩, none),
   (⟨216789254022554755963808315226601282192741648159435622901734628085188197019367392930111187086750108212776008380403, 100127840283700347312484490588068997588900560948598807312104416589545611753471622896990536782034633290744152409281⟩, none),
   (⟨68482413997264375665404553976809451578184419044471714499393281960226672125597271266029182023839901466073086091159, 133194657940469510728823521051614914193786395538112744250370868456465306967535306908860348899160165867547960922169⟩, none),
   (⟨224448746986337825153852837681887443867254612087573364975129869005961722451437564864033795148606067446928159948087, 152531044595305456647553565571342049032884289088251279513606148426972198998124172542304145188761131502648148294460⟩, none),
   (⟨70778954436142512515111668867774923858423813418390689045088371618464919324244966674249015965391320793678919587760, 59766853087462465703843578934627670860833683706874071364563524887653910121834463595491545603306045127247697544519⟩, none),
   (⟨229968619307664253931320219649612170584704090417649213572851156084254172253905072642973329591873417939058609197940, 165690087808003562452539391745040986484712065961020561531097340430792302369114623392573693362859830530887725719004⟩, none),
   (⟨164550797122173834152690672180774618117381367537392992746239097838059469217572658138302943906241623507029764518015, 39937562484843330989186864767736089682780403303472693096948948285846731664474316961776199599483805715798553971441⟩, none),
   (⟨226713972897184525098686619698329948601724444585564445718173249319332290747313862166208736203819307450824924317971, 52905088480187934590318360048231583895907633933460380448215812146741768576656439027954995158620348613867289485671⟩, none),
   (⟨77983456520814608828568706763984744233148722420441185783754166054404394597716032431686917618611753021616383035532, 143714522429129776651595009101462338420511315664118603063612262656277615141025168146762789936890186507128024712842⟩, none),
   (⟨92871489827600054909132987458948893592801148817659850684541911614261962435959142114027451136607841993016636303023, 158080296123397269520940720625673156516789420147492684420338016948617667134763964054121541713479641099190804619683⟩, none),
   (⟨173251992671836655012550899726003050519925273453042320561546014722950779258640888832568882938894709695468664144037, 248184584591446983091448018906857331294202468535496660152538088298474169248437833207347581843027802801300873565950⟩, none),
   (⟨134760541504120723066003311315358782367428852830657854753968692798636575757930508136107295058802323257471004688316, 46128471521551848710889281461646474457296343290432559745042064997456188934293547884837645003291511068746182635064⟩, none),
   (⟨57781686096752122857040582210960142869567257223962078501928245684037395005454860879407924547821611063382266128939, 221022678171214015905898562871218652271550008402611816723627233773841003193585977785557679702646972453819888431139⟩, none),
   (⟨82380782832792110104917541769460726665865461939034891531351017065116471276438114442104576606358257555262905181938, 206742734938168267804358716773005488433933120321111546416083693757965105240431643057357370973629764619962760323037⟩, none),
   (⟨18655027999456504985496963277381343182799536782754830683279683005433408536215989904418476057339460415608132209272, 193542564500366494234103908334269943133503243244396450343401653855381221133095677702712948780911531133081123933396⟩, none),
   (⟨250449342669788660511778857022201457870454905573784244007449091919282737631587414139149677905080055429849833092214, 53454022541321893851289006959174617215343314729424845800992752350249159872514986869952584984996394608876898017910⟩, none),
   (⟨93056225666009887592731292988985467552590095875181025644370342840880130222159178598227998903959333052343849054706, 127939718376563518546983518287105893113590022077854728086935599940728042476497300479429006231293828067306368896098⟩, none),
   (⟨79473915899016041073766090351676943358596556043283291161844267920033452813226675860381811566683872685071552676204, 250690878810390576361929755263328924064088688488632852563543703059033216788588292431431364577211022838075293229961⟩, none),
   (⟨215167713660787663652944574949488815775091665969715578628063745247850062271398593838412477665658752909906782508690, 100741403678368009683640159240840649233492505728449324763723082174728311848742834086524247907475435437182964948904⟩, none),
   (⟨117902967948790432140179764810024250265891886283824573367564592170092760231762706603403495122809473730519817465177, 124727301554222297427896156472976374705087602298586066231577141635571582105773848551866536512496519031371114242872⟩, some ⟨134879106844934921636098402686717212226972695749068204790924745660925354608150187302406509560632949278919208102835, 108901155992373037192942013518718800907889759391370829587388402675779997316255028908000627285562795958189195716199⟩),
   (⟨152144677852782235751956656432969293953063339430289516843299661924715965755427966641852011161512521680406953628511, 229850252261438478643195040080308316803479353223821633326027169349632358421342864732587898211688383054438651239908⟩, none),
   (⟨77774053452693785880247135923565600096363257531573506182786287747173083547370666896867524459829574900428656508685, 118420624245240137582613149539251429101690164038425326599835477364045126224576917007503885272976510880868448858885⟩, none),
   (⟨118582198968846792250387381730396176529023293878159705811437092932333030104477702260955731295477459381711599258239, 11009617114623920380654442207699374800557967303786597789848630009564647117476909150358470744995929778405892512477⟩, none),
   (⟨55247467593017606984958712589916551317705258529890360295955666547583423479659643871199669882976129256975263251273, 74229715007071599836900207195282622021007623958581395514088208645916588190917559422085806070345228731958367590687⟩, none),
   (⟨101851915814622373592022886443312386259293609888724836930730256934847524869755701718246933404348327213558701126968, 143899630490470116846712778482057391313618911802221036141327296571198387615790090230162261378018933494965147585146⟩, some ⟨35150876255875406884657372377657056244618260586427207152615170349228599444720544253882847490552678205967697257924, 186898717688541663950999036813618923379228940919047450992367927306711281757016661008895965211681309504777284873989⟩),
   (⟨490996682737518160256841323839991013527767707085758152025919815822664075351164852219821813272957450762560578628, 177437415447719102681002823528962817922083583297095200459376480335638082572998674267999321458336139168247811395884⟩, none),
   (⟨150529088117988140464336007163817649695074234765987510919036972390072855662589145851583992794293434229822824516136, 212851790030107608066795451903538309373653585096772437920398868262037673636972050811013557692039098608177971040097⟩, some ⟨130905354714727679969223294904604287354354731843390155594808085800886299594736700354333847759148264503113687947272, 41071061912331873967767137935830355939842699943624812707698764910826954548516028316232797743489115911857529238499⟩),
   (⟨182165957736424830810317745709737496629416531079664492429952689961612698484201959559446757708407159001494661119120, 32045432103124149560047734530742996461377436691063931338733757656040257310768661094537473611767943809921688794683⟩, none),
   (⟨33293703899449336290748361048598145653605233103262712965610287540589958386994894907841674737094710269411757365531, 241399747890505139675896272194952362924694858269653308092364383785938871290117924270139621955473316517443860823596⟩, none),
   (⟨23901309905449658428833693014311021752798458628913158867779860941968832045371525599072080427083977972071610447741, 123870353902381021405994950530360805794232357280057508880654818158949344381500745142789538182518922709185060951492⟩, none),
   (⟨179500366459474061989925364140763052762768362410754051618509694462360760505240089697765795492205093876416667256128, 229088745679823720018387349638895214438631890403760181071087495449011859921448928669587189243924056193743247637274⟩, none),
   (⟨242440995248369151875113675971280765012022288190872409218053002840790738401225811582403066910193400889143038877472, 215313267952940056861159196946725011465691054711453645311752379966485621662996740256058202404014711572779854695501⟩, some ⟨142821085568698265466806021512616170311473226473989773306572415089823061189633742405719999076093152874801304746351, 205890090002872531339724287717847389199482660868377984644104798479813011244355790711344711566036066380168733286420⟩),
   (⟨232762592589039017871906093029264065285451398362816345438372067980836677552375078364433330527204881213661548091359, 233573631463834214205912644755268078008878817191452411645418153752305670936457691023841784938606358304953481054778⟩, none),
   (⟨175734923790354975232613331509668351536971225679425483319187508912332870001345798311057686390321561757904211473894, 1893858618265765289090787088673983830082311366858805837441624455581980085450106118367754091950838300197891179233⟩, none),
   (⟨228750269052106356105165169815889119231592383538464221325612336639231831554770403097584228145729058390976137858246, 175314832700760347350907539293942859995466667187803810821041721293423790235645124761100516170475166881310789621357⟩, none),
   (⟨26462772707300850603375033997766045101267870121457935864316662222354977471793421308794984924246846502447945014207, 156890817186062316199792521978490004055766873943483102416972492373100987189232303281935120192468977824397916520285⟩, some ⟨249304849575339477482437115576890926686881502532584794813887229495796932418375642386072165791484200989956487361972, 77309813967999193932130086587008032468595385735801584916114557761344245020962949349466153118156371812243840880241⟩),
   (⟨27865260668080854899846927821020398484146560633543600277794712136574338124220263913167468477156103560824049013024, 81919581273547582018212125885146856172480046369251532486895778688178918148499973854940919523470461734456808867887⟩, some ⟨211623303271668027750088094033864060279633846806503840505516621394847964128279928301330040139123234455607279428882, 129887157943831216714596855242105102131069528284754232469300534605439257049826444705748033555765831453942123905039⟩),
   (⟨13039856489556110301751452364696230171604003251727227241552669102368274827458260408917913136846521968507565997684, 20323893510502489629707586607429178411239600077019672258425901357060567240321288530605565184444442681528375618589⟩, none),
   (⟨255344859886697805571334524801366786288152214124630201818395352225543747454977066573903134262462045024163372637347, 162680141564080399266506804825937580223430230759842676389927319179869918742966909534925060006882540129818943923103⟩, none),
   (⟨243719434966631547024910511379004212929076495713752050676030969349556004500341572212334389638608575656516164988933, 29799869008054667279437007298962786144021665994357814211869250968274958936742382528603828864606952159170758438091⟩, none),
   (⟨15652261421786064305864839965611594980531752047569113678510244510106215128874678637148706758714427619529218967952, 20650717214601757894094620360781599890634411815409919485315808957762532441646877276988646335768627528664465314576⟩, none),
   (⟨148607515102439869186660944313925322736336610956933937507740468600132683404606070091894702139348967404897193235221, 102526346633990047417461240493338686617193921198290920706544796220867608300356018022473947072895893632187816524093⟩, none),
   (⟨194749016051188656409276659691090881114633217140129682748075787873339495426313472311992371603715657395093717576190, 86883762659907718378708587516570550356855765838670794756825993332778012073608478785012521707488210097223285909329⟩, none),
   (⟨56477450902758208407182677217259024768227453480602310885484451589447361146775878930604851438532437922447749520129, 91240817999024178644638260271144330348859251203959252247129509299312080884015531047847091516443680709098482332628⟩, none),
   (⟨142336868208801153330277335590714894183561158484056569971254864268212593115687306244345034870222091134052986988454, 182547463867281622781481972663225736565991525210476994399738956825719242258400960812197161131964745111927890317914⟩, none),
   (⟨125668536676090869828959285448749258640822322207667507196446465734180386181872164072630362094442415861275279450142, 65873014779853496174212971578830138392310629165758428530650589451334090158518200286283772428061356355287412866517⟩, none),
   (⟨64103860206029859791029382827071115834250351666421320332695627782538265061872502607361277341166276550577709313845, 72050421872748271043454556596321044202750813966173285543426416696610201620785195951721429003739862547376235904818⟩, none),
   (⟨175070295971038165283023277430864094735340136237375794209441720854378711404087701035268712474131191417712263924304, 181294024876852095990699918207970451102359444745397619682461569419849965470839387686094860232569714011844853051202⟩, none),
   (⟨184241832915311289959753837706984224424158813573445671392343511248870490388865948603752239892215060023759782173584, 4914063765315837986145531905579480078362963177030418627469759499942570632960528083188104831618898107974272967953⟩, none),
   (⟨241402367419068230491562866261986926829893544670271195472534307762315328147644702164143089295354710313992369699663, 67619668866480189225183572548528431188186109835332698053362872484303545585523716032695588391250763088249709345481⟩, none),
   (⟨24926827696441876794192577428462629777324038241029512043283169501060479540467518016531684985538451283658703125132, 156734841953461912803853020816873471525847478180297083269652023846531074904513803341351415687604718991510484216547⟩, none),
   (⟨21030562408880242399820414798352158401893541195834056767629256083267769433684054377843778854422874476731888462508, 54534527861527762607820148018885311061844617062351160796427258099215388915034295904993078768211766328411108248949⟩, none),
   (⟨29851073476869627463572656202182459426890208062758249668184959268964550740436564142585785989309115168127813003514, 209753724147960517205135645430779600120982449733569806900882663105719814964641606169014384626492555808452963210723⟩, none),
   (⟨48027858910790699951689293549197063908263651956701622455496779536664388964274313105048399602480008096671197084206, 102087735131319779767899340172016756838657269469080947246682276522863732419674016768134786013143608222368650515168⟩, none),
   (⟨136033496485278682720601274766401506448673879082778281110113770098017313272157677599296465642597655962990373370964, 139455996889616323299043407240371502507915706616765538124822004063317060375005118058836088461205888030073676101001⟩, none),
   (⟨15157073722445717781563984057562208329005950693220106198112936755907109825396770526517893691270721168183704283238, 43526573699914996836343476698660895971995261812026747661778684705116640706157257634209102838586315989443345053997⟩, none),
   (⟨102317329943488030918370506269159323329360328902257021302576434671332310778113061842430545881927355179081611706869, 245909752108834201594367962359925026672155392787729783366241633777495783903526980658361674232028329691349588155591⟩, none),
   (⟨61390109707234373043450134734348786030042695109066949916909697446888227206241362639020759688745339519299129707850, 67079358876794465172333357895138243767685708154590934593938474814935720393016737746334734043721866906376670085297⟩, none),
   (⟨47296919069860021409258285638304378130478746208697032560850537360813874303536480616832645771261863785348280856780, 74182376490970706083188623098837600638505340198417133591751031002747524948762347389297374578652209406258929076495⟩, none),
   (⟨237968260798341564005571137658466640149005677272972540778380460498776178916265628687199150650905966531030440069295, 162091262849267975220671363928911455786975165050328488240887603515532003047957173817663157797415260084688759925361⟩, none),
   (⟨40064506157595970311088635927498487952995282892335446882708112057130171253964129534825636133540116792255970026417, 36527564220860243197801168282090612189531229891695050998399740903501544221249212390089889099979126430929188327669⟩, none),
   (⟨213348423377875538351267637383580892069177013343216566904278271453851909578673939896804131487310151493946087046322, 54650099066044124598078686576398775410321345895781319546377188007926766553641133956813486816915404656547385125425⟩, none),
   (⟨221713199662930667831278865615268021599642489956828144840755613031217427297444032133390924417892661825469096168427, 43921795618372931467061046243680962571993860162776066493576937574427398386872262423687288274321852832709373590891⟩, none),
   (⟨29927343183302255739144473686648273476001502842616705830636475189141536884892833285705366660254685184685605956646, 42521549181182817299419783154346955108678115342643061310353670018770359422589882979138343477653046270894668341239⟩, none),
   (⟨168040677620405801944839534064932340662828300850848737272020365760919982524618064040948447224567022986500577194175, 99053896715936657779633415338480903864286861740176160226615262260347844359407686378731972847577477278393179101912⟩, none),
   (⟨213877897225162299888790908622272840811144890029711954848392162417298791259207082761535283740275059790904581801410, 176187387700797926890604373578152487947483935978398731711969755095937263547015444216335909760965672410835461912712⟩, none),
   (⟨151753625141185574819889167971443145496577790841296330585589877626088485488113861353647884302700526644358872783083, 208579628262058388640871153929088399712100054076078592151396821786907809660752793552828453907464620151253521985559⟩, none),
   (⟨160703695131183060265214285736169600190963502639297183980271775193012344527878449117700950683809721715005951144237, 133250986814573868056790501896621191878306758116614322210309843077494443815108760831930115400177100026811560313577⟩, none),
   (⟨60682050879251476145112438361699091623277987261482574498251576634875919438696901023670811703261169330930985621455, 149525333975379935506592050303392086590622726259060195424950408960218422758050117323718451780495685671642767536698⟩, none),
   (⟨66007950039923459453841430094532707708010240261084016648331024977120129321327130222739307045059936491601431091773, 235562523902209516727785627328056436481944589399390841037580940760836470443391250083487997441690297400360821545418⟩, none),
   (⟨162625869844296965385635282989746748813448629600186424324640172601957400385640504822209910797760747772830596932934, 144014896077652495015645005736193912541113539160082293797936886949020214204613689238883594339666582456935444897952⟩, none),
   (⟨139263899401544324235389280880980183211550444514888569587905861694862507517051044548669595182883058787307485027375, 161472862663226934181649290731302844434836057239155700052718725951731255672141028414870664990890572824303408822800⟩, none),
   (⟨92855998963644413544460830558147478798894374505728607160919068976382037843650925538410550002383323841375817777974, 45939490858847163714506731998809006172204024510728683573268063527050065942420785568356051541698577727270120204212⟩, none),
   (⟨231907119959373241110063479871299054105773133445896043655549612376829594723838458984349090581885340927311318672594, 195406996986096981719905207553481413979137550333059376414875305684299251768108218345684889699570981133555935395980⟩, none),
   (⟨226536535551321258651651623154770194537123520086943014157154251685631508127323687018535694095116730604257752856232, 149686160899112230337446859839508007193914390816856517893202180125609585718590528991544435509176941124063437579722⟩, none),
   (⟨12211931231326268845688323580786725821447970537247577833887301978465526601798184870585157464107435936569757483013, 43020092128982678176607105674066305267743466968324039644763945603753621298784951023749347926769490835773598999261⟩, none),
   (⟨50409501404053373395715513428684253205304631519595840256137136373091396388412936956602841455612038674599137812388, 83086900275651796427157975240156466436680420155742825745298300722509040645599703361148419908293677660926255024873⟩, none),
   (⟨232340540937196950997950569079943361254288922885131736223169542388180230038447308073001414183218782102203493620132, 12048181638534919688383260675719745600137627941929555851521547900568138361988816806039448963309692164965085401954⟩, none),
   (⟨129056169649054783792087102320240556207658527184217623160122877030061350939304351584220375970901213485469940130563, 204985001125508597777009797012226979887993148858350174528691058645742931725794967694247242433548914680443060094937⟩, none),
   (⟨50140446790228586124901563540838855797568484775932994477327154498996817587016602400740152957397668621101385539424, 72807380948863777870783840560897052260397177572886468842070721182839880547912225955026917263385215392247474735108⟩, none),
   (⟨147478496423758183469911732673624151674188490678802524629358137438470823146040956913151400659156654050464674804772, 167476743430287267344169652122052762082805342116652867205211994510319320201460878900292140211959803549415690834594⟩, none),
   (⟨238379693155608100306220432306168425450746571479715782945068442355866715681046444474964256849418487752054376596672, 235236165378582688185351655154836745174916928141766921339437881751866010395775227766194335833893841599160668040725⟩, none),
   (⟨234514268585844934546055472122526785524381800630621880111119857396706055939832702085076953243295931429779129390976, 212095123298900560003509194881038189649565060653084632682317893036572892197669533757410492959783417251668343542336⟩, none),
   (⟨221097721666577546311686372403238932839567821212042992260715908807058765025842118719999405608371685369614318419191, 221039738865357707652726368341429043557449607196912682571655494416487270820066784700501103915664853884943137648024⟩, none)]

/-- Slopes of the double-and-add chain for `r - 1` on the cofactor multiple of `(1, √2)`. -/
def g1OrderCert : List (Fq × Option Fq) :=
  [(123750260366178441518349692280333869988198166753639018574524301822271444170726108271149835665530929107642991343980, none),
   (26505014719177942699066195245551780745617842521140352279348828397505636507546386056086905496471958318348254928408, none),
   (2061943723166346685317002394695913966151931241238768980667624733219285006815137641006107734924217639915079409811, some 57350917372616907354816646448144957761930330843517419103449497743447035750461006991805597305002807365714150264219),
   (7950906736453230251032013817825482174723364011201736939009100004567478491744345736430967106855112728666149399905, none),
   (19697717605919590062615847047245630929056248815643758652595921600791503241458426739034960896176268136881088676656, some 173177130531856477484625246390836665710925002079565794459916325527995258659277867349158346233783028413615639799547),
   (61722224790557452975468402578736869528996695840276739166401464157581903082529153986149167027776372984702309680309, none),
   (170861902709711062513318317339592486427835501934716496478267296843772844641420655330161879365077630355550149747067, some 49687576060625348903513922535965152341232584427804530071460280816444041510594731725401305495035658144194241451087),
   (111662099655871959861915702639119320113558813539928044164520822921864088483981398475955668161091756020216567138037, none),
   (182076153769763920315321244575663277195848466730758604086802788820012878853230333139206798073911383842980582137880, some 199027203008427585639229249198063471057439249196435909114147461477966331009426711982853027474519198513391895893356),
   (157097522305210710954662346990852163952017482656249788001906170629652483617010685860823504103869633810085621277967, none),
   (145752296077779220165311013975917975921161103955392850212694314865536051349620487490075047896438700548293171059568, some 195360126358257355401697842420165067507218541395802450702492030451642967170972445228273988159349373967458937028655),
   (120780916957249283769035377585710356988249531511183118709480938250510696376183613416597526356478383362232322974497, some 6940987474631703828139578594450706969110570089570101278376535790202554101829369740303741140711285984877033970418),
   (154484735935222097894191189715637692280676709872811476166917207070890077341166344292049699984541602171512588594845, none),
   (207157238974460460945660927140646800062656273160826301060309988659785174991687519205360477268673332004306418476136, some 223455267236417349444613210089192575315294379506379498012065622603283717859289689312103194346445685952560001782094),
   (75302243691097103398456662244175024360052304793606305933257929302870160664976880563383647315577611206665026831016, some 61680483887184636761620321067487155040813577689997017226163540424675202288140258448322362163575206213987668419123),
   (4391000228348448502175784145340558822404208080292890099522352351354744426317420866799903876788282712903130687797, none),
   (44802176585467521321524177730346785453952856744859542595218528638004226493710764447686693460416843676221522300092, none),
   (133378294705741851825279826214688611949123931131847776550521825384130968242366848755322655720886732777770845813415, some 171560276968691447912874685651893997275686855307345311773275878662536095875456000069733251999260170291372830144905),
   (7330638221341313411579017174989011188956837089401102687518119649062007633450491705525995273101518920142033278004, none),
   (15961830107447202543679945194637024369629587987100564316613038214077247257635492475438650172713343804444263879041, some 251971961569593800594236154346701454809594511964797855884294182300337045127332023472083181298571905534435783548874),
   (200719594602844122093358833661116392793041841893875609450511572748598531155300287511494581297543312326439205174882, none),
   (202385937766484983645242942840957946653116664594497732351576059064593992393005957915982392098769763551949682977797, some 213320777059785214060941276635266598669585360360991266590086337461278733433695797219018854117181925847071963327212),
   (35945584872959769961772714545489690644442427726017623909486804726555103586813379555679786401531637817827266836431, none),
   (243140603382650539191984825406600176801498318514154564252763910723638450362441857168013153241930035971546461646968, some 19772495245082759298007816617710901159423542848859857468573492659795590552708235285639839035392936355955967823160),
   (139612746343324941606018573844430111702660648584516773978044248648118448936250044688723747805925540877236522266789, some 82433168021629224080293705760459245451514601843100013075016989462968014570145261277038454214138479120182747525208),
   (52992204108905004929943048356414328853135309783007864724226202639442218034310656433198044687246141295745136933870, some 80430778150993191551436180359229123941148343175740969581608819822774775747219650427773100069325233811660703178347),
   (197289963715305759481841748926073460175794258739001821371088750515862158508672593391935668980583877462822138029204, some 19186251768676855417730172725735681304040677622585327842041159070620163804271642351034848957095794311547180567649),
   (89009538062652580020884098127285276082998969301130674710269658372177282359179859383400121045517273568425900017733, none),
   (57725607621466262402295243846376932125839279237196707207269092870127390068026813572873856542598204022634034798184, some 96545862559268587926411743634698770724431502654069105674717596433618770541680074577096760918898513141467256226579),
   (138860453953105269347604434348978472401794791582105495090045728450164882512249894893340427037447936643799486132967, none),
   (105969052114995931571634885927722001836725987781573191053341363759499873591267824462485804760466515184672304983084, none),
   (71664905904439809774513485597398912758423874249504715690975761950373289518082330116201445839777448178391136781684, some 236728859149207258924632017065291961684859616963529400221166543039574968268256244209203812308423896665622363593059),
   (135575749868554919981924909258490450272068459262879576465586288789683123077748900542226433975888138590391003113895, some 164098996734399588006343013178964335593296470320767108526625746093848797159328290572828092997630136667293817014292),
   (70169641613241918797064455824842930515440480812266405273518864570156705906035055454692250690066600047153816015518, none),
   (158788127864099214458367376681694829178572883524360345694891118656886568311576261840545832200105677928149429140347, some 255448710758713865915282823790126389573729323385324949207831934905390548205896060399076109441989209584500370679306),
   (157915951745405600701743736627699544294629359766903549453784009280705248241406587456416714889043559047636736709858, none),
   (258216655074616420335921797107776799663223020976584523537215006695731779493998997145097067908977172784442628207947, none),
   (92002628167652153770801333736483757227120888196336710336057411399143834171754262667434226202220343150347472241837, none),
   (2777900541632587006253700640955471766562707139304293139400059859808627904084521973311442549411564653958510526142, some 223383214741421898936493118645383139321682187938301030659873975794153147028874903419928932355151929048523271887559),
   (155407908564044228597988415579893457143762838501532656774015930287471558282507586481274019291095259688384920514864, none),
   (104754717674161419673997392796678668545498192577802273270185796236083586282950372784663871518038778796715788596913, some 232586855490833983948503253555400335635301509344655236101153176274722300254236554557974579851277548484916107416709),
   (230280939878286035665442667249699102604113277871246330688072539712545489674625607593448379139719813674080407096582, some 224207404449527139142675732989835970960444926411692226161878408734630131262436570264408172268001343726872634636184),
   (30368294321401634524470240625814247478546524150810827484513442986252641773623387912269332060152322186622777838242, none),
   (250112239450064165265556850484812269729141064716453075055535271566547703537430734272232676489083892319538308301188, none),
   (60715838126954715177631437024874201377119652548992509645397657544336775743193007539396536488498394006365898298232, some 29578308848991172990685246354894706710925547102478504967786652681141098187868424873948920800398110266789303078589),
   (201312022612883300675441325849617789473075229793300840819256330898446591601922377752549149748075159776007058599292, none),
   (124701164844219813320663212524961431565147064664255213207620248829162364658591183575625403427662380179830657457280, some 213827702286544242767165962170396130534244367129872672297745607402973532340426278245225914762989240359811918815634),
   (123525138887131445463054657378799320943205606115451352619900494468983536466684122707001739921278795399445861516955, none),
   (79829545644897839098504951604336877605867991919410459376712474464877569840851727042546433733630577177543913451953, none),
   (108167870438262776953523386393299496845185409855634266611667445305607174132991795446982093951821364665360140696179, some 235428375750158827157420690399198722441908097664910844993539456438027933720437123241424064647988965047721649896807),
   (167559870631233115137011023587376308495142436621936922890363997252664261724593449552137812816264139894075112599785, none),
   (43801389437903440928903799417889080584397699357982205004352799764080131205235731012943433744724271575688920242814, some 228170061944633960286028701332896332840189383145972094390980800573882785163798003664155557765550488099834794529990),
   (217491849755982232192125754339106361126329927809840059435438932213678924054106028933474119439453241625046661178744, none),
   (164555403367258711376531420652702847319580550872326779349451357292494395914733010159355156308196547771778464434486, some 66609273145019033842320633568527077787559201704857062784962489584378133075983514575751506504844190978381520476544),
   (107084487165136505379569203634191023572051912519726989555989435521607461718079276384975225258663671399886541662560, none),
   (108887375648646335323245815559653059471457757212220215866952441512013195947027997928970891500593998538368121638721, some 123480470864512414173405071136757920280801789612802524948720812306273945137409398893065286131811990347861805912882),
   (223393526479355192996801771771988544161160749303489343973061997522966258817752294571666518725726030472384017576636, none),
   (42707100042004584643251983126160134032299041083687000217748911379207692465191491154033965116008981371454652166536, some 147857709061406786109473672370640742949757705044191411015817864462159693397420427691013162973467052563942387558908),
   (181897254758262775744941171861120275531561729751027432611024955780751892083223297422494680551396503583727200879057, some 225180084296699821698987030849774318918947259749859023962672642915079571090931027320542570896963678196241673326914),
   (188216376260887949104263982243311624414102221828512397993095799831508954491326528889758893181200903766868191649833, none),
   (212826948614470721195251496618495178009079663393454287827841237626395645726911961010843799781515928565997553434072, none),
   (47840166077222878918379068958648843635735459155463801909033629989286662463547311326430233284388473630709132426347, some 125108492309588746538151624468496650308874805930791875372703878620060381575013030863988797351771955290812704417619),
   (215947447628308042372259728553580960517696086177167444227449194885132029977509213494945030796988327516587856442138, some 249573921383030552600799681263601653513668088907379507572087010048744547987232821747917477817731683740474769700520),
   (169284509255739582130270467007452803480156225497966384132357197641529947107248072357581330338209201564323861142945, none),
   (209967774671282383461264206041761075717014170708319881388146973254127371365223784230729786151057364269076265965415, none),
   (125449816436860760091165097414951755589002285274518135804533793447984595123998334651278045098225793657665737231494, none),
   (200137477509706052258875477842348093829633377712425014151874932455332445791497722135966138719229335904151519776122, none),
   (191264590446234903590057058329400467631588879575034721202617569567234083976224737012661144715242004205497378745528, none),
   (51164853155074464768576122450438740810510118918420786665641705325311363827867739737153790637869434202022778168442, some 180762900511742561736039320378553860911646377899578888516522097389458967307906421658288687086794871803777057002310),
   (39048172516109317629642492076391507082089755271599268746273287423413066822498649260222397402244742523795834576049, none),
   (9304161177056003401948202274102436814162306773386082400351838151276014845763076357729151959155544489359881279590, some 76283578382850675082766393286957610352758073482782110367011450453734593893685153716478113127865110568793112454903),
   (63016927841309415184260422880903521342471059607775890925756608630818932638319106718358438851565995852409375174314, some 208870228209439668664778807481896902263641920450494614335431333306443426353711998443208033069270003405079395114320),
   (18680931064788973710844444443038853185925713757314285293834233838619137089988794840772306038353168776717356601218, none),
   (58204352304894138753014867705753752767601462744102085616120359562959969304476038921502388238961540528842502570591, some 140615663957002671420486834713300361674676305670795698596542726753406206123674255274213944467047920460771065206840),
   (100788111374315637230002159058806245996061388851661065985949700340610073498123084592318555031475193634977187296143, none),
   (252466064484425446734130724368426251757638217508371619149427579332259503179013405690728885795123466944489371390696, none),
   (191848183642177802541172440447917466074200632754001325685653297526407207589483656392433604090222246071213321388351, none),
   (49626544109189911049500830524202658705096776803381809155832164429618941228130222388148037871462195046756522146303, some 186046799830024517715044007194345535271452282539625552467891576553773252944837793062852862374413505333455899229859),
   (36367624920394942236126057556602040535785107985732756834073523287032808247167223381863542525938386174463157800192, none),
   (12594529512735009171667288627389516619179431161695388060080200016318464056444753285992009638413003279794302556411, none),
   (117624559265688322597767289311499037177933276637545562739276669309955973202150632187790818455495703083316158845008, some 202759694885169507455412849041982900642822863661357853101023383540610094282303988103786515517222681790364659093605),
   (30797785020505165760607425391133322161058897966249547182771994963607329149463874230370931914413094656932836599583, some 68734964081167004126415451595074080457923740851847662995437211851279133525592928560850284954864815150291409639494),
   (140890694671302166039695253999293875508748880351432055217317949680394665425396649901030120261642601545926147525901, none),
   (52030827137820041215688892571489786369559218813774083742709598027898623735066099350812147328943992584364507850228, some 140238395849153348430924450204132646513099359607281851745267726182808861462805959572429269060667739010708547087849),
   (99740416928564179485557995913949061766386823905628403582933411459659697576223595465493859350365557887246581744210, none),
   (87557505354286429553725887110593267569919467370008374458749312515406784335597647311947017844196396191529586265419, none),
   (161422518007714345283759900981952814976064647428799991471212508337491948586033031858658139387540350527971696153916, none),
   (223475656572992399216339766109013624843550596102642523065967531385597695310040194427559430443682488844008345689226, some 78858521564702643516599949590542586297969079098467550739099797180293154145179162944623175740568864368432472304430),
   (164767415482005821344615206270988397684080738412187968808454504124990886338404288727521213369309298958054227241678, some 230609067177912860986099057476299317115798902023324909542589945976965663935493629701982429706599880833293985990212),
   (124160794828566676986868133984362870344357043398727930749787014025419108763079061631056492464560055328390332773239, some 181947134475545619499015894488927593183054512469423310954564307222759971055118343150900066948053397454579791905235),
   (82025668746708885792543488388043869947391020533111564624403089919563689562709294179703702171864768170217181996213, some 167147367859604483572971674426914920903698704010815458673550453689867823864420222979952727608250407726865113468319),
   (239049755937950453313739260773947986748739992050017423583506538722007234208536770590758119243487037273968447249253, none),
   (88405745605250622344542509596075515558712304698897805932153547490946522738442959780715312167505119767209544511813, none),
   (93190093532309860082724619178288310959082131707525965541601822620463965604709671265290331453153474789187120410276, some 119100901508197081798976701689848890347249130463202148978009994591695534885281736441678178028899009644331287422192),
   (10840761973923201597636373298773870452718205103257433324072141048349525114226682166948095610895792571095636680208, none),
   (200109957740195981211397041166231466134195261991956949030428503829182709103430914986690646996056351845530756075758, some 186070955202726642251056380611360295374916025962185279255633162320511894431366889879466589227923947107238370666662),
   (1900512328088348150515681917695737406893840530520780572178359949811459932592787384342596204898163666872783499465, some 241609217621147754852646785698303039957153247057901090856572605086576655368931001209305445920302050972756092358739),
   (159647793600513460497346700902243123432447776347991573694399024056124290225478678739915253292354912902008791973863, some 45695320638214607206472998046586685308863813252574166564601534957798713435056256913118220986786814995205792110013),
   (73621004523929816293276416726527192829120693050261525452481796302896204208617897053052772744317236094879889188143, none),
   (150863669457003618208834346568171737420620027887498669371933557187612568015796876563518672337371597465635875472666, none),
   (80981972522826022910318243463137792704365984979407810802434326003421037607688188198288028382623319255924972976849, none),
   (6407453429663065362633597809748888633423113332386929511356056325662629202975465164000824665957151154986360643067, none),
   (110641829832182013890304682242874360608206078474479935777304683303290697936834200632245177026732423393452044714433, some 81522222513301026852600138406963648196784618889851144209182838466737895016537912112367971577950979695666076554382),
   (109000025478457140967515850277375202146501029631028485215080829116767208270686099849849357734901913218996168212387, some 79323393286321100143486803035058254218303385947325796920361512410337355803005749012802245696062430051837973032544),
   (95699752170787951983925025302922118288324427736226399059302368218709300355485664778010800590123723876919961784960, none),
   (135743991298783754692546393299657892061813651445814296573703544176125987937652174787529556158113968141508333407821, some 150918903976494227553425423411527950609491984167213685277930563191943302611445757009638435648463228287356009113689),
   (139433247339228607232990653991373523455203283622271113050919901109204398024708575475258632389093092326160265578456, some 69095410388738073233109786244371932554961277839201520493365181831677899342006792962082270118032420927540720877789),
   (144756528054606475064742269406927271994130774426441846434221681799595155903070697664143618651487498110816224931168, some 142358315445285822798889882852815159133185745953001471875111591937415193307348969122529668984756835678258909653382),
   (129902862422407247126110251334207008712148246742168059976758806563640831761730758287896877217631710031462388093452, some 104795842982079598459245762703870003118910934875952592752106726768002883102496226788558703775666004269436461541561),
   (256809937971386853269190633204703624306347752946622958337498679036036139032523985100876770135151855583805475839596, none),
   (74433522207498351669765029103230600516933076415111428221201931883569564814906217774943764024537192404203765331308, some 43256677530877060658276464528943014345056749642884913852913116712408517149957479974293537431756577517013339575558),
   (67690994855785096661482673789435453127393051538238549149593890066950408511407197996858010532649285955898564442674, some 148065928243152697242935874138307202157999773977196353992525235257974772398549199322448433969834870418910251858196),
   (117466556460510280086651920014124512782650490085149266731962530401027346283085416015182644247634485749538644292727, none),
   (45710234311235434347518533778074283391646283009841464055861968306296193835919384264895424076625899322086095849463, none),
   (25535514176909643851464737900051944642762417542345243000991774665955305538938470934556952591185557410798704656443, none),
   (248150063235372953022581599464579932302830159169527811553198638998343839069320732287715697575919947908412923605709, none),
   (182696044079803578838160181063150748729657988204561115082717705099486709416352801691970664808271378055568412364450, none),
   (212233161122232134682662232591708882153030052826502179716169766603341912346553860929158375851800413289132609180114, none),
   (109054813439191022766682572130412980369003399611296037963601165013682693959856541615910860753031617221911088958820, none),
   (145790515755725138332472129560986549661249959594051426266328779789499719798639281156924055997258025904323746223310, none),
   (193399073343641769953871375569306180666386884032330651151091265073143128298343210445470755167065206258312350736703, none),
   (222667208678253308580953432346011950283454903210337130347248478660783788333776671372140564742623361630979882676520, none),
   (87193047087924792222662924841469113065763821351364333115511420944238408557614258570233591205978177867645806195159, none),
   (54372000063721055381049006509635069854026871962136622684941631247850330138128296430847449994491123966172669569455, some 25084087523282927939210136254646137747997493740192192371667474413989917124499151084330081069480068554691945583242),
   (5018728684459898420650432173383597725256861030552810583835013179901848324122767704169980439675609263501620918734, none),
   (3651537811290045666805254723861917087266285579090574232474190396283408002425966546691388935925734171930401587970, some 73386874881829871601188990692731289907665983875314351770425846093010662841545426789619394649457476796351887898683),
   (70669581431127391864751980147733509722067616654464236539614719238490109921935409522634784221729031594260073438452, none),
   (86089035134116518525023156252161038200075722519097958731988395585114570627272037498734275522059768414220096223694, some 56363119049008003560987663492426611182354641448889456804925933556499735496192880302025697592582774232962565555224),
   (183285078805579027201781186076123872707387238390454633325032758784657950335657736102023369958047870831196404915933, some 46586303690820980725575761675528417580503902839359954597666117645295837300598272457113740314192981489711875494639),
   (193049503679562865454548619322834324479851348693712215586526015515871760484064581473940112641270830149860466705279, none),
   (46506458576341268406311701414660074315968439014066139534874526018356136408232053632840045579314936158739274609686, none),
   (98929923273893543327290991527400827856865287373250220437392080835438832428575756817212197560004729400039675934998, some 132598636706878462373102166421292858128478592459384716856885478371989689786524798419360027018439915800558513825413),
   (247939215441115715508620526039945567206714071685473684000293769199497570915377563269393634027998765061532733475357, some 93231656854394211614398282369849401633675777416835166559006923582099236239796146454465246592781871310725590340178),
   (203566843441687684279105312577512800942022728603351094120103429767323504587882330290898367822844283132116297513604, none),
   (7179968658057599904595777990253732767064732648526600685261320845086831762346501629670389713619140325396696748107, some 107919527734807267031784911036263717144661645018277086762681315328150674759246359725042588341137411124098271034521),
   (140373533072658831701518032587624870547011955155078196538886691260615055168760560275827319332865931650385617571674, none),
   (257552147947430224480906141010761782148037505124340104045836193297426961799364525721354088276548148306683072887993, some 31854039097594867223755628431344368965253442655359684802095190303330203930930257256619946157345249382625371762264),
   (139670861533658889410314941247285588529793535854983464531078560540964185308349230031928992517801631290991542296043, none),
   (6398002049668742491850881608594375177166152233371429467196022226834133730331881114844607993306623705503334330165, some 160454567922479992438169427971617457842499186674027658247213503006971273035261463711806789559905181690584329087120),
   (237878234356696366926354014466126437265719883833493587712105523400252528807618996846148453156134694416988964200625, none),
   (61180493241581474677490506230728518778397817943974370890218240571054010948222232444920759207028793583267930002486, none),
   (149682466931746892754047428159210544931308094536287964201875621456799883483230752701213128358368423649104765730285, some 248507363072324609228487759582206618555154894721121053967549381245758931333139866721961514817105944751633568814214),
   (218310908677294328903192324791843347260156665277113431173471394364911711860244966997220515204777712261397527125436, some 162662065631188641415867645696238229613004137792246206966867143324762237018350252767741152037134299748126381587409),
   (94928295839441930480801498551082057244629479418054478344268315798888385127858266526583185185010250830507727039304, some 141257011800879616155437343384263690341558787049814105841039043772715826394321409671959912710793573526899003816278),
   (41922842168656242454335117851521288914857710287413057835891521889476981864011043553339711668894386340065370072364, none),
   (254172099054517410358098706584856759927908853584925667371410680944511706175659231682657848396326819156813257578706, some 201122600412594396605731860193553260974523858058539244208735585810240767628612513136923696610622932395200546043539),
   (61794368805308216394686091076579541823833704619030095263741459488280045497244063706675450174505051752721049101076, some 188630084031287924723010948397317638394845591495049203148337214424974808263108239758146346171148567911255925828990),
   (43888637929371965980978111102705000792341406267715813738686896888360133632010262164366051080557453164186287373559, none),
   (248299938297942167021043894654804677551490500450983198145283756905227653649890635229775337266366997567999437115537, some 221031586209160211260590633361652859195719347170078635163449327093769843186838874152477689613276241541171363019587),
   (109593103932102224763759566335674683440099706475425845473885730733539419933014344099191605472114445454217863688429, some 50406765733387715618574184373673108437572735840732086622233279415409338735572109898295099138707977753420594459540),
   (97893503790532224594528245070527780791503582306770686062507989739155993516048142565105045133700215577258072672816, some 38844769216515909147980782191306447440997251361726810137309011561089508347302248719356783438029151002585144538366),
   (85487614745234893528615077865091943533888144990379215613149641753693837793007089720520458894837796310558225621956, some 40576434344584420886328839906406066930207619153080881874594181193896566947929969370474142658873820200725895745551),
   (252566916167301305376414081496084087136641409208463603946231238839522588591554377189824243076674656216089059069561, some 15986155860816264509804978539885279509962902012503913754905695691730123359313298327455186340617776817903174817143),
   (125237967436634338205988055295259962285344214303492010187701466154040526815980786431287336412150435537575861300302, some 152269300626622425819914341870794080870348884362838095962116077678026533054529590336593875731213542803982683319163),
   (36910637304368867359742832359323598473630082943195954909746639729663627060150717892260772857714245101513553395106, some 50731889627158948433284770500808209307160128193295986998126876115191397849159090755627717553786767598143427312618),
   (200411276667199895124148607226712119203982141144880264157431122817604555941907581799258534834039261185466370380220, none),
   (172262377356942805196725319884798574077326825488508507022997075017466889702824828899849965465821086553915548152471, some 180514787611913996600329740446010187966416482831003664377116755748771808643245442300422200122823408321180453268334),
   (34083538707133725007000564683456443763039693265624376632290146024109710198781665510926649495766413396787082234468, some 258325454917407627798743450091870812569336040099018110505663878070237553240759638262895048917834089334130487731768),
   (204261149827162037169672658155983628102551405959745562163573395723099500608005776783160087448837128019680439129677, none),
   (96048938599289830091794413278181024851914351650020571979379424499116961364455613329719427462845172854960922612879, some 82782626418790529204019400179785111312494856835011019713367891928195398267272385759990705753077938891094930169330),
   (13663379603013387330485248229985058011375724938622910792138196562183133596849219315282817624932887121674204498333, none),
   (60321970878993452081288538775227914362470504125835483710644904373567504985145065042351524216920114189881374149914, none),
   (150311386395056607177184948847199216084238044493198540370798448202052225297530006812209205744732242852453630549713, none),
   (44322687894485663825484136786711971732920835219348046954593379725540571422478067464393065465192294906175986835713, none),
   (188943122168946297882784973096435015079611229372508344263747278993973219724365333829462444220566328929367589540186, none),
   (156599739404222957528968932137229461553479395120681353062553685816409403272244165227114841012620254697034923697725, none),
   (92278497295637421556087349023006741925105108833705873350388297480786751565985355641442776132693092820104775954003, none),
   (212563146462091292509611441903062174028494411212264836596433888251150017041145004319163991185992865953416937847747, none),
   (33329232437151649388783984514422757707697344014832839677705094260728241738332427242705585932106681945085567916700, none),
   (120551701301081588876872234031577621396570773551608768258657778928652279660911939774194023227852829866325602049911, none),
   (256656186779904296939559737032503832441826464198121951646633438308947926401388600185635441379728161489441704986581, none),
   (24339248232212236348967893817007946878034080584655095079568121115352408828491890031379915888199634198031802756800, none),
   (191052146128552605893644291448547865746403934763363474721978737764720786187982861581010446220681452824727812298296, none),
   (238865344147195140346794415015701485990954406243678051070509822815861025852635668229419388581869129156182213932438, none),
   (165394121107988692387664321378258371478199805017913572806067719385486851793526474642520142639877583298155110546193, none),
   (55180584917827007422593605645889698246074804932782606554138479852511770203613065695061498648040901804546957714581, none),
   (230152607387780169833089613466419626228457291839925729045586054091779425494301508755001217373336275625080414680127, none),
   (101452794577389942421008896905814448585970023721965305332091661928400366268629452862668847670017659237376540816941, none),
   (138177373089068801194768049573942977888801774310026393055161751264700855184063578048296523600486449966839762669388, none),
   (240528448834123150774235824587315008458623519508373128717307438330874784715456309489872224154779753900268207171384, none),
   (250137154333537119676257563514900230624257573023328501057599596316389234451067314634246334067823579010282884731773, none),
   (3527281790584597688337564885396860081428762536033331854301305733029395692070488177917223862901865696849804404921, none),
   (102888370307841644686891633126029267523411828432954292780038900011022848079216482341499672566671301478359761524595, none),
   (109107718741656461194254930723600525620109054260399393799372736324123680274899589365148746644950698895115844061618, none),
   (3509734575820165151044780695685067638169728204304594862016911942873541601069001941604907001787137545820804983664, none),
   (250857248349647529961422490238503281810529179589961087695226338099061593144773778126843706983810631069818376464178, none),
   (33913342332540126582891088452493008415978824432119001542764659079663271500465859596128567138174005917319291502619, none),
   (195113728016702602406017147732943382607453797235677071686184768166307596291804464294610940251328896399338380595980, some 158739978298895287134293399343177156386713248407155817805906280011006662259955507699485150140695785136685865149930),
   (176043527303470922277689716971981574061763254870652625004661953132222248151943830131617539550990312345557824535664, none),
   (38930652954068893722272348193228496211580878880698252706712585924957861473133116344846823165227326102519654254411, none),
   (45145390771803106580651288324130467935620812376598756949507817618503480477168422939927598663380069517430739868788, none),
   (54716901274671453472022772453084866532013462297151674020035443241564869135251506399088294397098690180324569653960, none),
   (220270837955765584968096374205471810437942470847575104160794459875234570692414550924406424104923313287157836988524, some 35460225119163302521397845411207021345179914861821497770270364932182376349171454501296289729282713381475057433326),
   (88307373415155180467443029940850579178844275589401081051846903591327694885939155927292133540435007185008762387379, none),
   (72388952229933547572332903498745385420936502932767841519428614091546854059589477724819772384866491614959968662660, some 84054577087134624604640094064398793827341554360507595567820113299363788631639202762579630434843332418822631092383),
   (223719286304957743288248818344318963093458711446000855999349735997536397421665072855211093636949272514120971283393, none),
   (29179536196251990488819531409700904909670686095214872453985955043933289816235443442816193792868708614903473418386, none),
   (128541607252772423679506335535572689607246095097785916341957270584571797424144329267445255755976434243094722841104, none),
   (249014693307347804959374825371925356604154229612647350954895255483895899219168993230294203559586510237094625978546, none),
   (3560632093219680641660007533468171272497387304568485720045049109327690613381945704302821041072441558274861502113, some 122689855356771412250600222926432055209481021706669616708181237586252062413490422946996264624049309945723011045347),
   (120284113396040958378284254804519350888059065379336752073663683351950148017496834725144232163383847247811763664590, none),
   (67404315943034647302197150638222084503127898541851061403752867214811340757834925658446196518316620667686034895267, none),
   (221709286642178122964420856950597404277092839534068502753553967842604207864531684860452896884235827162524586777312, none),
   (218028364217256744414883799489581087810279796026813359211567541273367735253318382298863381085150290298462669911003, some 136022656270664562379690008101319680767051494367413218152722416130708892751372624135692471639583165670059540891776),
   (26491839656201251870747676869504164654361989791777270670294145339651766693355987048503534863708484671323794427155, some 198382291830762364929766920414534375997766089978125746529508727997744286995821144560213343818038323580296697342358),
   (133366411276076151452368469636342301335568577544685192118381770839664730455755598432343248498012338002034371775261, none),
   (159767110528810594929667830010752447289263685796311583850962664528755774839507309131972705437949312438278252581073, none),
   (71252980753922289536665570760853137004842273362614052944350905008659413269452607603846754214117067956378679634822, none),
   (43558077237833776242029644879196266175618812889996063385288066972121558983521225354363133450882867000049629033316, none),
   (254090284776449885945031363625825914241813031244622455929390685244125190612247904792571930347777902740347487197693, none),
   (94730943831383939602479734955129355332780197161932946020909748711891614248344163423960743628054408249060602027650, none),
   (7150265244904237693985825066078797397253791110572554591714830964505844723450460669553977247085868475641037307642, none),
   (153855821056622102669156242349156128935353427813459048083636682674835952811226598939418994509462399020009944669516, none),
   (39337135490616612439959928627117289810181983976788478220237468197605701410987503969743453631927851518658366373658, none),
   (31664822445124783893470514011405809273882787600298656402433016533064325105997313985778247954946653720059894511418, none),
   (250153452532216567568152743036821258764129199435523521231547547821614033117622564543169167788029861793988945413003, none),
   (142895402501765541079952536097924099698282779465204604242321265059619065966139987958115233284378440220833683834115, none),
   (162944444726640014377684830951141307378376978461258128301137743723862199415901541163675141812236961798895499796537, none),
   (65123269549394041669195154835683298314843955138269677623692475403909601350317530105133781131992591809270538645992, none),
   (166755089739154987134066451466456854056564339150410527548807785476918010330627555829286582210645606815718692340316, none),
   (244111771469941363918015859228801169763814150589043084528086828522645606330258421318444481967275972517734822937096, none),
   (245059430773043672053936928630570340724883261167981319309714233239116816950704083949868728727134710879984153862989, none),
   (36778857311170181190229842981877310715652961541081432855462418701134722519534892134509080880017661996726534324906, none),
   (202075211236245924961384128980543046009673247669154752167149759857056719737169976386705962091423513194617679857242, none),
   (64216687926590213089642881275030399744297575250798680312806803786836645614243835515000259876543091490826450802071, none),
   (197850900471108885140425561395004953436494202897851220574990601014313111994534362731364687120120848251045570901326, none),
   (228087524231897570306422956599269543699214882289805182027960406845415243634193993696816864895240935414406741670473, none),
   (99630805562350318142902905038031461410782789294639119904217922868354208756759713537503625596323792687566623698389, none),
   (184919491549468672311847963994021693968902859625693869598981974110122259082290747432629262643448100419408809748877, none),
   (203180042948847416328229999634737238592863672117425894041551545316778007782838948222514900913788380604091483235168, none),
   (4484291434236006639085924154792091218570520942699195005297251201101959170387669498140069122454375480038416885769, none),
   (216731138088296621389827247728150220998727811258758130852084165962310151740897322312088994007201203503175593133448, none),
   (141700997944796607821201334273451698913892587324503495362748206143037948447312482353348781430193065095174143290677, none),
   (165863491589476191698977530431973139298548947801703580969314605592318643350854151284822525933908669807523385603079, none),
   (150792496231291605685397031701565324762228842735630171873448855892279065842892512865958714444609102611955653589874, none),
   (84036681921888351789290845266104908601264289544880868463937821634153123298453238855591735045000680723405904615513, none),
   (30048968014470702824813270264610181936531367967166438072514462879343869855809938856765051295389477777851036300659, none),
   (220055848023358743018971548478324277260007870718286173815254638625593399184144978422877169288442664983020261917727, none),
   (53773504431455172194916355839916612970500635435019769223431645107622499589113993073786125147640866676093668446925, none),
   (142043408256380173491660634668334870562901165846360379843948495888086590744475680116849741230187630569488803169265, none),
   (254953407074664451445282787369570907342372979349132746540104413593944232834153613168534597379184001544429667144871, none),
   (47822969310741399348445719540140458368052996362828714902511317142234797050120158829101771494601204752318589901719, none),
   (74203728848440203305096966395924823566026326587081474045193826273511693130388623617842267613640912024018701232957, none),
   (155104364122407171368896210681892252730026007655131317911491897429232793897985258810108797785648720695720530183775, none),
   (156024501996234556241565397842523389552480482603507321934607862148311951897439438381420135885345954531098374633027, none),
   (179745827580517447398167891938939814035107251739083262259008853928147282871538645838688650952011088718041270953435, none),
   (248236094545852159433901644911848444274204745007869431712562809225830921576505424062694614064237861045181666587151, none),
   (159463500027259011051137734792674775870881329850933794505661959205029926703010481865574838130020441782478828718081, none),
   (9593637778906777920474845078485852629121840269422754899887641463466993825741539446657135173136433024546254696183, none),
   (93745978143145383759423078283323510230844418773893218480956704440818914516153442754267912598280051017622589441659, none),
   (140724162595679348589539360312761174297841983197085605012896409699610708799514064142819141056095029125603529633081, none),
   (105629826080113239196688050729705047385748227277071625064563540193484027891759630368955691356555382751300805669956, none)]

/-- Slopes of the double-and-add chain for `r` on `(1, √2)`. -/
def g1OutsideCert : List (Fq × Option Fq) :=
  [(1823643620269031552496944229855352482787193814042284884144175494957100842558949488663171878086549280398712275864, none),
   (23334130362273874388217528255873051489590750861457741553955120176397649153156545019016661473284139807246828632065, none),
   (117557519444957653553086700284211954755889670783642526127775776660541354855933451280967049349608211683646181906173, some 23123576297064649277161511537944201943046229139359554666392239799128594640025947399862611602993241847436799047686),
   (96631112983655269738416491681239811138023194419401060715116698047571566651922379267942872284521606599884614945323, none),
   (200051075477751726117328114529766474662083182769198737625149775777383877190204248489713352119509475772853368146787, some 64901581681070138509152884888827956346603772517581287555489777953354077590319694205448876967062981294881649713840),
   (166872013257574149780354778743880244365185853202981426330023794386466643897408042665543513270662952660473990807578, none),
   (241796831760379295131065136193520568513513437315060999859215902130759054748887061589898408662605157696177120522447, some 110154964424664472237850379993670027484870011651505999041518723113483381383018665995407839496039723388500910498242),
   (43809682248948447039622018936037312646446144244458577746175825391557749866289351128122478528663080660416454570454, none),
   (123573370890777241010614295393437780745497413281519523958959948519077699635872483303405948847529117602247908605908, some 144899893090118369081735866776684673927493934352842212080652759603990415169437225850992488652583412495383127187378),
   (124777846785673579201649169703957379531130971573693880496700870100995534122812944100211430128154073193911376307051, none),
   (252649744538490954720118932724589757895878421838507954778989225116558850809215741010638992563621909301526785678987, some 234932118768904611158120197956541673959306057981012787252270149129781761844802430853128462033817437209389685184409),
   (167169754731953990451503527006438085033999330338926752316879751950426927409597496887539146570483007186137924681124, some 118107968493989726490837487489035116457410037729282547809988098346991035330126765933719099521893555780562092128065),
   (16903748327772317003784113636603191402303445566404628530516590688390618666432100767595715094965418874253697677525, none),
   (31068930519892812640814644174503222675134761476317066399982442982810335688826421495484133657046311030522718382225, some 256847238457077580340635670155233021903254521831298426417529853953674595053489373705317148012925505998445827527173),
   (163381386877574317449815204515749669772137746491365919294056708263951665271662224827902649654857564749615255587016, some 145788972857062824324940039443802621952166359768064385990573536766957025180697009411583207259374473843798021440281),
   (61857229809026278261528573120758824934664681981618551658495137573615281616102135427974446397293784196866459798886, none),
   (103684000454823644083823364915527921927841767259357013676647947197721902076387701907051896843110028627979760994822, none),
   (15275386288085489579034415193910885220161233052338957137672367466114005541487781491638369615085660509307080041775, some 88382335470295038474101983372121219859111337571021825823179906064723326552114453915893760887706838446506037595817),
   (157604121981411615001549301197559767844163049501810945461375142674727555814954979140020301380891614424284289588986, none),
   (163422253433972288060800517542560445603691280066591726773584625202166461256905365999226929430201737311228774601979, some 119147075189176808542999652617323974317358349929528865637424242271708223281542824380350079504096323988166268019969),
   (256934480204675370245466274531885808004410622555765895211166436158499217636482753093316786056417475473474183813043, none),
   (1376057391690313543084495125781531496148642984849182940695167339274924850050178200778884542608760372659188091857, some 115103848541349111757205939020752848696899146590771276111755876552519176495831944453502041083305525532306750030899),
   (104341759997499665778228140212048377970717772171296924482446113314123496816451799423272203182949549309950208131576, none),
   (121042969815007699559870234639066134879288609852444652510083622611754751088689364746225584970641864471942406338208, some 136914339095761921906818054266515321041768753671627312943406967761104306360755933723897880185082051144555480150766),
   (58353368677233286009188559455980876796210105393380934547569783965682211378685456816833617385232905069303984945679, some 74533300747301404795058027345844200546417693119664308795717476986612991585751674935460508153186907606243086044406),
   (26344546276252979286486680950569438293399983972570641992627230081560169890315270996964534801548801079443618565098, some 196625929414347112209019812759172450497634954965816231101428583479995702996840991830373760044409562940990018361185),
   (130490814421494899407099821497281049250753721533888646036348388823369453747790838384402790682287660566393741610529, some 125936147974349487160845845231926990220414896141107604442529912576588264476891530835069714499306082737269571202881),
   (153666747113044913746778681425441041314808957328176049450689944904026287703686631104780708386215767625132088337581, none),
   (246433849658824391562511724410521625133500812198953790293851581473483038202214834451667283314480589825798466898304, some 1030030975986527915760860411719276116101316637266316758574827989180502626832475831286432991675302544267603083132),
   (41515931503326892673663548378264167279313514233002980997216835440019054155688288512567386550343177705696518479056, none),
   (233768710538612229363711122246929496308577869007601267001444367592986827590778723466602471620331595729197077385527, none),
   (169742097215161974522948931252420729817567352759422099030711794560875131942265320463263305179200287480691088572876, some 193018067713929397003436043605795401966628259110448220865713413131250100875210935895161633176031665224164434154197),
   (19978705884829095545415716641834468711190033042255762650154905915410269967820656651702122763960482121342482536919, some 21024883384428710157556251991752781292821052711525164653658192662399340813885382855613973170944412521488847990289),
   (85049554441517664765470331931927537752264593265005208497050189324460709096069215961938406121896244645866264856913, none),
   (210290792542568571583117194304074769756622029630000963692871350400142668120668151365363263173957267284941548357161, some 213831010665089892214384774162258762868956758620422785381119966971223792849898460473204021516259646205037061781483),
   (56541526330530611276526498025920926467560365939243918111760096265969449768297139696410766247973521981643347028179, none),
   (58178893526976264072671240193086624784805185280646434737911525049245586384633625755043320980752802926056400443394, none),
   (189704265027538539572392056764598509787465100617458144250283537200533785113216535429863114280789044804024274742019, none),
   (123720921780504076779585412211198329845697907105025386791180155011531621306737118906717029075596563472191430159757, some 230298294511517455164468116692099547629290174551083899221834379137105942000464645148963999912247065206264063032856),
   (233953163463445654373239945648343264802888585179534852075362857598801551381972400671544152991458259019695566061988, none),
   (247321598114519729321790296199885307862210352721208438505936304012608595060894844711915556566596592296942751238510, some 196198268590419799369913389476822447538957021394769504742465074929025716387877607458770744536747888000663171379752),
   (188349333584252396859517682946194117806698667149152472902714763599223836949450603432363697717465565713306114323321, some 85654422647166782783372599881832537573806562483355985643737398655382459294142849476917272060642598263881105685173),
   (67223356619608653107330672757198425902971019713837347971439586556029489518316717217457850168391977267160921059696, none),
   (34150311364575626494146672124029019352317898116606770236840690823614416644231288467613829448216098855814088922881, none),
   (230176250703490963328516355562290149464837758993477265707544003692919588931009503690225773812597346680702689787948, some 53071402163014708547613838908142564338391823185718598172617206325675435264320935158712807340875403582053400867659),
   (83523256193838770055573188949316837015445330717367259484708171939451952425188414820878492416239557047267281712407, none),
   (114463546758940070050716910767409839178730491306119217948671168754943940765519983765669625319833132482758091251772, some 227784230005372209630963984584123391995625797728468650075027025118631122473855841624752525609077086401054749331752),
   (31628098954307073521966830415429835283519672453442923864904838507597131598506352212834825883412390927993232128344, none),
   (117825548330298441217637436775200513007211381900033765026974626828719598452772762966478370060926990593437894617504, none),
   (58676612737419512666669303781514108788760299043309178258839160240969688567836271803066598628910941007134131208535, some 219718108169991759026397125969552731782273228431744624556262234696032188905581790714483131655022519459596129067096),
   (154752359857819193835009848195221756971707228738534872582561305560396199649458238059221397053411536123875338361857, none),
   (257612616618923999871753428987214694085571511465430719095057641532112898342705465506124368686787286201320328640296, some 62914900466146878820594885556988836349190594726606300856988862035694344305916377934026546933897871181042968084347),
   (79863405106603016173982233818682329805127922707098300769360407318864953608305759313114769703102131964218471515718, none),
   (176900495674216279306278372254946935598385489434325919087545056718037089096864230517724413235741749536995724842876, some 8146294194991879621122324540414950903676919296418126584649639946810347029775663685160690356859645990512641758980),
   (222319763410834522098805870720038071078450740019711425015860034819077467799497918135880445666430623521951831647664, none),
   (207546394494234633241737745576306308759524212901469143261628390870282896096009939139175241323992673953589864895106, some 65755608240659260084935864962330889533814226305438325503172100894198824887095401528164649606449605269898037359337),
   (30325916416554562850951074354435568785798010224181886645482482569127313310640678609991143646867188884560115441279, none),
   (19560273162571427212087794373324221649647821420327522675695523451394995642882496213622707056663324979919669466717, some 29005035787949085541981080541592743019246065959652007623221121508679484880275531356208272877402723241606203512267),
   (30644529871651207658616384975506418883973353169916841803218982875840458258458809797433091728662376109203510873150, some 10657058166840818481253134518179745002956430050955692854462093554539374700682519190393998477071949915636955632993),
   (10322337988883033951147264947810778053700594928448863620416768734299689926622272611809785851936984263917769746003, none),
   (237329457103433404300359438301971989131020407561540363202680797972743081540817698151524806527022429831763656853044, none),
   (112704788646846359117732255759264273357050998330971948165431543304814563633118547853113820202887057010244722813942, some 218716899935752959669896856530604231784396630127318406075048941400728226826682435409130748813700895091863963496122),
   (206749977646275284576279637540594664823217848029390987028776356808473995673789165665726769450455956467670133987984, some 87446129447862975996645462456218309929564732615793753019224621724912125387905727349102647805131349412836352928437),
   (1412840490336402641727657898559880427820971538098675709962729378710744868687460907678583702336730827176244423060, none),
   (103409203039529943198455430866737866993952337956306910586047504021718325067833825278552922338049878931762561855155, none),
   (211547746592885901555638954399698116430431451391823293399735932516319626464373103781239972910470368684915169537917, none),
   (93287061468444397434525434685897659590614457540738821991320757627967063324007515234090857543666265180489808916642, none),
   (40757090881979299866717264467179696457655031554139464420557120138049850041903191651197080937005490018842536369894, none),
   (185119734811327383561032171977229554896457771467614436029200098170585839092443042227465126346130634331072865451021, some 215664836697692771275030754378955458263585242699265202389691880330521416766415618256070094726462605890813061019807),
   (140732692618382115224919712786037516218470616336664796095476483685035047701453098588409319183340698931418296948284, none),
   (62636659978896525192922253841178701792025788771025767432180379037524643480536506047174574410007786880320717829300, some 150431598528019445677435884759537787113449475316589742351847802966915161958499513131147027125310278362729360102938),
   (209976809331486710023265436044314965809334070914018035433152774437073488152842389941316400736094570734998379492382, some 247064043768263772074551635901363607667917577797125108626707376373511082735084182839312025946789500288785878643112),
   (177474797547103784135670524076237431694828026355420936427353223725524779936221296788609677743474052300825813919024, none),
   (197935219454271345298298527739336252635157939568490540447266440299331066720960318912645416972974804820796315066883, some 130275953581204106681300266286611945404941492540197478322665956594756100183571418151898467622788529506177814865483),
   (84503194758055839072998146440111288467775209703950154786959925029031499799521290542207349472573741665392532973674, none),
   (257542311816828169054707737628297348998486050593551638361643497510138021013573861059051966490046489583812860814592, none),
   (137872207881767381555409386781820890653025102365947514681293864211439732166488125334366000590406047121351416106328, none),
   (158079099573672723869276913263406635067590958965469683750002013098193201729502869914215652503455995802994201728700, some 26711385496771930997680021912938277961727117862276130509009330265504098196745924366453702764432890741407892125483),
   (1589151477042924263296821553795063543416909525604353425996161258786575982922165680059662450549099675101621199629, none),
   (156998567066013702755642351757024747150705268017601222890188527313551433087353797096967751713136539312826479866810, none),
   (4868093812496035064984272019183025961625843931569544624151998571377725910096814942507518462230763043557647352315, some 69875190195200416205466020462312385960372152464182193252781870745453229203210756685584359364050290152985194384148),
   (231757031723666942766964805793444926770220072983308794994733029957545713997650188186308393906801444376365610314995, some 24130442871634517447451508859640603096211207280510540823069797343454307009190006233109738240272125269121648698412),
   (77448041812138757796936839657798840911942057373270043429581424793295950310390772432687045446680259011554262024187, none),
   (115331341986622469019518092015171073825642467411543655933958580131842133355902070691563574421342183625657426775913, some 3731712454541848634426592352288250439238205540704961690419723162790902231353950443730965792757039670988949450518),
   (239550350654438013420688845088782180218528620279251270936411725267945315038798585739844176959906411222434053036590, none),
   (14763982339945303849526259603673057269881473174701832534744650681835305730314591380707091632277660885964862144949, none),
   (80001801688959354642394327327347294240898256238583059881519671823644395661492592965860249335300406853792986434954, none),
   (239775492624742813845844773829188816540687299003654458802932206552581430679690121267563031729687559780671780333455, some 49264912552735660635962205798064412987218868746788987782057913828409933392786998171440600265543226420165913267826),
   (227471378408798399257605761018831426796751209212111876699837775809237997933120810393676032350197104828989557311979, some 11094113467860674553936387623945597516438926803981545928103525161620077567806056061906656042100051824446248621703),
   (48134703936675203184239627189782566615104433767165494728457494948661519887714152969965813945893491939816097221467, some 29890419297781146429303519375774537528788923909291647463382960595241659839921538982498036354817681081817655615331),
   (216654919603978767564499321072707295382726564665542462119422701538593212209944544036110430359972980676550435010765, some 209081893514485384274150391183443142975926891053412679806345823281610955756579543824933068923274673648229705111368),
   (70869459750690974314247409750179412700974920320072393255044902049309784772553538065622308361637780989534025481093, none),
   (125252740993675411763548169918672159195213994821571089435334373638972848685374348309698371475493998110766591037513, none),
   (233054543478079813632006579258113305803605411586329589107023404298378535614119248884897975040802706888090884781441, some 116440770556483071252987080318791565091510794323774285178906253530092049364638641481918658634738889022007966957377),
   (236546812683997789288955079425998440712340291696881036227334854422400737510663248128488939376728642657382054929259, none),
   (114216116109317145407502781203436524890696892154107833898684253099818587023878774262126912312604893292139849298922, some 45178843333001731505059463679666345401608672954718838007981675935301390231632959686643787103792155835995282079757),
   (178965355592764240919451402027288713093320663083876511945554785148709143778371837297136588905559425945748637967103, some 236273351960448861291367638167427965735118005337559679742231219099973039294034609760873559951806218311765904633116),
   (132087986557041516266659842132970784358496551717068904790250218147516366265467460542821016455692409549206212162760, some 105201176663129527155141162175250740237551146979997105068141987283188165782628814894453744377109573079653122170852),
   (156958549906824209736168100527128046602459199042735077994570472710489023524212097167361270097200489240685551759110, none),
   (214999425966608247688921171648635448799951275358226132774800983632813872364460709976532380474123542816623512540038, none),
   (215079857218203045280820931666488437734172834167090120091665588521173011875522455590197038445739338308506132093180, none),
   (72378333262538701849704484880235103486512848256259272871267621671963639940836255841969137451832986584538598791166, none),
   (40244924832272014412974044636913314271655757871925348382715159820394712592121223714506345996415487989464356278475, some 184565607788118976354699512734936541163380881515723735821631033165103039866870212939376043399115438589665189311563),
   (158218580015899347149582582756118366509959771024661288313638238316647799482126544149519734967934253836203076081501, some 226677194594021973982532421271689532609075193770979619392277241743696906337094577170363301097529023024095004021827),
   (137500415662425827613502617115570727207991568151674381040555463654732351447596775819388904528108799168891679778738, none),
   (245252468296391242669159863082841301263869175243348800018286521766894192575192142614218340022980444626832837457547, some 88428747702669658526596594211514720037403520631244447368163682104749982109595899120705477438019309406170490695653),
   (173768489030822855709145336145603216911967658650090660560605076659447335700145564304417731855076792530981913107225, some 28791614847977230089414269351256247245279716728836830073188549935339741697032424242183354090133055768871166619437),
   (43131114256592562655816872838398514831128785291505921713276668857433196651884287449661532357402680687365062659983, some 193113676262510159690477357462042362298437150836024910255595592088675257511169681294099809145922638181587315526252),
   (117330381389492919128375510160202949936705876822375081947803305716711418385419919751794688095035156160756515497171, some 126250749189299963007339362414210600217908261782534740913730469804986770058046251981994427955462183119341259807261),
   (40382915916762358857473493188082684889048150710176946198862739128497439540642517382358613724473280497609209433753, none),
   (158061391170512579506257367754775782131340659423961551899681630604511886943192804019917780689776136052269259919860, some 18589642129110774504074376433868535478985173842006664562052514866917698043934674259212239506590543877974701658241),
   (43253990938474917567949517818467690020021634913455026789403161659751873077857297882224610745978089971336558434420, some 186525785665308143943003142887485314055173154945797962147953013637594570467675170176970858444646849858593183405013),
   (128775940952990340236816085289752024831509308821296883011629396434199834465800871309035289857367412053879354809549, none),
   (35971810411523909454988925533220953699232785995300993576479926526883898513972359554553341813198709916805451243206, none),
   (192444808899580347672964468352760083298945964054210140490376785026728057031486332976816801979489622443792976295592, none),
   (160058541504867311842449326681144525521692948379500267685323471800745640999480949348699799467942847873944979775180, none),
   (138115016996134128220878453520298897315404105987249300043221583603543268866776052929393543875213080560444886593070, none),
   (106338278713934742979022207460429512907510387450809470799716237216216237018070126661658060068412574003755014692578, none),
   (19810652026747710736954941212553236811044431771880931992874165303169356101545594373708255843647898409946487950491, none),
   (250889163552023807844691525615168406767093322086506719763738089493399405988204192650289209680066861119038721317428, none),
   (239270119241523964083348075453032173899535749223718572204170476598957377954270640958452588574963468656301010765894, none),
   (119470522045166092098232768513786273372488568075518975763725287349574728103740280567372873301499859027081251441546, none),
   (8852998409671309921953708960654385603610429678243885480450878281368255094976036231985393636601662038293986523508, none),
   (140733645264422024598751032392205510875491726189535954461507782553942259184104510786263764927590851019126347256700, some 219792430355668332222581806664623440175580605381442791671217866974649497929574406282585603906555820907216098811619),
   (235354265390738705994283759586330141582684444825165018092954122077702965418162227559034898348250483242938866237213, none),
   (165904584919415303481355710583816706645891878906050189167768307659695969092922538579228439350502441559845770647703, some 176025754782152365380227681122490042774054481928596810520601756813157526371095121640616287174748011105748241233253),
   (67438956240675732059776735752529046932310116840385334829241014635879270146427129908481577989729413647574266277752, none),
   (220538978754957634163462789825459862103059385353807828048470366088630373909220747245971109647997077487971385603440, some 166324958464186160913915869466750522807789385224635340462634205699438047740759119435593521431444154870463041743233),
   (120392390024808843484174687032482855205981222070028205735114254538472747799255302283168200335980069600506336232791, some 117553318491479137164536301271603806186028750320465470677621283504692442814793657315011236334399876406881862012321),
   (45637372091314654757046709473318814457642829981873992610795861388630230227488027538323419077294294462460670600717, none),
   (233891428846596937308269007662619440216012504102799653139806271481171117562451124172717205343187115252411616847561, none),
   (190466660089309336634002879493348892826681858066217267804291608233833977815757498229505489414608548312632021892604, some 213119358990689437204677089409970104521551910310622498829058632923231674446422166364686892633345685201219436894174),
   (98303824313087784762609792609147574772739767046807138004291705625775415802324816530908872400602196153443586212505, some 74144026003998744596270613049816056329966186934109970933394455872843711381930086941065768297732857042336447771854),
   (18358340453820066699021461582107030271048421787484662233732144597529208130032992475259154584315967608224250557689, none),
   (6037214169301757585467871560441408389401424330020626849864988749839361544531184159009527640407041597797852751811, some 158263881108203177749809367723388203316253143510816474297587299193409785273728364447570373476931426275220205584594),
   (146581979772720462227561720471593387763579929084265536016925198419545404297023153271158479627163577923867147761924, none),
   (129615843967347201058815574180593337232005725491018305603575112972576010358189626833890207560429496189973787412990, some 9464923649469557045792778248282660119329740499347971728547594555034212431029193314954900026451559707938915889920),
   (182261996936658807789178095087328711154657620225585515381831445294459186576119360774708285983043662670032753745017, none),
   (124918073001193790362271475084741627921765343460940274894597755696572428049701282052630462057890968004219135104754, some 195289323489314430986923582664254163847100058694123182684694723929267651862980496947865845026130535794555014446382),
   (147542814685118861864573925113929491024487003684904374282382063670462785382063021435629702215103327954666369777467, none),
   (95603444039285695626307417844721474496617789503165042950241464869447772590990279116452253227096214878707434304869, none),
   (121287195154384733460538593166809576110071948901657102877486868103071271339702864205779128164423661160820798786266, some 163441641447395986049688064225900336392666506602679516646766567836142421853293747906503536024815034445959046754724),
   (127754237114243352613600781739429530333642952686104346376763545879437981936933389719669865025779663739314676815919, some 20256988296019716038434946006734206268551244525519366791084223033714767114883539192788942618142292741068085907596),
   (255841335425702754650867400241153588137355063816673451513925251470190190172048248088854337790919992401552568506678, some 41096209405728785560852130820001508563385468062059035170620846446588953318200144229830306814937329861291677357490),
   (77907067122426958323002363832163689916132265309106191562631226007687674071909706757127324198748028060929706082718, none),
   (63414446379607068607348310122802717577871812975423071267891145190195706126606103559069624073647281084652089966534, some 9062510059159884325185792115013549776661053290595678276711609232038975631875018724765660552273018524484479717013),
   (60927674959890194359178808584375535227829666316297025157246542941185376272577888596577178883649530848785514564964, some 33378486579339339931892527955898807537975911935303011368768162614927958880237184800378328426852184020479385902900),
   (215940823661360911803540432077432719122118696566762211443444622918146500218715442410464602711307136511960700407623, none),
   (42657595934166553264397362639011663197419782397148380625956883398982834996488734863057823277770730317030168161337, some 254878613327348164391481830156985070992642214248787303605072976610361384473119841067684498850179002309666926317706),
   (246309498217258783291424801633206963357551817248358778236055743397795040717858453057605090015578770386225335977607, some 120253653942183930112470971166369417489902579421289093898861503796659442892690103400138439097999644167558906335243),
   (111571599167752669918218469837334940710344764663179580142504920228773056965046128881439122581075233774001217677714, some 201450759353621810756472672801782775056638280548185413173603009679046583871040538067094419657160138352590330224818),
   (201508853142620015901457443602127097016915480957089403566244891490846885560559098831829214230916385942763553685847, some 114606976720486957187106997231934551865252248610877132911135774615436258102722054647199792626175313916200689639028),
   (227305242218141935520698677990417825831993463733843556623001132614703961413442023136280440332375174011432747241063, some 57804683444929076096678782819778924049724785148963601858164277228022390965371452261261183705482580051951777104481),
   (193188261857852040657647339395402390137067924773133753389894953877684775139491946784716406006847866361488880982271, some 138070217229875000577669285146842627459741614526240710965834047257440279035135858161945351541707308710574217629043),
   (239670406163301448426124470903583370048043446714300624202602115345145474941353787630653955567902340587959003277630, some 87763716615241661042761345514102075593501642211407633156567885101275927964972252371094350446290172667812716318185),
   (31150345354046495583426673013813609729763433353913674558707812301848568501439050777198023937689454940087562907808, none),
   (77154290110529222122868375357726651003109868457087545588009719854654392836052065856057394848836449083308558643800, some 10413393489713039338862048367841984727189401346196233139275005539457774592778409183482942480248249332694569954188),
   (36456348001220880428450283145342661683156140853034209931823711748475343191698902394079945236013508604026296619082, some 176145146811946091901516538975696329369608889467391960557703824120118242090784178208486051937193704813577229390360),
   (78097128905928020650600590521475950912765217350532347111269392076425626770229375723512004263712654561076073750002, none),
   (44104566914640824953195249649833601810409335495236317258508932789020369823454494039737325349448680420455237405358, some 47506853841812856056085309360021020808492395077103298897477464545133955262487598434774164235227240213598343546503),
   (150279234598187036380561395563487718643599457630886438745795618718177054315371677448185331467866871317736253920572, none),
   (80131747258165037506093608497352105070620299718936184319401734294109703981668505162547633280319558694348888395747, none),
   (70569204435605825704454308603238685282676095878112499069134371501121452403136508699174259453782883468634962830069, none),
   (44087064233513028512337131912905886892546600128355262798953426549650413888009452387064926958359607640621832690360, none),
   (6153271106033499556467220378209632732467192887431532641480209960121716227465041650544613368451868250001567423056, none),
   (213503215129576379425347582364306185019660494109784628207380711069787923884620393396802164080577990481980563158672, none),
   (148057338698834808137854669179133089563592195741902033642514918630753303243148695740271480727455072714443567244446, none),
   (222391270964504620271528007964744150157185353308505283839888588340539183988707655317394852580599747698973088089780, none),
   (176462417712263622832197013068926241792347936995807385243351864231178278831810575128901355224017699777055090666822, none),
   (42181687822089934680732740129693691052206016590025200061131552810220063192280054626096541389012616614506484391661, none),
   (185783433096050225996460224872316517712506573271336517137393110278912536828579543934526857187012978933263464524135, none),
   (17107690996783390714063450543633325514941133313769574770935075229838203848597422659797348537123661133770195730888, none),
   (227581071415304836617994252241760910110740801893307486398549654360342609120627956336744932975349399651879286014492, none),
   (234924914364289665815214951473989024639879299688185007531336519974801517103826471093481507378531313705261556176822, none),
   (46414122921798038886973898802253669118931690916989167093519729409649154541157204466521970921170680072516863467734, none),
   (120464561920588257925471470448337099652749698200619072935996224993367604083243822127113524658452712219972113059395, none),
   (7209820181293456895327055701046807401592268879371029093300138486195140337400848986394816775170413756486084858542, none),
   (239543575275584598101409136197457168724916699771510421491001091267696841769422607241876794965984049764230884424732, none),
   (81372955194861959161675281374694421706405837087067834509879631508182585500600184593848850564784893306897539733191, none),
   (97368410216591027770310596210584914346645032842464204699029727976474479787029158786008846092297727630480769915942, none),
   (163855075775330573362602156399577259100836075488028161893809944284111552170968138372422343687888153237214087212949, none),
   (228470328679080679097967879434915258634459664978858417590814963894459965441441044224311557589300041016734032882752, none),
   (201389232933492389244907695031820776902222232842234260527660449480299566477136073733129183036458206639599971925201, none),
   (90476140893106983311914944896683985207680173654247211164035580913168090312658187394507870985170857343212561902513, none),
   (36940447210730944092436913547511151752663186710011821935340502891201898334169441880317013671645001477015483344537, none),
   (61549250348368908023682914632749325646305920927105841487020985530904632694981981785396221286129468817775413038745, none),
   (18503770032704785106376578868720483990109600485072917605703439719810567675283482799489708214743343748196189865928, none),
   (167761316932579123157163876253740866140376266705965067791386889796141553600342312383615358549354371458727373400048, some 230202515781290690849973763557982103483951587804695707735739944457590207927752953116664261168948649257842647167755),
   (178668182870820003818665034800145875107554101987673963944551681713559542300716210703132517067784730960869825998727, none),
   (9727144302401214697765880252506233910477911115298919065888279180597222931804584822038371715302206865650156712263, none),
   (45745512352698147891502434195392035633543153667210701213605168810659383628010500837751783178284470694741110101743, none),
   (182406570852709624634125132604707116099329557197858065852486169895471979086778765504090975990989903382835513783943, none),
   (57023933845030376234325935758405003501470318425026196267264190973722367977636809990805491155664330384170612056255, some 147079907082693044903091267881686095032096122086517825885913640185698866095669224304973625275686288091852020334420),
   (140963522286663679086395935538046331127350677257870583461749385728375483494067948561023541249042982255460076615576, none),
   (90967745840735467665707714825595684583443465591988738440600227219997124499802066255055380602579007925559822616967, some 9685198800124578403475118691618180283878272225016960602733332510741440139371013961830977242102616611375912557854),
   (51835137452802760510208059246143919249229182356371637880612389928936206786191022207614088183042379309357915353655, none),
   (76912131938618915622733624331902033833077568917113599889230085785631112592264992381757642023125453776527157540044, none),
   (19228940303231618197413263711204114966614296576689352405101622366603421256824526190307746142865159971435834387163, none),
   (146852083301193794225899066539543243526018196092035488811489787702307395721728387280513078502002473443801342061755, none),
   (88738100873540769009658309213941185708878394846522214336892688640375175514119025773706195898495992930309464180682, some 135937007536634843600513689056087835321978388322611862925078154653004432869367899558468963147463659617287239878636),
   (240447250192165152094507903479762800518012933133658665530052424683743659663917815694883761745650743029010872129187, none),
   (234040672145989895226878217952187834921507423589629933576890055347146504929053658063330656865732020257145695586110, none),
   (102562488608841543609767279918600634217678803401571528782855483570365255932305334060910587908539813167898238317679, none),
   (3516609877331719974757136908888586173688278277429203204938386756932774432899588085819390036226295872207477041334, some 30767348792717770052200442381306705317042866224989469015221766992898267993823275231006292754582445039757335404774),
   (210118795296987421295074832182073344368778515563930393048032063414698618392621041402018848463624962969669104074061, some 79907668685304231148239263570255564297674787997815329228952005032461384267514828446973904194552676979461410238246),
   (229046363575974027018768448864670164434616770297754727361849755820966826259784380122412124293622927785152834894740, none),
   (247068273190867608944556033822034180274112338684166518137251649413297276004029876173018067188465896451401088085050, none),
   (73917460777530837461388301389620533043067043136104053096346736110955837292897695538900167752765353266082937594068, none),
   (161773415452093069353174536714903744862395825948009723688468710567945584442168160665922548575308880171523804787061, none),
   (253107178146873829372740515673897812346061393285579179931710172603931587084268264880091569513148376657777697199267, none),
   (81310819189960667496645133220285851594095401801639026289393130317822538047541256647827994158898321655441684773803, none),
   (74552168832452414868326586875722735120687136695610901941359525845284675975524337852237170960349611625788668245507, none),
   (219348920701371484068306682291966119328553517290155847723418609330057286504807541180564893745766669181827252508981, none),
   (238609547183921479089226412716460748829041717498973127325460044180012203149568447382444391894066346528511597104245, none),
   (151884174748701215368401972178979717032018288502393311424779280320680389462383593903653308106571735267478832969540, none),
   (204769501738509917549983157012313648300458371222795615233516388197684332444727523948512992763176380246787024776511, none),
   (113192707542250251101591451785618955187740429869469304880690096947265375814978814422369954925614963359809353973923, none),
   (92535303427010738709253913308285763842032377642979779543112611751347554508199472482729900166538877026174972640997, none),
   (249800026045589049969529249713651620573880630090541579923957387225104583791596448245454988470034258619138948296159, none),
   (166037016850952737026727615990574326036613134811877059994310765698829577257100636202290833932129478602322223911620, none),
   (192801972364245587302910422783405795684222627494982630394784893970686166460398655603347745036409152396471200620994, none),
   (908608171293854531405325627495730776824822242547739038230864378773915931068836734548470337315328409189553225865, none),
   (113940592192703107484796611517611046086004989245740179828649713635563184321723605480149529623619110109761140535012, none),
   (167176910079944751566420454297726073042547493891084151965627144402443181495708709261739699170104060819785019793194, none),
   (129049315277707126243020145967840968603646691928250463722863568285902763653016916535822455716080029970184179390325, none),
   (235506934047282997478120724442434649122447701062962393926656282329990245851378692467719880997256397360432705066780, none),
   (35721729355664541883506954851721295933596840248549904635756304265563724026076419805610158961965403617606292770474, none),
   (132374893324985360766073267489443474802126862936291253911415790999096545710880321717160175594444498015482008895295, none),
   (36398436819468351432885470729486032488575280110243754166150187890185403063484508080412350007451914166342852083099, none),
   (46065025844123507082796497340390739829238040613194549518440253275332133256741619362528223540043238566347588383913, none),
   (68694477231365891260725007010800508040648436388983963695073185027368071226741626855770638141160948616536867689671, none),
   (65863049346848285901174529788048299242398038668007322993081835916898064740282411476346698666027666851857917315480, none),
   (116990436041187107741809316304259900275333624988765596917171647615117601573601112318410943135407781136868473095351, none),
   (2533258699768402132016068397931471578284141571180695430292234676686121365943240576777921203211684962251007083928, none),
   (227900139876591951949646454238157847904920768705209366766211272400072597716726184695138711520768858843279947358241, none),
   (60971767487741347030090088120593058120747897393292007501526090169676326818833398255844007590323671256832546669467, none),
   (245036293137675122387418450416222436775862545332856491875123002868109041384535079863277796775891610448122397139116, none),
   (256951411598637138861172800376289268394168252049112356272636142119891955419498778253121110466503448703947633058349, none),
   (99137958459783380931591829643755807145545021022465205997398172512247438699880965439481412933647690661263995600539, none),
   (244084018526275023434485326789227686624085394875645348273440603078466535758869251629177041881202219624113287256800, none),
   (14485918425087462732216553603046462844468581031962703809595877704894209067881181937744774757760173723853225654512, none),
   (143337105947065677956728027769417621233955696682395408116763719814449624134392214119253444495606917539138696532170, none),
   (216528457277166259266178285154719349119333746038541568785520213031352167262695084215948391853885718681389261912557, none),
   (181055176018191724468812541843611866098871494103103334074613160655853696516249421119859704627794482416701974901176, none),
   (224889917331902110628541263778481270389618604831789159474789067738372449100410953648594877778839185247173494203217, none),
   (148650327145902105450213750197854150074244705527598757242564826486324720209709341837044351328897160077108497196062, none),
   (41567732318870397391399410748694174342767687929275917960325541464548417076708773756272994492173280401291248576176, none),
   (116391885069853593832864564344071188948382867980974548623644895213838982586502347212032759711174192492058378225133, none),
   (181871872983935465341831134510316560536924158863163323556407468169671059817735582953641824528333833725421169586027, none),
   (174707034318766418795615633315826717774667680023570271414493788267270336947265578967952669608846788136295880156046, none),
   (123331887027236362826096815573745456223061205000112237964955562782477709212879132037233128941858773150370430524728, none),
   (154698207961251382888941177622079794103390551215173209168691401412059210706360574506944761043903829479125906443777, some 206400239278484791066559151339646508538859104030002618553935248799692092746867891040098575095414939024810476780517)]

/-- The coordinates of `r • (1, √2)`. -/
def outsidePoint : Fq × Fq :=
  (123050019337163607234181098009618624570124840027751258864903673395440807694093189280108518204131722183527904601216,
   62620969496321282440829994715306204195961988530239931756910394155661815221208408579558288821372625059039437864119)

theorem g2OrderCert_ok :
    mulCert (g2GenX, g2GenY) g2OrderCert (g2GenX, g2GenY) 1 =
      some ((g2GenX, -g2GenY), FR_MODULUS - 1) := by
  decide +kernel

theorem g1OrderCert_ok :
    mulCert cofactorPoint g1OrderCert cofactorPoint 1 =
      some ((cofactorPoint.1, -cofactorPoint.2), FR_MODULUS - 1) := by
  decide +kernel

theorem g1OutsideCert_ok :
    mulCert (1, sqrtTwo) g1OutsideCert (1, sqrtTwo) 1 = some (outsidePoint, FR_MODULUS) := by
  decide +kernel

/-- From `(r - 1) • B = -B` to `r • B = 0`. -/
theorem order_of_cert {F : Type*} [Field F] [DecidableEq F] {W : WeierstrassCurve.Affine F}
    (hW : Short W) {p : F × F} {B : W.Point} (hb : IsPoint p B) (cert : List (F × Option F))
    (n : ℕ) (hn : 0 < n) (h : mulCert p cert p 1 = some ((p.1, -p.2), n - 1)) : n • B = 0 := by
  obtain ⟨h1, e1⟩ := mulCert_spec hW hb cert p _ 1 (n - 1) (by rw [one_nsmul]; exact hb) h
  obtain ⟨h0, rfl⟩ := hb
  have e : n = (n - 1) + 1 := by omega
  rw [e, add_nsmul, one_nsmul, e1]
  apply Affine.Point.add_of_Y_eq rfl
  simp [Affine.negY, hW.1, hW.2.2.1]

theorem g2Generator_order : FR_MODULUS • g2Generator = 0 := by
  have h : IsPoint (g2GenX, g2GenY) g2Generator :=
    ⟨g2_nonsingular g2Gen_equation g2GenY_ne_zero, rfl⟩
  have hc := g2OrderCert_ok
  have hp := FR_prime.pos
  generalize g2Generator = Q at h ⊢
  generalize FR_MODULUS = n at hc hp ⊢
  exact order_of_cert (W := g2Curve) ⟨rfl, rfl, rfl, rfl⟩ h g2OrderCert n hp hc

theorem g1Sub_order : FR_MODULUS • (G1_COFACTOR • onePoint) = 0 := by
  have h := cofactor_onePoint
  have hc := g1OrderCert_ok
  have hp := FR_prime.pos
  generalize G1_COFACTOR • onePoint = Q at h ⊢
  generalize FR_MODULUS = n at hc hp ⊢
  exact order_of_cert (W := g1Curve) ⟨rfl, rfl, rfl, rfl⟩ h g1OrderCert n hp hc

theorem onePoint_outside : FR_MODULUS • onePoint ≠ 0 := by
  have hb : IsPoint (1, sqrtTwo) onePoint := ⟨g1_nonsingular 1 sqrtTwo one_sqrtTwo_on, rfl⟩
  have hc := g1OutsideCert_ok
  generalize FR_MODULUS = n at hc ⊢
  obtain ⟨h, e⟩ := mulCert_spec (W := g1Curve) ⟨rfl, rfl, rfl, rfl⟩ hb g1OutsideCert (1, sqrtTwo)
    outsidePoint 1 n (by rw [one_nsmul]; exact hb) hc
  rw [e]
  exact Affine.Point.some_ne_zero _

end Verif
