import Verif.Lemmas.Edwards
import Verif.Lemmas.ScalarMul

/-! A point of the Edwards curve whose order divides the order of `ark_ed_on_bw6_761::Fr`, by a
checked double-and-add chain (helper; models nothing in /repo). -/

set_option exponentiation.threshold 800
set_option maxRecDepth 100000

namespace Verif

open WeierstrassCurve

/-- One doubling with the given slope, if it is the slope. -/
def edDblStep (l : Fq) (p : Fq × Fq) : Option (Fq × Fq) :=
  if 2 * p.2 * l = 3 * p.1 ^ 2 + 2 * (2 * (ED_D - 1)) * p.1 + (ED_D + 1) ^ 2 ∧ 2 * p.2 ≠ 0 then
    let x := l ^ 2 - 2 * (ED_D - 1) - 2 * p.1
    some (x, l * (p.1 - x) - p.2)
  else none

/-- One addition with the given slope, if it is the slope. -/
def edAddStep (l : Fq) (p q : Fq × Fq) : Option (Fq × Fq) :=
  if l * (p.1 - q.1) = p.2 - q.2 ∧ p.1 ≠ q.1 then
    let x := l ^ 2 - 2 * (ED_D - 1) - p.1 - q.1
    some (x, l * (p.1 - x) - p.2)
  else none

/-- Double-and-add from the most significant bit. -/
def edMulCert (base : Fq × Fq) : List (Fq × Option Fq) → Fq × Fq → ℕ → Option ((Fq × Fq) × ℕ)
  | [], p, n => some (p, n)
  | (l, a) :: rest, p, n =>
    (edDblStep l p).bind fun p2 =>
      match a with
      | none => edMulCert base rest p2 (2 * n)
      | some m => (edAddStep m p2 base).bind fun p3 => edMulCert base rest p3 (2 * n + 1)

theorem edDblStep_spec {l : Fq} {p q : Fq × Fq} {P : EdPoint} (hp : IsPoint p P)
    (h : edDblStep l p = some q) : IsPoint q (P + P) := by
  obtain ⟨h1, rfl⟩ := hp
  unfold edDblStep at h
  split at h
  · rename_i hc
    simp only [Option.some.injEq] at h
    have hne : p.2 ≠ edCurve.negY p.1 p.2 := by
      simp only [Affine.negY, edCurve]
      intro e
      exact hc.2 (by linear_combination e)
    have hl : edCurve.slope p.1 p.1 p.2 p.2 = l := by
      rw [Affine.slope_of_Y_ne rfl hne]
      simp only [Affine.negY, edCurve]
      have h2 : p.2 - (-p.2 - 0 * p.1 - 0) ≠ 0 := by
        intro e; exact hc.2 (by linear_combination e)
      rw [div_eq_iff h2]
      linear_combination -hc.1
    have e := Affine.Point.add_self_of_Y_ne (h₁ := h1) hne
    have ex : edCurve.addX p.1 p.1 (edCurve.slope p.1 p.1 p.2 p.2) = q.1 := by
      rw [hl, ← h]; simp only [Affine.addX, edCurve]; ring
    have ey : edCurve.addY p.1 p.1 p.2 (edCurve.slope p.1 p.1 p.2 p.2) = q.2 := by
      rw [hl, ← h]; simp only [Affine.addY, Affine.negAddY, Affine.negY, Affine.addX, edCurve]
      ring
    have hns := Affine.nonsingular_add h1 h1 (fun hxy => hne hxy.2)
    rw [ex, ey] at hns
    refine ⟨hns, ?_⟩
    rw [e]
    simp only [ex, ey]
  · cases h

theorem edAddStep_spec {l : Fq} {p q r : Fq × Fq} {P Q : EdPoint} (hp : IsPoint p P)
    (hq : IsPoint q Q) (h : edAddStep l p q = some r) : IsPoint r (P + Q) := by
  obtain ⟨h1, rfl⟩ := hp
  obtain ⟨h2, rfl⟩ := hq
  unfold edAddStep at h
  split at h
  · rename_i hc
    simp only [Option.some.injEq] at h
    have hl : edCurve.slope p.1 q.1 p.2 q.2 = l := by
      rw [Affine.slope_of_X_ne hc.2, div_eq_iff (sub_ne_zero.mpr hc.2)]
      exact hc.1.symm
    have e := Affine.Point.add_of_X_ne (h₁ := h1) (h₂ := h2) hc.2
    have ex : edCurve.addX p.1 q.1 (edCurve.slope p.1 q.1 p.2 q.2) = r.1 := by
      rw [hl, ← h]; simp only [Affine.addX, edCurve]; ring
    have ey : edCurve.addY p.1 q.1 p.2 (edCurve.slope p.1 q.1 p.2 q.2) = r.2 := by
      rw [hl, ← h]; simp only [Affine.addY, Affine.negAddY, Affine.negY, Affine.addX, edCurve]
      ring
    have hns := Affine.nonsingular_add h1 h2 (fun hxy => hc.2 hxy.1)
    rw [ex, ey] at hns
    refine ⟨hns, ?_⟩
    rw [e]
    simp only [ex, ey]
  · cases h

theorem edMulCert_spec {base : Fq × Fq} {B : EdPoint} (hb : IsPoint base B)
    (cert : List (Fq × Option Fq)) (p q : Fq × Fq) (n m : ℕ) (hp : IsPoint p (n • B))
    (h : edMulCert base cert p n = some (q, m)) : IsPoint q (m • B) := by
  induction cert generalizing p n with
  | nil =>
    simp only [edMulCert, Option.some.injEq, Prod.mk.injEq] at h
    obtain ⟨rfl, rfl⟩ := h
    exact hp
  | cons c rest ih =>
    obtain ⟨l, a⟩ := c
    simp only [edMulCert] at h
    obtain ⟨p2, h1, h2⟩ := Option.bind_eq_some_iff.mp h
    have hd := edDblStep_spec hp h1
    rw [← two_nsmul, ← mul_nsmul'] at hd
    cases a with
    | none => exact ih p2 (2 * n) hd h2
    | some m' =>
      obtain ⟨p3, h3, h4⟩ := Option.bind_eq_some_iff.mp h2
      have ha := edAddStep_spec hd hb h3
      rw [← succ_nsmul] at ha
      exact ih p3 (2 * n + 1) ha h4

/-- The coordinates of the point with Edwards coordinate `x = 12`. -/
def edBaseXY : Fq × Fq :=
  (229655871764874569009917496679589942333466198506974084435337238776403085563110276420751877162012564872296401116582,
   210718929302791824175421405243194012746506708254438787765812381573880826492745594586771238286717667561676281158215)

theorem edBase_nonsingular : edCurve.Nonsingular edBaseXY.1 edBaseXY.2 := by
  rw [Affine.nonsingular_iff]
  refine ⟨(Affine.equation_iff ..).mpr ?_, Or.inr ?_⟩
  · simp only [edCurve]; decide +kernel
  · simp only [edCurve]; decide +kernel

/-- A point of the subgroup. -/
def edBase : EdPoint := .some edBaseXY.1 edBaseXY.2 edBase_nonsingular

theorem edX_edBase : edX edBase = 12 := by
  have h : 2 * edBaseXY.1 = 12 * edBaseXY.2 := by decide +kernel
  have hv : edBaseXY.2 ≠ 0 := by decide +kernel
  simp only [edX, edBase]
  rw [div_eq_iff hv, h]

/-- Slopes of the double-and-add chain for the order minus one. -/
def edOrderCert : List (Fq × Option Fq) :=
  [(63057731689987852838686917128497525190796834537694982200945097435922799274595809418419414929244141934540106432211, some 145247033236933485663499156401850062899496486690244321564241820727614062730327024591362913586087021690782926656969),
   (229690647604425668143678684573393528891888010249538967904619909178590336703054551632410399979018219656498531331972, none),
   (24708538442570297259960306393380320078040941016637419534071512308110189911800666987485416762873928712198240583349, some 146174734149616144725789425101176575370737955224736033586315402449949127935732294556122420436768371764038095848381),
   (3231932542904235171540856369450901540519882510255924983000537036784894862824293533446925970310327266531330533590, none),
   (147725230254462967193094978524086604384379974369895553203865736149439115198964835929410338259123998487231963643150, some 74578641839828202828674256302921490122735584991061609723741972447762294245058885579993233413914358060811266517781),
   (238922338032797191432371618781359685015826653594638123027839442526938400245900622642835924522571337648916388590415, some 4763998722716385204672826197354590778425479552863476034385999790141533708745053026391861764971124044749404299365),
   (65940143700282904836989771879828617312345599981562788468403824509763121979177491837398900755306698919755433661998, some 49918617417787235462003163344722691221085405377654542766296746712294996702768135737199400381326906763508425650550),
   (41298630593802712372864555842919850968724878518062739693472006839304174927806682702675641256138743242168219326695, none),
   (242798600707002443997821189542336445712969559828520775654373323007287594079373530093472932494586459704370852447, none),
   (52775618050392072335341817302165853930016334364557992209268811259855661911956956236299938322355034781878848906723, none),
   (169242791086259837866564860256477379835294117292129417137514273326785467907744549484069994493786166465065716369323, some 106995730744381769313810073125349711031006949494162591605002905926805818896952249559882063843262599802803232932208),
   (7824501649818601347240288909175639937620492779333680103505229936258543800227541529468938979670163584764718279181, some 234269684678142387557253982743427707663160005573076584696541790522546111250435289034576531240307022342846036675704),
   (83319465333885178580741346998057684080523280467098848035834542218476135852213373588992956254411857054449588842089, some 563058031660321086110439040086036111823006260755205877201839293808219587406170089688030725104392809122954719819),
   (257061346539240816805494417871664707428003246951797203039793260961275849587894245651548161283720843907216527941007, none),
   (143602579854500106913158075311710367522500900266613004573965064273679109810199621283365844435083621568825825342219, some 84895838137926834077127442175247125181295844178070801727448686492385722292442517072801669518071092856687989184578),
   (36772704706362748513350885044534839230577540366966330993149815599999473024570573691914403544060176313305588106699, none),
   (73152490475415331389680540881501230298277163125019681630833486684638946567502308479209451889645936370209659671949, none),
   (170252178246270377457481583349050367266481625230833169280923035400671202484956843886968931039761167361483409694282, some 74541573586778497422350960203753935149915933476750230498014996215142509175937907428808551067835277350800045356614),
   (176501179537217193029205482931070380824838399503946110287583616894865448097923069142901909665774256953639429256333, none),
   (61089217719610787062707859045293843563404817500449826907935351921654058637691918995883838935973825924550473293795, none),
   (17823717653984047615510946453461707094553072231944989487672277500706777790872895743773697892687496292807753342992, none),
   (28392018395886231899733887158129523125443878746519401971000740136157191561572520709439292257101983198593389783328, some 12343440543621547925151524853678480908952030779573089548593641501729604370725000415653104550223806805532945162708),
   (251993773690268633122910260668501693945831415147022311019300162251082564727853625673740679692798209967608486724068, some 188080860624791931473980550618281427214579292248953746442244894423110536235015548928348654536049493951177368382680),
   (203721736333879338234484262327212481040319185994728858556787520314328760470198923644891832995223794675434140473550, none),
   (18413772560007287500102381019527598133625662470013565873974651483509178192836274878660881918379535426475480256776, none),
   (139473889820684093124704932790149241201143772101911913657696852668486293141102695909062963349664215716772698675146, none),
   (126780959120009792330583943011416415397310328464486806233240606546750095071138364111775279001431447406755520999860, none),
   (220296672387096144339448433067331466833675820782892453456514028247089399145946133456609097555890514544070236086010, some 84009384151352697434715001191153592143738842387795579958843874785502272840404754051877855335641312815273825851824),
   (7694862948689786632379050737733459173871528514021836809514383701895220567810920977303515516096101118375430186957, none),
   (140794996307056600901936137547958477975812135613101171777400326324119830604758133788650320295974176880257701670851, some 134354062610280459936173012495230543387326280340384623263316735419277722755786451924780230023101899136838446109039),
   (204639802775901138260099561190188957257573300296960085754428795235400034743360069829629986926121838656755344499083, some 3948978916694511771249423394533279248574032650827381755110736020427687453763824527977331495116297426370802618338),
   (151141253943935782304540580429818669197412631996017334988463563820284927277397502026297991876415203671639157929854, some 216463767527159460864663588888168769950372140271748070211292283262521422814509660479199787925135935031879922025544),
   (173498130196812288419154867879263245295980957921365084658947655924231614538100613680414764460276704175876754386856, some 173691237440542543823003306960846782220619871505352655760570038618549822223889742603894540032404099527089409615419),
   (210566622847518600122255049096093359612769782155360357013188881855526284268991994214940401175356597685353126494160, some 141008727124371533885938842897422451790430738277793198174923305984920018648485796372698514042698453490207757705303),
   (83550763391827004183456226303031328747592539089657123693608518948388249536477306551741378477146423906691916531300, none),
   (167426914656105498662317151185979142994062452848931013666600661451375462612240219852756033774641574919772667552373, none),
   (211516508027778179692298583208713775427006022297420363860546101334634000940034003183399479411675699061923330392175, none),
   (112932690647836322427562204804755976558247999395133483387921837793012284584433570218449045400512488489229831325149, some 19142240475539964322552819599323246419763552490977188349431743807453630362601392812766469870744873679901193606809),
   (34812981372254920528657313450529573592288607413239504305933754223191652488346575854276131844663174243323155447462, none),
   (67499543086797782102720709025817940211611500520236120988027214825098195735305115011893747700221479392365427051458, some 218563197333303566631429367230949068544713992408762348057280950788656900318760391896733612347666511111186403752316),
   (237473328999093920353749205293671412823758684696303271065746516169814678794942920899717359423016030302473248290340, none),
   (210501760225758456542760801380842582267447269122342218064781876523525199832119289663989022832624113364360146914191, none),
   (207793520739281588825269652469388811590260172549419585199681876378265941610181593463758954456006579265723459767634, none),
   (35028541465721584361451699788316292681103313047102814759495423531603126835258364112984320883981292522675387535547, some 41931198679357623448855025355894775297902680427575275597708773842893556187068180711992983599041380294049560670601),
   (119417398452635520433044653118222144640572880690309626523453521663350203364404870976061267926220122121610060037725, none),
   (254235325434780380200519277266478418303051817014991894332960986632281170755263355300351699447517816831666063489649, none),
   (34448716171499764885322569630070620676119119664256550057904382596174987911809722653184427465573757421441082268699, none),
   (136351302706000830281664334132992362074287204845954787372077619109469673449414720251119192362151699832698516731844, none),
   (187772553607389133694748124260223626125506172933786383867748073254554071495642325070889857054821115905779644358673, some 126616175311390150475917026850440701212888480101872244236116518384120930252771521891318504842430544383788366901409),
   (100143737241913160728407715757984693968222294959966914256269895170784780823026121214629794821873671922514931943453, some 104632907160054094611848139350895933983370107585705525921906748260179539949380004727607263355121146237930321174268),
   (205333804141418914409078906293829218663671065691068972326866657299291639590869141268094282134342161120334395983198, some 243896110029131518608829994510436336508139172604583855653549622786484896410347132631931932848228991746418095429464),
   (67860717784784550791038936031666198744646709467383546692306965360128584142327843353934741313875075318587080104346, none),
   (48829352171449936553819857568812542740666395420001074370675020541155019151085687263525549247024360709563637830994, some 43309349156426382719565374465885994317901441934386757438565679600650745600860973732209040477743748366956253849974),
   (82591224300654363438613443744659059402032799569361514496015891426272857711284887632663299411765399770654360372888, none),
   (67921437887433337126566082158953212020785684737449088228876286109975869415639738798014802943767965625792199292979, some 109952146771375254601291755337149143829708477842353752546850878855532712514158056667569228219913800832193249917378),
   (62592841821424588685537346455584158640162451653425312502011757209782579819303979832814314738874286533284905775981, none),
   (136658611945346795700544400245759960367610067816434410756004226426315266002018836408375753209047671257794754316466, some 254364085634249555715342269116821994196745267071421546803219763973462941035994818826677116107012893434108210185904),
   (209566611099753213568796982766633939809522496827561690959145086539811110097644457194218569587758358755851839850015, some 196691195147356691318741226519912058765030086216924390746306065016813195957867203950185964944847113078386405115655),
   (104231454255953698014632584970892591730753610698870172154902288823972602104625540378334238499741665354092176559775, none),
   (73348670591538267443883833720189462938659260326948337490704874568677746626754886092288326301286187350547363555158, none),
   (48029112526403816148608864893106513581990826098487890103754736076369703607722023855157271670208554888137345080686, none),
   (138382499505068853741022561396000188525818628253013688299266787452259880710847603677356157502995602236822439117403, some 152483239523896641774956296266116755281348360965764464379597426243460503189418094847042265540030265187837441498602),
   (150200580629377331738706472601150030794077243634517947417868329489582675184212671671656599279454859313023338760677, some 139579264992658686124438460231710779512458902278449794657672639193423110397221602688205364609967947649220994314041),
   (170506703615526889568997736070963214349747781088602039298876235633234555981015110803471245643105328788856338582285, none),
   (93783991734973474926996882191762480902080493902421942150462710979828801276298264908537311999714858660641316474277, none),
   (21996723714083123758564403222645036579910774135522481922841961326856843497306809317947358574024005035945309047853, none),
   (142583789135413066351655612996101911177906473403953441431478552842210050869645668003841206682515811782472667728985, some 55225925168766789927641904130441156793125868694223538128547501340447203172428259823247384572250344255140501200258),
   (60621653947664063362648021741541523619129316673232534944988792968029283940108256048585973667780678172370275242910, some 16595827587838630844415041001966023326184929428933626656431579720972680294750420160747572799556919124530458421763),
   (228076499146838475021689472914657287909822482893741396907063524452626069924340613023117602777811510982560558763609, some 203794936860999238898514467317943029265783446665155028177302202290201378901579766262891965282394038336590324143862),
   (232532852732521748601898600476461425730707796770852491210181431990965011442948985012618954258846343311406007128589, none),
   (193455411205103058157318944659566759270898101245640736653740518286082392656816220147343460463235919263712649741548, some 62870215944267219504502119599815041708926552425221967768685174126906692425964664686448616462245761919032317254862),
   (148285012023249258869172137356942172328274179318369618294660327013778701113116320167089323701141992823002509288432, some 243953527557175671588671725232504222449176015002494884157610237253900488985980619032059083575043684640168075686123),
   (117199965561258383714990661261942277512863184664788906962103063814415954565446917606290221430006451107324612731096, none),
   (8693749360649852309360485809013026309796470947937282084283780646958367617927456047061849564584512488955721431502, none),
   (96597849182007688317196774784792968257496415075328948294758173105948188481202163155153308262862197135855686653513, none),
   (83936496983545635384146328608144425936395316360783704125456277385591933496891327664949571976462188044737564269687, none),
   (103042335277034642195221864377604231412145066843371069289976700569798390830093157492550575855532920867835246885629, none),
   (248506734640934289321476170927369695144987454861152252399203839760031959590211048401694638084941372733294885329420, some 194882824214115948553413511447864533978405143324708159078198765756579742266052159992929166912022119998233279319568),
   (168469545051102691623226886155390466116187580577764676897578156353939827228573889271339038956226620733347000723811, none),
   (10049754742129029702996260218359108970121422673005233071171902533739022668713354074764651018915335984741579920771, some 90457584999958149187757748496546587081311915860186647999926769706092443717195952313106257729084712969425907287328),
   (98198712908263834087650623880345702903092812547660935066149218435513138946267018155886111067982792419056923320511, some 223690627686511972232327842611363969173897942069762267053760253826735481824157155652925240912417800554745895198327),
   (49938301173125058924820210356484940372622626798687512870463506943783165445486242343520855464214440540440568493855, some 198552504973289791384402974189758719763468065492991397698995211208717472566983743326356266186237780078763007410681),
   (3675185402288113196805231695363905955805126852523054430198039328168828400761307686583548762505112279039781200823, none),
   (8989905919351388184453311539558870740904321557402633108294747195010432334843912223532215414488798194250703501425, none),
   (57787979857244651239928119294368224286855748695360997202280883351542540778985338362894907919962092522956141886649, none),
   (223869226373335392942807251312496712744937587592215863068407311214505021054643356639458864897668201345205561933426, none),
   (219046631104588106981828849709599515985255388715032766607823767053940997771093915141436791258653013286892177500934, none),
   (50802018878039935477422136947640409407419692372660074007371681078084044617877099854498694373320912538960455875997, none),
   (132860599200460715245021111831866412710512314728234971803987122652122050828184659585208838396055318829231858963011, none),
   (53582701461661573123675715542303947617136124531658724230554480130238788765387131432617732801238331020791931004148, some 239379257248369152458127659033431117413484174812342193568584407278389591438181812715902992182225236528884223329188),
   (69035189466638831647418967622155312266448726758115884768492585293349841601374449565392686506299978874534422214114, some 7382887942612702910449693367190225327717022647339845580979520670942666111416851239656786192681133973786601304401),
   (192454002776689780001261629479802601855921436338766119129972157759278358100382622624867937864566256984166759980687, none),
   (246547492364810073630466557558378831537832461748862758637466297779314175392048533328962438983495542127769584689073, some 124942984893252877813954962513868380855046799229961788041568504212705261475632212507488088820049030062663052581279),
   (165139420146409775435915095107227899835316416037510677554867060585741434738350915292398806740120721573209762780417, some 151923519750929643358705815810760802632847244085313658811220449654570607918194803915602595629027864273881004770623),
   (124233710681704106190085298987739404940655947341980234432470734109440739581386466787608082077486051237135417076884, none),
   (162832975632077447366931425808646284412358372264999340777205458813690246714052764040018950770890095950235144567079, none),
   (207480674503786486201666198242982088209474470906621354459889084835190229761389855876461241813647779818643840984393, some 236777573863718936285546827458130566972029022162412900623075891864033384362130964765985600137246639689452605711370),
   (243190004872549083119843051854434347255523965713789988680045566009142773267085095168264825932741912496329038806771, none),
   (36676060528104810077007375356181433446151247108164843719165207409670249090104831955008010946650163511974863795759, some 154941441166418847049699245706408236972999674469986454638592836854819005649602741246059506793262897125192562845758),
   (18931779295246321264083875908168093397770762448860115464577174976063753462122517463441500963225850183793357941806, none),
   (140711607125865048420048125479477746170410662834927747612068333260554986392422195629213423834991766978510064855243, none),
   (101341503112079655963321607374690150818137888939168130133635803733278442608709036698925493452525666191810043764141, none),
   (181231503393276755424779558755758774207494277721752253988321645576782093090600344744389722519175961105190867790167, none),
   (157378521136282008194351331122317378233687888115229424479441774036270520674498422291560613723529187517591554726192, some 219900608608691757452352049809920971175535133080175538849659758592037052077533969447174804702555544671781455305019),
   (227753046548031940877601631170169796955262027358924067962334635934057887152770997604255786838779642546062475689313, none),
   (159492330310298280617010683286749738522247908665316703790815013114034141500291213402800370583617606693817583612824, some 139652825077862398546364064231018881945937910961982059224687024701534146156844586915643158520426048893466961699581),
   (111733680381807612882166386615201798811078511459302229305751710735781956854572910102110761933722787111452888136590, none),
   (97119722558326156079693854021826198794253674393570065843089608612923323270123063509328365737174569020707433104818, none),
   (43178472619482333218170738630174502230325578812419509695930867716690357090628411848906451165244614859228885983392, some 163632478992004775589470876600075726277933864519728000707791907553694644935141757156596706769347635750517997476839),
   (2559572112859207935447639347975659507433734303583893448010408416121771963598766929489403616131915400669166560183, none),
   (139407439962048486044723410624035968428129104033141881874284959135110515877427166484941639731682864999603349342993, none),
   (229831210321601378685262979154249898597499487370986112931542939959376105403005898857603241452072001111493266748129, some 258426403902935844214570889610861250637579468907300860525383920673233689772738086782670459908128758180876649147602),
   (12667913255009609067125203699451720051628772167173028814598947058483296567619793260780927136054054760474623355004, none),
   (246904160608580334632731496695064748011156130833525759873857885416320484022569566611591978470147461206899053833643, none),
   (183303713972023145775121181320429141125098949334364250532308590635907293060680503508354668145592587391644767763611, some 92256788544916104419246833914566320273091598814119233136301687379599722269458169630276221332268985836373871450860),
   (157666902761169130670180062547931358328186914332226410518663099683016463322916170954448120524337787577554126241433, some 142780012969463042088992790183436121516636773361394928409178753375078088428430477477487973995487201187167439030172),
   (6547996491604019891293786171518765434078930575853423702510937186479864097175962148480303961490557935259152114879, some 214275642130266358024184488922179955704136022638395585207854321173477474812134743112181992785849094051850322887795),
   (43795942956685486406059285245797776854945005128423897829934572649035549778103241888465203914617769162526866982976, none),
   (187990697248491052208528443195696523006759099804805246774608187789672146283031635167171387809692095649379976530648, some 54369478163352491162693957432577043840081233956268686102008299021511978856397837878200445879598160947304320135577),
   (167950674541922263691383283804906993079327397835844160235710730295882755887365899549086734723478808661634694233792, some 253023977356217256836929877875540363951190020626056160852322669625309347027624100437120249767597382225325016454565),
   (97897249291529712223187446842315891682379563112050995835168392956169801472465792812307441515735291160593186464502, none),
   (169458738326017103374840981258876154399008146757521613493344451393038356745021184050002607740006163117797362350442, none),
   (100930734703865435519347635297172384158310095621240449533103020819141449105349953444263117190932955453866709149408, none),
   (81169769280844066172888024085771347006452856830016401429700046164303659750704132215171284414355864825866417853698, some 40126765428916867338745952076538848772843981651555848193867627547332348978625855894550513105336870760525405321746),
   (31758548347753419159543230014973197858525758298104757183749547694978150641876982288072287942348433974625031322859, some 13230784748153033605684465134335231297722274307567059027174690119087310466161818146831913495586446681122254791063),
   (235826617196505886350807733767516387468682868963542606574800657697477851573455399547253905384131447372378211903699, none),
   (97055825255129698460100208540764903094701088362232218377070890133572283971779293939347516994585224494094922447924, some 215867575488796777473751861232778486844348388686191146959801472508095006537952369425107647927088106671472207089581),
   (115554347273479896710560213754914996785651450433093992129906630016833894461780557241020385674232956712072466277316, none),
   (2730354590327565749386084819305561524559420448748638067016012848353327927971830335988328100656073562809730692041, none),
   (50699761292875227657171867639785461404132860954307767551482325916203324938581643719748569177895310972921287675601, none),
   (182681055863994609370810403340143131738422677966438579101577873560758502146035742395631793798140411760459568453076, some 199086653058134953224692173802693951818949901301602255840152740881938535183321286208574762755351614617579892313878),
   (173355277011784733159438039268965434326551857357280698976919358829935152307098080414091622021786512986155480657437, none),
   (206642697503645124400792472766973031693122570560260692927806336906573752106153223586495188215408564771431430697169, none),
   (135002489382478257525493588763960683509946598325900888542784060617240826235739140659583974012833953665365729926950, none),
   (62417136115902680820282685339906812181987919158113671436192851036059908234675428707843497316181462446882434294975, some 143428161057414231497880864290015367954366790608253206409750020182964596333132694913765331469457465188503322275183),
   (76880553330703340996805750520166795964569555621801080230619596441463751834455188709257078409493732627782301174963, none),
   (98129443635015428783496001415442193687508034690471353284178236706577533568070889982761877803882116473442454865411, some 56209664713262490769762034171549626576260790163390263449553826920069099219128354964653395019231408703572175484036),
   (81984301865727157370274706908560546715251331469787094934962201637061425622150762775327937731257071030287149877845, some 47108910267586563642697298832382194701986458749943871771862946825185884063761481954586321551566955352131592320323),
   (32008637332371462856543185538912934752193990642246395934209566947646766335648169243736007884527834880411917454585, none),
   (128472103199142178043354948695597190458129218082085364883393474447785971716409320739227316511681350035600629476096, some 88516884507535039301967548517587263390329257408592008171829663352744740025833907405214553856528408844016197691226),
   (41842625151669857710858693143568111085688550443056073826557825573675655331231675389234919044694905188314412014500, some 46493292375483725588345918124279436744263743222384908760455991149253178262930888409814170374533277210664976741879),
   (69768291192887959542096432724351227022081706265507353800595237087345593167451114543825747440261484425361286184035, none),
   (96382579608312769233509205135888589254340304642481019228125988756170147458886763736039222203783415837649935344881, none),
   (63089660342518619013849971284919469775811287385196690903966217524052287669741508899673708646576104114776881520598, some 124068152728806707323687454881086417330305896044328847099158938505482762307627747237569087589182960533948069490396),
   (19774392525600877894869235763539332366091119315739153693896291534992537522942384426653270116340927575853759409359, some 238022881196532029911012596509598798782982967341908639168135659220000360267377868016842362245182581815640374025783),
   (89229305384521094776284432747098926625553395965448470719674032160187649912975258138903058771326326902162763413760, some 49740390052818142016678269515640787611003144534736686647833282290701334540356221607018394418861213240500787066379),
   (197262999754098733013305452555399673683179405611440313024807895019203775675039046044409515964147606398096160595802, some 164582473218480422975917903501766259380148952928733553683735120078235458925985305153433158273352938176532724564498),
   (8702305644441121568708062963171025159270584164563168104164060534886217763368786397968583083514807921264250503228, some 120066780939552136031108116671718649254746908540060364077389438968938367747582485562030453068675757762635642103041),
   (15819155238634420432490991296656631143245560118116770265974852724752080700150441546280760529696646248764651286292, none),
   (45231361031954610185377222641715774561902407488871135198004040348617107216764559142553404749884138728355441350876, none),
   (163111037990800061101575571526656768384329240246180783968208464573160203123836554454214118885071477436978671856224, some 66582501495341119713796797734106079942833640341440714754107323750348592627128823414158420533227361705702145243393),
   (3886076148626927112675439882200306735887245269890209057121774120601509746614476062459771136002751290446394710099, some 230674716344434776331259579250831022124698055596886513373855662633097346333593354217959028811389225146815348509328),
   (83945843172023607356221968957094096432305089810311550342752075588514006968313451981647390237073896214100307338628, none),
   (124360408016199266635512034494543703722605778539734205901426016181598732217838651824841056521544624884551849328453, none),
   (42121604576289453471153182465296828510195246442306975514464580898176852911091163380965659526186337641515104615096, none),
   (119682831714511413777958452905925999404187012882828260214650293832979868734989190910462452060209089575779226617101, none),
   (105918014891585148927235673864542115065409940971431822668819088449439408689836890915387597536999559558113351878426, none),
   (92378775564426256427878332874486790889944346158364973024461150286548026147205088935020392150074283492863563159498, none),
   (32186410637073254079329240049023854931429357897414080124251914392719618331364601665648622121504152140401829878728, none),
   (188589741589431961984853337161221774285436118283091725343027586192377105488949639416206606607498938488072394987636, none),
   (116298268365001058745785866705035295850925938678151684768289129661018079641825829495812918885126638471325960075212, some 146662697412991779809550750755121406208345516765664217345320622705851056955677066486647800617547400064331124645142),
   (9738296487318716710009647018549055820728893929009240936113050849335988703400749953217793222609615194790309966244, some 253338399551931611171039300933950627912381157247053538862381811918982957231753259972314728151309776383944525381162),
   (134605685277673592409904295654929579423906179957863313396075779022458696083025492437285528797155271439872173959847, some 55061080183820653752872166977514047868896479623125475528894226394675261386451866399583484481558101403483274047032),
   (35645373584000957388116208762242368389523995621949097280690938115422535467799956338940424365267852293474313908243, some 88351076872162344197035260483767149779550328904376597981434798889479213954291124472199702124474719127854209980306),
   (176299875055189162615440469062516091454500582858487515798213873000255816283915201026702767272597406444627059254804, none),
   (143536185557236111325532430033353084269567281677721800299361091068984570459119795187712005021824250601501670256011, some 196607709668729315052824843712680193274963533016324855069527862823700182194447735102310937652121566378069778337814),
   (215000394913354146243440857119323830041645398614384282541524430602026704984145989415848770833043183712970131319094, none),
   (143574787154350018386430000767023942080716862411388392047199684533502622673397936475836753246730522332324007667433, some 159429759079996879609832634251751844562440351786323237695062023577670741944910234256019839224626486485054511154634),
   (159697895183466660106272325499048717602336499019275165410321872724622778613693318643217306129533990112853894316068, none),
   (137252372206967946703252498819734213321181207920714708225150503772639682537730626958490277240917503763124272946744, none),
   (19295707747548346384911560369267715703754954488774733378036777255134650542723951401431106981146503727782567674370, none),
   (227326888977834671180291317889750958547105567624991099374751329406079608118836070154989312962132641326836697307760, some 184524609035958740480603482441864558670213323983713260669431318662992087395095306454826361853451714676627508732441),
   (122730346594487438453017312213564422489690352343346445384451436261442135924146933253822987769329451677397371864839, none),
   (66374359074310374308184664519099137542763254534606827263536672986033690483003768671968120930972511780188290958708, none),
   (176362976887048881651606717631273906362532669988318876333205423368629930493073194407383092674998772361656357620868, some 188225511744732072858440641865208097120841030577665433791386408592049117142321816524538656462699719566319754331863),
   (95777957292138863420873743506498666203782452993843054383888586572370880569924990609872039835088163213737602083086, some 101686772892248719971362202525929837799683819183328937858755156005181356096724890714394345800507290643169645862614),
   (210489728192555829888233255929838334242004003787745208280579118003019671962651879197999710951085244065036216223674, some 49583807578610188786912535079470395863231696644423040288547180445936849719661092629441163462014897529248232739264),
   (207820756361731698380869110574235130434523002909721697207137139419485555882463435962432943145139707069923099891921, none),
   (87267947468046214348586147979543619142721580832707513060699999863269492357326870939946371003580482926868612961383, none),
   (24939738139852961531266773929597271744775940267321770509230451419352084019259812743349891011299563756168684609025, none),
   (226234666442121373315552365588672390742010813259360157000816920591427115251595284249740508346331840411026132184957, some 180384162078118699029526406547773503914214046462322128919274441353017589267842803617589451044262367610926275734799),
   (159840685065058689014275245002052148943797483371059905192208528058466120479281678755632644333362841034396254853925, some 69794011368062548635424584903132375320994164396429409190139521271912351010884638222401884894052302381710626992507),
   (51890215849533687893802121507040943979695335772387232179516475214989229569760387604625005694806454778418683373590, some 96156180762893454336793301720570739774013524331898919054175893021128934988361724597855272778780262381406110089532),
   (121079736233866317300046052232876123428884391317976196043635413187253528927084936989788067644374084393327607016471, some 52440237631052642203253286005338653608634191288498539382662973411395922332290556664525539423447145482043472242005),
   (154298213984102924683085562851079510370867624201958482976621159660662659488568524802076878461380602123092791591026, none),
   (122101696877848669603499936435368700992219367620132099259269003915874774295824271683130113813967685211682462690286, none),
   (162501219464196743407828731415248264939403708849137189102150457990223631055304757923397677859639664126136225623747, none),
   (235647756290669655851120713441850580174304896917383377864263598705148524358661317281672027974944060423147739787162, none),
   (98481369647183037379521105638533037370635895027139894859112192404421538236884120012327776278190165918665719827333, some 18805673600036002136669274671590849994162401737682667045247563278113741032917077426075750851042995936806662965900),
   (228422412444732809933494693471186051762912568980585923053204781443083693966581425420932843754740914354261707727216, some 80159015714115154323560229869389902095391492059557852153475206292755569997669775402033482631744504821909716776470),
   (231544325371403261164290084607403874999654245315772574035691636298358847218478539286738710500124968504391181903109, some 151882637554363284408290628289886594734643996631750053478759727338470019818323445896266122849387607739600399038496),
   (73714016660403826659115820674094016800877817734604645821353720116111018281829161513230335560845679505774164253466, none),
   (6858707231139125288448741362025398333406998316699426164937242231525998479127034114187335972240705968555703071728, some 249294021289222852353946013880316599016407604801449853918331211521567337586062878539004762937079060646774714521300),
   (83526097928969139742326801240619907093846018628270047192152800593543426525502599299668427104883725584435450546939, none),
   (178668087356715434487192949565592053533017610456310629355878848515691716089398192359829270367294428722115071660381, some 239092078754398327136467159799150296361991676214077960162237376416198506357552556852138325694883946144524878768283),
   (251837724562420343660496423845841479120185980078833636298559916900092094468788174094484091351392127826547733609459, some 53200815728317777361360112393882894904803768321781341607449150326986747863260324202224869529256403249531946410931),
   (7647723790770274531246853088473787786756824661144217339590503303408724887603828427192489658724197614013835098216, some 239631327942606686686883690696230006660398818712461390751627375241824863104753384605202607232848410850457674499836),
   (182250771323428658702243416079431031559061900370389015310569822613997013516182782483295217962772006448768745384955, none),
   (55606561118532160586430378685482505595638614722614928677722454111408962576743342949131364979742464819670141826237, some 246368922103521814924344809577003677429877655594996430440681210610134233263086445380627392061140161905206047179840),
   (39567566743178819005728600278107428253885042082203226984867834037104407699229681280827469175224616427033324631137, none),
   (187092217050893441872398664590485494979904037506777377552625527978003932325605737763399219999546262711606595647496, some 138664466331960032443689550874101508865155732712340668818586567248892382849739126003678793404598423096561644515309),
   (127212739069850259138697012860102347239846462010779316335385627477044956521602097176465453658490734474182644831545, some 134900285726649816612377769365816100967934841326749344924731317687367919829666156711605580087074961355530270727186),
   (51157916977337130467079617783099592513719563887805260959247558281222952287407988210605168024241415869409976942953, some 5551639809235903451418237260809902026586651818488551456683576347196262701003805082945478109600012947679650924953),
   (154340753543901393782097860289559840922447195031121173146685880626085427259470491471630166203491350545036639469137, some 142475663967454706120984230345571195530208977420005085608654761534168217102321183051087846167327975165814434912915),
   (233083191087219909374453160273109105740945363520141927220489268514088941245071872311098312388966415993024395060729, some 100152264257760449268068451569116731220858090243327009554848321241699717918581761865041514701725695032948346107562),
   (220209744448899361510242810546628385187311280178730384067830313192482757471863017176221584349130062684306599114902, some 191862335966780769107497052461936726832783563834247620441239716541519176363052658961193985065391464605875673075635),
   (119568451819146181401071713486981557381332800129794693513073920983962414056100973637256607351866443891073106998919, some 26411125987587513378550336539977662276444058585292957828475201719880154912315624458953768438616059592723361668398),
   (177249560312572825615317273749249877212128930876498079103535850009910795366442810975697225282398671590905092269692, some 184844514995319668385638282815586835807273730552806757030830315251204603432307088522730307220327387002013117515001),
   (195916981821604997395374605567834050911565330991266128506269895346450051443127450740457363917201627524776145153617, none),
   (87500938123848792196465135685976315713098119147483474430801929106444650929670164553309305378706856779222336318804, none),
   (1277819440303437038394194961843050903225522026754342020119899736131762211185462617078227425839680804085344827609, some 139718170281883385857479677259595095974364795864160914930351905118044945149874322925622013309802581646749682201958),
   (255548760902481222459873814511142197654991302035559289912322812746509352859868069357089390472744966907122491312528, some 255479517431047778422550298153503592687080871352925008685701649605504608403389690982205645331764640722523061867299),
   (145583693493625469180035405505711391338797874807080480947682511458683694704555561662464874531431334231452529272110, some 258442730689981733045407461172542473738128648734562625014291030216227354926990104824581000952159034658246328241500),
   (29962519796737058039311215008966487480877026319685802138097589454101001186392398143812651432625501060370511087692, some 222091482603614815161514325854807504603617514987864183708851187317282409122726840969032533669406193768554508798455),
   (93478399801777901852655055741774482579316819226089611206192370870554974445344373587821376209500979207516774522425, some 62156654792051943751570422793148000548961702609987396689684681047557919394262865976317224580297064466688490948581),
   (241039059644964678339263010053587180411208305482540789790620896279990189506166019674261842958960386167193123639791, none),
   (117581893611400994342359583855042731979420956632663631349328114995792229319205471081868587229487057964297535234654, some 114873568789762993328047008861969672882897386184660694626466628324832347264330509268713453334382685780585648008588),
   (235385315385581456226512951725962324390129833090262245705611772131218656006211410526400712408867871128029706558110, none),
   (229447041174339307688205910108724858738323233147043197026183020835615370651322068855184188445668629877813324391335, some 38537572508931686253822669501371209072851581306718621683434997674588891170638371191135844399582988089658123413203),
   (93522843181643603462360621659564868960824129960947426254350496110703575150081694661243645738707807072321528445465, some 163074172850001512096326850099236293146838938081996563431749630521974457133419483972035252531145916372091128599565),
   (190482082453451042575948437172039985704349649013147744652112244676761697619519154949568947636789265648858258879952, none),
   (41615819792174598600501471690177879738024924802598760389515430765345960118925755727326348163851588713797101468234, some 225934225253671542656647563022038587879842181404112602911235512722105590137573370643691672333533091941611222242132),
   (229321647958052001453586516241289849014606438333142673333895464752174335146609135382031874712879926700956054258420, some 27583868646456840044200768035387232317886107911721504947723651384645189179392894715329389038761031882410220929852),
   (61473810012659326878557998941775477493804643821815624202653855369059992945431357644244273385487934650131788443004, some 96047422083020454137593822497506999067970100266475757279998990967473767759384079925769529533658122219517318655219),
   (203604844051560058205664338213904763220117596844366721912157271004984357689269496414118739506615105930052416472646, none),
   (240288373949538665015180899439767707195347294250966945642944767438957895580575208709879551310990269957492679374740, some 53407560454045590725794758058176932831515138453323023528600270843825516468542927647798886766866458020945463310833),
   (221049784600349501451881374050517774372866859160538798416944548964461530850499159709432856155041563026314587499504, some 96218741108832284580888918752363672661024105297191160591718138944442641544657617306712243354850992870320292971701),
   (141225920340323172716711827561625859702281034502531861989089371417928397797169519743187242568428024206093926602168, some 108867228328852559840202987646318034218962572840485165018543006674941657777019299494066763967999325717155173839959),
   (118640928135786008121946987907882648618321214222809574426089672809300481499760137412550610792940026284551368733225, none),
   (9256186376763053521578087878462354446038650181537820598491823977842737105581736976800442387424532114710597172998, some 108579202061653678317398266656156991183496075051547025601240029488077818565429301585048912894867342351645459119177),
   (145423374232323059744748234147270200929676042529480411943772466370776198478762205269676283456686368018849464159910, none),
   (117418633988325181506556407910796308503235320590879252303474480317853638946054075023362907962830723720604858938382, some 230103397433954053523166254342024800467279403794995225087809102915682968449005731923152682576595398182281630729080),
   (18276946636190767086460025896963571081876217057757921861576957755059329071985581692272896949413016427062380850974, some 128920210930857565121794970224697930166328934795303303215408755814567425975503139820455207115553648353460460712274),
   (234937336823110850410145179231325106655506379012337217159854024314703152621389586021934457313712976412018867380158, some 107266909307236012429701591884859801660887350165541865148657536176983630814964675607862979244649077416655346072548),
   (7556647997314320419697196681300282117765788501118626477734561803656800253276301290025480160908533822782779175036, none),
   (57942868187517807361294003425397945524344245835723318031811561833533175470294352898166925931954096592748618435031, none),
   (159138581427409094086925670428778928940956084788454532774361307513748785436583522725332275395253395818192253290184, none),
   (161512143477395902148927014447104238761466463698428911830548991284490496592132255856013426343759404055627885610494, none),
   (17464986975263044948568767353723862547731259205350980255888381869812300067364314994449580006091567221386280811274, some 240323390638299152449341832875711829661510735360497448615439794637901555166185720331612736258370569117130850654848),
   (80836468899711866362495284192863897077760030710654982737382873262958800663458776464760503097547382917415815928142, none),
   (35568099490840303074022401873710980875990675680133182011209415010456203421793341676098308103075417952603979368233, none),
   (139914725172471055717598834064116919177638425818936229999160424676983830964093092438883566054584782224447202930549, none),
   (148422849605011369319704231079334883692485110712611632072787404293375660659170454500310189672251769119850394404140, none),
   (126743483065948630489917562003071801244653993383298055307305518211435043470024487983432627049183534960951430102586, some 165692419498228350867516178888546313082490732955118728243844710072594533326071633474264694225200459080212227247406),
   (235416358002570726920777969806111430366962625753801227683085872344555991812486949479513108215543510713543082587795, none),
   (165239944228751324747721667012174381511953831895037933449125911215305362587791054580826395009167354034145144134903, none),
   (240945135250514781142138327960999412714169444995445498778669880944471494001242487020134017904850868375139839524081, none),
   (203701877915006514812807377771744964961253570857234157796458703055619744321619003281346214851896861127010744774937, some 18861058897399012831908156134352425223420888900885535890740200633313770259269489873408536167058867076112760853356),
   (80984647042408412417871618389184923240457620020835581546652266031309104368277378722610040333296148975819322903344, some 235197682163726100086207871788404781851696211646424304574972978083955198424540925658246710905687750676442647355198),
   (34240444788645060821541008147758309359691941446535692185096908483851851404447087611045242487333502215214536323873, none),
   (192294522915106932485796507437777518241998177806261771952114107749172092906610645499997754706478909379443978502460, some 243484618273120450657192096762056457926501615759513165696546290745495313031186121061321989835848596746124577709213),
   (233899237794948440278811447995043606413463352099147464793078898280268077361909854327766511236409644208629063822741, none),
   (77442197843913300525221608704118960431155886517630331555322360418671469887462104064107468006924143014586865776024, none),
   (56271144039755836794636874244401886787967507292958184870090144436225999653184283139957147983812440330633577895915, none),
   (71347605585888604703625667211878608938413592023416612646199101110514381883322279051788709108622126463147447394959, none),
   (21734675227771319094633366278663678433290619548135188217854186239208077757936365524904722999620031070112261877495, none),
   (227233537716015955306768528287392937886687290598764275137951351971945169009652367402164086553540366077185919014213, none),
   (116692751554776635449712794779802202394589245031438643141685240040469499291194609360938365806055379299206537875635, none),
   (141489418950076386069375095773551292162887399754614579267229669002776813008292535490811218926985842228463665232869, some 179588976643141788829469655091507918429041865754704429162986012982602394242904752337251717238111716728494053526235),
   (105536863820489857196293602900195507251243019214857712409523448260626908098823234253330110634613614915354372322835, some 117852954505475521705460481530788088868490259122811527646819197184431020289504379914846530735459892471367679694135),
   (247712798324857444223913495545024692357498908201347159178912821750767203901678961862796822156839475478446391514592, none),
   (54355567297035790393625142747811525715826252763609813412010919557775973496540966661865650988272906952898343369103, none),
   (21246852317853393312458817843045090069834985873326613873432642179207915600847509943608193945280680577414292108257, some 33868532842567254935299336431530498128401088821334327060075041698061594338432629989317142420026942516590955279452),
   (256631027963441130451452689161925311379577375725057472117240598349771313111678870677723253302968174709358626177480, some 59228669870020415113886526263005606750534075918764570981568532598629107976281326455573913981843163165877048713052),
   (131950762061305832244626266600360460619926657511176438478573096400464602595742206303144116095693012927385062889138, none),
   (30037364290023434294579112091103936335370868575533345714376391557685325541327738964413772524623483777033363253364, some 220409490188110181626225215359763593679370243782812835695491506528839476920870669895221426369440565532591970465855),
   (55083859855336965950100611654709377840400344990771419004733093997362162883766538858508402699798299057872324490555, some 50411001705253927291448165447009689904340457191557179884591894885852873433430156800508782329021615937071263214732),
   (120818453307110666646383046565925567220638240836103148430386184539091832331534166313441035526155052164249436278867, none),
   (29609859245322393128391168116541681771694756533132118792300664193493798328303201874302876079965491833756542206782, some 110026290542624730348102373015791260335706595121218848093071145667177429151599360826051974826328935915367305278445),
   (222957251097487729533647632650324502515659486719806575124025816896119363064728741682720181580099250268614649374008, none),
   (134642582202339915061599184780525322828352343035421546925866971289622315688733093195768157071980465495207005666338, none),
   (26500303653244102029765684756154649857797286859630982026617903910537693950405628504106051776644009120556523994342, none),
   (104031430990211766601922161568924998635191893011852719240598547568409589612436985534370884022142064170502132592518, some 131862911867591650370010171761099239285101506310588430494153680449091369481380178677006234756068496285967117104818),
   (244491067793110057891963027376055405940550929271007610530475698347672870319221288725835160084982136506271344702182, none),
   (96120759559536037110976374567807215769408805219348522284673074597948114978262834882494537945564529340989692469968, none),
   (252565250460164569056226910494295053264319453147021051786683327528714734359727277253739631278110894449467410195160, none),
   (106461789543963983750296034753141539725882149761339645498875345097598567082051749172395026252149466944938837181129, none),
   (15331435478543726196460572354776598956427382702758285119398731103317095599852046432666293481511745189619562398800, some 159780935719160895747439901715982650938996273139819704394500218474905149357537898666772059501696067991151221393512),
   (144784372506645561380768303031302131546561827269202409218640379991515863598472242706950508622426477105315998877491, some 157578683196788068270471208559514589954772722604370743819188243780869066747717870425987320244405667134831895682857),
   (53687628187232639857320616370137120812123693974361099349453092097325682151843990445982040833415718601843769819329, some 77147377298569187007775590953782425787056113027187384582116909835937823992205020556383281848980374171382327315478),
   (135896226648164119194981301006763866351917702483586068785389072561434876217364280427602677145871988671689486400314, some 35745132871788356621135149797922001531620842526900221876435823083269630377187559932170525560938150988396592247609),
   (234345919613279311757369627248194553408250057090156516610801255964245796814724947249271728672899433963261184047399, none),
   (1680511309626610573666612113553731356754088518734307359195513402801675818909402290610103320136231921188957979992, some 45144912143041668491492239998977323705464076651381237598121287435451666929507717512206852524004745331022741493139),
   (58176845196300192230469472994526458144111602819861133186229323181914947102722374003250141893177560069597370780692, none),
   (83791062123672306702762557093370348870160230634092729995534635525325544586212196780296164789095599394569027615458, some 191062807554931134874560063444174233690189568690789484569587343052096349642906423387075582596995866036800708135137),
   (14106842820505276572416656177395399239562603553242206862455371722999244647662722454405657671366244254801636473417, some 85061265784718368599771546050399151202639751431754204259203474590010466110764395933949392375285116929245507084845),
   (130727678368727270811149598779847776043391799431389819747373439208924723695416049529172287864983756750861410961921, some 117388475776462593614701229346633904600841697527709593113483304264330282041167288305905699152900696639412618151624),
   (29289957764497342981668763357533475483923237951064180609621526913067742821944756818060436297475137514657233012158, none),
   (23647018251746734097339426651960542601652605951808870642824344291778192354639692012173065803524977378248592362012, some 256183177031711888687664391029617247181910387152260525586590351584147856858451630542848420908677835850968026570721),
   (63287793299594194099436923363194976607536970724358292033201374978483562022361769269573110123874396407158447780743, some 204954400613550257904073075630348217078783178444385260967036440504945198661765281520258290673832152432857848623610),
   (20951204686746725378728069619454261996476874379939589679913626962248739412534083494350883853982210786590666985239, none),
   (147576030170600077203381716794807753748763731511851393044768986156582264965079528489249867533294341692639779860045, none),
   (71069467705048923111537814744338500745212922816921885454179427039198141647313163786464223078802585475536214742216, none),
   (74489339966532839994358609995973839144474603134566542513352014347265452528049427490843768626454278305587311075833, some 132556699382418494926044467377148231242347585506345966673528934901841296111580197134644604361267107022925860420686),
   (128639091491038107559356402656094757174640118425807741273124773628103867887137041415613067855278220920995864753369, none),
   (157421919893196729778421072065648022852879113845013121755698810962606551255380126991034156984687042465092379900396, none),
   (165361125938969544332659814299999344599894237513746621057677550501357854519126071013805616301759162812470257056015, some 122674718851445431006793200751126853163949197605710591119684124022009244023635490771025633972835670762063980930986),
   (57224491856347632347392062248012915967475976883148835707637358992858234572856918193039089932533462102573529032449, none),
   (226656978872596109315915741085719171312865320119630491574673164050481652537943710548266617888687053318161963354559, none),
   (250808231798275015115416902457171492326364123889903370993240898050827173298903738725276038099350940278510059801755, some 250435840726489779854015269898605616658600694213097867112132255041356547890013272134627905740269194063249071005461),
   (252572971773239894735641647444380717383130592848437719924869138157627928877166247482288172195764580955209376813292, some 237398604957152784820551352205656625894120274583617785702258121625194569332434384510860144305934516804826153725411),
   (108276378098688813940774789203832883887185468242656980413925513305082914254061380914513801196472453880861269888850, some 60426488378008789892447521129485570054877554683527182999748579451820174920379417740151175938585635890499440940981),
   (25337196517726417763274315030339420067832277378641695216625014384707292872825644525880368232541111691176502378672, none),
   (91493565389746565402358498592725445528332521454437254253791013974254844530759634767859215533505334539314517443350, none),
   (8058715219692818664945087769739240675142288585974846206918333232241445781858085641596758226561526427351595137198, none),
   (238697026951939831675426724579584953262695974444587779377802056156335822571956243289886728304137451629408261642818, none),
   (14299035827911340264806703945154284805721464466607077874597090568685106372537966976205117434385691215225922335331, none),
   (47714237652087373794787339249080563792822308581832615223068761996250957214376762932439948264459040982834765198525, none),
   (29709870221722680012497136212904309740246144895692169414439799359628703847577979117809839368171600848695304897125, some 47543493169467500980433102006177509637542297622458980493548710467989892949842828578527844199286999475963022947351),
   (250446334607965201947543085408850402848495728180500338184949644717400443938383164558748338329182362124246061293717, none),
   (111364856095341992964874699147637947965076734782578745587220895397228975776499287372938425627558334378438626961933, some 243867208042887303475641014784529002679510826286204944724908024919233418781219145952101082333497154102927339822864),
   (52239633893681468891024162786301729443905548454271410297172806517578416741746606272806229308732825132647113816879, none),
   (135941760091592261171323093550490084840526737411453830912492511209657562404950126861349250964336301223514049748362, none),
   (98611834565940758399341736073918134140003340359946520745427525940354880989052559696873724505601170869557088347754, none),
   (18519709096702724850187815452262704075455171453830413290390946360461769644413604516184269912015361145393206236121, none),
   (395372629759406360384908310977656340599956838783888554830147941745377763092729048657803184355519151022979106858, none),
   (231002573682432984381952507726359071172611323113525035691550442013774016262703481519924218697684835816616760194024, some 72855337473113910887792306461583529060408417406904700999690836466266791354932753240113657294320138447458801202848),
   (34806370205378397776378466254137260949622086225188518223729794360138839754060553742992471763645521119351020705274, none),
   (79695896739571438064811462716706829027833179296925982818320676399511321499439869470969713593003733403587897636802, none),
   (189279082635737656597807702733045904756359662959183949625219890180648495102096646698658323454513154860445554520893, none),
   (145801094508871310287847247238935779717520682873404392567252700077357737283965203722501229747025241686928117158047, none),
   (74795159400112480156473601529089838895016844378671374052256223009199558947447696699030487492189724431315260293588, none),
   (157958913930701088723800369563276519543316217288637202626587014574624917382120941455967743858750486383884964461669, none),
   (213919627424268481710686101151843257679308233490619506321257312728269948413956133095458788129547803325487128821662, some 252942344744018656089948512359344986374417560868460078559678089018770345669042343717767314448612944972430130433498),
   (117876958097733414172145847257430593300071240134583131573749836609382214007134513297198122789390747183019291852342, some 84842201291943051264298217346352525239679751193703071623657987793746685832140404707413062383700295609962580158164),
   (29834592266897689368007367999458425245356890660493975053421223775892665516219920744032343234527222272797268218611, none),
   (180583985393085544568695212675675355601412640565891826420363878252745093597721636602427907851873876945067686389390, some 194952118297282516066446572941991200316525252752255464047380064420022443790918559165512191297914833595655978448734),
   (164319951972536701071901963340856293991346943960413939464758177525782571837347138428265144052784091655057316451103, none),
   (16303111825051083663286887863272196066230058146575199238705697690255908037048268502255888821716538616486386462959, none),
   (213250707918641395175969229058580382777235685558366599364216827437279532558023251314700099358492122815647083090231, some 8710412457895780765375384116106353321499214061167024877130358030269356151603155913396748751616525846060006916451),
   (78591330663354172812757408341544354955857504685282860449480507280790197650063764362221806784667706364015804263107, none),
   (26650308555496035669926055064550567856324278672971364492909505984549839105524537555981368990330845089166994322671, none),
   (61823029387925058943381261125062973325420722569659036240874106183635020488138991914538898664965385761242463290049, none),
   (44058550800877249719814247887050970191688038329124028090704274245272089385963955431640405768685467694400005210724, none),
   (64582048830884994795418037506621913614620857824890303898574345045543783001667993394532361849166842510785865161389, some 159800607766365078116355764890227601191112731689965215019247717928812573984848195309363087233550431778424136218810),
   (67396709317508486098670016191580704597433634878383809863087871606012423864275316992905186711828877114037274420312, some 35231238749262601548659648540137344027085580512390112047300944407868651831417504845569428417264979129154264347647),
   (66207761377634303516719342405478486259213511285043592323971022812237091835794588437564911916157889938941357984359, none),
   (133362622469194921351870480097502945818862919631578984096930647983983066079470624741436822640921948795825851509906, none),
   (179066056381558739020194864717313321865709509562885471779249332326459854928628117826281140416786643691363706567841, some 70582088829062567922064585184219756495066663012011020674543246090338098428985142058801726880548323834109184467914),
   (172182622682724273629777732861959154078684269791926249994926863534316349142308884518182281391760389660077342828718, none),
   (134340592257481279281365016315800821267849722503625555901040852882740333484076470478063511520802151335565662595294, none),
   (29005631025815506761417195722807342499859432393847151112099560418113252167239273760207374231502689775553988577745, some 82976683498214537871165403035504739205432215891683146472017906005312259004603665902202805668803182533847979940142),
   (43131162089775488940069735657421296128708535467418295274967685849195115184171764775085343595904431649430545559844, none),
   (5181514060306498763393417331106438318949057791638184134589593995938129643677011450408888239770662430903229764427, none),
   (153767183133005556923650301497237567120338817840958097116700749748587702683416938723177137554811490505885722466951, some 13376676312199168074414122098928487229542427860129739683068934540684408414070049677495236177324026186926350057119),
   (6972529042551608764886491123363906744892571006822479018664827213514366964418473038373607867188328372172648378957, none),
   (6524213892293031390400218000647503445140650402410890270961617879421496840892971512156723695011853085014559764283, some 73480560111515175581243008974001503423961818154700888386709499301598005370472239647067023123873207087320587726601),
   (147887858820267292080999992713003600549808894739220305831827173354662577706862934618320301018181248291523062394462, some 246967770567085983201090398643425153984741204351523913510436840207194136766995985299388155112385008098339484627586),
   (163213893689606300639606478448737594187745375400970318157251967910167525678270385365692949351824643853737275636218, some 47681805389001153825705227097732742035118375853409039976275368588629444678639039877957680341347624196073818971970),
   (234265899659394250192568437636922453418515656578202564273807688880439462606258132804612279751896007893006739685643, some 231847337908037545524876769847025122147323433612682904725522083262480462258402892882227561419817616306017337748347),
   (135329392412914529475168082836845090375861696540860793044664255349927646507345034354242454048504393321141550682449, some 86136973304757450639502156463840640799221830401711367776750007199537088908609727105672767759125211677981673458845),
   (771892221414284997388684049045545607477351773153321163927653325893952868495249219017350358783416312797269276151, none),
   (256878727692740334004966085737368752825498625820985851437858099704977413537198584267606175587427395958094961208182, some 236244230715333419659250478933567786392944602735218011614518118648200400604864796024315782072324517722314601290559),
   (1356081555005611019022272133846736897006681994046864408968540203615226179074080683439045059502377569022987807525, some 179161456923122089664834853313329900662267751520306542954397098168839689634225242223753747453635566868931682625955),
   (18318554325523725401627805744805587910665869785861689293442577986215757918357285831828979338317463517872552121466, none),
   (128750706635089516936674693868476100382074619258613281429938309427410281351636481156489202419263867138675983674052, none),
   (149744974243733450471676299344061423679308016873972266879278774726950949025501580607905530167206022471246007747229, some 37725125641156913088139427301935739084689765492476231650396638257577890767657851483789277543913402013881158871700),
   (69509805100180712555786407950150964141673556883852483686086735140634225611055625047563037448715163986852050909120, none),
   (250546964443004545202791645530347683729252996224855131372267091065837727996306372234857647668247217706197748287641, some 12330031190858298294127819033155036301293815694905537417491853904981478387195982863235548861562770063849723457292),
   (122333258679255967546670043757222672282732273515595793215092413527545378556436187030492445496529496534457209619210, none),
   (168034493975211773710392026761168726146860739915585193389988682017376245292847338829100696776401822148212396980096, some 171135505849075949708274037742716145260440199857576903264392091760890824474537173736704151924164339577229863202197),
   (178007696102813935299199568419476890595062989555583062444081661537760259734366630685719337024655315560427529354318, none),
   (146444242167096109958376466461819950384799259719306138386642064542004753789257191945002316652666522059098345835719, none),
   (229422092051830189766421699526046059933338148904734671516144198790899730548000392907014645142329492166135522633050, some 245472555712490267993283013132758924832143632360418217207462473166574228262752316712115958618491357108818521927222),
   (42472885070615672812171498750899085029607983342367702111072109825078357322033630966136457306411148427772454210412, none),
   (208928071451120204637280657351708401728248285663811006962809625752477658161079473906942860099246488061371471067569, some 195670840729600635738011272805002460455085397580496951640202332774147182477211388822233816351942716355338757310797),
   (164042585186204693069321432423129602850938532033234092100342821211618495117665938583018126987872210559527839290433, none),
   (38740240268533241249513491003396953738575396045528141304843905938419655282554425990739123227749598149176396738186, none),
   (193347239122822534080043043800202344092307576178698298301411781473591458680437445396592629360937567884061885303168, some 171369400072852383933284120247200013217034245325401460694874750433042305255079878113487278904693225872170737900869),
   (121024449698002256947961883058568710910122684317918380994623026882006039136520363091351632019417066863879565472633, none),
   (38794820550012252562220351781245802275649150505995736328128200661195065221882021927308425049144214438795174017288, some 182373549519088414235734838102951594930286332547144764482808471033661175197199297449419773417397614250223454412278),
   (138612632480054609573354943560019329497860935367209828204072646653620077644793953488211093039941864193252056455683, none),
   (24878635071502489464492694886912530607245214246363951356651217165855476113906785003677533687381736461978282226027, none)]

theorem edOrderCert_ok :
    edMulCert edBaseXY edOrderCert edBaseXY 1 =
      some ((edBaseXY.1, -edBaseXY.2), ED_ORDER - 1) := by
  decide +kernel

theorem ed_order_of_cert {p : Fq × Fq} {B : EdPoint} (hb : IsPoint p B)
    (cert : List (Fq × Option Fq)) (n : ℕ) (hn : 0 < n)
    (h : edMulCert p cert p 1 = some ((p.1, -p.2), n - 1)) : n • B = 0 := by
  obtain ⟨h1, e1⟩ := edMulCert_spec hb cert p _ 1 (n - 1) (by rw [one_nsmul]; exact hb) h
  obtain ⟨h0, rfl⟩ := hb
  have e : n = (n - 1) + 1 := by omega
  rw [e, add_nsmul, one_nsmul, e1]
  apply Affine.Point.add_of_Y_eq rfl
  simp [Affine.negY, edCurve]

theorem edBase_order : ED_ORDER • edBase = 0 := by
  have h : IsPoint edBaseXY edBase := ⟨edBase_nonsingular, rfl⟩
  have hc := edOrderCert_ok
  have hp : 0 < ED_ORDER := by decide +kernel
  generalize edBase = Q at h ⊢
  generalize ED_ORDER = n at hc hp ⊢
  exact ed_order_of_cert h edOrderCert n hp hc

end Verif
