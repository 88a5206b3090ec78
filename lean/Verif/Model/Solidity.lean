import Verif.Go.Basic
import Mathlib.Data.List.FinRange
import Mathlib.Data.Fin.VecNotation

/-!
# The Solidity verifier

`Notuscontract_g16.sol`, `contract_g16.sol` and `zkmultiswap/gnark-tests/solidity/Notuscontract_g16.sol`. The three files
differ only in the numbers of `verifyingKey` (lines 168-179). Line numbers below hold for all three.

Simplifications: a `uint256` is a natural number, all arithmetic in the file stays below 2^256 for arguments below 2^256.
The three precompiled contracts are parameters working on the words in memory; `none` is a failed call (bad input or not
enough gas). Both `require` and `invalid()` end the call with an error. The calls pass more bytes than `ecAdd` and `ecMul`
read (0xc0 and 0x80); the model passes only the words written, the contracts ignore the rest (EIP-196).
-/

namespace Verif.Model.Solidity

open Verif.Go

/-- `Pairing.PRIME_Q` and `Verifier.PRIME_Q`, lines 27 and 151. -/
def primeQ : Nat := 21888242871839275222246405745257275088696311157297823662689037894645226208583

/-- `SNARK_SCALAR_FIELD`, line 150. -/
def snarkScalarField : Nat := 21888242871839275222246405745257275088548364400416034343698204186575808495617

/-- `G1Point`, lines 29-32. -/
structure G1 where
  x : Nat
  y : Nat
  deriving DecidableEq, Repr

/-- `G2Point`, lines 34-38; `x0` is `X[0]`. -/
structure G2 where
  x0 : Nat
  x1 : Nat
  y0 : Nat
  y1 : Nat
  deriving DecidableEq, Repr

/-- The precompiled contracts 6, 7 and 8 on the words of their input. -/
structure Evm where
  ecAdd : List Nat → Option (Nat × Nat)
  ecMul : List Nat → Option (Nat × Nat)
  ecPairing : List Nat → Option Nat

/-- `negate`, lines 43-51. -/
def negate (p : G1) : G1 :=
  if p.x = 0 ∧ p.y = 0 then ⟨0, 0⟩ else ⟨p.x, primeQ - p.y % primeQ⟩

/-- The check of `success`. -/
def called {α : Type} (o : Option α) (msg : String) : Res α :=
  match o with
  | some r => .ok r
  | none => .error msg

/-- `plus`, lines 56-76. -/
def plus (E : Evm) (p1 p2 : G1) : Res G1 := do
  let r ← called (E.ecAdd [p1.x, p1.y, p2.x, p2.y]) "pairing-add-failed"
  return ⟨r.1, r.2⟩

/-- `scalar_mul`, lines 83-97. -/
def scalarMul (E : Evm) (p : G1) (s : Nat) : Res G1 := do
  let r ← called (E.ecMul [p.x, p.y, s]) "pairing-mul-failed"
  return ⟨r.1, r.2⟩

/-- The six words of one pair, lines 122-127. -/
def pairWords (p : G1) (q : G2) : List Nat := [p.x, p.y, q.x0, q.x1, q.y0, q.y1]

/-- `pairing`, lines 104-143. -/
def pairing (E : Evm) (a1 : G1) (a2 : G2) (b1 : G1) (b2 : G2) (c1 : G1) (c2 : G2) (d1 : G1) (d2 : G2) : Res Bool := do
  let p := [(a1, a2), (b1, b2), (c1, c2), (d1, d2)]
  let out ← called (E.ecPairing (p.flatMap fun x => pairWords x.1 x.2)) "pairing-opcode-failed"
  return out != 0

/-- `VerifyingKey`, lines 153-159. -/
structure VerifyingKey where
  alfa1 : G1
  beta2 : G2
  gamma2 : G2
  delta2 : G2
  ic : Fin 8 → G1

/-- `require`. -/
def require (b : Bool) (msg : String) : Res Unit := if b then .ok () else .error msg

/-- The body of the loop of `verifyProof`, lines 217-220. -/
def inputRound (E : Evm) (vk : VerifyingKey) (input : Fin 7 → Nat) (vkx : G1) (i : Fin 7) : Res G1 := do
  require (input i < snarkScalarField) "verifier-gte-snark-scalar-field"
  let t ← scalarMul E (vk.ic i.succ) (input i)
  plus E vkx t

/-- `verifyProof`, lines 186-234, for the key `vk`. `b0` is `b[0]`, `b1` is `b[1]`. -/
def verifyProof (E : Evm) (vk : VerifyingKey) (a b0 b1 c : Nat × Nat) (input : Fin 7 → Nat) : Res Bool := do
  let A : G1 := ⟨a.1, a.2⟩
  let B : G2 := ⟨b0.1, b0.2, b1.1, b1.2⟩
  let C : G1 := ⟨c.1, c.2⟩
  let vkx : G1 := ⟨0, 0⟩
  require (A.x < primeQ) "verifier-aX-gte-prime-q"
  require (A.y < primeQ) "verifier-aY-gte-prime-q"
  require (B.x0 < primeQ) "verifier-bX0-gte-prime-q"
  require (B.y0 < primeQ) "verifier-bY0-gte-prime-q"
  require (B.x1 < primeQ) "verifier-bX1-gte-prime-q"
  require (B.y1 < primeQ) "verifier-bY1-gte-prime-q"
  require (C.x < primeQ) "verifier-cX-gte-prime-q"
  require (C.y < primeQ) "verifier-cY-gte-prime-q"
  let vkx ← (List.finRange 7).foldlM (inputRound E vk input) vkx
  let vkx ← plus E vkx (vk.ic 0)
  pairing E (negate A) B vk.alfa1 vk.beta2 vkx vk.gamma2 C vk.delta2

/-- `verifyingKey` of `Notuscontract_g16.sol`, lines 167-180. -/
def notusKey : VerifyingKey where
  alfa1 := ⟨15459242519190255971710600051270383640956459315198290592063325395996221381952,
    12607309026900761582858539342178869921652472639450855760135352742553842883422⟩
  beta2 := ⟨1854782125927536508630505404460566306155328748326956483406381388727373471463,
    16203402397274116921567794114810876050361620834081117510636310125976743447624,
    1427996837820523178870066922234077568470145255214157277892534743364850789527,
    15514228945100857037738342441879244170261745615092902174644676165303652898744⟩
  gamma2 := ⟨9008760104177459009272247464442107282571806570215832570658848354483832604982,
    858162255713458465216662952470259618787821694108857205461096662761081649501,
    18507631901199354217391111365588317081566058867323040481135498225727364190212,
    21217890821704139816863791817096351472975383121689630443026760449469910925087⟩
  delta2 := ⟨21461796447840383736538738376671165910715367169670750454544005602358307461686,
    1482919896370930464648037013045691446085998891338104685531607223906435394116,
    17299340415898607244147520056916471945240024701844758306264371408671871860498,
    10327017379757746158025117196462188069765382949856375853249240624808878485056⟩
  ic := ![
    ⟨147239348455710015232103076204421106407344248590506280149099093649872629791,
    10450893164813900634372896368819157054457421654439933144104783841653746272348⟩,
    ⟨6979881439165884089584651668363384551292920669074662292567572968995010733925,
    10162201489724828296627809518074287687717636673016276113579351466362690962873⟩,
    ⟨20666377113115411208252160333797192491940325258809727765930554534870390136589,
    4321497327321576920014997178101387830714606111167418718233644019985624968027⟩,
    ⟨5062869769771458070044009705528866788650964528334567613854777260696560209801,
    6056675606037491667458417285290628527056094572156646731185839651250518299999⟩,
    ⟨19366109366076826374378103745593003997006963245761179023354984805383906865348,
    14783041077359775241136996576328240190407214512807533687458694012565667544129⟩,
    ⟨11803439338273264329575375631792457556975900903321759049878029701672762425744,
    5167370473904146177686007949409732787863877991863024243644633181166446770479⟩,
    ⟨285350121391093922467611694204672055390232011114147408239960089379627692409,
    13434117090271619736752809385274339635564195556337530944877567410764707675868⟩,
    ⟨18952744739237126403661786514383846774411032013646710937286889288202618212920,
    449746446402604014036301891513284713099713591876572288905932939276301964949⟩]

/-- `verifyingKey` of `contract_g16.sol`, lines 167-180. -/
def contractKey : VerifyingKey where
  alfa1 := ⟨6192919075983869180067837305982491931420790743105939101434834147552651847399,
    21353832218825821407207224910911424057350953113013588150048477338775813363053⟩
  beta2 := ⟨15384900469175430091248717559228467774837668198592942546638592665045159868820,
    881354484399763072434811852175522658095567449819085827549178635518543099526,
    9634110018613617523544075049529322698233278160712209065430309676833985774051,
    6798282827502693544957549215877691348322228336722567191012167454339085758252⟩
  gamma2 := ⟨552962854920360811958599004754246945161196653077450842938748425240520167863,
    20287652146169182267415347668477592695453613282999034402349212359239549691111,
    1027150431094945681840963300409634679616823676157149928274505954667382007057,
    15581614414444764233001397175809721066177381757958689243336700905587427152279⟩
  delta2 := ⟨12109088083765137399387834665554243828686707842297897155297032683090897776929,
    16555880134296009783097171742471583322371512214701112481106448044210193245021,
    17023619410057247984130710335718776520487092638666352093373186899005172901983,
    8014771196683139508599493408733345438239101284171451297642787072413732647378⟩
  ic := ![
    ⟨16889426264006676636315465304341972115703808547058353738361314767989499386689,
    11049856151175945386280396221020580834952337185805910724575949916526945618729⟩,
    ⟨3837302300504476621589120723520121467315930199851884347804210885346055024818,
    8672045291893383839827938921900802279754159723327323353057226995872447417543⟩,
    ⟨9292054901051700398392790304041967987049351747131428510821196733052621437000,
    7936722788948046568465168211913634025191776839148426559154984493515051797568⟩,
    ⟨252233781408019021257510267169101780037649766718854319328048368043406733664,
    7988872478448969384794014675621475870337551960750591330698611227230986919097⟩,
    ⟨14051753213429578271752258857298217521015343258365751885748767668325986596378,
    17552493379774853572506660627651401927743148180788791378225894293751007681068⟩,
    ⟨286461137824409924475046491720712756485540193885603505320287952590833705568,
    19061898230263039193076820865138517291728442770141958510864300927561405545329⟩,
    ⟨77164260852357679884389275795292695326619959856417156888199602553912761844,
    15513297046995078026755796953530625932582039005215255319859624047670708621285⟩,
    ⟨366645846659795011521409509657832651283042188668485175263505676436584855720,
    15772602437151540533465458242804068649471117565810895535231358006086703056289⟩]

/-- `verifyingKey` of `zkmultiswap/gnark-tests/solidity/Notuscontract_g16.sol`, lines 167-180. -/
def testKey : VerifyingKey where
  alfa1 := ⟨4002454945995142310093457620111641427869597062862299568146064957055735117280,
    7945921591083723297698687967525175667061174038761655595508781672546661960109⟩
  beta2 := ⟨18276443434917879997883875923943598161759605712772776336865433443136080460132,
    19297489925081955574465749979642968101472022360878075159600768699751781464815,
    16122792022462824330584111185938803331597233324551638120553554884796471050829,
    7599712081412665010857608421177978008703710504431406094414163528060020461421⟩
  gamma2 := ⟨19456301773958018890848016251545423414128560603475076394615933417299564314776,
    8049143193851922776486690065551948744820386138299019556509347486301821342653,
    20918036918147128188304236096773331398876610365884830445889841216450430583845,
    7337245945886350026818915603683742228493213372325681794600518969804398859926⟩
  delta2 := ⟨21155349094279722810465579021029162492494888937711377952264314345335941287315,
    514923321438828581566859443049552514291396989804519985343881118170944277330,
    6940258564247862593899313702031908617611008309660218338749956339500052104339,
    10648720158330591193959377135107166592873729644844905608546017365982961153949⟩
  ic := ![
    ⟨1481518090649929432092124431370652774626200268919967114653357087635500949287,
    17051994505882933681620942657153977542507609339919021292658121964031574429607⟩,
    ⟨13907527130918668912782521378963008755675507551477939287183915134427570653660,
    18036517493280684994086422472836684574958522046082104706191767971772588653414⟩,
    ⟨12024878971219924596126167470912164126069571470920303836981484077735740045808,
    12088532900345917689372970084382914967376381683133843567036433805021059831782⟩,
    ⟨18636548249513754170037480213561800274730274480431671474510506775565820670538,
    484862457012831091000783580971633664837980608891731523078317918087979015627⟩,
    ⟨12854380827072509998894453778511927881740702346601022548753656112883525949779,
    21016659594031436027610734629912485368654520267464487058274396512796059069605⟩,
    ⟨4544019347201695882789396639027859595936136516099841711754648249115364055017,
    9132001756003505846917719392050459738388935268423112173203455225850718409826⟩,
    ⟨2707284442813110789542002829754932878085381333155093435984816354338373747733,
    9985794599114598976150761017422279321926833732396436356012891646240264175081⟩,
    ⟨19216498579120724438395752292152035023946521488253681705256787857670741034254,
    15442461392939439298422570900746792941640606215207840357965496110782956288763⟩]

end Verif.Model.Solidity
