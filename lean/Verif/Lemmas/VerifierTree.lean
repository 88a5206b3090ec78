import Verif.Lemmas.EvmSymbolic
import Verif.Model.VerifierCode

/-!
# All runs of the bytecode of the contract

The tree of the runs of `verifierCode`, found by running it on unknown data. The kernel checks it by evaluation.
-/

namespace Verif.Lemmas.VerifierTree

open Verif.Model Verif.Model.EvmMachine Verif.Lemmas.EvmSymbolic

/-- `jumpdests verifierCode`, see `jumpTargets_eq`. -/
def jumpTargets : Nat := 1528463732982665350821254139956288885325046028203263219259310834336206769379222811004392398140008098302850268542117563115345384487457372477805142995085951922888687312244274610401130918355673612943240766120034370473288776252005139213288047213737828576403271095060499212178250541472244899698172876267572564003622985000795242394473645971175515849508921939196366763083288296678641223133165762170714036454584914528080643272166413188729475011079083704680936546886483465003963000963354772043929516861355223725090797104062430942906277650442177786847982738528158796214622668968210290908220181914086961536181370592001155249851092074183894275034878701240610626442147154588937701043649750308805247056512270047734475374864039909203804462430774585926800400250123976293028698782358480796977553730813623493576797042777055359198851327993570402148968523907922182661143446396572492359290298484122946869086503579529352548529605921624127951806863048600774692669748847096181806682063651275079833017172255032629392632249993953923518245588923347167083907474948402731425421430513604052218903709456570170234761109857797079394127530316447761622193051520212260554488080298177558573840516583502861325243376215947194036804275601312627012919680318235966706575725060911864151937038873961866127444082674077127486791491615214571967023284199355513716830934343976435908261167350343053721124896232856222317536327287827724347945981172967983034927875332818440172571695065292215831517056107429658145551932491565631564798130417855466883286821355867577091141004005081334748669950480826995818060230889945189357473850160355113623228819772354873422675064364653057703149090859571907672956706896482759869591829586504310770756986002519870919238894599997450824474683684650198978136302572157946466721730934190364397549743134734468740047954937943059409325942784666838377290121484166204347385025299708429157658814939476346216457723535035919353630789103925728476792901946986571155009977792378207270648668909116303780282094639927563468959118915019732048902074929774956801452404034237518421179231934521723491546538631351318041315156782014091722211514435706937181743606614534375265239609159385531100471443468368169237245485398468484334957928706562401821680812620340669106795666820252590278802849890636232978530686566952585428310306898586903637700651279013728136778914266462613220819938079470016564210640788894325294119209695502957168664181657188893666294409285111045701941395456

theorem jumpTargets_eq : jumpdests verifierCode = jumpTargets := by decide +kernel

def need (c : Ex) (t : Tree) : Tree := .branch c t .reverted

def needs (cs : List Ex) (t : Tree) : Tree := cs.foldr need t

def dataEnd : Ex := .bin .add (.const 4) (.bin .sub .size (.const 4))

/-- The decoder of an array at offset `a` with `n` bytes looks whether there is enough data. -/
def fits (a n : Nat) : List Ex := [.bin .slt (.const (a + 31)) dataEnd, .isz (.bin .gt (.const (a + n)) dataEnd)]

def same (a : Nat) : Ex := .bin .eq (.cd a) (.cd a)

def below (a : Nat) (n : Nat) : Ex := .bin .lt (.cd a) (.const n)

def checks : List Ex :=
  [.isz (.bin .slt (.bin .sub dataEnd (.const 4)) (.const 480))] ++
  fits 4 64 ++ [same 4, same 36] ++
  fits 68 128 ++ fits 68 64 ++ [same 68, same 100] ++ fits 132 64 ++ [same 132, same 164] ++
  fits 196 64 ++ [same 196, same 228] ++
  fits 260 224 ++ [same 260, same 292, same 324, same 356, same 388, same 420, same 452] ++
  [4, 36, 68, 132, 100, 164, 196, 228].map fun a => below a Solidity.primeQ

def callOk (addr : Nat) (inp : List Ex) (t : Tree) : Tree := .call addr inp t .exception

/-- Round `i` of the loop over the public inputs; `x`, `y` is the sum so far and `k` the number of calls so far. -/
def round (p : Solidity.G1) (a : Nat) (x y : Ex) (k : Nat) (t : Tree) : Tree :=
  need (below a Solidity.snarkScalarField) <|
    callOk 7 [.const p.x, .const p.y, .cd a] <| callOk 6 [x, y, .ret k 0, .ret k 1] t

def g1 (p : Solidity.G1) : List Ex := [.const p.x, .const p.y]

def g2 (p : Solidity.G2) : List Ex := [.const p.x0, .const p.x1, .const p.y0, .const p.y1]

/-- The call of the pairing and the answer. -/
def answer (vk : Solidity.VerifyingKey) (x y : Ex) : Tree :=
  callOk 8 ([x, y, .cd 68, .cd 100, .cd 132, .cd 164] ++ g1 vk.alfa1 ++ g2 vk.beta2 ++ [.ret 14 0, .ret 14 1] ++
    g2 vk.gamma2 ++ [.cd 196, .cd 228] ++ g2 vk.delta2) (.ret (.isz (.isz (.isz (.bin .eq (.ret 15 0) (.const 0))))))

def negY : Ex := .bin .sub (.const Solidity.primeQ) (.bin .mod (.cd 36) (.const Solidity.primeQ))

/-- The point is not zero. -/
def negated (vk : Solidity.VerifyingKey) : Tree :=
  need (.isz (.bin .gt negY (.const Solidity.primeQ))) (answer vk (.cd 4) negY)

def isNot0 (a : Nat) : Ex := .isz (.bin .eq (.cd a) (.const 0))

/-- From the check of the first public input on. -/
def body (vk : Solidity.VerifyingKey) : Tree :=
  round (vk.ic 1) 260 (.const 0) (.const 0) 0 <|
  round (vk.ic 2) 292 (.ret 1 0) (.ret 1 1) 2 <|
  round (vk.ic 3) 324 (.ret 3 0) (.ret 3 1) 4 <|
  round (vk.ic 4) 356 (.ret 5 0) (.ret 5 1) 6 <|
  round (vk.ic 5) 388 (.ret 7 0) (.ret 7 1) 8 <|
  round (vk.ic 6) 420 (.ret 9 0) (.ret 9 1) 10 <|
  round (vk.ic 7) 452 (.ret 11 0) (.ret 11 1) 12 <|
  callOk 6 [.ret 13 0, .ret 13 1, .const (vk.ic 0).x, .const (vk.ic 0).y] <|
  .branch (isNot0 4)
    (.branch (isNot0 4) (negated vk) (answer vk (.const 0) (.const 0)))
    (.branch (isNot0 36) (negated vk) (answer vk (.const 0) (.const 0)))

def wholeTree (vk : Solidity.VerifyingKey) : Tree :=
  need (.isz .value) <|
  .branch (.bin .lt .size (.const 4)) .reverted <|
  need (.bin .eq (.const 0xc894e757) (.bin .shr (.const 224) (.cd 0))) <|
  needs checks <| body vk

/-- The runs of the code are those of the tree with the key of
zkmultiswap/gnark-tests/solidity/Notuscontract_g16.sol. -/
theorem tree_eq : runSym verifierCode jumpTargets 12000 ⟨0, [], [], 0, 0⟩ = wholeTree Solidity.testKey := by decide +kernel

end Verif.Lemmas.VerifierTree
