import Verif.Go.Run
import Verif.Go.Bytes
import Verif.Go.BigInt
import Verif.Model.Hashes
import Mathlib.NumberTheory.LegendreSymbol.JacobiSymbol

/-!
# Parameter generation (accumulator/common.go:230-409) and the built-in parameters

Random sources are streams: `crand.Prime` and `crand.Int` return the next element of an arbitrary stream (their
documented range is a hypothesis of the theorems that need it). An error of the random source panics in the code;
it is modelled, with the printed text, in `Model/SetupRun`. `big.Jacobi` is the Jacobi symbol of Mathlib.
-/

namespace Verif.Model
open Verif.Go

/-- accumulator/common.go:285-293 `getOrder`. -/
def getOrder (p q : Int) : Int := ((p - 1) / 2) * ((q - 1) / 2)

/-- accumulator/common.go:295-304 `testRemainder`. Both branches of the code return true. -/
def testRemainder (input modulo : Int) : Bool :=
  if input % modulo ≠ (modulo - 1) / 2 then true else true

/-- accumulator/common.go:308-344 `safePrimeSieve`: the tests in order, with early return. -/
def safePrimeSieve (input : Int) : Bool :=
  [3, 5, 7, 11, 13, 17, 19, 23, 29, 31, 37].all (fun r => testRemainder input r)

/-- accumulator/common.go:346-364 `getSuitablePrime`. `cand` is the stream of results of `crand.Prime`, `pos` the number
of results consumed so far; returns the number found and the new position. -/
def getSuitablePrime (test : Nat → Bool) (cand : Nat → Nat) : Nat → Nat → Option (Nat × Nat)
  | 0, _ => none
  | fuel + 1, pos =>
    let ranNum := cand pos
    if safePrimeSieve ranNum = false then getSuitablePrime test cand fuel (pos + 1)
    else if test ranNum = false then getSuitablePrime test cand fuel (pos + 1)
    else some (ranNum, pos + 1)

/-- accumulator/common.go:367-383 `getSafePrime`. -/
def getSafePrime (test : Nat → Bool) (cand : Nat → Nat) : Nat → Nat → Option (Nat × Nat)
  | 0, _ => none
  | fuel + 1, pos =>
    match getSuitablePrime test cand (fuel + 1) pos with
    | none => none
    | some (r, pos') =>
      let ranNum := r * 2 + 1
      if test ranNum = false then getSafePrime test cand fuel pos' else some (ranNum, pos')

/-- `big.Jacobi(x, y)`: panics for even `y`. -/
def bigJacobi (x : Int) (y : Nat) : Res Int :=
  if y % 2 = 0 then goPanic "big: invalid 2nd argument to Int.Jacobi: need odd integer" else .ok (jacobiSym x y)

/-- accumulator/common.go:405-410 `isQR`. -/
def isQR (input : Int) (p q : Nat) : Res Bool := do
  let a ← bigJacobi input p
  if a = 1 then
    let b ← bigJacobi input q
    .ok (decide (b = 1))
  else .ok false

/-- accumulator/common.go:385-403 `getRanQR`; `rnd` is the stream of results of `crand.Int`. -/
def getRanQR (rnd : Nat → Nat) (p q : Nat) : Nat → Nat → Run Nat
  | 0, _ => ExceptT.mk none
  | fuel + 1, pos => do
    let ranNum := rnd pos
    let flag ← liftRes (isQR ranNum p q)
    if flag = false then getRanQR rnd p q fuel (pos + 1) else pure ranNum

/-- accumulator/common.go:231-251 `TrustedSetupForQRN`; returns what it prints: `N`, `g`, `h`, and the two primes.
`cand`: results of `crand.Prime` for the primes, `rnd`: results of `crand.Int`, `r`: the last `crand.Prime`. -/
def trustedSetupForQRN (test : Nat → Bool) (cand rnd : Nat → Nat) (r : Nat) (fuel : Nat) :
    Run (Nat × Nat × Int × Nat × Nat) := do
  let pp ← liftLoop (getSafePrime test cand fuel 0)
  let qq ← liftLoop (getSafePrime test cand fuel pp.2)
  let p := pp.1
  let q := qq.1
  let N := p * q
  let g ← getRanQR rnd p q fuel 0
  let order := getOrder p q
  let randomNum : Int := (r : Int) % order
  let h := (bigExp g randomNum N).getD 0
  pure (N, g, h, p, q)

/-- accumulator/common.go:21 `N2048String` -/
def n2048 : Nat := 22582513446883649683242153375773765418277977026848618150278436227443969113525388360965414596382292671632010154272027792498289390464326093128963474525925743125404187090638221587455285089494562751793489098182761320953828657439130044252338283109583198301789045090284695934345711523245381620643226632165168827411546661236460973389982263385406789443858985073091473529732325356098830825299275985202060852102775942940039443155227986748457261585440368528834910182851433705587223040610934954417065434756145769875043620201897615075786323297141320586481340831246603933018654794846594742280842668198512719618188992528830140149361

/-- accumulator/common.go:23 `G2048String` -/
def g2048 : Nat := 3734320578166922768976307305081280303658237303482921793243310032002132951325426885895423150554487167609218974062079302792001919827304933109188668552532361245089029380294384169787606911401094856511916709999954764232948323779503820860893459514928713744983707360078264267038900798843893405664990521531326919997106338139056096176409033756102908667173913246197068450150318832809948977367751025873698025220766782003611956130604742644746610708520581969538416206455665972248047959779079118036299417601968576259426648158714614452861031491553305187113545916330322686053758561416773919173504690956803771722726889946697788319929

/-- accumulator/common.go:25 `H2048String` -/
def h2048 : Nat := 1582433196042535773898642856814926874501199844772808209798545765882857391073717631360065816613373509202691737458490830509979879771883168398785856056110736083435040549860024938378796318753064835110482441115760897524667343221753799849207723195729358565521753697076761550453675996906942484179834968386568757636433579938945322152073309477120701766107272148535093122238519340372766971216124175473667780382425281013570558875523373504108433319932127851859684947025440123382599601611460274335280822834972913253420025827402904805226163959418839188054187383250553791823431534564282919675786841775533806609995586228017407921459

/-- accumulator/common.go:33 `PString` -/
def uhP : Nat := 90906479945022450706608444255860322124872501190254782434061962615363326054763

/-- accumulator/common.go:35 `AString` -/
def uhA : Nat := 88002637055063747320581957665708636390837016772007025523219521174143026565170

/-- accumulator/common.go:37 `BString` -/
def uhB : Nat := 13294476384846260317153427213550716038030529474006293344879303435820149470959

/-- accumulator/accumulator.go:21-31 `TrustedSetup`: the three constants read by `SetString` (which ignores the success
flag; 0 stands for the undefined value after a failure). The string constants are the decimal strings of the numbers
above. -/
def trustedSetup : Int × Int × Int :=
  ((setString (itoa n2048)).getD 0, (setString (itoa g2048)).getD 0, (setString (itoa h2048)).getD 0)

end Verif.Model
