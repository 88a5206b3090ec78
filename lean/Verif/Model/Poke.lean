import Verif.Model.Transcript
import Verif.Go.BigInt

/-!
# proof/poke.go: PoKE*, ZKPoKE and PoE

Pointers to proofs and their fields are `Option`s (`none` is nil); dereferencing nil panics. The public inputs are
non-nil. `fuel` bounds the loop of the prime challenge.
-/

namespace Verif.Model
open Verif.Go

/-- proof/parameters.go:16-20 `PublicParameters`, 23-29 `NewPublicParameters`. -/
structure PublicParameters where
  N : Int
  G : Int
  H : Int
deriving DecidableEq, Repr

/-- Use of a pointer. -/
def deref {α : Type} (p : Option α) : Run α :=
  match p with
  | none => liftRes (goPanic "invalid memory address or nil pointer dereference")
  | some v => Run.ok v

/-- `z.Exp(x, y, m)` as a statement on a fresh `z`: when the inverse does not exist `z` keeps the value 0. -/
def expStmt (x y m : Int) : Int := (bigExp x y m).getD 0

/-- proof/poke.go:16-23 `MultiExp`. `Mod` panics for modulus 0. -/
def multiExp (g x h r n : Int) : Run Int :=
  if n = 0 then liftRes (goPanic "division by zero")
  else Run.ok (expStmt g x n * expStmt h r n % n)

/-- `z.DivMod(x, y, m)` and `z.Div`, `z.Mod`: Euclidean; panics for `y = 0`. -/
def divMod (x y : Int) : Run (Int × Int) :=
  if y = 0 then liftRes (goPanic "division by zero") else Run.ok (x / y, x % y)

/-! ## PoKE* -/

/-- proof/poke.go:26-29 `PoKEStarProof`. -/
structure PoKEStarProof where
  Q : Option Int
  R : Option Int
deriving DecidableEq, Repr

/-- proof/poke.go:42 and 55. -/
def pokeStarTranscript (pp : PublicParameters) (C : Int) : Transcript :=
  initTranscript [ascii "PoKEStar", intString pp.G, intString pp.N, intString C] lenMax252

/-- proof/poke.go:32-47 `PoKEStarProve`; `none` is the error return. -/
def pokeStarProve (E : Env) (fuel : Nat) (pp : PublicParameters) (C x : Int) : Run (Option PoKEStarProof) := do
  if expStmt pp.G x pp.N ≠ C then return none
  let (l, _) ← liftLoop ((pokeStarTranscript pp C).getPrimeChallenge E fuel)
  let (q, r) ← divMod x l
  return some { Q := some (expStmt pp.G q pp.N), R := some r }

/-- proof/poke.go:50-60 `PoKEStarVerify`. -/
def pokeStarVerify (E : Env) (fuel : Nat) (pp : PublicParameters) (C : Int) (proof : Option PoKEStarProof) : Run Bool :=
  match proof with
  | none => Run.ok false
  | some proof => do
    let (l, _) ← liftLoop ((pokeStarTranscript pp C).getPrimeChallenge E fuel)
    let Q ← deref proof.Q
    let R ← deref proof.R
    let temp ← multiExp Q l pp.G R pp.N
    return decide (temp = C)

/-! ## ZKPoKE -/

/-- proof/poke.go:63-71 `ZKPoKEProof`. -/
structure ZKPoKEProof where
  z : Option Int
  Ag : Option Int
  Au : Option Int
  Qg : Option Int
  Qu : Option Int
  rx : Option Int
  rrho : Option Int
deriving DecidableEq, Repr

/-- proof/poke.go:102-103 and 131-132. -/
def zkpokeTranscript (pp : PublicParameters) (u w : Int) (z Ag Au : Option Int) : Transcript :=
  initTranscript [ascii "ZKPoKE", intString pp.G, intString pp.H, intString pp.N, intString u, intString w,
    ptrString z, ptrString Ag, ptrString Au] lenMax252

/-- proof/poke.go:82-84: the bound of the random numbers, `N << (2*128 - 2)`. -/
def zkpokeBound (pp : PublicParameters) : Int := pp.N * 2 ^ (2 * 128 - 2)

/-- proof/poke.go:74-123 `ZKPoKEProve`. The results `k`, `rhox`, `rhok` of the random source are inputs (each in
`[0, zkpokeBound pp)`); for failures of the random source see Model/RandomSource. `none` is the error return. -/
def zkpokeProve (E : Env) (fuel : Nat) (pp : PublicParameters) (u x w : Int) (k rhox rhok : Int) :
    Run (Option ZKPoKEProof) := do
  if expStmt u x pp.N ≠ w then return none
  if zkpokeBound pp ≤ 0 then liftRes (goPanic "crypto/rand: argument to Int is <= 0")
  let z ← multiExp pp.G x pp.H rhox pp.N
  let Ag ← multiExp pp.G k pp.H rhok pp.N
  let Au := bigExp u k pp.N
  let (c, t) := (zkpokeTranscript pp u w (some z) (some Ag) Au).getIntChallenge E
  let (l, _) ← liftLoop (t.getPrimeChallenge E fuel)
  let sx := (c : Int) * x + k
  let srho := (c : Int) * rhox + rhok
  let (qx, rx) ← divMod sx l
  let (qrho, rrho) ← divMod srho l
  let Qg ← multiExp pp.G qx pp.H qrho pp.N
  let Qu := bigExp u qx pp.N
  return some { z := some z, Ag := some Ag, Au := Au, Qg := some Qg, Qu := Qu, rx := some rx, rrho := some rrho }

/-- proof/poke.go:126-153 `ZKPoKEVerify`. -/
def zkpokeVerify (E : Env) (fuel : Nat) (pp : PublicParameters) (u w : Int) (proof : Option ZKPoKEProof) : Run Bool :=
  match proof with
  | none => Run.ok false
  | some proof => do
    let (c, t) := (zkpokeTranscript pp u w proof.z proof.Ag proof.Au).getIntChallenge E
    let (l, _) ← liftLoop (t.getPrimeChallenge E fuel)
    let Qg ← deref proof.Qg
    let rx ← deref proof.rx
    let rrho ← deref proof.rrho
    let m ← multiExp pp.G rx pp.H rrho pp.N
    let lhs := expStmt Qg l pp.N * m % pp.N
    let z ← deref proof.z
    let Ag ← deref proof.Ag
    let rhs := expStmt z c pp.N * Ag % pp.N
    if lhs ≠ rhs then return false
    let Qu ← deref proof.Qu
    let lhs ← multiExp Qu l u rx pp.N
    let Au ← deref proof.Au
    let rhs := expStmt w c pp.N * Au % pp.N
    return decide (lhs = rhs)

/-! ## PoE -/

/-- proof/poke.go:156-158 `PoEProof`. -/
structure PoEProof where
  Q : Option Int
deriving DecidableEq, Repr

/-- proof/poke.go:170 and 183. -/
def poeTranscript (base mod C x : Int) : Transcript :=
  initTranscript [ascii "PoE", intString base, intString mod, intString C, intString x] lenMax252

/-- proof/poke.go:161-175 `PoEProve`; `none` is the error return. -/
def poeProve (E : Env) (fuel : Nat) (base mod C x : Int) : Run (Option PoEProof) := do
  if expStmt base x mod ≠ C then return none
  let (l, _) ← liftLoop ((poeTranscript base mod C x).getPrimeChallenge E fuel)
  let (q, _) ← divMod x l
  return some { Q := some (expStmt base q mod) }

/-- proof/poke.go:178-188 `PoEVerify`. -/
def poeVerify (E : Env) (fuel : Nat) (base mod C x : Int) (proof : Option PoEProof) : Run Bool :=
  match proof with
  | none => Run.ok false
  | some proof => do
    let (l, _) ← liftLoop ((poeTranscript base mod C x).getPrimeChallenge E fuel)
    let (_, r) ← divMod x l
    let Q ← deref proof.Q
    let temp ← multiExp Q l base r mod
    return decide (temp = C)

end Verif.Model
