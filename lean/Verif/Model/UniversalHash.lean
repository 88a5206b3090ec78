import Verif.Model.Hashes
import Verif.Model.Setup

/-!
# Parameters of the universal hash

`crand.Prime` and `crand.Int` are parameters: `cand i` is the `i`-th random prime, `rndA`, `rndB` the two random numbers,
reduced to the interval that `crand.Int` draws from.
-/

namespace Verif.Model
open Verif.Go

/-- accumulator/common.go:269-283 `getPrime256`. -/
def getPrime256 (test : Nat → Bool) (cand : Nat → Nat) : Nat → Nat → Option Nat
  | 0, _ => none
  | fuel + 1, pos =>
    let ranNum := cand pos
    let flag := test ranNum
    if flag = false then getPrime256 test cand fuel (pos + 1) else some ranNum

/-- accumulator/common.go:254-267 `RandomSetupForUniversalHash`: the printed numbers P, A, B. `crand.Int` panics if its
bound is not positive. -/
def randomSetupForUniversalHash (test : Nat → Bool) (cand : Nat → Nat) (rndA rndB : Nat) (fuel : Nat) :
    Run (Nat × Nat × Nat) := do
  let p ← liftLoop (getPrime256 test cand fuel 0)
  if p = 0 then liftRes (goPanic "crypto/rand: argument to Int is <= 0")
  let a := rndA % p
  let b := rndB % p
  pure (p, a, b)

end Verif.Model
