import Mathlib.Data.Finset.Range
import Verif.Model.AccProve

/-! # The random number of `ZKAccumulate` -/

namespace Verif.Model
open Verif.Go

/-- accumulator/zkacc.go:11-17 `GenRandomizer`: `crand.Int(crand.Reader, Min2048)` draws from `0, …, Min2048 - 1`. -/
def randomizers : Finset Nat := Finset.range min2048

/-- accumulator/zkacc.go:19-36: the accumulator that `ZKAccumulate` returns when `GenRandomizer` draws `r`; `none` when it
returns nothing. -/
def zkAccOf (E : Env) (fuel : Nat) (set : List Bytes) (encodeType : Int) (setup : Setup) (r : Nat) : Option Nat :=
  match zkAccumulate E fuel r set encodeType setup with
  | some (.ok (acc, _)) => some acc
  | _ => none

end Verif.Model
