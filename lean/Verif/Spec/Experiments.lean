import Verif.Spec.Accumulator
import Verif.Model.Hashes
import Mathlib.Algebra.BigOperators.Group.Finset.Basic

/-!
# Specification of the swap experiments

The sets and randomizers of the experiments. From the model only the external functions `Env` are used.
-/

namespace Verif.Spec.Experiments
open Verif.Model

/-- Id, balance and old hash of user `i` (32 bits). -/
def user (i : Nat) : Nat := (2 * i + 1) % 2 ^ 32

/-- Hash of the old record of user `i`. -/
def oldRecord (E : Env) (i : Nat) : Nat := E.poseidon [user i, user i, 10, user i]

/-- Hash of the new record of user `i`, chained to the old one. -/
def newRecord (E : Env) (i : Nat) : Nat := E.poseidon [user i, user i, 1000000, oldRecord E i]

/-- Representatives of the removed records of `n` users. -/
def removed (E : Env) (n : Nat) : List Nat := (List.range n).map (fun i => oldRecord E i + 2 ^ 1023)

/-- Representatives of the inserted records of `n` users. -/
def inserted (E : Env) (n : Nat) : List Nat := (List.range n).map (fun i => newRecord E i + 2 ^ 1023)

/-- Representatives of `k` records that stay. -/
def kept (E : Env) (k : Nat) : List Nat := (List.range k).map (fun i => E.poseidon [i] + 2 ^ 1023)

/-- The randomizing factor of a small random number: eight chained field elements. -/
def factor (E : Env) (r : Nat) : Nat := ((List.range 8).map (fun i => E.poseidon [r, i])).prod

end Verif.Spec.Experiments
