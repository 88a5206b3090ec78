import Verif.Model.Pool

/-! # What a goroutine computes if nobody else touches its variables -/

namespace Verif.Spec
open Verif.Model.Pool

/-- The values used by a program whose variables are private. -/
def alone : List Instr → (Nat → Int) → List Int
  | [], _ => []
  | .get r :: k, v => alone k (Function.update v r 0)
  | .fresh r :: k, v => alone k (Function.update v r 0)
  | .put _ :: k, v => alone k v
  | .set d srcs f :: k, v => alone k (Function.update v d (f (srcs.map v)))
  | .havoc _ :: k, v => alone k v
  | .out r :: k, v => v r :: alone k v

end Verif.Spec
