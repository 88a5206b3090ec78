import Mathlib.Data.Fin.VecNotation
import Verif.Model.Poke

/-! # The random numbers of `ZKPoKEProve` -/

namespace Verif.Model
open Verif.Go

/-- proof/poke.go:82-96: `k`, `rhox` and `rhok` are drawn below `b`, so the largest values are `b - 1`. -/
def zkpokeLimits (pp : PublicParameters) : Fin 3 → Int :=
  ![zkpokeBound pp - 1, zkpokeBound pp - 1, zkpokeBound pp - 1]

/-- proof/poke.go:74-123 `ZKPoKEProve` as a function of the numbers `k`, `rhox` and `rhok`. -/
def zkpokeOf (E : Env) (fuel : Nat) (pp : PublicParameters) (u x w : Int) (v : Fin 3 → Int) : Run (Option ZKPoKEProof) :=
  zkpokeProve E fuel pp u x w (v 0) (v 1) (v 2)

end Verif.Model
