import Verif.Lemmas.EvmGas
import Verif.Lemmas.VerifierTree

/-!
# The gas of the runs of the contract

For the three kinds of points A (first coordinate not zero; only the first one zero; both zero) the gas that is enough, the gas
that is used by an answer and the gas without which there is none. The kernel checks it by evaluation.
-/

namespace Verif.Lemmas.VerifierGas

open Verif.Go Verif.Model Verif.Model.EvmMachine Verif.Model.EvmGas Verif.Lemmas.EvmSymbolic Verif.Lemmas.EvmGas
open Verif.Lemmas.VerifierTree

/-- What is known if the first coordinate is not zero. -/
def knownX (e : Ex) : Option Bool := if e = isNot0 4 then some true else none

/-- What is known if only the first coordinate is zero. -/
def knownY (e : Ex) : Option Bool := if e = isNot0 4 then some false else if e = isNot0 36 then some true else none

/-- What is known if both are zero. -/
def known0 (e : Ex) : Option Bool := if e = isNot0 4 then some false else if e = isNot0 36 then some false else none

theorem gas_x : gasSym verifierCode jumpTargets knownX 12000 ⟨0, [], [], 0, 0⟩ 0 0 [] = some (264636, [(262130, 264636)]) := by
  decide +kernel

theorem gas_y : gasSym verifierCode jumpTargets knownY 12000 ⟨0, [], [], 0, 0⟩ 0 0 [] = some (264656, [(262150, 264656)]) := by
  decide +kernel

theorem gas_0 : gasSym verifierCode jumpTargets known0 12000 ⟨0, [], [], 0, 0⟩ 0 0 [] = some (264279, [(261773, 264279)]) := by
  decide +kernel

theorem runGas_mono (c : Code) (jd : Nat) (w : World) (o : Outcome × Nat) : ∀ (n m : Nat) (s : GState), n ≤ m →
    runGasFrom c jd w n s = some o → runGasFrom c jd w m s = some o
  | 0, _, _, _, h => nomatch h
  | n + 1, 0, _, hm, _ => by omega
  | n + 1, m + 1, s, hm, h => by
    unfold runGasFrom at h ⊢
    cases hs : gasStep c jd w s with
    | next s' =>
      rw [hs] at h
      exact runGas_mono c jd w o n m s' (by omega) h
    | done o' left =>
      rw [hs] at h
      exact h

end Verif.Lemmas.VerifierGas
