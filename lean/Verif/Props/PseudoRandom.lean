import Verif.Props.Representatives
import Verif.Props.Binding

/-! # GetPseudoRandomElement (C20) -/

namespace Verif.Props
open Verif.Go Verif.Model Verif.Lemmas

/-- The element of a number parses as that number, negative ones included; different numbers have different elements; the benchmark set
consists of the elements of `0, 1, …`. -/
theorem C20_pseudoRandom (a : Int) :
    setString (getPseudoRandomElement a) = some a ∧ (∀ b, getPseudoRandomElement a = getPseudoRandomElement b → a = b) ∧
    ∀ n : Nat, genBenchSet n = (List.range n).map fun i : Nat => getPseudoRandomElement i := by
  refine ⟨?_, fun b h => intString_inj a b h, fun n => ?_⟩
  · unfold getPseudoRandomElement intString
    split
    · simp only [setString, parseDigits_itoa, Option.map_some]
      congr 1
      omega
    · rw [setString_itoa]
      congr 1
      omega
  · unfold genBenchSet
    refine List.map_congr_left fun i _ => ?_
    simp [getPseudoRandomElement, intString]

example : getPseudoRandomElement (-12) = [45, 49, 50] ∧ setString [45, 49, 50] = some (-12) := by
  have h : getPseudoRandomElement (-12) = [45, 49, 50] := by decide +kernel
  exact ⟨h, h ▸ (C20_pseudoRandom (-12)).1⟩

end Verif.Props
