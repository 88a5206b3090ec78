import Verif.Lemmas.Exec
import Verif.Lemmas.Iter
import Verif.Lemmas.Hashes
import Verif.Lemmas.IterParallel
import Verif.Model.AccProve

/-! # Common result of all provers, for every base (also unreduced ones) -/

namespace Verif.Lemmas
open Verif.Go Verif.Model Verif.Spec

/-- What all provers return on a non-empty set. -/
def expected (base N : Nat) (set : List Nat) : List Nat := if set.length = 1 then [base] else witnesses base N set

theorem witness_verifies (base N : Nat) (xs : List Nat) (i : Nat) (h : i < xs.length) :
    verifies N (accumulator base N xs) (witness base N xs i) xs[i] := by
  unfold verifies accumulator witness allBut
  rw [pow_mod_pow, Nat.mul_comm, List.CommMonoid.mul_prod_eraseIdx h]

theorem expected_length (base N : Nat) (set : List Nat) : (expected base N set).length = set.length := by
  unfold expected
  split
  · rename_i h; simp [h]
  · exact witnesses_length _ _ _

theorem expected_of_reduced (base N : Nat) (set : List Nat) (hb : base % N = base) :
    expected base N set = witnesses base N set := by
  unfold expected
  split
  · rename_i h
    obtain ⟨x, rfl⟩ := List.length_eq_one_iff.1 h
    simp [witnesses, witness, allBut, hb]
  · rfl

theorem expected_of_two (base N : Nat) (set : List Nat) (h : 2 ≤ set.length) :
    expected base N set = witnesses base N set := by
  unfold expected; rw [if_neg (by omega)]

theorem expected_verifies (base N : Nat) (set : List Nat) (i : Nat) (h : i < set.length)
    (h' : i < (expected base N set).length) :
    verifies N (accumulator base N set) (expected base N set)[i] set[i] := by
  by_cases h1 : set.length = 1
  · obtain ⟨x, rfl⟩ := List.length_eq_one_iff.1 h1
    have : i = 0 := by simpa using h
    subst this
    simp [expected, verifies, accumulator]
  · have he : expected base N set = witnesses base N set := by unfold expected; rw [if_neg h1]
    have : (expected base N set)[i] = witness base N set i := by
      simp only [he]; exact witnesses_getElem ..
    rw [this]; exact witness_verifies base N set i h

theorem proveMembership_expected (base N : Nat) (set : List Nat) (h : set ≠ []) :
    proveMembership base N set = .ok (expected base N set) := by
  have h0 : 0 < set.length := List.length_pos_iff.2 h
  by_cases h1 : set.length = 1
  · obtain ⟨x, rfl⟩ := List.length_eq_one_iff.1 h1
    simp [proveMembership, handleSmallSet, expected]
  · rw [expected_of_two _ _ _ (by omega), proveMembership_eq base N set h0 (.inr (by omega))]

theorem iter_expected (base N : Nat) (set : List Nat) (fuel : Nat) (hfuel : set.length ≤ fuel) :
    proveMembershipIterFuel fuel base N set = some (expected base N set) := by
  by_cases h1 : set.length = 1
  · obtain ⟨x, rfl⟩ := List.length_eq_one_iff.1 h1
    obtain ⟨f, rfl⟩ : ∃ f, fuel = f + 1 := ⟨fuel - 1, by simp at hfuel; omega⟩
    simp [proveMembershipIterFuel, iterLoop, iterPass, expected]
  · by_cases h0 : set.length = 0
    · obtain rfl := List.eq_nil_of_length_eq_zero h0
      simp [proveMembershipIterFuel, expected, witnesses]
    · rw [expected_of_two _ _ _ (by omega), iter_eq base N set fuel hfuel (.inr (by omega))]

theorem iter_mono (base N : Nat) (set : List Nat) (fuel k : Nat) (ps : List Nat)
    (h : proveMembershipIterFuel fuel base N set = some ps) :
    proveMembershipIterFuel (fuel + k) base N set = some ps := by
  unfold proveMembershipIterFuel at h ⊢
  split
  · rename_i h0; rw [if_pos h0] at h; exact h
  · rename_i h0
    rw [if_neg h0] at h
    obtain ⟨out, ho, rfl⟩ := Option.map_eq_some_iff.1 h
    rw [IterParallel.iterLoop_mono _ _ _ _ _ ho k]; rfl

theorem iter_any_fuel (base N : Nat) (set : List Nat) (fuel : Nat) (ps : List Nat)
    (h : proveMembershipIterFuel fuel base N set = some ps) : ps = expected base N set := by
  have h1 := iter_mono _ _ _ _ set.length _ h
  rw [iter_expected _ _ _ _ (by omega)] at h1
  injection h1 with h1; exact h1.symm

theorem handleSmallSet_of_le (base N : Nat) (set : List Nat) (h : set.length ≤ 4) :
    handleSmallSet base N set = proveMembership base N set := by
  unfold proveMembership; rw [dif_pos h]

theorem parallel_expected (base N : Nat) (set : List Nat) (limit : Int) (h : set ≠ []) :
    (proveMembershipParallel base N set limit).eval = .ok (expected base N set) := by
  by_cases h1 : set.length = 1
  · unfold proveMembershipParallel
    split
    · rw [Prog.eval, proveMembership_expected _ _ _ h]
    · rw [if_pos (by omega), Prog.eval, handleSmallSet_of_le _ _ _ (by omega), proveMembership_expected _ _ _ h]
  · have h0 : 0 < set.length := List.length_pos_iff.2 h
    rw [expected_of_two _ _ _ (by omega), parallel_eval _ _ _ _ h0 (.inr (by omega))]

theorem parallelWithTable_expected (base N : Nat) (set : List Nat) (limit : Int) (h : set ≠ []) :
    (proveMembershipParallelWithTable base N set limit).eval = .ok (expected base N set) :=
  parallel_expected base N set limit h

theorem parallel_nil (base N : Nat) (limit : Int) : ∃ e, (proveMembershipParallel base N [] limit).eval = .error e := by
  unfold proveMembershipParallel
  split
  · simp [Prog.eval, proveMembership, handleSmallSet, goPanic]
  · simp [Prog.eval, handleSmallSet, goPanic]

theorem iterParallel_expected (base N : Nat) (set : List Nat) (k : Nat) (ps : List (Option Nat))
    (h : IterParallelReturns base N set (2 ^ k) k ps) : ps = (expected base N set).map some := by
  cases h with
  | small fuel ps hl h => rw [iter_any_fuel _ _ _ _ _ h]
  | large s ps hl hr hm =>
    have hc : IterParallel.CallOk ⟨N, set, base, 2 ^ k, k⟩ := ⟨rfl, by simpa using hl⟩
    obtain ⟨rn, co, hi⟩ := IterParallel.inv_reachable _ hc s hr
    have h1 := IterParallel.returned_eq _ s rn co hi ps hm
    have : 0 < 2 ^ k := Nat.two_pow_pos k
    rw [h1, expected_of_two _ _ _ (by omega)]

theorem accFromProofs_expected (base N : Nat) (rep : List Nat) (h : rep ≠ []) :
    accFromProofs N rep (expected base N rep) = .ok (accumulator base N rep, expected base N rep) := by
  have h0 : 0 < rep.length := List.length_pos_iff.2 h
  have h1 : 0 < (expected base N rep).length := by rw [expected_length]; exact h0
  have hv := expected_verifies base N rep 0 h0 h1
  unfold accFromProofs index
  rw [List.getElem?_eq_getElem h1, List.getElem?_eq_getElem h0]
  show Except.ok (accumulateNewPow _ _ N, _) = _
  unfold accumulateNewPow expMod
  rw [hv]

theorem accFromPointers_expected (base N : Nat) (rep : List Nat) (h : rep ≠ []) :
    accFromPointers N rep ((expected base N rep).map some)
      = .ok (accumulator base N rep, (expected base N rep).map some) := by
  have h0 : 0 < rep.length := List.length_pos_iff.2 h
  have h1 : 0 < (expected base N rep).length := by rw [expected_length]; exact h0
  have hv := expected_verifies base N rep 0 h0 h1
  unfold accFromPointers index
  rw [List.getElem?_map, List.getElem?_eq_getElem h1, List.getElem?_eq_getElem h0]
  show Except.ok (accumulateNewPow _ _ N, _) = _
  unfold accumulateNewPow expMod
  rw [hv]

end Verif.Lemmas
