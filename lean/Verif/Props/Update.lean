import Verif.Props.Accumulator

/-! # Adding and removing elements (C135) -/

namespace Verif.Props
open Verif.Go Verif.Model Verif.Lemmas Verif.Spec

/-- What `AccAndProve` returns, in terms of the representatives. -/
theorem accAndProve_ok_iff (E : Env) (fuel : Nat) (set : List Bytes) (enc : Int) (setup : Setup) (acc : Nat) (ps : List Nat) :
    accAndProve E fuel set enc setup = Run.ok (acc, ps) ↔
      ∃ rep, genRepresentatives E fuel set enc = Run.ok rep ∧ rep ≠ [] ∧ acc = accumulator setup.G setup.N rep ∧
        ps = expected setup.G setup.N rep := by
  unfold accAndProve
  rw [run_bind_ok_iff]
  refine exists_congr fun rep => and_congr_right fun hrep => ?_
  rw [run_bind_ok_iff]
  by_cases hr : rep = []
  · subst hr
    constructor
    · rintro ⟨q, hq, -⟩
      rw [liftRes_ok_iff] at hq
      simp [proveMembership, handleSmallSet, goPanic] at hq
    · rintro ⟨h, -⟩; exact absurd rfl h
  · rw [proveMembership_expected _ _ _ hr]
    constructor
    · rintro ⟨q, hq, h⟩
      rw [liftRes_ok_iff] at hq
      injection hq with hq
      subst hq
      rw [liftRes_ok_iff, accFromProofs_expected _ _ _ hr] at h
      injection h with h
      injection h with h1 h2
      exact ⟨hr, h1.symm, h2.symm⟩
    · rintro ⟨-, rfl, rfl⟩
      exact ⟨_, (liftRes_ok_iff _ _).2 rfl, by rw [liftRes_ok_iff, accFromProofs_expected _ _ _ hr]⟩

theorem genRepresentatives_append (E : Env) (fuel : Nat) (set set2 : List Bytes) (enc : Int) (rep rep2 : List Nat)
    (h : genRepresentatives E fuel set enc = Run.ok rep) (h2 : genRepresentatives E fuel set2 enc = Run.ok rep2) :
    genRepresentatives E fuel (set ++ set2) enc = Run.ok (rep ++ rep2) := by
  rw [genRepresentatives_ok_iff] at *
  exact List.rel_append h h2

theorem witnesses_pow (b e N : Nat) (xs : List Nat) :
    witnesses (b ^ e % N) N xs = (expected b N xs).map (fun w => accumulateNewPow w e N) := by
  unfold accumulateNewPow expMod
  by_cases h1 : xs.length = 1
  · obtain ⟨x, rfl⟩ := List.length_eq_one_iff.1 h1
    simp [expected, witnesses, witness, allBut]
  · have : expected b N xs = witnesses b N xs := by unfold expected; rw [if_neg h1]
    rw [this]
    apply List.ext_getElem
    · simp [witnesses_length]
    · intro i h1 h2
      rw [witnesses_getElem, List.getElem_map, witnesses_getElem]
      unfold witness
      rw [pow_mod_pow, pow_mod_pow, Nat.mul_comm]

/-- Adding the strings `set2`: the accumulator and every old witness are raised to the product of the new representatives
by `AccumulateNew`; the witnesses of the new strings are those that `ProveMembership` computes from the old accumulator. This is
exactly what `AccAndProve` returns for the longer list. -/
theorem C135_add_many (E : Env) (fuel : Nat) (set set2 : List Bytes) (enc : Int) (setup : Setup) (acc : Nat) (ps rep2 : List Nat)
    (h : accAndProve E fuel set enc setup = Run.ok (acc, ps)) (hne : set2 ≠ [])
    (h2 : genRepresentatives E fuel set2 enc = Run.ok rep2) :
    ∃ ps2, proveMembership acc setup.N rep2 = .ok ps2 ∧
      accAndProve E fuel (set ++ set2) enc setup =
        Run.ok (accumulateNewPow acc rep2.prod setup.N, ps.map (fun w => accumulateNewPow w rep2.prod setup.N) ++ ps2) := by
  obtain ⟨rep, hrep, hr, rfl, rfl⟩ := (accAndProve_ok_iff ..).1 h
  have hr2 := rep_ne_nil h2 hne
  refine ⟨_, proveMembership_expected _ _ _ hr2, ?_⟩
  rw [accAndProve_ok_iff]
  refine ⟨rep ++ rep2, genRepresentatives_append _ _ _ _ _ _ _ hrep h2, by simp [hr], ?_, ?_⟩
  · simp only [accumulateNewPow, expMod, accumulator]
    rw [pow_mod_pow, List.prod_append]
  · have l1 := List.length_pos_iff.2 hr
    have l2 := List.length_pos_iff.2 hr2
    rw [expected_of_two _ _ (rep ++ rep2) (by rw [List.length_append]; omega), witnesses_append, witnesses_pow]
    congr 1
    unfold accumulator
    rw [expected_of_reduced _ _ _ (Nat.mod_mod _ _)]

/-- Adding one string: the old accumulator is the witness of the new string. -/
theorem C135_add (E : Env) (fuel : Nat) (set : List Bytes) (x : Bytes) (enc : Int) (setup : Setup) (acc r : Nat) (ps : List Nat)
    (h : accAndProve E fuel set enc setup = Run.ok (acc, ps)) (h2 : genRepresentatives E fuel [x] enc = Run.ok [r]) :
    accAndProve E fuel (set ++ [x]) enc setup =
      Run.ok (accumulateNewPow acc r setup.N, ps.map (fun w => accumulateNewPow w r setup.N) ++ [acc]) := by
  obtain ⟨ps2, h3, h4⟩ := C135_add_many E fuel set [x] enc setup acc ps [r] h (by simp) h2
  rw [proveMembership_expected _ _ _ (by simp)] at h3
  injection h3 with h3
  subst h3
  simpa [expected] using h4

theorem forall2_eraseIdx {α β : Type} (R : α → β → Prop) (l : List α) (l' : List β) (h : List.Forall₂ R l l') (i : Nat) :
    List.Forall₂ R (l.eraseIdx i) (l'.eraseIdx i) := by
  induction h generalizing i with
  | nil => exact .nil
  | cons hab _ ih =>
    cases i with
    | zero => assumption
    | succ i => exact .cons hab (ih i)

/-- Removing a string: its witness is the accumulator of the others, as `AccAndProve` computes it. (With one string there are no
others, and `AccAndProve` panics for the empty list.) -/
theorem C135_remove (E : Env) (fuel : Nat) (set : List Bytes) (enc : Int) (setup : Setup) (acc : Nat) (ps : List Nat)
    (h : accAndProve E fuel set enc setup = Run.ok (acc, ps)) (h2 : 2 ≤ set.length) (i : Nat) (hi : i < set.length) :
    ∃ w ps', ps[i]? = some w ∧ accAndProve E fuel (set.eraseIdx i) enc setup = Run.ok (w, ps') := by
  obtain ⟨rep, hrep, hr, rfl, rfl⟩ := (accAndProve_ok_iff ..).1 h
  have hl := genRepresentatives_length _ _ _ _ _ hrep
  have hi' : i < (witnesses setup.G setup.N rep).length := by rw [witnesses_length]; omega
  refine ⟨accumulator setup.G setup.N (rep.eraseIdx i), _, ?_, (accAndProve_ok_iff ..).2
    ⟨rep.eraseIdx i, ?_, ?_, rfl, rfl⟩⟩
  · rw [expected_of_two _ _ _ (by omega), List.getElem?_eq_getElem hi', witnesses_getElem]
    rfl
  · rw [genRepresentatives_ok_iff] at *
    exact forall2_eraseIdx _ _ _ hrep i
  · rw [← List.length_pos_iff, List.length_eraseIdx_of_lt (by omega)]
    omega

/-- Replacing string `i` by `x`: raising its witness to the new representative gives the accumulator that `AccAndProve` computes
for the changed list, and the witness is also the witness of `x`. -/
theorem C135_replace (E : Env) (fuel : Nat) (set : List Bytes) (x : Bytes) (enc : Int) (setup : Setup) (acc r : Nat) (ps : List Nat)
    (h : accAndProve E fuel set enc setup = Run.ok (acc, ps)) (h2 : 2 ≤ set.length) (i : Nat) (hi : i < set.length)
    (hx : genRepresentatives E fuel [x] enc = Run.ok [r]) :
    ∃ w ps', ps[i]? = some w ∧
      accAndProve E fuel (set.eraseIdx i ++ [x]) enc setup = Run.ok (accumulateNewPow w r setup.N, ps' ++ [w]) := by
  obtain ⟨w, ps', h3, h4⟩ := C135_remove E fuel set enc setup acc ps h h2 i hi
  exact ⟨w, _, h3, C135_add E fuel _ x enc setup w r ps' h4 hx⟩

/-- The order in which elements are added does not matter, also in several calls. -/
theorem C135_accumulate_steps (g N : Nat) (xs ys : List Nat) :
    accumulate (accumulate g N xs) N ys = accumulate g N (xs ++ ys) ∧
    (xs ++ ys ≠ [] → accumulate (accumulate g N xs) N ys = accumulator g N (xs ++ ys)) := by
  have h1 : accumulate (accumulate g N xs) N ys = accumulate g N (xs ++ ys) := by
    unfold accumulate; rw [List.foldl_append]
  refine ⟨h1, fun hne => ?_⟩
  rw [h1]
  exact accumulate_eq g N (xs ++ ys) (List.length_pos_iff.2 hne)

/-- Adding a third string to two, with the example environment of C02. -/
example : ∃ acc ps r, accAndProve exampleEnv 3 [[49], [50]] diHashFromPoseidon ⟨35, 2⟩ = Run.ok (acc, ps) ∧
    genRepresentatives exampleEnv 3 [[49, 48]] diHashFromPoseidon = Run.ok [r] ∧ ps.length = 2 := by
  have h1 : genRepresentatives exampleEnv 3 [[49], [50]] diHashFromPoseidon = Run.ok [1 + min1024, 2 + min1024] := by
    rw [genRepresentatives_ok_iff]
    exact .cons (exampleRepOf _ 1 (by decide) (by omega)) (.cons (exampleRepOf _ 2 (by decide) (by omega)) .nil)
  have h2 : genRepresentatives exampleEnv 3 [[49, 48]] diHashFromPoseidon = Run.ok [10 + min1024] := by
    rw [genRepresentatives_ok_iff]
    exact .cons (exampleRepOf _ 10 (by decide) (by omega)) .nil
  refine ⟨_, _, _, (accAndProve_ok_iff ..).2 ⟨_, h1, by simp, rfl, rfl⟩, h2, ?_⟩
  rw [expected_length]
  rfl

end Verif.Props
