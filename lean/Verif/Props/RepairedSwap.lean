import Verif.Props.Experiments

/-!
# The swap experiments with a middle accumulator without the removed elements (C73, C79)

As in RepairedSmall: the functions are changed where the counterexamples of the properties come from, and the properties are
proved. The changes: the middle accumulator is made from the unchanged elements only, PoKE gets the product of the removed elements
with the randomizer, and in the parallel flow the second product is made from the inserted set and the proofs are made by the prover
that uses the randomizer.
-/

namespace Verif.Props
open Verif.Go Verif.Model Verif.Spec Verif.Lemmas

/-- experiments/finaltests.go:472-597 `TestNotusMultiSwap` with the repaired middle accumulator (line 559) and exponent for PoKE. -/
def notusMultiSwapRepaired (E : Env) (fuel : Nat) (G N : Nat) (setsize updatedSetSize : UInt32) : Run SwapRun := do
  let pairs ← liftRes (swapPairs E updatedSetSize)
  let removeSet := pairs.map Prod.fst
  let insertSet := pairs.map Prod.snd
  let prod1 := setProductRecursiveFast removeSet
  let prod2 := setProductRecursiveFast insertSet
  let removedRanProd := timesRandomizer E 200 1
  let insertedRanProd := timesRandomizer E 300 1
  let prod1 := timesRandomizer E 200 prod1
  let prod2 := timesRandomizer E 300 prod2
  let unchangedSet := genBenchSet (setsize - updatedSetSize).toNat
  let unchanged ← genRepresentatives E fuel unchangedSet diHashFromPoseidon
  let newSet1 := unchanged ++ insertSet
  let proofs ← liftRes (proveMembershipParallelWithTableWithRandomizer G insertedRanProd N newSet1 0).eval
  let original := unchanged ++ removeSet
  let originalProd := setProductRecursiveFast original
  let originalProd := originalProd * removedRanProd
  let accOri := expMod G originalProd N
  let accMid := expMod G (setProductRecursiveFast unchanged) N
  let poke ← pokeExperiment E fuel accMid prod1 accOri N
  let accOld := expMod accMid prod1 N
  let accNew := expMod accMid prod2 N
  let ret ← swapUpdateSet E fuel updatedSetSize G N accOld accMid accNew prod1 prod2
  Run.ok { removeSet, insertSet, unchanged, prod1, prod2, removedRanProd, insertedRanProd, proofs, originalProd, accOri,
           accMid, poke, accOld, accNew, ret }

/-- experiments/finaltests.go:617-742 `TestNotusParallel` with the same two repairs, the second product made from the inserted set
(line 662), and the limit 0 for the prover. -/
def notusParallelRepaired (E : Env) (fuel : Nat) (G N : Nat) (setsize updatedSetSize : UInt32) : Run SwapRun := do
  let pairs ← liftRes (swapPairs E updatedSetSize)
  let removeSet := pairs.map Prod.fst
  let insertSet := pairs.map Prod.snd
  let prod1 ← liftRes (setProductParallel removeSet 4).eval
  let prod2 ← liftRes (setProductParallel insertSet 4).eval
  let removedRanProd := timesRandomizer E 200 1
  let insertedRanProd := timesRandomizer E 300 1
  let prod1 := timesRandomizer E 200 prod1
  let prod2 := timesRandomizer E 300 prod2
  let unchangedSet := genBenchSet (setsize - updatedSetSize).toNat
  let unchanged ← genRepresentatives E fuel unchangedSet diHashFromPoseidon
  let newSet1 := unchanged ++ insertSet
  let proofs ← liftRes (proveMembershipParallelWithTableWithRandomizer G insertedRanProd N newSet1 0).eval
  let original := unchanged ++ removeSet
  let originalProd := setProductRecursiveFast original
  let originalProd := originalProd * removedRanProd
  let accOri := expMod G originalProd N
  let accMid := expMod G (setProductRecursiveFast unchanged) N
  let poke ← pokeExperiment E fuel accMid prod1 accOri N
  let accOld := expMod accMid prod1 N
  let accNew := expMod accMid prod2 N
  let ret ← swapUpdateSet E fuel updatedSetSize G N accOld accMid accNew prod1 prod2
  Run.ok { removeSet, insertSet, unchanged, prod1, prod2, removedRanProd, insertedRanProd, proofs, originalProd, accOri,
           accMid, poke, accOld, accNew, ret }

/-- All values of a repaired run, given the challenges. -/
def swapValuesRepaired (E : Env) (G N k n l L1 L2 : Nat) : SwapRun :=
  let R := (Experiments.removed E n).prod
  let U := (Experiments.kept E k).prod
  let I := (Experiments.inserted E n).prod
  let r1 := Experiments.factor E 200
  let r2 := Experiments.factor E 300
  { removeSet := Experiments.removed E n
    insertSet := Experiments.inserted E n
    unchanged := Experiments.kept E k
    prod1 := R * r1
    prod2 := I * r2
    removedRanProd := r1
    insertedRanProd := r2
    proofs := witnesses (G ^ r2) N (Experiments.kept E k ++ Experiments.inserted E n)
    originalProd := U * R * r1
    accOri := G ^ (U * R * r1) % N
    accMid := G ^ U % N
    poke := ⟨l, R * r1 / l, R * r1 % l, (G ^ U % N) ^ (R * r1 / l) % N⟩
    accOld := (G ^ U % N) ^ (R * r1) % N
    accNew := (G ^ U % N) ^ (I * r2) % N
    ret := flowSet n L1 L2 (R * r1) (I * r2) }

theorem swap_tail_repaired (E : Env) (fuel G N k : Nat) (n : UInt32) (v : SwapRun)
    (m : Run SwapRun)
    (hm : m = (do
      let proofs ← liftRes (proveMembershipParallelWithTableWithRandomizer G (Experiments.factor E 300) N
        (Experiments.kept E k ++ Experiments.inserted E n.toNat) 0).eval
      let originalProd := (Experiments.kept E k).prod * (Experiments.removed E n.toNat).prod * Experiments.factor E 200
      let accOri := expMod G originalProd N
      let accMid := expMod G (Experiments.kept E k).prod N
      let poke ← pokeExperiment E fuel accMid ((Experiments.removed E n.toNat).prod * Experiments.factor E 200) accOri N
      let accOld := expMod accMid ((Experiments.removed E n.toNat).prod * Experiments.factor E 200) N
      let accNew := expMod accMid ((Experiments.inserted E n.toNat).prod * Experiments.factor E 300) N
      let ret ← swapUpdateSet E fuel n G N accOld accMid accNew
        ((Experiments.removed E n.toNat).prod * Experiments.factor E 200)
        ((Experiments.inserted E n.toNat).prod * Experiments.factor E 300)
      Run.ok ⟨Experiments.removed E n.toNat, Experiments.inserted E n.toNat, Experiments.kept E k,
        (Experiments.removed E n.toNat).prod * Experiments.factor E 200,
        (Experiments.inserted E n.toNat).prod * Experiments.factor E 300,
        Experiments.factor E 200, Experiments.factor E 300, proofs, originalProd, accOri, accMid, poke, accOld, accNew,
        ret⟩)) :
    m = Run.ok v ↔ ∃ l L1 L2,
      (4 ≤ k + n.toNat ∧ 2 ≤ n.toNat ∧ 0 < l ∧ 0 < L1 ∧ 0 < L2 ∧
        hashToPrime E fuel (natBytes (G ^ ((Experiments.kept E k).prod * (Experiments.removed E n.toNat).prod *
          Experiments.factor E 200) % N) ++ natBytes (G ^ (Experiments.kept E k).prod % N)) = some l ∧
        fsHashToPrime E fuel [itoa G, itoa N, itoa 1000000] lenMax252 = some L1 ∧
        fsHashToPrime E fuel [itoa G, itoa N, itoa 1000000, itoa L1] lenMax252 = some L2) ∧
      v = swapValuesRepaired E G N k n.toNat l L1 L2 := by
  subst hm
  simp only [run_bind_ok_iff, liftRes_ok_iff, parallelWithRandomizer_ok_iff, pokeExperiment_ok_iff,
    swapUpdateSet_ok_iff]
  have hlen : (Experiments.kept E k ++ Experiments.inserted E n.toNat).length = k + n.toNat := by
    simp [Experiments.kept, Experiments.inserted]
  rw [hlen]
  constructor
  · rintro ⟨ps, ⟨h4, rfl⟩, ⟨l, q, r, Q⟩, ⟨p1, p2, p3, p4, p5⟩, ret, ⟨L1, L2, c1, c2, c3, c4, c5, rfl⟩, hv⟩
    have hv : some (Except.ok _) = some (Except.ok v) := hv
    injection hv with hv
    injection hv with hv
    simp only at p1 p2 p3 p4 p5
    subst p3 p4 p5
    exact ⟨l, L1, L2, ⟨h4, c5, p2, c3, c4, p1, c1, c2⟩, hv.symm⟩
  · rintro ⟨l, L1, L2, ⟨h4, c5, p2, c3, c4, p1, c1, c2⟩, rfl⟩
    exact ⟨_, ⟨h4, rfl⟩, ⟨l, _, _, _⟩, ⟨p1, p2, rfl, rfl, rfl⟩, _, ⟨L1, L2, c1, c2, c3, c4, c5, rfl⟩, rfl⟩

/-- When the repaired flows return, and with which values. -/
theorem notusRepaired_ok_iff (E : Env) (fuel G N : Nat) (s n : UInt32) (v : SwapRun) (m : Run SwapRun)
    (hm : m = notusMultiSwapRepaired E fuel G N s n ∨ m = notusParallelRepaired E fuel G N s n) :
    m = Run.ok v ↔ ∃ l L1 L2,
      (4 ≤ (s - n).toNat + n.toNat ∧ 2 ≤ n.toNat ∧ 0 < l ∧ 0 < L1 ∧ 0 < L2 ∧
        hashToPrime E fuel (natBytes (G ^ ((Experiments.kept E (s - n).toNat).prod * (Experiments.removed E n.toNat).prod *
          Experiments.factor E 200) % N) ++ natBytes (G ^ (Experiments.kept E (s - n).toNat).prod % N)) = some l ∧
        fsHashToPrime E fuel [itoa G, itoa N, itoa 1000000] lenMax252 = some L1 ∧
        fsHashToPrime E fuel [itoa G, itoa N, itoa 1000000, itoa L1] lenMax252 = some L2) ∧
      v = swapValuesRepaired E G N (s - n).toNat n.toNat l L1 L2 := by
  have hk : (s - n).toNat ≤ 2 ^ 32 := by have := (s - n).toNat_lt; omega
  refine swap_tail_repaired E fuel G N (s - n).toNat n v m ?_
  rcases hm with rfl | rfl
  · rw [notusMultiSwapRepaired, swapPairs_ok]
    simp only [liftRes_ok, run_ok_bind, map_fst_pairs, map_snd_pairs, kept_ok E fuel _ hk, setProductRecursiveFast_eq,
      timesRandomizer_eq E 200 (by decide) (by decide), timesRandomizer_eq E 300 (by decide) (by decide),
      List.prod_append, Nat.one_mul, factor_eq]
    rfl
  · rw [notusParallelRepaired, swapPairs_ok]
    simp only [liftRes_ok, run_ok_bind, map_fst_pairs, map_snd_pairs, kept_ok E fuel _ hk, setProductRecursiveFast_eq,
      setProductParallel_eval,
      timesRandomizer_eq E 200 (by decide) (by decide), timesRandomizer_eq E 300 (by decide) (by decide),
      List.prod_append, Nat.one_mul, factor_eq]
    rfl

/-- C73 for the repaired flows: the middle accumulator raised to the randomized product of the removed elements is the original
accumulator, and PoKE proves that; every proof verifies against the new accumulator. -/
theorem C73_repaired_partial (E : Env) (fuel G N : Nat) (s n : UInt32) (v : SwapRun)
    (h : notusMultiSwapRepaired E fuel G N s n = Run.ok v ∨ notusParallelRepaired E fuel G N s n = Run.ok v) :
    v.accOld = v.accOri ∧ v.accMid ^ ((Experiments.removed E n.toNat).prod * Experiments.factor E 200) % N = v.accOri ∧
    v.poke.Q ^ v.poke.l * v.accMid ^ v.poke.remainder % N = v.accOri ∧
    v.proofs.length = (v.unchanged ++ v.insertSet).length ∧
    ∀ (i : Nat) (h : i < (v.unchanged ++ v.insertSet).length) (h' : i < v.proofs.length),
      verifies N v.accNew v.proofs[i] (v.unchanged ++ v.insertSet)[i] := by
  obtain ⟨m, hm, he⟩ : ∃ m, (m = notusMultiSwapRepaired E fuel G N s n ∨ m = notusParallelRepaired E fuel G N s n) ∧
      m = Run.ok v := by
    rcases h with h | h
    · exact ⟨_, .inl rfl, h⟩
    · exact ⟨_, .inr rfl, h⟩
  obtain ⟨l, L1, L2, -, rfl⟩ := (notusRepaired_ok_iff E fuel G N s n v m hm).1 he
  have e1 : (G ^ (Experiments.kept E (s - n).toNat).prod % N) ^
      ((Experiments.removed E n.toNat).prod * Experiments.factor E 200) % N =
      G ^ ((Experiments.kept E (s - n).toNat).prod * (Experiments.removed E n.toNat).prod * Experiments.factor E 200) % N := by
    rw [pow_mod_pow, mul_assoc]
  refine ⟨e1, e1, ?_, witnesses_length _ _ _, ?_⟩
  · simp only [swapValuesRepaired]
    rw [Nat.mul_mod, pow_mod_pow, ← Nat.mul_mod, ← pow_add, Nat.div_add_mod', e1]
  · intro i h h'
    simp only [swapValuesRepaired] at h h' ⊢
    rw [witnesses_getElem]
    have := witness_verifies (G ^ Experiments.factor E 300) N _ i h
    rw [accumulator, List.prod_append, ← pow_mul] at this
    rw [pow_mod_pow, show (Experiments.kept E (s - n).toNat).prod * ((Experiments.inserted E n.toNat).prod *
      Experiments.factor E 300) = Experiments.factor E 300 * ((Experiments.kept E (s - n).toNat).prod *
        (Experiments.inserted E n.toNat).prod) by ring]
    exact this

/-- C79 for the repaired flows: the update set is honest, and it is the one of `GenTestSet`. -/
theorem C79_repaired_partial (E : Env) (fuel G N : Nat) (s n : UInt32) (v : SwapRun) (accMid : Int)
    (h : notusMultiSwapRepaired E fuel G N s n = Run.ok v ∨ notusParallelRepaired E fuel G N s n = Run.ok v) :
    genTestSet E fuel n G N accMid = Run.ok v.ret ∧ (n.toNat ≤ 2 ^ 31 → HonestUpdate E v.ret) := by
  obtain ⟨m, hm, he⟩ : ∃ m, (m = notusMultiSwapRepaired E fuel G N s n ∨ m = notusParallelRepaired E fuel G N s n) ∧
      m = Run.ok v := by
    rcases h with h | h
    · exact ⟨_, .inl rfl, h⟩
    · exact ⟨_, .inr rfl, h⟩
  obtain ⟨l, L1, L2, hc, rfl⟩ := (notusRepaired_ok_iff E fuel G N s n v m hm).1 he
  obtain ⟨h4, c5, p2, c3, c4, p1, c1, c2⟩ := hc
  have hg : genTestSet E fuel n G N accMid = Run.ok (testSet E n.toNat L1 L2) := by
    rw [genTestSet_ok_iff, intString_nat, intString_nat]
    exact ⟨L1, L2, c1, c2, c3, c4, c5, rfl⟩
  have e : (swapValuesRepaired E G N (s - n).toNat n.toNat l L1 L2).ret = testSet E n.toNat L1 L2 :=
    (testSet_flowSet _ _ _ _).symm
  rw [e]
  exact ⟨hg, fun hn => (C64_genTestSet_partial E fuel n G N accMid _ hn hg).2.2.2.1⟩

/-- Both repaired flows return on the inputs of `C73_all_parts_fail`. -/
example : (∃ v, notusMultiSwapRepaired flatEnv 1 16 29 5 5 = Run.ok v) ∧ ∃ v, notusParallelRepaired flatEnv 1 16 29 5 5 = Run.ok v :=
  ⟨⟨_, (notusRepaired_ok_iff flatEnv 1 16 29 5 5 _ _ (.inl rfl)).2 ⟨13, 13, 13, ⟨by decide, by decide, by decide, by decide, by decide,
      flat_hash _, flat_prime _, flat_prime _⟩, rfl⟩⟩,
   ⟨_, (notusRepaired_ok_iff flatEnv 1 16 29 5 5 _ _ (.inr rfl)).2 ⟨13, 13, 13, ⟨by decide, by decide, by decide, by decide, by decide,
      flat_hash _, flat_prime _, flat_prime _⟩, rfl⟩⟩⟩

end Verif.Props
