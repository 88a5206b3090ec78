import Verif.Spec.Experiments
import Verif.Model.Experiments
import Verif.Props.MultiSwap
import Verif.Props.Accumulator
import Verif.Props.Representatives

/-! # Values of the two swap flows -/

namespace Verif.Props
open Verif.Go Verif.Model Verif.Lemmas Verif.Spec

theorem testNumber_user (i : Nat) : (testNumber i).toNat = Experiments.user i := by
  rw [testNumber, UInt32.toNat_add, UInt32.toNat_mul, UInt32.toNat_ofNat', Experiments.user]
  have e1 : (2 : UInt32).toNat = 2 := rfl
  have e2 : (1 : UInt32).toNat = 1 := rfl
  rw [e1, e2]
  omega

theorem user_lt (i : Nat) : Experiments.user i < frOrder := by
  have : (2 : Nat) ^ 32 < frOrder := by decide
  have := Nat.mod_lt (2 * i + 1) (show 0 < 2 ^ 32 by decide)
  rw [Experiments.user]
  omega

theorem swapPairs_ok (E : Env) (n : UInt32) :
    swapPairs E n = .ok ((List.range n.toNat).map (fun i =>
      (Experiments.oldRecord E i + min1024, Experiments.newRecord E i + min1024))) := by
  unfold swapPairs
  apply mapM_ok
  intro i hi
  have hi := List.mem_range.1 hi
  rw [index_ok _ i 0 (by simp [hi]), index_ok _ i 0 (by simp [hi]), index_ok _ i 0 (by simp [hi])]
  have hu : elementFromBigInt (Experiments.user i : Int) = Experiments.user i := by
    rw [element_of_range _ (by omega) (by have := user_lt i; omega), Int.toNat_natCast]
  simp only [except_bind_ok, getD_map_range _ _ n.toNat i hi, testPair, elementFromString_nat, poseidonAndDIHash,
    diHashPoseidon, elementFromUint32_eq, testNumber_user, hu]
  rfl

theorem factor_eq (E : Env) (r : Nat) : blinding E r = Experiments.factor E r := rfl

theorem min1024_eq : min1024 = 2 ^ 1023 := by unfold min1024; rfl

theorem kept_ok (E : Env) (fuel : Nat) (k : Nat) (hk : k ≤ 2 ^ 32) :
    genRepresentatives E fuel (genBenchSet k) diHashFromPoseidon = Run.ok (Experiments.kept E k) := by
  rw [C20_genBenchSet_accepted, min1024_eq]
  refine congrArg Run.ok (List.map_congr_left ?_)
  intro i hi
  have := List.mem_range.1 hi
  have : (2 : Nat) ^ 32 < frOrder := by decide
  rw [Nat.mod_eq_of_lt (by omega)]

/-- The update set of a flow, for given challenges and products. -/
def flowSet (n L1 L2 prod1 prod2 : Nat) : UpdateSet32 :=
  { challengeL1 := L1, challengeL2 := L2, remainderR1 := (prod1 % L1 : Nat), remainderR2 := (prod2 % L2 : Nat)
    currentEpochNum := 1000000, deltaModL1 := (2 ^ 1023 % L1 : Nat), deltaModL2 := (2 ^ 1023 % L2 : Nat)
    randomizer1 := 200, randomizer2 := 300, originalSum := 10000, updatedSum := 10000
    userID := (List.range n).map testNumber
    originalBalances := (List.range n).map testNumber
    originalHashes := (List.range n).map (fun i => ((testNumber i).toNat : Int))
    originalUpdEpoch := (List.range n).map (fun _ => 10)
    updatedBalances := (List.range n).map testNumber }

theorem swapUpdateSet_ok_iff (E : Env) (fuel : Nat) (n : UInt32) (G N accOld accMid accNew prod1 prod2 : Nat)
    (u : UpdateSet32) :
    swapUpdateSet E fuel n G N accOld accMid accNew prod1 prod2 = Run.ok u ↔
      ∃ L1 L2, fsHashToPrime E fuel [itoa G, itoa N, itoa 1000000] lenMax252 = some L1 ∧
        fsHashToPrime E fuel [itoa G, itoa N, itoa 1000000, itoa L1] lenMax252 = some L2 ∧
        0 < L1 ∧ 0 < L2 ∧ 2 ≤ n.toNat ∧ u = flowSet n.toNat L1 L2 prod1 prod2 := by
  have hc : ∀ (t : Transcript) (r : Nat × Transcript), t.getChallengeAndAppend E fuel = some r ↔
      fsHashToPrime E fuel t.info t.maxlength = some r.1 ∧ r.2 = t.append (itoa r.1) :=
    fun t r => getPrimeChallenge_iff E fuel t r.2 r.1
  have hvalid : ∀ L1 L2, (flowSet n.toNat L1 L2 prod1 prod2).isValid = decide (2 ≤ n.toNat) := by
    intro L1 L2
    rw [Bool.eq_iff_iff, C66_isValid_iff]
    simp [flowSet]
  have hfin : ∀ L1 L2 : Nat,
      (if L1 = 0 then liftRes (goPanic "division by zero")
        else if L2 = 0 then liftRes (goPanic "division by zero")
        else if (flowSet n.toNat L1 L2 prod1 prod2).isValid = false then
          liftRes (goPanic "error in TestMultiSwap, the generated test set is invalid")
        else liftRes (.ok (flowSet n.toNat L1 L2 prod1 prod2))) = Run.ok u ↔
      0 < L1 ∧ 0 < L2 ∧ 2 ≤ n.toNat ∧ u = flowSet n.toNat L1 L2 prod1 prod2 := by
    intro L1 L2
    rw [hvalid]
    split_ifs with h1 h2 h3
    · rw [liftRes_ok_iff]; simp [goPanic, h1]
    · rw [liftRes_ok_iff]; simp [goPanic, h2]
    · rw [liftRes_ok_iff]
      simp only [goPanic, reduceCtorEq, false_iff]
      simp at h3
      omega
    · rw [liftRes_ok_iff]
      simp at h3
      simp only [Except.ok.injEq]
      constructor
      · intro h; exact ⟨by omega, by omega, by omega, h.symm⟩
      · rintro ⟨-, -, -, h⟩; exact h.symm
  have hset : ∀ L1 L2 : Nat, ({
        challengeL1 := L1
        challengeL2 := L2
        remainderR1 := (prod1 % L1 : Nat)
        remainderR2 := (prod2 % L2 : Nat)
        currentEpochNum := testEpochNum
        deltaModL1 := (min1024 % L1 : Nat)
        deltaModL2 := (min1024 % L2 : Nat)
        randomizer1 := 200
        randomizer2 := 300
        originalSum := testOriginalSum
        updatedSum := testOriginalSum
        userID := (List.range n.toNat).map testNumber
        originalBalances := (List.range n.toNat).map testNumber
        originalHashes := (List.range n.toNat).map (fun i => ((testNumber i).toNat : Int))
        originalUpdEpoch := (List.range n.toNat).map (fun _ => (10 : UInt32))
        updatedBalances := (List.range n.toNat).map testNumber } : UpdateSet32) =
      flowSet n.toNat L1 L2 prod1 prod2 := by
    intro L1 L2
    rw [min1024_eq]
    rfl
  rw [swapUpdateSet]
  simp only [run_bind_ok_iff, liftLoop_ok_iff, hc, hset]
  constructor
  · rintro ⟨⟨L1, t1⟩, ⟨h1, h2⟩, ⟨L2, t2⟩, ⟨h3, h4⟩, h5⟩
    simp only at h1 h2 h3 h4 h5
    subst h2
    rw [← intString_nat G, ← intString_nat N]
    exact ⟨L1, L2, h1, h3, (hfin L1 L2).1 h5⟩
  · rintro ⟨L1, L2, h1, h2, h3⟩
    rw [← intString_nat G, ← intString_nat N] at h1 h2
    refine ⟨(L1, ⟨[intString G, intString N, itoa 1000000, itoa L1], lenMax252⟩), ⟨h1, rfl⟩, ?_⟩
    exact ⟨(L2, ⟨[intString G, intString N, itoa 1000000, itoa L1, itoa L2], lenMax252⟩), ⟨h2, rfl⟩,
      (hfin L1 L2).2 h3⟩

theorem pokeExperiment_ok_iff (E : Env) (fuel : Nat) (base exp newAcc N : Nat) (p : PokeRun) :
    pokeExperiment E fuel base exp newAcc N = Run.ok p ↔
      hashToPrime E fuel (natBytes newAcc ++ natBytes base) = some p.l ∧ 0 < p.l ∧ p.quotient = exp / p.l ∧
        p.remainder = exp % p.l ∧ p.Q = base ^ (exp / p.l) % N := by
  rw [pokeExperiment, run_bind_ok_iff]
  simp only [liftLoop_ok_iff]
  constructor
  · rintro ⟨l, h1, h2⟩
    split_ifs at h2 with h0
    · rw [liftRes_ok_iff] at h2; cases h2
    · have h3 : some (Except.ok _) = some (Except.ok p) := h2
      injection h3 with h3
      injection h3 with h3
      subst h3
      exact ⟨h1, Nat.pos_of_ne_zero h0, rfl, rfl, rfl⟩
  · rintro ⟨h1, h2, h3, h4, h5⟩
    refine ⟨p.l, h1, ?_⟩
    rw [if_neg (by omega)]
    obtain ⟨l, q, r, Q⟩ := p
    simp only at h1 h2 h3 h4 h5 ⊢
    subst h3 h4 h5
    rfl

/-- All values of a run, given the products made from `ins`, the randomizer `rho` used by the proofs, and the challenges. -/
def swapValues (E : Env) (G N k n : Nat) (ins : List Nat) (rho l L1 L2 : Nat) : SwapRun :=
  let R := (Experiments.removed E n).prod
  let U := (Experiments.kept E k).prod
  let r1 := Experiments.factor E 200
  let r2 := Experiments.factor E 300
  let acc := G ^ (U * R * r1) % N
  { removeSet := Experiments.removed E n
    insertSet := Experiments.inserted E n
    unchanged := Experiments.kept E k
    prod1 := R * r1
    prod2 := ins.prod * r2
    removedRanProd := r1
    insertedRanProd := r2
    proofs := witnesses (G ^ rho) N (Experiments.kept E k ++ Experiments.inserted E n)
    originalProd := U * R * r1
    accOri := acc
    accMid := acc
    poke := ⟨l, r1 / l, r1 % l, acc ^ (r1 / l) % N⟩
    accOld := acc ^ (R * r1) % N
    accNew := acc ^ (ins.prod * r2) % N
    ret := flowSet n L1 L2 (R * r1) (ins.prod * r2) }

/-- When a run returns, and with which challenges. -/
structure Challenges (E : Env) (fuel G N k n l L1 L2 : Nat) : Prop where
  size : 4 ≤ k + n
  users : 2 ≤ n
  poke : hashToPrime E fuel
      (natBytes (G ^ ((Experiments.kept E k).prod * (Experiments.removed E n).prod * Experiments.factor E 200) % N) ++
       natBytes (G ^ ((Experiments.kept E k).prod * (Experiments.removed E n).prod * Experiments.factor E 200) % N)) =
    some l
  poke_pos : 0 < l
  first : fsHashToPrime E fuel [itoa G, itoa N, itoa 1000000] lenMax252 = some L1
  second : fsHashToPrime E fuel [itoa G, itoa N, itoa 1000000, itoa L1] lenMax252 = some L2
  first_pos : 0 < L1
  second_pos : 0 < L2

theorem parallelWithRandomizer_ok_iff (G r N : Nat) (set : List Nat) (limit : Int) (ps : List Nat) :
    (proveMembershipParallelWithTableWithRandomizer G r N set limit).eval = .ok ps ↔
      4 ≤ set.length ∧ ps = witnesses (G ^ (if limit ≤ 0 then r else 1)) N set := by
  by_cases h4 : 4 ≤ set.length
  · have e : (proveMembershipParallelWithTableWithRandomizer G r N set limit).eval =
        .ok (witnesses (G ^ (if limit ≤ 0 then r else 1)) N set) := by
      rw [proveMembershipParallelWithTableWithRandomizer]
      split_ifs
      · rw [Prog.eval, randomized_eq _ _ _ _ h4]
      · rw [fourWorkers_eval _ _ _ _ h4, pow_one]
    rw [e, Except.ok.injEq]
    exact ⟨fun h => ⟨h4, h.symm⟩, fun h => h.2.symm⟩
  · obtain ⟨e, he⟩ := (C08_panic_sizes G r N set limit).2.2.2.2.2.2.1.2 (by omega)
    rw [he]
    simp [h4]

theorem swap_tail (E : Env) (fuel G N k : Nat) (n : UInt32) (ins : List Nat) (limit : Int) (v : SwapRun)
    (m : Run SwapRun)
    (hm : m = (do
      let proofs ← liftRes (proveMembershipParallelWithTableWithRandomizer G (Experiments.factor E 300) N
        (Experiments.kept E k ++ Experiments.inserted E n.toNat) limit).eval
      let originalProd := (Experiments.kept E k).prod * (Experiments.removed E n.toNat).prod * Experiments.factor E 200
      let accOri := expMod G originalProd N
      let poke ← pokeExperiment E fuel accOri (Experiments.factor E 200) accOri N
      let accOld := expMod accOri ((Experiments.removed E n.toNat).prod * Experiments.factor E 200) N
      let accNew := expMod accOri (ins.prod * Experiments.factor E 300) N
      let ret ← swapUpdateSet E fuel n G N accOld accOri accNew
        ((Experiments.removed E n.toNat).prod * Experiments.factor E 200) (ins.prod * Experiments.factor E 300)
      Run.ok ⟨Experiments.removed E n.toNat, Experiments.inserted E n.toNat, Experiments.kept E k,
        (Experiments.removed E n.toNat).prod * Experiments.factor E 200, ins.prod * Experiments.factor E 300,
        Experiments.factor E 200, Experiments.factor E 300, proofs, originalProd, accOri, accOri, poke, accOld, accNew,
        ret⟩)) :
    m = Run.ok v ↔ ∃ l L1 L2, Challenges E fuel G N k n.toNat l L1 L2 ∧
      v = swapValues E G N k n.toNat ins (if limit ≤ 0 then Experiments.factor E 300 else 1) l L1 L2 := by
  subst hm
  simp only [run_bind_ok_iff, liftRes_ok_iff, parallelWithRandomizer_ok_iff, pokeExperiment_ok_iff,
    swapUpdateSet_ok_iff]
  have hlen : (Experiments.kept E k ++ Experiments.inserted E n.toNat).length = k + n.toNat := by
    simp [Experiments.kept, Experiments.inserted]
  rw [hlen]
  constructor
  · rintro ⟨ps, ⟨h4, rfl⟩, ⟨l, q, r, Q⟩, ⟨p1, p2, p3, p4, p5⟩, ret, ⟨L1, L2, c1, c2, c3, c4, c5, rfl⟩, hv⟩
    have hv : some (Except.ok _) = some (Except.ok v) := hv
    injection hv with hv
    injection hv with hv
    simp only at p1 p2 p3 p4 p5
    subst p3 p4 p5
    exact ⟨l, L1, L2, ⟨h4, c5, p1, p2, c1, c2, c3, c4⟩, hv.symm⟩
  · rintro ⟨l, L1, L2, hc, rfl⟩
    refine ⟨_, ⟨hc.size, rfl⟩, ⟨l, _, _, _⟩, ⟨hc.poke, hc.poke_pos, rfl, rfl, rfl⟩, _,
      ⟨L1, L2, hc.first, hc.second, hc.first_pos, hc.second_pos, hc.users, rfl⟩, rfl⟩

theorem map_fst_pairs (E : Env) (n : Nat) : ((List.range n).map (fun i =>
      (Experiments.oldRecord E i + min1024, Experiments.newRecord E i + min1024))).map Prod.fst =
    Experiments.removed E n := by
  rw [List.map_map, min1024_eq]; rfl

theorem map_snd_pairs (E : Env) (n : Nat) : ((List.range n).map (fun i =>
      (Experiments.oldRecord E i + min1024, Experiments.newRecord E i + min1024))).map Prod.snd =
    Experiments.inserted E n := by
  rw [List.map_map, min1024_eq]; rfl

theorem run_ok_bind {α β : Type} (a : α) (f : α → Run β) : (Run.ok a >>= f) = f a := rfl

theorem liftRes_ok {α : Type} (a : α) : liftRes (.ok a) = Run.ok a := rfl

theorem notusMultiSwap_ok_iff (E : Env) (fuel G N : Nat) (s n : UInt32) (v : SwapRun) :
    notusMultiSwap E fuel G N s n = Run.ok v ↔ ∃ l L1 L2, Challenges E fuel G N (s - n).toNat n.toNat l L1 L2 ∧
      v = swapValues E G N (s - n).toNat n.toNat (Experiments.inserted E n.toNat) (Experiments.factor E 300) l L1 L2 := by
  have hk : (s - n).toNat ≤ 2 ^ 32 := by have := (s - n).toNat_lt; omega
  rw [swap_tail E fuel G N (s - n).toNat n (Experiments.inserted E n.toNat) 0 v]
  · rw [if_pos (by decide)]
  · rw [notusMultiSwap, swapPairs_ok]
    simp only [liftRes_ok, run_ok_bind, map_fst_pairs, map_snd_pairs, kept_ok E fuel _ hk, setProductRecursiveFast_eq,
      timesRandomizer_eq E 200 (by decide) (by decide), timesRandomizer_eq E 300 (by decide) (by decide),
      List.prod_append, Nat.one_mul, factor_eq]
    rfl

theorem notusParallel_ok_iff (E : Env) (fuel G N : Nat) (s n : UInt32) (v : SwapRun) :
    notusParallel E fuel G N s n = Run.ok v ↔ ∃ l L1 L2, Challenges E fuel G N (s - n).toNat n.toNat l L1 L2 ∧
      v = swapValues E G N (s - n).toNat n.toNat (Experiments.removed E n.toNat) 1 l L1 L2 := by
  have hk : (s - n).toNat ≤ 2 ^ 32 := by have := (s - n).toNat_lt; omega
  rw [swap_tail E fuel G N (s - n).toNat n (Experiments.removed E n.toNat) 5 v]
  · rw [if_neg (by decide)]
  · rw [notusParallel, swapPairs_ok]
    simp only [liftRes_ok, run_ok_bind, map_fst_pairs, map_snd_pairs, kept_ok E fuel _ hk, setProductRecursiveFast_eq,
      setProductParallel_eval,
      timesRandomizer_eq E 200 (by decide) (by decide), timesRandomizer_eq E 300 (by decide) (by decide),
      List.prod_append, Nat.one_mul, factor_eq]
    rfl

end Verif.Props
