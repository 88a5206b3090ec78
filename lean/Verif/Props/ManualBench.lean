import Verif.Model.ManualBench
import Verif.Props.Benchmarks
import Verif.Props.SharedVerifier

/-! # Properties C129 - C131: the manual benchmarks, the products that are printed, and the grouping experiments -/

namespace Verif.Props
open Verif.Go Verif.Model Verif.Lemmas Verif.Spec

/-! ## C129 -/

/-- The numbers whose decimal strings are the benchmark set of size `n` have these representatives; `out` is the
accumulator of their product and one witness for each. -/
def BenchProofs (E : Env) (G N n : Nat) (out : Nat × List Nat) : Prop :=
  out.1 = G ^ ((List.range n).map fun i => E.poseidon [i % frOrder] + 2 ^ 1023).prod % N ∧ out.2.length = n ∧
  ∀ i (h : i < out.2.length), out.2[i] ^ (E.poseidon [i % frOrder] + 2 ^ 1023) % N = out.1

theorem genBenchSetInt_ok (n : Nat) : genBenchSetInt n = .ok (genBenchSet n) := by
  rw [genBenchSetInt, if_neg (by omega), Int.toNat_natCast]

theorem genBenchSetInt_neg (n : Int) (h : n < 0) : genBenchSetInt n = goPanic "makeslice: len out of range" := by
  rw [genBenchSetInt, if_pos h]

theorem genBenchSet_length (n : Nat) : (genBenchSet n).length = n := by
  rw [genBenchSet, List.length_map, List.length_range]

theorem genBenchSet_ne_nil (n : Nat) (h : 1 ≤ n) : genBenchSet n ≠ [] := by
  intro h0
  have := genBenchSet_length n
  rw [h0] at this
  simp at this
  omega

theorem benchProofs_of_ok (E : Env) (setup : Setup) (n : Nat) (out : Nat × List Nat)
    (h : AccProofsOk setup (benchReps E n) out) : BenchProofs E setup.G setup.N n out := by
  obtain ⟨h1, h2, h3⟩ := h
  rw [benchReps_length] at h2
  refine ⟨h1, h2, fun i hi => ?_⟩
  have hb : i < (benchReps E n).length := by rw [benchReps_length]; omega
  have := h3 i hb hi
  simpa only [benchReps, List.getElem_map, List.getElem_range] using this

theorem bench_set_ok_iff {α : Type} (n : Int) (f : List Bytes → Run α) (v : α) :
    (liftRes (genBenchSetInt n) >>= f) = Run.ok v ↔ 0 ≤ n ∧ f (genBenchSet n.toNat) = Run.ok v := by
  rw [run_bind_ok_iff]
  simp only [liftRes_ok_iff, genBenchSetInt]
  constructor
  · rintro ⟨s, h, h2⟩
    split at h
    · exact absurd h (by simp [goPanic])
    · cases h
      exact ⟨by omega, h2⟩
  · rintro ⟨h, h2⟩
    exact ⟨_, by rw [if_neg (by omega)], h2⟩

theorem accAndProve_bench_iff (E : Env) (fuel : Nat) (setup : Setup) (n : Nat) (out : Nat × List Nat) :
    accAndProve E fuel (genBenchSet n) diHashFromPoseidon setup = Run.ok out →
      1 ≤ n ∧ BenchProofs E setup.G setup.N n out := by
  intro h
  have hn : 1 ≤ n := by
    by_contra h0
    obtain ⟨e, he⟩ := (C08_accAndProve_panics_iff E (max fuel n) (genBenchSet n) diHashFromPoseidon setup _
      (genBench_reps E _ n) (by rw [genBenchSet_length]; exact le_max_right _ _) 0).1.2
      (List.eq_nil_of_length_eq_zero (by rw [genBenchSet_length]; omega))
    have : accAndProve E fuel (genBenchSet n) diHashFromPoseidon setup
        = accAndProve E (max fuel n) (genBenchSet n) diHashFromPoseidon setup := by
      unfold accAndProve
      rw [genBench_reps, genBench_reps]
    rw [this, he, liftRes_ok_iff] at h
    cases h
  obtain ⟨out', h1, h2⟩ := C02_accAndProve E fuel _ _ setup _ (genBench_reps E fuel n) (genBenchSet_ne_nil n hn)
  rw [h] at h1
  rw [run_ok_inj h1]
  exact ⟨hn, benchProofs_of_ok _ _ _ _ h2⟩

/-- `ManualBench` returns exactly for positive sizes, with the accumulator and the witnesses of the benchmark set. -/
theorem C129_manualBench (E : Env) (fuel : Nat) (setup : Setup) (n : Int) :
    ((∃ out, manualBench E fuel setup n = Run.ok out) ↔ 1 ≤ n) ∧
    ∀ out, manualBench E fuel setup n = Run.ok out → BenchProofs E setup.G setup.N n.toNat out := by
  unfold manualBench
  simp only [bench_set_ok_iff]
  refine ⟨⟨?_, fun h => ?_⟩, fun out h => (accAndProve_bench_iff _ _ _ _ _ h.2).2⟩
  · rintro ⟨out, h0, h⟩
    have := (accAndProve_bench_iff _ _ _ _ _ h).1
    omega
  · obtain ⟨out, h1, -⟩ := C02_accAndProve E fuel _ _ setup _ (genBench_reps E fuel n.toNat)
      (genBenchSet_ne_nil _ (by omega))
    exact ⟨out, by omega, h1⟩

/-- `ManualBenchIter`: the same (the loop of `ProveMembershipIter` ends within `n` rounds). -/
theorem C129_manualBenchIter (E : Env) (fuel : Nat) (setup : Setup) (n : Int) (hf : n ≤ fuel) :
    ((∃ out, manualBenchIter E fuel setup n = Run.ok out) ↔ 1 ≤ n) ∧
    ∀ out, manualBenchIter E fuel setup n = Run.ok out → BenchProofs E setup.G setup.N n.toNat out := by
  unfold manualBenchIter
  simp only [bench_set_ok_iff]
  have key : ∀ out, 0 ≤ n → accAndProveIter E fuel (genBenchSet n.toNat) diHashFromPoseidon setup = Run.ok out → 1 ≤ n := by
    intro out h0 h
    by_contra hn
    obtain ⟨e, he⟩ := (C08_accAndProve_panics_iff E fuel (genBenchSet n.toNat) diHashFromPoseidon setup _
      (genBench_reps E _ _) (by rw [genBenchSet_length]; omega) 0).2.1.2
      (List.eq_nil_of_length_eq_zero (by rw [genBenchSet_length]; omega))
    rw [he, liftRes_ok_iff] at h
    cases h
  have val : 1 ≤ n → ∃ out, accAndProveIter E fuel (genBenchSet n.toNat) diHashFromPoseidon setup = Run.ok out ∧
      BenchProofs E setup.G setup.N n.toNat out := by
    intro h
    obtain ⟨out, h1, h2⟩ := C02_accAndProveIter E fuel _ _ setup _ (genBench_reps E fuel n.toNat)
      (genBenchSet_ne_nil _ (by omega)) (by rw [genBenchSet_length]; omega)
    exact ⟨out, h1, benchProofs_of_ok _ _ _ _ h2⟩
  refine ⟨⟨fun ⟨out, h0, h⟩ => key out h0 h, fun h => ?_⟩, fun out ⟨h0, h⟩ => ?_⟩
  · obtain ⟨out, h1, -⟩ := val h
    exact ⟨out, by omega, h1⟩
  · obtain ⟨out', h1, h2⟩ := val (key out h0 h)
    rw [h] at h1
    rw [run_ok_inj h1]
    exact h2

/-- `ManualBenchZKAcc`: the same with `G^r` in place of `G`, where `r` is the number drawn. -/
theorem C129_manualBenchZKAcc (E : Env) (fuel r : Nat) (setup : Setup) (n : Int) :
    ((∃ out, manualBenchZKAcc E fuel r setup n = Run.ok out) ↔ 1 ≤ n) ∧
    ∀ out, manualBenchZKAcc E fuel r setup n = Run.ok out → BenchProofs E (setup.G ^ r) setup.N n.toNat out := by
  unfold manualBenchZKAcc
  simp only [bench_set_ok_iff]
  have key : ∀ out, 0 ≤ n → zkAccumulate E fuel r (genBenchSet n.toNat) diHashFromPoseidon setup = Run.ok out → 1 ≤ n := by
    intro out h0 h
    by_contra hn
    have hz : n.toNat = 0 := by omega
    unfold zkAccumulate at h
    simp only [genBench_reps, run_ok_bind, run_bind_ok_iff, liftRes_ok_iff, hz] at h
    obtain ⟨ps, h1, -⟩ := h
    have := ((C08_panic_sizes (accumulateNewPow setup.G r setup.N) 0 setup.N (benchReps E 0) 0).1).2 rfl
    rw [h1] at this
    exact absurd this (by simp [Res.panics])
  have val : 1 ≤ n → ∃ out, zkAccumulate E fuel r (genBenchSet n.toNat) diHashFromPoseidon setup = Run.ok out ∧
      BenchProofs E (setup.G ^ r) setup.N n.toNat out := by
    intro h
    obtain ⟨acc, ps, h1, h2, h3, h4, -⟩ := C12_zkAccumulate E fuel r _ _ setup _ (genBench_reps E fuel n.toNat)
      (genBenchSet_ne_nil _ (by omega))
    refine ⟨(acc, ps), h1, ?_⟩
    rw [genBenchSet_length] at h3
    refine ⟨by rw [← pow_mul]; exact h2, h3, fun i hi => ?_⟩
    have hb : i < (benchReps E n.toNat).length := by rw [benchReps_length]; exact lt_of_lt_of_eq hi h3
    have := h4 i hb hi
    simpa only [benchReps, List.getElem_map, List.getElem_range] using this
  refine ⟨⟨fun ⟨out, h0, h⟩ => key out h0 h, fun h => ?_⟩, fun out ⟨h0, h⟩ => ?_⟩
  · obtain ⟨out, h1, -⟩ := val h
    exact ⟨out, by omega, h1⟩
  · obtain ⟨out', h1, h2⟩ := val (key out h0 h)
    rw [h] at h1
    rw [run_ok_inj h1]
    exact h2

/-- `ManualBenchParallel` on `2^k` workers: for a positive size some run returns and every outcome of every schedule is a
return with the accumulator and the witnesses of the benchmark set; otherwise no run returns. -/
theorem C129_manualBenchParallel (E : Env) (setup : Setup) (k : Nat) (n : Int) :
    ((∃ out, ManualBenchParallel E setup (2 ^ k) n (.ok out)) ↔ 1 ≤ n) ∧
    ((∃ e, ManualBenchParallel E setup (2 ^ k) n (.error e)) ↔ n < 1) ∧
    ∀ out, ManualBenchParallel E setup (2 ^ k) n (.ok out) → BenchProofs E setup.G setup.N n.toNat out := by
  by_cases h0 : n < 0
  · have hp := genBenchSetInt_neg n h0
    have no : ∀ out, ¬ ManualBenchParallel E setup (2 ^ k) n (.ok out) := by
      intro out h
      generalize hr : (Except.ok out : Res (Nat × List Nat)) = r at h
      cases h with
      | run set _ hs _ => rw [hp] at hs; cases hs
      | noSet msg hs => cases hr
    exact ⟨⟨fun ⟨out, h⟩ => absurd h (no out), fun h => by omega⟩, ⟨fun _ => by omega, fun _ => ⟨_, .noSet _ hp⟩⟩,
      fun out h => absurd h (no out)⟩
  · obtain ⟨m, rfl⟩ : ∃ m : Nat, n = m := ⟨n.toNat, by omega⟩
    have hg := genBenchSetInt_ok m
    have hiff : ∀ r, ManualBenchParallel E setup (2 ^ k) m r ↔
        AccAndProveParallel E (genBenchSet m) diHashFromPoseidon setup (2 ^ k) r := by
      intro r
      constructor
      · intro h
        cases h with
        | run set _ hs h => rw [hg] at hs; cases hs; exact h
        | noSet msg hs => rw [hg] at hs; cases hs
      · exact fun h => .run _ _ hg h
    simp only [hiff]
    have hc := (C08_accAndProve_panics_iff E m (genBenchSet m) diHashFromPoseidon setup _
      (genBench_reps E _ m) (by rw [genBenchSet_length]) k).2.2.1
    have hnil : genBenchSet m = [] ↔ m = 0 := by
      rw [← List.length_eq_zero_iff, genBenchSet_length]
    have val : ∀ out, 1 ≤ m → AccAndProveParallel E (genBenchSet m) diHashFromPoseidon setup (2 ^ k) (.ok out) →
        BenchProofs E setup.G setup.N m out := by
      intro out hm h
      obtain ⟨fuel, rep, out', h1, h2, h3⟩ := C02_accAndProveParallel E _ _ setup _ (genBenchSet_ne_nil m hm) _ h
      rw [genBench_reps] at h1
      rw [← run_ok_inj h1] at h3
      cases h2
      exact benchProofs_of_ok _ _ _ _ h3
    have no : ∀ out, AccAndProveParallel E (genBenchSet m) diHashFromPoseidon setup (2 ^ k) (.ok out) → 1 ≤ m := by
      intro out h
      by_contra hm
      obtain rfl : m = 0 := by omega
      generalize hr : (Except.ok out : Res (Nat × List Nat)) = r at h
      cases h with
      | ok fuel rep proofs h1 _ =>
        rw [genBench_reps] at h1
        rw [← run_ok_inj h1, eq_comm, accFromProofs, res_bind_ok_iff] at hr
        obtain ⟨p, -, hr⟩ := hr
        rw [res_bind_ok_iff] at hr
        obtain ⟨q, hq, -⟩ := hr
        cases hq
      | crash fuel rep msg h1 _ => cases hr
    refine ⟨⟨fun ⟨out, h⟩ => by have := no out h; omega, fun h => ?_⟩, hc.trans (hnil.trans (by omega)), fun out h => ?_⟩
    · exact (C02_parallel_some_run E m _ _ setup _ (genBench_reps E m m) (genBenchSet_ne_nil m (by omega)) k).1
    · exact val out (no out h) h

/-- `ManualBenchIterParallel` on `2^k` workers: the same; no entry of the returned slice is nil. -/
theorem C129_manualBenchIterParallel (E : Env) (setup : Setup) (k : Nat) (n : Int) :
    ((∃ out, ManualBenchIterParallel E setup (2 ^ k) k n (.ok out)) ↔ 1 ≤ n) ∧
    ((∃ e, ManualBenchIterParallel E setup (2 ^ k) k n (.error e)) ↔ n < 1) ∧
    ∀ out, ManualBenchIterParallel E setup (2 ^ k) k n (.ok out) →
      ∃ ps, out.2 = ps.map some ∧ BenchProofs E setup.G setup.N n.toNat (out.1, ps) := by
  by_cases h0 : n < 0
  · have hp := genBenchSetInt_neg n h0
    have no : ∀ out, ¬ ManualBenchIterParallel E setup (2 ^ k) k n (.ok out) := by
      intro out h
      generalize hr : (Except.ok out : Res (Nat × List (Option Nat))) = r at h
      cases h with
      | run set _ hs _ => rw [hp] at hs; cases hs
      | noSet msg hs => cases hr
    exact ⟨⟨fun ⟨out, h⟩ => absurd h (no out), fun h => by omega⟩, ⟨fun _ => by omega, fun _ => ⟨_, .noSet _ hp⟩⟩,
      fun out h => absurd h (no out)⟩
  · obtain ⟨m, rfl⟩ : ∃ m : Nat, n = m := ⟨n.toNat, by omega⟩
    have hg := genBenchSetInt_ok m
    have hiff : ∀ r, ManualBenchIterParallel E setup (2 ^ k) k m r ↔
        AccAndProveIterParallel E (genBenchSet m) diHashFromPoseidon setup (2 ^ k) k r := by
      intro r
      constructor
      · intro h
        cases h with
        | run set _ hs h => rw [hg] at hs; cases hs; exact h
        | noSet msg hs => rw [hg] at hs; cases hs
      · exact fun h => .run _ _ hg h
    simp only [hiff]
    have hc := (C08_accAndProve_panics_iff E m (genBenchSet m) diHashFromPoseidon setup _
      (genBench_reps E _ m) (by rw [genBenchSet_length]) k).2.2.2
    have hnil : genBenchSet m = [] ↔ m = 0 := by
      rw [← List.length_eq_zero_iff, genBenchSet_length]
    have no : ∀ out, AccAndProveIterParallel E (genBenchSet m) diHashFromPoseidon setup (2 ^ k) k (.ok out) → 1 ≤ m := by
      intro out h
      by_contra hm
      obtain rfl : m = 0 := by omega
      generalize hr : (Except.ok out : Res (Nat × List (Option Nat))) = r at h
      cases h with
      | mk fuel rep proofs h1 _ =>
        rw [genBench_reps] at h1
        rw [← run_ok_inj h1, eq_comm, accFromPointers, res_bind_ok_iff] at hr
        obtain ⟨p, -, hr⟩ := hr
        rw [res_bind_ok_iff] at hr
        obtain ⟨q, hq, -⟩ := hr
        cases hq
    refine ⟨⟨fun ⟨out, h⟩ => by have := no out h; omega, fun h => ?_⟩, hc.trans (hnil.trans (by omega)), fun out h => ?_⟩
    · exact (C02_parallel_some_run E m _ _ setup _ (genBench_reps E m m) (genBenchSet_ne_nil m (by omega)) k).2
    · obtain ⟨fuel, rep, out', h1, h2, h3⟩ := C02_accAndProveIterParallel E _ _ setup k
        (genBenchSet_ne_nil m (no out h)) _ h
      rw [genBench_reps] at h1
      rw [← run_ok_inj h1] at h3
      cases h2
      exact ⟨out'.2, rfl, benchProofs_of_ok _ _ _ _ h3⟩

/-- Ten elements, on four workers. -/
example (E : Env) : (∃ out, manualBench E 10 ⟨35, 2⟩ 10 = Run.ok out) ∧
    ∃ out, ManualBenchIterParallel E ⟨35, 2⟩ (2 ^ 2) 2 10 (.ok out) :=
  ⟨(C129_manualBench E 10 ⟨35, 2⟩ 10).1.2 (by omega), (C129_manualBenchIterParallel E ⟨35, 2⟩ 2 10).1.2 (by omega)⟩

/-! ## C130 -/

/-- The product of the representatives of the benchmark set. -/
def benchProduct (E : Env) (n : Nat) : Nat := ((List.range n).map fun i => E.poseidon [i % frOrder] + 2 ^ 1023).prod

/-- Every length that the three programs print is the bit length of the product. -/
def C130_statement : Prop :=
  ∀ (E : Env) (fuel n : Nat) (printed : List Nat),
    (experimentProduct E fuel n = Run.ok printed ∨ (∃ temp, experimentProduct2 E fuel n = Run.ok (printed, temp)) ∨
      experimentProduct3 E fuel n = Run.ok printed) → ∀ l ∈ printed, l = (benchProduct E n).size

/-- The first length that `TestProduct` prints is 0. -/
theorem C130_first_is_zero (E : Env) (fuel n : Nat) :
    experimentProduct E fuel n = Run.ok [0, (benchProduct E n).size] := by
  unfold experimentProduct
  simp only [genBench_reps, run_ok_bind, setProductRecursive_eq]
  rfl

theorem benchProduct_pos (E : Env) (n : Nat) : 0 < benchProduct E n := by
  refine List.prod_pos fun x hx => ?_
  obtain ⟨i, -, rfl⟩ := List.mem_map.1 hx
  exact Nat.lt_of_lt_of_le (Nat.two_pow_pos 1023) (Nat.le_add_left _ _)

/-- The second length of `TestProduct`, and both of the other two programs, are the length of the product; up to 2^766
elements that is 1023 for each element and one more. `TestProduct2` needs an element to divide by, and what it divides is
always the whole product: it ends with the product of the other elements. -/
theorem C130_lengths_partial (E : Env) (fuel n : Nat) :
    experimentProduct3 E fuel n = Run.ok [(benchProduct E n).size, (benchProduct E n).size] ∧
    ((∃ v, experimentProduct2 E fuel n = Run.ok v) ↔ 1 ≤ n) ∧
    (∀ v, experimentProduct2 E fuel n = Run.ok v → v.1 = [(benchProduct E n).size, (benchProduct E n).size] ∧
      v.2 * (E.poseidon [0] + 2 ^ 1023) = benchProduct E n) ∧
    (n < 2 ^ 766 → (benchProduct E n).size = 1023 * n + 1) := by
  have hd : ∀ (P r0 : Nat) (l : List Nat) (k t : Nat), r0 ≠ 0 → divLoop P (r0 :: l) (k + 1) t = .ok (P / r0) := by
    intro P r0 l k
    have hs : ∀ j t, r0 ≠ 0 → divLoop P (r0 :: l) (j + 1) t = divLoop P (r0 :: l) j (P / r0) := by
      intro j t h
      rw [divLoop]
      have : index (r0 :: l) 0 = .ok r0 := rfl
      rw [this]
      show (if r0 = 0 then _ else _) = _
      rw [if_neg h]
    induction k with
    | zero => intro t h; rw [hs _ _ h]; rfl
    | succ k ih => intro t h; rw [hs _ _ h]; exact ih _ h
  have hlen : n < 2 ^ 766 → (benchProduct E n).size = 1023 * n + 1 := by
    intro hn
    have := C76_product_bit_length E fuel (genBenchSet n) _ (by rwa [genBenchSet_length]) (genBench_reps E fuel n)
    rwa [setProductRecursiveFast_eq, genBenchSet_length] at this
  have h2 : ∀ v, experimentProduct2 E fuel n = Run.ok v ↔ ∃ t, divLoop (benchProduct E n) (benchReps E n) 100 0 = .ok t ∧
      v = ([(benchProduct E n).size, (benchProduct E n).size], t) := by
    intro v
    unfold experimentProduct2
    simp only [genBench_reps, run_ok_bind, setProductRecursive_eq, run_bind_ok_iff, liftRes_ok_iff]
    refine exists_congr fun t => and_congr Iff.rfl ⟨fun h => (run_ok_inj h).symm, fun h => by rw [h]; rfl⟩
  have h3 : ∀ m, n = m + 1 → benchReps E n = (E.poseidon [0] + 2 ^ 1023) :: ((List.range m).map fun i =>
      E.poseidon [(i + 1) % frOrder] + 2 ^ 1023) := by
    rintro m rfl
    rw [benchReps, List.range_succ_eq_map, List.map_cons, List.map_map, Nat.zero_mod]
    rfl
  have hne : E.poseidon [0] + 2 ^ 1023 ≠ 0 :=
    (Nat.lt_of_lt_of_le (Nat.two_pow_pos 1023) (Nat.le_add_left _ _)).ne'
  refine ⟨?_, ⟨?_, ?_⟩, ?_, hlen⟩
  · unfold experimentProduct3
    simp only [genBench_reps, run_ok_bind, setProductRecursive_eq, setProductRecursiveFast_eq]
    rfl
  · rintro ⟨v, hv⟩
    obtain ⟨t, ht, -⟩ := (h2 v).1 hv
    by_contra h0
    obtain rfl : n = 0 := by omega
    cases ht
  · intro hn
    obtain ⟨m, rfl⟩ : ∃ m, n = m + 1 := ⟨n - 1, by omega⟩
    have ht := hd (benchProduct E (m + 1)) _ ((List.range m).map fun i => E.poseidon [(i + 1) % frOrder] + 2 ^ 1023) 99 0 hne
    rw [← h3 m rfl] at ht
    exact ⟨_, (h2 _).2 ⟨_, ht, rfl⟩⟩
  · intro v hv
    obtain ⟨t, ht, rfl⟩ := (h2 v).1 hv
    refine ⟨rfl, ?_⟩
    by_cases h0 : n = 0
    · subst h0
      cases ht
    · obtain ⟨m, rfl⟩ : ∃ m, n = m + 1 := ⟨n - 1, by omega⟩
      have hb : benchProduct E (m + 1) = (E.poseidon [0] + 2 ^ 1023) * ((List.range m).map fun i =>
          E.poseidon [(i + 1) % frOrder] + 2 ^ 1023).prod := by
        rw [← List.prod_cons, ← h3 m rfl]
        rfl
      rw [h3 m rfl, hd _ _ _ 99 0 hne] at ht
      cases ht
      show benchProduct E (m + 1) / _ * _ = _
      exact Nat.div_mul_cancel ⟨_, hb⟩

theorem C130_violated : ¬ C130_statement := by
  intro h
  have h1 := h pokeEnv 0 1 _ (.inl (C130_first_is_zero _ 0 1)) 0 List.mem_cons_self
  rw [(C130_lengths_partial _ 0 1).2.2.2 (Nat.one_lt_two_pow (by omega))] at h1
  omega

/-- The program of the repository: the lengths printed for its 1000000 elements. -/
example (E : Env) : experimentProduct E 0 1000000 = Run.ok [0, 1023000001] := by
  rw [C130_first_is_zero, (C130_lengths_partial E 0 1000000).2.2.2 (lt_of_lt_of_le (by omega : _ < 2 ^ 20)
    (Nat.pow_le_pow_right (by omega) (by omega)))]

/-- The two other programs of the file: the proofs of `TestFirstLayerPercentage` are the witnesses of the set, which needs an
element, and `TestMembership` computes the accumulator. -/
theorem C130_membership (E : Env) (fuel G N n : Nat) :
    experimentMembership E fuel G N n = Run.ok (G ^ benchProduct E n % N) ∧
    ((∃ ps, testFirstLayerPercentage E fuel G N n = Run.ok ps) ↔ 1 ≤ n) ∧
    ∀ ps, testFirstLayerPercentage E fuel G N n = Run.ok ps →
      BenchProofs E G N n (G ^ benchProduct E n % N, ps) := by
  have hne : 1 ≤ n → benchReps E n ≠ [] := by
    intro hn h0
    have := benchReps_length E n
    rw [h0] at this
    exact absurd this (by simp; omega)
  have h1 : testFirstLayerPercentage E fuel G N n = liftRes (proveMembershipParallel G N (benchReps E n) 2).eval := by
    unfold testFirstLayerPercentage
    rw [genBench_reps, run_ok_bind]
  have key : ∀ ps, testFirstLayerPercentage E fuel G N n = Run.ok ps ↔ 1 ≤ n ∧ ps = expected G N (benchReps E n) := by
    intro ps
    rw [h1, liftRes_ok_iff]
    by_cases hn : 1 ≤ n
    · rw [parallel_expected _ _ _ _ (hne hn)]
      exact ⟨fun h => ⟨hn, by cases h; rfl⟩, fun h => by rw [h.2]⟩
    · obtain rfl : n = 0 := by omega
      obtain ⟨e, he⟩ := parallel_nil G N 2
      have : benchReps E 0 = [] := rfl
      rw [this, he]
      exact ⟨fun h => (by cases h), fun h => absurd h.1 hn⟩
  refine ⟨?_, ⟨fun ⟨ps, h⟩ => ((key ps).1 h).1, fun h => ⟨_, (key _).2 ⟨h, rfl⟩⟩⟩, fun ps h => ?_⟩
  · unfold experimentMembership
    rw [genBench_reps, run_ok_bind, setProductRecursiveFast_eq]
    rfl
  · rw [((key ps).1 h).2]
    exact benchProofs_of_ok E ⟨N, G⟩ n _ (accProofsOk_expected ⟨N, G⟩ (benchReps E n))

/-! ## C131 -/

/-- The number of users for which a run of `TestDifferentGroupingSize` makes a proof. -/
def usersServed (v : List PreComputeRun) : Nat := (v.map fun round => round.proofs.length).sum

/-- "To have same number of users" (experiments/finaltests.go:274): every run that returns serves 262144 users. -/
def C131_statement : Prop :=
  ∀ (E : Env) (fuel G N : Nat) (r1 : Nat → Nat) (n : Nat) (v : List PreComputeRun),
    testDifferentGroupingSize E fuel G N r1 n = Run.ok v → usersServed v = 262144

theorem mapM_if_iff {β γ : Type} (p : Prop) (f : β → Run γ) (g : β → γ) (h : ∀ b v, f b = Run.ok v ↔ p ∧ v = g b)
    (l : List β) (vs : List γ) : l.mapM f = Run.ok vs ↔ (l ≠ [] → p) ∧ vs = l.map g := by
  rw [run_mapM_ok_iff]
  induction l generalizing vs with
  | nil => simp
  | cons a l ih =>
    rw [List.forall₂_cons_left_iff]
    constructor
    · rintro ⟨b, u, hb, hu, rfl⟩
      obtain ⟨hp, rfl⟩ := (h _ _).1 hb
      exact ⟨fun _ => hp, by rw [((ih u).1 hu).2]; rfl⟩
    · rintro ⟨hp, rfl⟩
      have hp := hp (List.cons_ne_nil _ _)
      exact ⟨_, _, (h _ _).2 ⟨hp, rfl⟩, (ih _).2 ⟨fun _ => hp, rfl⟩, rfl⟩

theorem grouping_ok_iff (E : Env) (fuel G N : Nat) (r1 : Nat → Nat) (n : Nat) (v : List PreComputeRun) :
    testDifferentGroupingSize E fuel G N r1 n = Run.ok v ↔ 4 ≤ n ∧ v = (List.range (262144 / n)).map fun i =>
      ⟨benchReps E n, preComputeDIWords n, exponentList (r1 i) (benchReps E n), witnesses (G ^ r1 i) N (benchReps E n)⟩ := by
  unfold testDifferentGroupingSize
  simp only [run_bind_ok_iff, liftRes_ok_iff, groupingRepeat,
    fun l vs => mapM_if_iff (4 ≤ n) _ _ (fun i v => preComputeSingle_ok_iff E fuel G N (r1 i) n v) l vs]
  constructor
  · rintro ⟨k, hk, hp, hv⟩
    split at hk
    · cases hk
    · rename_i h0
      cases hk
      refine ⟨?_, hv⟩
      by_contra h4
      refine h4 (hp fun h => ?_)
      have : 0 < 262144 / n := Nat.div_pos (by omega) (by omega)
      rw [List.range_eq_nil] at h
      omega
  · rintro ⟨h4, rfl⟩
    exact ⟨_, if_neg (by omega), fun _ => h4, rfl⟩

/-- `TestDifferentGroupingSize` returns exactly for four elements or more. -/
theorem C131_returns_iff (E : Env) (fuel G N : Nat) (r1 : Nat → Nat) (n : Nat) :
    (∃ v, testDifferentGroupingSize E fuel G N r1 n = Run.ok v) ↔ 4 ≤ n := by
  simp only [grouping_ok_iff, exists_and_left]
  exact ⟨fun h => h.1, fun h => ⟨h, _, rfl⟩⟩

theorem usersServed_grouping (E : Env) (fuel G N : Nat) (r1 : Nat → Nat) (n : Nat) (v : List PreComputeRun)
    (h : testDifferentGroupingSize E fuel G N r1 n = Run.ok v) : usersServed v = 262144 / n * n := by
  obtain ⟨-, rfl⟩ := (grouping_ok_iff _ _ _ _ _ _ _).1 h
  rw [usersServed, List.map_map]
  have : (fun i => (witnesses (G ^ r1 i) N (benchReps E n)).length) = fun _ => n := by
    funext i
    rw [witnesses_length, benchReps_length]
  show ((List.range (262144 / n)).map (fun i => (witnesses (G ^ r1 i) N (benchReps E n)).length)).sum = _
  rw [this, List.map_const', List.sum_replicate, List.length_range, smul_eq_mul]

/-- What a run serves: the number is right exactly for the sizes that divide it. In every round each proof raised to its
representative is the accumulator of the set for the number drawn in that round. -/
theorem C131_users_partial (E : Env) (fuel G N : Nat) (r1 : Nat → Nat) (n : Nat) (v : List PreComputeRun)
    (h : testDifferentGroupingSize E fuel G N r1 n = Run.ok v) :
    usersServed v + 262144 % n = 262144 ∧ (usersServed v = 262144 ↔ n ∣ 262144) ∧
    ∀ j (hj : j < v.length), v[j].proofs.length = n ∧ ∀ i (hi : i < v[j].proofs.length),
      v[j].proofs[i] ^ (E.poseidon [i % frOrder] + 2 ^ 1023) % N = G ^ (r1 j * benchProduct E n) % N := by
  have hu := usersServed_grouping E fuel G N r1 n v h
  have hm := Nat.div_add_mod' 262144 n
  refine ⟨by omega, ?_, ?_⟩
  · rw [Nat.dvd_iff_mod_eq_zero]
    omega
  · obtain ⟨h4, rfl⟩ := (grouping_ok_iff _ _ _ _ _ _ _).1 h
    intro j hj
    simp only [List.getElem_map, List.getElem_range]
    refine ⟨by rw [witnesses_length, benchReps_length], fun i hi => ?_⟩
    obtain ⟨-, -, hv⟩ := C95_proofs E fuel G N (r1 j) n _ (.inr ((preComputeSingle_ok_iff E fuel G N (r1 j) n _).2 ⟨h4, rfl⟩))
    have hi' : i < (benchReps E n).length := by rwa [witnesses_length] at hi
    have := hv i hi' hi
    simp only [benchReps, List.getElem_map, List.getElem_range] at this
    simpa only [benchReps, benchProduct] using this

theorem C131_violated : ¬ C131_statement := by
  intro h
  obtain ⟨v, hv⟩ := (C131_returns_iff pokeEnv 0 2 35 (fun _ => 3) 5).2 (by omega)
  have h1 := h _ _ _ _ _ _ _ hv
  rw [usersServed_grouping _ _ _ _ _ _ _ hv] at h1
  omega

/-- The wrappers with fixed sizes all return, and each of the five group sizes serves 262144 users. -/
theorem C131_wrappers (E : Env) (fuel G N : Nat) (r1 : Nat → Nat → Nat) (r2 : Nat × Int → Nat) (r3 : Nat → Nat) :
    (∃ vs, testDifferentGroupSize E fuel G N r1 = Run.ok vs ∧ vs.length = 5 ∧ ∀ v ∈ vs, usersServed v = 262144) ∧
    (∃ vs, testDifferentMembership E fuel G N r3 = Run.ok vs ∧
      vs.map (fun v => v.proofs.length) = [1024, 4096, 16384, 65536, 262144, 1048576]) ∧
    (∃ vs, testDifferentMembershipForDI E fuel G N r2 = Run.ok vs ∧
      vs.map (fun v => v.proofs.length) = [16384, 16384, 16384, 65536, 65536, 65536, 262144, 262144, 262144]) ∧
    (∃ vs, testDifferentMembershipForDISingleThread E fuel G N r3 = Run.ok vs ∧
      vs.map (fun v => v.proofs.length) = [1024, 4096, 16384, 65536, 262144]) := by
  have run : ∀ {β γ : Type} (f : β → Run γ) (l : List β) (P : β → γ → Prop), (∀ b ∈ l, ∃ v, f b = Run.ok v ∧ P b v) →
      ∃ vs, l.mapM f = Run.ok vs ∧ List.Forall₂ P l vs := by
    intro β γ f l P h
    simp only [run_mapM_ok_iff]
    induction l with
    | nil => exact ⟨[], .nil, .nil⟩
    | cons a l ih =>
      obtain ⟨v, h1, h2⟩ := h a List.mem_cons_self
      obtain ⟨vs, h3, h4⟩ := ih fun b hb => h b (List.mem_cons_of_mem _ hb)
      exact ⟨v :: vs, .cons h1 h3, .cons h2 h4⟩
  have lens : ∀ {β : Type} (s : β → Nat) (l : List β) (vs : List PreComputeRun),
      List.Forall₂ (fun b v => v.proofs.length = s b) l vs → vs.map (fun v => v.proofs.length) = l.map s := by
    intro β s l vs h
    induction h with
    | nil => rfl
    | cons h1 _ ih => rw [List.map_cons, List.map_cons, ih, h1]
  refine ⟨?_, ?_, ?_, ?_⟩
  · obtain ⟨vs, h1, h2⟩ := run (fun n => testDifferentGroupingSize E fuel G N (r1 n) n) groupSizes
      (fun _ v => usersServed v = 262144) (by
        intro n hn
        have hd : 4 ≤ n ∧ n ∣ 262144 := by
          simp only [groupSizes, List.mem_cons, List.not_mem_nil, or_false] at hn
          obtain rfl | rfl | rfl | rfl | rfl := hn <;> omega
        obtain ⟨v, hv⟩ := (C131_returns_iff E fuel G N (r1 n) n).2 hd.1
        exact ⟨v, hv, ((C131_users_partial _ _ _ _ _ _ _ hv).2.1).2 hd.2⟩)
    refine ⟨vs, h1, h2.length_eq.symm, ?_⟩
    clear h1
    generalize groupSizes = l at h2
    induction h2 with
    | nil => exact fun v hv => absurd hv List.not_mem_nil
    | cons h _ ih => exact List.forall_mem_cons.2 ⟨h, ih⟩
  · obtain ⟨vs, h1, h2⟩ := run (fun n => testRSAMembershipPreCompute E fuel G N (r3 n) n) (groupSizes ++ [1048576])
      (fun n v => v.proofs.length = id n) (by
        intro n hn
        refine ⟨_, (preCompute_ok_iff _ _ _ _ _ _ _).2 ⟨?_, rfl⟩, by rw [witnesses_length, benchReps_length]; rfl⟩
        simp only [groupSizes, List.cons_append, List.nil_append, List.mem_cons, List.not_mem_nil, or_false] at hn
        omega)
    exact ⟨vs, h1, (lens id _ _ h2).trans rfl⟩
  · obtain ⟨vs, h1, h2⟩ := run (fun c : Nat × Int => testRSAMembershipPreComputeDIParallel E fuel G N (r2 c) c.1 c.2)
      membershipDICalls (fun c v => v.proofs.length = c.1) (by
        intro c hc
        refine ⟨_, (preComputeDI_ok_iff _ _ _ _ _ _ _ _).2 ⟨?_, rfl⟩, by rw [witnesses_length, benchReps_length]⟩
        have : ∀ c ∈ membershipDICalls, 4 ≤ c.1 := by decide
        exact this c hc)
    exact ⟨vs, h1, (lens Prod.fst _ _ h2).trans rfl⟩
  · obtain ⟨vs, h1, h2⟩ := run (fun n => testRSAMembershipPreCompute E fuel G N (r3 n) n) groupSizes
      (fun n v => v.proofs.length = id n) (by
        intro n hn
        refine ⟨_, (preCompute_ok_iff _ _ _ _ _ _ _).2 ⟨?_, rfl⟩, by rw [witnesses_length, benchReps_length]; rfl⟩
        simp only [groupSizes, List.mem_cons, List.not_mem_nil, or_false] at hn
        omega)
    exact ⟨vs, h1, (lens id _ _ h2).trans rfl⟩

/-- A size that the repository does not use: of 262144 users one is left out. -/
example (E : Env) : ∃ v, testDifferentGroupingSize E 0 4 35 (fun i => i + 1) 9 = Run.ok v ∧ usersServed v = 262143 := by
  obtain ⟨v, hv⟩ := (C131_returns_iff E 0 4 35 (fun i => i + 1) 9).2 (by omega)
  exact ⟨v, hv, by have := (C131_users_partial _ _ _ _ _ _ _ hv).1; omega⟩

end Verif.Props
