import Verif.Model.RepoTests
import Verif.Props.Accumulator
import Verif.Props.MulExp
import Verif.Props.Setup
import Verif.Props.Benchmarks
import Verif.Props.Representatives

/-!
# The tests of package accumulator (C103) and its micro-benchmarks (C104)
-/

namespace Verif.Props
open Verif.Go Verif.Model Verif.Lemmas Verif.Spec

/-! ## C103 (violated) -/

/-- `HashToPrime` finds a prime for every string of the set. -/
def RepsFound (E : Env) (fuel : Nat) (set : List Bytes) : Prop :=
  ∃ rep, genRepresentatives E fuel set hashToPrimeFromSha256 = Run.ok rep

/-- The numbers that `rand.Intn(100000000)` gives. -/
def DrawnBelow (draw : Nat → Nat) : Prop := ∀ i, draw i < 100000000

/-- All tests of package accumulator pass, whatever they draw, for every hash function and primality test (as long as
`HashToPrime` returns), on a machine with any number of CPUs and under every schedule. -/
def C103_statement : Prop :=
  testSetup = true ∧ testCommonBits = true ∧
  (∀ (E : Env) (fuel : Nat) (d1 d2 d3 : Nat → Nat), DrawnBelow d1 → DrawnBelow d2 → DrawnBelow d3 →
    RepsFound E fuel (genDrawnSet d1 3072) → RepsFound E fuel (genDrawnSet d2 17) → RepsFound E fuel (genDrawnSet d3 254) →
    testAccAndProve E fuel d1 d2 d3 = Run.ok true) ∧
  (∀ (E : Env) (fuel : Nat) (d1 d2 d3 : Nat → Nat), 254 ≤ fuel → DrawnBelow d1 → DrawnBelow d2 → DrawnBelow d3 →
    RepsFound E fuel (genDrawnSet d1 16) → RepsFound E fuel (genDrawnSet d2 17) → RepsFound E fuel (genDrawnSet d3 254) →
    testAccAndProveIter E fuel d1 d2 d3 = Run.ok true) ∧
  (∀ (E : Env) (fuel cpus w : Nat) (k : Int) (d : Nat → Nat) (c : Nat × Nat × Nat), 1 ≤ cpus →
    calNumWorkers (2 * cpus + 1) cpus = some (w, k) → c ∈ iterParallelCases → DrawnBelow d →
    RepsFound E fuel (genDrawnSet d c.1) →
    ∀ r, AccAndProveIterParallel E (genDrawnSet d c.1) hashToPrimeFromSha256 builtinSetup w k.toNat r →
      iterParallelCheck E fuel (genDrawnSet d c.1) c.2.1 c.2.2 r = Run.ok true) ∧
  (∀ (E : Env) (fuel : Nat) (rep : List Nat),
    genRepresentatives E fuel (genBenchSet 1000) diHashFromPoseidon = Run.ok rep →
    ∀ par, Steps (.run (setProductParallel rep 2)) (.send par) → testProduct rep par = true) ∧
  (∀ a b : List (BitVec 64), wordsVal a < 1000000 → wordsVal b < 1000000 → testGCB a b = true) ∧
  (∀ g x N : Nat, g < 1000000 → x < 1000000 → N < 1000000 → testSimpleExp g x N = .ok true)

/-- The parameters used in the tests are those that `TrustedSetup` reads from its strings. -/
theorem C103_builtin_setup : trustedSetup.1 = (builtinSetup.N : Int) ∧ trustedSetup.2.1 = (builtinSetup.G : Int) := by
  rw [C25_trusted_parameters.1]
  exact ⟨rfl, rfl⟩

/-- `TestSimpleExp` on what it can draw: it passes exactly if the base and the modulus are at least 2 and the exponent at
least 1. In all other cases it panics; it never reports a wrong result. -/
theorem C103_simpleExp_iff (g x N : Nat) (hx : x < 1000000) :
    (testSimpleExp g x N = .ok true ↔ 2 ≤ g ∧ 1 ≤ x ∧ 2 ≤ N) ∧
    ((testSimpleExp g x N).panics = true ↔ ¬ (2 ≤ g ∧ 1 ≤ x ∧ 2 ≤ N)) := by
  by_cases h : 2 ≤ g ∧ 1 ≤ x ∧ 2 ≤ N
  · obtain ⟨h1, h2, h3⟩ := h
    have hs : x.size ≤ 20 := Nat.size_le.2 (by omega)
    have hs0 : 0 < x.size := Nat.size_pos.2 (by omega)
    have e1 : simpleExp g x N = .ok ((g : Int) ^ x % N) := by
      have := C26_simpleExp_partial g x N (by omega) (by omega) (by omega) ((x.size + 63) / 64) (by simp) (by omega)
        (by simp only [Int.natAbs_natCast]; omega)
      simpa using this
    have e2 : bigExp (g : Int) x N = some ((g : Int) ^ x % N) := by
      unfold bigExp
      rw [if_neg (by omega)]
      simp only [if_neg (show ¬ (x : Int) < 0 by omega), Option.map_some, Int.natAbs_natCast]
      rw [if_neg (by omega)]
    have e : testSimpleExp g x N = .ok true := by
      unfold testSimpleExp
      rw [e1, e2]
      simp [bind, Except.bind]
    rw [e]
    simp [Res.panics, h1, h2, h3]
  · obtain ⟨e, he⟩ : ∃ e, simpleExp g x N = .error e := by
      have := (C26_simpleExp_panics_iff (g : Int) x N).2 (by omega)
      cases hs : simpleExp (g : Int) x N with
      | ok v => rw [hs] at this; cases this
      | error e => exact ⟨e, rfl⟩
    have e : testSimpleExp g x N = .error e := by
      unfold testSimpleExp
      rw [he]; rfl
    rw [e]
    constructor
    · exact ⟨fun h' => (by cases h'), fun h' => absurd h' h⟩
    · exact ⟨fun _ => h, fun _ => rfl⟩

/-- The code violates C103: the draw `g = 0` makes `TestSimpleExp` panic. -/
theorem C103_violated : ¬ C103_statement := by
  rintro ⟨-, -, -, -, -, -, -, h⟩
  have := (C103_simpleExp_iff 0 0 0 (by omega)).1.1 (h 0 0 0 (by omega) (by omega) (by omega))
  omega

/-- How many of the 10^18 draws let `TestSimpleExp` pass. -/
theorem C103_simpleExp_count :
    ((Finset.range 1000000 ×ˢ Finset.range 1000000 ×ˢ Finset.range 1000000).filter
      (fun d => testSimpleExp d.1 d.2.1 d.2.2 = .ok true)).card = 999998 * 999999 * 999998 := by
  have e : (Finset.range 1000000 ×ˢ Finset.range 1000000 ×ˢ Finset.range 1000000).filter
      (fun d => testSimpleExp d.1 d.2.1 d.2.2 = .ok true)
      = Finset.Ico 2 1000000 ×ˢ Finset.Ico 1 1000000 ×ˢ Finset.Ico 2 1000000 := by
    ext ⟨g, x, N⟩
    simp only [Finset.mem_filter, Finset.mem_product, Finset.mem_range, Finset.mem_Ico]
    constructor
    · rintro ⟨⟨h1, h2, h3⟩, h⟩
      have := (C103_simpleExp_iff g x N h2).1.1 h
      omega
    · rintro ⟨h1, h2, h3⟩
      exact ⟨⟨h1.2, h2.2, h3.2⟩, (C103_simpleExp_iff g x N h2.2).1.2 ⟨h1.1, h2.1, h3.1⟩⟩
  rw [e, Finset.card_product, Finset.card_product, Nat.card_Ico, Nat.card_Ico]

/-- `TestSetup`, `TestCommonBits`: nothing is drawn. -/
theorem C103_constants_partial : testSetup = true ∧ testCommonBits = true := by
  constructor
  · decide +kernel
  · decide +kernel

theorem genDrawnSet_length (d : Nat → Nat) (n : Nat) : (genDrawnSet d n).length = n := by simp [genDrawnSet]

theorem witnessAcc_expected (setup : Setup) (rep : List Nat) (i : Nat) (h : i < rep.length) :
    witnessAcc setup rep (expected setup.G setup.N rep) i = .ok (accumulator setup.G setup.N rep) := by
  have h' : i < (expected setup.G setup.N rep).length := by rw [expected_length]; exact h
  have hv := expected_verifies setup.G setup.N rep i h h'
  unfold witnessAcc
  rw [index, List.getElem?_eq_getElem h', index, List.getElem?_eq_getElem h]
  show Except.ok _ = _
  rw [accumulateNewPow, expMod]
  exact congrArg _ hv

theorem accumulateNew_eq (g N : Nat) (set : List Nat) (hne : set ≠ []) : accumulateNew g N set = accumulator g N set :=
  Verif.Lemmas.accumulate_eq g N set (List.length_pos_iff.2 hne)

theorem accCheck_ok (E : Env) (fuel : Nat) (setup : Setup) (set : List Bytes) (i : Nat) (more : List Nat) (rep : List Nat)
    (hrep : genRepresentatives E fuel set hashToPrimeFromSha256 = Run.ok rep) (hi : i < set.length)
    (hm : ∀ j ∈ more, j < set.length) : accAndProveCheck E fuel setup set i more = Run.ok true := by
  have hl := genRepresentatives_length _ _ _ _ _ hrep
  have hne : set ≠ [] := by rintro rfl; simp at hi
  have hr := rep_ne_nil hrep hne
  have e1 : accAndProve E fuel set hashToPrimeFromSha256 setup
      = Run.ok (accumulator setup.G setup.N rep, expected setup.G setup.N rep) := by
    unfold accAndProve
    rw [run_bind_ok_iff]
    refine ⟨rep, hrep, ?_⟩
    rw [run_bind_ok_iff]
    refine ⟨_, (liftRes_ok_iff _ _).2 (proveMembership_expected _ _ _ hr), ?_⟩
    rw [liftRes_ok_iff, accFromProofs_expected _ _ _ hr]
  have e2 : more.mapM (witnessAcc setup rep (expected setup.G setup.N rep))
      = (.ok (more.map (fun _ => accumulator setup.G setup.N rep)) : Res (List Nat)) := by
    clear e1
    induction more with
    | nil => rfl
    | cons j l ih =>
      rw [List.mapM_cons, witnessAcc_expected _ _ _ (by rw [hl]; exact hm j List.mem_cons_self),
        ih (fun j hj => hm j (List.mem_cons_of_mem _ hj))]
      rfl
  unfold accAndProveCheck
  rw [run_bind_ok_iff]
  refine ⟨_, e1, ?_⟩
  dsimp only
  rw [run_bind_ok_iff]
  refine ⟨_, hrep, ?_⟩
  rw [run_bind_ok_iff]
  refine ⟨_, (liftRes_ok_iff _ _).2 (witnessAcc_expected _ _ _ (by omega)), ?_⟩
  rw [run_bind_ok_iff]
  refine ⟨_, (liftRes_ok_iff _ _).2 e2, ?_⟩
  rw [accumulateNew_eq _ _ _ hr, expected_length, hl]
  congr 1
  simp only [decide_true, Bool.and_self]
  clear e2
  induction more with
  | nil => rfl
  | cons j l ih =>
    rw [List.map_cons, List.foldl_cons]
    simp only [decide_true, Bool.and_self]
    exact ih (fun j hj => hm j (List.mem_cons_of_mem _ hj))

/-- `TestAccAndProve` passes on every draw. -/
theorem C103_accAndProve_partial (E : Env) (fuel : Nat) (d1 d2 d3 : Nat → Nat)
    (h1 : RepsFound E fuel (genDrawnSet d1 3072)) (h2 : RepsFound E fuel (genDrawnSet d2 17))
    (h3 : RepsFound E fuel (genDrawnSet d3 254)) : testAccAndProve E fuel d1 d2 d3 = Run.ok true := by
  obtain ⟨r1, h1⟩ := h1
  obtain ⟨r2, h2⟩ := h2
  obtain ⟨r3, h3⟩ := h3
  unfold testAccAndProve
  rw [accCheck_ok E fuel builtinSetup _ 5 [1] r1 h1 (by rw [genDrawnSet_length]; omega)
      (by intro j hj; rw [genDrawnSet_length]; simp at hj; omega),
    accCheck_ok E fuel builtinSetup _ 7 [] r2 h2 (by rw [genDrawnSet_length]; omega) (by simp),
    accCheck_ok E fuel builtinSetup _ 252 [] r3 h3 (by rw [genDrawnSet_length]; omega) (by simp)]
  rfl

theorem iterCheck_ok (E : Env) (fuel : Nat) (set : List Bytes) (idx want : Nat) (rep : List Nat)
    (hrep : genRepresentatives E fuel set hashToPrimeFromSha256 = Run.ok rep) (hi : idx < set.length)
    (hw : set.length = want) (hf : want ≤ fuel) : accAndProveIterCheck E fuel set idx want = Run.ok true := by
  have hl := genRepresentatives_length _ _ _ _ _ hrep
  have hne : set ≠ [] := by rintro rfl; simp at hi
  have hr := rep_ne_nil hrep hne
  have e1 : accAndProveIter E fuel set hashToPrimeFromSha256 builtinSetup
      = Run.ok (accumulator builtinSetup.G builtinSetup.N rep, expected builtinSetup.G builtinSetup.N rep) := by
    unfold accAndProveIter
    rw [run_bind_ok_iff]
    refine ⟨rep, hrep, ?_⟩
    rw [run_bind_ok_iff]
    refine ⟨_, (liftLoop_ok_iff _ _).2 (iter_expected _ _ _ fuel (by omega)), ?_⟩
    rw [liftRes_ok_iff, accFromProofs_expected _ _ _ hr]
  unfold accAndProveIterCheck genAccts
  rw [run_bind_ok_iff]
  refine ⟨_, e1, ?_⟩
  dsimp only
  rw [run_bind_ok_iff]
  refine ⟨(accumulateNew builtinSetup.G builtinSetup.N rep, accumulator builtinSetup.G builtinSetup.N rep), ?_, ?_⟩
  · rw [run_bind_ok_iff]
    refine ⟨_, hrep, ?_⟩
    rw [run_bind_ok_iff]
    exact ⟨_, (liftRes_ok_iff _ _).2 (witnessAcc_expected _ _ _ (by omega)), rfl⟩
  · dsimp only
    rw [accumulateNew_eq _ _ _ hr, expected_length, hl, hw]
    simp [accChecks]

/-- `TestAccAndProveIter` passes on every draw. -/
theorem C103_accAndProveIter_partial (E : Env) (fuel : Nat) (hf : 254 ≤ fuel) (d1 d2 d3 : Nat → Nat)
    (h1 : RepsFound E fuel (genDrawnSet d1 16)) (h2 : RepsFound E fuel (genDrawnSet d2 17))
    (h3 : RepsFound E fuel (genDrawnSet d3 254)) : testAccAndProveIter E fuel d1 d2 d3 = Run.ok true := by
  obtain ⟨r1, h1⟩ := h1
  obtain ⟨r2, h2⟩ := h2
  obtain ⟨r3, h3⟩ := h3
  unfold testAccAndProveIter
  rw [iterCheck_ok E fuel _ 5 16 r1 h1 (by rw [genDrawnSet_length]; omega) (genDrawnSet_length _ _) (by omega),
    iterCheck_ok E fuel _ 7 17 r2 h2 (by rw [genDrawnSet_length]; omega) (genDrawnSet_length _ _) (by omega),
    iterCheck_ok E fuel _ 253 254 r3 h3 (by rw [genDrawnSet_length]; omega) (genDrawnSet_length _ _) (by omega)]
  rfl

theorem genRepresentatives_unique (E : Env) (f1 f2 : Nat) (set : List Bytes) (enc : Int) (rep1 rep2 : List Nat)
    (h1 : genRepresentatives E f1 set enc = Run.ok rep1) (h2 : genRepresentatives E f2 set enc = Run.ok rep2) :
    rep1 = rep2 := by
  have l1 := genRepresentatives_length _ _ _ _ _ h1
  have l2 := genRepresentatives_length _ _ _ _ _ h2
  apply List.ext_getElem?
  intro i
  by_cases hi : i < set.length
  · exact C15_pointwise E f1 f2 set set enc rep1 rep2 h1 h2 i i hi hi rfl
  · rw [List.getElem?_eq_none (by omega), List.getElem?_eq_none (by omega)]

/-- `TestAccAndProveIterParallel` passes on every draw, for every number of CPUs and under every schedule. -/
theorem C103_iterParallel_partial (E : Env) (fuel cpus w : Nat) (k : Int) (d : Nat → Nat) (c : Nat × Nat × Nat)
    (hcpu : 1 ≤ cpus) (hw : calNumWorkers (2 * cpus + 1) cpus = some (w, k)) (hc : c ∈ iterParallelCases)
    (hf : RepsFound E fuel (genDrawnSet d c.1)) (r : Res (Nat × List (Option Nat)))
    (h : AccAndProveIterParallel E (genDrawnSet d c.1) hashToPrimeFromSha256 builtinSetup w k.toNat r) :
    iterParallelCheck E fuel (genDrawnSet d c.1) c.2.1 c.2.2 r = Run.ok true := by
  obtain ⟨w', k', hw', hw2, -, -⟩ := C14_calNumWorkers cpus hcpu
  rw [hw' _ (Nat.le_refl _)] at hw
  injection hw with hw
  injection hw with e1 e2
  subst e1 e2
  rw [hw2, Int.toNat_natCast] at h
  obtain ⟨hlen, hidx⟩ : c.1 = c.2.2 ∧ c.2.1 < c.1 := by
    simp only [iterParallelCases, List.mem_cons, List.not_mem_nil, or_false] at hc
    rcases hc with rfl | rfl | rfl <;> decide
  have hsl := genDrawnSet_length d c.1
  generalize genDrawnSet d c.1 = set at *
  obtain ⟨rep, hrep⟩ := hf
  have hne : set ≠ [] := by rintro rfl; simp at hsl; omega
  have hr := rep_ne_nil hrep hne
  have hl := genRepresentatives_length _ _ _ _ _ hrep
  have hrr : r = .ok (accumulator builtinSetup.G builtinSetup.N rep, (expected builtinSetup.G builtinSetup.N rep).map some) := by
    cases h with
    | mk f2 rep2 proofs hrep2 hs =>
      obtain rfl : rep2 = rep := genRepresentatives_unique _ _ _ _ _ _ _ hrep2 hrep
      have h1 := iterParallel_expected _ _ _ _ _ hs
      subst h1
      exact accFromPointers_expected _ _ _ hr
  subst hrr
  have hi : c.2.1 < rep.length := by omega
  have hi' : c.2.1 < (expected builtinSetup.G builtinSetup.N rep).length := by rw [expected_length]; exact hi
  unfold iterParallelCheck
  rw [run_bind_ok_iff]
  refine ⟨_, rfl, ?_⟩
  dsimp only
  rw [run_bind_ok_iff]
  refine ⟨_, hrep, ?_⟩
  rw [run_bind_ok_iff]
  refine ⟨(expected builtinSetup.G builtinSetup.N rep)[c.2.1], ?_, ?_⟩
  · rw [liftRes_ok_iff, derefAt, index, List.getElem?_map, List.getElem?_eq_getElem hi']
    rfl
  rw [run_bind_ok_iff]
  refine ⟨rep[c.2.1], ?_, ?_⟩
  · rw [liftRes_ok_iff, index, List.getElem?_eq_getElem hi]
  · rw [accumulateNew_eq _ _ _ hr, List.length_map, expected_length, hl, hsl, accumulateNewPow, expMod]
    have := expected_verifies builtinSetup.G builtinSetup.N rep c.2.1 hi hi'
    unfold verifies at this
    rw [this, hlen]
    simp [accChecks]

theorem testProduct_ok (rep : List Nat) (par : Nat) (h : Steps (.run (setProductParallel rep 2)) (.send par)) :
    testProduct rep par = true := by
  have h1 := (alwaysGives_eval _).value _ h
  rw [setProductParallel_eval] at h1
  have h2 : rep.prod = par := by injection h1
  unfold testProduct
  rw [setProductRecursiveFast_eq, setProduct2_eq, ← h2]
  simp

/-- `TestProduct` passes for every hash function and under every schedule of `SetProductParallel`. -/
theorem C103_product_partial (E : Env) (fuel : Nat) (rep : List Nat)
    (_ : genRepresentatives E fuel (genBenchSet 1000) diHashFromPoseidon = Run.ok rep) (par : Nat)
    (h : Steps (.run (setProductParallel rep 2)) (.send par)) : testProduct rep par = true := testProduct_ok rep par h

/-- `TestGCB` passes on every draw (and for numbers of any size). -/
theorem C103_gcb_partial (a b : List (BitVec 64)) : testGCB a b = true := by
  have h := C27_gcb_splits a b
  unfold testGCB
  generalize gcb a b = z at h
  obtain ⟨r, x, y⟩ := z
  obtain ⟨h1, h2, -⟩ := h
  simp only [decide_eq_true_eq] at *
  omega

theorem exEnv_reps (set : List Bytes) (fuel : Nat) (hf : 1 ≤ fuel) : RepsFound exEnv fuel set := by
  refine ⟨set.map (fun _ => 13), ?_⟩
  obtain ⟨f, rfl⟩ : ∃ f, fuel = f + 1 := ⟨fuel - 1, by omega⟩
  rw [genRepresentatives_ok_iff, List.forall₂_map_right_iff]
  exact List.forall₂_same.2 (fun v _ => by
    rw [repOf, if_neg (by decide), liftLoop_ok_iff]
    have h : setBytes (exEnv.sha256 v) = 13 := by
      show setBytes (List.replicate 31 0 ++ [13]) = 13
      decide +kernel
    rw [hashToPrime, hashToPrimeLoop, h, if_pos (by decide)])

/-- The hypotheses can be met: in `exEnv` every string has the representative 13. A machine with 6 CPUs has 4 workers. -/
example : DrawnBelow (fun i => i * 7919 % 100000000) ∧ (∀ n, RepsFound exEnv 254 (genDrawnSet (fun i => i * 7919 % 100000000) n)) ∧
    calNumWorkers (2 * 6 + 1) 6 = some (4, 2) ∧ (17, 7, 17) ∈ iterParallelCases ∧
    ∃ out, AccAndProveIterParallel exEnv (genDrawnSet (fun i => i * 7919 % 100000000) 17) hashToPrimeFromSha256 builtinSetup
      (2 ^ 2) 2 (.ok out) := by
  refine ⟨fun i => Nat.mod_lt _ (by omega), fun n => exEnv_reps _ _ (by omega), by decide, by decide, ?_⟩
  obtain ⟨rep, h⟩ := exEnv_reps (genDrawnSet (fun i => i * 7919 % 100000000) 17) 254 (by omega)
  exact (C02_parallel_some_run exEnv 254 _ _ builtinSetup rep h
    (by intro h0; have := genDrawnSet_length (fun i => i * 7919 % 100000000) 17; rw [h0] at this; cases this) 2).2

/-- Draws on both sides of `C103_simpleExp_iff`. -/
example : testSimpleExp 3 13 7 = .ok true ∧ (testSimpleExp 1 13 7).panics = true ∧ (testSimpleExp 3 0 7).panics = true :=
  ⟨(C103_simpleExp_iff 3 13 7 (by omega)).1.2 (by omega), (C103_simpleExp_iff 1 13 7 (by omega)).2.2 (by omega),
    (C103_simpleExp_iff 3 0 7 (by omega)).2.2 (by omega)⟩

/-- The words of 999999 and 7: the numbers that `TestGCB` can draw. -/
example : wordsVal [999999] < 1000000 ∧ gcb [999999] [7] = ([7], [999992], [0]) := by decide +kernel

/-! ## C104 (violated) -/

/-- The loops of the micro-benchmarks of package accumulator end without a panic for every number of rounds that the
testing framework asks for and every draw. -/
def C104_statement : Prop :=
  (∀ (set : List Nat) (n : Nat), set.length = 10000 → (benchmarkExp g2048 n2048 (set.map Int.ofNat) n).panics = false) ∧
  (∀ (set : List Nat) (n : Nat), set.length = 10000 → (benchmarkDoubleExp g2048 n2048 set n).panics = false) ∧
  (∀ (set : List Nat) (n : Nat), set.length = 10000 → (benchmarkFourfoldExp g2048 n2048 set n).panics = false) ∧
  (∀ (set : List Nat), set.length = 100 → (∀ e ∈ set, e < n2048) →
    (benchmarkSimpleExp g2048 n2048 (set.map Int.ofNat)).panics = false) ∧
  (∀ (set : List (List (BitVec 64))), set.length = 10000 → (benchmarkGCB set).panics = false)

theorem forM_ok {l : List Nat} {f : Nat → Res Unit} (h : ∀ i ∈ l, f i = .ok ()) : l.forM f = .ok () := by
  induction l with
  | nil => rfl
  | cons a l ih =>
    show (do f a; l.forM f) = _
    rw [h a List.mem_cons_self]
    exact ih (fun i hi => h i (List.mem_cons_of_mem _ hi))

theorem forM_panics {l : List Nat} {f : Nat → Res Unit} (i : Nat) (hi : i ∈ l) (h : (f i).panics = true) :
    (l.forM f).panics = true := by
  induction l with
  | nil => cases hi
  | cons a l ih =>
    show (do f a; l.forM f).panics = true
    cases hf : f a with
    | error e => rfl
    | ok u =>
      rcases List.mem_cons.1 hi with rfl | hi
      · rw [hf] at h; cases h
      · exact ih hi

theorem index_panics {α : Type} (l : List α) (i : Nat) (h : l.length ≤ i) : (index l i) = goPanic "index out of range" := by
  rw [index, List.getElem?_eq_none h]

/-- `BenchmarkExp` panics exactly if the framework asks for more rounds than numbers were drawn (10000). -/
theorem C104_exp_iff (G N : Int) (set : List Int) (n : Nat) : (benchmarkExp G N set n).panics = true ↔ set.length < n := by
  constructor
  · intro h
    by_contra hc
    have : benchmarkExp G N set n = .ok () := by
      unfold benchmarkExp
      apply forM_ok
      intro i hi
      rw [List.mem_range] at hi
      rw [index, List.getElem?_eq_getElem (by omega)]; rfl
    rw [this] at h; cases h
  · intro h
    unfold benchmarkExp
    refine forM_panics set.length (List.mem_range.2 h) ?_
    rw [index_panics _ _ (Nat.le_refl _)]; rfl

/-- `BenchmarkDoubleExp` likewise (a set of at least one number). -/
theorem C104_doubleExp_iff (G N : Nat) (set : List Nat) (hs : 0 < set.length) (n : Nat) :
    (benchmarkDoubleExp G N set n).panics = true ↔ set.length < n := by
  constructor
  · intro h
    by_contra hc
    have : benchmarkDoubleExp G N set n = .ok () := by
      unfold benchmarkDoubleExp
      apply forM_ok
      intro i hi
      rw [List.mem_range] at hi
      rw [index, List.getElem?_eq_getElem (by omega), index, List.getElem?_eq_getElem (by omega)]; rfl
    rw [this] at h; cases h
  · intro h
    unfold benchmarkDoubleExp
    refine forM_panics (set.length - 1) (List.mem_range.2 (by omega)) ?_
    rw [index_panics _ (set.length - 1 + 1) (by omega)]
    cases index set (set.length - 1) <;> rfl

/-- `BenchmarkFourfoldExp` never panics: it uses the first four numbers only. -/
theorem C104_fourfold_partial (G N : Nat) (set : List Nat) (hs : 4 ≤ set.length) (n : Nat) :
    benchmarkFourfoldExp G N set n = .ok () := by
  unfold benchmarkFourfoldExp
  apply forM_ok
  intro i _
  rw [index, List.getElem?_eq_getElem (by omega), index, List.getElem?_eq_getElem (by omega), index,
    List.getElem?_eq_getElem (by omega), index, List.getElem?_eq_getElem (by omega)]; rfl

/-- With another list the loop panics exactly if it has less than four numbers and the loop runs at all, that is from `b.N = 5` on. -/
theorem C104_fourfold_iff (G N : Nat) (set : List Nat) (n : Nat) :
    (benchmarkFourfoldExp G N set n).panics = true ↔ set.length < 4 ∧ 5 ≤ n := by
  constructor
  · intro h
    by_contra hc
    by_cases hs : 4 ≤ set.length
    · rw [C104_fourfold_partial G N set hs n] at h
      cases h
    · unfold benchmarkFourfoldExp at h
      rw [show n - 4 = 0 by omega] at h
      cases h
  · rintro ⟨h1, h2⟩
    unfold benchmarkFourfoldExp
    refine forM_panics 0 (List.mem_range.2 (by omega)) ?_
    rw [index_panics set 3 (by omega)]
    cases index set 0 <;> cases index set 1 <;> cases index set 2 <;> rfl

/-- `BenchmarkSimpleExp` panics exactly if it has drawn the exponent 0. -/
theorem C104_simpleExp_iff (set : List Nat) :
    (benchmarkSimpleExp g2048 n2048 (set.map Int.ofNat)).panics = true ↔ 0 ∈ set := by
  have hg : (1 : Int) < g2048 := by exact_mod_cast C25_trusted_parameters.2.2.2.2.1
  have hn : (1 : Int) < n2048 := by
    have h1 := C25_trusted_parameters.2.2.2.2.1
    have h2 := C25_trusted_parameters.2.2.2.2.2.1
    exact_mod_cast h1.trans h2
  generalize (g2048 : Int) = G at *
  generalize (n2048 : Int) = N at *
  constructor
  · intro h
    by_contra hc
    have : benchmarkSimpleExp G N (set.map Int.ofNat) = .ok () := by
      unfold benchmarkSimpleExp
      apply forM_ok
      intro i hi
      rw [List.mem_range, List.length_map] at hi
      rw [index, List.getElem?_map, List.getElem?_eq_getElem hi]
      have hp : set[i] ≠ 0 := fun h0 => hc (h0 ▸ List.getElem_mem hi)
      show (do let _ ← simpleExp G (Int.ofNat set[i]) N; Except.ok ()) = _
      rw [C26_simpleExp_exact G _ N hg hn (by rw [Int.ofNat_eq_natCast]; omega)]; rfl
    rw [this] at h; cases h
  · intro h
    obtain ⟨i, hi, h0⟩ := List.getElem_of_mem h
    unfold benchmarkSimpleExp
    refine forM_panics i (List.mem_range.2 (by rw [List.length_map]; exact hi)) ?_
    rw [index, List.getElem?_map, List.getElem?_eq_getElem hi, h0]
    have := (C26_simpleExp_panics_iff G (Int.ofNat 0) N).2 (by right; right; decide)
    show (do let _ ← simpleExp G (Int.ofNat 0) N; Except.ok ()).panics = true
    cases hs : simpleExp G (Int.ofNat 0) N with
    | ok v => rw [hs] at this; cases this
    | error e => rfl

/-- `BenchmarkGCB` never panics. -/
theorem C104_gcb_partial (set : List (List (BitVec 64))) : ∃ out, benchmarkGCB set = .ok out ∧ out.length = set.length := by
  have key : ∀ (l : List Nat) (cur : List (List (BitVec 64))), (∀ k ∈ l, k + 1 < cur.length) →
      ∃ out, l.foldlM (fun set k => do
        let a ← index set k
        let b ← index set (k + 1)
        let (_, a', b') := gcb a b
        Except.ok ((set.set k a').set (k + 1) b')) cur = (.ok out : Res _) ∧ out.length = cur.length := by
    intro l
    induction l with
    | nil => intro cur _; exact ⟨cur, rfl, rfl⟩
    | cons k l ih =>
      intro cur h
      have hk := h k List.mem_cons_self
      rw [List.foldlM_cons, index, List.getElem?_eq_getElem (by omega), index, List.getElem?_eq_getElem hk]
      obtain ⟨out, h1, h2⟩ := ih ((cur.set k (gcb cur[k] cur[k + 1]).2.1).set (k + 1) (gcb cur[k] cur[k + 1]).2.2)
        (by intro j hj; rw [List.length_set, List.length_set]; exact h j (List.mem_cons_of_mem _ hj))
      refine ⟨out, h1, ?_⟩
      rw [h2, List.length_set, List.length_set]
  exact key _ set (by intro k hk; rw [List.mem_range] at hk; omega)

theorem C104_violated : ¬ C104_statement := by
  rintro ⟨h, -⟩
  have h1 := h (List.replicate 10000 1) 10001 List.length_replicate
  rw [(C104_exp_iff _ _ _ _).2 (by rw [List.length_map, List.length_replicate]; omega)] at h1
  cases h1

/-- Two numbers: two rounds are fine, the third reads past the end; a zero exponent stops `BenchmarkSimpleExp`. -/
example : benchmarkExp 2 35 [3, 5] 2 = .ok () ∧ (benchmarkExp 2 35 [3, 5] 3).panics = true ∧
    benchmarkDoubleExp 2 35 [3, 5] 2 = .ok () ∧ (benchmarkDoubleExp 2 35 [3, 5] 3).panics = true ∧
    (benchmarkSimpleExp 2 35 [3, 0]).panics = true ∧ benchmarkSimpleExp 2 35 [3, 5] = .ok () := by decide +kernel

/-- `GCB` leaves the common bits out of both numbers, so the second round of the benchmark works on a changed number. -/
example : benchmarkGCB [[7], [3], [1]] = .ok [[4], [0], [1]] := by decide +kernel

end Verif.Props
