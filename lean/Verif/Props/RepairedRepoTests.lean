import Verif.Props.RepoTests
import Verif.Props.RepoTestsMore

/-!
# Repaired tests and benchmarks of the repository (C104, C107)

The loops of `BenchmarkExp` and `BenchmarkDoubleExp` start again at the first number, `BenchmarkSimpleExp` skips the exponent 0, and
the case of the range in `TestZkMultiSwapFailCases` uses a number that is out of the range.
-/

namespace Verif.Props
open Verif.Go Verif.Model Verif.Lemmas Verif.Spec

/-- accumulator/benchmark_test.go:143-147 with the index `i % len(set)`. -/
def benchmarkExpCyclic (G N : Int) (set : List Int) (n : Nat) : Res Unit :=
  (List.range n).forM (fun i => do
    let e ← index set (i % set.length)
    let _temp := (bigExp G e N).getD 0
    .ok ())

/-- accumulator/benchmark_test.go:166-168 likewise. -/
def benchmarkDoubleExpCyclic (G N : Nat) (set : List Nat) (n : Nat) : Res Unit :=
  (List.range (n - 1)).forM (fun k => do
    let e0 ← index set (k % set.length)
    let e1 ← index set ((k + 1) % set.length)
    let _temp := doubleExp G e0 e1 N
    .ok ())

/-- accumulator/benchmark_test.go:206-208 without the exponent 0. -/
def benchmarkSimpleExpSkip (G N : Int) (set : List Int) : Res Unit :=
  (List.range set.length).forM (fun i => do
    let e ← index set i
    if e = 0 then .ok () else do
      let _ ← simpleExp G e N
      .ok ())

/-- C104 for the repaired loops: they end without a panic for every number of rounds and every set that is not empty. -/
theorem C104_repaired_partial (n : Nat) :
    (∀ (G N : Int) (set : List Int), set ≠ [] → benchmarkExpCyclic G N set n = .ok ()) ∧
    (∀ (G N : Nat) (set : List Nat), set ≠ [] → benchmarkDoubleExpCyclic G N set n = .ok ()) ∧
    ∀ set : List Nat, benchmarkSimpleExpSkip g2048 n2048 (set.map Int.ofNat) = .ok () := by
  refine ⟨?_, ?_, ?_⟩
  · intro G N set hs
    have := List.length_pos_iff.2 hs
    unfold benchmarkExpCyclic
    apply forM_ok
    intro i _
    rw [index, List.getElem?_eq_getElem (Nat.mod_lt _ this)]; rfl
  · intro G N set hs
    have := List.length_pos_iff.2 hs
    unfold benchmarkDoubleExpCyclic
    apply forM_ok
    intro i _
    rw [index, List.getElem?_eq_getElem (Nat.mod_lt _ this), index, List.getElem?_eq_getElem (Nat.mod_lt _ this)]; rfl
  · intro set
    have hg : (1 : Int) < g2048 := by exact_mod_cast C25_trusted_parameters.2.2.2.2.1
    have hn : (1 : Int) < n2048 := by
      have h1 := C25_trusted_parameters.2.2.2.2.1
      have h2 := C25_trusted_parameters.2.2.2.2.2.1
      exact_mod_cast h1.trans h2
    generalize (g2048 : Int) = G at *
    generalize (n2048 : Int) = N at *
    unfold benchmarkSimpleExpSkip
    apply forM_ok
    intro i hi
    rw [List.mem_range, List.length_map] at hi
    rw [index, List.getElem?_map, List.getElem?_eq_getElem hi]
    show (if Int.ofNat set[i] = 0 then Except.ok () else do let _ ← simpleExp G (Int.ofNat set[i]) N; Except.ok ()) = _
    by_cases hp : set[i] = 0
    · rw [if_pos (by rw [hp]; rfl)]
    · rw [if_neg (by rw [Int.ofNat_eq_natCast]; omega), C26_simpleExp_exact G _ N hg hn (by rw [Int.ofNat_eq_natCast]; omega)]; rfl

/-- Up to the number of drawn numbers the repaired loops are those of the code. -/
theorem C104_repaired_same_partial (n : Nat) :
    (∀ (G N : Int) (set : List Int), n ≤ set.length → benchmarkExpCyclic G N set n = benchmarkExp G N set n) ∧
    (∀ (G N : Nat) (set : List Nat), n ≤ set.length → benchmarkDoubleExpCyclic G N set n = benchmarkDoubleExp G N set n) ∧
    ∀ (G N : Int) (set : List Int), (0 : Int) ∉ set → benchmarkSimpleExpSkip G N set = benchmarkSimpleExp G N set := by
  have congr : ∀ (l : List Nat) (f g : Nat → Res Unit), (∀ i ∈ l, f i = g i) → l.forM f = l.forM g := by
    intro l f g h
    induction l with
    | nil => rfl
    | cons a l ih =>
      show (f a >>= fun _ => l.forM f) = (g a >>= fun _ => l.forM g)
      rw [h a List.mem_cons_self, ih fun i hi => h i (List.mem_cons_of_mem _ hi)]
  refine ⟨?_, ?_, ?_⟩
  · intro G N set h
    unfold benchmarkExpCyclic benchmarkExp
    apply congr
    intro i hi
    rw [List.mem_range] at hi
    rw [Nat.mod_eq_of_lt (by omega)]
  · intro G N set h
    unfold benchmarkDoubleExpCyclic benchmarkDoubleExp
    apply congr
    intro i hi
    rw [List.mem_range] at hi
    rw [Nat.mod_eq_of_lt (show i < set.length by omega), Nat.mod_eq_of_lt (show i + 1 < set.length by omega)]
  · intro G N set h
    unfold benchmarkSimpleExpSkip benchmarkSimpleExp
    apply congr
    intro i hi
    rw [List.mem_range] at hi
    rw [index, List.getElem?_eq_getElem hi]
    have : set[i] ≠ 0 := fun h0 => h (h0 ▸ List.getElem_mem hi)
    show (if set[i] = 0 then _ else _) = _
    rw [if_neg this]
    rfl

example : (benchmarkExp 2 35 [3, 4] 5).panics = true ∧ benchmarkExpCyclic 2 35 [3, 4] 5 = .ok () :=
  ⟨by decide +kernel, (C104_repaired_partial 5).1 2 35 [3, 4] (by simp)⟩

/-- zkmultiswap/zkmultiswap_test.go:67-107 with the balance 2^32 in lines 93-97. -/
def failCasesRepaired (testSet : UpdateSet32) : List (Circuit → Circuit) :=
  [ fun w => { w with updatedBalances := w.updatedBalances.set 0 5 },
    fun w => { w with originalSum := 10 },
    fun w => { w with updatedSum := 10 },
    fun w => { w with originalBalances := w.originalBalances.set 0 10 },
    fun w => { w with originalBalances := w.originalBalances.set 0 4294967296,
                      updatedBalances := w.updatedBalances.set 0 4294967296 },
    fun w => { w with remainderR1 := elementFromBigInt testSet.challengeL1 },
    fun w => { w with remainderR2 := elementFromBigInt testSet.challengeL2 } ]

/-- C107 for the repaired cases: all of them are rejected for every hash function. -/
theorem C107_repaired_partial (E : Env) (fuel : Nat) (G N accMid : Int) (u : UpdateSet32)
    (h : genTestSet E fuel 10 G N accMid = Run.ok u) :
    testPublicWitness u = .ok true ∧ ∀ change ∈ failCasesRepaired u, failCheck E u change = .ok true := by
  refine ⟨C107_publicWitness_partial E fuel 10 G N accMid u h, ?_⟩
  have hk := fun k (hk : k ≠ 4) change => C107_failCases_partial E fuel G N accMid u h k hk change
  have h4 := (C107_range_case_partial E fuel G N accMid u h 4294967296).2.1 (by decide)
  intro change hc
  simp only [failCasesRepaired, List.mem_cons, List.not_mem_nil, or_false] at hc
  rcases hc with rfl | rfl | rfl | rfl | rfl | rfl | rfl
  · exact hk 0 (by decide) _ rfl
  · exact hk 1 (by decide) _ rfl
  · exact hk 2 (by decide) _ rfl
  · exact hk 3 (by decide) _ rfl
  · exact h4
  · exact hk 5 (by decide) _ rfl
  · exact hk 6 (by decide) _ rfl

example : ∃ u, genTestSet sumEnv 1 10 2 35 4 = Run.ok u ∧ (failCasesRepaired u).length = 7 :=
  ⟨_, sumEnv_testSet 10 (by decide) 2 35 4, rfl⟩

end Verif.Props
