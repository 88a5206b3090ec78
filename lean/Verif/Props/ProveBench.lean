import Verif.Model.ProveBench
import Verif.Props.Update
import Verif.Props.RepoTests

/-! # The benchmarks of the provers time the same task (C137) -/

namespace Verif.Props
open Verif.Go Verif.Model Verif.Lemmas Verif.Spec

theorem mapM_const_ok {α : Type} (x : Run α) (v : α) (n : Nat) (out : List α) (hx : x = Run.ok v) :
    (List.range n).mapM (fun _ => x) = Run.ok out ↔ out = List.replicate n v := by
  rw [run_mapM_ok_iff, List.forall₂_iff_get]
  subst hx
  constructor
  · rintro ⟨h1, h2⟩
    rw [List.length_range] at h1
    apply List.ext_getElem
    · simp [h1]
    · intro i a b
      have := h2 i (by simp at b; simpa using b) a
      simpa using (run_ok_inj this).symm
  · rintro rfl
    simp

theorem mapM_const_fail {α : Type} (x : Run α) (n : Nat) (out : List α) (hx : ∀ v, x ≠ Run.ok v)
    (h : (List.range n).mapM (fun _ => x) = Run.ok out) : n = 0 := by
  rw [run_mapM_ok_iff] at h
  by_contra hn
  obtain ⟨m, rfl⟩ : ∃ m, n = m + 1 := ⟨n - 1, by omega⟩
  rw [List.range_succ_eq_map] at h
  cases h with
  | cons h _ => exact hx _ h

/-- The strings of the benchmarks all have a prime. -/
def BenchPrimes (E : Env) (fuel : Nat) : Prop := RepsFound E fuel (genBenchSet 1000)

theorem representatives_unique (E : Env) (f1 f2 : Nat) (set : List Bytes) (enc : Int) (rep1 rep2 : List Nat)
    (h1 : genRepresentatives E f1 set enc = Run.ok rep1) (h2 : genRepresentatives E f2 set enc = Run.ok rep2) : rep1 = rep2 := by
  have l1 := genRepresentatives_length _ _ _ _ _ h1
  have l2 := genRepresentatives_length _ _ _ _ _ h2
  apply List.ext_getElem?
  intro i
  by_cases hi : i < set.length
  · exact C15_pointwise E f1 f2 set set enc rep1 rep2 h1 h2 i i hi hi rfl
  · rw [List.getElem?_eq_none (by omega), List.getElem?_eq_none (by omega)]

/-- Every round of every prover benchmark gives the same 1000 witnesses; they fit to the accumulator of `BenchmarkAccAndProve`. -/
theorem C137_same_task (E : Env) (fuel : Nat) (hf : 1000 ≤ fuel) (h : BenchPrimes E fuel) :
    ∃ rep acc ps, genRepresentatives E fuel (genBenchSet 1000) hashToPrimeFromSha256 = Run.ok rep ∧
      rep.length = 1000 ∧ ps.length = 1000 ∧
      (∀ (i : Nat) (hi : i < rep.length) (hi' : i < ps.length), ps[i] ^ rep[i] % n2048 = acc) ∧
      ∀ rounds,
        benchAccAndProve E fuel rounds = Run.ok (List.replicate rounds (acc, ps)) ∧
        benchProveMembership E fuel rounds = Run.ok (List.replicate rounds ps) ∧
        benchProveMembershipIter E fuel rounds = Run.ok (List.replicate rounds ps) ∧
        (∀ out, BenchProveParallel E rounds out ↔ out = List.replicate rounds ps) := by
  obtain ⟨rep, hrep⟩ := h
  have hl : rep.length = 1000 := by
    rw [genRepresentatives_length _ _ _ _ _ hrep]; simp [genBenchSet]
  have hne : rep ≠ [] := by intro h0; rw [h0] at hl; cases hl
  have hpm := proveMembership_expected builtinSetup.G builtinSetup.N rep hne
  refine ⟨rep, accumulator builtinSetup.G builtinSetup.N rep, expected builtinSetup.G builtinSetup.N rep, hrep, hl,
    by rw [expected_length, hl], ?_, ?_⟩
  · intro i hi hi'
    exact expected_verifies builtinSetup.G builtinSetup.N rep i hi hi'
  have hsend := exists_send _ _ (parallel_expected builtinSetup.G builtinSetup.N rep 8 hne)
  intro rounds
  refine ⟨?_, ?_, ?_, ?_⟩
  · unfold benchAccAndProve
    rw [mapM_const_ok _ _ _ _ ((accAndProve_ok_iff ..).2 ⟨rep, hrep, hne, rfl, rfl⟩)]
  · unfold benchProveMembership
    rw [run_bind_ok_iff]
    refine ⟨rep, hrep, ?_⟩
    rw [mapM_const_ok _ _ _ _ ((liftRes_ok_iff _ _).2 hpm)]
  · unfold benchProveMembershipIter
    rw [run_bind_ok_iff]
    refine ⟨rep, hrep, ?_⟩
    rw [mapM_const_ok _ _ _ _ ((liftLoop_ok_iff _ _).2 (iter_expected _ _ _ _ (by omega)))]
  · intro out
    constructor
    · rintro ⟨fuel', rep', hrep', hlen, hall⟩
      have he : rep' = rep := representatives_unique E fuel' fuel _ _ _ _ hrep' hrep
      subst he
      rw [List.eq_replicate_iff]
      refine And.intro hlen (fun b hb => ?_)
      have := (C05_parallel_schedule_independent builtinSetup.G builtinSetup.N rep' 8).value b (hall b hb)
      rw [hpm] at this
      exact (Except.ok.inj this).symm
    · rintro rfl
      refine ⟨fuel, rep, hrep, by simp, ?_⟩
      intro ps hps
      rw [List.eq_of_mem_replicate hps]
      exact hsend

/-- For which inputs the benchmarks come to their end without a panic: always if the strings have primes; without them only
`BenchmarkAccAndProve`, with no round. -/
theorem C137_returns_iff (E : Env) (fuel rounds : Nat) (hf : 1000 ≤ fuel) :
    ((∃ out, benchProveMembership E fuel rounds = Run.ok out) ↔ BenchPrimes E fuel) ∧
    ((∃ out, benchProveMembershipIter E fuel rounds = Run.ok out) ↔ BenchPrimes E fuel) ∧
    ((∃ out, benchAccAndProve E fuel rounds = Run.ok out) ↔ rounds = 0 ∨ BenchPrimes E fuel) ∧
    ((∃ out, BenchProveParallel E rounds out) ↔ ∃ fuel, BenchPrimes E fuel) ∧ ¬ BenchProveParallelCrash E := by
  refine ⟨⟨?_, ?_⟩, ⟨?_, ?_⟩, ⟨?_, ?_⟩, ⟨?_, ?_⟩, ?_⟩
  · rintro ⟨out, h⟩
    unfold benchProveMembership at h
    obtain ⟨rep, hrep, -⟩ := (run_bind_ok_iff ..).1 h
    exact ⟨rep, hrep⟩
  · intro h
    obtain ⟨_, _, ps, -, -, -, -, h⟩ := C137_same_task E fuel hf h
    exact ⟨_, (h rounds).2.1⟩
  · rintro ⟨out, h⟩
    unfold benchProveMembershipIter at h
    obtain ⟨rep, hrep, -⟩ := (run_bind_ok_iff ..).1 h
    exact ⟨rep, hrep⟩
  · intro h
    obtain ⟨_, _, ps, -, -, -, -, h⟩ := C137_same_task E fuel hf h
    exact ⟨_, (h rounds).2.2.1⟩
  · rintro ⟨out, h⟩
    by_cases hb : BenchPrimes E fuel
    · exact .inr hb
    · refine .inl (mapM_const_fail _ _ _ ?_ h)
      rintro ⟨acc, ps⟩ hv
      obtain ⟨rep, hrep, -⟩ := (accAndProve_ok_iff ..).1 hv
      exact hb ⟨rep, hrep⟩
  · rintro (rfl | h)
    · exact ⟨[], rfl⟩
    · obtain ⟨_, _, ps, -, -, -, -, h⟩ := C137_same_task E fuel hf h
      exact ⟨_, (h rounds).1⟩
  · rintro ⟨out, fuel', rep, hrep, -⟩
    exact ⟨fuel', rep, hrep⟩
  · rintro ⟨fuel', rep, hrep⟩
    have hne := rep_ne_nil hrep (by simp [genBenchSet])
    refine ⟨List.replicate rounds (expected builtinSetup.G builtinSetup.N rep), fuel', rep, hrep, by simp, ?_⟩
    have hsend := exists_send _ _ (parallel_expected builtinSetup.G builtinSetup.N rep 8 hne)
    intro ps hps
    rw [List.eq_of_mem_replicate hps]
    exact hsend
  · rintro ⟨fuel', rep, hrep, h⟩
    have hne := rep_ne_nil hrep (by simp [genBenchSet])
    obtain ⟨e, he⟩ := (C05_parallel_schedule_independent builtinSetup.G builtinSetup.N rep 8).panic h
    rw [proveMembership_expected _ _ _ hne] at he
    cases he

/-- `BenchmarkHashToPrime` and `BenchmarkAccumulateNew256bits` work with the same prime, of at most 256 bits, in every round. -/
theorem C137_prime (E : Env) (fuel p : Nat) (h : hashToPrime E fuel benchString = some p) :
    p < 2 ^ 256 ∧ E.probablyPrime p = true ∧ ∀ rounds,
      benchHashToPrime E fuel rounds = Run.ok (List.replicate rounds p) ∧
      benchAccumulateNew E fuel rounds = Run.ok (List.replicate rounds (g2048 ^ p % n2048)) := by
  obtain ⟨k, -, hp, -⟩ := (C16_hashToPrime_first_prime E benchString p).1 ⟨fuel, h⟩
  refine ⟨(C16_hashToPrime_range_unique E benchString fuel fuel p p h h).1, hp, fun rounds => ⟨?_, ?_⟩⟩
  · unfold benchHashToPrime
    rw [mapM_const_ok _ _ _ _ ((liftLoop_ok_iff _ _).2 h)]
  · unfold benchAccumulateNew
    rw [run_bind_ok_iff]
    refine ⟨p, (liftLoop_ok_iff _ _).2 h, ?_⟩
    rw [mapM_const_ok _ _ _ _ rfl]
    rfl

/-- The hypotheses hold in the example environment of C103. -/
example : BenchPrimes exEnv 1000 ∧ ∃ p, hashToPrime exEnv 1 benchString = some p := by
  refine ⟨exEnv_reps _ _ (by omega), ?_⟩
  obtain ⟨rep, h⟩ := exEnv_reps [benchString] 1 (by omega)
  rw [C15_default_is_hashToPrime _ _ _ _ (by decide)] at h
  cases h with
  | cons h _ => exact ⟨_, h⟩

end Verif.Props
