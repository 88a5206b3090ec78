import Verif.Props.Benchmarks

/-!
# A table with room for the randomizer (C95)

`TestRSAMembershipPreCompute` makes its table as large as the one of `TestRSAMembershipPreComputeDIParallel`.
-/

namespace Verif.Props
open Verif.Go Verif.Model Verif.Lemmas

/-- experiments/finaltests.go:106-134 `TestRSAMembershipPreCompute` with 2048 bits of the table for every element, as in line 191. -/
def testRSAMembershipPreComputeWide (E : Env) (fuel G N r1 setSize : Nat) : Run PreComputeRun := do
  let set := genBenchSet setSize
  let rep ← genRepresentatives E fuel set diHashFromPoseidon
  let words := setSize * 2048 / 64
  let proofs ← liftRes (proveMembershipParallelWithTableWithRandomizer G r1 N rep 0).eval
  let _ ← liftRes (index proofs 0)
  Run.ok { rep, words, exponents := exponentList r1 rep, proofs }

/-- The repaired benchmark gives the values of the code with another table. -/
theorem C95_repaired_same_partial (E : Env) (fuel G N r1 n : Nat) (v : PreComputeRun) :
    testRSAMembershipPreComputeWide E fuel G N r1 n = Run.ok v ↔
      ∃ v', testRSAMembershipPreCompute E fuel G N r1 n = Run.ok v' ∧ v = { v' with words := 32 * n } := by
  have hw : n * 2048 / 64 = 32 * n := by omega
  unfold testRSAMembershipPreComputeWide testRSAMembershipPreCompute
  simp only [run_bind_ok_iff, hw]
  constructor
  · rintro ⟨rep, h1, proofs, h2, x, h3, h4⟩
    exact ⟨_, ⟨rep, h1, proofs, h2, x, h3, rfl⟩, (run_ok_inj h4).symm⟩
  · rintro ⟨v', ⟨rep, h1, proofs, h2, x, h3, h4⟩, rfl⟩
    rw [← run_ok_inj h4]
    exact ⟨rep, h1, proofs, h2, x, h3, rfl⟩

/-- C95 for the repaired benchmark: the table covers the exponents of every run. -/
theorem C95_repaired_partial (E : Env) (fuel G N r1 n : Nat) (hr : r1 < 2 ^ 2047) (v : PreComputeRun)
    (h : testRSAMembershipPreComputeWide E fuel G N r1 n = Run.ok v) : TableCovers v := by
  have key : 4 ≤ n → ∀ e ∈ exponentList r1 (benchReps E n), e < 2 ^ (64 * (32 * n)) := by
    intro h4 e he
    refine lt_of_lt_of_le (exponents_lt r1 1024 2047 _ (fun x hx => (benchReps_bounds E n x hx).2) hr e he) ?_
    refine Nat.pow_le_pow_right (by decide) ?_
    rw [benchReps_length]
    omega
  obtain ⟨v', h, e⟩ := (C95_repaired_same_partial E fuel G N r1 n v).1 h
  obtain ⟨h4, e'⟩ := (preCompute_ok_iff E fuel G N r1 n v').1 h
  subst e'
  subst e
  exact key h4

/-- The size of `C95_violated` runs and is covered. -/
example : ∃ v, testRSAMembershipPreComputeWide sumEnv 1 16 29 (2 ^ 2046) 4 = Run.ok v ∧ TableCovers v := by
  have h := (C95_repaired_same_partial sumEnv 1 16 29 (2 ^ 2046) 4 _).2
    ⟨_, (preCompute_ok_iff sumEnv 1 16 29 (2 ^ 2046) 4 _).2 ⟨le_refl _, rfl⟩, rfl⟩
  exact ⟨_, h, C95_repaired_partial _ _ _ _ _ _ (Nat.pow_lt_pow_right (by decide) (by decide)) _ h⟩

end Verif.Props
