import Verif.Props.Benchmarks
import Verif.Props.RepairedSwap

/-!
# The swap experiments with their proofs, repaired (C97)

The repaired flows of RepairedSwap are followed by the unchanged end of the experiments: a set is made anew, proved and verified.
With the second product made from the inserted set this is the set that was computed before.
-/

namespace Verif.Props
open Verif.Go Verif.Model Verif.Lemmas Verif.Spec Verif.Model.SnarkFlow Verif.Lemmas.SnarkFlow

variable {S : Snark}

/-- experiments/finaltests.go:472-614 `TestNotusMultiSwap` with the flow of `notusMultiSwapRepaired`. -/
def testNotusMultiSwapRepaired (E : Env) (fuel : Nat) (G N : Nat) (accMid : Int) (coin coin' : S.Coin)
    (setsize updatedSetSize : UInt32) (d : Disk S) : Run (Disk S × SwapRun × UpdateSet32 × Bool) := do
  let d ← liftRes (ensureKeys E updatedSetSize coin d)
  let v ← notusMultiSwapRepaired E fuel G N setsize updatedSetSize
  let (testSet, flag) ← swapFinish E fuel G N accMid coin' updatedSetSize d
  Run.ok (d, v, testSet, flag)

/-- experiments/finaltests.go:617-761 `TestNotusParallel` with the flow of `notusParallelRepaired`. -/
def testNotusParallelRepaired (E : Env) (fuel : Nat) (G N : Nat) (accMid : Int) (coin coin' : S.Coin)
    (setsize updatedSetSize : UInt32) (d : Disk S) : Run (Disk S × SwapRun × UpdateSet32 × Bool) := do
  let d ← liftRes (ensureKeys E updatedSetSize coin d)
  let v ← notusParallelRepaired E fuel G N setsize updatedSetSize
  let (testSet, flag) ← swapFinish E fuel G N accMid coin' updatedSetSize d
  Run.ok (d, v, testSet, flag)

theorem notusTestRepaired_ok_iff (E : Env) (fuel G N : Nat) (accMid : Int) (coin coin' : S.Coin) (s n : UInt32) (d d' : Disk S)
    (v : SwapRun) (u : UpdateSet32) (b : Bool) :
    (testNotusMultiSwapRepaired E fuel G N accMid coin coin' s n d = Run.ok (d', v, u, b) ↔
      ensureKeys E n coin d = .ok d' ∧ notusMultiSwapRepaired E fuel G N s n = Run.ok v ∧
        swapFinish E fuel G N accMid coin' n d' = Run.ok (u, b)) ∧
    (testNotusParallelRepaired E fuel G N accMid coin coin' s n d = Run.ok (d', v, u, b) ↔
      ensureKeys E n coin d = .ok d' ∧ notusParallelRepaired E fuel G N s n = Run.ok v ∧
        swapFinish E fuel G N accMid coin' n d' = Run.ok (u, b)) := by
  unfold testNotusMultiSwapRepaired testNotusParallelRepaired
  simp only [run_bind_ok_iff, liftRes_ok_iff]
  constructor
  all_goals
    constructor
    · rintro ⟨d1, h1, v', h2, ⟨u', b'⟩, h3, h4⟩
      have h4 := run_ok_inj h4
      simp only [Prod.mk.injEq] at h4
      obtain ⟨rfl, rfl, rfl, rfl⟩ := h4
      exact ⟨h1, h2, h3⟩
    · rintro ⟨h1, h2, h3⟩
      exact ⟨d', h1, v, h2, (u, b), h3, rfl⟩

/-- C97 for the repaired experiments: the set that is proved and verified at the end is the one that was computed, and its
products are those of the removed and of the inserted elements, with the randomizers. -/
theorem C97_repaired_partial (E : Env) (fuel G N : Nat) (accMid : Int) (coin coin' : S.Coin) (s n : UInt32) (d d' : Disk S)
    (v : SwapRun) (u : UpdateSet32) (b : Bool)
    (h : testNotusMultiSwapRepaired E fuel G N accMid coin coin' s n d = Run.ok (d', v, u, b) ∨
      testNotusParallelRepaired E fuel G N accMid coin coin' s n d = Run.ok (d', v, u, b)) :
    u = v.ret ∧
      u.remainderR1 = (((Experiments.removed E n.toNat).prod * Experiments.factor E 200 : Nat) : Int) % u.challengeL1 ∧
      u.remainderR2 = (((Experiments.inserted E n.toNat).prod * Experiments.factor E 300 : Nat) : Int) % u.challengeL2 ∧
      ∃ p, prove v.ret coin' d' = .ok (some p) ∧ verify p n v.ret.publicPart d' = .ok b := by
  obtain ⟨h3, h2⟩ : swapFinish E fuel G N accMid coin' n d' = Run.ok (u, b) ∧
      (notusMultiSwapRepaired E fuel G N s n = Run.ok v ∨ notusParallelRepaired E fuel G N s n = Run.ok v) := by
    rcases h with h | h
    · exact ⟨((notusTestRepaired_ok_iff ..).1.1 h).2.2, .inl ((notusTestRepaired_ok_iff ..).1.1 h).2.1⟩
    · exact ⟨((notusTestRepaired_ok_iff ..).2.1 h).2.2, .inr ((notusTestRepaired_ok_iff ..).2.1 h).2.1⟩
  obtain ⟨p, h4, h6, h7⟩ := (swapFinish_ok_iff ..).1 h3
  have h5 := (C79_repaired_partial E fuel G N s n v accMid h2).1
  rw [h4] at h5
  obtain rfl := run_ok_inj h5
  obtain ⟨m, hm, he⟩ : ∃ m, (m = notusMultiSwapRepaired E fuel G N s n ∨ m = notusParallelRepaired E fuel G N s n) ∧
      m = Run.ok v := by
    rcases h2 with h | h
    · exact ⟨_, .inl rfl, h⟩
    · exact ⟨_, .inr rfl, h⟩
  obtain ⟨l, L1, L2, -, rfl⟩ := (notusRepaired_ok_iff E fuel G N s n v m hm).1 he
  exact ⟨rfl, rfl, rfl, p, h6, h7⟩

/-- The computed set is accepted by the circuit whenever no record hash overflows the field, in contrast to `C97_ret_rejected`. -/
theorem C97_repaired_accepted_partial (E : Env) (fuel G N : Nat) (accMid : Int) (coin coin' : S.Coin) (s n : UInt32) (d d' : Disk S)
    (v : SwapRun) (u : UpdateSet32) (b : Bool) (hn : n.toNat ≤ 2 ^ 31)
    (h : testNotusMultiSwapRepaired E fuel G N accMid coin coin' s n d = Run.ok (d', v, u, b) ∨
      testNotusParallelRepaired E fuel G N accMid coin coin' s n d = Run.ok (d', v, u, b)) (ho : NoOverflow E v.ret) :
    ∃ c, assignCircuit v.ret = .ok c ∧ define E c = .ok true := by
  have h2 : notusMultiSwapRepaired E fuel G N s n = Run.ok v ∨ notusParallelRepaired E fuel G N s n = Run.ok v := by
    rcases h with h | h
    · exact .inl ((notusTestRepaired_ok_iff ..).1.1 h).2.1
    · exact .inr ((notusTestRepaired_ok_iff ..).2.1 h).2.1
  have h5 := (C79_repaired_partial E fuel G N s n v accMid h2).1
  exact (C64_genTestSet_partial E fuel n G N accMid _ hn h5).2.2.2.2 ho

/-- The repaired experiment returns on the inputs of `C97_run`, and prints that the proof was verified. -/
theorem C97_repaired_run : ∃ (d' : Disk (idealSnark sumEnv)) (v : SwapRun) (u : UpdateSet32),
    testNotusParallelRepaired sumEnv 1 16 29 4 (0 : Nat) (1 : Nat) 4 4 (fun _ => none : Disk (idealSnark sumEnv)) =
      Run.ok (d', v, u, true) := by
  have hw := (notusRepaired_ok_iff sumEnv 1 16 29 4 4 _ _ (.inr rfl)).2 ⟨13, 13, 13,
    ⟨by decide, by decide, by decide, by decide, by decide, sum_hash _, sum_prime _, sum_prime _⟩, rfl⟩
  obtain ⟨d', h5, h6, cc, h7⟩ := ensureKeys_runs (S := idealSnark sumEnv) (E := sumEnv) .empty 4 (by decide) (0 : Nat)
  have hP : PrimesFound sumEnv 1 := ⟨fun b => ⟨13, by decide, sum_hash b⟩, fun i => ⟨13, by decide, sum_prime i⟩⟩
  obtain ⟨u, b, h8, hu, h9⟩ := swapFinish_runs (idealSnark_complete sumEnv) (idealSnark_ignores sumEnv) hP h7 16 29 4
    (1 : Nat) (by decide) (by decide)
  have hg := sumEnv_testSet 4 (by decide) 16 29 4
  have e : testSet sumEnv (4 : UInt32).toNat 13 13 = u := run_ok_inj (hg.symm.trans hu)
  subst e
  have hb : b = true := h9 (by unfold NoOverflow; decide +kernel)
  subst hb
  exact ⟨d', _, _, (notusTestRepaired_ok_iff ..).2.2 ⟨h5, hw, h8⟩⟩

example : ∃ (d' : Disk (idealSnark sumEnv)) (v : SwapRun) (u : UpdateSet32),
    testNotusParallelRepaired sumEnv 1 16 29 4 (0 : Nat) (1 : Nat) 4 4 (fun _ => none : Disk (idealSnark sumEnv)) =
      Run.ok (d', v, u, true) ∧ u = v.ret := by
  obtain ⟨d', v, u, h⟩ := C97_repaired_run
  exact ⟨d', v, u, h, (C97_repaired_partial sumEnv 1 16 29 4 _ _ 4 4 _ d' v u true (.inr h)).1⟩

end Verif.Props
