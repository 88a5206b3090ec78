import Mathlib.Data.Fintype.Basic
import Mathlib.Data.Multiset.MapFold
import Mathlib.Data.Fin.Basic
import Mathlib.Data.Fintype.EquivFin
import Mathlib.Logic.Hydra
import Verif.Lemmas.SharedMem

/-!
# Goroutines that share integers: executions end

There are no infinite executions, and a state in which nothing can happen has returned or is about to panic.
-/

namespace Verif.Lemmas
open Verif.Go.Mem

/-- Some operation leads from `t` to `t'`. -/
def MNext (t' t : Threads) : Prop := ∃ M M', MStep M t M' t'

private def NextAcc (t' t : Threads) : Prop := MNext t' t ∧ Acc MNext t

private theorem nextAcc_wf : WellFounded NextAcc := by
  refine ⟨fun t => ⟨t, fun t' h => ?_⟩⟩
  exact Subrelation.accessible (fun h => h.1) (h.2.inv h.1)

private theorem map_update {n : Nat} (ts : Fin n → Threads) (i : Fin n) (t : Threads) :
    (Finset.univ.val.map (Function.update ts i t)) + {ts i} = Finset.univ.val.map ts + {t} := by
  have h : (Finset.univ : Finset (Fin n)).val = i ::ₘ (Finset.univ.erase i).val := by
    rw [Finset.erase_val, Multiset.cons_erase (Finset.mem_univ i)]
  rw [h, Multiset.map_cons, Multiset.map_cons, Function.update_self]
  have e : (Finset.univ.erase i).val.map (Function.update ts i t) = (Finset.univ.erase i).val.map ts := by
    refine Multiset.map_congr rfl (fun j hj => ?_)
    exact Function.update_of_ne (Finset.ne_of_mem_erase (cast Finset.mem_val hj)) _ _
  rw [e, ← Multiset.singleton_add, ← Multiset.singleton_add, add_assoc, add_comm, add_assoc, ← add_assoc, add_comm _ {ts i}]

private theorem acc_wait {n : Nat} (k : (Fin n → List Nat) → MProg) (hk : ∀ outs, Acc MNext (.run (k outs))) :
    ∀ ts : Fin n → Threads, (∀ i, Acc MNext (ts i)) → Acc MNext (.wait n ts k) := by
  have := nextAcc_wf.irrefl
  suffices H : ∀ (S : Multiset Threads) (ts : Fin n → Threads), S = Finset.univ.val.map ts → (∀ i, Acc MNext (ts i)) →
      Acc MNext (.wait n ts k) from fun ts h => H _ ts rfl h
  intro S
  induction S using nextAcc_wf.cutExpand.induction with
  | _ S ih =>
    intro ts hS hts
    refine ⟨_, fun t' ht => ?_⟩
    obtain ⟨M, M', hs⟩ := ht
    cases hs with
    | child _ _ _ _ i t h =>
      have hn : MNext t (ts i) := ⟨M, M', h⟩
      refine ih _ ⟨{t}, ts i, ?_, ?_⟩ _ rfl (fun j => ?_)
      · intro a ha
        rw [Multiset.mem_singleton.1 ha]
        exact ⟨hn, hts i⟩
      · rw [hS]
        exact map_update ts i t
      · by_cases e : j = i
        · subst e
          rw [Function.update_self]
          exact (hts _).inv hn
        · rw [Function.update_of_ne e]
          exact hts j
    | join _ _ _ outs _ => exact hk outs

/-- No infinite executions. -/
theorem acc_run (p : MProg) : Acc MNext (.run p) := by
  induction p with
  | ret out => exact ⟨_, fun t' ⟨M, M', h⟩ => by cases h⟩
  | panic => exact ⟨_, fun t' ⟨M, M', h⟩ => by cases h⟩
  | alloc rs f k ih => exact ⟨_, fun t' ⟨M, M', h⟩ => by cases h; exact ih _⟩
  | store a rs f k ih => exact ⟨_, fun t' ⟨M, M', h⟩ => by cases h; exact ih⟩
  | fork n ps k ihs ihk =>
    refine ⟨_, fun t' ⟨M, M', h⟩ => ?_⟩
    cases h
    exact acc_wait k ihk _ ihs

/-- No infinite executions. -/
theorem acc_threads (t : Threads) : Acc MNext t := by
  induction t with
  | run p => exact acc_run p
  | wait n ts k ih => exact acc_wait k (fun _ => acc_run _) ts ih

/-- An infinite sequence of operations does not exist. -/
theorem no_infinite (M : Nat → Memory) (t : Nat → Threads) : ¬ ∀ n, MStep (M n) (t n) (M (n + 1)) (t (n + 1)) := by
  intro h
  have key : ∀ s, Acc MNext s → ∀ n, t n ≠ s := by
    intro s hs
    induction hs with
    | intro s _ ih =>
      intro n e
      exact ih (t (n + 1)) (by rw [← e]; exact ⟨_, _, h n⟩) (n + 1) rfl
  exact key (t 0) (acc_threads _) 0 rfl

/-- One operation takes at most one address. -/
theorem unbounded_step {M M' : Memory} {t t' : Threads} (h : MStep M t M' t') : Unbounded M → Unbounded M' := by
  have hset : ∀ (M : Memory) (a v : Nat), Unbounded M → Unbounded (M.set a v) := by
    intro M a v hM n
    obtain ⟨b, h1, h2⟩ := hM (max n (a + 1))
    refine ⟨b, le_trans (le_max_left _ _) h1, ?_⟩
    unfold Memory.set
    rw [if_neg (fun e => by have := le_trans (le_max_right n (a + 1)) h1; omega)]
    exact h2
  induction h with
  | alloc rs f k a ha => exact hset _ _ _
  | store a rs f k => exact hset _ _ _
  | fork n ps k => exact id
  | child M' n ts k i t hs ih => exact ih
  | join n ts k outs hr => exact id

theorem unbounded_steps {M M' : Memory} {t t' : Threads} (h : MSteps M t M' t') (hM : Unbounded M) : Unbounded M' := by
  induction h with
  | refl => exact hM
  | tail _ hs ih => exact unbounded_step hs ih

/-- Progress: a state has returned, is about to panic, or something can happen. -/
theorem progress {M : Memory} (hM : Unbounded M) (t : Threads) :
    (∃ out, t = .run (.ret out)) ∨ Crashes t ∨ ∃ M' t', MStep M t M' t' := by
  induction t with
  | run p =>
    cases p with
    | ret out => exact .inl ⟨out, rfl⟩
    | panic => exact .inr (.inl .run)
    | alloc rs f k =>
      obtain ⟨a, -, ha⟩ := hM 0
      exact .inr (.inr ⟨_, _, .alloc M rs f k a ha⟩)
    | store a rs f k => exact .inr (.inr ⟨_, _, .store M a rs f k⟩)
    | fork n ps k => exact .inr (.inr ⟨_, _, .fork M n ps k⟩)
  | wait n ts k ih =>
    refine .inr ?_
    by_cases h : ∀ i, ∃ out, ts i = .run (.ret out)
    · choose outs ho using h
      exact .inr ⟨_, _, .join M n ts k outs ho⟩
    · push Not at h
      obtain ⟨i, hi⟩ := h
      rcases ih i with ⟨out, ho⟩ | hc | ⟨M', t', hs⟩
      · exact absurd ho (hi out)
      · exact .inl (.child n ts k i hc)
      · exact .inr ⟨_, _, .child M M' n ts k i t' hs⟩

/-- Every execution can be completed. -/
theorem completes {M : Memory} {t : Threads} (hM : Unbounded M) :
    ∃ M' t', MSteps M t M' t' ∧ ((∃ out, t' = .run (.ret out)) ∨ Crashes t') := by
  have happ : ∀ {M1 M2 M3 : Memory} {t1 t2 t3 : Threads}, MStep M1 t1 M2 t2 → MSteps M2 t2 M3 t3 → MSteps M1 t1 M3 t3 := by
    intro M1 M2 M3 t1 t2 t3 h1 h2
    induction h2 with
    | refl => exact .tail (.refl _ _) h1
    | tail _ hs ih => exact .tail (ih h1) hs
  have ht := acc_threads t
  induction ht generalizing M with
  | intro t _ ih =>
    rcases progress hM t with h | h | ⟨M', t', hs⟩
    · exact ⟨M, t, .refl _ _, .inl h⟩
    · exact ⟨M, t, .refl _ _, .inr h⟩
    · obtain ⟨M2, t2, h1, h2⟩ := ih t' ⟨M, M', hs⟩ (unbounded_step hs hM)
      exact ⟨M2, t2, happ hs h1, h2⟩

end Verif.Lemmas
