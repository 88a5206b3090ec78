import Verif.Lemmas.IterWorker

/-! # C82: the iterative worker and its helper goroutine -/

namespace Verif.Props
open Verif.Go Verif.Model Verif.Spec Verif.Lemmas

/-- C82: `proveMembershipIter` with its helper goroutine, on a non-empty segment of the set; a segment of one element
needs a reduced base. In every reachable state nothing has crashed (no slice out of range, no nil `iter` in the helper);
the call has returned and the helper has ended, or one of them can move, so there is no deadlock and the helper does not
leak; a returned slice has one entry per element of the segment, and entry `i` is the base to the product of the other
elements. There is no infinite run. -/
theorem C82_worker_all_schedules (base N : Nat) (set : List Nat) (left right : Nat) (hlr : left < right)
    (hr : right ≤ set.length) (hb : base < N ∨ 2 ≤ right - left) :
    let c : IterWorker.Call := ⟨N, set, base, left, right⟩
    (∀ s, IterWorker.Reach c s →
      s.crashed = false ∧
      (((∃ ps, s.main = .returned ps) ∧ s.helper = .stopped) ∨ ∃ s', IterWorker.Step c s s') ∧
      ∀ ps, s.main = .returned ps → ps.length = right - left ∧
        ∀ i, i < right - left → ps[i]? = some (base ^ (((set.take right).drop left).eraseIdx i).prod % N)) ∧
    AlwaysStops (IterWorker.Step c) (IterWorker.init c) := by
  intro c
  have hc : NodeOk c.N c.set ⟨c.left, c.right, c.base⟩ := ⟨hlr, hr, hb.imp (fun h => Nat.mod_eq_of_lt h) id⟩
  refine ⟨?_, IterWorker.stops c hc⟩
  intro s hs
  obtain ⟨b, hi⟩ := IterWorker.inv_reach c hc s hs
  refine ⟨hi.running, IterWorker.progress c s b hi, ?_⟩
  intro ps hps
  have := IterWorker.returned_eq c s b hi ps hps
  subst this
  have hlen : (slice set left right).length = right - left := slice_length _ _ _ hr
  refine ⟨by rw [witnesses_length]; exact hlen, ?_⟩
  intro i h
  rw [List.getElem?_eq_getElem (by rw [witnesses_length]; show i < (slice set left right).length; omega), witnesses_getElem, List.drop_take]
  rfl

/-- C82: some run returns. -/
theorem C82_some_run_returns (base N : Nat) (set : List Nat) (left right : Nat) (hlr : left < right)
    (hr : right ≤ set.length) (hb : base < N ∨ 2 ≤ right - left) :
    ∃ ps, IterWorker.Returns ⟨N, set, base, left, right⟩ ps :=
  ⟨_, (IterWorker.returns_iff ⟨N, set, base, left, right⟩ ⟨hlr, hr, hb.imp (fun h => Nat.mod_eq_of_lt h) id⟩ _).2 rfl⟩

/-- C82: no data race on what the helper reads. From the moment it has received a range until it has computed its result,
the shared variable `iter` is not nil and no step of anyone changes `iter` or the proof of the node it points to. -/
theorem C82_no_race (base N : Nat) (set : List Nat) (left right : Nat) (hlr : left < right)
    (hr : right ≤ set.length) (hb : base < N ∨ 2 ≤ right - left) (s s' : IterWorker.State)
    (hs : IterWorker.Reach ⟨N, set, base, left, right⟩ s) (l r : Nat) (hh : s.helper = .got l r)
    (hstep : IterWorker.Step ⟨N, set, base, left, right⟩ s s') :
    s'.iter = s.iter ∧ ∃ p, s.iter = some p ∧ (s'.heap p).proof = (s.heap p).proof := by
  obtain ⟨b, hi⟩ := IterWorker.inv_reach _ ⟨hlr, hr, hb.imp (fun h => Nat.mod_eq_of_lt h) id⟩ s hs
  exact IterWorker.no_race _ s s' b hi l r hh hstep

/-- A segment with three elements of a set with five. -/
example (ps : List Nat) (h : IterWorker.Returns ⟨35, [3, 5, 7, 11, 13], 2, 1, 4⟩ ps) :
    ps = [2 ^ (7 * 11) % 35, 2 ^ (5 * 11) % 35, 2 ^ (5 * 7) % 35] := by
  obtain ⟨s, hs, hm⟩ := h
  obtain ⟨h1, h2⟩ := ((C82_worker_all_schedules 2 35 [3, 5, 7, 11, 13] 1 4 (by decide) (by decide) (by decide)).1 s hs).2.2 ps hm
  match ps, h1 with
  | [x, y, z], _ =>
    have e0 := h2 0 (by decide)
    have e1 := h2 1 (by decide)
    have e2 := h2 2 (by decide)
    simp at e0 e1 e2
    simp [e0, e1, e2]

/-- The helper can be in the state the race theorem speaks about. -/
example : ∃ s, IterWorker.Reach ⟨35, [3, 5, 7, 11, 13], 2, 1, 4⟩ s ∧ s.helper = .got 2 4 :=
  ⟨_, .tail (.tail (.tail (.refl _) (.outerGo _ rfl rfl rfl)) (.innerCall _ 0 rfl rfl rfl (by decide)))
    (.sendRange _ 0 1 4 rfl rfl rfl), rfl⟩

end Verif.Props
