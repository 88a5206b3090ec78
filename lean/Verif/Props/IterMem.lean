import Verif.Spec.SharedMem
import Verif.Lemmas.IterMem
import Verif.Lemmas.SharedMemTotal
import Verif.Props.Accumulator

/-!
# C154: the iterative provers write no integer that they share
-/

namespace Verif.Props
open Verif.Go Verif.Go.Mem Verif.Model Verif.Spec Verif.Lemmas

private theorem isolated_of_ok' {M : Memory} (hM : Unbounded M) {p : MProg} {vals : List Nat}
    (h : Ok p M ∅ (fun m' W' out => Fresh M ∅ m' W' out vals)) : Isolated M p vals where
  raceFree _ _ hs := (ok_sound h hs).1
  noPanic _ _ hs := (ok_sound h hs).2.1
  keeps _ _ hs := (ok_sound h hs).2.2.1
  writesNew _ _ hs := (ok_sound h hs).2.2.2.1
  returns M' out hs := by
    obtain ⟨m, W, h1, h2⟩ := (ok_sound h hs).2.2.2.2 out rfl
    exact ⟨vals_mono h1 h2.vals, h2.nodup, h2.new⟩
  goesOn M' t hs := by
    rcases progress (unbounded_steps hs hM) t with h1 | h1 | h1
    · exact .inl h1
    · exact absurd h1 (ok_sound h hs).2.1
    · exact .inr h1
  ends := fun ⟨Ms, ts, _, _, h3⟩ => no_infinite Ms ts h3

private theorem workers_pow {cpus w d : Nat} (hc : 1 ≤ cpus) (hw : calNumWorkers (2 * cpus + 1) cpus = some (w, (d : Int))) :
    w = 2 ^ d := by
  obtain ⟨w', k', hw', hw2, -, -⟩ := C14_calNumWorkers cpus hc
  have e := (hw' _ (Nat.le_refl _)).symm.trans hw
  simp only [Option.some.injEq, Prod.mk.injEq] at e
  rw [← e.1, hw2, Int.ofNat_inj.1 e.2]

private theorem ne_nil_of_two {xs : List Nat} (h2 : 2 ≤ xs.length) : xs ≠ [] := by
  rintro rfl
  simp at h2

private theorem ok_accAndProveIterParallel {M : Memory} {W : Set Nat} {G N g n w d : Nat} {rep xs : List Nat} (hw : w = 2 ^ d)
    (hG : M G = some g) (hN : M N = some n) (hs : rep.map M = xs.map some) (h2 : 2 ≤ xs.length) :
    Ok (accAndProveIterParallelM w d G N rep) M W
      (fun m' W' out => Fresh M W m' W' out (accumulator g n xs :: witnesses g n xs)) := by
  refine ok_iterParallel hw hG hN hs h2 (fun out m' W' f => ?_)
  rw [← expected_of_two g n xs h2] at f ⊢
  exact ok_accFromProofs hN hs (ne_nil_of_two h2) f

/-- C154. `ProveMembershipIter`: the integers it overwrites are its own, the witnesses are new integers, and `base`, `N` and the set
keep their values. -/
theorem C154_proveMembershipIter (M : Memory) (hM : Unbounded M) (base N b n : Nat) (set xs : List Nat) (hb : M base = some b)
    (hN : M N = some n) (hs : set.map M = xs.map some) (h2 : 2 ≤ xs.length) :
    Isolated M (proveMembershipIterM base N set .ret) (witnesses b n xs) :=
  isolated_of_ok' hM (ok_iter hb hN hs h2 (fun _ _ _ f => f))

/-- C154. A worker and its helper goroutine on the part `set[left:right]`: both read the integer of the node at the same time, and
neither writes it. The node's integer is the caller's. -/
theorem C154_worker (M : Memory) (hM : Unbounded M) (base N b n left right : Nat) (set xs : List Nat) (hb : M base = some b)
    (hN : M N = some n) (hs : set.map M = xs.map some) (h2 : left + 2 ≤ right) (hr : right ≤ xs.length) :
    Isolated M (proveMembershipIterWorkerM base N set left right .ret) (witnesses b n (slice xs left right)) :=
  isolated_of_ok' hM (ok_worker hb hN hs h2 hr (fun _ _ _ f => f))

/-- C154. `ProveMembershipIterParallel`, for every number of CPUs and every interleaving of the goroutines that prepare the nodes,
the workers and their helpers. -/
theorem C154_proveMembershipIterParallel (M : Memory) (hM : Unbounded M) (cpus w d base N b n : Nat) (set xs : List Nat)
    (hc : 1 ≤ cpus) (hw : calNumWorkers (2 * cpus + 1) cpus = some (w, (d : Int))) (hb : M base = some b) (hN : M N = some n)
    (hs : set.map M = xs.map some) (h2 : 2 ≤ xs.length) :
    Isolated M (proveMembershipIterParallelM w d base N set .ret) (witnesses b n xs) :=
  isolated_of_ok' hM (ok_iterParallel (workers_pow hc hw) hb hN hs h2 (fun _ _ _ f => f))

/-- C154 for sets with at most one element: `ProveMembershipIter` and `ProveMembershipIterParallel` return no witness for the empty
set, and a new integer with the value of `base` for a set of one element. The integer is new as a variable; its words are still those
of `base`, which this model does not show and `C114_single` does. -/
theorem C154_small_sets (M : Memory) (hM : Unbounded M) (cpus w d base N b : Nat) (set : List Nat)
    (hc : 1 ≤ cpus) (hw : calNumWorkers (2 * cpus + 1) cpus = some (w, (d : Int))) (hb : M base = some b)
    (h1 : set.length ≤ 1) :
    Isolated M (proveMembershipIterM base N set .ret) (set.map fun _ => b) ∧
    Isolated M (proveMembershipIterParallelM w d base N set .ret) (set.map fun _ => b) := by
  have key : Isolated M (proveMembershipIterM base N set .ret) (set.map fun _ => b) := by
    refine isolated_of_ok' hM ?_
    match set, h1 with
    | [], _ => exact Fresh.nil M ∅
    | [x], _ => exact ok_copy hb (fun a m' W' f => f)
  refine ⟨key, ?_⟩
  have e : proveMembershipIterParallelM w d base N set .ret = proveMembershipIterM base N set .ret := by
    unfold proveMembershipIterParallelM
    have : 1 ≤ w := by rw [workers_pow hc hw]; exact Nat.one_le_two_pow
    rw [if_pos (by omega)]
  rw [e]
  exact key

/-- C154. `AccAndProveIter` after the representatives are made. -/
theorem C154_accAndProveIter (M : Memory) (hM : Unbounded M) (G N g n : Nat) (rep xs : List Nat) (hG : M G = some g)
    (hN : M N = some n) (hs : rep.map M = xs.map some) (h2 : 2 ≤ xs.length) :
    Isolated M (accAndProveIterM G N rep) (accumulator g n xs :: witnesses g n xs) := by
  refine isolated_of_ok' hM (ok_iter hG hN hs h2 (fun out m' W' f => ?_))
  rw [← expected_of_two g n xs h2] at f ⊢
  exact ok_accFromProofs hN hs (ne_nil_of_two h2) f

/-- C154. `AccAndProveIterParallel` after the representatives are made. -/
theorem C154_accAndProveIterParallel (M : Memory) (hM : Unbounded M) (cpus w d G N g n : Nat) (rep xs : List Nat)
    (hc : 1 ≤ cpus) (hw : calNumWorkers (2 * cpus + 1) cpus = some (w, (d : Int))) (hG : M G = some g) (hN : M N = some n)
    (hs : rep.map M = xs.map some) (h2 : 2 ≤ xs.length) :
    Isolated M (accAndProveIterParallelM w d G N rep) (accumulator g n xs :: witnesses g n xs) :=
  isolated_of_ok' hM (ok_accAndProveIterParallel (workers_pow hc hw) hG hN hs h2)

/-- C154. Any number of calls of `AccAndProveIterParallel` at the same time, on the same `G` and `N` and on any sets (which may share
elements): still no race, and every call returns its own integers. -/
theorem C154_concurrent_calls (M : Memory) (hM : Unbounded M) (cpus w d G N g n c : Nat) (rep xs : Fin c → List Nat)
    (hc : 1 ≤ cpus) (hw : calNumWorkers (2 * cpus + 1) cpus = some (w, (d : Int))) (hG : M G = some g) (hN : M N = some n)
    (hs : ∀ i, (rep i).map M = (xs i).map some) (h2 : ∀ i, 2 ≤ (xs i).length) :
    Isolated M (.fork c (fun i => accAndProveIterParallelM w d G N (rep i)) (fun outs => .ret ((List.finRange c).flatMap outs)))
      ((List.finRange c).flatMap fun i => accumulator g n (xs i) :: witnesses g n (xs i)) :=
  isolated_of_ok' hM (ok_calls fun i => ok_accAndProveIterParallel (workers_pow hc hw) hG hN (hs i) (h2 i))

/-- C154, why the worker has a cut of its own: if its helper read the integer while the worker overwrote it, as
`insertNewProofNode` does, they would race, for all non-empty halves and any way to go on. -/
theorem C154_cut_in_place_races (M : Memory) (base N x y : Nat) (s0 s1 : List Nat) (k : (Fin 2 → List Nat) → MProg) :
    ∃ M' t, MSteps M (.run (.fork 2 (fun i => if i = 0 then accumulateNewM base N (x :: s0) (fun p => .ret [p])
      else accumulateM base N (y :: s1) (.ret [base])) k)) M' t ∧ Race t := by
  refine ⟨M, _, .tail (.refl _ _) (.fork M 2 _ k), .here 2 _ k 1 0 base false (by decide) ?_ ?_⟩
  · exact .write base _ _ _
  · exact .allocRead _ _ _ base (by simp)

/-! ## A concrete case -/

/-- The base 3 at address 0, the modulus 1000 at 1, seven elements from address 2 on. -/
private def memI : Memory := fun a => [3, 1000, 2, 3, 5, 7, 11, 13, 17][a]?

private theorem memI_unbounded : Unbounded memI := by
  intro n
  refine ⟨n + 9, by omega, ?_⟩
  unfold memI
  rw [List.getElem?_eq_none_iff]
  simp

/-- Seven elements on two CPUs: two workers with their helpers. -/
example : Isolated memI (proveMembershipIterParallelM 2 1 0 1 [2, 3, 4, 5, 6, 7, 8] .ret)
    (witnesses 3 1000 [2, 3, 5, 7, 11, 13, 17]) :=
  C154_proveMembershipIterParallel memI memI_unbounded 2 2 1 0 1 3 1000 _ _ (by omega) (by decide) rfl rfl rfl (by simp)

/-- The call does return, so the claims are about something. -/
example : ∃ M' out, MSteps memI (.run (accAndProveIterParallelM 2 1 0 1 [2, 3, 4, 5, 6, 7, 8])) M' (.run (.ret out)) := by
  have hi := C154_accAndProveIterParallel memI memI_unbounded 2 2 1 0 1 3 1000 [2, 3, 4, 5, 6, 7, 8] [2, 3, 5, 7, 11, 13, 17]
    (by omega) (by decide) rfl rfl rfl (by simp)
  obtain ⟨M', t, h, ⟨out, rfl⟩ | hc⟩ := completes (t := .run (accAndProveIterParallelM 2 1 0 1 [2, 3, 4, 5, 6, 7, 8])) memI_unbounded
  · exact ⟨M', out, h⟩
  · exact absurd hc (hi.noPanic _ _ h)

example : Isolated memI (proveMembershipIterM 0 1 [2, 3, 4, 5, 6] .ret) (witnesses 3 1000 [2, 3, 5, 7, 11]) :=
  C154_proveMembershipIter memI memI_unbounded 0 1 3 1000 _ _ rfl rfl rfl (by simp)

example : Isolated memI (proveMembershipIterWorkerM 0 1 [2, 3, 4, 5, 6] 1 4 .ret) (witnesses 3 1000 [3, 5, 7]) :=
  C154_worker memI memI_unbounded 0 1 3 1000 1 4 [2, 3, 4, 5, 6] [2, 3, 5, 7, 11] rfl rfl rfl (by omega) (by simp)

example : Isolated memI (accAndProveIterM 0 1 [2, 3]) (accumulator 3 1000 [2, 3] :: witnesses 3 1000 [2, 3]) :=
  C154_accAndProveIter memI memI_unbounded 0 1 3 1000 _ _ rfl rfl rfl (by simp)

example : Isolated memI (proveMembershipIterM 0 1 [5] .ret) [3] ∧ Isolated memI (proveMembershipIterM 0 1 [] .ret) [] :=
  ⟨(C154_small_sets memI memI_unbounded 2 2 1 0 1 3 [5] (by omega) (by decide) rfl (by simp)).1,
    (C154_small_sets memI memI_unbounded 2 2 1 0 1 3 [] (by omega) (by decide) rfl (by simp)).1⟩

/-- Two calls at the same time, on sets with a common element. -/
example := C154_concurrent_calls memI memI_unbounded 1 1 0 0 1 3 1000 2 (fun i => if i = 0 then [2, 3, 4] else [3, 4, 5])
  (fun i => if i = 0 then [2, 3, 5] else [3, 5, 7]) (by omega) (by decide) rfl rfl (fun i => by split <;> rfl)
  (fun i => by split <;> simp)

end Verif.Props
