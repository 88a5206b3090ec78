import Verif.Spec.SharedMem
import Verif.Lemmas.ProveMem
import Verif.Lemmas.SharedMemTotal

/-!
# C152: the recursive and fork-join provers write no integer that they share
-/

namespace Verif.Props
open Verif.Go Verif.Go.Mem Verif.Model Verif.Spec Verif.Lemmas

private theorem isolated_of_ok {M : Memory} (hM : Unbounded M) {p : MProg} {vals : List Nat}
    (h : Ok p M ∅ (fun m' W' out => Fresh M ∅ m' W' out vals)) : Isolated M p vals where
  raceFree _ _ hs := (ok_sound h hs).1
  noPanic _ _ hs := (ok_sound h hs).2.1
  keeps _ _ hs := (ok_sound h hs).2.2.1
  writesNew _ _ hs := (ok_sound h hs).2.2.2.1
  returns M' out hs := by
    obtain ⟨m, W, h1, h2⟩ := (ok_sound h hs).2.2.2.2 out rfl
    exact ⟨vals_mono h1 h2.vals, h2.nodup, h2.new⟩
  goesOn M' t hs := by
    rcases progress (unbounded_steps hs hM) t with h1 | h1 | h1
    · exact .inl h1
    · exact absurd h1 (ok_sound h hs).2.1
    · exact .inr h1
  ends := fun ⟨Ms, ts, _, _, h3⟩ => no_infinite Ms ts h3

/-- C152. `ProveMembership`: only new integers are written, the witnesses are new integers, and `base`, `N` and the set keep their
values. -/
theorem C152_proveMembership (M : Memory) (hM : Unbounded M) (base N b n : Nat) (set xs : List Nat) (hb : M base = some b)
    (hN : M N = some n) (hs : set.map M = xs.map some) (h0 : xs ≠ []) :
    Isolated M (proveMembershipM base N set .ret) (if xs.length = 1 then [b] else witnesses b n xs) :=
  isolated_of_ok hM (ok_proveMembership hb hN hs h0 (fun _ _ _ f => f))

/-- C152. `ProveMembershipParallel` and `ProveMembershipParallelWithTable`, for every limit and every interleaving: the goroutines
read the same set and the same `N`, and nothing that one of them writes is touched by another. -/
theorem C152_proveMembershipParallel (M : Memory) (hM : Unbounded M) (base N b n : Nat) (set xs : List Nat) (limit : Int)
    (hb : M base = some b) (hN : M N = some n) (hs : set.map M = xs.map some) (h0 : xs ≠ []) :
    Isolated M (proveMembershipParallelM base N set limit .ret) (if xs.length = 1 then [b] else witnesses b n xs) :=
  isolated_of_ok hM (ok_parallel hb hN hs h0 (fun _ _ _ f => f))

/-- C152. The two functions with a randomizer, for at least four elements. (With a positive limit the randomizer is not used.) -/
theorem C152_withRandomizer (M : Memory) (hM : Unbounded M) (base r N b rv n : Nat) (set xs : List Nat) (limit : Int)
    (hb : M base = some b) (hN : M N = some n) (hr : M r = some rv) (hs : set.map M = xs.map some) (h4 : 4 ≤ xs.length) :
    Isolated M (proveMembershipParallelWithTableWithRandomizerM base r N set limit .ret)
      (if limit ≤ 0 then witnesses (b ^ rv) n xs else witnesses b n xs) := by
  refine isolated_of_ok hM ?_
  unfold proveMembershipParallelWithTableWithRandomizerM
  split
  · exact ok_randomized hb hN hr hs h4 (fun _ _ _ f => f)
  · exact ok_fourWorkers hb hN hs h4 (fun _ _ _ f => f)

/-- C152. `SetProductParallel`, for every limit (also a negative one). -/
theorem C152_setProductParallel (M : Memory) (hM : Unbounded M) (set xs : List Nat) (limit : Int) (hs : set.map M = xs.map some) :
    Isolated M (setProductParallelM set limit) [xs.prod] :=
  isolated_of_ok hM (ok_setProductParallel hs)

/-- C152. `AccAndProve` and `AccAndProveParallel` after the representatives are made: also the accumulator is a new integer. -/
theorem C152_accAndProve (M : Memory) (hM : Unbounded M) (G N g n : Nat) (rep xs : List Nat) (limit : Int) (hG : M G = some g)
    (hN : M N = some n) (hs : rep.map M = xs.map some) (h0 : xs ≠ []) :
    Isolated M (accAndProveM G N rep limit) (accumulator g n xs :: if xs.length = 1 then [g] else witnesses g n xs) :=
  isolated_of_ok hM (ok_parallel hG hN hs h0 (fun _ _ _ f => ok_accFromProofs hN hs h0 f))

/-- C152. `ZKAccumulate` after the representatives and the randomizer are made. -/
theorem C152_zkAccumulate (M : Memory) (hM : Unbounded M) (G N r g n rv : Nat) (rep xs : List Nat) (hG : M G = some g)
    (hN : M N = some n) (hr : M r = some rv) (hs : rep.map M = xs.map some) (h0 : xs ≠ []) :
    Isolated M (zkAccumulateM G N r rep) (accumulator (g ^ rv) n xs :: witnesses (g ^ rv) n xs) := by
  refine isolated_of_ok hM ?_
  refine ok_accumulateNewPow hG hr hN (fun base m1 W1 f1 => ?_)
  refine ok_proveMembership f1.one (f1.ext _ _ hN) (vals_mono f1.ext hs) h0 (fun proofs m2 W2 f2 => ?_)
  have g2 : Fresh M ∅ m2 W2 proofs (expected (expMod g rv n) n xs) :=
    (f1.append f2).right (o1 := [base]) (v1 := [_]) rfl
  have h := ok_accFromProofs hN hs h0 g2
  have e1 : expected (expMod g rv n) n xs = witnesses (g ^ rv) n xs := by
    have hm : expMod g rv n % n = expMod g rv n := Nat.mod_mod _ _
    rw [expected_of_reduced _ _ _ hm]
    unfold witnesses witness expMod
    simp only [← Nat.pow_mod]
  have e2 : accumulator (expMod g rv n) n xs = accumulator (g ^ rv) n xs := by
    unfold accumulator expMod
    rw [← Nat.pow_mod]
  rw [e1, e2] at h
  exact h

/-- C152. Any number of calls at the same time, on the same `G` and `N` and on any sets (which may share elements): still no
race, and every call returns its own integers. -/
theorem C152_concurrent_calls (M : Memory) (hM : Unbounded M) (G N g n c : Nat) (rep xs : Fin c → List Nat) (limit : Fin c → Int)
    (hG : M G = some g) (hN : M N = some n) (hs : ∀ i, (rep i).map M = (xs i).map some) (h0 : ∀ i, xs i ≠ []) :
    Isolated M (.fork c (fun i => accAndProveM G N (rep i) (limit i)) (fun outs => .ret ((List.finRange c).flatMap outs)))
      ((List.finRange c).flatMap fun i => accumulator g n (xs i) :: if (xs i).length = 1 then [g] else witnesses g n (xs i)) := by
  refine isolated_of_ok hM ?_
  refine ⟨fun i m' W' out => Fresh M ∅ m' W' out (accumulator g n (xs i) :: expected g n (xs i)), fun i => fresh_mono M _,
    fun i => ok_parallel hG hN (hs i) (h0 i) (fun _ _ _ f => ok_accFromProofs hN (hs i) (h0 i) f), fun m' Ws outs he hnew hd hq => ?_⟩
  have key : ∀ l : List (Fin c), l.Nodup → Fresh M ∅ m' {a | ∃ i ∈ l, a ∈ Ws i} (l.flatMap outs)
      (l.flatMap fun i => accumulator g n (xs i) :: expected g n (xs i)) := by
    intro l
    induction l with
    | nil => exact fun _ => ⟨he, Set.empty_subset _, by simp, by simp, List.nodup_nil, rfl⟩
    | cons i l ih =>
      intro hl
      obtain ⟨h1, h2⟩ := List.nodup_cons.1 hl
      have f := ih h2
      rw [List.flatMap_cons, List.flatMap_cons]
      refine ⟨he, Set.empty_subset _, fun a ha => ?_, fun a ha => ?_, ?_, ?_⟩
      · rcases List.mem_append.1 ha with h | h
        · exact ⟨i, List.mem_cons_self, (hq i).mem a h⟩
        · obtain ⟨j, hj, hw⟩ := f.mem a h
          exact ⟨j, List.mem_cons_of_mem _ hj, hw⟩
      · rcases List.mem_append.1 ha with h | h
        · exact (hq i).new a h
        · exact f.new a h
      · refine List.Nodup.append (hq i).nodup f.nodup (fun a ha hb => ?_)
        obtain ⟨j, hj, hw⟩ := f.mem a hb
        exact hd i j a (fun e => h1 (by rw [e]; exact hj)) ((hq i).mem a ha) hw
      · rw [List.map_append, List.map_append, (hq i).vals, f.vals]
  exact (key _ (List.nodup_finRange c)).grow (Set.empty_subset _) (fun a ha => by
    obtain ⟨i, -, h⟩ := (key _ (List.nodup_finRange c)).mem a ha
    exact .inr ⟨i, h⟩)

/-- C152. `accumulateNew` works on a copy: the base keeps its value. -/
theorem C152_accumulateNew (M : Memory) (hM : Unbounded M) (g N b n : Nat) (set xs : List Nat) (hg : M g = some b)
    (hN : M N = some n) (hs : set.map M = xs.map some) :
    Isolated M (accumulateNewM g N set fun acc => .ret [acc]) [accumulateNew b n xs] :=
  isolated_of_ok hM (ok_accumulateNew hg hN hs (fun _ _ _ f => f))

/-- C152, why the copies matter: two goroutines that call `accumulate` on the same base race, from the first operation on, for all
non-empty sets. -/
theorem C152_accumulate_races (M : Memory) (g N x y : Nat) (s0 s1 : List Nat) (k : (Fin 2 → List Nat) → MProg) :
    ∃ t, MSteps M (.run (.fork 2 (fun i => accumulateM g N (if i = 0 then x :: s0 else y :: s1) (.ret [g])) k)) M t ∧ Race t := by
  refine ⟨_, .tail (.refl _ _) (.fork M 2 _ k), .here 2 _ k 0 1 g true (by decide) ?_ ?_⟩
  · exact .write g _ _ _
  · exact .write g _ _ _

/-- C152, the other side: on an empty set every prover panics, whatever the limit; no execution returns. -/
theorem C152_empty_panics (M M' : Memory) (t : Threads) (base N : Nat) (limit : Int)
    (h : MSteps M (.run (proveMembershipParallelM base N [] limit .ret)) M' t ∨
      MSteps M (.run (accAndProveM base N [] limit)) M' t) : Crashes t := by
  have hp : ∀ k, proveMembershipParallelM base N [] limit k = .panic := by
    intro k
    unfold proveMembershipParallelM proveMembershipM handleSmallSetM
    simp
  unfold accAndProveM at h
  rw [hp, hp, or_self] at h
  have key : ∀ {M1 M2 : Memory} {s t : Threads}, s = .run .panic → MSteps M1 s M2 t → t = .run .panic := by
    intro M1 M2 s t hs h1
    induction h1 with
    | refl => exact hs
    | tail _ hstep ih =>
      rw [ih hs] at hstep
      cases hstep
  rw [key rfl h]
  exact .run

/-! ## A concrete case -/

/-- The base 3 at address 0, the modulus 1000 at 1, seven elements from address 2 on. -/
private def mem7 : Memory := fun a => [3, 1000, 2, 3, 5, 7, 11, 13, 17][a]?

private theorem mem7_unbounded : Unbounded mem7 := by
  intro n
  refine ⟨n + 9, by omega, ?_⟩
  unfold mem7
  rw [List.getElem?_eq_none_iff]
  simp

/-- Seven elements and limit 3: two levels of goroutines. -/
example : Isolated mem7 (proveMembershipParallelM 0 1 [2, 3, 4, 5, 6, 7, 8] 3 .ret)
    (if [2, 3, 5, 7, 11, 13, 17].length = 1 then [3] else witnesses 3 1000 [2, 3, 5, 7, 11, 13, 17]) :=
  C152_proveMembershipParallel mem7 mem7_unbounded 0 1 3 1000 _ _ 3 rfl rfl rfl (by simp)

/-- The call does return, so the claims are about something. -/
example : ∃ M' out, MSteps mem7 (.run (accAndProveM 0 1 [2, 3, 4, 5, 6, 7, 8] 3)) M' (.run (.ret out)) := by
  have hi := C152_accAndProve mem7 mem7_unbounded 0 1 3 1000 [2, 3, 4, 5, 6, 7, 8] [2, 3, 5, 7, 11, 13, 17] 3 rfl rfl rfl (by simp)
  obtain ⟨M', t, h, ⟨out, rfl⟩ | hc⟩ := completes (t := .run (accAndProveM 0 1 [2, 3, 4, 5, 6, 7, 8] 3)) mem7_unbounded
  · exact ⟨M', out, h⟩
  · exact absurd hc (hi.noPanic _ _ h)

example : Isolated mem7 (proveMembershipM 0 1 [2] .ret) [3] :=
  C152_proveMembership mem7 mem7_unbounded 0 1 3 1000 _ [2] rfl rfl rfl (by simp)

example : Isolated mem7 (setProductParallelM [2, 3, 4, 5, 6] (-1)) [2 * (3 * (5 * (7 * (11 * 1))))] :=
  C152_setProductParallel mem7 mem7_unbounded [2, 3, 4, 5, 6] [2, 3, 5, 7, 11] (-1) rfl

example : Isolated mem7 (proveMembershipParallelWithTableWithRandomizerM 0 8 1 [2, 3, 4, 5] 0 .ret)
    (if (0 : Int) ≤ 0 then witnesses (3 ^ 17) 1000 [2, 3, 5, 7] else witnesses 3 1000 [2, 3, 5, 7]) :=
  C152_withRandomizer mem7 mem7_unbounded 0 8 1 3 17 1000 _ _ 0 rfl rfl rfl rfl (by simp)

example : Isolated mem7 (zkAccumulateM 0 1 8 [2, 3]) (accumulator (3 ^ 17) 1000 [2, 3] :: witnesses (3 ^ 17) 1000 [2, 3]) :=
  C152_zkAccumulate mem7 mem7_unbounded 0 1 8 3 1000 17 _ _ rfl rfl rfl rfl (by simp)

example : Isolated mem7 (accumulateNewM 0 1 [2, 3] fun acc => .ret [acc]) [accumulateNew 3 1000 [2, 3]] :=
  C152_accumulateNew mem7 mem7_unbounded 0 1 3 1000 _ _ rfl rfl rfl

/-- Two calls at the same time, on sets with a common element. -/
example := C152_concurrent_calls mem7 mem7_unbounded 0 1 3 1000 2 (fun i => if i = 0 then [2, 3] else [3, 4])
  (fun i => if i = 0 then [2, 3] else [3, 5]) (fun _ => 4) rfl rfl (fun i => by split <;> rfl) (fun i => by split <;> simp)

end Verif.Props
