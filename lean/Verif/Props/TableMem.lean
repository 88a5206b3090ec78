import Verif.Spec.SharedMem
import Verif.Spec.Tables
import Verif.Lemmas.TableMem
import Verif.Lemmas.SharedMemTotal

/-!
# C155: one precomputation table serves any number of calls at the same time
-/

namespace Verif.Props
open Verif.Go Verif.Go.Mem Verif.Model Verif.Spec Verif.Lemmas

private theorem isolated_of_ok'' {M : Memory} (hM : Unbounded M) {p : MProg} {vals : List Nat}
    (h : Ok p M ∅ (fun m' W' out => Fresh M ∅ m' W' out vals)) : Isolated M p vals where
  raceFree _ _ hs := (ok_sound h hs).1
  noPanic _ _ hs := (ok_sound h hs).2.1
  keeps _ _ hs := (ok_sound h hs).2.2.1
  writesNew _ _ hs := (ok_sound h hs).2.2.2.1
  returns M' out hs := by
    obtain ⟨m, W, h1, h2⟩ := (ok_sound h hs).2.2.2.2 out rfl
    exact ⟨vals_mono h1 h2.vals, h2.nodup, h2.new⟩
  goesOn M' t hs := by
    rcases progress (unbounded_steps hs hM) t with h1 | h1 | h1
    · exact .inl h1
    · exact absurd h1 (ok_sound h hs).2.1
    · exact .inr h1
  ends := fun ⟨Ms, ts, _, _, h3⟩ => no_infinite Ms ts h3

/-- C155. `GenPreTable` leaves its arguments as they are; the entries are new integers, also the first one, which is a copy of the
base. -/
theorem C155_genPreTable (M : Memory) (hM : Unbounded M) (base N b n bitLen tableSize : Nat) (hb : M base = some b)
    (hN : M N = some n) (h1 : 0 < tableSize) (h2 : tableSize < bitLen) :
    Isolated M (genPreTableM base N bitLen tableSize) (tableEntries b n (2 ^ (bitLen / tableSize)) tableSize) :=
  isolated_of_ok'' hM (ok_genPreTable hb hN h1 h2 (fun _ _ _ f => f))

/-- C155. `NewTable` likewise. -/
theorem C155_newTable (M : Memory) (hM : Unbounded M) (g N b n numByteChunks byteChunkSize : Nat) (hb : M g = some b)
    (hN : M N = some n) (h1 : 0 < numByteChunks) :
    Isolated M (newTableM g N numByteChunks byteChunkSize) (tableEntries b n (2 ^ (byteChunkSize * 8)) numByteChunks) :=
  isolated_of_ok'' hM (ok_newTable hb hN h1 (fun _ _ _ f => f))

/-- C155. `ComputeFromTable` writes neither the table nor `x` nor `N`, and returns the power in a new integer. -/
theorem C155_computeFromTable (M : Memory) (hM : Unbounded M) (table : List Nat) (x N b n xv bitLen tableSize : Nat)
    (h1 : 0 < tableSize) (hn : 0 < n) (ht : table.map M = (tableEntries b n (2 ^ (bitLen / tableSize)) tableSize).map some)
    (hx : M x = some xv) (hN : M N = some n) (hpos : 1 ≤ xv) :
    Isolated M (computeFromTableM table (preTableN bitLen tableSize) x xv.size N) [b ^ xv % n] :=
  isolated_of_ok'' hM (ok_computeFromTable rfl h1 hn ht hx hN hpos (fun _ _ _ f => f))

/-- C155. Tables of the wrong length, the empty table and the exponent zero are refused before anything is written or any goroutine
is started: the call panics, and all integers are as before. -/
theorem C155_refused (M : Memory) (arrival : List Nat → List Nat) (table n : List Nat) (x N length : Nat)
    (h : table.length ≠ n.length ∨ table = [] ∨ length = 0) (p : MProg)
    (hp : p = computeFromTableM table n x length N ∨ p = computeFromTableParallelM arrival table n x length N) (M' : Memory)
    (t : Threads) : MSteps M (.run p) M' t ↔ M' = M ∧ t = .run .panic := by
  have e : ∀ k, tablePartsM table n x length k = .panic := by
    intro k
    unfold tablePartsM
    rcases h with h | rfl | rfl
    · rw [if_pos h]
    · by_cases h : ([] : List Nat).length ≠ n.length
      · rw [if_pos h]
      · rw [if_neg h, if_pos (by simp)]
    · by_cases h : table.length ≠ n.length
      · rw [if_pos h]
      · rw [if_neg h]
        by_cases h' : table.length < 1
        · rw [if_pos h']
        · rw [if_neg h', if_pos (by omega)]
  have hpp : p = .panic := by
    rcases hp with rfl | rfl
    · exact e _
    · exact e _
  subst hpp
  constructor
  · intro hs
    have key : ∀ M0 t0 M1 t1, MSteps M0 t0 M1 t1 → t0 = .run .panic → M1 = M0 ∧ t1 = .run .panic := by
      intro M0 t0 M1 t1 hs
      induction hs with
      | refl => exact fun h => ⟨rfl, h⟩
      | tail _ hstep ih =>
        intro h
        obtain ⟨-, h2⟩ := ih h
        rw [h2] at hstep
        cases hstep
    exact key _ _ _ _ hs rfl
  · rintro ⟨rfl, rfl⟩
    exact .refl _ _

/-- C155. Any number of calls of `ComputeFromTableParallel` at the same time, on the same table and modulus and for any exponents
(also the same integer several times): no race, also between the goroutines of different calls, and every call returns its own new
integer. One call is the case `c = 1`. -/
theorem C155_computeFromTableParallel (M : Memory) (hM : Unbounded M) (c : Nat) (arrival : Fin c → List Nat → List Nat)
    (table : List Nat) (x xv : Fin c → Nat) (N b n bitLen tableSize : Nat) (har : ∀ i l, (arrival i l).Perm l)
    (h1 : 0 < tableSize) (hn : 0 < n) (ht : table.map M = (tableEntries b n (2 ^ (bitLen / tableSize)) tableSize).map some)
    (hx : ∀ i, M (x i) = some (xv i)) (hN : M N = some n) (hpos : ∀ i, 1 ≤ xv i) :
    Isolated M (.fork c (fun i => computeFromTableParallelM (arrival i) table (preTableN bitLen tableSize) (x i) (xv i).size N)
      (fun outs => .ret ((List.finRange c).flatMap outs))) ((List.finRange c).flatMap fun i => [b ^ xv i % n]) :=
  isolated_of_ok'' hM (ok_calls fun i =>
    ok_computeFromTableParallel (har i) rfl h1 hn ht (hx i) hN (hpos i) (fun _ _ _ f => f))

/-- C155. The same for `Table.Compute`, for any numbers of workers, any distribution of the inputs to the workers and any order in
which the results arrive. -/
theorem C155_compute (M : Memory) (hM : Unbounded M) (c : Nat) (arrival : Fin c → List Nat → List Nat)
    (table : List Nat) (x xv numRoutine : Fin c → Nat) (taken : ∀ i, Fin (numRoutine i) → List Input)
    (N b n numByteChunks byteChunkSize : Nat) (har : ∀ i l, (arrival i l).Perm l)
    (htk : ∀ i, ((List.finRange (numRoutine i)).flatMap (taken i)).Perm
      (inputs byteChunkSize (natBytes (xv i)).length (natBytes (xv i)).length))
    (hc : 0 < byteChunkSize) (hn : 0 < n)
    (ht : table.map M = (tableEntries b n (2 ^ (byteChunkSize * 8)) numByteChunks).map some)
    (hx : ∀ i, M (x i) = some (xv i)) (hN : M N = some n) (hpos : ∀ i, 1 ≤ xv i)
    (hfit : ∀ i, ((xv i).size + 7) / 8 ≤ byteChunkSize * numByteChunks) :
    Isolated M (.fork c (fun i => tableComputeM (arrival i) table N (x i) (natBytes (xv i)) (numRoutine i) (taken i))
      (fun outs => .ret ((List.finRange c).flatMap outs))) ((List.finRange c).flatMap fun i => [b ^ xv i % n]) :=
  isolated_of_ok'' hM (ok_calls fun i => ok_tableCompute (har i) (htk i) hc hn ht (hx i) hN (hpos i)
    (by rw [natBytes_length]; exact hfit i) (fun _ _ _ f => f))

/-- C155, why each worker has an `opt` of its own: with one `opt` for two workers there is a race, whatever inputs they take. -/
theorem C155_shared_opt_races (M : Memory) (table : List Nat) (N opt : Nat) (xBytes : Bytes) (i j : Input) (is js : List Input)
    (k : (Fin 2 → List Nat) → MProg) :
    ∃ t, MSteps M (.run (.fork 2 (fun w => if w = 0 then routineLoopM table N opt xBytes (i :: is) .ret
      else routineLoopM table N opt xBytes (j :: js) .ret) k)) M t ∧ Race t := by
  refine ⟨_, .tail (.refl _ _) (.fork M 2 _ k), .here 2 _ k 0 1 opt true (by decide) ?_ ?_⟩
  · exact .write opt _ _ _
  · exact .write opt _ _ _

/-! ## A concrete case -/

/-- The base 3 at address 0, the modulus 35 at 1, the table of `GenPreTable` and `NewTable` for it (both have steps of eight bits and
three entries) from address 2 on, exponents 65538 and 300 at 5 and 6. -/
private def memT : Memory := fun a => [3, 35, 3, 11, 11, 65538, 300][a]?

private theorem memT_unbounded : Unbounded memT := by
  intro n
  refine ⟨n + 7, by omega, ?_⟩
  unfold memT
  rw [List.getElem?_eq_none_iff]
  simp

private theorem memT_table : [2, 3, 4].map memT = (tableEntries 3 35 (2 ^ 8) 3).map some := by decide +kernel

example : Isolated memT (genPreTableM 0 1 25 3) (tableEntries 3 35 (2 ^ 8) 3) :=
  C155_genPreTable memT memT_unbounded 0 1 3 35 25 3 rfl rfl (by omega) (by omega)

example : Isolated memT (newTableM 0 1 3 1) (tableEntries 3 35 (2 ^ 8) 3) :=
  C155_newTable memT memT_unbounded 0 1 3 35 3 1 rfl rfl (by omega)

example : Isolated memT (computeFromTableM [2, 3, 4] (preTableN 25 3) 5 (Nat.size 65538) 1) [3 ^ 65538 % 35] :=
  C155_computeFromTable memT memT_unbounded [2, 3, 4] 5 1 3 35 65538 25 3 (by omega) (by omega) memT_table rfl rfl (by omega)

/-- The empty table and the exponent zero. -/
example : MSteps memT (.run (computeFromTableM [] [] 5 3 1)) memT (.run .panic) ∧
    MSteps memT (.run (computeFromTableParallelM id [2, 3, 4] (preTableN 25 3) 5 0 1)) memT (.run .panic) :=
  ⟨(C155_refused memT id [] [] 5 1 3 (.inr (.inl rfl)) _ (.inl rfl) _ _).2 ⟨rfl, rfl⟩,
    (C155_refused memT id [2, 3, 4] (preTableN 25 3) 5 1 0 (.inr (.inr rfl)) _ (.inr rfl) _ _).2 ⟨rfl, rfl⟩⟩

/-- Two calls for different exponents at the same time; in one of them the results arrive in reverse order. -/
example := C155_computeFromTableParallel memT memT_unbounded 2 (fun i => if i = 0 then id else List.reverse) [2, 3, 4]
  (fun i => if i = 0 then 5 else 6) (fun i => if i = 0 then 65538 else 300) 1 3 35 25 3
  (fun i l => by split; exacts [List.Perm.refl l, List.reverse_perm l]) (by omega) (by omega) memT_table
  (fun i => by split <;> rfl) rfl (fun i => by split <;> omega)

/-- Two workers for the three bytes of 65538: one takes the last byte, the other one the two first. -/
example := C155_compute memT memT_unbounded 1 (fun _ => List.reverse) [2, 3, 4] (fun _ => 5) (fun _ => 65538) (fun _ => 2)
  (fun _ w => if w = 0 then [⟨2, 3, 0⟩] else [⟨0, 1, 2⟩, ⟨1, 2, 1⟩]) 1 3 35 3 1 (fun _ l => List.reverse_perm l)
  (fun _ => by
    have hl : (natBytes 65538).length = 3 := by rw [natBytes_length]; decide +kernel
    rw [hl]
    have e : inputs 1 3 3 = [⟨2, 3, 0⟩, ⟨1, 2, 1⟩, ⟨0, 1, 2⟩] := by simp [inputs]
    rw [e]
    decide)
  (by omega) (by omega) memT_table (fun _ => rfl) rfl (fun _ => by omega) (fun _ => by decide +kernel)

/-- The calls do return, so the claims are about something. -/
example : ∃ M' out, MSteps memT (.run (computeFromTableM [2, 3, 4] (preTableN 25 3) 5 (Nat.size 65538) 1)) M' (.run (.ret out)) := by
  have hi := C155_computeFromTable memT memT_unbounded [2, 3, 4] 5 1 3 35 65538 25 3 (by omega) (by omega) memT_table rfl rfl
    (by omega)
  obtain ⟨M', t, h, ⟨out, rfl⟩ | hc⟩ :=
    completes (t := .run (computeFromTableM [2, 3, 4] (preTableN 25 3) 5 (Nat.size 65538) 1)) memT_unbounded
  · exact ⟨M', out, h⟩
  · exact absurd hc (hi.noPanic _ _ h)

end Verif.Props
