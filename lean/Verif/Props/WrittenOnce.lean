import Verif.Props.Accumulator
import Verif.Props.MulExp

/-!
# Sharper forms of C06 and C26
-/

namespace Verif.Props
open Verif.Go Verif.Model Verif.Lemmas

/-! ## C06 -/

/-- C06, "exactly once": while the collector runs, the positions of every result that it has still to copy are nil. A result
is on its way as a start node, as a worker or in the channel. -/
theorem C06_written_once (base N : Nat) (set : List Nat) (k : Nat) (hl : 2 ^ k * 2 < set.length)
    (s : IterParallel.State) (h : IterParallel.Reachable ⟨N, set, base, 2 ^ k, k⟩ s) (cnt : Nat)
    (ps : List (Option Nat)) (hcol : s.col = .running cnt ps) (i : Nat)
    (hi : (∃ n ∈ s.nodeQ ++ s.workers, n.left ≤ i ∧ i < n.right) ∨ ∃ x ∈ s.recvQ, x.left ≤ i ∧ i < x.right) :
    ps[i]? = some none := by
  have hc : IterParallel.CallOk ⟨N, set, base, 2 ^ k, k⟩ := ⟨rfl, hl⟩
  obtain ⟨rn, co, hinv⟩ := IterParallel.inv_reachable _ hc s h
  have hperm : (s.tasks.flatMap (IterParallel.taskLeaves ⟨N, set, base, 2 ^ k, k⟩) ++ (s.nodeQ ++ (s.workers ++ (rn ++ co)))).Perm
      (IterParallel.allLeaves ⟨N, set, base, 2 ^ k, k⟩) := by
    rw [List.perm_iff_count]
    intro a
    have := hinv.perm a
    simp only [List.count_append]
    omega
  have h1 := hperm.countP_eq (IterParallel.covers i)
  have h2 := IterParallel.leaves_cover N set k (IterParallel.rootNode ⟨N, set, base, 2 ^ k, k⟩) i (Nat.zero_le _)
  have harr : IterParallel.ArrOk ⟨N, set, base, 2 ^ k, k⟩ co ps := by
    have hph := hinv.phase
    revert hph
    unfold IterParallel.Phase
    split <;> intro hph
    · rename_i h'; rw [hcol] at h'; cases h'
    · rename_i h'; rw [hcol] at h'; cases h'; exact hph.2.2.2.2.2.2
    · rename_i h'; rw [hcol] at h'; cases h'
    · rename_i h'; rw [hcol] at h'; cases h'
    · exact hph.elim
  have hpos : 0 < s.nodeQ.countP (IterParallel.covers i) + s.workers.countP (IterParallel.covers i)
      + rn.countP (IterParallel.covers i) := by
    rcases hi with ⟨n, hn, hcov⟩ | ⟨x, hx, hcov⟩
    · have hcv : IterParallel.covers i n = true := by simpa [IterParallel.covers] using hcov
      rcases List.mem_append.1 hn with hn | hn
      · have := List.countP_pos_iff.2 ⟨n, hn, hcv⟩; omega
      · have := List.countP_pos_iff.2 ⟨n, hn, hcv⟩; omega
    · rw [hinv.recv] at hx
      obtain ⟨n, hn, rfl⟩ := List.mem_map.1 hx
      have hcv : IterParallel.covers i n = true := by simpa [IterParallel.covers, IterParallel.resOf] using hcov
      have := List.countP_pos_iff.2 ⟨n, hn, hcv⟩; omega
  have h3 : List.countP (IterParallel.covers i) (IterParallel.allLeaves ⟨N, set, base, 2 ^ k, k⟩)
      = if 0 ≤ i ∧ i < set.length then 1 else 0 := h2
  simp only [List.countP_append] at h1
  have hin : i < set.length := by
    by_contra hcon
    rw [if_neg (by omega)] at h3
    omega
  rw [if_pos ⟨Nat.zero_le _, hin⟩] at h3
  refine harr.2.2 i hin fun m hm => ?_
  by_contra hcv
  rw [Bool.not_eq_false] at hcv
  have := List.countP_pos_iff.2 ⟨m, hm, hcv⟩
  omega

/-- A state with a running collector and a worker: one CPU, three elements, after the caller has left its loop. -/
example : ∃ s : IterParallel.State, IterParallel.Reachable ⟨11, [3, 5, 7], 2, 2 ^ 0, 0⟩ s ∧
    s.col = .running 0 [none, none, none] ∧ s.workers = [⟨0, 3, 2⟩] := by
  have h1 := IterParallel.Step.initSend (c := ⟨11, [3, 5, 7], 2, 2 ^ 0, 0⟩) (IterParallel.init ⟨11, [3, 5, 7], 2, 2 ^ 0, 0⟩)
    [] [] ⟨0, 3, 2⟩ 0 rfl rfl rfl rfl (by decide)
  have r1 := IterParallel.Reachable.step .init h1
  have r2 := r1.step (.mainRecvClose _ 0 ⟨0, 3, 2⟩ [] rfl rfl rfl rfl rfl)
  exact ⟨_, r2.step (.mainLeave _ 1 rfl rfl rfl rfl), rfl, rfl⟩

/-! ## C26 -/

/-- C26, exactly: `SimpleExp` is right for all bases and moduli exactly if the loop, which advances by 65 bits, reaches the
top one of the 64-bit words of the exponent. -/
theorem C26_iff_partial (x : Int) (hx : 1 ≤ x) :
    (∀ g n : Int, 1 < g → 1 < n → simpleExp g x n = .ok (g ^ x.natAbs % n)) ↔
      65 * ((x.natAbs.size + 63) / 64 - 1) < x.natAbs.size := by
  have hpos : 0 < x.natAbs := by omega
  constructor
  · intro h
    by_contra hc
    have hlt : effectiveExponent x.natAbs < x.natAbs := by
      have hs : 0 < x.natAbs.size := Nat.size_pos.2 hpos
      have hge : 2 ^ (x.natAbs.size - 1) ≤ x.natAbs := Nat.lt_size.1 (by omega)
      have hsum : ∀ m, ∑ k ∈ Finset.range m, wordAt x.natAbs (65 * k / 64) * 2 ^ (64 * k) < 2 ^ (64 * m) := by
        intro m
        induction m with
        | zero => simp
        | succ m ih =>
          rw [Finset.sum_range_succ, show 64 * (m + 1) = 64 * m + 64 by ring, pow_add]
          have hw : wordAt x.natAbs (65 * m / 64) ≤ 2 ^ 64 - 1 := by
            have : wordAt x.natAbs (65 * m / 64) < 2 ^ 64 := Nat.mod_lt _ (by positivity)
            omega
          have := Nat.mul_le_mul_right (2 ^ (64 * m)) hw
          have h64 : (2 ^ 64 - 1) * 2 ^ (64 * m) + 2 ^ (64 * m) = 2 ^ (64 * m) * 2 ^ 64 := by
            rw [Nat.sub_mul, one_mul, mul_comm (2 ^ 64)]
            have : 2 ^ (64 * m) ≤ 2 ^ (64 * m) * 2 ^ 64 := Nat.le_mul_of_pos_right _ (by positivity)
            omega
          omega
      refine lt_of_lt_of_le (hsum _) (le_trans (Nat.pow_le_pow_right (by norm_num) ?_) hge)
      omega
    have hn : (1 : Int) < 2 ^ x.natAbs + 1 := by
      have : (0 : Int) < 2 ^ x.natAbs := by positivity
      omega
    have h1 := h 2 (2 ^ x.natAbs + 1) (by norm_num) hn
    rw [C26_simpleExp_exact _ _ _ (by norm_num) hn hx] at h1
    injection h1 with h1
    have h2 : (2 : Int) ^ effectiveExponent x.natAbs < 2 ^ x.natAbs := pow_lt_pow_right₀ (by norm_num) hlt
    rw [Int.emod_eq_of_lt (by positivity) (by omega), Int.emod_eq_of_lt (by positivity) (by omega)] at h1
    omega
  · intro h g n hg hn
    exact C26_simpleExp_partial g x n hg hn hx _ rfl (by omega) h

/-- The first exponents that fail have 65 bits; exponents of 66 to 128 bits are right. -/
example : (65 * ((65 + 63) / 64 - 1) < 65) = False ∧ (65 * ((66 + 63) / 64 - 1) < 66) = True ∧
    (65 * ((128 + 63) / 64 - 1) < 128) = True := by decide

/-- No exponent of more than 4096 bits is right. -/
example (b : Nat) (h : 4096 < b) : ¬ 65 * ((b + 63) / 64 - 1) < b := by omega

end Verif.Props
