import Verif.Spec.Coins
import Mathlib.Data.Nat.Periodic
import Mathlib.Data.Nat.ModEq
import Mathlib.Data.Int.GCD
import Mathlib.Tactic.Ring
import Mathlib.Tactic.Linarith

/-! # Counting with periodic outcomes -/

namespace Verif.Lemmas
open Finset Verif.Spec

variable {β : Type}

theorem passes_range (f : Nat → β) (test : β → Prop) [DecidablePred fun r => test (f r)] (n : Nat) :
    passes (range n) f test = n.count fun r => test (f r) := by
  classical
  rw [Nat.count_eq_card_filter_range]
  unfold passes
  exact congrArg card (Finset.ext fun r => by simp only [mem_filter])

theorem count_blocks (p : Nat → Prop) [DecidablePred p] (m : Nat) (hp : ∀ r, p (r + m) ↔ p r) (q t : Nat) :
    (q * m + t).count p = q * m.count p + t.count p := by
  induction q with
  | zero => simp
  | succ q ih =>
    have h1 : (q + 1) * m + t = m + (q * m + t) := by ring
    have h2 : (q * m + t).count (fun r => p (m + r)) = (q * m + t).count p :=
      congrArg (fun f => f) (by
        simp only [Nat.count_eq_card_filter_range]
        exact congrArg card (Finset.ext fun r => by simp only [mem_filter, add_comm m r, hp]))
    rw [h1, Nat.count_add, h2, ih]
    ring

/-- If two outcomes are periodic and every test is passed equally often in one period, then over any number of coins the
difference is at most the incomplete period, and at most what is missing to complete it. -/
theorem passes_periodic_le (f g : Nat → β) (m : Nat) (hm : 0 < m) (hf : ∀ r, f (r + m) = f r) (hg : ∀ r, g (r + m) = g r)
    (test : β → Prop) (h : passes (range m) f test = passes (range m) g test) (B : Nat) :
    passes (range B) f test ≤ passes (range B) g test + min (B % m) (m - B % m) := by
  classical
  have pf : ∀ r, test (f (r + m)) ↔ test (f r) := fun r => by rw [hf]
  have pg : ∀ r, test (g (r + m)) ↔ test (g r) := fun r => by rw [hg]
  rw [passes_range, passes_range] at h
  rw [passes_range, passes_range]
  have hB : B / m * m + B % m = B := Nat.div_add_mod' B m
  have hr := Nat.mod_lt B hm
  have e1 := count_blocks (fun r => test (f r)) m pf (B / m) (B % m)
  have e2 := count_blocks (fun r => test (g r)) m pg (B / m) (B % m)
  rw [hB] at e1 e2
  have l1 : (B % m).count (fun r => test (f r)) ≤ B % m := Nat.count_le _
  have l2 : (B % m).count (fun r => test (f r)) ≤ m.count (fun r => test (f r)) := Nat.count_monotone _ hr.le
  have l3 : m.count (fun r => test (g r)) ≤ (B % m).count (fun r => test (g r)) + (m - B % m) := by
    conv_lhs => rw [← Nat.add_sub_cancel' hr.le, Nat.count_add]
    exact Nat.add_le_add_left (Nat.count_le _) _
  rw [e1, e2, h]
  omega

/-- Multiplying with a number that has no common factor with the period permutes the period. -/
theorem passes_permuted (f : Nat → β) (m P : Nat) (hm : 0 < m) (hP : Nat.Coprime P m) (hf : ∀ r, f (r % m) = f r)
    (test : β → Prop) : passes (range m) (fun r => f (r * P)) test = passes (range m) f test := by
  classical
  unfold passes
  refine card_bij (fun r _ => r * P % m) ?_ ?_ ?_
  · intro r hr
    simp only [mem_filter, mem_range] at hr ⊢
    exact ⟨Nat.mod_lt _ hm, by rw [hf]; exact hr.2⟩
  · intro a ha b hb hab
    simp only [mem_filter, mem_range] at ha hb
    have : a * P ≡ b * P [MOD m] := hab
    exact Nat.ModEq.eq_of_lt_of_lt (Nat.ModEq.cancel_right_of_coprime (by rw [Nat.gcd_comm]; exact hP) this) ha.1 hb.1
  · intro y hy
    simp only [mem_filter, mem_range] at hy
    obtain rfl | h1 := Nat.eq_or_lt_of_le (show 1 ≤ m from hm)
    · refine ⟨0, ?_, by omega⟩
      have : y = 0 := by omega
      subst this
      simp only [mem_filter, mem_range, Nat.zero_mul]
      exact ⟨hm, hy.2⟩
    · obtain ⟨c, -, hc⟩ := Nat.exists_mul_mod_eq_one_of_coprime hP h1
      have key : y * c % m * P % m = y := by
        have h2 : y * c % m * P ≡ y * (P * c) [MOD m] :=
          ((Nat.mod_modEq _ _).mul_right P).trans (by rw [show y * c * P = y * (P * c) by ring])
        have h3 : P * c ≡ 1 [MOD m] := by
          show P * c % m = 1 % m
          rw [hc, Nat.mod_eq_of_lt h1]
        have h4 := h2.trans (h3.mul_left y)
        rw [Nat.mul_one] at h4
        exact Eq.trans h4 (Nat.mod_eq_of_lt hy.1)
      refine ⟨y * c % m, ?_, key⟩
      simp only [mem_filter, mem_range]
      refine ⟨Nat.mod_lt _ hm, ?_⟩
      rw [← hf, key]
      exact hy.2

end Verif.Lemmas
