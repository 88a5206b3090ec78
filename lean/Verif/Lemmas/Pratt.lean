import Mathlib.NumberTheory.LucasPrimality
import Mathlib.Data.Nat.Prime.Basic
import Mathlib.Algebra.BigOperators.Associated

/-!
# Primality certificates

A list of triples (p, a, factors of p - 1), each using only primes proved by an earlier one. The check is a computation
in the kernel.
-/

namespace Verif.Lemmas

/-- `a ^ e % m`, for `e < 2 ^ fuel`. -/
def powMod (m : Nat) : Nat → Nat → Nat → Nat
  | 0, _, _ => 1 % m
  | f + 1, a, e =>
    let h := powMod m f (a * a % m) (e / 2)
    if e % 2 = 1 then a * h % m else h

theorem powMod_eq (m f a e : Nat) (h : e < 2 ^ f) : powMod m f a e = a ^ e % m := by
  induction f generalizing a e with
  | zero =>
    have : e = 0 := by simpa using h
    subst this; rfl
  | succ f ih =>
    rw [powMod, ih _ _ (by rw [pow_succ] at h; omega), ← Nat.pow_mod, ← pow_two, ← pow_mul]
    have he := Nat.div_add_mod e 2
    split_ifs with h1
    · rw [Nat.mul_mod_mod, ← pow_succ']
      congr 2; omega
    · congr 2; omega

/-- One step of a certificate. -/
def prattStep (known : List Nat) (c : Nat × Nat × List Nat) : Bool :=
  let p := c.1
  let a := c.2.1
  let fs := c.2.2
  decide (1 < p) && fs.all (fun f => known.contains f) && decide (fs.prod = p - 1)
    && decide (powMod p (p.log2 + 1) a (p - 1) = 1)
    && fs.all (fun f => decide (powMod p (p.log2 + 1) a ((p - 1) / f) ≠ 1))

/-- Checks a certificate; the result is the list of primes proved. -/
def pratt : List Nat → List (Nat × Nat × List Nat) → Option (List Nat)
  | known, [] => some known
  | known, c :: cs => if prattStep known c then pratt (c.1 :: known) cs else none

theorem prattStep_prime (known : List Nat) (hk : ∀ p ∈ known, p.Prime) (c : Nat × Nat × List Nat)
    (h : prattStep known c = true) : c.1.Prime := by
  obtain ⟨p, a, fs⟩ := c
  simp only [prattStep, Bool.and_eq_true, decide_eq_true_eq, List.all_eq_true, List.contains_iff_mem] at h
  obtain ⟨⟨⟨⟨h1, h2⟩, h3⟩, h4⟩, h5⟩ := h
  have hp : p < 2 ^ (p.log2 + 1) := Nat.lt_log2_self
  have cast : ∀ e, (a : ZMod p) ^ e = 1 ↔ a ^ e % p = 1 := by
    intro e
    have h1' : (1 : ZMod p) = ((1 : Nat) : ZMod p) := by simp
    rw [h1', ← Nat.cast_pow, ZMod.natCast_eq_natCast_iff, Nat.ModEq, Nat.mod_eq_of_lt h1]
  refine lucas_primality p (a : ZMod p) ?_ ?_
  · rw [powMod_eq _ _ _ _ (by omega)] at h4
    rw [cast, h4]
  · intro q hq hqd
    rw [← h3] at hqd
    obtain ⟨f, hf, hqf⟩ := (Prime.dvd_prod_iff hq.prime).1 hqd
    have : q = f := (Nat.prime_dvd_prime_iff_eq hq (hk f (h2 f hf))).1 hqf
    subst this
    have := h5 q hf
    rw [powMod_eq _ _ _ _ (lt_of_le_of_lt (Nat.div_le_self _ _) (by omega))] at this
    rw [Ne, cast]
    exact this

theorem pratt_prime (known : List Nat) (hk : ∀ p ∈ known, p.Prime) (cs : List (Nat × Nat × List Nat)) (out : List Nat)
    (h : pratt known cs = some out) : ∀ p ∈ out, p.Prime := by
  induction cs generalizing known with
  | nil => simp only [pratt, Option.some.injEq] at h; rwa [← h]
  | cons c cs ih =>
    rw [pratt] at h
    split at h
    · rename_i hc
      refine ih (c.1 :: known) ?_ h
      intro p hp
      rcases List.mem_cons.1 hp with rfl | hp
      · exact prattStep_prime known hk c hc
      · exact hk p hp
    · cases h

/-- A number proved by a certificate that starts from 2. -/
theorem prime_of_pratt (p : Nat) (cs : List (Nat × Nat × List Nat))
    (h : (match pratt [2] cs with | some out => out.contains p | none => false) = true) : p.Prime := by
  cases hp : pratt [2] cs with
  | none => rw [hp] at h; cases h
  | some out =>
    rw [hp] at h
    exact pratt_prime [2] (by simp [Nat.prime_two]) cs out hp p (List.contains_iff_mem.1 h)

end Verif.Lemmas
