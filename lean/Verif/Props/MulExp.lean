import Verif.Model.MulExp
import Mathlib.Algebra.BigOperators.Group.Finset.Basic
import Mathlib.Algebra.BigOperators.Intervals
import Mathlib.Data.Int.ModEq
import Mathlib.Data.Nat.Bitwise
import Mathlib.Data.Nat.Digits.Lemmas
import Mathlib.Tactic.Ring
import Mathlib.Tactic.Linarith

/-!
# Properties of `SimpleExp` and `GCB` (C26 - C29)
-/

namespace Verif.Props
open Verif.Go Verif.Model

/-! ## Lemmas on SimpleExp -/

/-- Word number `c` of `x`. -/
def wordAt (x c : Nat) : Nat := x / 2 ^ (64 * c) % 2 ^ 64

/-- The exponent that `SimpleExp` uses: the outer loop runs for `i = 0, 65, 130, ...` below the bit length, and round
`k` treats word number `65 * k / 64` as word number `k`. -/
def effectiveExponent (x : Nat) : Nat :=
  ∑ k ∈ Finset.range ((x.size + 64) / 65), wordAt x (65 * k / 64) * 2 ^ (64 * k)

theorem mask_iff (w j : Nat) : w &&& 1 <<< j = 1 <<< j ↔ w / 2 ^ j % 2 = 1 := by
  rw [Nat.one_shiftLeft, Nat.and_two_pow]
  have := Nat.testBit_eq_decide_div_mod_eq (x := w) (i := j)
  rw [this]
  have hp : 0 < 2 ^ j := by positivity
  by_cases h : w / 2 ^ j % 2 = 1
  · simp [h]
  · simp [h]; omega

theorem simpleExpWord_spec (n : Int) (hn : 1 < n) (w m : Nat) (o c : Int) (ho : 0 ≤ o ∧ o < n) :
    (simpleExpWord n w m (o, c)).1 ≡ o * c ^ (w % 2 ^ m) [ZMOD n] ∧
    (simpleExpWord n w m (o, c)).2 ≡ c ^ (2 ^ m) [ZMOD n] ∧
    0 ≤ (simpleExpWord n w m (o, c)).1 ∧ (simpleExpWord n w m (o, c)).1 < n := by
  induction m with
  | zero => simp [simpleExpWord, Nat.mod_one, ho]
  | succ m ih =>
    have hstep : simpleExpWord n w (m + 1) (o, c) = simpleExpBit n w m (simpleExpWord n w m (o, c)) := by
      unfold simpleExpWord
      rw [List.range_succ, List.foldl_append]; rfl
    rw [hstep]
    generalize simpleExpWord n w m (o, c) = s at ih
    obtain ⟨h1, h2, h3, h4⟩ := ih
    have hmod : w % 2 ^ (m + 1) = w % 2 ^ m + 2 ^ m * (w / 2 ^ m % 2) := by
      rw [pow_succ, Nat.mod_mul]
    unfold simpleExpBit
    simp only [mask_iff]
    refine ⟨?_, ?_, ?_⟩
    · by_cases hb : w / 2 ^ m % 2 = 1
      · rw [if_pos hb, hmod, hb, mul_one, pow_add, ← mul_assoc]
        exact (Int.mod_modEq _ _).trans (h1.mul h2)
      · rw [if_neg hb, hmod, show w / 2 ^ m % 2 = 0 by omega, mul_zero, add_zero]
        exact h1
    · rw [pow_succ, pow_mul, sq]
      exact (Int.mod_modEq _ _).trans (h2.mul h2)
    · by_cases hb : w / 2 ^ m % 2 = 1
      · rw [if_pos hb]
        exact ⟨Int.emod_nonneg _ (by omega), Int.emod_lt_of_pos _ (by omega)⟩
      · rw [if_neg hb]; exact ⟨h3, h4⟩

theorem size_le_words (x c : Nat) (h : c * 64 < x.size) : c < (bitsOf x).length := by
  by_contra hc
  have h1 : x < (2 ^ 64) ^ (bitsOf x).length := by
    unfold bitsOf
    exact Nat.lt_base_pow_length_digits (by norm_num)
  have h2 : (2 ^ 64) ^ (bitsOf x).length ≤ 2 ^ (64 * c) := by
    rw [← pow_mul]
    exact Nat.pow_le_pow_right (by norm_num) (by omega)
  have h3 : x.size ≤ 64 * c := Nat.size_le.2 (lt_of_lt_of_le h1 h2)
  omega

theorem bitsOf_getElem? (x c : Nat) (h : c < (bitsOf x).length) : (bitsOf x)[c]? = some (wordAt x c) := by
  rw [List.getElem?_eq_getElem h]
  congr 1
  have : (bitsOf x)[c] = (bitsOf x).getD c 0 := by rw [List.getD_eq_getElem _ _ h]
  rw [this]
  unfold bitsOf wordAt
  rw [Nat.getD_digits _ _ (by norm_num), ← pow_mul]

theorem simpleExpLoop_spec (g n : Int) (hn : 1 < n) (x : Nat) :
    ∀ d k : Nat, (x.size + 64) / 65 - k ≤ d → ∀ o c : Int, 0 ≤ o → o < n →
      o ≡ g ^ (∑ k ∈ Finset.range k, wordAt x (65 * k / 64) * 2 ^ (64 * k)) [ZMOD n] →
      c ≡ g ^ (2 ^ (64 * k)) [ZMOD n] → k ≤ (x.size + 64) / 65 →
      simpleExpLoop n (bitsOf x) x.size (65 * k) (o, c) = .ok (g ^ effectiveExponent x % n) := by
  intro d
  induction d with
  | zero =>
    intro k hd o c ho0 ho1 ho hc hk
    have hkk : k = (x.size + 64) / 65 := by omega
    rw [simpleExpLoop, if_neg (by omega)]
    unfold effectiveExponent
    rw [← hkk]
    have h := ho
    unfold Int.ModEq at h
    rw [Int.emod_eq_of_lt ho0 ho1] at h
    rw [h]
  | succ d ih =>
    intro k hd o c ho0 ho1 ho hc hk
    by_cases hlt : 65 * k < x.size
    · rw [simpleExpLoop, if_pos hlt]
      have hidx : 65 * k / 64 < (bitsOf x).length := size_le_words x _ (by omega)
      unfold index
      rw [bitsOf_getElem? x _ hidx]
      simp only [bind, Except.bind]
      have hw : wordAt x (65 * k / 64) % 2 ^ 64 = wordAt x (65 * k / 64) := by
        unfold wordAt; rw [Nat.mod_mod]
      obtain ⟨s1, s2, s3, s4⟩ := simpleExpWord_spec n hn (wordAt x (65 * k / 64)) 64 o c ⟨ho0, ho1⟩
      rw [show 65 * k + 64 + 1 = 65 * (k + 1) by ring]
      rw [← Prod.mk.eta (p := simpleExpWord n (wordAt x (65 * k / 64)) 64 (o, c))]
      apply ih (k + 1) (by omega) _ _ s3 s4 _ _ (by omega)
      · rw [Finset.sum_range_succ, pow_add]
        refine s1.trans (ho.mul ?_)
        rw [hw, mul_comm (wordAt x _), pow_mul]
        exact hc.pow _
      · refine s2.trans ?_
        rw [show 64 * (k + 1) = 64 * k + 64 by ring, pow_add, pow_mul g]
        exact hc.pow _
    · have hkk : k = (x.size + 64) / 65 := by omega
      rw [simpleExpLoop, if_neg (by omega)]
      unfold effectiveExponent
      rw [← hkk]
      have h := ho
      unfold Int.ModEq at h
      rw [Int.emod_eq_of_lt ho0 ho1] at h
      rw [h]

theorem sum_words (x m : Nat) : ∑ k ∈ Finset.range m, wordAt x k * 2 ^ (64 * k) = x % 2 ^ (64 * m) := by
  induction m with
  | zero => simp [Nat.mod_one]
  | succ m ih =>
    rw [Finset.sum_range_succ, ih, show 64 * (m + 1) = 64 * m + 64 by ring, pow_add, Nat.mod_mul]
    unfold wordAt
    ring

/-! ## C26 (violated) -/

/-- C26 as stated. -/
def C26_statement : Prop :=
  ∀ g x n : Int, (1 < g → 1 < n → 1 ≤ x → simpleExp g x n = .ok (g ^ x.natAbs % n)) ∧
    ((g ≤ 1 ∨ n ≤ 1 ∨ x < 1) → (simpleExp g x n).panics = true)

/-- What the code computes, for all inputs. -/
theorem C26_simpleExp_exact (g x n : Int) (hg : 1 < g) (hn : 1 < n) (hx : 1 ≤ x) :
    simpleExp g x n = .ok (g ^ effectiveExponent x.natAbs % n) := by
  unfold simpleExp
  rw [if_neg (by omega)]
  have := simpleExpLoop_spec g n hn x.natAbs ((x.natAbs.size + 64) / 65) 0 (by omega) 1 g (by omega) hn
    (by simp) (by simp) (by omega)
  simpa using this

/-- Second half of C26: all other inputs panic. -/
theorem C26_simpleExp_panics_iff (g x n : Int) : (simpleExp g x n).panics = true ↔ (g ≤ 1 ∨ n ≤ 1 ∨ x < 1) := by
  constructor
  · intro h
    by_contra hc
    rw [C26_simpleExp_exact g x n (by omega) (by omega) (by omega)] at h
    cases h
  · intro h
    unfold simpleExp
    rw [if_pos h]; rfl

/-- The exponent used for a number of at most 64 words is right exactly if the loop reaches the top word. -/
theorem effectiveExponent_eq_iff (x w : Nat) (hx : 0 < x) (hw : w = (x.size + 63) / 64) (hw64 : w ≤ 64) :
    effectiveExponent x = x ↔ 65 * (w - 1) < x.size := by
  have hs : 0 < x.size := Nat.size_pos.2 hx
  have hlt : x < 2 ^ x.size := Nat.lt_size_self x
  have hge : 2 ^ (x.size - 1) ≤ x := Nat.lt_size.1 (by omega)
  have key : ∀ m, m ≤ w → ∑ k ∈ Finset.range m, wordAt x (65 * k / 64) * 2 ^ (64 * k) = x % 2 ^ (64 * m) := by
    intro m hm
    rw [← sum_words]
    apply Finset.sum_congr rfl
    intro k hk
    rw [Finset.mem_range] at hk
    rw [show 65 * k / 64 = k by omega]
  have hm : (x.size + 64) / 65 ≤ w := by omega
  unfold effectiveExponent
  rw [key _ hm]
  constructor
  · intro h
    by_contra hc
    have hle : 64 * ((x.size + 64) / 65) ≤ x.size - 1 := by omega
    have h1 : x % 2 ^ (64 * ((x.size + 64) / 65)) < 2 ^ (64 * ((x.size + 64) / 65)) := Nat.mod_lt _ (by positivity)
    have h2 : 2 ^ (64 * ((x.size + 64) / 65)) ≤ 2 ^ (x.size - 1) := Nat.pow_le_pow_right (by norm_num) hle
    omega
  · intro h
    apply Nat.mod_eq_of_lt
    exact lt_of_lt_of_le hlt (Nat.pow_le_pow_right (by norm_num) (by omega))

/-- What holds of C26: for exponents of at most 64 words whose top word `w` is reached (`65 (w-1) < bit length`), the
result is right. -/
theorem C26_simpleExp_partial (g x n : Int) (hg : 1 < g) (hn : 1 < n) (hx : 1 ≤ x) (w : Nat)
    (hw : w = (x.natAbs.size + 63) / 64) (hw64 : w ≤ 64) (h : 65 * (w - 1) < x.natAbs.size) :
    simpleExp g x n = .ok (g ^ x.natAbs % n) := by
  rw [C26_simpleExp_exact g x n hg hn hx, (effectiveExponent_eq_iff x.natAbs w (by omega) hw hw64).2 h]

/-- In particular for 1024-bit exponents, which is what the benchmarks use. -/
theorem C26_simpleExp_1024_partial (g x n : Int) (hg : 1 < g) (hn : 1 < n) (hx : 1 ≤ x) (h : x.natAbs.size = 1024) :
    simpleExp g x n = .ok (g ^ x.natAbs % n) :=
  C26_simpleExp_partial g x n hg hn hx 16 (by omega) (by omega) (by omega)

example : simpleExp 3 13 7 = .ok 3 := by
  have := C26_simpleExp_partial 3 13 7 (by decide) (by decide) (by decide) 1 (by decide) (by decide) (by decide)
  simpa using this

/-- The code violates C26: for `SimpleExp(3, 2^64, 7)` the top word is skipped, so the result is 1 instead of 4. -/
theorem C26_violated : ¬ C26_statement := by
  intro h
  have h1 := (h 3 (2 ^ 64) 7).1 (by decide) (by decide) (by decide)
  rw [C26_simpleExp_exact 3 (2 ^ 64) 7 (by decide) (by decide) (by decide)] at h1
  injection h1 with h1
  have hs : (2 ^ 64 : Int).natAbs.size = 65 := by decide +kernel
  have he : effectiveExponent (2 ^ 64 : Int).natAbs = 0 := by
    unfold effectiveExponent
    rw [hs]
    decide +kernel
  rw [he] at h1
  have h2 : (3 : Int) ^ (2 ^ 64 : Int).natAbs % 7 = 4 := by
    have : (2 ^ 64 : Int).natAbs = 6 * ((2 ^ 64 - 4) / 6) + 4 := by decide +kernel
    rw [this, pow_add, pow_mul]
    have h6 : (3 : Int) ^ 6 ≡ 1 [ZMOD 7] := by decide
    have h7 : ((3 : Int) ^ 6) ^ ((2 ^ 64 - 4) / 6) * 3 ^ 4 ≡ 1 * 4 [ZMOD 7] := by
      refine Int.ModEq.mul ?_ (by decide)
      have := h6.pow ((2 ^ 64 - 4) / 6)
      rwa [one_pow] at this
    exact h7
  rw [h2] at h1
  revert h1; decide

/-! ## Lemmas on GCB -/

theorem commonBitsLoop_getLsbD (a b : BitVec 64) (m : Nat) (hm : m ≤ 64) (j : Nat) :
    (commonBitsLoop a b m).getLsbD j = (decide (j < m) && (a.getLsbD j && b.getLsbD j)) := by
  induction m with
  | zero => simp [commonBitsLoop]
  | succ m ih =>
    have ih := ih (by omega)
    have hstep : commonBitsLoop a b (m + 1) =
        (if a &&& (1 : BitVec 64) <<< m = (1 : BitVec 64) <<< m ∧ b &&& (1 : BitVec 64) <<< m = (1 : BitVec 64) <<< m
          then commonBitsLoop a b m ||| (1 : BitVec 64) <<< m else commonBitsLoop a b m) := by
      unfold commonBitsLoop
      rw [List.range_succ, List.foldl_append]; rfl
    have hone : ∀ j, ((1 : BitVec 64) <<< m).getLsbD j = decide (j = m ∧ j < 64) := by
      intro j
      rw [BitVec.getLsbD_shiftLeft]
      by_cases h1 : j = m
      · subst h1; simp
      · by_cases h2 : j < m
        · simp [h1, h2]
        · have : 0 < j - m := by omega
          simp [h1, BitVec.getLsbD_one]
          omega
    have hmask : ∀ x : BitVec 64, x &&& (1 : BitVec 64) <<< m = (1 : BitVec 64) <<< m ↔ x.getLsbD m = true := by
      intro x
      constructor
      · intro h
        have := congrArg (fun y => BitVec.getLsbD y m) h
        simp only [BitVec.getLsbD_and, hone] at this
        simpa [show m < 64 by omega] using this
      · intro h
        apply BitVec.eq_of_getLsbD_eq
        intro i hi
        rw [BitVec.getLsbD_and, hone]
        by_cases him : i = m
        · subst him; simp [h]
        · simp [him]
    rw [hstep]
    simp only [hmask]
    split
    · rename_i h
      rw [BitVec.getLsbD_or, ih, hone]
      by_cases hj : j = m
      · subst hj; simp [h.1, h.2, show j < 64 by omega]
      · have : decide (j < m + 1) = decide (j < m) := by
          by_cases hlt : j < m
          · simp [hlt, show j < m + 1 by omega]
          · simp [hlt]; omega
        rw [this]; simp [hj]
    · rename_i h
      rw [ih]
      by_cases hj : j = m
      · subst hj
        simp at h ⊢
        intro h1; simpa using h h1
      · have : decide (j < m + 1) = decide (j < m) := by
          by_cases hlt : j < m
          · simp [hlt, show j < m + 1 by omega]
          · simp [hlt]; omega
        rw [this]

theorem commonBits_eq (a b : BitVec 64) : commonBits a b = a &&& b &&& 0xFFFFFFFF#64 := by
  apply BitVec.eq_of_getLsbD_eq
  intro i hi
  unfold commonBits
  rw [commonBitsLoop_getLsbD a b 32 (by omega)]
  simp only [BitVec.getLsbD_and]
  have : (0xFFFFFFFF#64).getLsbD i = decide (i < 32) := by
    revert i; decide
  rw [this]
  cases a.getLsbD i <;> cases b.getLsbD i <;> cases decide (i < 32) <;> rfl

/-- Subtracting a part of the bits does not borrow. -/
theorem sub_part_toNat (a r : BitVec 64) (h : ∀ j, r.getLsbD j = true → a.getLsbD j = true) :
    (a - r).toNat + r.toNat = a.toNat := by
  have hle : r.toNat ≤ a.toNat := by
    have : r = a &&& r := by
      apply BitVec.eq_of_getLsbD_eq
      intro i hi
      rw [BitVec.getLsbD_and]
      have := h i
      cases hr : r.getLsbD i
      · simp
      · simp [this hr]
    have h2 : r.toNat = a.toNat &&& r.toNat := by
      conv_lhs => rw [this]
      rw [BitVec.toNat_and]
    rw [h2]
    exact Nat.and_le_left
  rw [BitVec.toNat_sub_of_le hle]
  omega

theorem wordsVal_testBit (w : BitVec 64) (l : List (BitVec 64)) (j : Nat) :
    (wordsVal (w :: l)).testBit j = if j < 64 then w.getLsbD j else (wordsVal l).testBit (j - 64) := by
  rw [wordsVal, Nat.add_comm, Nat.testBit_two_pow_mul_add _ w.isLt]
  rfl

theorem wordsVal_append_zero (l : List (BitVec 64)) (n : Nat) : wordsVal (l ++ List.replicate n 0) = wordsVal l := by
  induction l with
  | nil =>
    induction n with
    | zero => rfl
    | succ n ih =>
      rw [List.nil_append] at ih ⊢
      rw [List.replicate_succ]
      show (0 : BitVec 64).toNat + 2 ^ 64 * wordsVal (List.replicate n 0) = 0
      rw [ih]; rfl
  | cons w l ih => simp only [List.cons_append, wordsVal, ih]

theorem normWords_val (l : List (BitVec 64)) : wordsVal (normWords l) = wordsVal l := by
  unfold normWords
  have key : ∀ l : List (BitVec 64), ∃ n, l = List.replicate n 0 ++ l.dropWhile (· == 0) := by
    intro l
    induction l with
    | nil => exact ⟨0, rfl⟩
    | cons w l ih =>
      rw [List.dropWhile_cons]
      by_cases h : w = 0
      · obtain ⟨n, hn⟩ := ih
        refine ⟨n + 1, ?_⟩
        subst h
        simp only [beq_self_eq_true, if_true, List.replicate_succ, List.cons_append]
        rw [← hn]
      · refine ⟨0, ?_⟩
        have : (w == 0) = false := by simpa using h
        rw [this]; rfl
  obtain ⟨n, hn⟩ := key l.reverse
  have h2 : l = (l.reverse.dropWhile (· == 0)).reverse ++ List.replicate n 0 := by
    have := congrArg List.reverse hn
    rw [List.reverse_reverse, List.reverse_append, List.reverse_replicate] at this
    exact this
  conv_rhs => rw [h2, wordsVal_append_zero]

theorem normWords_normalised (l : List (BitVec 64)) : Normalised (normWords l) := by
  unfold Normalised normWords
  rw [List.getLast?_reverse]
  intro h
  have h2 := List.head?_dropWhile_not (fun x : BitVec 64 => x == 0) l.reverse
  rw [h] at h2
  simp at h2

/-- Pointwise subtraction on the common length. -/
def subPart : List (BitVec 64) → List (BitVec 64) → List (BitVec 64)
  | [], _ => []
  | a, [] => a
  | w :: l, r :: rs => (w - r) :: subPart l rs

theorem subPart_nil (a : List (BitVec 64)) : subPart a [] = a := by cases a <;> rfl

theorem mapIdx_eq_subPart (a r : List (BitVec 64)) :
    a.mapIdx (fun i w => if i < r.length then w - r.getD i 0 else w) = subPart a r := by
  induction a generalizing r with
  | nil => rfl
  | cons w l ih =>
    cases r with
    | nil =>
      rw [subPart_nil]
      simp only [List.length_nil, Nat.not_lt_zero, if_false]
      apply List.ext_getElem
      · simp
      · intro i h1 h2; rw [List.getElem_mapIdx]
    | cons r rs =>
      rw [List.mapIdx_cons]
      show _ :: _ = (w - r) :: subPart l rs
      rw [← ih rs]
      simp

theorem gcb_eq (a b : List (BitVec 64)) :
    gcb a b = (normWords (List.zipWith commonBits a b), subPart a (List.zipWith commonBits a b),
      subPart b (List.zipWith commonBits a b)) := by
  have hmin : (if a.length > b.length then b.length else a.length) = min a.length b.length := by
    split <;> omega
  have hret : (List.range (min a.length b.length)).map (fun i => commonBits (a.getD i 0) (b.getD i 0))
      = List.zipWith commonBits a b := by
    apply List.ext_getElem
    · simp
    · intro i h1 h2
      simp at h1
      simp [List.getD_eq_getElem, h1.1, h1.2]
  have hlen : min a.length b.length = (List.zipWith commonBits a b).length := by simp
  unfold gcb
  simp only [hmin, hret]
  rw [hlen, mapIdx_eq_subPart, mapIdx_eq_subPart]

theorem subPart_val (a r : List (BitVec 64)) (hlen : r.length ≤ a.length)
    (h : ∀ (i : Nat) (h1 : i < r.length), ∀ j, (r[i]).getLsbD j = true → (a[i]'(by omega)).getLsbD j = true) :
    wordsVal (subPart a r) + wordsVal r = wordsVal a := by
  induction a generalizing r with
  | nil => cases r with
    | nil => rfl
    | cons _ _ => simp at hlen
  | cons w l ih =>
    cases r with
    | nil => rw [subPart_nil]; rfl
    | cons r rs =>
      have h0 := sub_part_toNat w r (h 0 (by simp))
      have h1 := ih rs (by simpa using hlen) (fun i hi j => h (i + 1) (by simpa using hi) j)
      unfold subPart wordsVal
      rw [← h0, ← h1]
      ring

theorem zip_testBit (a b : List (BitVec 64)) (j : Nat) :
    (wordsVal (List.zipWith commonBits a b)).testBit j =
      ((wordsVal a).testBit j && (wordsVal b).testBit j && decide (j % 64 < 32)) := by
  induction a generalizing b j with
  | nil => simp [wordsVal]
  | cons w l ih =>
    cases b with
    | nil => simp [wordsVal]
    | cons v m =>
      rw [List.zipWith_cons_cons, wordsVal_testBit, wordsVal_testBit, wordsVal_testBit]
      split
      · rename_i hj
        unfold commonBits
        rw [commonBitsLoop_getLsbD w v 32 (by omega), Nat.mod_eq_of_lt hj]
        cases w.getLsbD j <;> cases v.getLsbD j <;> simp
      · rename_i hj
        rw [ih, show (j - 64) % 64 = j % 64 by omega]

/-! ## C27 -/

/-- C27: the common part is split off both operands (two different objects; words as in memory). -/
theorem C27_gcb_splits (a b : List (BitVec 64)) :
    wordsVal (gcb a b).2.1 + wordsVal (gcb a b).1 = wordsVal a ∧
    wordsVal (gcb a b).2.2 + wordsVal (gcb a b).1 = wordsVal b ∧
    ∀ j, (wordsVal (gcb a b).1).testBit j = true → (wordsVal a).testBit j = true ∧ (wordsVal b).testBit j = true := by
  rw [gcb_eq]
  simp only [normWords_val]
  refine ⟨?_, ?_, ?_⟩
  · refine subPart_val _ _ (by simp) ?_
    · intro i hi j
      simp only [List.length_zipWith] at hi
      rw [List.getElem_zipWith]
      unfold commonBits
      rw [commonBitsLoop_getLsbD _ _ 32 (by omega)]
      simp only [Bool.and_eq_true]
      rintro ⟨-, h, -⟩; exact h
  · refine subPart_val _ _ (by simp) ?_
    · intro i hi j
      simp only [List.length_zipWith] at hi
      rw [List.getElem_zipWith]
      unfold commonBits
      rw [commonBitsLoop_getLsbD _ _ 32 (by omega)]
      simp only [Bool.and_eq_true]
      rintro ⟨-, -, h⟩; exact h
  · intro j
    rw [zip_testBit]
    simp only [Bool.and_eq_true]
    rintro ⟨⟨h1, h2⟩, -⟩
    exact ⟨h1, h2⟩

example : gcb [0b1011, 5] [0b1100] = ([0b1000], [0b0011, 5], [0b0100]) := by decide

/-- C27 does not extend to a call with the same object twice: there the common part is subtracted twice. -/
theorem C27_same_object_wraps : gcbSame [1] = ([1], [0xFFFFFFFFFFFFFFFF]) := by decide

/-! ## C28 (violated) -/

/-- C28 as stated. -/
def C28_statement : Prop :=
  ∀ a b : List (BitVec 64), Normalised a → Normalised b → wordsVal (gcb a b).1 = wordsVal a &&& wordsVal b

/-- The code violates C28: bits 32 to 63 of each word are never found. -/
theorem C28_violated : ¬ C28_statement := by
  intro h
  have := h [0x100000000] [0x100000000] (by decide) (by decide)
  revert this
  decide

/-- What the code returns, for all inputs: the common bits at positions 0 to 31 of each word. -/
theorem C28_gcb_exact_partial (a b : List (BitVec 64)) (j : Nat) :
    (wordsVal (gcb a b).1).testBit j =
      ((wordsVal a).testBit j && (wordsVal b).testBit j && decide (j % 64 < 32)) := by
  rw [gcb_eq]
  simp only [normWords_val]
  exact zip_testBit a b j

/-- So the result is the bitwise AND exactly if the operands have no common bit in the upper half of a word. -/
theorem C28_gcb_and_iff_partial (a b : List (BitVec 64)) :
    wordsVal (gcb a b).1 = wordsVal a &&& wordsVal b ↔
      ∀ j, j % 64 ≥ 32 → ¬ ((wordsVal a).testBit j = true ∧ (wordsVal b).testBit j = true) := by
  constructor
  · intro h j hj ⟨h1, h2⟩
    have h3 := C28_gcb_exact_partial a b j
    rw [h, Nat.testBit_and, h1, h2] at h3
    simp at h3
    omega
  · intro h
    apply Nat.eq_of_testBit_eq
    intro j
    rw [C28_gcb_exact_partial, Nat.testBit_and]
    by_cases hj : j % 64 < 32
    · simp [hj]
    · have := h j (by omega)
      cases h1 : (wordsVal a).testBit j <;> cases h2 : (wordsVal b).testBit j <;> simp_all

/-! ## C29 (violated) -/

/-- C29 as stated: normalised operands stay normalised, and `Sign` reports the value. -/
def C29_statement : Prop :=
  ∀ a b : List (BitVec 64), Normalised a → Normalised b →
    (Normalised (gcb a b).2.1 ∧ Normalised (gcb a b).2.2) ∧
    (signOf (gcb a b).2.1 = 0 ↔ wordsVal (gcb a b).2.1 = 0)

/-- The code violates C29: after `GCB(1, 1)` the operands have value 0 and `Sign` 1. -/
theorem C29_violated : ¬ C29_statement := by
  intro h
  have := h [1] [1] (by decide) (by decide)
  revert this
  decide

theorem subPart_length (a r : List (BitVec 64)) : (subPart a r).length = a.length := by
  induction a generalizing r with
  | nil => rfl
  | cons w l ih =>
    cases r with
    | nil => rw [subPart_nil]
    | cons r rs => simp [subPart, ih]

/-- What holds: the number of words never changes, so `Sign` stays 1 for a non-zero operand; the returned number is
normalised. -/
theorem C29_gcb_partial (a b : List (BitVec 64)) :
    (gcb a b).2.1.length = a.length ∧ (gcb a b).2.2.length = b.length ∧
    signOf (gcb a b).2.1 = signOf a ∧ signOf (gcb a b).2.2 = signOf b ∧ Normalised (gcb a b).1 := by
  rw [gcb_eq]
  simp only
  unfold signOf
  rw [subPart_length, subPart_length]
  exact ⟨rfl, rfl, rfl, rfl, normWords_normalised _⟩

theorem normalised_iff (l : List (BitVec 64)) (hl : l ≠ []) :
    Normalised l ↔ 2 ^ (64 * (l.length - 1)) ≤ wordsVal l := by
  induction l with
  | nil => exact absurd rfl hl
  | cons w l ih =>
    cases l with
    | nil =>
      unfold Normalised
      simp only [List.getLast?_singleton, List.length_singleton, wordsVal]
      have hw : w = 0 ↔ w.toNat = 0 := by
        constructor
        · intro h; rw [h]; rfl
        · intro h; exact BitVec.eq_of_toNat_eq h
      simp only [ne_eq, Option.some.injEq]
      rw [hw]
      simp
      omega
    | cons v m =>
      have ih := ih (by simp)
      have h1 : Normalised (w :: v :: m) ↔ Normalised (v :: m) := by
        unfold Normalised; rw [List.getLast?_cons_cons]
      rw [h1, ih, show wordsVal (w :: v :: m) = w.toNat + 2 ^ 64 * wordsVal (v :: m) from rfl]
      have hw := w.isLt
      simp only [List.length_cons, Nat.add_sub_cancel]
      rw [show 64 * (m.length + 1) = 64 + 64 * m.length by ring, pow_add]
      generalize 2 ^ (64 * m.length) = t
      have e : (2 : Nat) ^ 64 = 18446744073709551616 := by norm_num
      rw [e] at hw ⊢
      generalize wordsVal (v :: m) = u
      constructor
      · intro h
        have := Nat.mul_le_mul_left 18446744073709551616 h
        omega
      · intro h
        by_contra hc
        have h2 : u + 1 ≤ t := by omega
        have := Nat.mul_le_mul_left 18446744073709551616 h2
        omega

/-- The exact condition: an operand stays normalised exactly if what is left of it still needs all its words. -/
theorem C29_gcb_normalised_iff_partial (a b : List (BitVec 64)) (ha : a ≠ []) :
    Normalised (gcb a b).2.1 ↔ 2 ^ (64 * (a.length - 1)) ≤ wordsVal a - wordsVal (gcb a b).1 := by
  have h1 := (C29_gcb_partial a b).1
  have h2 := (C27_gcb_splits a b).1
  rw [normalised_iff _ (by intro h; rw [h] at h1; simp at h1; exact ha (List.eq_nil_of_length_eq_zero h1.symm)), h1]
  rw [show wordsVal a - wordsVal (gcb a b).1 = wordsVal (gcb a b).2.1 by omega]

/-- So `Sign` still reports whether the operands were 0 before the call. -/
theorem C29_sign_partial (a b : List (BitVec 64)) (ha : Normalised a) (hb : Normalised b) :
    (signOf (gcb a b).2.1 = 0 ↔ wordsVal a = 0) ∧ (signOf (gcb a b).2.2 = 0 ↔ wordsVal b = 0) := by
  have key : ∀ l : List (BitVec 64), Normalised l → (signOf l = 0 ↔ wordsVal l = 0) := by
    intro l hl
    cases l with
    | nil => exact ⟨fun _ => rfl, fun _ => rfl⟩
    | cons w m =>
      have h1 := (normalised_iff (w :: m) (by simp)).1 hl
      have h2 : 0 < 2 ^ (64 * ((w :: m).length - 1)) := Nat.two_pow_pos _
      have h3 : signOf (w :: m) = 1 := rfl
      rw [h3]
      constructor
      · intro h
        cases h
      · intro h
        omega
  obtain ⟨_, _, h1, h2, _⟩ := C29_gcb_partial a b
  rw [h1, h2]
  exact ⟨key a ha, key b hb⟩

example : signOf (gcb [] [5]).2.1 = 0 ∧ signOf (gcb [5] [5]).2.1 = 1 ∧ wordsVal (gcb [5] [5]).2.1 = 0 := by decide

example : Normalised (gcb [3] [1]).2.1 ∧ ¬ Normalised (gcb [3] [1]).2.2 := by decide

end Verif.Props
