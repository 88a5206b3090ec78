import Verif.Go.Bytes
import Mathlib.Data.Nat.Digits.Lemmas
import Mathlib.Data.Nat.Size
import Mathlib.Tactic.Ring

/-! # Lemmas about byte strings and decimal strings -/

namespace Verif.Lemmas
open Verif.Go

theorem setBytes_append (a : Bytes) (c : UInt8) : setBytes (a ++ [c]) = setBytes a * 256 + c.toNat := by
  simp [setBytes]

theorem setBytes_lt (b : Bytes) : setBytes b < 256 ^ b.length := by
  induction b using List.reverseRecOn with
  | nil => simp [setBytes]
  | append_singleton a c ih =>
    rw [setBytes_append, List.length_append, List.length_singleton, pow_succ]
    have := c.toNat_lt
    omega

theorem setBytes_inj (a b : Bytes) (hl : a.length = b.length) (h : setBytes a = setBytes b) : a = b := by
  induction a using List.reverseRecOn generalizing b with
  | nil => exact (List.eq_nil_of_length_eq_zero (by simpa using hl.symm)).symm
  | append_singleton a c ih =>
    rcases List.eq_nil_or_concat b with rfl | ⟨b', d, rfl⟩
    · simp at hl
    · rw [List.concat_eq_append] at h hl ⊢
      rw [setBytes_append, setBytes_append] at h
      have h1 := c.toNat_lt
      have h2 := d.toNat_lt
      have hcd : c.toNat = d.toNat := by omega
      have hab : setBytes a = setBytes b' := by omega
      rw [ih b' (by simpa using hl) hab, UInt8.toNat_inj.1 hcd]

theorem setBytes_append' (a b : Bytes) : setBytes (a ++ b) = setBytes a * 256 ^ b.length + setBytes b := by
  induction b using List.reverseRecOn with
  | nil => simp [setBytes]
  | append_singleton b c ih =>
    rw [← List.append_assoc, setBytes_append, ih, setBytes_append, List.length_append, List.length_singleton, pow_succ]
    ring

theorem setBytes_natBytes (n : Nat) : setBytes (natBytes n) = n := by
  induction n using Nat.strong_induction_on with
  | _ n ih =>
    by_cases hn : n = 0
    · subst hn; rfl
    · unfold natBytes
      rw [Nat.digits_def' (by norm_num) (by omega), List.reverse_cons, List.map_append]
      have h1 : (UInt8.ofNat (n % 256)).toNat = n % 256 := by
        rw [UInt8.toNat_ofNat']; omega
      show setBytes (_ ++ [UInt8.ofNat (n % 256)]) = n
      rw [setBytes_append, h1]
      have h2 := ih (n / 256) (by omega)
      unfold natBytes at h2
      rw [h2]; omega

theorem natBytes_zero : natBytes 0 = [] := rfl

theorem natBytes_length (n : Nat) : (natBytes n).length = (n.size + 7) / 8 := by
  unfold natBytes
  rw [List.length_map, List.length_reverse]
  have e : ∀ k : Nat, (256 : Nat) ^ k = 2 ^ (8 * k) := by
    intro k; rw [show (256 : Nat) = 2 ^ 8 by norm_num, ← pow_mul]
  apply le_antisymm
  · by_contra h
    have hn : n ≠ 0 := by rintro rfl; simp at h
    have h1 := Nat.base_pow_length_digits_le 256 n (by norm_num) hn
    have h2 : n < 2 ^ n.size := Nat.lt_size_self n
    have h3 : 2 ^ (n.size + 8) ≤ 256 ^ (Nat.digits 256 n).length := by
      rw [e]
      exact Nat.pow_le_pow_right (by norm_num) (by omega)
    rw [pow_add] at h3
    omega
  · have h1 : n < 256 ^ (Nat.digits 256 n).length := Nat.lt_base_pow_length_digits (by norm_num)
    rw [e] at h1
    have := Nat.size_le.2 h1
    omega

theorem digitByte_toNat (d : Nat) (h : d < 10) : (digitByte d).toNat = 48 + d := by
  unfold digitByte
  rw [UInt8.toNat_ofNat']
  omega

theorem digitVal_digitByte (d : Nat) (h : d < 10) : digitVal (digitByte d) = some d := by
  unfold digitVal
  rw [digitByte_toNat d h]
  simp
  omega

/-- One step of the digit loop. -/
def parseStep (acc : Option Nat) (c : UInt8) : Option Nat :=
  match acc, digitVal c with
  | some a, some d => some (a * 10 + d)
  | _, _ => none

theorem parseDigits_eq (b : Bytes) : parseDigits b = if b = [] then none else b.foldl parseStep (some 0) := rfl

theorem foldl_parseStep_digits (l : List Nat) (h : ∀ d ∈ l, d < 10) (a : Nat) :
    (l.map digitByte).foldl parseStep (some a) = some (l.foldl (fun x d => x * 10 + d) a) := by
  induction l generalizing a with
  | nil => rfl
  | cons d l ih =>
    have h1 : parseStep (some a) (digitByte d) = some (a * 10 + d) := by
      simp [parseStep, digitVal_digitByte d (h d List.mem_cons_self)]
    rw [List.map_cons, List.foldl_cons, List.foldl_cons, h1]
    exact ih (fun e he => h e (List.mem_cons_of_mem _ he)) _

theorem foldl_digits_reverse (l : List Nat) : (l.reverse).foldl (fun x d => x * 10 + d) 0 = Nat.ofDigits 10 l := by
  rw [List.foldl_reverse]
  induction l with
  | nil => rfl
  | cons d l ih =>
    rw [List.foldr_cons, ih, Nat.ofDigits_cons]
    ring

theorem itoa_ne_nil (n : Nat) : itoa n ≠ [] := by
  unfold itoa
  split
  · simp
  · rename_i h
    simp [Nat.digits_ne_nil_iff_ne_zero, h]

theorem parseDigits_itoa (n : Nat) : parseDigits (itoa n) = some n := by
  rw [parseDigits_eq, if_neg (itoa_ne_nil n)]
  unfold itoa
  split
  · rename_i h; subst h; decide
  · rw [foldl_parseStep_digits, foldl_digits_reverse, Nat.ofDigits_digits]
    intro d hd
    exact Nat.digits_lt_base (by decide) (List.mem_reverse.1 hd)

/-- All bytes are decimal digits. -/
def allDigits (b : Bytes) : Prop := ∀ c ∈ b, 48 ≤ c.toNat ∧ c.toNat ≤ 57

theorem itoa_allDigits (n : Nat) : allDigits (itoa n) := by
  intro c hc
  unfold itoa at hc
  split at hc
  · simp only [List.mem_singleton] at hc; subst hc; decide
  · obtain ⟨d, hd, rfl⟩ := List.mem_map.1 hc
    have := Nat.digits_lt_base (b := 10) (by decide) (List.mem_reverse.1 hd)
    rw [digitByte_toNat d this]; omega

theorem setString_of_digits (v : Bytes) (h : allDigits v) : setString v = (parseDigits v).map (fun n : Nat => (n : Int)) := by
  unfold setString
  split
  · rename_i rest
    exact absurd (h 45 List.mem_cons_self) (by decide)
  · rename_i rest
    exact absurd (h 43 List.mem_cons_self) (by decide)
  · rfl

theorem setString_itoa (n : Nat) : setString (itoa n) = some (n : Int) := by
  rw [setString_of_digits _ (itoa_allDigits n), parseDigits_itoa]; rfl

theorem itoa_injective (a b : Nat) (h : itoa a = itoa b) : a = b := by
  have := parseDigits_itoa a
  rw [h, parseDigits_itoa] at this
  injection this with this; exact this.symm

theorem foldl_parseStep_none (l : Bytes) : l.foldl parseStep none = none := by
  induction l with
  | nil => rfl
  | cons c l ih => exact ih

theorem foldl_parseStep_isSome (l : Bytes) (a : Nat) : (l.foldl parseStep (some a)).isSome ↔ allDigits l := by
  induction l generalizing a with
  | nil => simp [allDigits]
  | cons c l ih =>
    rw [List.foldl_cons]
    by_cases hc : 48 ≤ c.toNat ∧ c.toNat ≤ 57
    · have : parseStep (some a) c = some (a * 10 + (c.toNat - 48)) := by
        simp [parseStep, digitVal, hc]
      rw [this, ih]
      unfold allDigits
      simp [hc]
    · have : parseStep (some a) c = none := by
        simp [parseStep, digitVal, hc]
      rw [this, foldl_parseStep_none]
      unfold allDigits
      simp
      intro h1 h2
      exact absurd ⟨h1, h2⟩ hc

theorem parseDigits_isSome (b : Bytes) : (parseDigits b).isSome ↔ b ≠ [] ∧ allDigits b := by
  rw [parseDigits_eq]
  split
  · rename_i h; simp [h]
  · rename_i h
    rw [foldl_parseStep_isSome]
    simp [h]

theorem setString_isSome (v : Bytes) : (setString v).isSome ↔
    ∃ sign ds : Bytes, v = sign ++ ds ∧ (sign = [] ∨ sign = [45] ∨ sign = [43]) ∧ ds ≠ [] ∧ allDigits ds := by
  unfold setString
  split
  · rename_i rest
    rw [Option.isSome_map, parseDigits_isSome]
    constructor
    · rintro ⟨h1, h2⟩; exact ⟨[45], rest, rfl, .inr (.inl rfl), h1, h2⟩
    · rintro ⟨sign, ds, h, hs, h1, h2⟩
      rcases hs with rfl | rfl | rfl
      · simp only [List.nil_append] at h
        subst h
        exact absurd (h2 45 List.mem_cons_self) (by decide)
      · simp only [List.singleton_append, List.cons.injEq, true_and] at h
        subst h; exact ⟨h1, h2⟩
      · simp at h
  · rename_i rest
    rw [Option.isSome_map, parseDigits_isSome]
    constructor
    · rintro ⟨h1, h2⟩; exact ⟨[43], rest, rfl, .inr (.inr rfl), h1, h2⟩
    · rintro ⟨sign, ds, h, hs, h1, h2⟩
      rcases hs with rfl | rfl | rfl
      · simp only [List.nil_append] at h
        subst h
        exact absurd (h2 43 List.mem_cons_self) (by decide)
      · simp at h
      · simp only [List.singleton_append, List.cons.injEq, true_and] at h
        subst h; exact ⟨h1, h2⟩
  · rename_i hm hp
    rw [Option.isSome_map, parseDigits_isSome]
    constructor
    · rintro ⟨h1, h2⟩; exact ⟨[], v, rfl, .inl rfl, h1, h2⟩
    · rintro ⟨sign, ds, h, hs, h1, h2⟩
      rcases hs with rfl | rfl | rfl
      · simp only [List.nil_append] at h
        subst h; exact ⟨h1, h2⟩
      · exact absurd h (hm _)
      · exact absurd h (hp _)

end Verif.Lemmas
