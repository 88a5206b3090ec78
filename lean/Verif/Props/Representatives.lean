import Verif.Lemmas.Bytes
import Verif.Lemmas.Hashes
import Mathlib.Logic.Function.Iterate
import Mathlib.Tactic.Ring

/-!
# Properties of representatives and hashes (C15 - C21)
-/

namespace Verif.Props
open Verif.Go Verif.Model Verif.Lemmas

/-! ## C16 -/

theorem hashToPrimeLoop_iff (E : Env) (fuel : Nat) (d : Bytes) (p : Nat) :
    hashToPrimeLoop E fuel d = some p ↔ ∃ k, k < fuel ∧ p = setBytes (E.sha256^[k] d) ∧ E.probablyPrime p = true ∧
      ∀ j, j < k → E.probablyPrime (setBytes (E.sha256^[j] d)) = false := by
  induction fuel generalizing d with
  | zero => simp [hashToPrimeLoop]
  | succ fuel ih =>
    rw [hashToPrimeLoop]
    by_cases ht : E.probablyPrime (setBytes d) = true
    · rw [if_pos ht]
      constructor
      · intro h
        injection h with h
        subst h
        exact ⟨0, by omega, rfl, ht, by omega⟩
      · rintro ⟨k, hk, hp, hpp, hall⟩
        cases k with
        | zero => rw [hp]; rfl
        | succ k =>
          have := hall 0 (by omega)
          simp only [Function.iterate_zero, id_eq] at this
          rw [ht] at this; cases this
    · rw [if_neg ht, ih]
      have ht' : E.probablyPrime (setBytes d) = false := by simpa using ht
      constructor
      · rintro ⟨k, hk, hp, hpp, hall⟩
        refine ⟨k + 1, by omega, by rw [Function.iterate_succ_apply]; exact hp, hpp, ?_⟩
        intro j hj
        cases j with
        | zero => exact ht'
        | succ j => rw [Function.iterate_succ_apply]; exact hall j (by omega)
      · rintro ⟨k, hk, hp, hpp, hall⟩
        cases k with
        | zero => simp only [Function.iterate_zero, id_eq] at hp; rw [← hp] at ht'; rw [ht'] at hpp; cases hpp
        | succ k =>
          refine ⟨k, by omega, by rw [Function.iterate_succ_apply] at hp; exact hp, hpp, ?_⟩
          intro j hj
          have := hall (j + 1) (by omega)
          rw [Function.iterate_succ_apply] at this
          exact this

/-- C16: `HashToPrime` returns `p` (after finitely many rounds) exactly if `p` is the first of the numbers
SHA256(x), SHA256(SHA256(x)), ... that passes the primality test. -/
theorem C16_hashToPrime_first_prime (E : Env) (input : Bytes) (p : Nat) :
    (∃ fuel, hashToPrime E fuel input = some p) ↔
      ∃ k, p = setBytes (E.sha256^[k + 1] input) ∧ E.probablyPrime p = true ∧
        ∀ j, j < k → E.probablyPrime (setBytes (E.sha256^[j + 1] input)) = false := by
  unfold hashToPrime
  constructor
  · rintro ⟨fuel, h⟩
    obtain ⟨k, -, hp, hpp, hall⟩ := (hashToPrimeLoop_iff ..).1 h
    refine ⟨k, by rw [Function.iterate_succ_apply]; exact hp, hpp, ?_⟩
    intro j hj; rw [Function.iterate_succ_apply]; exact hall j hj
  · rintro ⟨k, hp, hpp, hall⟩
    refine ⟨k + 1, (hashToPrimeLoop_iff ..).2 ⟨k, by omega, ?_, hpp, ?_⟩⟩
    · rw [Function.iterate_succ_apply] at hp; exact hp
    · intro j hj; have := hall j hj; rw [Function.iterate_succ_apply] at this; exact this

/-- C16: at most 256 bits, and the same value whenever it returns. -/
theorem C16_hashToPrime_range_unique (E : Env) (input : Bytes) (f1 f2 p q : Nat)
    (h1 : hashToPrime E f1 input = some p) (h2 : hashToPrime E f2 input = some q) : p < 2 ^ 256 ∧ p = q := by
  obtain ⟨k, hp, hpp, hall⟩ := (C16_hashToPrime_first_prime E input p).1 ⟨f1, h1⟩
  obtain ⟨k', hq, hqq, hall'⟩ := (C16_hashToPrime_first_prime E input q).1 ⟨f2, h2⟩
  constructor
  · rw [hp, Function.iterate_succ_apply']
    have := setBytes_lt (E.sha256 (E.sha256^[k] input))
    rw [E.sha256_length] at this
    calc _ < 256 ^ 32 := this
      _ = 2 ^ 256 := by norm_num
  · rcases Nat.lt_trichotomy k k' with h | h | h
    · have := hall' k h; rw [← hp, hpp] at this; cases this
    · subst h; rw [hp, hq]
    · have := hall k' h; rw [← hq, hqq] at this; cases this

/-! A concrete environment: on 32-byte strings SHA-256 is a permutation that swaps the digests with values 2 and 4 and
fixes all others. -/

def digest (n : UInt8) : Bytes := List.replicate 31 0 ++ [n]

def swapEnv : Env where
  sha256 := fun b =>
    if b = digest 2 then digest 4 else if b = digest 4 then digest 2
    else if b.length = 32 then b else digest 4
  sha256_length := by
    intro b
    split
    · rfl
    · split
      · rfl
      · split
        · assumption
        · rfl
  probablyPrime := fun n => n == 2
  poseidon := fun _ => 0
  poseidon_lt := fun _ => by decide

example : hashToPrime swapEnv 2 [] = some 2 ∧ hashToPrime swapEnv 1 [] = none := by decide

/-! ## C15 -/

theorem hashToPrime_det (E : Env) (f1 f2 : Nat) (v : Bytes) (p q : Nat) (h1 : hashToPrime E f1 v = some p)
    (h2 : hashToPrime E f2 v = some q) : p = q := (C16_hashToPrime_range_unique E v f1 f2 p q h1 h2).2

/-- C15: one representative per string. -/
theorem C15_one_per_string (E : Env) (fuel : Nat) (set : List Bytes) (enc : Int) (rep : List Nat)
    (h : genRepresentatives E fuel set enc = Run.ok rep) : rep.length = set.length :=
  genRepresentatives_length _ _ _ _ _ h

/-- C15: the representative at a position depends only on the string there (and the encode type): two calls, on
whatever sets and with whatever bounds, give equal strings equal representatives. -/
theorem C15_pointwise (E : Env) (f1 f2 : Nat) (set1 set2 : List Bytes) (enc : Int) (rep1 rep2 : List Nat)
    (h1 : genRepresentatives E f1 set1 enc = Run.ok rep1) (h2 : genRepresentatives E f2 set2 enc = Run.ok rep2)
    (i j : Nat) (hi : i < set1.length) (hj : j < set2.length) (hv : set1[i] = set2[j]) : rep1[i]? = rep2[j]? := by
  have F1 := (genRepresentatives_ok_iff ..).1 h1
  have F2 := (genRepresentatives_ok_iff ..).1 h2
  have hi' : i < rep1.length := by rw [← F1.length_eq]; exact hi
  have hj' : j < rep2.length := by rw [← F2.length_eq]; exact hj
  have e1 := F1.get hi hi'
  have e2 := F2.get hj hj'
  simp only [List.get_eq_getElem] at e1 e2
  rw [← hv] at e2
  rw [List.getElem?_eq_getElem hi', List.getElem?_eq_getElem hj']
  congr 1
  unfold repOf at e1 e2
  split at e1
  · rename_i hd
    rw [if_pos hd] at e2
    exact run_ok_inj (e1.symm.trans e2)
  · rename_i hd
    rw [if_neg hd] at e2
    rw [liftLoop_ok_iff] at e1 e2
    exact hashToPrime_det E f1 f2 _ _ _ e1 e2

/-- C15: every encode type except the Poseidon one (number 7 of the enumeration) selects hash-to-prime; the zero value of
the type is among them. -/
theorem C15_default_is_hashToPrime (E : Env) (fuel : Nat) (set : List Bytes) (enc : Int) (h : enc ≠ 7) (rep : List Nat) :
    genRepresentatives E fuel set enc = Run.ok rep ↔
      List.Forall₂ (fun v r => hashToPrime E fuel v = some r) set rep := by
  rw [genRepresentatives_ok_iff]
  have : (fun v r => repOf E fuel enc v = Run.ok r) = (fun v r => hashToPrime E fuel v = some r) := by
    funext v r
    unfold repOf
    rw [if_neg (show ¬ enc = diHashFromPoseidon from h)]
    exact propext (liftLoop_ok_iff _ _)
  rw [this]

example : genRepresentatives swapEnv 3 [[1], [2]] 0 = Run.ok [2, 2] ∧
    genRepresentatives swapEnv 3 [[1], [2]] hashToPrimeFromSha256 = Run.ok [2, 2] := by
  constructor <;> rfl

/-! ## C17 (violated) -/

/-- C17 as stated: equal representatives of different strings yield a SHA-256 collision among the strings hashed. -/
def C17_statement : Prop :=
  ∀ (E : Env) (s t : Bytes) (f1 f2 p : Nat), s ≠ t → hashToPrime E f1 s = some p → hashToPrime E f2 t = some p →
    ∃ i j, E.sha256^[i] s ≠ E.sha256^[j] t ∧ E.sha256^[i + 1] s = E.sha256^[j + 1] t

/-- The code violates C17 whatever SHA-256 is: an element and its digest have the same representative whenever the
digest is not prime. -/
theorem C17_digest_has_same_representative (E : Env) (s : Bytes) (p : Nat)
    (hnp : E.probablyPrime (setBytes (E.sha256 s)) = false) :
    (∃ fuel, hashToPrime E fuel s = some p) ↔ ∃ fuel, hashToPrime E fuel (E.sha256 s) = some p := by
  unfold hashToPrime
  constructor
  · rintro ⟨fuel, h⟩
    cases fuel with
    | zero => cases h
    | succ fuel =>
      rw [hashToPrimeLoop, if_neg (by rw [hnp]; simp)] at h
      exact ⟨fuel, h⟩
  · rintro ⟨fuel, h⟩
    refine ⟨fuel + 1, ?_⟩
    rw [hashToPrimeLoop, if_neg (by rw [hnp]; simp)]
    exact h

/-- The negation of C17, with a concrete SHA-256 that has no collision among the strings involved. -/
theorem C17_violated : ¬ C17_statement := by
  intro h
  obtain ⟨i, j, hne, heq⟩ := h swapEnv (digest 2) (digest 4) 2 1 2 (by decide) (by decide) (by decide)
  have horb : ∀ i, (swapEnv.sha256^[i] (digest 2) = digest 2 ∨ swapEnv.sha256^[i] (digest 2) = digest 4) ∧
      (swapEnv.sha256^[i] (digest 4) = digest 2 ∨ swapEnv.sha256^[i] (digest 4) = digest 4) := by
    intro i
    have h24 : swapEnv.sha256 (digest 2) = digest 4 := by decide
    have h42 : swapEnv.sha256 (digest 4) = digest 2 := by decide
    induction i with
    | zero => exact ⟨.inl rfl, .inr rfl⟩
    | succ i ih =>
      obtain ⟨a, b⟩ := ih
      rw [Function.iterate_succ_apply', Function.iterate_succ_apply']
      constructor
      · rcases a with a | a <;> rw [a]
        · exact .inr h24
        · exact .inl h42
      · rcases b with b | b <;> rw [b]
        · exact .inr h24
        · exact .inl h42
  rw [Function.iterate_succ_apply', Function.iterate_succ_apply'] at heq
  rcases (horb i).1 with a | a <;> rcases (horb j).2 with b | b <;> rw [a, b] at hne heq <;>
    revert hne heq <;> decide

theorem chain_collision (E : Env) (s t : Bytes) (k d : Nat) (h : E.sha256^[k] s = E.sha256^[k + d] t) :
    s = E.sha256^[d] t ∨ ∃ i, i < k ∧ E.sha256^[i] s ≠ E.sha256^[i + d] t ∧
      E.sha256^[i + 1] s = E.sha256^[i + d + 1] t := by
  induction k with
  | zero => left; simpa using h
  | succ k ih =>
    by_cases hk : E.sha256^[k] s = E.sha256^[k + d] t
    · rcases ih hk with h' | ⟨i, hi, h'⟩
      · exact .inl h'
      · exact .inr ⟨i, by omega, h'⟩
    · right
      exact ⟨k, by omega, hk, by rw [h, show k + 1 + d = k + d + 1 by omega]⟩

/-- What holds instead: if neither string is an iterated digest of the other, equal representatives yield a collision.
(Strings that are not 32 bytes long are never digests, so for them C17 holds.) -/
theorem C17_no_collision_partial (E : Env) (s t : Bytes) (f1 f2 p : Nat)
    (hs : ∀ k, s ≠ E.sha256^[k] t) (ht : ∀ k, t ≠ E.sha256^[k] s)
    (h1 : hashToPrime E f1 s = some p) (h2 : hashToPrime E f2 t = some p) :
    ∃ i j, E.sha256^[i] s ≠ E.sha256^[j] t ∧ E.sha256^[i + 1] s = E.sha256^[j + 1] t := by
  obtain ⟨k, hp, -, -⟩ := (C16_hashToPrime_first_prime E s p).1 ⟨f1, h1⟩
  obtain ⟨k', hq, -, -⟩ := (C16_hashToPrime_first_prime E t p).1 ⟨f2, h2⟩
  have heq : E.sha256^[k + 1] s = E.sha256^[k' + 1] t := by
    apply setBytes_inj
    · rw [Function.iterate_succ_apply', Function.iterate_succ_apply', E.sha256_length, E.sha256_length]
    · rw [← hp, ← hq]
  rcases Nat.le_total k k' with hk | hk
  · obtain ⟨d, rfl⟩ := Nat.exists_eq_add_of_le hk
    rcases chain_collision E s t (k + 1) d (by rw [heq, show k + 1 + d = k + d + 1 by omega]) with h | ⟨i, -, h3, h4⟩
    · exact absurd h (hs d)
    · exact ⟨i, i + d, h3, h4⟩
  · obtain ⟨d, rfl⟩ := Nat.exists_eq_add_of_le hk
    rcases chain_collision E t s (k' + 1) d (by rw [← heq, show k' + 1 + d = k' + d + 1 by omega]) with h | ⟨i, -, h3, h4⟩
    · exact absurd h (ht d)
    · exact ⟨i + d, i, Ne.symm h3, h4.symm⟩

/-- C17 for strings that are not 32 bytes long (so for all short element names). -/
theorem C17_short_strings_partial (E : Env) (s t : Bytes) (f1 f2 p : Nat) (hst : s ≠ t)
    (hs : s.length ≠ 32) (ht : t.length ≠ 32)
    (h1 : hashToPrime E f1 s = some p) (h2 : hashToPrime E f2 t = some p) :
    ∃ i j, E.sha256^[i] s ≠ E.sha256^[j] t ∧ E.sha256^[i + 1] s = E.sha256^[j + 1] t := by
  refine C17_no_collision_partial E s t f1 f2 p ?_ ?_ h1 h2
  · intro k hk
    cases k with
    | zero => exact hst hk
    | succ k => rw [Function.iterate_succ_apply'] at hk; exact hs (by rw [hk]; exact E.sha256_length _)
  · intro k hk
    cases k with
    | zero => exact hst hk.symm
    | succ k => rw [Function.iterate_succ_apply'] at hk; exact ht (by rw [hk]; exact E.sha256_length _)

example : hashToPrime swapEnv 2 [1] = some 2 ∧ hashToPrime swapEnv 2 [2] = some 2 ∧ ([1] : Bytes).length ≠ 32 := by decide

/-- The first digest is the same. -/
example : ∃ i j, swapEnv.sha256^[i] [1] ≠ swapEnv.sha256^[j] [2] ∧ swapEnv.sha256^[i + 1] [1] = swapEnv.sha256^[j + 1] [2] := by
  have hne : ∀ s t : Bytes, s.length = 1 → s ≠ t → ∀ k, s ≠ swapEnv.sha256^[k] t := by
    intro s t hs hst k h
    cases k with
    | zero => exact hst h
    | succ k =>
      rw [Function.iterate_succ_apply'] at h
      have := swapEnv.sha256_length (swapEnv.sha256^[k] t)
      rw [← h, hs] at this
      exact absurd this (by decide)
  exact C17_no_collision_partial swapEnv [1] [2] 2 2 2 (hne _ _ rfl (by decide)) (hne _ _ rfl (by decide)) (by decide) (by decide)

/-! ## C18 -/

theorem frOrder_lt : frOrder < min1024 := by
  have h1 : frOrder < 2 ^ 256 := by decide
  have h2 : 2 ^ 256 ≤ 2 ^ (1024 - 1) := Nat.pow_le_pow_right (by decide) (by decide)
  exact Nat.lt_of_lt_of_le h1 h2

theorem two_pow_1023 : (2 : Nat) ^ 1023 = min1024 := rfl

theorem two_pow_1024 : (2 : Nat) ^ 1024 = min1024 + min1024 := by
  rw [← two_pow_1023, ← Nat.two_mul, ← pow_succ']

attribute [local irreducible] min1024

theorem diHash_eq (E : Env) (input : List Nat) : diHashPoseidon E input = E.poseidon input + min1024 := rfl

/-- C18: DI representatives: range (exactly 1024 bits), for every list of Poseidon inputs. -/
theorem C18_diHash_range (E : Env) (input : List Nat) :
    2 ^ 1023 ≤ diHashPoseidon E input ∧ diHashPoseidon E input < 2 ^ 1023 + frOrder ∧
    diHashPoseidon E input < 2 ^ 1024 ∧ poseidonAndDIHash E input = (E.poseidon input, diHashPoseidon E input) := by
  have h1 := E.poseidon_lt input
  have h2 := frOrder_lt
  have h3 : poseidonAndDIHash E input = (E.poseidon input, diHashPoseidon E input) := rfl
  refine ⟨?_, ?_, ?_, h3⟩
  all_goals
    rw [diHash_eq]
    first | rw [two_pow_1023] | rw [two_pow_1024]
    generalize min1024 = M at *
    omega

/-- C18: no representative divides a different one, and they are equal exactly if the Poseidon hashes are. -/
theorem C18_diHash_no_division (E : Env) (a b : List Nat) :
    (diHashPoseidon E a ∣ diHashPoseidon E b → diHashPoseidon E a = diHashPoseidon E b) ∧
    (diHashPoseidon E a = diHashPoseidon E b ↔ E.poseidon a = E.poseidon b) := by
  have h1 := E.poseidon_lt a
  have h1' := E.poseidon_lt b
  have h2 := frOrder_lt
  rw [diHash_eq, diHash_eq]
  generalize min1024 = M at *
  generalize E.poseidon a = x at *
  generalize E.poseidon b = y at *
  constructor
  · rintro ⟨k, hk⟩
    match k with
    | 0 => rw [Nat.mul_zero] at hk; omega
    | 1 => rw [Nat.mul_one] at hk; exact hk.symm
    | k + 2 =>
      exfalso
      have : (x + M) * 2 ≤ (x + M) * (k + 2) := Nat.mul_le_mul_left _ (by omega)
      omega
  · omega

theorem di_representative_form (E : Env) (fuel : Nat) (set : List Bytes) (rep : List Nat)
    (h : genRepresentatives E fuel set diHashFromPoseidon = Run.ok rep) (r : Nat) (hr : r ∈ rep) :
    ∃ e, r = diHashPoseidon E e := by
  have F := (genRepresentatives_ok_iff ..).1 h
  obtain ⟨i, hi, rfl⟩ := List.getElem_of_mem hr
  have hi' : i < set.length := by rw [F.length_eq]; exact hi
  have e1 := F.get hi' hi
  simp only [List.get_eq_getElem] at e1
  unfold repOf at e1
  rw [if_pos rfl, liftRes_ok_iff] at e1
  unfold diRepresentative at e1
  cases he : elementFromString set[i] with
  | error m => rw [he] at e1; cases e1
  | ok e => rw [he] at e1; injection e1 with e1; exact ⟨[e], e1.symm⟩

/-- C18 for the representatives produced by `GenRepresentatives`: every one is the DI hash of some field element. -/
theorem C18_genRepresentatives_di (E : Env) (fuel : Nat) (set : List Bytes) (rep : List Nat)
    (h : genRepresentatives E fuel set diHashFromPoseidon = Run.ok rep) (r : Nat) (hr : r ∈ rep) :
    (2 ^ 1023 ≤ r ∧ r < 2 ^ 1024) ∧ ∀ r' ∈ rep, r ∣ r' → r = r' := by
  have key : ∀ r ∈ rep, ∃ e, r = diHashPoseidon E e := fun r hr => di_representative_form E fuel set rep h r hr
  obtain ⟨e, rfl⟩ := key r hr
  refine ⟨⟨(C18_diHash_range E e).1, (C18_diHash_range E e).2.2.1⟩, ?_⟩
  intro r' hr' hd
  obtain ⟨e', rfl⟩ := key r' hr'
  exact (C18_diHash_no_division E e e').1 hd

/-! ## C19 (violated) -/

/-- An environment with an injective Poseidon on one input. -/
def idEnv : Env where
  sha256 := fun _ => digest 2
  sha256_length := fun _ => rfl
  probablyPrime := fun n => n == 2
  poseidon := fun l => match l with
    | [x] => x % frOrder
    | _ => 0
  poseidon_lt := fun l => by
    split
    · exact Nat.mod_lt _ (by decide)
    · decide

/-- Poseidon is injective on single field elements. -/
def PoseidonInjective (E : Env) : Prop := ∀ x y, x < frOrder → y < frOrder → E.poseidon [x] = E.poseidon [y] → x = y

theorem idEnv_injective : PoseidonInjective idEnv := by
  intro x y hx hy h
  have h' : x % frOrder = y % frOrder := h
  rwa [Nat.mod_eq_of_lt hx, Nat.mod_eq_of_lt hy] at h'

/-- C19, first half, as stated. -/
def C19_statement : Prop :=
  ∀ E : Env, PoseidonInjective E → ∀ (s t : Bytes) (a b : Nat), s ≠ t →
    diRepresentative E s = .ok a → diRepresentative E t = .ok b → a ≠ b

/-- The code violates it: "1" and "01" have the same representative, for every Poseidon. -/
theorem C19_violated : ¬ C19_statement := by
  intro h
  refine h idEnv idEnv_injective [49] [48, 49] _ _ (by decide) rfl rfl rfl

theorem natCast_add_mul_emod (n k r : Nat) : ((n + k * r : Nat) : Int) % (r : Int) = (n : Int) % (r : Int) := by
  rw [← Int.natCast_mod, Nat.add_mul_mod_self_right, Int.natCast_mod]

theorem diRepresentative_congr (E : Env) (m n : Nat) (h : (m : Int) % (frOrder : Int) = (n : Int) % (frOrder : Int)) :
    diRepresentative E (itoa n) = diRepresentative E (itoa m) := by
  have hs : elementFromString (itoa n) = elementFromString (itoa m) := by
    unfold elementFromString
    rw [setString_itoa, setString_itoa]
    unfold elementFromBigInt
    simp only [h]
  unfold diRepresentative
  rw [hs]

/-- Second family of violations, for every Poseidon: numbers that differ by a multiple of the field order. -/
theorem C19_congruent_numbers_collide (E : Env) (n k : Nat) :
    diRepresentative E (itoa n) = diRepresentative E (itoa (n + k * frOrder)) :=
  diRepresentative_congr E _ n (natCast_add_mul_emod n k frOrder)

/-- What holds: canonical decimal strings of numbers below the field order have different representatives. -/
theorem C19_canonical_strings_partial (E : Env) (hE : PoseidonInjective E) (m n : Nat) (hm : m < frOrder)
    (hn : n < frOrder) (hmn : m ≠ n) :
    ∃ a b, diRepresentative E (itoa m) = .ok a ∧ diRepresentative E (itoa n) = .ok b ∧ a ≠ b := by
  have hel : ∀ n : Nat, n < frOrder → elementFromBigInt (n : Int) = n := by
    intro n hn
    unfold elementFromBigInt
    rw [Int.emod_eq_of_lt (by omega) (by exact_mod_cast hn)]; simp
  have hrep : ∀ n : Nat, n < frOrder → diRepresentative E (itoa n) = .ok (E.poseidon [n] + min1024) := by
    intro n hn
    unfold diRepresentative elementFromString
    rw [setString_itoa]
    show Except.ok (E.poseidon [elementFromBigInt (n : Int)] + min1024) = _
    rw [hel n hn]
  refine ⟨_, _, hrep m hm, hrep n hn, ?_⟩
  intro h
  exact hmn (hE m n hm hn (by omega))

example : ∃ a b, diRepresentative idEnv (itoa 1) = .ok a ∧ diRepresentative idEnv (itoa 12) = .ok b ∧ a ≠ b :=
  C19_canonical_strings_partial idEnv idEnv_injective 1 12 (by decide) (by decide) (by decide)

/-- C19, second half: a string is accepted exactly if it is an optional sign followed by one or more decimal digits;
all others panic. -/
theorem C19_accepted_strings (E : Env) (v : Bytes) :
    (diRepresentative E v).panics = false ↔
      ∃ sign ds : Bytes, v = sign ++ ds ∧ (sign = [] ∨ sign = [45] ∨ sign = [43]) ∧ ds ≠ [] ∧
        ∀ c ∈ ds, 48 ≤ c.toNat ∧ c.toNat ≤ 57 := by
  have := setString_isSome v
  unfold allDigits at this
  rw [← this]
  unfold diRepresentative elementFromString
  cases setString v with
  | none => simp [goPanic, Res.panics, bind, Except.bind]
  | some n => simp [Res.panics, bind, Except.bind]

example : (diRepresentative idEnv [49, 50]).panics = false ∧ (diRepresentative idEnv [97]).panics = true := by
  constructor <;> rfl

/-! ## C20 -/

/-- C20: benchmark sets. -/
theorem C20_genBenchSet (n : Nat) :
    (genBenchSet n).length = n ∧ (genBenchSet n).Nodup ∧
    ∀ (i : Nat) (h : i < (genBenchSet n).length), setString (genBenchSet n)[i] = some (i : Int) := by
  refine ⟨by simp [genBenchSet], ?_, ?_⟩
  · unfold genBenchSet
    exact List.Nodup.map (fun a b h => itoa_injective a b h) List.nodup_range
  · intro i h
    simp only [genBenchSet, List.getElem_map, List.getElem_range]
    exact setString_itoa i

/-- C20, consequence: the whole benchmark set is accepted by the Poseidon encoding, for every size. -/
theorem C20_genBenchSet_accepted (E : Env) (fuel n : Nat) :
    genRepresentatives E fuel (genBenchSet n) diHashFromPoseidon
      = Run.ok ((List.range n).map (fun i => E.poseidon [i % frOrder] + min1024)) := by
  rw [genRepresentatives_ok_iff]
  unfold genBenchSet
  rw [List.forall₂_map_left_iff, List.forall₂_map_right_iff]
  apply List.forall₂_same.2
  intro i _
  unfold repOf
  rw [if_pos rfl, liftRes_ok_iff]
  unfold diRepresentative elementFromString
  rw [setString_itoa]
  show Except.ok (E.poseidon [elementFromBigInt (i : Int)] + min1024) = _
  have : elementFromBigInt (i : Int) = i % frOrder := by
    unfold elementFromBigInt
    rw [← Int.natCast_mod, Int.toNat_natCast]
  rw [this]

example : genBenchSet 12 = [[48], [49], [50], [51], [52], [53], [54], [55], [56], [57], [49, 48], [49, 49]] := by decide

/-! ## C21 -/

/-- C21, for all parameters with positive `P`. -/
theorem C21_universalHash (A B P x : Int) (hP : 0 < P) :
    universalHashToInt A B P x % 2 = 1 ∧ 1 ≤ universalHashToInt A B P x ∧ universalHashToInt A B P x ≤ P ∧
    universalHashToInt A B P x =
      (if (A * x + B) % P % 2 = 1 then (A * x + B) % P else (A * x + B) % P + 1) := by
  have hkey : (x * A % P + B) % P = (A * x + B) % P := by
    rw [Int.emod_add_emod, mul_comm]
  have h1 : 0 ≤ (A * x + B) % P := Int.emod_nonneg _ (by omega)
  have h2 : (A * x + B) % P < P := Int.emod_lt_of_pos _ hP
  unfold universalHashToInt
  simp only [hkey]
  generalize (A * x + B) % P = r at h1 h2
  split
  · rw [if_neg (by omega)]; omega
  · rw [if_pos (by omega)]; omega

example : universalHashToInt 10 3 17 4 = 9 ∧ universalHashToInt 10 3 17 1 = 13 ∧ universalHashToInt 1 0 17 4 = 5 := by decide

end Verif.Props
