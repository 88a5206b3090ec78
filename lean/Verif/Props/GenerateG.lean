import Mathlib.Data.Nat.Prime.Basic
import Verif.Model.GenerateG
import Verif.Lemmas.Bytes
import Verif.Props.Accumulator
import Verif.Props.Representatives

/-! # Properties C111 (`GenerateG`) and C112 (`PoseidonWith2Inputs`) -/

namespace Verif.Props
open Verif.Go Verif.Model Verif.Lemmas Verif.Spec

/-! ## C111 -/

/-- C111: if the message "g and N not co-prime! We win the RSA-2048 challenge!" is printed, a factor of `N` has been found. -/
def C111_statement : Prop :=
  ∀ E : Env, (generateG E n2048).2.2 = true → 1 < (generateG E n2048).2.1 ∧ (generateG E n2048).2.1 < n2048 ∧
    (generateG E n2048).2.1 ∣ n2048

/-- The numbers `x 0, …, x 7` of the chain: `x 0` is the digest of the decimal digits of `N`, and `x (i+1)` is the digest of the bytes
of `x i` without leading zeros, both read as big-endian numbers. -/
structure DigestChain (E : Env) (N : Nat) (x : Nat → Nat) : Prop where
  first : x 0 = setBytes (E.sha256 (itoa N))
  next : ∀ i, x (i + 1) = setBytes (E.sha256 (natBytes (x i)))

theorem buffer_chain (E : Env) (x : Nat → Nat) (hx : ∀ i, x (i + 1) = setBytes (E.sha256 (natBytes (x i)))) (k i : Nat) (input : Bytes)
    (h : x i = setBytes (E.sha256 input)) : generateGBuffer E k input = (List.range k).map fun j => x (i + j) := by
  induction k generalizing i input with
  | zero => rfl
  | succ k ih =>
    rw [generateGBuffer, List.range_succ_eq_map, List.map_cons, List.map_map]
    have h1 : sha256ToInt E input = x i := h.symm
    rw [h1, ih (i + 1) _ (hx i)]
    congr 1
    exact List.map_congr_left fun j _ => by simp only [Function.comp]; congr 1; omega

/-- For every hash function and every modulus there is exactly one chain, and the printed number is the product of its first eight
numbers modulo `N`; the message is printed exactly if that product and `N` have a common factor. -/
theorem C111_value_partial (E : Env) (N : Nat) :
    ∃ x, DigestChain E N x ∧ (∀ i, x i < 2 ^ 256) ∧ (generateG E N).1 = (x 0 * x 1 * x 2 * x 3 * x 4 * x 5 * x 6 * x 7) % N ∧
      (generateG E N).2.1 = Nat.gcd N (x 0 * x 1 * x 2 * x 3 * x 4 * x 5 * x 6 * x 7) ∧
      ((generateG E N).2.2 = true ↔ ¬ Nat.Coprime N (x 0 * x 1 * x 2 * x 3 * x 4 * x 5 * x 6 * x 7)) := by
  let x : Nat → Nat := fun i => Nat.rec (setBytes (E.sha256 (itoa N))) (fun _ v => setBytes (E.sha256 (natBytes v))) i
  have hx : DigestChain E N x := ⟨rfl, fun _ => rfl⟩
  have hlt : ∀ b, setBytes (E.sha256 b) < 2 ^ 256 := by
    intro b
    have := setBytes_lt (E.sha256 b)
    rw [E.sha256_length] at this
    exact this
  have hbuf := buffer_chain E x hx.next 8 0 (itoa N) hx.first
  have hprod : setProduct (generateGBuffer E 8 (itoa N)) = x 0 * x 1 * x 2 * x 3 * x 4 * x 5 * x 6 * x 7 := by
    rw [hbuf]
    simp [setProduct, List.range_succ]
  have hg : Nat.gcd N ((x 0 * x 1 * x 2 * x 3 * x 4 * x 5 * x 6 * x 7) % N) =
      Nat.gcd N (x 0 * x 1 * x 2 * x 3 * x 4 * x 5 * x 6 * x 7) := by
    rw [Nat.gcd_comm, ← Nat.gcd_rec]
  refine ⟨x, hx, ?_, ?_, ?_, ?_⟩
  · intro i
    cases i with
    | zero => exact hlt _
    | succ i => exact hlt _
  · unfold generateG
    simp only [hprod]
  · unfold generateG
    simp only [hprod, hg]
  · unfold generateG
    simp only [hprod, hg, decide_eq_true_eq]

theorem chain_unique (E : Env) (N : Nat) (x y : Nat → Nat) (hx : DigestChain E N x) (hy : DigestChain E N y) : x = y := by
  funext i
  induction i with
  | zero => rw [hx.first, hy.first]
  | succ i ih => rw [hx.next, hy.next, ih]

theorem coprime_of_small (N v : Nat) (hN : ∀ p, p.Prime → p ∣ N → 2 ^ 256 ≤ p) (h0 : v ≠ 0) (hv : v < 2 ^ 256) : Nat.Coprime N v := by
  by_contra h
  obtain ⟨p, hp, h1, h2⟩ := Nat.Prime.not_coprime_iff_dvd.1 h
  have h3 := hN p hp h1
  have h4 := Nat.le_of_dvd (Nat.pos_of_ne_zero h0) h2
  omega

/-- If all prime factors of `N` have more than 256 bits, the message is printed exactly if one of the eight digests is zero. Then
the printed number is 0 and the common divisor is `N` itself: the message never comes with a factor. -/
theorem C111_never_a_factor (E : Env) (N : Nat) (hN1 : 1 < N) (hN : ∀ p, p.Prime → p ∣ N → 2 ^ 256 ≤ p) (x : Nat → Nat)
    (hx : DigestChain E N x) :
    ((generateG E N).2.2 = true ↔ ∃ i < 8, x i = 0) ∧
      ((generateG E N).2.2 = true → (generateG E N).1 = 0 ∧ (generateG E N).2.1 = N) := by
  obtain ⟨y, hy, hlt, h1, h2, h3⟩ := C111_value_partial E N
  obtain rfl := chain_unique E N y x hy hx
  have hz : (∃ i < 8, y i = 0) → y 0 * y 1 * y 2 * y 3 * y 4 * y 5 * y 6 * y 7 = 0 := by
    rintro ⟨i, hi, h⟩
    interval_cases i <;> simp [h]
  have hiff : ¬ Nat.Coprime N (y 0 * y 1 * y 2 * y 3 * y 4 * y 5 * y 6 * y 7) ↔ ∃ i < 8, y i = 0 := by
    constructor
    · intro h
      by_contra hn
      push Not at hn
      refine h ?_
      have c : ∀ i < 8, Nat.Coprime N (y i) := fun i hi => coprime_of_small N _ hN (hn i hi) (hlt i)
      exact (((((((c 0 (by omega)).mul_right (c 1 (by omega))).mul_right (c 2 (by omega))).mul_right (c 3 (by omega))).mul_right
        (c 4 (by omega))).mul_right (c 5 (by omega))).mul_right (c 6 (by omega))).mul_right (c 7 (by omega))
    · intro h
      rw [hz h, Nat.coprime_zero_right]
      omega
  refine ⟨h3.trans hiff, fun h => ?_⟩
  have h0 := hz (hiff.1 (h3.1 h))
  rw [h1, h2, h0]
  exact ⟨Nat.zero_mod _, Nat.gcd_zero_right _⟩

/-- A hash function whose digests are all zero. -/
def zeroDigest : Env where
  sha256 := fun _ => List.replicate 32 0
  sha256_length := by intro b; rfl
  probablyPrime := fun _ => false
  poseidon := fun _ => 0
  poseidon_lt := fun _ => by decide

theorem zeroDigest_gcd (N : Nat) : (generateG zeroDigest N).2.1 = N := by
  have h : setProduct (generateGBuffer zeroDigest 8 (itoa N)) = 0 := by
    have h0 : ∀ b, sha256ToInt zeroDigest b = 0 := fun b => by
      show setBytes (List.replicate 32 0) = 0
      decide
    simp [generateGBuffer, h0, setProduct]
  unfold generateG
  simp only [h, Nat.zero_mod, Nat.gcd_zero_right]

/-- C111 is violated: with a zero digest the message is printed and the common divisor is `N`. -/
theorem C111_violated : ¬ C111_statement := by
  intro h
  have hg := zeroDigest_gcd n2048
  have h1 := h zeroDigest (by
    have h2 : (generateG zeroDigest n2048).2.2 = decide ((generateG zeroDigest n2048).2.1 ≠ 1) := rfl
    rw [h2, hg]
    decide +kernel)
  rw [hg] at h1
  exact lt_irrefl _ h1.2.1

/-- Both cases of the message: with digests 0 and modulus 35 it is printed, with digests 1 it is not. -/
example : (generateG zeroDigest 35).2.2 = true ∧
    (generateG { zeroDigest with sha256 := fun _ => List.replicate 31 0 ++ [1], sha256_length := fun _ => rfl } 35).2.2 = false := by
  constructor <;> decide +kernel

/-- A modulus with large prime factors exists. -/
example : ∃ N, 1 < N ∧ ∀ p, p.Prime → p ∣ N → 2 ^ 256 ≤ p := by
  obtain ⟨p, h1, h2⟩ := Nat.exists_infinite_primes (2 ^ 256)
  refine ⟨p, h2.one_lt, fun q hq hd => ?_⟩
  rw [(Nat.prime_dvd_prime_iff_eq hq h2).1 hd]
  exact h1

/-! ## C112 -/

/-- C112: `PoseidonWith2Inputs` panics exactly if there are not two numbers; otherwise the result is below the field order, and adding
`Min1024` gives the DI hash of the two field elements in the same order. -/
theorem C112_poseidonWith2Inputs (E : Env) (inputs : List Int) :
    ((poseidonWith2Inputs E inputs).panics = true ↔ inputs.length ≠ 2) ∧
    ∀ a b, inputs = [a, b] → ∃ r a' b' : Nat, poseidonWith2Inputs E inputs = .ok r ∧ r < frOrder ∧ a' < frOrder ∧ b' < frOrder ∧
      (frOrder : Int) ∣ a' - a ∧ (frOrder : Int) ∣ b' - b ∧ r + 2 ^ 1023 = diHashPoseidon E [a', b'] := by
  have hpos : (0 : Int) < (frOrder : Int) := by decide
  have hel : ∀ a : Int, elementFromBigInt a < frOrder ∧ (frOrder : Int) ∣ elementFromBigInt a - a := by
    intro a
    unfold elementFromBigInt
    have h1 := Int.emod_nonneg a hpos.ne'
    have h2 := Int.emod_lt_of_pos a hpos
    refine ⟨by omega, ?_⟩
    rw [Int.toNat_of_nonneg h1]
    exact ⟨-(a / frOrder), by have := Int.emod_add_mul_ediv a frOrder; linarith⟩
  constructor
  · rcases inputs with _ | ⟨a, _ | ⟨b, _ | ⟨c, l⟩⟩⟩ <;> simp [poseidonWith2Inputs, Res.panics, goPanic]
  · rintro a b rfl
    exact ⟨_, _, _, rfl, E.poseidon_lt _, (hel a).1, (hel b).1, (hel a).2, (hel b).2, by
      simp only [diHashPoseidon, min1024, Nat.reduceSub]⟩

/-- Two calls with numbers that are congruent modulo the field order give the same result; the same result for other numbers is a
collision of Poseidon on two different pairs of field elements. -/
theorem C112_congruent (E : Env) (a b a' b' : Int) :
    poseidonWith2Inputs E [a, b] = poseidonWith2Inputs E [a', b'] ↔
      ((frOrder : Int) ∣ a - a' ∧ (frOrder : Int) ∣ b - b') ∨
      ∃ x y x' y' : Nat, x < frOrder ∧ y < frOrder ∧ x' < frOrder ∧ y' < frOrder ∧ (frOrder : Int) ∣ x - a ∧ (frOrder : Int) ∣ y - b ∧
        (frOrder : Int) ∣ x' - a' ∧ (frOrder : Int) ∣ y' - b' ∧ (x, y) ≠ (x', y') ∧ E.poseidon [x, y] = E.poseidon [x', y'] := by
  have hpos : (0 : Int) < (frOrder : Int) := by decide
  have hel : ∀ a : Int, elementFromBigInt a < frOrder ∧ (frOrder : Int) ∣ elementFromBigInt a - a := by
    intro a
    unfold elementFromBigInt
    have h1 := Int.emod_nonneg a hpos.ne'
    have h2 := Int.emod_lt_of_pos a hpos
    refine ⟨by omega, ?_⟩
    rw [Int.toNat_of_nonneg h1]
    exact ⟨-(a / frOrder), by have := Int.emod_add_mul_ediv a frOrder; linarith⟩
  have huniq : ∀ (a : Int) (x : Nat), x < frOrder → (frOrder : Int) ∣ x - a → elementFromBigInt a = x := by
    intro a x hx hd
    have h1 : a % (frOrder : Int) = (x : Int) % frOrder := Int.modEq_iff_dvd.2 hd
    unfold elementFromBigInt
    rw [h1, Int.emod_eq_of_lt (by omega) (by exact_mod_cast hx), Int.toNat_natCast]
  have hmod : ∀ a a' : Int, elementFromBigInt a = elementFromBigInt a' ↔ (frOrder : Int) ∣ a - a' := by
    intro a a'
    constructor
    · intro h
      have h1 := (hel a).2
      have h2 := (hel a').2
      rw [h] at h1
      have := dvd_sub h2 h1
      rwa [sub_sub_sub_cancel_left] at this
    · intro h
      refine huniq a _ (hel a').1 ?_
      have := dvd_sub (hel a').2 h
      rwa [show (elementFromBigInt a' : Int) - a' - (a - a') = elementFromBigInt a' - a by ring] at this
  show (Except.ok _ : Res Nat) = Except.ok _ ↔ _
  constructor
  · intro h
    injection h with h
    by_cases hc : (frOrder : Int) ∣ a - a' ∧ (frOrder : Int) ∣ b - b'
    · exact Or.inl hc
    · refine Or.inr ⟨_, _, _, _, (hel a).1, (hel b).1, (hel a').1, (hel b').1, (hel a).2, (hel b).2, (hel a').2, (hel b').2, ?_, h⟩
      intro he
      rw [Prod.mk.injEq, hmod, hmod] at he
      exact hc he
  · rintro (⟨h1, h2⟩ | ⟨x, y, x', y', h1, h2, h3, h4, d1, d2, d3, d4, -, h⟩)
    · rw [(hmod _ _).2 h1, (hmod _ _).2 h2]
    · rw [huniq a x h1 d1, huniq b y h2 d2, huniq a' x' h3 d3, huniq b' y' h4 d4, h]

/-- A hash that keeps the second element: the order of the two numbers matters. -/
example : ∃ E : Env, poseidonWith2Inputs E [1, 2] = .ok 2 ∧ poseidonWith2Inputs E [2, 1] = .ok 1 ∧
    poseidonWith2Inputs E [1, -1] = .ok (frOrder - 1) ∧ (poseidonWith2Inputs E [1, 2, 3]).panics = true :=
  ⟨{ zeroDigest with
      poseidon := fun l => l.getD 1 0 % frOrder
      poseidon_lt := fun _ => Nat.mod_lt _ (by decide) }, by decide +kernel, by decide +kernel, by decide +kernel, by decide +kernel⟩

end Verif.Props
