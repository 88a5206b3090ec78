import Verif.Props.Representatives
import Verif.Props.Negation

/-!
# Repaired encodings (C17, C19) and the repaired sign of PoE (C120)

As in RepairedSmall: the function is changed where the counterexample of the property comes from, and the property is proved.
-/

namespace Verif.Props
open Verif.Go Verif.Model Verif.Spec Verif.Lemmas

/-! ## C17: the element and the digests are hashed with different first bytes -/

/-- accumulator/hashes.go:47-58 with the byte 1 before the digest that is hashed again. -/
def tagPrimeLoop (E : Env) : Nat → Bytes → Option Nat
  | 0, _ => none
  | fuel + 1, hashTemp =>
    if E.probablyPrime (setBytes hashTemp) then some (setBytes hashTemp)
    else tagPrimeLoop E fuel (E.sha256 (1 :: hashTemp))

/-- accumulator/hashes.go:37-60 `HashToPrime` with the byte 0 before the element. -/
def tagHashToPrime (E : Env) (fuel : Nat) (input : Bytes) : Option Nat := tagPrimeLoop E fuel (E.sha256 (0 :: input))

/-- The strings that are hashed for an element, one after the other. -/
def tagChain (E : Env) (s : Bytes) : Nat → Bytes
  | 0 => 0 :: s
  | k + 1 => 1 :: E.sha256 (tagChain E s k)

theorem tagPrimeLoop_chain (E : Env) (s : Bytes) (fuel k p : Nat)
    (h : tagPrimeLoop E fuel (E.sha256 (tagChain E s k)) = some p) :
    ∃ j, p = setBytes (E.sha256 (tagChain E s j)) ∧ E.probablyPrime p = true := by
  induction fuel generalizing k with
  | zero => cases h
  | succ fuel ih =>
    rw [tagPrimeLoop] at h
    split at h
    · rename_i hp
      cases h
      exact ⟨k, rfl, hp⟩
    · exact ih (k + 1) h

/-- Two chains that meet have met in a collision, or begin with the same element. -/
theorem tagChain_collision (E : Env) (s t : Bytes) (hst : s ≠ t) (i j : Nat)
    (h : E.sha256 (tagChain E s i) = E.sha256 (tagChain E t j)) :
    ∃ i j, tagChain E s i ≠ tagChain E t j ∧ E.sha256 (tagChain E s i) = E.sha256 (tagChain E t j) := by
  induction i generalizing j with
  | zero =>
    refine ⟨0, j, ?_, h⟩
    cases j with
    | zero => intro e; injection e with _ e; exact hst e
    | succ j => intro e; injection e with e _; revert e; decide
  | succ i ih =>
    cases j with
    | zero => refine ⟨i + 1, 0, ?_, h⟩; intro e; injection e with e _; revert e; decide
    | succ j =>
      by_cases he : E.sha256 (tagChain E s i) = E.sha256 (tagChain E t j)
      · exact ih j he
      · refine ⟨i + 1, j + 1, ?_, h⟩
        intro e; injection e with _ e; exact he e

/-- C17 for the repaired hash: equal representatives of different strings yield a collision among the strings hashed. The
representative still passes the test of primality and has at most 256 bits. -/
theorem C17_repaired_partial (E : Env) (s t : Bytes) (f1 f2 p : Nat) (hst : s ≠ t)
    (h1 : tagHashToPrime E f1 s = some p) (h2 : tagHashToPrime E f2 t = some p) :
    (E.probablyPrime p = true ∧ p < 2 ^ 256) ∧
    ∃ i j, tagChain E s i ≠ tagChain E t j ∧ E.sha256 (tagChain E s i) = E.sha256 (tagChain E t j) := by
  obtain ⟨i, hi, hp⟩ := tagPrimeLoop_chain E s f1 0 p h1
  obtain ⟨j, hj, -⟩ := tagPrimeLoop_chain E t f2 0 p h2
  refine ⟨⟨hp, ?_⟩, tagChain_collision E s t hst i j ?_⟩
  · rw [hi]
    have := setBytes_lt (E.sha256 (tagChain E s i))
    rw [E.sha256_length] at this
    calc _ < 256 ^ 32 := this
      _ = 2 ^ 256 := by norm_num
  · exact setBytes_inj _ _ (by rw [E.sha256_length, E.sha256_length]) (by rw [← hi, ← hj])

/-- The two strings of `C17_violated` have one representative in the code; in the chain of the repaired hash the second one does
not come after the first one. -/
example : hashToPrime swapEnv 2 (digest 2) = hashToPrime swapEnv 2 (digest 4) ∧
    tagChain swapEnv (digest 2) 1 ≠ tagChain swapEnv (digest 4) 0 := by decide

/-- A hash whose values are all 13. -/
example : tagHashToPrime pokeEnv 1 [1] = some 13 ∧ tagHashToPrime pokeEnv 1 [2] = some 13 := by decide

/-! ## C19: only canonical decimals below the field order -/

/-- accumulator/genRep.go:17-26 for one element, with a panic for all strings but the decimals of the numbers below the order of
the field. -/
def diRepresentativeChecked (E : Env) (v : Bytes) : Res Nat :=
  match setString v with
  | none => goPanic "Error parsing hex number"
  | some n =>
    if 0 ≤ n ∧ n < (frOrder : Int) ∧ intString n = v then diRepresentative E v else goPanic "not a canonical number"

theorem diRepresentativeChecked_ok (E : Env) (v : Bytes) (a : Nat) (h : diRepresentativeChecked E v = .ok a) :
    ∃ n : Nat, n < frOrder ∧ v = itoa n ∧ diRepresentative E v = .ok a := by
  unfold diRepresentativeChecked at h
  split at h
  · cases h
  · rename_i n _
    split at h
    · rename_i hc
      obtain ⟨h0, h1, h2⟩ := hc
      obtain ⟨m, rfl⟩ : ∃ m : Nat, n = m := ⟨n.toNat, by omega⟩
      refine ⟨m, by exact_mod_cast h1, ?_, h⟩
      rw [← h2]
      unfold intString
      rw [if_neg (by omega), Int.natAbs_natCast]
    · cases h

/-- C19 for the checked function: with an injective Poseidon different strings have different representatives. -/
theorem C19_repaired_partial (E : Env) (hE : PoseidonInjective E) (s t : Bytes) (a b : Nat) (hst : s ≠ t)
    (h1 : diRepresentativeChecked E s = .ok a) (h2 : diRepresentativeChecked E t = .ok b) : a ≠ b := by
  obtain ⟨m, hm, rfl, ha⟩ := diRepresentativeChecked_ok E s a h1
  obtain ⟨n, hn, rfl, hb⟩ := diRepresentativeChecked_ok E t b h2
  obtain ⟨a', b', ha', hb', hne⟩ := C19_canonical_strings_partial E hE m n hm hn (fun e => hst (by rw [e]))
  rw [ha] at ha'; rw [hb] at hb'
  cases ha'; cases hb'
  exact hne

/-- The check refuses no decimal of a number below the order of the field, and does not change its representative. -/
theorem C19_repaired_same_partial (E : Env) (n : Nat) (hn : n < frOrder) :
    diRepresentativeChecked E (itoa n) = diRepresentative E (itoa n) := by
  unfold diRepresentativeChecked
  rw [setString_itoa]
  have hi : intString (n : Int) = itoa n := by
    unfold intString
    rw [if_neg (by omega), Int.natAbs_natCast]
  dsimp only
  rw [if_pos ⟨by omega, by exact_mod_cast hn, hi⟩]

example : ∃ a b, diRepresentativeChecked idEnv (itoa 1) = .ok a ∧ diRepresentativeChecked idEnv (itoa 2) = .ok b ∧ a ≠ b := by
  have h1 : 1 < frOrder := by decide
  have h2 : 2 < frOrder := by decide
  obtain ⟨a, b, ha, hb, hne⟩ := C19_canonical_strings_partial idEnv idEnv_injective 1 2 h1 h2 (by decide)
  exact ⟨a, b, by rw [C19_repaired_same_partial _ _ h1, ha], by rw [C19_repaired_same_partial _ _ h2, hb], hne⟩

/-- The strings of `C19_violated`: one of them is refused. -/
example : diRepresentativeChecked idEnv [48, 49] = goPanic "not a canonical number" := by
  unfold diRepresentativeChecked
  rw [show setString [48, 49] = some 1 from rfl]
  dsimp only
  rw [if_neg]
  rintro ⟨-, -, h⟩
  revert h
  decide

/-! ## C120: residues up to sign -/

/-- proof/poke.go:178-188 `PoEVerify` for residues up to sign: the statement must be the smaller one of the two numbers, and the
equation may hold with either sign. -/
def poeVerifySigned (E : Env) (fuel : Nat) (base mod C x : Int) (proof : Option PoEProof) : Run Bool :=
  if C < 0 ∨ mod ≤ 2 * C then Run.ok false
  else match proof with
  | none => Run.ok false
  | some proof => do
    let (l, _) ← liftLoop ((poeTranscript base mod C x).getPrimeChallenge E fuel)
    let (_, r) ← divMod x l
    let Q ← deref proof.Q
    let temp ← multiExp Q l base r mod
    return decide (temp = C ∨ mod - temp = C)

/-- C120 for the repaired verifier: if it accepts a statement with some proof, it refuses the negated one with every proof. -/
theorem C120_repaired_partial (E : Env) (fuel : Nat) (base mod C x : Int) (proof proof' : Option PoEProof)
    (h : poeVerifySigned E fuel base mod C x proof = Run.ok true) :
    poeVerifySigned E fuel base mod (mod - C) x proof' = Run.ok false := by
  unfold poeVerifySigned at h ⊢
  split at h
  · cases run_ok_inj h
  · rename_i hc
    rw [if_pos (by omega)]

/-- What the repaired verifier accepts. -/
theorem C120_repaired_decision_partial (E : Env) (fuel : Nat) (N : Nat) (hN : 2 < N) (base C x Q : Int) (l : Nat)
    (hl : HasPrimeChallenge E fuel (poeTranscript base N C x) l) :
    poeVerifySigned E fuel base N C x (some ⟨some Q⟩) = Run.ok true ↔
      (0 ≤ C ∧ 2 * C < N) ∧ ((Q : ZMod N) ^ l * (base : ZMod N) ^ (x % l).toNat = C ∨
        (Q : ZMod N) ^ l * (base : ZMod N) ^ (x % l).toNat = -C) := by
  have : NeZero N := ⟨by omega⟩
  have hch := getPrime_of _ _ _ _ hl
  have hr : 0 ≤ x % (l : Int) := Int.emod_nonneg _ (by have := hl.2; omega)
  unfold poeVerifySigned
  by_cases hc : C < 0 ∨ (N : Int) ≤ 2 * C
  · rw [if_pos hc]
    constructor
    · intro h; cases run_ok_inj h
    · rintro ⟨h, -⟩; omega
  · rw [if_neg hc]
    simp only [hch, liftLoop_some, run_ok_bind, deref, divMod_eq x l hl.2]
    rw [multiExp_eq _ _ _ _ (.inr (by omega)) (.inr hr)]
    simp only [run_ok_bind]
    rw [gpow_nonneg _ (l : Int) (by omega), Int.toNat_natCast, gpow_nonneg _ _ hr]
    generalize (Q : ZMod N) ^ l * (base : ZMod N) ^ (x % (l : Int)).toNat = v
    refine (run_bool_iff _ _ decide_eq_true_iff).trans ?_
    constructor
    · intro h
      refine ⟨by omega, ?_⟩
      rcases h with h | h
      · left; rw [← h, val_cast]
      · right; rw [← h]; push_cast; rw [ZMod.natCast_self, zero_sub, neg_neg]; exact (val_cast v).symm.trans (by norm_cast)
    · rintro ⟨hr, h | h⟩
      · left; rw [h]; exact (eq_val_of_cast (by omega) (by omega) rfl).symm
      · by_cases h0 : C = 0
        · left; rw [h, h0]; simp
        · right
          have : v = ((N - C : Int) : ZMod N) := by rw [h]; push_cast; rw [ZMod.natCast_self, zero_sub]
          rw [this]
          have e := eq_val_of_cast (r := N - C) (z := ((N - C : Int) : ZMod N)) (by omega) (by omega) rfl
          omega

/-- An honest proof is accepted for the smaller one of the two numbers. -/
theorem C120_repaired_honest_partial (E : Env) (fuel : Nat) (N : Nat) (hN : 2 < N) (base C x : Int) (b : (ZMod N)ˣ)
    (hb : (b : ZMod N) = base) (hC : (C : ZMod N) = ((b ^ x : (ZMod N)ˣ) : ZMod N) ∨ (C : ZMod N) = -((b ^ x : (ZMod N)ˣ) : ZMod N))
    (hs : 0 ≤ C ∧ 2 * C < N) (l : Nat) (hl : HasPrimeChallenge E fuel (poeTranscript base N C x) l) :
    poeVerifySigned E fuel base N C x (some ⟨some (((b ^ (x / l) : (ZMod N)ˣ) : ZMod N).val)⟩) = Run.ok true := by
  have : NeZero N := ⟨by omega⟩
  have hr : 0 ≤ x % (l : Int) := Int.emod_nonneg _ (by have := hl.2; omega)
  rw [C120_repaired_decision_partial E fuel N hN base C x _ l hl]
  refine ⟨hs, ?_⟩
  rw [val_cast, ← hb, ← Units.val_pow_eq_pow_val, ← Units.val_pow_eq_pow_val, ← zpow_natCast (b ^ _), ← zpow_mul,
    ← zpow_natCast b, Int.toNat_of_nonneg hr, ← Units.val_mul, ← zpow_add, mul_comm _ (l : Int), Int.mul_ediv_add_emod]
  rcases hC with h | h
  · left; exact h.symm
  · right; rw [h, neg_neg]

/-- 4^5 = 9 modulo 35 is accepted with the proof 4^0 = 1, and 26 is refused with the proof 34 that the code accepts. -/
example : poeVerifySigned pokeEnv 1 4 35 9 5 (some ⟨some 1⟩) = Run.ok true ∧
    poeVerifySigned pokeEnv 1 4 35 26 5 (some ⟨some 34⟩) = Run.ok false := by
  have h := C120_repaired_honest_partial pokeEnv 1 35 (by decide) 4 9 5 four35 rfl (.inl (by decide +kernel)) (by decide) 13
    (pokeEnv_challenge _ rfl)
  have h2 : ((four35 ^ ((5 : Int) / (13 : Nat)) : (ZMod 35)ˣ) : ZMod 35).val = 1 := by decide +kernel
  rw [h2] at h
  exact ⟨h, C120_repaired_partial pokeEnv 1 4 35 9 5 _ _ h⟩

end Verif.Props
