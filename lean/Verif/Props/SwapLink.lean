import Verif.Props.MultiSwap
import Verif.Lemmas.Poke
import Mathlib.Data.ZMod.Units
import Mathlib.RingTheory.Coprime.Lemmas

/-!
# Property C122: the remainders of MultiSwap tie the accumulators to the update

The circuit proves that `remainderR1` and `remainderR2` are the remainders of the products of the removed and of the inserted
representatives. They are meant for the check `Q^l acc_mid^r = acc` of a proof of exponentiation, as written in the comments of
experiments/finaltests.go:312-318. The challenges come from `SetupTranscript`.
-/

namespace Verif.Props
open Verif.Go Verif.Model Verif.Lemmas Verif.Spec

/-- Product of the representatives of the removed records and of the blinding factors. -/
def removedProd (E : Env) (c : Circuit) : Nat :=
  (∏ i ∈ Finset.range c.userID.length, (oldRecord E c i + 2 ^ 1023)) * blinding E c.randomizer1

/-- Product of the representatives of the inserted records and of the blinding factors. -/
def insertedProd (E : Env) (c : Circuit) : Nat :=
  (∏ i ∈ Finset.range c.userID.length, (newRecord E c i + 2 ^ 1023)) * blinding E c.randomizer2

/-- What a verifier of an update can check: the challenges are those of the transcript, the circuit accepts, with deltas that
belong to 2^1023, and both proofs of exponentiation hold with the remainders of the circuit. -/
structure SwapChecks (E : Env) (fuel : Nat) (G : Int) (N : Nat) (epoch : UInt32) (c : Circuit) (old mid new Q1 Q2 : (ZMod N)ˣ) :
    Prop where
  challenges : (runOps E fuel (setupTranscript G N (old : ZMod N).val (mid : ZMod N).val (new : ZMod N).val epoch)
    [.challenge, .challenge]).map Prod.fst = some [c.challengeL1, c.challengeL2]
  epoch : c.currentEpochNum = epoch.toNat
  delta1 : c.deltaModL1 = 2 ^ 1023 % c.challengeL1
  delta2 : c.deltaModL2 = 2 ^ 1023 % c.challengeL2
  circuit : define E c = .ok true
  first : Q1 ^ c.challengeL1 * mid ^ c.remainderR1 = old
  second : Q2 ^ c.challengeL2 * mid ^ c.remainderR2 = new

/-- No sum of a record hash and a delta reaches the field order (see C63 and C98). -/
def RecordsFit (E : Env) (c : Circuit) : Prop :=
  (∀ i, i < c.userID.length → oldRecord E c i + c.deltaModL1 < frOrder) ∧
  ∀ i, i < c.userID.length → newRecord E c i + c.deltaModL2 < frOrder

/-- C122: if all checks pass, the old and the new accumulator are the powers of the middle one by the two products. -/
def C122_statement : Prop := ∀ (E : Env) (fuel : Nat) (G : Int) (N : Nat) (epoch : UInt32) (c : Circuit)
  (old mid new Q1 Q2 : (ZMod N)ˣ), 0 < N → RecordsFit E c → SwapChecks E fuel G N epoch c old mid new Q1 Q2 →
  old = mid ^ removedProd E c ∧ new = mid ^ insertedProd E c

/-- Two numbers coprime to two coprime moduli have a common inverse pair. -/
theorem inverse_zero (R l m : Nat) (h : Nat.Coprime R l) (hlm : Nat.Coprime l m) :
    ∃ a s t : Int, a * R = 1 + l * s ∧ a = m * t := by
  have h1 : IsCoprime ((m * R : Nat) : Int) (l : Int) := by
    rw [Nat.isCoprime_iff_coprime]
    exact Nat.Coprime.mul_left hlm.symm h
  obtain ⟨u, v, huv⟩ := h1
  refine ⟨u * m, -v, u, ?_, by ring⟩
  push_cast at huv
  linear_combination huv

/-- C122: for every old and every new accumulator, related or not, a middle accumulator and both proofs are computed from the
two accumulators, the challenges and the remainders. The challenges are known before the accumulators are chosen, since
the transcript does not contain them. -/
theorem C122_forged (E : Env) (fuel : Nat) (G : Int) (N : Nat) (epoch : UInt32) (c : Circuit) (x y z : Int)
    (hch : (runOps E fuel (setupTranscript G N x y z epoch) [.challenge, .challenge]).map Prod.fst =
      some [c.challengeL1, c.challengeL2])
    (hepoch : c.currentEpochNum = epoch.toNat) (d1 : c.deltaModL1 = 2 ^ 1023 % c.challengeL1)
    (d2 : c.deltaModL2 = 2 ^ 1023 % c.challengeL2) (hdef : define E c = .ok true)
    (hl : Nat.Coprime c.challengeL1 c.challengeL2) (h1 : Nat.Coprime c.remainderR1 c.challengeL1)
    (h2 : Nat.Coprime c.remainderR2 c.challengeL2) (old new : (ZMod N)ˣ) :
    ∃ a b : Int, ∃ Q1 Q2 : (ZMod N)ˣ, SwapChecks E fuel G N epoch c old (old ^ a * new ^ b) new Q1 Q2 := by
  obtain ⟨a, s, t, e1, e2⟩ := inverse_zero c.remainderR1 c.challengeL1 c.challengeL2 h1 hl
  obtain ⟨b, s', t', f1, f2⟩ := inverse_zero c.remainderR2 c.challengeL2 c.challengeL1 h2 hl.symm
  have key : ∀ (p q : (ZMod N)ˣ) (a b s t : Int) (R l : Nat), a * R = 1 + l * s → b = l * t →
      (p ^ (-s) * q ^ (-(t * R))) ^ l * (p ^ a * q ^ b) ^ R = p := by
    intro p q a b s t R l ha hb
    have e3 : (p ^ a) ^ R = p * p ^ (s * l) := by
      rw [← zpow_natCast (p ^ a), ← zpow_mul, ha, zpow_add, zpow_one, mul_comm (l : Int)]
    have e4 : (q ^ b) ^ R = q ^ (t * R * l) := by
      rw [← zpow_natCast (q ^ b), ← zpow_mul, hb]
      congr 1
      ring
    rw [mul_pow, mul_pow, e3, e4, ← zpow_natCast (p ^ (-s)), ← zpow_natCast (q ^ _), ← zpow_mul, ← zpow_mul, neg_mul, neg_mul,
      zpow_neg, zpow_neg, mul_mul_mul_comm, inv_mul_cancel, mul_one, mul_left_comm, inv_mul_cancel, mul_one]
  refine ⟨a, b, old ^ (-s) * new ^ (-(t' * c.remainderR1)), new ^ (-s') * old ^ (-(t * c.remainderR2)),
    hch, hepoch, d1, d2, hdef, ?_, ?_⟩
  · exact key old new a b s t' _ _ e1 f2
  · rw [mul_comm (old ^ a)]
    exact key new old b a s' t _ _ f1 e2

/-- A hash for examples: the first challenge of the transcript of 4, 35 and epoch 20 is 1009, the second 1013. -/
def linkEnv : Env := { sumEnv with
  sha256 := fun b => List.replicate 30 0 ++ [3, if b.length = 5 then 241 else 245]
  sha256_length := fun b => by simp
  probablyPrime := fun n => n == 1009 || n == 1013 }

theorem linkEnv_zero : (runOps linkEnv 1 (setupTranscript 4 35 0 0 0 20) [.challenge, .challenge]).map Prod.fst =
    some [1009, 1013] := by decide +kernel

theorem linkEnv_challenges (x y z : Int) :
    (runOps linkEnv 1 (setupTranscript 4 (35 : Nat) x y z 20) [.challenge, .challenge]).map Prod.fst =
    some [goodCircuit.challengeL1, goodCircuit.challengeL2] := linkEnv_zero

/-- 6 modulo 35 has order 2. -/
def six35 : (ZMod 35)ˣ := ⟨6, 6, by decide, by decide⟩

/-- 29 modulo 35 has order 2. -/
def twentynine35 : (ZMod 35)ˣ := ⟨29, 29, by decide, by decide⟩

theorem noPowers35 : ∀ m : ZMod 35, ∀ i ∈ Finset.range 12, ∀ j ∈ Finset.range 12, m ^ 12 = 1 → m ^ i = 6 → m ^ j ≠ 29 := by
  decide +kernel

/-- The accumulators 6 and 29 modulo 35 are not powers of one element, but all checks pass for them. -/
theorem C122_violated : ¬ C122_statement := by
  intro h
  obtain ⟨a, b, Q1, Q2, hs⟩ := C122_forged linkEnv 1 4 35 20 goodCircuit 0 0 0 (linkEnv_challenges _ _ _) rfl (by decide +kernel)
    (by decide +kernel) (by decide +kernel) (by decide +kernel) (by decide +kernel) (by decide +kernel) six35 twentynine35
  obtain ⟨h1, h2⟩ := h linkEnv 1 4 35 20 goodCircuit _ _ _ _ _ (by decide) ⟨by decide +kernel, by decide +kernel⟩ hs
  generalize six35 ^ a * twentynine35 ^ b = m at h1 h2
  have hm : ∀ m : (ZMod 35)ˣ, m ^ 12 = 1 := by decide +kernel
  rw [pow_eq_pow_mod _ (hm m)] at h1 h2
  refine noPowers35 (m : ZMod 35) (removedProd linkEnv goodCircuit % 12) (Finset.mem_range.2 (Nat.mod_lt _ (by decide)))
    (insertedProd linkEnv goodCircuit % 12) (Finset.mem_range.2 (Nat.mod_lt _ (by decide))) ?_ ?_ ?_
  · have := congrArg Units.val (hm m)
    rwa [Units.val_pow_eq_pow_val, Units.val_one] at this
  · have := congrArg Units.val h1
    rw [Units.val_pow_eq_pow_val] at this
    exact this.symm
  · have := congrArg Units.val h2
    rw [Units.val_pow_eq_pow_val] at this
    exact this.symm

/-- C122, what holds, one direction: for accumulators that are related by the two products both proofs exist. -/
theorem C122_complete_partial (E : Env) (fuel : Nat) (G : Int) (N : Nat) (epoch : UInt32) (c : Circuit) (mid : (ZMod N)ˣ)
    (hch : (runOps E fuel (setupTranscript G N ((mid ^ removedProd E c : (ZMod N)ˣ) : ZMod N).val (mid : ZMod N).val
      ((mid ^ insertedProd E c : (ZMod N)ˣ) : ZMod N).val epoch) [.challenge, .challenge]).map Prod.fst =
      some [c.challengeL1, c.challengeL2])
    (hepoch : c.currentEpochNum = epoch.toNat) (d1 : c.deltaModL1 = 2 ^ 1023 % c.challengeL1)
    (d2 : c.deltaModL2 = 2 ^ 1023 % c.challengeL2) (hdef : define E c = .ok true) (ho : RecordsFit E c) :
    SwapChecks E fuel G N epoch c (mid ^ removedProd E c) mid (mid ^ insertedProd E c) (mid ^ (removedProd E c / c.challengeL1))
      (mid ^ (insertedProd E c / c.challengeL2)) := by
  obtain ⟨r1, r2⟩ := C61_real_representatives E c hdef d1 d2 ho.1 ho.2
  refine ⟨hch, hepoch, d1, d2, hdef, ?_, ?_⟩
  · rw [r1, ← pow_mul, ← pow_add]
    congr 1
    exact Nat.div_add_mod' (removedProd E c) c.challengeL1
  · rw [r2, ← pow_mul, ← pow_add]
    congr 1
    exact Nat.div_add_mod' (insertedProd E c) c.challengeL2

/-- C122, what holds, other direction: checks that pass give a root of the quotient of the old accumulator and the power of the
middle one, of the degree of the challenge, and the same for the new accumulator. Missing from the full statement: that the
quotients are 1, which C122_forged refutes. -/
theorem C122_root_partial (E : Env) (fuel : Nat) (G : Int) (N : Nat) (epoch : UInt32) (c : Circuit) (old mid new Q1 Q2 : (ZMod N)ˣ)
    (ho : RecordsFit E c) (h : SwapChecks E fuel G N epoch c old mid new Q1 Q2) :
    (Q1 * (mid ^ (removedProd E c / c.challengeL1))⁻¹) ^ c.challengeL1 = old * (mid ^ removedProd E c)⁻¹ ∧
    (Q2 * (mid ^ (insertedProd E c / c.challengeL2))⁻¹) ^ c.challengeL2 = new * (mid ^ insertedProd E c)⁻¹ := by
  obtain ⟨r1, r2⟩ := C61_real_representatives E c h.circuit h.delta1 h.delta2 ho.1 ho.2
  have key : ∀ (Q acc : (ZMod N)ˣ) (P l R : Nat), R = P % l → Q ^ l * mid ^ R = acc →
      (Q * (mid ^ (P / l))⁻¹) ^ l = acc * (mid ^ P)⁻¹ := by
    intro Q acc P l R hR hQ
    rw [← hQ, mul_pow, inv_pow, ← pow_mul, eq_mul_inv_iff_mul_eq, mul_assoc, hR]
    congr 1
    rw [inv_mul_eq_iff_eq_mul, ← pow_add, Nat.div_add_mod']
  exact ⟨key Q1 old _ _ _ r1 h.first, key Q2 new _ _ _ r2 h.second⟩

/-- The hypotheses of both directions are met by the circuit of two users. -/
example : ∃ old new Q1 Q2, SwapChecks linkEnv 1 4 35 20 goodCircuit old six35 new Q1 Q2 ∧ RecordsFit linkEnv goodCircuit := by
  have ho : RecordsFit linkEnv goodCircuit := ⟨by decide +kernel, by decide +kernel⟩
  exact ⟨_, _, _, _, C122_complete_partial linkEnv 1 4 35 20 goodCircuit six35 (linkEnv_challenges _ _ _) rfl (by decide +kernel)
    (by decide +kernel) (by decide +kernel) ho, ho⟩

end Verif.Props
