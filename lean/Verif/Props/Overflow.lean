import Verif.Props.MultiSwap
import Verif.Props.Solidity

/-! # Property C98: honest updates with record hashes near the field order -/

namespace Verif.Props
open Verif.Go Verif.Model Verif.Lemmas Verif.Spec

/-- The hashes that are pushed over the field order by a delta. -/
def overflowing (delta : Nat) : Finset Nat := (Finset.range frOrder).filter fun h => frOrder ≤ h + delta

/-- C98: exactly `delta` of the `frOrder` possible hashes overflow. -/
theorem C98_count (delta : Nat) (h : delta < frOrder) : (overflowing delta).card = delta := by
  have e : overflowing delta = Finset.Ico (frOrder - delta) frOrder := by
    ext x
    simp only [overflowing, Finset.mem_filter, Finset.mem_range, Finset.mem_Ico]
    omega
  rw [e, Nat.card_Ico]
  omega

/-- The records whose hash overflows. -/
def wrapped (f : Nat → Nat) (delta n : Nat) : Finset Nat := (Finset.range n).filter fun i => frOrder ≤ f i + delta

/-- The product of the circuit agrees with the one of the representatives if and only if that holds for the records that
overflow. -/
theorem product_iff (f : Nat → Nat) (d L D b n : Nat) (hL : L.Prime) (hd : d = D % L)
    (hf : ∀ i, i < n → f i + d < frOrder → ¬ L ∣ f i + D) (hb : ¬ L ∣ b) :
    ((∏ i ∈ Finset.range n, (f i + d) % frOrder) * b) % L = ((∏ i ∈ Finset.range n, (f i + D)) * b) % L ↔
      (∏ i ∈ wrapped f d n, (f i + d) % frOrder) ≡ (∏ i ∈ wrapped f d n, (f i + d)) [MOD L] := by
  have hD : ∀ i, f i + D ≡ f i + d [MOD L] := fun i => by
    rw [hd]; exact (Nat.mod_modEq _ _).symm.add_left _
  have s1 := Finset.prod_filter_mul_prod_filter_not (Finset.range n) (fun i => frOrder ≤ f i + d) fun i => (f i + d) % frOrder
  have s2 := Finset.prod_filter_mul_prod_filter_not (Finset.range n) (fun i => frOrder ≤ f i + d) fun i => f i + D
  have hrest : (∏ i ∈ (Finset.range n).filter (fun i => ¬ frOrder ≤ f i + d), (f i + d) % frOrder) =
      ∏ i ∈ (Finset.range n).filter (fun i => ¬ frOrder ≤ f i + d), (f i + d) :=
    Finset.prod_congr rfl fun i hi => Nat.mod_eq_of_lt (by
      have := (Finset.mem_filter.1 hi).2
      omega)
  have hprod : ∀ s : Finset Nat, (∏ i ∈ s, (f i + D)) ≡ (∏ i ∈ s, (f i + d)) [MOD L] := by
    intro s
    induction s using Finset.induction_on with
    | empty => rfl
    | insert a s ha ih =>
      rw [Finset.prod_insert ha, Finset.prod_insert ha]
      exact (hD a).mul ih
  have hcop : Nat.Coprime L ((∏ i ∈ (Finset.range n).filter (fun i => ¬ frOrder ≤ f i + d), (f i + d)) * b) := by
    refine Nat.Coprime.mul_right (Nat.Coprime.prod_right fun i hi => ?_) ((Nat.Prime.coprime_iff_not_dvd hL).2 hb)
    rw [Finset.mem_filter, Finset.mem_range] at hi
    rw [Nat.Prime.coprime_iff_not_dvd hL]
    intro hdvd
    exact hf i hi.1 (by omega) (((hD i).dvd_iff (dvd_refl L)).2 hdvd)
  rw [← s1, ← s2, hrest]
  constructor
  · intro h
    have h1 : (∏ i ∈ wrapped f d n, (f i + d) % frOrder) *
        ((∏ i ∈ (Finset.range n).filter (fun i => ¬ frOrder ≤ f i + d), (f i + d)) * b) ≡
        (∏ i ∈ wrapped f d n, (f i + d)) *
        ((∏ i ∈ (Finset.range n).filter (fun i => ¬ frOrder ≤ f i + d), (f i + d)) * b) [MOD L] := by
      rw [← Nat.mul_assoc, ← Nat.mul_assoc]
      exact Nat.ModEq.trans h (((hprod _).mul (hprod _)).mul_right b)
    exact Nat.ModEq.cancel_right_of_coprime hcop h1
  · intro h
    exact Nat.ModEq.trans ((h.mul_right _).mul_right b) (((hprod _).mul (hprod _)).symm.mul_right b)

/-- One record that overflows changes the product. -/
theorem one_changes (f : Nat → Nat) (d L j : Nat) (n : Nat) (hL : L.Prime) (hLr : L < frOrder) (hfj : f j < frOrder)
    (hd : d < frOrder) (hj : wrapped f d n = {j}) :
    ¬ (∏ i ∈ wrapped f d n, (f i + d) % frOrder) ≡ (∏ i ∈ wrapped f d n, (f i + d)) [MOD L] := by
  have hge : frOrder ≤ f j + d := by
    have : j ∈ wrapped f d n := by rw [hj]; exact Finset.mem_singleton_self j
    exact (Finset.mem_filter.1 this).2
  rw [hj, Finset.prod_singleton, Finset.prod_singleton]
  intro h
  have e : (f j + d) % frOrder = f j + d - frOrder := by
    rw [Nat.mod_eq_sub_mod hge, Nat.mod_eq_of_lt (by omega)]
  rw [e] at h
  have h1 := (Nat.modEq_iff_dvd' (by omega : f j + d - frOrder ≤ f j + d)).1 h
  rw [Nat.sub_sub_self hge] at h1
  rcases (Nat.dvd_prime C18_field_order.1).1 h1 with h2 | h2
  · exact hL.one_lt.ne' h2
  · omega

/-- No factor of the two products is a multiple of its challenge. -/
structure FactorsInvertible (E : Env) (u : UpdateSet32) : Prop where
  prime1 : u.challengeL1.toNat.Prime
  prime2 : u.challengeL2.toNat.Prime
  old : ∀ i, i < u.userID.length → ¬ u.challengeL1.toNat ∣ oldHash E u i + 2 ^ 1023
  new : ∀ i, i < u.userID.length → ¬ u.challengeL2.toNat ∣ newHash E u i + 2 ^ 1023
  blind1 : ¬ u.challengeL1.toNat ∣ blinding E u.randomizer1.toNat
  blind2 : ¬ u.challengeL2.toNat ∣ blinding E u.randomizer2.toNat

theorem side_iff (f : Nat → Nat) (delta L R : Int) (b n : Nat) (h0 : 0 < L) (hL : L.toNat.Prime)
    (hd : delta = 2 ^ 1023 % L) (hf : ∀ i, i < n → ¬ L.toNat ∣ f i + 2 ^ 1023) (hb : ¬ L.toNat ∣ b)
    (hR : R = ((∏ i ∈ Finset.range n, ((f i + 2 ^ 1023 : Nat) : Int)) * (b : Int)) % L) :
    (((∏ i ∈ Finset.range n, (f i + delta.toNat) % frOrder) * b : Nat) : Int) % L = R ↔
      (∏ i ∈ wrapped f delta.toNat n, (f i + delta.toNat) % frOrder) ≡
        (∏ i ∈ wrapped f delta.toNat n, (f i + delta.toNat)) [MOD L.toNat] := by
  obtain ⟨l, rfl⟩ : ∃ l : Nat, L = l := ⟨L.toNat, (Int.toNat_of_nonneg h0.le).symm⟩
  rw [Int.toNat_natCast] at hL hf hb ⊢
  have hd' : delta.toNat = 2 ^ 1023 % l := by
    rw [hd]
    have : ((2 : Int) ^ 1023 % (l : Int)) = ((2 ^ 1023 % l : Nat) : Int) := by push_cast; rfl
    rw [this, Int.toNat_natCast]
  rw [← product_iff f delta.toNat l (2 ^ 1023) b n hL hd' (fun i hi _ => hf i hi) hb, hR]
  rw [← Nat.cast_prod, ← Nat.cast_mul, ← Int.natCast_mod, ← Int.natCast_mod, Int.natCast_inj]

/-- C98: exactly when the circuit accepts an honest update whose first balance is unchanged. -/
theorem C98_accepted_iff (E : Env) (u : UpdateSet32) (hn : u.userID.length < 2 ^ 63) (h : HonestUpdate E u)
    (hb : col u.updatedBalances 0 = col u.originalBalances 0) (hi : FactorsInvertible E u) :
    (∃ c, assignCircuit u = .ok c ∧ define E c = .ok true) ↔
      (∏ i ∈ wrapped (oldHash E u) u.deltaModL1.toNat u.userID.length, (oldHash E u i + u.deltaModL1.toNat) % frOrder) ≡
        (∏ i ∈ wrapped (oldHash E u) u.deltaModL1.toNat u.userID.length, (oldHash E u i + u.deltaModL1.toNat))
        [MOD u.challengeL1.toNat] ∧
      (∏ i ∈ wrapped (newHash E u) u.deltaModL2.toNat u.userID.length, (newHash E u i + u.deltaModL2.toNat) % frOrder) ≡
        (∏ i ∈ wrapped (newHash E u) u.deltaModL2.toNat u.userID.length, (newHash E u i + u.deltaModL2.toNat))
        [MOD u.challengeL2.toNat] := by
  rw [C63_accepted_iff E u hn h]
  rw [side_iff (oldHash E u) _ _ _ _ _ h.challenge1.1 hi.prime1 h.delta1 hi.old hi.blind1 h.remainder1,
    side_iff (newHash E u) _ _ _ _ _ h.challenge2.1 hi.prime2 h.delta2 hi.new hi.blind2 h.remainder2]
  exact ⟨fun h => h.2, fun h => ⟨hb, h⟩⟩

/-- C98: an honest update in which exactly one record hash overflows on one of the two sides is rejected. -/
theorem C98_one_overflow_rejected (E : Env) (u : UpdateSet32) (hn : u.userID.length < 2 ^ 63) (h : HonestUpdate E u)
    (hi : FactorsInvertible E u) (j : Nat)
    (hj : wrapped (oldHash E u) u.deltaModL1.toNat u.userID.length = {j} ∨
      wrapped (newHash E u) u.deltaModL2.toNat u.userID.length = {j}) :
    ∃ c, assignCircuit u = .ok c ∧ define E c = .ok false := by
  have hv := honest_isValid h
  obtain ⟨c, b, h1, h2⟩ := C66_define_total E u hv
  refine ⟨c, h1, ?_⟩
  cases b with
  | false => exact h2
  | true =>
    exfalso
    have hacc : ∃ c, assignCircuit u = .ok c ∧ define E c = .ok true := ⟨c, h1, h2⟩
    have hb := ((C63_accepted_iff E u hn h).1 hacc).1
    obtain ⟨h3, h4⟩ := (C98_accepted_iff E u hn h hb hi).1 hacc
    have hr := C18_field_order.1.pos
    have d1 : u.deltaModL1.toNat < frOrder := by
      have := Int.emod_lt_of_pos (2 ^ 1023) h.challenge1.1
      have := h.challenge1.2
      rw [h.delta1]
      omega
    have d2 : u.deltaModL2.toNat < frOrder := by
      have := Int.emod_lt_of_pos (2 ^ 1023) h.challenge2.1
      have := h.challenge2.2
      rw [h.delta2]
      omega
    rcases hj with hj | hj
    · exact one_changes _ _ _ j _ hi.prime1 (by have := h.challenge1; omega) (E.poseidon_lt _) d1 hj h3
    · exact one_changes _ _ _ j _ hi.prime2 (by have := h.challenge2; omega) (E.poseidon_lt _) d2 hj h4

/-- C98: in the sets of `GenTestSet` fewer than one in 2^14 of the possible hashes overflow on either side, and a set whose
hashes are all below the field order minus 2^239 is accepted. -/
theorem C98_share (E : Env) (fuel : Nat) (n : UInt32) (G N accMid : Int) (u : UpdateSet32) (hn : n.toNat ≤ 2 ^ 31)
    (h : genTestSet E fuel n G N accMid = Run.ok u) :
    (overflowing u.deltaModL1.toNat).card * 2 ^ 14 < frOrder ∧ (overflowing u.deltaModL2.toNat).card * 2 ^ 14 < frOrder ∧
      ((∀ i, i < n.toNat → oldHash E u i + 2 ^ 239 ≤ frOrder ∧ newHash E u i + 2 ^ 239 ≤ frOrder) →
        ∃ c, assignCircuit u = .ok c ∧ define E c = .ok true) := by
  obtain ⟨-, hlen, -, hh, hacc⟩ := C64_genTestSet_partial E fuel n G N accMid u hn h
  obtain ⟨L1, L2, h1, h2, p1, p2, h3, hu⟩ := (genTestSet_ok_iff E fuel n G N accMid u).1 h
  have q1 := ((C37_range_partial E fuel _ L1).1 h1).1
  have q2 := ((C37_range_partial E fuel _ L2).1 h2).1
  have e1 : u.deltaModL1.toNat < L1 := by
    rw [hu]; simp only [testSet, Int.toNat_natCast]; exact Nat.mod_lt _ p1
  have e2 : u.deltaModL2.toNat < L2 := by
    rw [hu]; simp only [testSet, Int.toNat_natCast]; exact Nat.mod_lt _ p2
  have hr : 2 ^ 239 * 2 ^ 14 < frOrder := by unfold frOrder; norm_num
  generalize (2 : Nat) ^ 239 = M at *
  have hM : M < frOrder := lt_of_le_of_lt (Nat.le_mul_of_pos_right _ (by decide)) hr
  have r1 : u.deltaModL1.toNat < frOrder := by omega
  have r2 : u.deltaModL2.toNat < frOrder := by omega
  refine ⟨?_, ?_, fun hi => hacc fun i hlt => ?_⟩
  · rw [C98_count _ r1]; exact lt_of_le_of_lt (Nat.mul_le_mul_right _ (by omega)) hr
  · rw [C98_count _ r2]; exact lt_of_le_of_lt (Nat.mul_le_mul_right _ (by omega)) hr
  · rw [hlen] at hlt
    have := hi i hlt
    exact ⟨by omega, by omega⟩

example : ∃ u, genTestSet sumEnv 1 2 2 35 4 = Run.ok u ∧ (overflowing u.deltaModL1.toNat).card * 2 ^ 14 < frOrder := by
  have h := (genTestSet_ok_iff sumEnv 1 2 2 35 4 _).2
    ⟨13, 13, by decide +kernel, by decide +kernel, by decide, by decide, by decide, rfl⟩
  exact ⟨_, h, (C98_share sumEnv 1 2 2 35 4 _ (by decide) h).1⟩

/-- Two users; the hash of the second record is near the field order. -/
theorem overflowSet_invertible : FactorsInvertible sumEnv overflowSet := by
  constructor <;> decide +kernel

example : ∃ c, assignCircuit overflowSet = .ok c ∧ define sumEnv c = .ok false :=
  C98_one_overflow_rejected sumEnv overflowSet (by decide) overflowSet_honest overflowSet_invertible 1
    (by decide +kernel)

end Verif.Props
