import Verif.Lemmas.BN254Order
import Verif.Props.Solidity
import Mathlib.Algebra.Module.ZMod
import Mathlib.LinearAlgebra.Dual.Lemmas

/-!
# Properties C70 and C75 on the groups of BN254

The first group has r elements. The points of the hard-coded keys have order r, so they are in the groups of EIP-197 and
the verification equation holds for the three contracts without any assumption on the keys.
-/

namespace Verif.Props

open Verif.Go Verif.Model.Solidity Verif.Spec.BN254 Verif.Lemmas.Solidity Verif.Lemmas.BN254Order WeierstrassCurve

attribute [local irreducible] q r

/-- C75: the curve has exactly `r` points, so every point but zero has order r and is a multiple of every other one. -/
theorem C75_order : Nat.card Point = r ∧ (∀ P : Point, P ≠ 0 → addOrderOf P = r) ∧
    ∀ P Q : Point, P ≠ 0 → ∃ n < r, Q = n • P := by
  refine ⟨card_eq, point_order, fun P Q hP => ?_⟩
  have := Fact.mk r_prime
  obtain ⟨n, hn⟩ := mem_multiples_of_prime_card card_eq hP (g' := Q)
  refine ⟨n % r, Nat.mod_lt _ r_prime.pos, ?_⟩
  have h : (n % r) • P = n • P := by rw [← point_order P hP, mod_addOrderOf_nsmul]
  rw [h]
  exact hn.symm

/-- Four words encode one point of the second group only. -/
theorem encodes2_unique (a b c d : Nat) (Q Q' : TwistGroup) (h : Encodes2 a b c d Q) (h' : Encodes2 a b c d Q') : Q = Q' := by
  obtain ⟨Q, hQ⟩ := Q
  obtain ⟨Q', hQ'⟩ := Q'
  apply Subtype.ext
  simp only [Encodes2] at h h'
  have zero : ∀ (x y : Fq2) (hn : twist.Nonsingular x y), ¬ EncodesTwist 0 0 0 0 (.some x y hn) := by
    intro x y hn h0
    obtain ⟨_, rfl, rfl⟩ := h0
    have h1 := (twist_equation _ _).1 hn.1
    have e : (⟨((0 : Nat) : ZMod q), ((0 : Nat) : ZMod q)⟩ : Fq2) = 0 := by ext <;> simp
    rw [e] at h1
    have h3 := cast_ne 3 (by decide) (by decide)
    apply h3
    simpa using h1.symm
  match Q, Q' with
  | .zero, .zero => rfl
  | .zero, .some _ _ hn => obtain ⟨rfl, rfl, rfl, rfl⟩ := h; exact (zero _ _ hn h').elim
  | .some _ _ hn, .zero => obtain ⟨rfl, rfl, rfl, rfl⟩ := h'; exact (zero _ _ hn h).elim
  | .some x y hn, .some x' y' hn' =>
    obtain ⟨_, h1, h2⟩ := h
    obtain ⟨_, h1', h2'⟩ := h'
    have e1 := h1.symm.trans h1'
    have e2 := h2.symm.trans h2'
    subst e1 e2
    rfl

/-- Words that pass both checks encode a point of the second group that is not zero. -/
theorem encodes2_of_checks (Q : G2) (h : checkG2 Q = true) (h2 : check2 (Q.x1, Q.x0) (Q.y1, Q.y0) = true) :
    ∃ P : TwistGroup, P ≠ 0 ∧ Encodes2 Q.x0 Q.x1 Q.y0 Q.y1 P := by
  obtain ⟨hlt, he⟩ := checkG2_ok Q h
  have hn := twist_nonsingular _ _ ((twist_equation _ _).2 he)
  refine ⟨⟨.some _ _ hn, AddMonoidHom.mem_ker.2 (check2_ok (Q.x1, Q.x0) (Q.y1, Q.y0) h2 hn)⟩, ?_, hlt, rfl, rfl⟩
  intro h0
  exact Affine.Point.some_ne_zero hn (congrArg Subtype.val h0)

/-- The points of a key are points of the groups of EIP-197 that are not zero. -/
structure KeyPoints (vk : VerifyingKey) (alpha : Point) (beta gamma delta : TwistGroup) (ic : Fin 8 → Point) : Prop where
  encodes : KeyEncodes Encodes2 vk alpha beta gamma delta ic
  alpha : alpha ≠ 0
  beta : beta ≠ 0
  gamma : gamma ≠ 0
  delta : delta ≠ 0
  ic : ∀ i, ic i ≠ 0

/-- C75: the words of the three keys encode points of order r of the two groups. -/
theorem C75_subgroup : ∀ vk ∈ [notusKey, contractKey, testKey], ∃ alpha beta gamma delta ic,
    KeyPoints vk alpha beta gamma delta ic ∧ addOrderOf alpha = r ∧ addOrderOf beta = r ∧ addOrderOf gamma = r ∧
      addOrderOf delta = r ∧ ∀ i, addOrderOf (ic i) = r := by
  have h1 : ∀ vk ∈ [notusKey, contractKey, testKey], checkG1 vk.alfa1 = true := by decide +kernel
  have h2 : ∀ vk ∈ [notusKey, contractKey, testKey], ∀ i, checkG1 (vk.ic i) = true := by decide +kernel
  have h3 : ∀ vk ∈ [notusKey, contractKey, testKey], ∀ Q ∈ [vk.beta2, vk.gamma2, vk.delta2], checkG2 Q = true := by
    decide +kernel
  intro vk hvk
  obtain ⟨alpha, a0, ha⟩ := checkG1_ok _ (h1 vk hvk)
  choose ic i0 hi using fun i => checkG1_ok _ (h2 vk hvk i)
  obtain ⟨beta, b0, hb⟩ := encodes2_of_checks vk.beta2 (h3 vk hvk _ (by simp)) (keys_check vk hvk _ (by simp))
  obtain ⟨gamma, g0, hg⟩ := encodes2_of_checks vk.gamma2 (h3 vk hvk _ (by simp)) (keys_check vk hvk _ (by simp))
  obtain ⟨delta, d0, hd⟩ := encodes2_of_checks vk.delta2 (h3 vk hvk _ (by simp)) (keys_check vk hvk _ (by simp))
  have := Fact.mk r_prime
  have ord : ∀ Q : TwistGroup, Q ≠ 0 → addOrderOf Q = r := fun Q h => addOrderOf_eq_prime (Subtype.ext Q.2) h
  exact ⟨alpha, beta, gamma, delta, ic, ⟨⟨ha, hb, hg, hd, hi⟩, a0, b0, g0, d0, i0⟩, point_order _ a0, ord _ b0, ord _ g0,
    ord _ d0, fun i => point_order _ (i0 i)⟩

/-- C70 for the three contracts, without assumptions on the keys: a call returns true exactly for reduced inputs and
encodings of points of the two groups that satisfy the verification equation. -/
theorem C70_contracts : ∀ vk ∈ [notusKey, contractKey, testKey], ∃ alpha beta gamma delta ic,
    KeyPoints vk alpha beta gamma delta ic ∧
    ∀ (T : Type) [AddCommGroup T] (e : Point →+ TwistGroup →+ T) (E : Evm), Eip Encodes2 e E.ecAdd E.ecMul E.ecPairing →
      EnoughGas Encodes2 E.ecAdd E.ecMul E.ecPairing →
      ∀ (a b0 b1 c : Nat × Nat) (input : Fin 7 → Nat), verifyProof E vk a b0 b1 c input = .ok true ↔
        (∀ i, input i < r) ∧ ∃ A B C, Encodes a.1 a.2 A ∧ Encodes2 b0.1 b0.2 b1.1 b1.2 B ∧ Encodes c.1 c.2 C ∧
          Groth16 e alpha beta gamma delta ic input A B C := by
  intro vk hvk
  obtain ⟨alpha, beta, gamma, delta, ic, hk, _⟩ := C75_subgroup vk hvk
  refine ⟨alpha, beta, gamma, delta, ic, hk, fun T _ e E hE hG a b0 b1 c input => ⟨fun h => ?_, ?_⟩⟩
  · obtain ⟨hin, A, B, C, hA, hB, hC, hx⟩ := C70_sound hE vk _ _ _ _ _ hk.encodes a b0 b1 c input true h
    exact ⟨hin, A, B, C, hA, hB, hC, hx.1 rfl⟩
  · rintro ⟨hin, A, B, C, hA, hB, hC, hx⟩
    have hb : b0.1 < q ∧ b0.2 < q ∧ b1.1 < q ∧ b1.2 < q := by
      obtain ⟨B, hB'⟩ := B
      have := q_gt
      match B with
      | .zero =>
        obtain ⟨h1, h2, h3, h4⟩ := hB
        omega
      | .some _ _ _ => exact hB.1
    obtain ⟨x, hv, hx'⟩ := C70_complete hE hG vk _ _ _ _ _ hk.encodes a b0 b1 c input A B C hA hB hb hC hin
    rw [hv, hx'.2 hx]

/-- C70: for each of the contracts there are reduced inputs, all but the first zero, for which the proof made of two points
of the key and zero is accepted. These inputs cannot be avoided by any choice of the pairing. -/
theorem C70_key_as_proof : ∀ vk ∈ [notusKey, contractKey, testKey], ∃ s < r, ∀ (T : Type) [AddCommGroup T]
    (e : Point →+ TwistGroup →+ T) (E : Evm), Eip Encodes2 e E.ecAdd E.ecMul E.ecPairing →
      EnoughGas Encodes2 E.ecAdd E.ecMul E.ecPairing →
      verifyProof E vk (vk.alfa1.x, vk.alfa1.y) (vk.beta2.x0, vk.beta2.x1) (vk.beta2.y0, vk.beta2.y1) (0, 0)
        (fun i => if i = 0 then s else 0) = .ok true := by
  intro vk hvk
  obtain ⟨alpha, beta, gamma, delta, ic, hk, h⟩ := C70_contracts vk hvk
  obtain ⟨s, hs, he⟩ := C75_order.2.2 (ic 1) (-(ic 0)) (hk.ic 1)
  refine ⟨s, hs, fun T _ e E hE hG => (h T e E hE hG _ _ _ _ _).2 ⟨fun i => ?_, alpha, beta, 0, hk.encodes.alpha,
    hk.encodes.beta, ⟨rfl, rfl⟩, ?_⟩⟩
  · split_ifs
    · exact hs
    · exact r_prime.pos
  · have e0 : ic 0 + ∑ i : Fin 7, (if i = 0 then s else 0) • ic i.succ = 0 := by
      rw [Fin.sum_univ_succ]
      simp only [if_true, Fin.succ_ne_zero, if_false, zero_nsmul, Finset.sum_const_zero, add_zero]
      show ic 0 + s • ic 1 = 0
      rw [← he, add_neg_cancel]
    rw [Groth16, e0]
    simp

/-! ## A case meeting the hypotheses -/

theorem exists_bilinear_module {K A B : Type} [Field K] [AddCommGroup A] [AddCommGroup B] [Module K A] [Module K B] (a : A)
    (b : B) (ha : a ≠ 0) (hb : b ≠ 0) : ∃ e : A →+ B →+ B, e a b ≠ 0 := by
  have hd : ¬ ∀ f : Module.Dual K A, f a = 0 := fun h => ha ((Module.forall_dual_apply_eq_zero_iff _ _).1 h)
  push Not at hd
  obtain ⟨f, hf⟩ := hd
  exact ⟨(smulAddHom K B).comp f.toAddMonoidHom, smul_ne_zero hf hb⟩

/-- Groups in which p times every element is zero have a bilinear map that is not zero on two given elements. -/
theorem exists_bilinear {A B : Type} [AddCommGroup A] [AddCommGroup B] (p : Nat) (hp : p.Prime) (hA : ∀ a : A, p • a = 0)
    (hB : ∀ b : B, p • b = 0) (a : A) (b : B) (ha : a ≠ 0) (hb : b ≠ 0) : ∃ e : A →+ B →+ B, e a b ≠ 0 := by
  have := Fact.mk hp
  let _ : Module (ZMod p) A := AddCommGroup.zmodModule hA
  let _ : Module (ZMod p) B := AddCommGroup.zmodModule hB
  exact exists_bilinear_module (K := ZMod p) a b ha hb

/-- There is a bilinear map on the two groups that is not zero on the points of the key, and contracts as in EIP-196 and
EIP-197 for it. -/
example : ∃ (T : Type) (_ : AddCommGroup T) (e : Point →+ TwistGroup →+ T) (E : Evm),
    Eip Encodes2 e E.ecAdd E.ecMul E.ecPairing ∧ EnoughGas Encodes2 E.ecAdd E.ecMul E.ecPairing ∧
    ∃ alpha beta gamma delta ic, KeyPoints notusKey alpha beta gamma delta ic ∧ e alpha beta ≠ 0 := by
  obtain ⟨alpha, beta, gamma, delta, ic, hk, _⟩ := C75_subgroup notusKey (by simp)
  obtain ⟨e, he⟩ := exists_bilinear r r_prime (fun P : Point => by rw [← card_eq]; exact card_nsmul_eq_zero')
    (fun Q : TwistGroup => Subtype.ext Q.2) alpha beta hk.alpha hk.beta
  exact ⟨TwistGroup, inferInstance, e, idealEvm Encodes2 e, idealEvm_eip _ _ encodes2_unique, idealEvm_gas _ _, alpha, beta,
    gamma, delta, ic, hk, he⟩

end Verif.Props
