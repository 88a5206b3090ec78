import Verif.Props.Solidity

/-!
# Property C92: other proofs that the contract accepts
-/

namespace Verif.Props
open Verif.Go Verif.Model.Solidity Verif.Spec.BN254 Verif.Lemmas.Solidity

/-- For given inputs the contract accepts at most one proof. -/
def C92_statement : Prop :=
  ∀ (H T : Type) [AddCommGroup H] [AddCommGroup T] (enc2 : Nat → Nat → Nat → Nat → H → Prop) (e : Point →+ H →+ T) (E : Evm),
    Eip enc2 e E.ecAdd E.ecMul E.ecPairing → EnoughGas enc2 E.ecAdd E.ecMul E.ecPairing →
    ∀ (vk : VerifyingKey) (alpha : Point) (beta gamma delta : H) (ic : Fin 8 → Point),
      KeyEncodes enc2 vk alpha beta gamma delta ic →
      ∀ (a b0 b1 c a' b0' b1' c' : Nat × Nat) (input : Fin 7 → Nat),
        verifyProof E vk a b0 b1 c input = .ok true → verifyProof E vk a' b0' b1' c' input = .ok true →
        a = a' ∧ b0 = b0' ∧ b1 = b1' ∧ c = c'

variable {H T : Type} [AddCommGroup H] [AddCommGroup T] {enc2 : Nat → Nat → Nat → Nat → H → Prop} {e : Point →+ H →+ T}
  {E : Evm}

/-- Words below the order of the base field that encode a point of the second group. -/
def Enc2Reduced (enc2 : Nat → Nat → Nat → Nat → H → Prop) (b0 b1 : Nat × Nat) (Q : H) : Prop :=
  enc2 b0.1 b0.2 b1.1 b1.2 Q ∧ b0.1 < q ∧ b0.2 < q ∧ b1.1 < q ∧ b1.2 < q

/-- C92: from an accepted proof (A, B, C) anyone makes the accepted proof (-A, -B, C). -/
theorem C92_negated (hE : Eip enc2 e E.ecAdd E.ecMul E.ecPairing) (hG : EnoughGas enc2 E.ecAdd E.ecMul E.ecPairing)
    (vk : VerifyingKey) (alpha : Point) (beta gamma delta : H) (ic : Fin 8 → Point)
    (hk : KeyEncodes enc2 vk alpha beta gamma delta ic) (a b0 b1 c : Nat × Nat) (input : Fin 7 → Nat)
    (h : verifyProof E vk a b0 b1 c input = .ok true) (B : H) (hB : enc2 b0.1 b0.2 b1.1 b1.2 B) (b0' b1' : Nat × Nat)
    (hB' : Enc2Reduced enc2 b0' b1' (-B)) :
    verifyProof E vk ((negate ⟨a.1, a.2⟩).x, (negate ⟨a.1, a.2⟩).y) b0' b1' c input = .ok true := by
  obtain ⟨hin, A, B₁, C, hA, hB₁, hC, hx⟩ := C70_sound hE vk alpha beta gamma delta ic hk a b0 b1 c input true h
  have := hE.unique _ _ _ _ _ _ hB₁ hB
  subst this
  obtain ⟨x, hv, hx'⟩ := C70_complete hE hG vk alpha beta gamma delta ic hk
    ((negate ⟨a.1, a.2⟩).x, (negate ⟨a.1, a.2⟩).y) b0' b1' c input (-A) (-B₁) C (negate_encodes hA) hB'.1 hB'.2 hC hin
  rw [hv, hx'.2 ?_]
  have hg := hx.1 rfl
  unfold Groth16 at hg ⊢
  rw [← hg]
  simp

/-- C92: the first coordinate stays, the second changes, unless A is zero. -/
theorem C92_negated_differs (x y : Nat) (A : Point) (hA : Encodes x y A) (h0 : A ≠ 0) : (negate ⟨x, y⟩).y ≠ y := by
  intro h
  have hn := negate_encodes hA
  match A, hA, h0, hn with
  | .zero, _, h0, _ => exact h0 rfl
  | .some x' y' hs, hA, _, hn =>
    rw [h] at hn
    have e1 : (y : ZMod q) = y' := hA.2.2.2
    have e2 : (y : ZMod q) = curve.negY x' y' := hn.2.2.2
    rw [negY_eq, ← e1] at e2
    have e3 : (2 : ZMod q) * y = 0 := by
      have : (y : ZMod q) + y = 0 := by nth_rewrite 2 [e2]; exact add_neg_cancel _
      rw [two_mul]; exact this
    rcases mul_eq_zero.1 e3 with h2 | h2
    · have : ((2 : Nat) : ZMod q) = 0 := by exact_mod_cast h2
      rw [ZMod.natCast_eq_zero_iff] at this
      have := Nat.le_of_dvd (by decide) this
      have := q_gt
      omega
    · exact some_ne hs (e1.symm.trans h2)

/-- C92: from an accepted proof (A, B, C) and any number `k` anyone makes the accepted proof (A, B + k delta, C + k A). -/
theorem C92_shifted (hE : Eip enc2 e E.ecAdd E.ecMul E.ecPairing) (hG : EnoughGas enc2 E.ecAdd E.ecMul E.ecPairing)
    (vk : VerifyingKey) (alpha : Point) (beta gamma delta : H) (ic : Fin 8 → Point)
    (hk : KeyEncodes enc2 vk alpha beta gamma delta ic) (a b0 b1 c : Nat × Nat) (input : Fin 7 → Nat)
    (h : verifyProof E vk a b0 b1 c input = .ok true) (A C : Point) (B : H) (hA : Encodes a.1 a.2 A)
    (hB : enc2 b0.1 b0.2 b1.1 b1.2 B) (hC : Encodes c.1 c.2 C) (k : Nat) (b0' b1' c' : Nat × Nat)
    (hB' : Enc2Reduced enc2 b0' b1' (B + k • delta)) (hC' : Encodes c'.1 c'.2 (C + k • A)) :
    verifyProof E vk a b0' b1' c' input = .ok true := by
  obtain ⟨hin, A₁, B₁, C₁, hA₁, hB₁, hC₁, hx⟩ := C70_sound hE vk alpha beta gamma delta ic hk a b0 b1 c input true h
  have := hE.unique _ _ _ _ _ _ hB₁ hB
  have e1 := encodes_unique hA₁ hA
  have e2 := encodes_unique hC₁ hC
  subst this e1 e2
  obtain ⟨x, hv, hx'⟩ := C70_complete hE hG vk alpha beta gamma delta ic hk a b0' b1' c' input A₁ _ _ hA hB'.1 hB'.2 hC' hin
  rw [hv, hx'.2 ?_]
  have hg := hx.1 rfl
  unfold Groth16 at hg ⊢
  have h2 : e (C₁ + k • A₁) delta = e C₁ delta + k • e A₁ delta := by
    rw [map_add, map_nsmul, AddMonoidHom.add_apply, AddMonoidHom.nsmul_apply]
  rw [h2, map_add, hg, map_nsmul]
  abel

/-- C92: from an accepted proof (A, B, C) and numbers `s`, `t` with `s t` = 1 modulo the order of the groups anyone makes the
accepted proof (s A, t B, C). -/
theorem C92_scaled (hE : Eip enc2 e E.ecAdd E.ecMul E.ecPairing) (hG : EnoughGas enc2 E.ecAdd E.ecMul E.ecPairing)
    (vk : VerifyingKey) (alpha : Point) (beta gamma delta : H) (ic : Fin 8 → Point)
    (hk : KeyEncodes enc2 vk alpha beta gamma delta ic) (a b0 b1 c : Nat × Nat) (input : Fin 7 → Nat)
    (h : verifyProof E vk a b0 b1 c input = .ok true) (A : Point) (B : H) (hA : Encodes a.1 a.2 A)
    (hB : enc2 b0.1 b0.2 b1.1 b1.2 B) (hr : r • B = 0) (s t : Nat) (hst : s * t % r = 1) (a' b0' b1' : Nat × Nat)
    (hA' : Encodes a'.1 a'.2 (s • A)) (hB' : Enc2Reduced enc2 b0' b1' (t • B)) :
    verifyProof E vk a' b0' b1' c input = .ok true := by
  obtain ⟨hin, A₁, B₁, C₁, hA₁, hB₁, hC₁, hx⟩ := C70_sound hE vk alpha beta gamma delta ic hk a b0 b1 c input true h
  have := hE.unique _ _ _ _ _ _ hB₁ hB
  have e1 := encodes_unique hA₁ hA
  subst this e1
  obtain ⟨x, hv, hx'⟩ := C70_complete hE hG vk alpha beta gamma delta ic hk a' b0' b1' c input _ _ _ hA' hB'.1 hB'.2 hC₁ hin
  rw [hv, hx'.2 ?_]
  have hg := hx.1 rfl
  unfold Groth16 at hg ⊢
  have h1 : (s * t) • B₁ = B₁ := by
    rw [← Nat.div_add_mod (s * t) r, hst, add_nsmul, mul_nsmul, one_nsmul, hr, nsmul_zero, zero_add]
  rw [← hg, map_nsmul, map_nsmul, AddMonoidHom.nsmul_apply, ← mul_nsmul, ← map_nsmul]
  rw [h1]

/-- C92, what holds: A, B and the inputs determine C, if pairing with delta is injective; the inputs are bound up to a
relation between the points of the key. -/
theorem C92_partial (hE : Eip enc2 e E.ecAdd E.ecMul E.ecPairing) (vk : VerifyingKey) (alpha : Point)
    (beta gamma delta : H) (ic : Fin 8 → Point) (hk : KeyEncodes enc2 vk alpha beta gamma delta ic)
    (a b0 b1 c c' : Nat × Nat) (input input' : Fin 7 → Nat) (h : verifyProof E vk a b0 b1 c input = .ok true)
    (h' : verifyProof E vk a b0 b1 c' input' = .ok true) :
    ((∀ P, e P delta = 0 → P = 0) → input = input' → c = c') ∧
    ((∀ P, e P gamma = 0 → P = 0) → c = c' →
      ∑ i : Fin 7, input i • ic i.succ = ∑ i : Fin 7, input' i • ic i.succ) := by
  obtain ⟨hin, A, B, C, hA, hB, hC, hx⟩ := C70_sound hE vk alpha beta gamma delta ic hk a b0 b1 c input true h
  obtain ⟨hin', A', B', C', hA', hB', hC', hx'⟩ := C70_sound hE vk alpha beta gamma delta ic hk a b0 b1 c' input' true h'
  have e1 := hE.unique _ _ _ _ _ _ hB' hB
  have e2 := encodes_unique hA' hA
  subst e1 e2
  have hg := hx.1 rfl
  have hg' := hx'.1 rfl
  unfold Groth16 at hg hg'
  refine ⟨?_, ?_⟩
  · rintro hd rfl
    rw [hg, add_right_inj] at hg'
    have h0 := hd (C - C') (by rw [map_sub, AddMonoidHom.sub_apply, hg', sub_self])
    have hw := encodes_words hC (sub_eq_zero.1 h0 ▸ hC')
    exact Prod.ext hw.1 hw.2
  · rintro hd rfl
    have e3 := encodes_unique hC' hC
    subst e3
    rw [hg, add_left_inj, add_right_inj] at hg'
    have h0 := hd _ (show e ((ic 0 + ∑ i : Fin 7, input i • ic i.succ) - (ic 0 + ∑ i : Fin 7, input' i • ic i.succ)) gamma = 0 by
      rw [map_sub, AddMonoidHom.sub_apply, hg', sub_self])
    exact add_left_cancel (sub_eq_zero.1 h0)

theorem C92_violated : ¬ C92_statement := by
  intro hs
  obtain ⟨G, hG, he⟩ := checkG1_ok ⟨1, 2⟩ (by decide +kernel)
  have hE := idealEvm_eip exEnc2 exPairing (by intro a b c d Q Q' h h'; rw [exEnc2] at h h'; rw [h, h'])
  have hg := idealEvm_gas exEnc2 exPairing
  have hk : KeyEncodes exEnc2 exKey G 1 1 1 (fun _ => G) := ⟨he, by rfl, by rfl, by rfl, fun _ => he⟩
  have hq : 11 < q := lt_trans (by decide) q_gt
  have hr : 1 < r := by decide +kernel
  have h1 : verifyProof (idealEvm exEnc2 exPairing) exKey (1, 2) (10, 0) (0, 0) (1, 2) (fun _ => 1) = .ok true := by
    obtain ⟨x, hx, hx'⟩ := C70_complete hE hg exKey G 1 1 1 _ hk (1, 2) (10, 0) (0, 0) (1, 2) (fun _ => 1) G 10 G he (by rfl)
      ⟨by show 10 < q; omega, by show 0 < q; omega, by show 0 < q; omega, by show 0 < q; omega⟩ he (fun _ => hr)
    rw [hx, hx'.2]
    simp [Groth16, exPairing]
    abel
  obtain ⟨x, y, hxy⟩ := encodes_exists (G + 1 • G)
  have h2 := C92_shifted hE hg exKey G 1 1 1 _ hk (1, 2) (10, 0) (0, 0) (1, 2) (fun _ => 1) h1 G G 10 he (by rfl) he 1
    (11, 0) (0, 0) (x, y)
    ⟨by rfl, by show 11 < q; omega, by show 0 < q; omega, by show 0 < q; omega, by show 0 < q; omega⟩ hxy
  have := (hs ℤ Point exEnc2 exPairing (idealEvm exEnc2 exPairing) hE hg exKey G 1 1 1 _ hk _ _ _ _ _ _ _ _ _ h1 h2).2.1
  exact absurd this (by decide)

/-- A group, a point and numbers that meet the hypotheses of `C92_scaled`. -/
example : r • (3 : ZMod r) = 0 ∧ 2 * ((r + 1) / 2) % r = 1 := by
  refine ⟨?_, by decide +kernel⟩
  rw [nsmul_eq_mul, ZMod.natCast_self, zero_mul]

/-- Points that meet the hypotheses of `C92_negated_differs`. -/
example : ∃ A : Point, Encodes 1 2 A ∧ A ≠ 0 := by
  obtain ⟨G, hG, he⟩ := checkG1_ok ⟨1, 2⟩ (by decide +kernel)
  exact ⟨G, he, hG⟩

/-- Pairing with 1 is injective in the example. -/
example : ∀ P, exPairing P 1 = 0 → P = 0 := by
  intro P h
  simpa [exPairing] using h

end Verif.Props
