import Verif.Lemmas.Solidity
import Verif.Model.Hashes
import Mathlib.Algebra.BigOperators.Fin

/-! # Properties C70, C71, C75: the Solidity verifier -/

namespace Verif.Props

open Verif.Go Verif.Model.Solidity Verif.Spec.BN254 Verif.Lemmas.Solidity

/-- The key in the contract encodes the given group elements. -/
structure KeyEncodes {H : Type} (enc2 : Nat → Nat → Nat → Nat → H → Prop) (vk : VerifyingKey) (alpha : Point)
    (beta gamma delta : H) (ic : Fin 8 → Point) : Prop where
  alpha : Encodes vk.alfa1.x vk.alfa1.y alpha
  beta : enc2 vk.beta2.x0 vk.beta2.x1 vk.beta2.y0 vk.beta2.y1 beta
  gamma : enc2 vk.gamma2.x0 vk.gamma2.x1 vk.gamma2.y0 vk.gamma2.y1 gamma
  delta : enc2 vk.delta2.x0 vk.delta2.x1 vk.delta2.y0 vk.delta2.y1 delta
  ic : ∀ i, Encodes (vk.ic i).x (vk.ic i).y (ic i)

/-- C70, first part: a call ends with an error if a coordinate of the proof or a public input is not reduced, whatever the
precompiled contracts do. -/
theorem C70_reverts (E : Evm) (vk : VerifyingKey) (a b0 b1 c : Nat × Nat) (input : Fin 7 → Nat)
    (h : q ≤ a.1 ∨ q ≤ a.2 ∨ q ≤ b0.1 ∨ q ≤ b0.2 ∨ q ≤ b1.1 ∨ q ≤ b1.2 ∨ q ≤ c.1 ∨ q ≤ c.2 ∨ ∃ i, r ≤ input i) :
    ∃ msg, verifyProof E vk a b0 b1 c input = .error msg := by
  cases hv : verifyProof E vk a b0 b1 c input with
  | error msg => exact ⟨msg, rfl⟩
  | ok b =>
    exfalso
    obtain ⟨h', v, hl, _⟩ := (verifyProof_ok _ _ _ _ _ _ _ _).1 hv
    have hin : ∀ (l : List (Fin 7)) (v w : G1), l.foldlM (inputRound E vk input) v = .ok w → ∀ i ∈ l, input i < r := by
      intro l
      induction l with
      | nil => simp
      | cons i l ih =>
        intro v w h
        rw [List.foldlM_cons, bind_ok] at h
        obtain ⟨v', h1, h2⟩ := h
        have := ((inputRound_ok _ _ _ _ _ _).1 h1).1
        simpa using ⟨this, ih _ _ h2⟩
    have := hin _ _ _ hl
    rcases h with h | h | h | h | h | h | h | h | ⟨i, hi⟩
    · omega
    · omega
    · omega
    · omega
    · omega
    · omega
    · omega
    · omega
    · have := this i (List.mem_finRange i)
      omega

/-- C70, second part: two calls that return have identical inputs if their inputs agree modulo the scalar field order, and
identical proofs if the coordinates agree modulo the base field order. -/
theorem C70_no_aliases (E E' : Evm) (vk vk' : VerifyingKey) (a b0 b1 c a' b0' b1' c' : Nat × Nat) (input input' : Fin 7 → Nat)
    (x x' : Bool) (h : verifyProof E vk a b0 b1 c input = .ok x) (h' : verifyProof E' vk' a' b0' b1' c' input' = .ok x') :
    ((∀ i, input i % r = input' i % r) → input = input') ∧
    (a.1 % q = a'.1 % q → a.2 % q = a'.2 % q → a = a') ∧
    (b0.1 % q = b0'.1 % q → b0.2 % q = b0'.2 % q → b0 = b0') ∧
    (b1.1 % q = b1'.1 % q → b1.2 % q = b1'.2 % q → b1 = b1') ∧
    (c.1 % q = c'.1 % q → c.2 % q = c'.2 % q → c = c') := by
  have key : ∀ (E : Evm) (vk : VerifyingKey) (a b0 b1 c : Nat × Nat) (input : Fin 7 → Nat) (x : Bool),
      verifyProof E vk a b0 b1 c input = .ok x →
      (a.1 < q ∧ a.2 < q ∧ b0.1 < q ∧ b0.2 < q ∧ b1.1 < q ∧ b1.2 < q ∧ c.1 < q ∧ c.2 < q) ∧ ∀ i, input i < r := by
    intro E vk a b0 b1 c input x h
    by_contra hc
    obtain ⟨msg, hm⟩ := C70_reverts E vk a b0 b1 c input (by
      by_contra h'
      apply hc
      push Not at h'
      obtain ⟨h1, h2, h3, h4, h5, h6, h7, h8, h9⟩ := h'
      exact ⟨⟨h1, h2, h3, h4, h5, h6, h7, h8⟩, h9⟩)
    rw [h] at hm
    cases hm
  obtain ⟨⟨h1, h2, h3, h4, h5, h6, h7, h8⟩, h9⟩ := key _ _ _ _ _ _ _ _ h
  obtain ⟨⟨g1, g2, g3, g4, g5, g6, g7, g8⟩, g9⟩ := key _ _ _ _ _ _ _ _ h'
  have eq : ∀ {m u v : Nat}, u < m → v < m → u % m = v % m → u = v := by
    intro m u v hu hv h
    rwa [Nat.mod_eq_of_lt hu, Nat.mod_eq_of_lt hv] at h
  exact ⟨fun h => funext fun i => eq (h9 i) (g9 i) (h i), fun e1 e2 => Prod.ext (eq h1 g1 e1) (eq h2 g2 e2),
    fun e1 e2 => Prod.ext (eq h3 g3 e1) (eq h4 g4 e2), fun e1 e2 => Prod.ext (eq h5 g5 e1) (eq h6 g6 e2),
    fun e1 e2 => Prod.ext (eq h7 g7 e1) (eq h8 g8 e2)⟩

/-- The verification equation of Groth16, with the target group written additively. -/
def Groth16 {H T : Type} [AddCommGroup H] [AddCommGroup T] (e : Point →+ H →+ T) (alpha : Point) (beta gamma delta : H)
    (ic : Fin 8 → Point) (input : Fin 7 → Nat) (A : Point) (B : H) (C : Point) : Prop :=
  e A B = e alpha beta + e (ic 0 + ∑ i : Fin 7, input i • ic i.succ) gamma + e C delta

/-- C70, third part: what a result of the call means, given that the precompiled contracts follow EIP-196 and EIP-197.
The words given are encodings of points, and the answer is the verification equation. -/
theorem C70_sound {H T : Type} [AddCommGroup H] [AddCommGroup T] {enc2 : Nat → Nat → Nat → Nat → H → Prop}
    {e : Point →+ H →+ T} {E : Evm} (hE : Eip enc2 e E.ecAdd E.ecMul E.ecPairing) (vk : VerifyingKey) (alpha : Point)
    (beta gamma delta : H) (ic : Fin 8 → Point) (hk : KeyEncodes enc2 vk alpha beta gamma delta ic)
    (a b0 b1 c : Nat × Nat) (input : Fin 7 → Nat) (x : Bool) (h : verifyProof E vk a b0 b1 c input = .ok x) :
    (∀ i, input i < r) ∧ ∃ A B C, Encodes a.1 a.2 A ∧ enc2 b0.1 b0.2 b1.1 b1.2 B ∧ Encodes c.1 c.2 C ∧
      (x = true ↔ Groth16 e alpha beta gamma delta ic input A B C) := by
  obtain ⟨hc, v, hl, w, hw, hp⟩ := (verifyProof_ok _ _ _ _ _ _ _ _).1 h
  obtain ⟨hin, hv⟩ := loop_sound hE vk input ic hk.ic _ _ _ 0 ⟨rfl, rfl⟩ hl
  obtain ⟨P, Q, hP, hQ, hS⟩ := hE.add _ _ _ _ _ ((plus_ok _ _ _ _).1 hw)
  have e1 := encodes_unique hP hv
  have e2 := encodes_unique hQ (hk.ic 0)
  subst e1 e2
  obtain ⟨out, ho, rfl⟩ := (pairing_ok _ _ _ _ _ _ _ _ _ _).1 hp
  obtain ⟨l, hl', ho'⟩ := hE.pairing _ _ ho
  obtain ⟨P₁, Q₁, P₂, Q₂, P₃, Q₃, P₄, Q₄, rfl, ⟨h1, h2⟩, ⟨h3, h4⟩, ⟨h5, h6⟩, ⟨h7, h8⟩⟩ := (pairs_four ..).1 hl'
  have f1 := encodes_of_negate hc.1 hc.2.1 h1
  have e3 := encodes_unique h3 hk.alpha
  have e4 := hE.unique _ _ _ _ _ _ h4 hk.beta
  have e5 := encodes_unique h5 hS
  have e6 := hE.unique _ _ _ _ _ _ h6 hk.gamma
  have e8 := hE.unique _ _ _ _ _ _ h8 hk.delta
  subst e3 e4 e5 e6 e8
  refine ⟨fun i => hin i (List.mem_finRange i), -P₁, Q₁, P₄, f1, h2, h7, ?_⟩
  have hs : ((List.finRange 7).map fun i => input i • ic i.succ).sum = ∑ i : Fin 7, input i • ic i.succ :=
    (Fin.sum_univ_def _).symm
  rw [Groth16, bne_iff_ne, ho', hs, add_comm (ic 0), zero_add]
  simp only [List.map_cons, List.map_nil, List.sum_cons, List.sum_nil, add_zero, map_neg, AddMonoidHom.neg_apply]
  rw [neg_eq_iff_add_eq_zero, add_assoc]

/-- C70, fourth part: with enough gas a call with reduced inputs on encodings of points does return. -/
theorem C70_complete {H T : Type} [AddCommGroup H] [AddCommGroup T] {enc2 : Nat → Nat → Nat → Nat → H → Prop}
    {e : Point →+ H →+ T} {E : Evm} (hE : Eip enc2 e E.ecAdd E.ecMul E.ecPairing)
    (hG : EnoughGas enc2 E.ecAdd E.ecMul E.ecPairing) (vk : VerifyingKey) (alpha : Point)
    (beta gamma delta : H) (ic : Fin 8 → Point) (hk : KeyEncodes enc2 vk alpha beta gamma delta ic)
    (a b0 b1 c : Nat × Nat) (input : Fin 7 → Nat) (A : Point) (B : H) (C : Point) (hA : Encodes a.1 a.2 A)
    (hB : enc2 b0.1 b0.2 b1.1 b1.2 B) (hb : b0.1 < q ∧ b0.2 < q ∧ b1.1 < q ∧ b1.2 < q) (hC : Encodes c.1 c.2 C)
    (hin : ∀ i, input i < r) :
    ∃ x, verifyProof E vk a b0 b1 c input = .ok x ∧ (x = true ↔ Groth16 e alpha beta gamma delta ic input A B C) := by
  obtain ⟨v, hl⟩ := loop_total hE hG vk input ic hk.ic (List.finRange 7) ⟨0, 0⟩ 0 ⟨rfl, rfl⟩ fun i _ => hin i
  obtain ⟨-, hv⟩ := loop_sound hE vk input ic hk.ic _ _ _ 0 ⟨rfl, rfl⟩ hl
  obtain ⟨w, hw⟩ := Option.isSome_iff_exists.1 (hG.add _ _ _ _ _ _ hv (hk.ic 0))
  obtain ⟨P, Q, _, _, hS⟩ := hE.add _ _ _ _ _ hw
  obtain ⟨out, ho⟩ := Option.isSome_iff_exists.1 (hG.pairing _ _ ((pairs_four ..).2
    ⟨_, B, alpha, beta, _, gamma, C, delta, rfl, ⟨negate_encodes hA, hB⟩, ⟨hk.alpha, hk.beta⟩, ⟨hS, hk.gamma⟩, ⟨hC, hk.delta⟩⟩))
  have hA' := encodes_lt hA
  have hC' := encodes_lt hC
  have hv : verifyProof E vk a b0 b1 c input = .ok (out != 0) :=
    (verifyProof_ok _ _ _ _ _ _ _ _).2 ⟨⟨hA'.1, hA'.2, hb.1, hb.2.1, hb.2.2.1, hb.2.2.2, hC'.1, hC'.2⟩, v, hl, ⟨w.1, w.2⟩,
      (plus_ok _ _ _ _).2 hw, (pairing_ok _ _ _ _ _ _ _ _ _ _).2 ⟨out, ho, rfl⟩⟩
  refine ⟨_, hv, ?_⟩
  obtain ⟨-, A', B', C', h1, h2, h3, h4⟩ := C70_sound hE vk alpha beta gamma delta ic hk a b0 b1 c input _ hv
  rw [h4, encodes_unique h1 hA, encodes_unique h3 hC, hE.unique _ _ _ _ _ _ h2 hB]

/-- C71: for every encoding of a curve point, `negate` returns the encoding (hence the reduced coordinates) of the inverse. -/
theorem C71_negate (x y : Nat) (P : Point) (h : Encodes x y P) :
    Encodes (negate ⟨x, y⟩).x (negate ⟨x, y⟩).y (-P) := negate_encodes h

/-- C71: no words other than encodings of curve points become encodings by `negate`. -/
theorem C71_no_repair (x y : Nat) (hx : x < q) (hy : y < q) (h : ∀ P, ¬ Encodes x y P) (P : Point) :
    ¬ Encodes (negate ⟨x, y⟩).x (negate ⟨x, y⟩).y P := fun h' => h _ (encodes_of_negate hx hy h')

/-- C71, outside of the curve: for a second coordinate zero the result is not reduced. -/
theorem C71_off_curve (x : Nat) (h : x ≠ 0) : negate ⟨x, 0⟩ = ⟨x, q⟩ := by
  rw [negate, if_neg (by simpa using h), primeQ_eq, Nat.zero_mod]
  rfl

/-- C75: both field orders are prime, and in all three contracts the points of the key are non-zero points of the curve,
resp. points of the twist, in reduced coordinates. -/
theorem C75_constants : primeQ.Prime ∧ snarkScalarField.Prime ∧
    ∀ vk ∈ [notusKey, contractKey, testKey],
      (∃ P : Point, P ≠ 0 ∧ Encodes vk.alfa1.x vk.alfa1.y P) ∧
      (∀ i, ∃ P : Point, P ≠ 0 ∧ Encodes (vk.ic i).x (vk.ic i).y P) ∧
      (∀ Q ∈ [vk.beta2, vk.gamma2, vk.delta2], OnTwist Q.x0 Q.x1 Q.y0 Q.y1) ∧
      vk.gamma2 ≠ vk.delta2 ∧ vk.beta2 ≠ vk.gamma2 ∧ vk.beta2 ≠ vk.delta2 ∧ Function.Injective vk.ic := by
  refine ⟨Lemmas.bn254_q_prime, Lemmas.bn254_r_prime, ?_⟩
  have h1 : ∀ vk ∈ [notusKey, contractKey, testKey], checkG1 vk.alfa1 = true := by decide +kernel
  have h2 : ∀ vk ∈ [notusKey, contractKey, testKey], ∀ i, checkG1 (vk.ic i) = true := by decide +kernel
  have h3 : ∀ vk ∈ [notusKey, contractKey, testKey], ∀ Q ∈ [vk.beta2, vk.gamma2, vk.delta2], checkG2 Q = true := by
    decide +kernel
  have h4 : ∀ vk ∈ [notusKey, contractKey, testKey], vk.gamma2 ≠ vk.delta2 ∧ vk.beta2 ≠ vk.gamma2 ∧ vk.beta2 ≠ vk.delta2 := by
    decide +kernel
  have h5 : ∀ vk ∈ [notusKey, contractKey, testKey], ∀ i j, vk.ic i = vk.ic j → i = j := by decide +kernel
  intro vk hvk
  exact ⟨checkG1_ok _ (h1 vk hvk), fun i => checkG1_ok _ (h2 vk hvk i), fun Q hQ => checkG2_ok _ (h3 vk hvk Q hQ),
    (h4 vk hvk).1, (h4 vk hvk).2.1, (h4 vk hvk).2.2, fun i j => h5 vk hvk i j⟩

/-! ## A case meeting the hypotheses

The second group is ℤ, encoded in the first word, and the pairing is the multiple of a point. -/

/-- Pairing of the example. -/
noncomputable def exPairing : Point →+ ℤ →+ Point := (smulAddHom ℤ Point).flip

/-- Encoding of the example. -/
def exEnc2 (a _ _ _ : Nat) (n : ℤ) : Prop := n = a

/-- A key with G = (1, 2) in every place. -/
def exKey : VerifyingKey := ⟨⟨1, 2⟩, ⟨1, 0, 0, 0⟩, ⟨1, 0, 0, 0⟩, ⟨1, 0, 0, 0⟩, fun _ => ⟨1, 2⟩⟩

/-- The proof A = G, B = 10, C = G is accepted for the inputs 1, ..., 1 because 10 = 1 + 8 + 1, and rejected for B = 11. -/
example : ∃ G : Point, G ≠ 0 ∧ KeyEncodes exEnc2 exKey G 1 1 1 (fun _ => G) ∧
    verifyProof (idealEvm exEnc2 exPairing) exKey (1, 2) (10, 0) (0, 0) (1, 2) (fun _ => 1) = .ok true ∧
    ∃ x, verifyProof (idealEvm exEnc2 exPairing) exKey (1, 2) (11, 0) (0, 0) (1, 2) (fun _ => 1) = .ok x ∧ x = false := by
  obtain ⟨G, hG, he⟩ := checkG1_ok ⟨1, 2⟩ (by decide +kernel)
  have hE := idealEvm_eip exEnc2 exPairing (by intro a b c d Q Q' h h'; rw [exEnc2] at h h'; rw [h, h'])
  have hg := idealEvm_gas exEnc2 exPairing
  have hk : KeyEncodes exEnc2 exKey G 1 1 1 (fun _ => G) := ⟨he, by rfl, by rfl, by rfl, fun _ => he⟩
  have hq : 11 < q := lt_trans (by decide) q_gt
  have hr : 1 < r := by decide +kernel
  refine ⟨G, hG, hk, ?_, ?_⟩
  · obtain ⟨x, hx, hx'⟩ := C70_complete hE hg exKey G 1 1 1 _ hk (1, 2) (10, 0) (0, 0) (1, 2) (fun _ => 1) G 10 G he (by rfl)
      ⟨by show 10 < q; omega, by show 0 < q; omega, by show 0 < q; omega, by show 0 < q; omega⟩ he (fun _ => hr)
    rw [hx, hx'.2]
    simp [Groth16, exPairing]
    abel
  · obtain ⟨x, hx, hx'⟩ := C70_complete hE hg exKey G 1 1 1 _ hk (1, 2) (11, 0) (0, 0) (1, 2) (fun _ => 1) G 11 G he (by rfl)
      ⟨by show 11 < q; omega, by show 0 < q; omega, by show 0 < q; omega, by show 0 < q; omega⟩ he (fun _ => hr)
    refine ⟨x, hx, ?_⟩
    rw [← Bool.not_eq_true, hx', Groth16]
    intro h
    apply hG
    simp [exPairing] at h
    have h' : (11 : ℤ) • G = (10 : ℤ) • G := by rw [h]; abel
    have : (11 : ℤ) • G - (10 : ℤ) • G = G := by abel
    rw [h', sub_self] at this
    exact this.symm

example : ∃ P : Point, P ≠ 0 ∧ Encodes 1 2 P ∧ Encodes 1 (q - 2) (-P) := by
  obtain ⟨G, hG, he⟩ := checkG1_ok ⟨1, 2⟩ (by decide +kernel)
  exact ⟨G, hG, he, C71_negate 1 2 G he⟩

/-- (1, 0) is not on the curve. -/
example : ∀ P, ¬ Encodes 1 0 P := by
  intro P h
  match P with
  | .zero => exact absurd h.1 (by decide)
  | .some _ _ hn => exact some_ne hn (by simpa using h.2.2.2.symm)

/-- An input equal to the field order is refused by the contract. -/
example (E : Evm) : ∃ msg, verifyProof E notusKey (1, 2) (1, 2) (3, 4) (1, 2) (fun _ => r) = .error msg :=
  C70_reverts E notusKey _ _ _ _ _ (by right; right; right; right; right; right; right; right; exact ⟨0, le_refl _⟩)

/-! ## C18 -/

/-- The modulus of the field elements is a prime, the order of the BN254 groups (`36 u^4 + 36 u^3 + 18 u^2 + 6 u + 1` for the
parameter `u` of the curve). -/
theorem C18_field_order : Verif.Model.frOrder.Prime ∧
    ∀ u, u = 4965661367192848881 → Verif.Model.frOrder = 36 * u ^ 4 + 36 * u ^ 3 + 18 * u ^ 2 + 6 * u + 1 := by
  refine ⟨Verif.Lemmas.bn254_r_prime, ?_⟩
  rintro u rfl
  decide +kernel

end Verif.Props
