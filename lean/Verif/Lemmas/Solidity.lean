import Verif.Model.Solidity
import Verif.Spec.Solidity
import Mathlib.FieldTheory.Finite.Basic

/-! # Lemmas about the Solidity verifier -/

namespace Verif.Lemmas.Solidity

open Verif.Go Verif.Model.Solidity Verif.Spec.BN254

theorem primeQ_eq : primeQ = q := rfl

theorem field_eq : snarkScalarField = r := rfl

theorem q_gt : 1000 < q := by decide +kernel

attribute [local irreducible] q

theorem three_ne : (3 : ZMod q) ≠ 0 := by
  have h : ((3 : Nat) : ZMod q) ≠ 0 := by
    rw [Ne, ZMod.natCast_eq_zero_iff]
    intro h
    have := Nat.le_of_dvd (by decide) h
    have := q_gt
    omega
  exact_mod_cast h

theorem equation_iff (x y : ZMod q) : curve.Equation x y ↔ y ^ 2 = x ^ 3 + 3 := by
  rw [WeierstrassCurve.Affine.equation_iff]
  simp [curve]

theorem neg_three_pow : (-3 : ZMod q) ^ ((q - 1) / 3) ≠ 1 := by
  have h : ((q - 3 : Nat) : ZMod q) = -3 := by
    rw [Nat.cast_sub (by have := q_gt; omega)]
    simp
  rw [← h]
  have h1 : (1 : ZMod q) = ((1 : Nat) : ZMod q) := by simp
  rw [h1, ← Nat.cast_pow, Ne, ZMod.natCast_eq_natCast_iff, Nat.ModEq,
    ← powMod_eq q 260 (q - 3) ((q - 1) / 3) (by decide +kernel)]
  decide +kernel

/-- No point of the curve has second coordinate zero: -3 is not a cube. -/
theorem no_y_zero (x : ZMod q) : x ^ 3 + 3 ≠ 0 := by
  intro h
  have hx : x ^ 3 = -3 := eq_neg_of_add_eq_zero_left h
  have h0 : x ≠ 0 := by
    rintro rfl
    apply three_ne
    simpa using h
  have h1 : x ^ (q - 1) = 1 := ZMod.pow_card_sub_one_eq_one h0
  apply neg_three_pow
  rw [← hx, ← pow_mul]
  have h2 : 3 * ((q - 1) / 3) = q - 1 := by decide +kernel
  rw [h2, h1]

theorem encodes_zero {x y : Nat} : Encodes x y 0 ↔ x = 0 ∧ y = 0 := Iff.rfl

theorem encodes_some {x y : Nat} {x' y' : ZMod q} {h : curve.Nonsingular x' y'} :
    Encodes x y (.some x' y' h) ↔ x < q ∧ y < q ∧ (x : ZMod q) = x' ∧ (y : ZMod q) = y' := Iff.rfl

/-- The encoding is not the one of zero. -/
theorem some_ne {x' y' : ZMod q} (h : curve.Nonsingular x' y') : y' ≠ 0 := by
  rintro rfl
  have := (equation_iff _ _).1 h.1
  exact no_y_zero x' (by rw [← this]; simp)

theorem encodes_lt {x y : Nat} {P : Point} (h : Encodes x y P) : x < q ∧ y < q := by
  have := q_gt
  match P with
  | .zero => obtain ⟨rfl, rfl⟩ := h; omega
  | .some _ _ _ => exact ⟨h.1, h.2.1⟩

/-- A pair of words encodes one point only. -/
theorem encodes_unique {x y : Nat} {P Q : Point} (hP : Encodes x y P) (hQ : Encodes x y Q) : P = Q := by
  match P, Q with
  | .zero, .zero => rfl
  | .zero, .some _ _ h =>
    obtain ⟨rfl, rfl⟩ := hP
    exact absurd hQ.2.2.2.symm (by simpa using some_ne h)
  | .some _ _ h, .zero =>
    obtain ⟨rfl, rfl⟩ := hQ
    exact absurd hP.2.2.2.symm (by simpa using some_ne h)
  | .some a b h, .some c d h' =>
    have h1 : a = c := hP.2.2.1.symm.trans hQ.2.2.1
    have h2 : b = d := hP.2.2.2.symm.trans hQ.2.2.2
    subst h1 h2; rfl

/-- Every point has an encoding. -/
theorem encodes_exists (P : Point) : ∃ x y, Encodes x y P := by
  match P with
  | .zero => exact ⟨0, 0, rfl, rfl⟩
  | .some x y h => exact ⟨x.val, y.val, ZMod.val_lt x, ZMod.val_lt y, by simp, by simp⟩

/-- A point has one encoding only. -/
theorem encodes_words {x y x' y' : Nat} {P : Point} (h : Encodes x y P) (h' : Encodes x' y' P) :
    x = x' ∧ y = y' := by
  match P with
  | .zero => exact ⟨h.1.trans h'.1.symm, h.2.trans h'.2.symm⟩
  | .some a b _ =>
    have e1 := h.2.2.1.trans h'.2.2.1.symm
    have e2 := h.2.2.2.trans h'.2.2.2.symm
    rw [ZMod.natCast_eq_natCast_iff, Nat.ModEq, Nat.mod_eq_of_lt h.1, Nat.mod_eq_of_lt h'.1] at e1
    rw [ZMod.natCast_eq_natCast_iff, Nat.ModEq, Nat.mod_eq_of_lt h.2.1, Nat.mod_eq_of_lt h'.2.1] at e2
    exact ⟨e1, e2⟩

theorem negY_eq (x y : ZMod q) : curve.negY x y = -y := by
  simp [WeierstrassCurve.Affine.negY, curve]

theorem cast_q_sub {y : Nat} (h : y ≤ q) : ((q - y : Nat) : ZMod q) = -(y : ZMod q) := by
  rw [Nat.cast_sub h]; simp

/-- `negate` returns the encoding of the inverse point. -/
theorem negate_encodes {x y : Nat} {P : Point} (h : Encodes x y P) :
    Encodes (negate ⟨x, y⟩).x (negate ⟨x, y⟩).y (-P) := by
  match P with
  | .zero =>
    obtain ⟨rfl, rfl⟩ := h
    exact ⟨rfl, rfl⟩
  | .some x' y' hn =>
    obtain ⟨h1, h2, h3, h4⟩ := h
    have hy : y ≠ 0 := by
      rintro rfl
      exact some_ne hn (by simpa using h4.symm)
    rw [WeierstrassCurve.Affine.Point.neg_some]
    rw [negate, if_neg (by simp [hy]), primeQ_eq]
    refine ⟨h1, ?_, h3, ?_⟩
    · show q - y % q < q
      rw [Nat.mod_eq_of_lt h2]; omega
    · show ((q - y % q : Nat) : ZMod q) = _
      rw [Nat.mod_eq_of_lt h2, cast_q_sub h2.le, negY_eq, h4]

/-- And only inverse points. -/
theorem encodes_of_negate {x y : Nat} {P : Point} (hx : x < q) (hy : y < q)
    (h : Encodes (negate ⟨x, y⟩).x (negate ⟨x, y⟩).y P) : Encodes x y (-P) := by
  by_cases h0 : x = 0 ∧ y = 0
  · obtain ⟨rfl, rfl⟩ := h0
    have : P = 0 := encodes_unique h (Q := 0) ⟨rfl, rfl⟩
    rw [this, neg_zero]
    exact ⟨rfl, rfl⟩
  · rw [negate, if_neg (by simpa using h0), primeQ_eq, Nat.mod_eq_of_lt hy] at h
    match P with
    | .zero =>
      have : q - y = 0 := h.2
      omega
    | .some x' y' hn =>
      obtain ⟨_, h2, h3, h4⟩ := h
      rw [WeierstrassCurve.Affine.Point.neg_some]
      refine ⟨hx, hy, h3, ?_⟩
      have h4 : ((q - y : Nat) : ZMod q) = y' := h4
      rw [negY_eq, ← h4, cast_q_sub hy.le, neg_neg]

/-- The point given by two numbers on the curve. -/
theorem encodes_of_equation {x y : Nat} (hx : x < q) (hy : y < q) (h : y ^ 2 % q = (x ^ 3 + 3) % q) :
    ∃ P : Point, P ≠ 0 ∧ Encodes x y P := by
  have he : curve.Equation (x : ZMod q) (y : ZMod q) := by
    rw [equation_iff]
    have := (ZMod.natCast_eq_natCast_iff (y ^ 2) (x ^ 3 + 3) q).2 h
    push_cast at this
    exact this
  have hy0 : (y : ZMod q) ≠ 0 := by
    intro h0
    rw [equation_iff, h0] at he
    exact no_y_zero (x : ZMod q) (by rw [← he]; simp)
  have h2 : (2 : ZMod q) ≠ 0 := by
    have h : ((2 : Nat) : ZMod q) ≠ 0 := by
      rw [Ne, ZMod.natCast_eq_zero_iff]
      intro h
      have := Nat.le_of_dvd (by decide) h
      have := q_gt
      omega
    exact_mod_cast h
  have hn : curve.Nonsingular (x : ZMod q) (y : ZMod q) := by
    rw [WeierstrassCurve.Affine.nonsingular_iff]
    refine ⟨he, Or.inr ?_⟩
    simp only [curve, zero_mul, sub_zero]
    intro h
    have : (2 : ZMod q) * y = 0 := by linear_combination h
    rcases mul_eq_zero.1 this with h | h
    · exact h2 h
    · exact hy0 h
  exact ⟨.some _ _ hn, WeierstrassCurve.Affine.Point.some_ne_zero hn, hx, hy, rfl, rfl⟩

/-! ## The decision of `verifyProof` -/

theorem bind_ok {α β : Type} (x : Res α) (f : α → Res β) (b : β) :
    (x >>= f) = .ok b ↔ ∃ a, x = .ok a ∧ f a = .ok b := by
  cases x with
  | error e => simp [bind, Except.bind]
  | ok a => simp [bind, Except.bind]

theorem require_ok (p : Prop) [Decidable p] (msg : String) (u : Unit) : require (decide p) msg = .ok u ↔ p := by
  unfold require; split <;> simp_all

theorem called_ok {α : Type} (o : Option α) (msg : String) (a : α) : called o msg = .ok a ↔ o = some a := by
  unfold called; split <;> simp_all

theorem plus_ok (E : Evm) (p1 p2 p : G1) :
    plus E p1 p2 = .ok p ↔ E.ecAdd [p1.x, p1.y, p2.x, p2.y] = some (p.x, p.y) := by
  unfold plus
  rw [bind_ok]
  constructor
  · rintro ⟨a, h, h'⟩
    cases h'
    exact (called_ok _ _ _).1 h
  · intro h
    exact ⟨(p.x, p.y), (called_ok _ _ _).2 h, rfl⟩

theorem scalarMul_ok (E : Evm) (p1 p : G1) (s : Nat) :
    scalarMul E p1 s = .ok p ↔ E.ecMul [p1.x, p1.y, s] = some (p.x, p.y) := by
  unfold scalarMul
  rw [bind_ok]
  constructor
  · rintro ⟨a, h, h'⟩
    cases h'
    exact (called_ok _ _ _).1 h
  · intro h
    exact ⟨(p.x, p.y), (called_ok _ _ _).2 h, rfl⟩

theorem pairing_ok (E : Evm) (a1 : G1) (a2 : G2) (b1 : G1) (b2 : G2) (c1 : G1) (c2 : G2) (d1 : G1) (d2 : G2) (b : Bool) :
    pairing E a1 a2 b1 b2 c1 c2 d1 d2 = .ok b ↔
      ∃ v, E.ecPairing [a1.x, a1.y, a2.x0, a2.x1, a2.y0, a2.y1, b1.x, b1.y, b2.x0, b2.x1, b2.y0, b2.y1,
        c1.x, c1.y, c2.x0, c2.x1, c2.y0, c2.y1, d1.x, d1.y, d2.x0, d2.x1, d2.y0, d2.y1] = some v ∧ b = (v != 0) := by
  unfold pairing
  simp only [List.flatMap_cons, List.flatMap_nil, pairWords, List.cons_append, List.nil_append, bind_ok, called_ok]
  constructor
  · rintro ⟨v, h, h'⟩
    cases h'
    exact ⟨v, h, rfl⟩
  · rintro ⟨v, h, rfl⟩
    exact ⟨v, h, rfl⟩

/-- The checks of a successful call. -/
theorem verifyProof_ok (E : Evm) (vk : VerifyingKey) (a b0 b1 c : Nat × Nat) (input : Fin 7 → Nat) (b : Bool) :
    verifyProof E vk a b0 b1 c input = .ok b ↔
      (a.1 < q ∧ a.2 < q ∧ b0.1 < q ∧ b0.2 < q ∧ b1.1 < q ∧ b1.2 < q ∧ c.1 < q ∧ c.2 < q) ∧
      ∃ v, (List.finRange 7).foldlM (inputRound E vk input) ⟨0, 0⟩ = .ok v ∧ ∃ w, plus E v (vk.ic 0) = .ok w ∧
        pairing E (negate ⟨a.1, a.2⟩) ⟨b0.1, b0.2, b1.1, b1.2⟩ vk.alfa1 vk.beta2 w vk.gamma2 ⟨c.1, c.2⟩ vk.delta2
          = .ok b := by
  unfold verifyProof
  simp only [bind_ok, require_ok, exists_and_left, exists_const]
  simp only [primeQ_eq]
  constructor
  · rintro ⟨h1, h2, h3, h4, h5, h6, h7, h8, h⟩
    exact ⟨⟨h1, h2, h3, h5, h4, h6, h7, h8⟩, h⟩
  · rintro ⟨⟨h1, h2, h3, h5, h4, h6, h7, h8⟩, h⟩
    exact ⟨h1, h2, h3, h4, h5, h6, h7, h8, h⟩

theorem inputRound_ok (E : Evm) (vk : VerifyingKey) (input : Fin 7 → Nat) (v w : G1) (i : Fin 7) :
    inputRound E vk input v i = .ok w ↔ input i < r ∧ ∃ t, scalarMul E (vk.ic i.succ) (input i) = .ok t ∧
      plus E v t = .ok w := by
  unfold inputRound
  simp only [bind_ok, require_ok, exists_and_left, exists_const]
  simp only [field_eq]

section

variable {H T : Type} [AddCommGroup H] [AddCommGroup T] {enc2 : Nat → Nat → Nat → Nat → H → Prop}
  {e : Point →+ H →+ T} {E : Evm}

/-- A successful loop has computed the linear combination. -/
theorem loop_sound (hE : Eip enc2 e E.ecAdd E.ecMul E.ecPairing) (vk : VerifyingKey) (input : Fin 7 → Nat)
    (ic : Fin 8 → Point) (hic : ∀ i, Encodes (vk.ic i).x (vk.ic i).y (ic i)) (l : List (Fin 7)) (v w : G1) (V : Point)
    (hv : Encodes v.x v.y V) (h : l.foldlM (inputRound E vk input) v = .ok w) :
    (∀ i ∈ l, input i < r) ∧ Encodes w.x w.y (V + (l.map fun i => input i • ic i.succ).sum) := by
  induction l generalizing v V with
  | nil =>
    cases h
    simpa using hv
  | cons i l ih =>
    rw [List.foldlM_cons, bind_ok] at h
    obtain ⟨v', h1, h2⟩ := h
    obtain ⟨h3, t, h4, h5⟩ := (inputRound_ok _ _ _ _ _ _).1 h1
    obtain ⟨P, hP, hP'⟩ := hE.mul _ _ _ _ ((scalarMul_ok _ _ _ _).1 h4)
    obtain ⟨Q, R, hQ, hR, hS⟩ := hE.add _ _ _ _ _ ((plus_ok _ _ _ _).1 h5)
    have e1 : P = ic i.succ := encodes_unique hP (hic _)
    have e2 : Q = V := encodes_unique hQ hv
    have e3 : R = input i • P := encodes_unique hR hP'
    subst e1 e2 e3
    obtain ⟨h6, h7⟩ := ih v' _ hS h2
    refine ⟨by simpa using ⟨h3, h6⟩, ?_⟩
    simpa [add_assoc] using h7

/-- With enough gas the loop succeeds on reduced inputs. -/
theorem loop_total (hE : Eip enc2 e E.ecAdd E.ecMul E.ecPairing) (hG : EnoughGas enc2 E.ecAdd E.ecMul E.ecPairing)
    (vk : VerifyingKey) (input : Fin 7 → Nat)
    (ic : Fin 8 → Point) (hic : ∀ i, Encodes (vk.ic i).x (vk.ic i).y (ic i)) (l : List (Fin 7)) (v : G1) (V : Point)
    (hv : Encodes v.x v.y V) (hin : ∀ i ∈ l, input i < r) :
    ∃ w, l.foldlM (inputRound E vk input) v = .ok w := by
  induction l generalizing v V with
  | nil => exact ⟨v, rfl⟩
  | cons i l ih =>
    obtain ⟨t, ht⟩ := Option.isSome_iff_exists.1 (hG.mul _ _ (input i) _ (hic i.succ))
    obtain ⟨P, hP, hP'⟩ := hE.mul _ _ _ _ ht
    obtain ⟨s, hs⟩ := Option.isSome_iff_exists.1 (hG.add _ _ _ _ _ _ hv hP')
    obtain ⟨Q, R, _, _, hS⟩ := hE.add _ _ _ _ _ hs
    have h1 : inputRound E vk input v i = .ok ⟨s.1, s.2⟩ :=
      (inputRound_ok _ _ _ _ _ _).2 ⟨hin i (by simp), ⟨t.1, t.2⟩, (scalarMul_ok _ _ _ _).2 ht, (plus_ok _ _ _ _).2 hs⟩
    obtain ⟨w, hw⟩ := ih ⟨s.1, s.2⟩ _ hS fun j hj => hin j (by simp [hj])
    refine ⟨w, ?_⟩
    rw [List.foldlM_cons, h1]
    exact hw

/-- A pairing call on four pairs. -/
theorem pairs_four (x₁ y₁ a₁ b₁ c₁ d₁ x₂ y₂ a₂ b₂ c₂ d₂ x₃ y₃ a₃ b₃ c₃ d₃ x₄ y₄ a₄ b₄ c₄ d₄ : Nat) (l : List (Point × H)) :
    Pairs enc2 [x₁, y₁, a₁, b₁, c₁, d₁, x₂, y₂, a₂, b₂, c₂, d₂, x₃, y₃, a₃, b₃, c₃, d₃, x₄, y₄, a₄, b₄, c₄, d₄] l ↔
      ∃ P₁ Q₁ P₂ Q₂ P₃ Q₃ P₄ Q₄, l = [(P₁, Q₁), (P₂, Q₂), (P₃, Q₃), (P₄, Q₄)] ∧
        (Encodes x₁ y₁ P₁ ∧ enc2 a₁ b₁ c₁ d₁ Q₁) ∧ (Encodes x₂ y₂ P₂ ∧ enc2 a₂ b₂ c₂ d₂ Q₂) ∧
        (Encodes x₃ y₃ P₃ ∧ enc2 a₃ b₃ c₃ d₃ Q₃) ∧ (Encodes x₄ y₄ P₄ ∧ enc2 a₄ b₄ c₄ d₄ Q₄) := by
  constructor
  · intro h
    match l with
    | [] => exact h.elim
    | [_] => exact h.2.2.elim
    | [_, _] => exact h.2.2.2.2.elim
    | [_, _, _] => exact h.2.2.2.2.2.2.elim
    | [p₁, p₂, p₃, p₄] =>
      obtain ⟨h1, h2, h3, h4, h5, h6, h7, h8, _⟩ := h
      exact ⟨p₁.1, p₁.2, p₂.1, p₂.2, p₃.1, p₃.2, p₄.1, p₄.2, rfl, ⟨h1, h2⟩, ⟨h3, h4⟩, ⟨h5, h6⟩, ⟨h7, h8⟩⟩
    | _ :: _ :: _ :: _ :: _ :: _ => exact h.2.2.2.2.2.2.2.2.elim
  · rintro ⟨P₁, Q₁, P₂, Q₂, P₃, Q₃, P₄, Q₄, rfl, ⟨h1, h2⟩, ⟨h3, h4⟩, ⟨h5, h6⟩, ⟨h7, h8⟩⟩
    exact ⟨h1, h2, h3, h4, h5, h6, h7, h8, trivial⟩

end

/-! ## Precompiled contracts with the specified behaviour -/

open Classical in
/-- Precompiled contracts that do what the specification says. -/
noncomputable def idealEvm {H T : Type} [AddCommGroup H] [AddCommGroup T] (enc2 : Nat → Nat → Nat → Nat → H → Prop)
    (e : Point →+ H →+ T) : Evm where
  ecAdd ws := if h : ∃ z : Nat × Nat, ∃ x₁ y₁ x₂ y₂ P Q, ws = [x₁, y₁, x₂, y₂] ∧ Encodes x₁ y₁ P ∧ Encodes x₂ y₂ Q ∧
    Encodes z.1 z.2 (P + Q) then some h.choose else none
  ecMul ws := if h : ∃ z : Nat × Nat, ∃ x y s P, ws = [x, y, s] ∧ Encodes x y P ∧ Encodes z.1 z.2 (s • P)
    then some h.choose else none
  ecPairing ws := if h : ∃ l, Pairs enc2 ws l
    then some (if (h.choose.map fun x => e x.1 x.2).sum = 0 then 1 else 0) else none

section

variable {H T : Type} [AddCommGroup H] [AddCommGroup T] (enc2 : Nat → Nat → Nat → Nat → H → Prop)
  (e : Point →+ H →+ T)

theorem idealEvm_eip (hu : ∀ a b c d Q Q', enc2 a b c d Q → enc2 a b c d Q' → Q = Q') :
    Eip enc2 e (idealEvm enc2 e).ecAdd (idealEvm enc2 e).ecMul (idealEvm enc2 e).ecPairing where
  unique := hu
  add x₁ y₁ x₂ y₂ z h := by
    simp only [idealEvm] at h
    split at h
    · rename_i hz
      cases h
      obtain ⟨_, _, _, _, P, Q, h, h1, h2, h3⟩ := hz.choose_spec
      cases h
      exact ⟨P, Q, h1, h2, h3⟩
    · cases h
  mul x y s z h := by
    simp only [idealEvm] at h
    split at h
    · rename_i hz
      cases h
      obtain ⟨_, _, _, P, h, h1, h2⟩ := hz.choose_spec
      cases h
      exact ⟨P, h1, h2⟩
    · cases h
  pairing ws v h := by
    simp only [idealEvm] at h
    split at h
    · rename_i hz
      refine ⟨hz.choose, hz.choose_spec, ?_⟩
      rw [Option.some.injEq] at h
      rw [← h]
      split_ifs with h0 <;> simp [h0]
    · cases h

theorem idealEvm_gas : EnoughGas enc2 (idealEvm enc2 e).ecAdd (idealEvm enc2 e).ecMul (idealEvm enc2 e).ecPairing where
  add x₁ y₁ x₂ y₂ P Q h1 h2 := by
    simp only [idealEvm]
    obtain ⟨a, b, h⟩ := encodes_exists (P + Q)
    rw [dif_pos ⟨(a, b), x₁, y₁, x₂, y₂, P, Q, rfl, h1, h2, h⟩]
    rfl
  mul x y s P h1 := by
    simp only [idealEvm]
    obtain ⟨a, b, h⟩ := encodes_exists (s • P)
    rw [dif_pos ⟨(a, b), x, y, s, P, rfl, h1, h⟩]
    rfl
  pairing ws l h := by
    simp only [idealEvm]
    rw [dif_pos ⟨l, h⟩]
    rfl

end

/-! ## The numbers of the keys -/

/-- Check of a point of the first group. -/
def checkG1 (p : G1) : Bool := p.x < q && p.y < q && p.y ^ 2 % q == (p.x ^ 3 + 3) % q

theorem checkG1_ok (p : G1) (h : checkG1 p = true) : ∃ P : Point, P ≠ 0 ∧ Encodes p.x p.y P := by
  simp only [checkG1, Bool.and_eq_true, decide_eq_true_eq, beq_iff_eq] at h
  exact encodes_of_equation h.1.1 h.1.2 h.2

/-- Product of two pairs (real part first) with u² = -1. -/
def mulPair (a b : Int × Int) : Int × Int := ((a.1 * b.1 - a.2 * b.2) % q, (a.1 * b.2 + a.2 * b.1) % q)

/-- Check of a point of the second group. -/
def checkG2 (p : G2) : Bool :=
  let x : Int × Int := (p.x1, p.x0)
  let y : Int × Int := (p.y1, p.y0)
  let l := mulPair (9, 1) (mulPair y y)
  let m := mulPair (9, 1) (mulPair x (mulPair x x))
  p.x0 < q && p.x1 < q && p.y0 < q && p.y1 < q && l.1 == (m.1 + 3) % q && l.2 == m.2

/-- The element of the field given by a pair of integers. -/
def pair2 (a : Int × Int) : Fq2 := ⟨a.1, a.2⟩

theorem cast_mod (a : Int) : ((a % (q : Int) : Int) : ZMod q) = a := by
  rw [ZMod.intCast_mod]

theorem pair2_mul (a b : Int × Int) : pair2 (mulPair a b) = pair2 a * pair2 b := by
  ext
  · simp only [pair2, mulPair, cast_mod, QuadraticAlgebra.re_mul]
    push_cast; ring
  · simp only [pair2, mulPair, cast_mod, QuadraticAlgebra.im_mul]
    push_cast; ring

theorem checkG2_ok (p : G2) (h : checkG2 p = true) : OnTwist p.x0 p.x1 p.y0 p.y1 := by
  simp only [checkG2, Bool.and_eq_true, decide_eq_true_eq, beq_iff_eq] at h
  obtain ⟨⟨⟨⟨⟨h1, h2⟩, h3⟩, h4⟩, h5⟩, h6⟩ := h
  refine ⟨⟨h1, h2, h3, h4⟩, ?_⟩
  have e9 : (⟨9, 1⟩ : Fq2) = pair2 (9, 1) := by ext <;> simp [pair2]
  have ex : (⟨p.x1, p.x0⟩ : Fq2) = pair2 (p.x1, p.x0) := by ext <;> simp [pair2]
  have ey : (⟨p.y1, p.y0⟩ : Fq2) = pair2 (p.y1, p.y0) := by ext <;> simp [pair2]
  have e3 : (pair2 (p.x1, p.x0)) ^ 3 = pair2 (p.x1, p.x0) * (pair2 (p.x1, p.x0) * pair2 (p.x1, p.x0)) := by ring
  rw [e9, ex, ey, e3, pow_two, ← pair2_mul, ← pair2_mul, ← pair2_mul, ← pair2_mul, ← pair2_mul]
  have c1 := congrArg (fun a : Int => (a : ZMod q)) h5
  have c2 := congrArg (fun a : Int => (a : ZMod q)) h6
  ext
  · simp only [cast_mod, Int.cast_add] at c1
    have : (3 : Fq2).re = 3 := QuadraticAlgebra.re_ofNat 3
    simpa [pair2, this] using c1
  · have : (3 : Fq2).im = 0 := QuadraticAlgebra.im_ofNat 3
    simpa [pair2, this] using c2

end Verif.Lemmas.Solidity
