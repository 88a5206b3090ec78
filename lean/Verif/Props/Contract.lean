import Verif.Model.Contract
import Verif.Props.MultiSwap
import Verif.Props.Solidity

/-! # Property C84: the call of the contract -/

namespace Verif.Props
open Verif.Go Verif.Model Verif.Lemmas Verif.Spec Verif.Model.Contract

/-! ## Specification -/

/-- The bytes of eight numbers, each as 32 bytes with the most significant first. -/
def rawBytes (w : Fin 8 → Nat) : Bytes :=
  List.ofFn fun k : Fin 256 => UInt8.ofNat (w ⟨k / 32, by omega⟩ / 256 ^ (31 - k.val % 32))

/-! ## Bytes -/

theorem setBytes_block (n k : Nat) :
    setBytes ((List.range k).map fun i => UInt8.ofNat (n / 256 ^ (k - 1 - i))) = n % 256 ^ k := by
  induction k generalizing n with
  | zero => simp [setBytes, Nat.mod_one]
  | succ k ih =>
    rw [List.range_succ, List.map_append, List.map_cons, List.map_nil, setBytes_append]
    have h : (List.range k).map (fun i => UInt8.ofNat (n / 256 ^ (k + 1 - 1 - i))) =
        (List.range k).map fun i => UInt8.ofNat (n / 256 / 256 ^ (k - 1 - i)) := by
      apply List.map_congr_left
      intro i hi
      rw [List.mem_range] at hi
      rw [Nat.div_div_eq_div_mul, ← pow_succ', show k - 1 - i + 1 = k + 1 - 1 - i by omega]
    rw [h, ih, show k + 1 - 1 - k = 0 by omega, pow_zero, Nat.div_one, UInt8.toNat_ofNat', pow_succ' 256 k, Nat.mod_mul]
    omega

theorem rawBytes_word (w : Fin 8 → Nat) (i : Fin 8) (h : w i < 2 ^ 256) : word (rawBytes w) i = .ok (w i) := by
  have hl : (rawBytes w).length = 256 := List.length_ofFn
  have hi := i.2
  rw [word, if_pos (by rw [hl, fpSize]; omega)]
  have e : slice (rawBytes w) (fpSize * i) (fpSize * (i + 1)) =
      (List.range 32).map fun j => UInt8.ofNat (w i / 256 ^ (32 - 1 - j)) := by
    apply List.ext_getElem
    · simp only [slice, List.length_take, List.length_drop, hl, fpSize, List.length_map, List.length_range]; omega
    · intro j h1 h2
      have hj : j < 32 := by simpa using h2
      simp only [slice, List.getElem_take, List.getElem_drop, rawBytes, List.getElem_ofFn, List.getElem_map,
        List.getElem_range, fpSize]
      have e1 : (4 * 8 * i.val + j) / 32 = i.val := by omega
      have e2 : (4 * 8 * i.val + j) % 32 = j := by omega
      simp only [e1, e2]
  rw [e, setBytes_block, show (256 : Nat) ^ 32 = 2 ^ 256 by norm_num, Nat.mod_eq_of_lt h]

/-- C84: the words of the call are the eight numbers that were written, in this order. -/
theorem C84_words (w : Fin 8 → Nat) (h : ∀ i, w i < 2 ^ 256) :
    proofWords (rawBytes w) =
      .ok { a := (w 0, w 1), b0 := (w 2, w 3), b1 := (w 4, w 5), c := (w 6, w 7) } := by
  have e := fun i => rawBytes_word w i (h i)
  have e0 : word (rawBytes w) 0 = .ok (w 0) := e 0
  have e1 : word (rawBytes w) 1 = .ok (w 1) := e 1
  have e2 : word (rawBytes w) 2 = .ok (w 2) := e 2
  have e3 : word (rawBytes w) 3 = .ok (w 3) := e 3
  have e4 : word (rawBytes w) 4 = .ok (w 4) := e 4
  have e5 : word (rawBytes w) 5 = .ok (w 5) := e 5
  have e6 : word (rawBytes w) 6 = .ok (w 6) := e 6
  have e7 : word (rawBytes w) 7 = .ok (w 7) := e 7
  simp only [proofWords, e0, e1, e2, e3, e4, e5, e6, e7, except_bind_ok]

/-- C84: fewer bytes than a proof has give a panic, not a call with other words. -/
theorem C84_short (b : Bytes) : (proofWords b).panics = true ↔ b.length < 256 := by
  have hw : ∀ i, (32 * (i + 1) ≤ b.length → ∃ n, word b i = .ok n) ∧
      (¬ 32 * (i + 1) ≤ b.length → word b i = goPanic "slice bounds out of range") := by
    intro i
    constructor
    · intro h; exact ⟨_, by rw [word, fpSize, if_pos h]⟩
    · intro h; rw [word, fpSize, if_neg h]
  constructor
  · intro h
    by_contra hl
    obtain ⟨_, e0⟩ := (hw 0).1 (by omega)
    obtain ⟨_, e1⟩ := (hw 1).1 (by omega)
    obtain ⟨_, e2⟩ := (hw 2).1 (by omega)
    obtain ⟨_, e3⟩ := (hw 3).1 (by omega)
    obtain ⟨_, e4⟩ := (hw 4).1 (by omega)
    obtain ⟨_, e5⟩ := (hw 5).1 (by omega)
    obtain ⟨_, e6⟩ := (hw 6).1 (by omega)
    obtain ⟨_, e7⟩ := (hw 7).1 (by omega)
    simp only [proofWords, e0, e1, e2, e3, e4, e5, e6, e7, except_bind_ok, Res.panics] at h
    cases h
  · intro hl
    cases hp : proofWords b with
    | error m => rfl
    | ok v =>
      exfalso
      have e7 := (hw 7).2 (by omega)
      simp only [proofWords, e7] at hp
      have : ∀ (i : Nat) (f : Nat → Res ProofWords), (∀ n v, f n ≠ .ok v) → ∀ v, (word b i >>= f) ≠ .ok v := by
        intro i f hf v hv
        cases hx : word b i with
        | error m => rw [hx] at hv; cases hv
        | ok n => rw [hx] at hv; exact hf n v hv
      refine this 0 _ (fun _ => this 1 _ fun _ => this 2 _ fun _ => this 3 _ fun _ => this 4 _ fun _ => this 5 _ fun _ =>
        this 6 _ fun _ v hv => ?_) v hp
      cases hv

/-! ## Inputs -/

/-- The public values of an honest set are field elements. -/
theorem honest_inField (E : Env) (u : UpdateSet32) (h : HonestUpdate E u) : InField u.publicPart := by
  have m : ∀ (a l : Int), 0 < l → l < frOrder → 0 ≤ a % l ∧ a % l < frOrder := by
    intro a l h0 h1
    exact ⟨Int.emod_nonneg _ (by omega), (Int.emod_lt_of_pos _ h0).trans h1⟩
  have he : (u.currentEpochNum.toNat : Int) < frOrder := by
    have := u.currentEpochNum.toNat_lt
    have hr : (frOrder : Int) > 2 ^ 100 := by decide
    omega
  unfold InField
  simp only [publicValues, UpdateSet32.publicPart, List.mem_cons, List.not_mem_nil, or_false, forall_eq_or_imp, forall_eq]
  refine ⟨⟨h.challenge1.1.le, h.challenge1.2⟩, ⟨h.challenge2.1.le, h.challenge2.2⟩, ?_, ?_, ⟨by omega, he⟩, ?_, ?_⟩
  · rw [h.remainder1]; exact m _ _ h.challenge1.1 h.challenge1.2
  · rw [h.remainder2]; exact m _ _ h.challenge2.1 h.challenge2.2
  · rw [h.delta1]; exact m _ _ h.challenge1.1 h.challenge1.2
  · rw [h.delta2]; exact m _ _ h.challenge2.1 h.challenge2.2

/-- For values in the field the inputs of the call are the public witness of the Go verifier, in its order. -/
theorem testInput_eq (p : PublicInfo) (h : InField p) : List.ofFn (testInput p) = genPublicWitness p := by
  have hu : ∀ v, 0 ≤ v ∧ v < (frOrder : Int) → uint256FromBig v = elementFromBigInt v := by
    intro v hv
    have hr : (frOrder : Int) < 2 ^ 256 := by decide
    rw [uint256FromBig, elementFromBigInt, Int.emod_eq_of_lt hv.1 hv.2, Int.emod_eq_of_lt hv.1 (by omega)]
  have h' : ∀ v ∈ publicValues p, 0 ≤ v ∧ v < frOrder := h
  simp only [publicValues, List.mem_cons, List.not_mem_nil, or_false, forall_eq_or_imp, forall_eq] at h'
  obtain ⟨a1, a2, a3, a4, a5, a6, a7⟩ := h'
  rw [genPublicWitness_eq]
  simp only [testInput, publicValues, List.map_cons, List.map_nil]
  rw [hu _ a1, hu _ a2, hu _ a3, hu _ a4, hu _ a5, hu _ a6, hu _ a7]
  rfl

/-- C84: the seven inputs of the call are the public witness of the Go verifier in its order, and pass the range check of
the contract; for every honest set, in particular for every result of `GenTestSet` (up to 2^31 users). -/
theorem C84_inputs (E : Env) :
    (∀ u, HonestUpdate E u → List.ofFn (testInput u.publicPart) = genPublicWitness u.publicPart ∧
      ∀ i, testInput u.publicPart i < Solidity.snarkScalarField) ∧
    ∀ (fuel : Nat) (n : UInt32) (G N accMid : Int) (u : UpdateSet32), n.toNat ≤ 2 ^ 31 →
      genTestSet E fuel n G N accMid = Run.ok u → HonestUpdate E u := by
  refine ⟨fun u h => ⟨testInput_eq _ (honest_inField E u h), fun i => ?_⟩,
    fun fuel n G N accMid u hn h => (C64_genTestSet_partial E fuel n G N accMid u hn h).2.2.2.1⟩
  have hm : testInput u.publicPart i ∈ List.ofFn (testInput u.publicPart) := List.mem_ofFn.2 ⟨i, rfl⟩
  rw [testInput_eq _ (honest_inField E u h), genPublicWitness_eq, List.mem_map] at hm
  obtain ⟨v, -, hv⟩ := hm
  rw [← hv, elementFromBigInt]
  have h0 : (frOrder : Int) ≠ 0 := by decide
  have h1 := Int.emod_nonneg v h0
  have h2 := Int.emod_lt_of_pos v (show (0 : Int) < frOrder by decide)
  have : Solidity.snarkScalarField = frOrder := rfl
  rw [this]
  omega

open Verif.Spec.BN254 Verif.Model.Solidity in
/-- C84: the call for an honest set, with the bytes of a proof (A, B, C) written with reduced coordinates, returns, and the
answer is the verification equation for the public witness of the Go verifier. -/
theorem C84_contract_decides (Ev : Env) {H T : Type} [AddCommGroup H] [AddCommGroup T]
    {enc2 : Nat → Nat → Nat → Nat → H → Prop}
    {e : Point →+ H →+ T} {E : Evm} (hE : Eip enc2 e E.ecAdd E.ecMul E.ecPairing)
    (hG : EnoughGas enc2 E.ecAdd E.ecMul E.ecPairing) (vk : VerifyingKey) (alpha : Point)
    (beta gamma delta : H) (ic : Fin 8 → Point) (hk : KeyEncodes enc2 vk alpha beta gamma delta ic)
    (u : UpdateSet32) (hu : HonestUpdate Ev u) (w : Fin 8 → Nat) (A : Point) (B : H) (C : Point)
    (hw : ∀ i, w i < q) (hA : Encodes (w 0) (w 1) A) (hB : enc2 (w 2) (w 3) (w 4) (w 5) B) (hC : Encodes (w 6) (w 7) C) :
    ∃ pw x, proofWords (rawBytes w) = .ok pw ∧
      verifyProof E vk pw.a pw.b0 pw.b1 pw.c (testInput u.publicPart) = .ok x ∧
      (x = true ↔ e A B = e alpha beta +
        e (ic 0 + ((genPublicWitness u.publicPart).zipWith (fun v P => v • P) (List.ofFn fun i : Fin 7 => ic i.succ)).sum) gamma +
        e C delta) := by
  have hq : q < 2 ^ 256 := by decide +kernel
  obtain ⟨h1, h2⟩ := (C84_inputs Ev).1 u hu
  obtain ⟨x, hx, hx'⟩ := C70_complete hE hG vk alpha beta gamma delta ic hk (w 0, w 1) (w 2, w 3) (w 4, w 5) (w 6, w 7)
    (testInput u.publicPart) A B C hA hB ⟨hw 2, hw 3, hw 4, hw 5⟩ hC h2
  refine ⟨_, x, C84_words w fun i => (hw i).trans hq, hx, ?_⟩
  rw [hx', Groth16, ← h1]
  have : ((List.ofFn (testInput u.publicPart)).zipWith (fun v P => v • P) (List.ofFn fun i : Fin 7 => ic i.succ)).sum =
      ∑ i : Fin 7, testInput u.publicPart i • ic i.succ := by
    rw [← List.sum_ofFn]
    rfl
  rw [this]

/-- The call of the test for `goodSet`, and the words of a short proof. -/
example : List.ofFn (testInput goodSet.publicPart) = [1009, 1013, 779, 426, 20, 480, 22] ∧
    proofWords (rawBytes ![1, 2, 3, 4, 5, 6, 7, 2 ^ 255]) =
      .ok { a := (1, 2), b0 := (3, 4), b1 := (5, 6), c := (7, 2 ^ 255) } := by decide +kernel

open Verif.Spec.BN254 Verif.Model.Solidity Verif.Lemmas.Solidity in
/-- Hypotheses of `C84_contract_decides`: the key and the proof of the example of C70, and `goodSet`. -/
example : HonestUpdate sumEnv goodSet ∧ ∃ G : Point, KeyEncodes exEnc2 exKey G 1 1 1 (fun _ => G) ∧
    (∀ i, (![1, 2, 10, 0, 0, 0, 1, 2] : Fin 8 → Nat) i < q) ∧ Encodes 1 2 G ∧ exEnc2 10 0 0 0 10 ∧
    Eip exEnc2 exPairing (idealEvm exEnc2 exPairing).ecAdd (idealEvm exEnc2 exPairing).ecMul
      (idealEvm exEnc2 exPairing).ecPairing := by
  obtain ⟨G, -, he⟩ := checkG1_ok ⟨1, 2⟩ (by decide +kernel)
  exact ⟨goodSet_honest, G, ⟨he, by rfl, by rfl, by rfl, fun _ => he⟩, by decide +kernel, he, by rfl,
    idealEvm_eip exEnc2 exPairing (by intro a b c d Q Q' h h'; rw [exEnc2] at h h'; rw [h, h'])⟩

end Verif.Props
