import Verif.Props.Transcript
import Verif.Props.Poke

/-! # The challenges of the exponent proofs depend on the statement (C81) -/

namespace Verif.Props
open Verif.Go Verif.Model Verif.Lemmas

theorem intString_inj (a b : Int) (h : intString a = intString b) : a = b := by
  have hd : ∀ n : Nat, ∀ c r, itoa n = c :: r → c ≠ 45 := by
    rintro n c r hn rfl
    have := itoa_allDigits n 45 (by rw [hn]; simp)
    revert this; decide
  unfold intString at h
  split at h <;> split at h
  · have := itoa_injective _ _ (List.cons.inj h).2
    omega
  · exact absurd rfl (hd _ _ _ h.symm)
  · exact absurd rfl (hd _ _ _ h)
  · have := itoa_injective _ _ h
    omega

theorem ptrString_inj (a b : Option Int) (h : ptrString a = ptrString b) : a = b := by
  have hn : ∀ n : Int, ascii "<nil>" ≠ intString n := by
    intro n hn
    obtain ⟨c, r, h1, h2⟩ := intString_head n
    rw [h1] at hn
    have : c = 60 := by
      have := (List.cons.inj (show (60 : UInt8) :: [110, 105, 108, 62] = c :: r from hn)).1
      exact this.symm
    subst this
    revert h2; decide
  cases a <;> cases b
  · rfl
  · exact absurd h (hn _)
  · exact absurd h.symm (hn _)
  · rw [intString_inj _ _ h]

/-- For fixed public parameters, the bytes that are hashed determine the statement and the first message: PoKE* (`C`),
PoE (`C` and `x`), ZKPoKE (`u`, `w`, `z`, `Ag`, `Au`). -/
def C81_statement : Prop :=
  (∀ (pp : PublicParameters) (C C' : Int),
    (pokeStarTranscript pp C).info.flatten = (pokeStarTranscript pp C').info.flatten → C = C') ∧
  (∀ base mod C x C' x' : Int,
    (poeTranscript base mod C x).info.flatten = (poeTranscript base mod C' x').info.flatten → C = C' ∧ x = x') ∧
  ∀ (pp : PublicParameters) (u w u' w' : Int) (z Ag Au z' Ag' Au' : Option Int),
    (zkpokeTranscript pp u w z Ag Au).info.flatten = (zkpokeTranscript pp u' w' z' Ag' Au').info.flatten →
    u = u' ∧ w = w' ∧ z = z' ∧ Ag = Ag' ∧ Au = Au'

/-- PoE: `C = 1`, `x = 23` and `C = 12`, `x = 3`. -/
theorem C81_violated : ¬ C81_statement := by
  intro h
  have := (h.2.1 4 35 1 23 12 3 (by decide +kernel)).1
  revert this
  decide

/-- These two statements get the same challenge, whatever the hash function. -/
theorem C81_poe_same_challenge (E : Env) (fuel : Nat) (base mod : Int) :
    ((poeTranscript base mod 1 23).getPrimeChallenge E fuel).map Prod.fst =
    ((poeTranscript base mod 12 3).getPrimeChallenge E fuel).map Prod.fst := by
  have : hashInput (poeTranscript base mod 1 23).info = hashInput (poeTranscript base mod 12 3).info := by
    rw [hashInput_eq, hashInput_eq]
    simp only [poeTranscript, initTranscript, List.nil_append, List.flatten_cons, List.flatten_nil, List.append_nil]
    congr 3
  have h2 : fsHashToPrime E fuel (poeTranscript base mod 1 23).info (poeTranscript base mod 1 23).maxlength =
      fsHashToPrime E fuel (poeTranscript base mod 12 3).info (poeTranscript base mod 12 3).maxlength := by
    unfold fsHashToPrime
    rw [this]; rfl
  unfold Transcript.getPrimeChallenge
  rw [h2]
  cases fsHashToPrime E fuel (poeTranscript base mod 12 3).info (poeTranscript base mod 12 3).maxlength <;> rfl

/-- PoKE* always; PoE if the two `C` have equally long decimal forms; ZKPoKE if the first four numbers have. Missing from
`C81_statement`: numbers of different lengths. -/
theorem C81_binding_partial :
    (∀ (pp : PublicParameters) (C C' : Int),
      (pokeStarTranscript pp C).info.flatten = (pokeStarTranscript pp C').info.flatten → C = C') ∧
    (∀ base mod C x C' x' : Int, (intString C).length = (intString C').length →
      (poeTranscript base mod C x).info.flatten = (poeTranscript base mod C' x').info.flatten → C = C' ∧ x = x') ∧
    ∀ (pp : PublicParameters) (u w u' w' : Int) (z Ag Au z' Ag' Au' : Option Int),
      (intString u).length = (intString u').length → (intString w).length = (intString w').length →
      (ptrString z).length = (ptrString z').length → (ptrString Ag).length = (ptrString Ag').length →
      (zkpokeTranscript pp u w z Ag Au).info.flatten = (zkpokeTranscript pp u' w' z' Ag' Au').info.flatten →
      u = u' ∧ w = w' ∧ z = z' ∧ Ag = Ag' ∧ Au = Au' := by
  refine ⟨?_, ?_, ?_⟩
  · intro pp C C' h
    simp only [pokeStarTranscript, initTranscript, List.nil_append, List.flatten_cons, List.flatten_nil, List.append_nil,
      List.append_cancel_left_eq] at h
    exact intString_inj _ _ h
  · intro base mod C x C' x' hl h
    simp only [poeTranscript, initTranscript, List.nil_append, List.flatten_cons, List.flatten_nil, List.append_nil,
      List.append_cancel_left_eq] at h
    obtain ⟨h1, h2⟩ := List.append_inj h hl
    exact ⟨intString_inj _ _ h1, intString_inj _ _ h2⟩
  · intro pp u w u' w' z Ag Au z' Ag' Au' l1 l2 l3 l4 h
    simp only [zkpokeTranscript, initTranscript, List.nil_append, List.flatten_cons, List.flatten_nil, List.append_nil,
      List.append_cancel_left_eq] at h
    obtain ⟨h1, h⟩ := List.append_inj h l1
    obtain ⟨h2, h⟩ := List.append_inj h l2
    obtain ⟨h3, h⟩ := List.append_inj h l3
    obtain ⟨h4, h⟩ := List.append_inj h l4
    exact ⟨intString_inj _ _ h1, intString_inj _ _ h2, ptrString_inj _ _ h3, ptrString_inj _ _ h4, ptrString_inj _ _ h⟩

/-- Two statements with numbers of equal lengths. -/
example : (intString 17).length = (intString 23).length ∧ (ptrString (some 5)).length = (ptrString (some 8)).length ∧
    (poeTranscript 4 35 17 2).info.flatten ≠ (poeTranscript 4 35 23 2).info.flatten := by decide +kernel

end Verif.Props
