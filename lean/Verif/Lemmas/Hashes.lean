import Verif.Model.Hashes
import Mathlib.Data.List.Forall2

/-! # Lemmas about representatives -/

namespace Verif.Lemmas
open Verif.Go Verif.Model

theorem run_bind_ok_iff {α β : Type} (m : Run α) (f : α → Run β) (b : β) :
    (m >>= f) = Run.ok b ↔ ∃ a, m = Run.ok a ∧ f a = Run.ok b := by
  constructor
  · intro h
    match m, h with
    | none, h => exact absurd h (by intro h; cases h)
    | some (.error e), h => exact absurd h (by intro h; cases h)
    | some (.ok a), h => exact ⟨a, rfl, h⟩
  · rintro ⟨a, rfl, h⟩; exact h

theorem run_ok_inj {α : Type} {a b : α} (h : (Run.ok a : Run α) = Run.ok b) : a = b := by
  have h' : some (Except.ok a : Except String α) = some (Except.ok b) := h
  injection h' with h'; injection h'

theorem liftRes_ok_iff {α : Type} (r : Res α) (a : α) : liftRes r = Run.ok a ↔ r = .ok a := by
  constructor
  · intro h
    have h' : some r = some (Except.ok a) := h
    injection h'
  · rintro rfl; rfl

theorem liftLoop_ok_iff {α : Type} (r : Option α) (a : α) : liftLoop r = Run.ok a ↔ r = some a := by
  constructor
  · intro h
    match r, h with
    | none, h => exact absurd h (by intro h; cases h)
    | some b, h => rw [run_ok_inj (a := b) (b := a) h]
  · rintro rfl; rfl

theorem run_mapM_ok_iff {β γ : Type} (f : β → Run γ) (l : List β) (vs : List γ) :
    l.mapM f = Run.ok vs ↔ List.Forall₂ (fun b v => f b = Run.ok v) l vs := by
  induction l generalizing vs with
  | nil =>
    rw [List.mapM_nil, List.forall₂_nil_left_iff]
    constructor
    · intro h; exact (run_ok_inj (a := []) (b := vs) h).symm
    · rintro rfl; rfl
  | cons a l ih =>
    rw [List.mapM_cons, run_bind_ok_iff]
    constructor
    · rintro ⟨b, hb, h⟩
      rw [run_bind_ok_iff] at h
      obtain ⟨bs, hbs, h⟩ := h
      have : b :: bs = vs := run_ok_inj h
      subst this
      exact .cons hb ((ih bs).1 hbs)
    · intro h
      cases h with
      | cons hb hbs =>
        refine ⟨_, hb, ?_⟩
        rw [run_bind_ok_iff]
        exact ⟨_, (ih _).2 hbs, rfl⟩

/-- Representative of one string. -/
def repOf (E : Env) (fuel : Nat) (encodeType : Int) (v : Bytes) : Run Nat :=
  if encodeType = diHashFromPoseidon then liftRes (diRepresentative E v) else liftLoop (hashToPrime E fuel v)

theorem genRepresentatives_eq (E : Env) (fuel : Nat) (set : List Bytes) (encodeType : Int) :
    genRepresentatives E fuel set encodeType = set.mapM (repOf E fuel encodeType) := by
  unfold genRepresentatives genRepWithHashToPrimeFromSHA256 genRepWithDIHashFromPoseidon
  split
  · rename_i h
    have : ¬ encodeType = diHashFromPoseidon := by rw [h]; decide
    congr 1; funext v; simp [repOf, this]
  · split
    · rename_i h; congr 1; funext v; simp [repOf, h]
    · rename_i h; congr 1; funext v; simp [repOf, h]

theorem genRepresentatives_ok_iff (E : Env) (fuel : Nat) (set : List Bytes) (encodeType : Int) (rep : List Nat) :
    genRepresentatives E fuel set encodeType = Run.ok rep ↔
      List.Forall₂ (fun v r => repOf E fuel encodeType v = Run.ok r) set rep := by
  rw [genRepresentatives_eq, run_mapM_ok_iff]

theorem genRepresentatives_length (E : Env) (fuel : Nat) (set : List Bytes) (encodeType : Int) (rep : List Nat)
    (h : genRepresentatives E fuel set encodeType = Run.ok rep) : rep.length = set.length :=
  ((genRepresentatives_ok_iff ..).1 h).length_eq.symm

end Verif.Lemmas
