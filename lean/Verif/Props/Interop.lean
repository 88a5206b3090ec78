import Verif.Model.Interop
import Verif.Lemmas.Bytes
import Mathlib.Data.List.Infix
import Mathlib.Data.Int.CardIntervalMod
import Mathlib.SetTheory.Cardinal.Finite

/-!
# C157, C158, C159: the interop tests
-/

namespace Verif.Props

open Verif.Go Verif.Model.Interop

/-! ## Reading a draw -/

theorem orLog_true {Q : Type} (o : Option Q) (k : Q → Verdict) : (orLog o k).1 = true ↔ ∃ q, o = some q ∧ (k q).1 = true := by
  cases o with
  | none => simp [orLog]
  | some q => simp [orLog]

theorem orFail_true {Q : Type} (o : Option Q) (k : Q → Verdict) : (orFail o k).1 = true ↔ ∃ q, o = some q ∧ (k q).1 = true := by
  cases o with
  | none => simp [orFail]
  | some q => simp [orFail]

theorem orDiffers_true (x y : Bytes) (m : String) (k : Verdict) : (orDiffers x y m k).1 = true ↔ x = y ∧ k.1 = true := by
  unfold orDiffers
  by_cases h : x = y <;> simp [h]

theorem orLog_log {Q : Type} (o : Option Q) (k : Q → Verdict) (m : String) (h : m ∈ (orLog o k).2) :
    (o = none ∧ m = "err") ∨ ∃ q, o = some q ∧ m ∈ (k q).2 := by
  cases o with
  | none => exact .inl ⟨rfl, by simpa [orLog] using h⟩
  | some q => exact .inr ⟨q, rfl, h⟩

theorem orFail_log {Q : Type} (o : Option Q) (k : Q → Verdict) (m : String) (h : m ∈ (orFail o k).2) :
    ∃ q, o = some q ∧ m ∈ (k q).2 := by
  cases o with
  | none => simp [orFail] at h
  | some q => exact ⟨q, rfl, h⟩

theorem orDiffers_log (x y : Bytes) (t : String) (k : Verdict) (m : String) (h : m ∈ (orDiffers x y t k).2) :
    (x ≠ y ∧ m = t) ∨ (x = y ∧ m ∈ k.2) := by
  unfold orDiffers at h
  by_cases e : x = y
  · rw [if_pos e] at h
    exact .inr ⟨e, h⟩
  · rw [if_neg e] at h
    exact .inl ⟨e, List.mem_singleton.1 h⟩

/-! ## C157: which library a message names -/

/-- A message names a library. -/
def Names (m lib : String) : Prop := lib.toList <:+: m.toList

instance (m lib : String) : Decidable (Names m lib) := inferInstanceAs (Decidable (_ <:+: _))

section
variable {P Q P₁ P₂ Q₁ Q₂ R₁ R₂ : Type}

/-- The library computes the multiple of a point as gnark-crypto does. -/
def SmulAgrees (S : Side P) (F : Foreign Q) (p : P) (e : Nat) : Prop :=
  ∃ q, F.unmarshal (S.marshal p) = some q ∧ F.marshal (F.smul q e) = S.marshal (S.smul p e)

/-- The library adds two points as gnark-crypto does. -/
def AddAgrees (S : Side P) (F : Foreign Q) (p r : P) : Prop :=
  ∃ q s, F.unmarshal (S.marshal p) = some q ∧ F.unmarshal (S.marshal r) = some s ∧ F.marshal (F.add q s) = S.marshal (S.add p r)

/-- The library pairs two points as gnark-crypto does. -/
def PairAgrees (S₁ : Side P₁) (S₂ : Side P₂) (f₁ : Foreign Q₁) (f₂ : Foreign Q₂) (pair : P₁ → P₂ → Bytes) (fPair : Q₁ → Q₂ → Bytes)
    (p₁ : P₁) (p₂ : P₂) : Prop :=
  ∃ q₁ q₂, f₁.unmarshal (S₁.marshal p₁) = some q₁ ∧ f₂.unmarshal (S₂.marshal p₂) = some q₂ ∧ fPair q₁ q₂ = pair p₁ p₂

/-- A point goes to the library and comes back. -/
def ComesBack (S : Side P) (F : Foreign Q) (p : P) : Prop :=
  ∃ q, F.unmarshal (S.marshal p) = some q ∧ S.unmarshal (F.marshal q) = some p

end

/-- The addition test of bn254 names the right library. -/
def AdditionNames : Prop := ∀ {P₁ P₂ Q₁ Q₂ R₁ R₂ : Type} (S₁ : Side P₁) (S₂ : Side P₂) (g₁ : Foreign Q₁) (g₂ : Foreign Q₂) (c₁ : Foreign R₁)
  (c₂ : Foreign R₂) (a : Nat), ∀ m ∈ (additionBody S₁ S₂ g₁ g₂ c₁ c₂ a).2,
    (Names m "google" → ¬ (AddAgrees S₁ g₁ (S₁.smul S₁.gen a) S₁.gen ∧ AddAgrees S₂ g₂ (S₂.smul S₂.gen a) S₂.gen)) ∧
    (Names m "cloudflare" → ¬ (AddAgrees S₁ c₁ (S₁.smul S₁.gen a) S₁.gen ∧ AddAgrees S₂ c₂ (S₂.smul S₂.gen a) S₂.gen))

/-- The scalar multiplication test of bn254 names the right library. -/
def ScalarNames : Prop := ∀ {P Q R : Type} (S : Side P) (g : Foreign Q) (c : Foreign R) (a e : Nat), ∀ m ∈ (scalarBody S g c a e).2,
    (Names m "google" → ¬ SmulAgrees S g (S.smul S.gen a) e) ∧ (Names m "cloudflare" → ¬ SmulAgrees S c (S.smul S.gen a) e)

/-- The pairing test of bn254 names the right library. -/
def PairingNames : Prop := ∀ {P₁ P₂ Q₁ Q₂ R₁ R₂ : Type} (S₁ : Side P₁) (S₂ : Side P₂) (g₁ : Foreign Q₁) (g₂ : Foreign Q₂) (c₁ : Foreign R₁)
  (c₂ : Foreign R₂) (pair : P₁ → P₂ → Bytes) (gPair : Q₁ → Q₂ → Bytes) (cPair : R₁ → R₂ → Bytes) (a : Nat),
  ∀ m ∈ (pairingBody S₁ S₂ g₁ g₂ c₁ c₂ pair gPair cPair a).2,
    (Names m "google" → ¬ PairAgrees S₁ S₂ g₁ g₂ pair gPair (S₁.smul S₁.gen a) (S₂.smul S₂.gen a)) ∧
    (Names m "cloudflare" → ¬ PairAgrees S₁ S₂ c₁ c₂ pair cPair (S₁.smul S₁.gen a) (S₂.smul S₂.gen a))

/-- **C157.** A message of an interop test that names a library is logged only if this library differs from gnark-crypto. -/
def C157_statement : Prop := ScalarNames ∧ AdditionNames ∧ PairingNames

theorem C157_scalar_partial : ScalarNames := by
  intro P Q R S g c a e m hm
  unfold scalarBody at hm
  rcases orLog_log _ _ _ hm with ⟨_, rfl⟩ | ⟨q, hq, hm⟩
  · exact ⟨fun h => absurd h (by decide +kernel), fun h => absurd h (by decide +kernel)⟩
  rcases orLog_log _ _ _ hm with ⟨_, rfl⟩ | ⟨r, hr, hm⟩
  · exact ⟨fun h => absurd h (by decide +kernel), fun h => absurd h (by decide +kernel)⟩
  rcases orDiffers_log _ _ _ _ _ hm with ⟨hd, rfl⟩ | ⟨_, hm⟩
  · refine ⟨?_, fun h => absurd h (by decide +kernel)⟩
    rintro - ⟨q', h1, h2⟩
    rw [show g.unmarshal (S.marshal (S.smul S.gen a)) = some q from hq] at h1
    cases h1
    exact hd h2
  rcases orDiffers_log _ _ _ _ _ hm with ⟨hd, rfl⟩ | ⟨_, hm⟩
  · refine ⟨fun h => absurd h (by decide +kernel), ?_⟩
    rintro - ⟨q', h1, h2⟩
    rw [show c.unmarshal (S.marshal (S.smul S.gen a)) = some r from hr] at h1
    cases h1
    exact hd h2
  · cases hm

theorem C157_pairing_partial : PairingNames := by
  intro P₁ P₂ Q₁ Q₂ R₁ R₂ S₁ S₂ g₁ g₂ c₁ c₂ pair gPair cPair a m hm
  unfold pairingBody at hm
  rcases orLog_log _ _ _ hm with ⟨_, rfl⟩ | ⟨q₁, hq₁, hm⟩
  · exact ⟨fun h => absurd h (by decide +kernel), fun h => absurd h (by decide +kernel)⟩
  rcases orLog_log _ _ _ hm with ⟨_, rfl⟩ | ⟨q₂, hq₂, hm⟩
  · exact ⟨fun h => absurd h (by decide +kernel), fun h => absurd h (by decide +kernel)⟩
  rcases orLog_log _ _ _ hm with ⟨_, rfl⟩ | ⟨r₁, hr₁, hm⟩
  · exact ⟨fun h => absurd h (by decide +kernel), fun h => absurd h (by decide +kernel)⟩
  rcases orLog_log _ _ _ hm with ⟨_, rfl⟩ | ⟨r₂, hr₂, hm⟩
  · exact ⟨fun h => absurd h (by decide +kernel), fun h => absurd h (by decide +kernel)⟩
  unfold toForeign at hq₁ hq₂ hr₁ hr₂
  rcases orDiffers_log _ _ _ _ _ hm with ⟨hd, rfl⟩ | ⟨_, hm⟩
  · refine ⟨?_, fun h => absurd h (by decide +kernel)⟩
    rintro - ⟨x, y, h1, h2, h3⟩
    rw [hq₁] at h1
    rw [hq₂] at h2
    cases h1
    cases h2
    exact hd h3.symm
  rcases orDiffers_log _ _ _ _ _ hm with ⟨hd, rfl⟩ | ⟨_, hm⟩
  · refine ⟨fun h => absurd h (by decide +kernel), ?_⟩
    rintro - ⟨x, y, h1, h2, h3⟩
    rw [hr₁] at h1
    rw [hr₂] at h2
    cases h1
    cases h2
    exact hd h3.symm
  · cases hm

/-! ### Small libraries -/

/-- A group of three elements, its elements written as one byte. -/
def toySide : Side (Fin 3) where
  gen := 1
  smul p a := p * Fin.ofNat 3 a
  add p q := p + q
  marshal p := [UInt8.ofNat p.val]
  unmarshal b := match b with
    | [x] => if h : x.toNat < 3 then some ⟨x.toNat, h⟩ else none
    | _ => none
  bytes p := [UInt8.ofNat p.val]

/-- The same as another library, with any addition. -/
def toyForeign (add : Fin 3 → Fin 3 → Fin 3) : Foreign (Fin 3) where
  smul p a := p * Fin.ofNat 3 a
  add := add
  marshal p := [UInt8.ofNat p.val]
  unmarshal b := toySide.unmarshal b
  toCompressed p := [UInt8.ofNat p.val]
  fromCompressed b := toySide.unmarshal b

theorem toy_unmarshal (p : Fin 3) : toySide.unmarshal (toySide.marshal p) = some p := by revert p; decide

/-- If cloudflare adds wrongly and google rightly, the message names google. -/
theorem C157_addition_violated : ¬ AdditionNames := by
  intro h
  have h := (h toySide toySide (toyForeign (· + ·)) (toyForeign (· + ·)) (toyForeign fun _ _ => 0) (toyForeign (· + ·)) 1
    "g1 point addition doesn't match google implementation" (by decide +kernel)).1 (by decide +kernel)
  exact h ⟨⟨1, 1, by decide, by decide, by decide⟩, ⟨1, 1, by decide, by decide, by decide⟩⟩

theorem C157_violated : ¬ C157_statement := fun h => C157_addition_violated h.2.1

/-- What the messages of the addition test mean: the two names are exchanged. -/
theorem C157_addition_partial {P₁ P₂ Q₁ Q₂ R₁ R₂ : Type} (S₁ : Side P₁) (S₂ : Side P₂) (g₁ : Foreign Q₁) (g₂ : Foreign Q₂) (c₁ : Foreign R₁)
    (c₂ : Foreign R₂) (a : Nat) : ∀ m ∈ (additionBody S₁ S₂ g₁ g₂ c₁ c₂ a).2,
      (Names m "google" → ¬ (AddAgrees S₁ c₁ (S₁.smul S₁.gen a) S₁.gen ∧ AddAgrees S₂ c₂ (S₂.smul S₂.gen a) S₂.gen)) ∧
      (Names m "cloudflare" → ¬ (AddAgrees S₁ g₁ (S₁.smul S₁.gen a) S₁.gen ∧ AddAgrees S₂ g₂ (S₂.smul S₂.gen a) S₂.gen)) := by
  intro m hm
  have no : (Names "err" "google" → False) ∧ (Names "err" "cloudflare" → False) := ⟨by decide +kernel, by decide +kernel⟩
  have key : ∀ {P Q : Type} (S : Side P) (F : Foreign Q) (p : P) (q s : Q), F.unmarshal (S.marshal p) = some q →
      F.unmarshal (S.marshal S.gen) = some s → S.marshal (S.add p S.gen) ≠ F.marshal (F.add q s) → ¬ AddAgrees S F p S.gen := by
    rintro P Q S F p q s h1 h2 hne ⟨x, y, e1, e2, e3⟩
    rw [h1] at e1
    rw [h2] at e2
    cases e1
    cases e2
    exact hne e3.symm
  unfold additionBody at hm
  rcases orLog_log _ _ _ hm with ⟨_, rfl⟩ | ⟨x1, h1, hm⟩
  · exact ⟨fun h => (no.1 h).elim, fun h => (no.2 h).elim⟩
  rcases orLog_log _ _ _ hm with ⟨_, rfl⟩ | ⟨x2, h2, hm⟩
  · exact ⟨fun h => (no.1 h).elim, fun h => (no.2 h).elim⟩
  rcases orLog_log _ _ _ hm with ⟨_, rfl⟩ | ⟨x3, h3, hm⟩
  · exact ⟨fun h => (no.1 h).elim, fun h => (no.2 h).elim⟩
  rcases orLog_log _ _ _ hm with ⟨_, rfl⟩ | ⟨x4, h4, hm⟩
  · exact ⟨fun h => (no.1 h).elim, fun h => (no.2 h).elim⟩
  rcases orLog_log _ _ _ hm with ⟨_, rfl⟩ | ⟨x5, h5, hm⟩
  · exact ⟨fun h => (no.1 h).elim, fun h => (no.2 h).elim⟩
  rcases orLog_log _ _ _ hm with ⟨_, rfl⟩ | ⟨x6, h6, hm⟩
  · exact ⟨fun h => (no.1 h).elim, fun h => (no.2 h).elim⟩
  rcases orLog_log _ _ _ hm with ⟨_, rfl⟩ | ⟨x7, h7, hm⟩
  · exact ⟨fun h => (no.1 h).elim, fun h => (no.2 h).elim⟩
  rcases orLog_log _ _ _ hm with ⟨_, rfl⟩ | ⟨x8, h8, hm⟩
  · exact ⟨fun h => (no.1 h).elim, fun h => (no.2 h).elim⟩
  rcases orDiffers_log _ _ _ _ _ hm with ⟨hd, rfl⟩ | ⟨_, hm⟩
  · exact ⟨fun _ h => key S₁ c₁ _ x2 x6 h2 h6 hd h.1, fun h => absurd h (by decide +kernel)⟩
  rcases orDiffers_log _ _ _ _ _ hm with ⟨hd, rfl⟩ | ⟨_, hm⟩
  · exact ⟨fun h => absurd h (by decide +kernel), fun _ h => key S₁ g₁ _ x1 x5 h1 h5 hd h.1⟩
  rcases orDiffers_log _ _ _ _ _ hm with ⟨hd, rfl⟩ | ⟨_, hm⟩
  · exact ⟨fun _ h => key S₂ c₂ _ x4 x8 h4 h8 hd h.2, fun h => absurd h (by decide +kernel)⟩
  rcases orDiffers_log _ _ _ _ _ hm with ⟨hd, rfl⟩ | ⟨_, hm⟩
  · exact ⟨fun h => absurd h (by decide +kernel), fun _ h => key S₂ g₂ _ x3 x7 h3 h7 hd h.2⟩
  · cases hm

/-! ## C158: what the tests can tell -/

/-- Every point is a multiple of the generator with a factor that can be drawn. -/
def Generated {P : Type} (m : Nat) (S : Side P) : Prop := ∀ p, ∃ a < m, S.smul S.gen a = p

/-- Scalar multiplication: two libraries that pass for all draws agree with gnark-crypto. -/
def ScalarTells : Prop := ∀ {P Q R : Type} (m : Nat) (S : Side P) (g : Foreign Q) (c : Foreign R), Generated m S →
  (∀ a < m, ∀ e < m, (scalarBody S g c a e).1 = true) → ∀ p, ∀ e < m, SmulAgrees S g p e ∧ SmulAgrees S c p e

/-- Serialization. -/
def RoundTripTells : Prop := ∀ {P Q : Type} [DecidableEq P] (m : Nat) (S : Side P) (F : Foreign Q), Generated m S →
  (∀ a < m, (roundTrip S F a).1 = true) → ∀ p, ComesBack S F p

/-- Addition. -/
def AdditionTells : Prop := ∀ {P₁ P₂ Q₁ Q₂ R₁ R₂ : Type} (m : Nat) (S₁ : Side P₁) (S₂ : Side P₂) (g₁ : Foreign Q₁) (g₂ : Foreign Q₂)
  (c₁ : Foreign R₁) (c₂ : Foreign R₂), Generated m S₁ → Generated m S₂ →
  (∀ a < m, (additionBody S₁ S₂ g₁ g₂ c₁ c₂ a).1 = true) → ∀ p q, AddAgrees S₁ g₁ p q

/-- Pairing. -/
def PairingTells : Prop := ∀ {P₁ P₂ Q₁ Q₂ R₁ R₂ : Type} (m : Nat) (S₁ : Side P₁) (S₂ : Side P₂) (g₁ : Foreign Q₁) (g₂ : Foreign Q₂)
  (c₁ : Foreign R₁) (c₂ : Foreign R₂) (pair : P₁ → P₂ → Bytes) (gPair : Q₁ → Q₂ → Bytes) (cPair : R₁ → R₂ → Bytes), Generated m S₁ →
  Generated m S₂ → (∀ a < m, (pairingBody S₁ S₂ g₁ g₂ c₁ c₂ pair gPair cPair a).1 = true) →
  ∀ p₁ p₂, PairAgrees S₁ S₂ g₁ g₂ pair gPair p₁ p₂

/-- **C158.** A library that passes an interop test for all draws does what the test is about as gnark-crypto does, for all
points. -/
def C158_statement : Prop := ScalarTells ∧ RoundTripTells ∧ AdditionTells ∧ PairingTells

/-- A draw of the scalar multiplication test is passed exactly if both libraries agree on it. -/
theorem C158_scalar_draw {P Q R : Type} (S : Side P) (g : Foreign Q) (c : Foreign R) (a e : Nat) :
    (scalarBody S g c a e).1 = true ↔ SmulAgrees S g (S.smul S.gen a) e ∧ SmulAgrees S c (S.smul S.gen a) e := by
  unfold scalarBody SmulAgrees
  simp only [orLog_true, orDiffers_true, toForeign, and_true]
  exact ⟨fun ⟨q, h1, r, h2, h3, h4⟩ => ⟨⟨q, h1, h3⟩, r, h2, h4⟩, fun ⟨⟨q, h1, h3⟩, r, h2, h4⟩ => ⟨q, h1, r, h2, h3, h4⟩⟩

theorem C158_scalar_draw_bls {P Q : Type} (S : Side P) (F : Foreign Q) (a e : Nat) :
    (scalarBodyBls S F a e).1 = true ↔ SmulAgrees S F (S.smul S.gen a) e := by
  unfold scalarBodyBls SmulAgrees
  simp only [orLog_true, orDiffers_true, and_true]

theorem C158_roundTrip_draw {P Q : Type} [DecidableEq P] (S : Side P) (F : Foreign Q) (a : Nat) :
    (roundTrip S F a).1 = true ↔ ComesBack S F (S.smul S.gen a) := by
  unfold roundTrip ComesBack
  simp only [orLog_true, orFail_true, toForeign, decide_eq_true_eq]
  exact ⟨fun ⟨q, h1, p, h2, h3⟩ => ⟨q, h1, h3 ▸ h2⟩, fun ⟨q, h1, h2⟩ => ⟨q, h1, _, h2, rfl⟩⟩

theorem C158_compressed_draw {P Q : Type} [DecidableEq P] (S : Side P) (F : Foreign Q) (a : Nat) :
    (roundTripCompressed S F a).1 = true ↔
      ∃ q, F.fromCompressed (S.bytes (S.smul S.gen a)) = some q ∧ S.unmarshal (F.toCompressed q) = some (S.smul S.gen a) := by
  unfold roundTripCompressed
  simp only [orLog_true, orFail_true, decide_eq_true_eq]
  exact ⟨fun ⟨q, h1, p, h2, h3⟩ => ⟨q, h1, h3 ▸ h2⟩, fun ⟨q, h1, h2⟩ => ⟨q, h1, _, h2, rfl⟩⟩

/-- An element of the target group goes to the library and comes back; in the test of bls12-381 only those that the final
exponentiation gives. -/
theorem C158_GT_draw {T U : Type} [DecidableEq T] (S : Target T) (F : ForeignTarget U) (t : T) :
    ((roundTripGT S F t).1 = true ↔ ∃ u, F.unmarshal (S.marshal t) = some u ∧ S.unmarshal (F.marshal u) = some t) ∧
    ((roundTripGTGoogle S F t).1 = true ↔ ∃ u, F.unmarshal (S.marshal t) = some u ∧ S.unmarshal (F.marshal u) = some t) ∧
    ((roundTripGTBls S F t).1 = true ↔
      ∃ u, F.unmarshal (S.marshal (S.finalExp t)) = some u ∧ S.unmarshal (F.marshal u) = some (S.finalExp t)) := by
  unfold roundTripGT roundTripGTGoogle roundTripGTBls
  simp only [orLog_true, orFail_true, decide_eq_true_eq]
  refine ⟨⟨fun ⟨q, h1, p, h2, h3⟩ => ⟨q, h1, h3 ▸ h2⟩, fun ⟨q, h1, h2⟩ => ⟨q, h1, _, h2, rfl⟩⟩,
    ⟨fun ⟨q, h1, p, h2, h3⟩ => ⟨q, h1, h3 ▸ h2⟩, fun ⟨q, h1, h2⟩ => ⟨q, h1, _, h2, rfl⟩⟩,
    fun ⟨q, h1, p, h2, h3⟩ => ⟨q, h1, ?_⟩, fun ⟨q, h1, h2⟩ => ⟨q, h1, _, h2, rfl⟩⟩
  rw [h3]
  exact h2

/-- A draw of the addition test is passed exactly if both libraries add the generators rightly to the drawn multiples. -/
theorem C158_addition_draw {P₁ P₂ Q₁ Q₂ R₁ R₂ : Type} (S₁ : Side P₁) (S₂ : Side P₂) (g₁ : Foreign Q₁) (g₂ : Foreign Q₂) (c₁ : Foreign R₁)
    (c₂ : Foreign R₂) (a : Nat) : (additionBody S₁ S₂ g₁ g₂ c₁ c₂ a).1 = true ↔
      (AddAgrees S₁ g₁ (S₁.smul S₁.gen a) S₁.gen ∧ AddAgrees S₁ c₁ (S₁.smul S₁.gen a) S₁.gen) ∧
      (AddAgrees S₂ g₂ (S₂.smul S₂.gen a) S₂.gen ∧ AddAgrees S₂ c₂ (S₂.smul S₂.gen a) S₂.gen) := by
  unfold additionBody AddAgrees
  simp only [orLog_true, orDiffers_true, toForeign, and_true]
  constructor
  · rintro ⟨x1, h1, x2, h2, x3, h3, x4, h4, x5, h5, x6, h6, x7, h7, x8, h8, e1, e2, e3, e4⟩
    exact ⟨⟨⟨x1, x5, h1, h5, e2.symm⟩, x2, x6, h2, h6, e1.symm⟩, ⟨x3, x7, h3, h7, e4.symm⟩, x4, x8, h4, h8, e3.symm⟩
  · rintro ⟨⟨⟨x1, x5, h1, h5, e2⟩, x2, x6, h2, h6, e1⟩, ⟨x3, x7, h3, h7, e4⟩, x4, x8, h4, h8, e3⟩
    exact ⟨x1, h1, x2, h2, x3, h3, x4, h4, x5, h5, x6, h6, x7, h7, x8, h8, e1.symm, e2.symm, e3.symm, e4.symm⟩

theorem C158_addition_draw_bls {P₁ P₂ Q₁ Q₂ : Type} (S₁ : Side P₁) (S₂ : Side P₂) (f₁ : Foreign Q₁) (f₂ : Foreign Q₂) (a : Nat) :
    (additionBodyBls S₁ S₂ f₁ f₂ a).1 = true ↔
      AddAgrees S₁ f₁ (S₁.smul S₁.gen a) S₁.gen ∧ AddAgrees S₂ f₂ (S₂.smul S₂.gen a) S₂.gen := by
  unfold additionBodyBls AddAgrees
  simp only [orFail_true, orDiffers_true, and_true]
  constructor
  · rintro ⟨x1, h1, x2, h2, x3, h3, x4, h4, e1, e2⟩
    exact ⟨⟨x1, x2, h1, h2, e1.symm⟩, x3, x4, h3, h4, e2.symm⟩
  · rintro ⟨⟨x1, x2, h1, h2, e1⟩, x3, x4, h3, h4, e2⟩
    exact ⟨x1, h1, x2, h2, x3, h3, x4, h4, e1.symm, e2.symm⟩

/-- A draw of the pairing test is passed exactly if both libraries pair the two multiples with the same factor rightly. -/
theorem C158_pairing_draw {P₁ P₂ Q₁ Q₂ R₁ R₂ : Type} (S₁ : Side P₁) (S₂ : Side P₂) (g₁ : Foreign Q₁) (g₂ : Foreign Q₂) (c₁ : Foreign R₁)
    (c₂ : Foreign R₂) (pair : P₁ → P₂ → Bytes) (gPair : Q₁ → Q₂ → Bytes) (cPair : R₁ → R₂ → Bytes) (a : Nat) :
    (pairingBody S₁ S₂ g₁ g₂ c₁ c₂ pair gPair cPair a).1 = true ↔
      PairAgrees S₁ S₂ g₁ g₂ pair gPair (S₁.smul S₁.gen a) (S₂.smul S₂.gen a) ∧
      PairAgrees S₁ S₂ c₁ c₂ pair cPair (S₁.smul S₁.gen a) (S₂.smul S₂.gen a) := by
  unfold pairingBody PairAgrees
  simp only [orLog_true, orDiffers_true, toForeign, and_true]
  constructor
  · rintro ⟨x1, h1, x2, h2, x3, h3, x4, h4, e1, e2⟩
    exact ⟨⟨x1, x2, h1, h2, e1.symm⟩, x3, x4, h3, h4, e2.symm⟩
  · rintro ⟨⟨x1, x2, h1, h2, e1⟩, x3, x4, h3, h4, e2⟩
    exact ⟨x1, h1, x2, h2, x3, h3, x4, h4, e1.symm, e2.symm⟩

theorem C158_pairing_draw_bls {P₁ P₂ Q₁ Q₂ : Type} (S₁ : Side P₁) (S₂ : Side P₂) (f₁ : Foreign Q₁) (f₂ : Foreign Q₂)
    (pair : P₁ → P₂ → Bytes) (fPair : Q₁ → Q₂ → Bytes) (a : Nat) :
    (pairingBodyBls S₁ S₂ f₁ f₂ pair fPair a).1 = true ↔
      PairAgrees S₁ S₂ f₁ f₂ pair fPair (S₁.smul S₁.gen a) (S₂.smul S₂.gen a) := by
  unfold pairingBodyBls PairAgrees
  simp only [orFail_true, orDiffers_true, and_true]
  constructor
  · rintro ⟨x1, h1, x2, h2, e1⟩
    exact ⟨x1, x2, h1, h2, e1.symm⟩
  · rintro ⟨x1, x2, h1, h2, e1⟩
    exact ⟨x1, h1, x2, h2, e1.symm⟩

theorem C158_scalar_partial : ScalarTells := by
  intro P Q R m S g c hgen h p e he
  obtain ⟨a, ha, rfl⟩ := hgen p
  exact (C158_scalar_draw S g c a e).1 (h a ha e he)

theorem C158_roundTrip_partial : RoundTripTells := by
  intro P Q _ m S F hgen h p
  obtain ⟨a, ha, rfl⟩ := hgen p
  exact (C158_roundTrip_draw S F a).1 (h a ha)

theorem toy_generated : Generated 3 toySide := by
  intro p
  exact ⟨p.val, p.isLt, by revert p; decide⟩

/-- An addition that is right only for the generator as second point passes. -/
theorem C158_addition_violated : ¬ AdditionTells := by
  intro h
  have h := h 3 toySide toySide (toyForeign fun x y => if y = 1 then x + 1 else 0) (toyForeign (· + ·)) (toyForeign (· + ·))
    (toyForeign (· + ·)) toy_generated toy_generated (by decide) 2 2
  revert h
  rintro ⟨q, s, h1, h2, h3⟩
  have e1 : (2 : Fin 3) = q := Option.some.inj ((toy_unmarshal 2).symm.trans h1)
  have e2 : (2 : Fin 3) = s := Option.some.inj ((toy_unmarshal 2).symm.trans h2)
  subst e1
  subst e2
  exact absurd h3 (by decide)

/-- A pairing that is right only for multiples with the same factor passes. -/
theorem C158_pairing_violated : ¬ PairingTells := by
  intro h
  have h := h 3 toySide toySide (toyForeign (· + ·)) (toyForeign (· + ·)) (toyForeign (· + ·)) (toyForeign (· + ·))
    (fun x y => toySide.marshal (x * y)) (fun x y => if x = y then toySide.marshal (x * y) else toySide.marshal 0)
    (fun x y => toySide.marshal (x * y)) toy_generated toy_generated (by decide) 1 2
  revert h
  rintro ⟨q, s, h1, h2, h3⟩
  have e1 : (1 : Fin 3) = q := Option.some.inj ((toy_unmarshal 1).symm.trans h1)
  have e2 : (2 : Fin 3) = s := Option.some.inj ((toy_unmarshal 2).symm.trans h2)
  subst e1
  subst e2
  exact absurd h3 (by decide)

theorem C158_violated : ¬ C158_statement := fun h => C158_addition_violated h.2.2.1

/-! ## C159: the generators -/

/-- **C159.** With a field prime of at most `n` bytes: a drawn number is a field element; every field element is drawn by
`256 ^ n / p` strings of `n` bytes or by one more; each of the twelve coordinates is drawn as `genFp` draws, from its own bytes. -/
def C159_statement : Prop := ∀ p n : Nat, 0 < p → p ≤ 256 ^ n →
  (∀ b, genFp p b < p) ∧
  (∀ x < p, 256 ^ n / p ≤ Nat.card {b : Bytes // b.length = n ∧ genFp p b = x} ∧
    Nat.card {b : Bytes // b.length = n ∧ genFp p b = x} ≤ 256 ^ n / p + 1) ∧
  ∀ values (b0 b1 b2 b3 b4 b5 b6 b7 b8 b9 b10 b11 : Bytes), (∀ b ∈ [b0, b1, b2, b3, b4, b5, b6, b7, b8, b9, b10, b11], b.length = n) →
    genGT p n values (b0 ++ b1 ++ b2 ++ b3 ++ b4 ++ b5 ++ b6 ++ b7 ++ b8 ++ b9 ++ b10 ++ b11) =
      ⟨genFp p b0, genFp p b1, genFp p b2, genFp p b3, genFp p b4, genFp p b5, genFp p b6, genFp p b7, genFp p b8, genFp p b9,
        genFp p b10, genFp p b11⟩

theorem bytes_of_number (n : Nat) : ∀ v < 256 ^ n, ∃ b : Bytes, b.length = n ∧ setBytes b = v := by
  induction n with
  | zero =>
    intro v hv
    exact ⟨[], rfl, (Nat.lt_one_iff.1 hv).symm⟩
  | succ n ih =>
    intro v hv
    obtain ⟨b, h1, h2⟩ := ih (v / 256) (Nat.div_lt_of_lt_mul (by rw [Nat.mul_comm, ← Nat.pow_succ]; exact hv))
    refine ⟨b ++ [UInt8.ofNat (v % 256)], by simp [h1], ?_⟩
    rw [Verif.Lemmas.setBytes_append, h2, UInt8.toNat_ofNat_of_lt' (Nat.mod_lt _ (by decide)), show UInt8.size = 256 from rfl]
    omega

theorem strings_card (p n x : Nat) (hp : 0 < p) (hx : x < p) :
    Nat.card {b : Bytes // b.length = n ∧ genFp p b = x} = 256 ^ n / p + if x < 256 ^ n % p then 1 else 0 := by
  have e : {b : Bytes // b.length = n ∧ genFp p b = x} ≃ {v : Nat // v < 256 ^ n ∧ v ≡ x [MOD p]} := by
    refine Equiv.ofBijective (fun b => ⟨setBytes b.1, by have h := Verif.Lemmas.setBytes_lt b.1; rwa [b.2.1] at h, ?_⟩) ⟨?_, ?_⟩
    · show setBytes b.1 % p = x % p
      rw [Nat.mod_eq_of_lt hx]
      exact b.2.2
    · intro a b h
      exact Subtype.ext (Verif.Lemmas.setBytes_inj _ _ (a.2.1.trans b.2.1.symm) (congrArg Subtype.val h))
    · rintro ⟨v, hv, hm⟩
      obtain ⟨b, h1, h2⟩ := bytes_of_number n v hv
      refine ⟨⟨b, h1, ?_⟩, Subtype.ext h2⟩
      unfold genFp
      rw [h2]
      exact Eq.trans hm (Nat.mod_eq_of_lt hx)
  let _ := Nat.CountSet.fintype (fun v => v ≡ x [MOD p]) (256 ^ n)
  have h := Nat.count_eq_card_fintype (fun v => v ≡ x [MOD p]) (256 ^ n)
  rw [Nat.count_modEq_card _ hp, Nat.mod_eq_of_lt hx] at h
  rw [Nat.card_congr e, Nat.card_eq_fintype_card]
  exact h.symm

theorem chunk (n k : Nat) (a b c : Bytes) (ha : a.length = k) (hb : b.length = n) : ((a ++ b ++ c).drop k).take n = b := by
  rw [List.append_assoc, ← ha, List.drop_left, ← hb, List.take_left]

theorem C159_generators : C159_statement := by
  intro p n hp hpn
  refine ⟨fun b => Nat.mod_lt _ hp, fun x hx => ?_, ?_⟩
  · rw [strings_card p n x hp hx]
    split_ifs <;> omega
  · intro values b0 b1 b2 b3 b4 b5 b6 b7 b8 b9 b10 b11 h
    simp only [List.mem_cons, List.not_mem_nil, or_false, forall_eq_or_imp, forall_eq] at h
    obtain ⟨h0, h1, h2, h3, h4, h5, h6, h7, h8, h9, h10, h11⟩ := h
    have e : ∀ (a b c : Bytes) k, a.length = k → b.length = n → setBytes (((a ++ (b ++ c)).drop k).take n) % p = genFp p b := by
      intro a b c k ha hb
      rw [← List.append_assoc, chunk n k a b c ha hb]
      rfl
    unfold genGT
    refine Twelve.mk.injEq .. ▸ ⟨?_, ?_, ?_, ?_, ?_, ?_, ?_, ?_, ?_, ?_, ?_, ?_⟩
    · have := e [] b0 (b1 ++ b2 ++ b3 ++ b4 ++ b5 ++ b6 ++ b7 ++ b8 ++ b9 ++ b10 ++ b11) 0 rfl h0
      simpa only [List.append_assoc, List.nil_append] using this
    · have := e b0 b1 (b2 ++ b3 ++ b4 ++ b5 ++ b6 ++ b7 ++ b8 ++ b9 ++ b10 ++ b11) n h0 h1
      simpa only [List.append_assoc] using this
    · have := e (b0 ++ b1) b2 (b3 ++ b4 ++ b5 ++ b6 ++ b7 ++ b8 ++ b9 ++ b10 ++ b11) (n + n) (by simp [*]) h2
      simpa only [List.append_assoc] using this
    · have := e (b0 ++ b1 ++ b2) b3 (b4 ++ b5 ++ b6 ++ b7 ++ b8 ++ b9 ++ b10 ++ b11) (n + n + n) (by simp [*]; omega) h3
      simpa only [List.append_assoc] using this
    · have := e (b0 ++ b1 ++ b2 ++ b3) b4 (b5 ++ b6 ++ b7 ++ b8 ++ b9 ++ b10 ++ b11) (n + n + n + n) (by simp [*]; omega) h4
      simpa only [List.append_assoc] using this
    · have := e (b0 ++ b1 ++ b2 ++ b3 ++ b4) b5 (b6 ++ b7 ++ b8 ++ b9 ++ b10 ++ b11) (n + n + n + n + n) (by simp [*]; omega) h5
      simpa only [List.append_assoc] using this
    · have := e (b0 ++ b1 ++ b2 ++ b3 ++ b4 ++ b5) b6 (b7 ++ b8 ++ b9 ++ b10 ++ b11) (n + n + n + n + n + n) (by simp [*]; omega) h6
      simpa only [List.append_assoc] using this
    · have := e (b0 ++ b1 ++ b2 ++ b3 ++ b4 ++ b5 ++ b6) b7 (b8 ++ b9 ++ b10 ++ b11) (n + n + n + n + n + n + n) (by simp [*]; omega) h7
      simpa only [List.append_assoc] using this
    · have := e (b0 ++ b1 ++ b2 ++ b3 ++ b4 ++ b5 ++ b6 ++ b7) b8 (b9 ++ b10 ++ b11) (n + n + n + n + n + n + n + n) (by simp [*]; omega) h8
      simpa only [List.append_assoc] using this
    · have := e (b0 ++ b1 ++ b2 ++ b3 ++ b4 ++ b5 ++ b6 ++ b7 ++ b8) b9 (b10 ++ b11) (n + n + n + n + n + n + n + n + n)
        (by simp [*]; omega) h9
      simpa only [List.append_assoc] using this
    · have := e (b0 ++ b1 ++ b2 ++ b3 ++ b4 ++ b5 ++ b6 ++ b7 ++ b8 ++ b9) b10 b11 (n + n + n + n + n + n + n + n + n + n)
        (by simp [*]; omega) h10
      simpa only [List.append_assoc] using this
    · have := e (b0 ++ b1 ++ b2 ++ b3 ++ b4 ++ b5 ++ b6 ++ b7 ++ b8 ++ b9 ++ b10) b11 [] (n + n + n + n + n + n + n + n + n + n + n)
        (by simp [*]; omega) h11
      simpa only [List.append_assoc, List.append_nil] using this

/-- So every element with twelve coordinates in the field is drawn, also 0, which is not in the target group: the test of bn254
uses the drawn elements as they are. -/
theorem C159_every_element (p n : Nat) (hp : 0 < p) (hpn : p ≤ 256 ^ n) (values : List Nat) (t : Twelve)
    (h : ∀ x ∈ [t.c0b0a0, t.c0b0a1, t.c0b1a0, t.c0b1a1, t.c0b2a0, t.c0b2a1, t.c1b0a0, t.c1b0a1, t.c1b1a0, t.c1b1a1, t.c1b2a0, t.c1b2a1],
      x < p) : ∃ b : Bytes, b.length = 12 * n ∧ genGT p n values b = t := by
  have one : ∀ x < p, ∃ b : Bytes, b.length = n ∧ genFp p b = x := by
    intro x hx
    obtain ⟨b, h1, h2⟩ := bytes_of_number n x (Nat.lt_of_lt_of_le hx hpn)
    refine ⟨b, h1, ?_⟩
    unfold genFp
    rw [h2, Nat.mod_eq_of_lt hx]
  simp only [List.mem_cons, List.not_mem_nil, or_false, forall_eq_or_imp, forall_eq] at h
  obtain ⟨h0, h1, h2, h3, h4, h5, h6, h7, h8, h9, h10, h11⟩ := h
  obtain ⟨b0, l0, e0⟩ := one _ h0
  obtain ⟨b1, l1, e1⟩ := one _ h1
  obtain ⟨b2, l2, e2⟩ := one _ h2
  obtain ⟨b3, l3, e3⟩ := one _ h3
  obtain ⟨b4, l4, e4⟩ := one _ h4
  obtain ⟨b5, l5, e5⟩ := one _ h5
  obtain ⟨b6, l6, e6⟩ := one _ h6
  obtain ⟨b7, l7, e7⟩ := one _ h7
  obtain ⟨b8, l8, e8⟩ := one _ h8
  obtain ⟨b9, l9, e9⟩ := one _ h9
  obtain ⟨b10, l10, e10⟩ := one _ h10
  obtain ⟨b11, l11, e11⟩ := one _ h11
  refine ⟨b0 ++ b1 ++ b2 ++ b3 ++ b4 ++ b5 ++ b6 ++ b7 ++ b8 ++ b9 ++ b10 ++ b11, ?_, ?_⟩
  · simp only [List.length_append, l0, l1, l2, l3, l4, l5, l6, l7, l8, l9, l10, l11]
    omega
  · rw [(C159_generators p n hp hpn).2.2 values b0 b1 b2 b3 b4 b5 b6 b7 b8 b9 b10 b11
      (by simp only [List.mem_cons, List.not_mem_nil, or_false, forall_eq_or_imp, forall_eq]; exact ⟨l0, l1, l2, l3, l4, l5, l6, l7, l8, l9, l10, l11⟩)]
    rw [e0, e1, e2, e3, e4, e5, e6, e7, e8, e9, e10, e11]

/-! ## Examples -/

/-- Right libraries pass. -/
example : ∀ a < 3, ∀ e < 3, (scalarBody toySide (toyForeign (· + ·)) (toyForeign (· + ·)) a e) = (true, []) := by decide

example : ∀ a < 3, (additionBody toySide toySide (toyForeign (· + ·)) (toyForeign (· + ·)) (toyForeign (· + ·)) (toyForeign (· + ·)) a) =
    (true, []) := by decide

/-- With one byte and the prime 251 the numbers 0 to 4 are drawn by two bytes, the others by one. -/
example : Nat.card {b : Bytes // b.length = 1 ∧ genFp 251 b = 4} = 2 ∧ Nat.card {b : Bytes // b.length = 1 ∧ genFp 251 b = 5} = 1 :=
  ⟨strings_card 251 1 4 (by decide) (by decide), strings_card 251 1 5 (by decide) (by decide)⟩

/-- The prime of bn254 fits into 32 bytes: each element is drawn by five or six strings. -/
example : 256 ^ 32 / 21888242871839275222246405745257275088696311157297823662689037894645226208583 = 5 := by decide +kernel

end Verif.Props
