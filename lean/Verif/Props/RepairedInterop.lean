import Verif.Props.Interop

/-!
# Interop tests with two drawn factors (C158)

The addition test draws a second factor and adds two drawn points, the pairing test draws a factor for each group. Then a library that
passes for all draws agrees with gnark-crypto on all points.
-/

namespace Verif.Props
open Verif.Go Verif.Model.Interop

/-- `TestPointAdditionInterop`, bn254/interop_test.go:281-373, with a second factor `b` in the place of the generators. -/
def additionBodyTwo {P₁ P₂ Q₁ Q₂ R₁ R₂ : Type} (S₁ : Side P₁) (S₂ : Side P₂) (g₁ : Foreign Q₁) (g₂ : Foreign Q₂) (c₁ : Foreign R₁)
    (c₂ : Foreign R₂) (a b : Nat) : Verdict :=
  let p₁ := S₁.smul S₁.gen a
  let p₂ := S₂.smul S₂.gen a
  let s₁ := S₁.smul S₁.gen b
  let s₂ := S₂.smul S₂.gen b
  orLog (toForeign S₁ g₁ p₁) fun g1g =>
  orLog (toForeign S₁ c₁ p₁) fun g1c =>
  orLog (toForeign S₂ g₂ p₂) fun g2g =>
  orLog (toForeign S₂ c₂ p₂) fun g2c =>
  orLog (toForeign S₁ g₁ s₁) fun g1gGen =>
  orLog (toForeign S₁ c₁ s₁) fun g1cGen =>
  orLog (toForeign S₂ g₂ s₂) fun g2gGen =>
  orLog (toForeign S₂ c₂ s₂) fun g2cGen =>
  let r₁ := S₁.add p₁ s₁
  let r₂ := S₂.add p₂ s₂
  orDiffers (S₁.marshal r₁) (c₁.marshal (c₁.add g1c g1cGen)) "g1 point addition doesn't match cloudflare implementation" <|
  orDiffers (S₁.marshal r₁) (g₁.marshal (g₁.add g1g g1gGen)) "g1 point addition doesn't match google implementation" <|
  orDiffers (S₂.marshal r₂) (c₂.marshal (c₂.add g2c g2cGen)) "g2 point addition doesn't match cloudflare implementation" <|
  orDiffers (S₂.marshal r₂) (g₂.marshal (g₂.add g2g g2gGen)) "g2 point addition doesn't match google implementation" <|
  (true, [])

/-- `TestPairingInterop`, bn254/interop_test.go:384-433, with the factor `b` for the second group. -/
def pairingBodyTwo {P₁ P₂ Q₁ Q₂ R₁ R₂ : Type} (S₁ : Side P₁) (S₂ : Side P₂) (g₁ : Foreign Q₁) (g₂ : Foreign Q₂) (c₁ : Foreign R₁)
    (c₂ : Foreign R₂) (pair : P₁ → P₂ → Bytes) (gPair : Q₁ → Q₂ → Bytes) (cPair : R₁ → R₂ → Bytes) (a b : Nat) : Verdict :=
  let p₁ := S₁.smul S₁.gen a
  let p₂ := S₂.smul S₂.gen b
  orLog (toForeign S₁ g₁ p₁) fun g1g =>
  orLog (toForeign S₂ g₂ p₂) fun g2g =>
  orLog (toForeign S₁ c₁ p₁) fun g1c =>
  orLog (toForeign S₂ c₂ p₂) fun g2c =>
  orDiffers (pair p₁ p₂) (gPair g1g g2g) "pairing doesn't match google implementation" <|
  orDiffers (pair p₁ p₂) (cPair g1c g2c) "pairing doesn't match cloudflare implementation" <|
  (true, [])

/-- C158 for the repaired addition test: the two libraries pass for all draws exactly if they add all points of both groups as
gnark-crypto does. -/
theorem C158_repaired_addition_partial {P₁ P₂ Q₁ Q₂ R₁ R₂ : Type} (m : Nat) (S₁ : Side P₁) (S₂ : Side P₂) (g₁ : Foreign Q₁)
    (g₂ : Foreign Q₂) (c₁ : Foreign R₁) (c₂ : Foreign R₂) (h₁ : Generated m S₁) (h₂ : Generated m S₂) :
    (∀ a < m, ∀ b < m, (additionBodyTwo S₁ S₂ g₁ g₂ c₁ c₂ a b).1 = true) ↔
      (∀ p q, AddAgrees S₁ g₁ p q ∧ AddAgrees S₁ c₁ p q) ∧ ∀ p q, AddAgrees S₂ g₂ p q ∧ AddAgrees S₂ c₂ p q := by
  have draw : ∀ a b, (additionBodyTwo S₁ S₂ g₁ g₂ c₁ c₂ a b).1 = true ↔
      (AddAgrees S₁ g₁ (S₁.smul S₁.gen a) (S₁.smul S₁.gen b) ∧ AddAgrees S₁ c₁ (S₁.smul S₁.gen a) (S₁.smul S₁.gen b)) ∧
      (AddAgrees S₂ g₂ (S₂.smul S₂.gen a) (S₂.smul S₂.gen b) ∧ AddAgrees S₂ c₂ (S₂.smul S₂.gen a) (S₂.smul S₂.gen b)) := by
    intro a b
    unfold additionBodyTwo AddAgrees
    simp only [orLog_true, orDiffers_true, toForeign, and_true]
    constructor
    · rintro ⟨x1, h1, x2, h2, x3, h3, x4, h4, x5, h5, x6, h6, x7, h7, x8, h8, e1, e2, e3, e4⟩
      exact ⟨⟨⟨x1, x5, h1, h5, e2.symm⟩, x2, x6, h2, h6, e1.symm⟩, ⟨x3, x7, h3, h7, e4.symm⟩, x4, x8, h4, h8, e3.symm⟩
    · rintro ⟨⟨⟨x1, x5, h1, h5, e2⟩, x2, x6, h2, h6, e1⟩, ⟨x3, x7, h3, h7, e4⟩, x4, x8, h4, h8, e3⟩
      exact ⟨x1, h1, x2, h2, x3, h3, x4, h4, x5, h5, x6, h6, x7, h7, x8, h8, e1.symm, e2.symm, e3.symm, e4.symm⟩
  constructor
  · refine fun h => ⟨fun p q => ?_, fun p q => ?_⟩
    · obtain ⟨a, ha, rfl⟩ := h₁ p
      obtain ⟨b, hb, rfl⟩ := h₁ q
      exact ((draw a b).1 (h a ha b hb)).1
    · obtain ⟨a, ha, rfl⟩ := h₂ p
      obtain ⟨b, hb, rfl⟩ := h₂ q
      exact ((draw a b).1 (h a ha b hb)).2
  · exact fun h a _ b _ => (draw a b).2 ⟨h.1 _ _, h.2 _ _⟩

/-- The same for the repaired pairing test. -/
theorem C158_repaired_pairing_partial {P₁ P₂ Q₁ Q₂ R₁ R₂ : Type} (m : Nat) (S₁ : Side P₁) (S₂ : Side P₂) (g₁ : Foreign Q₁)
    (g₂ : Foreign Q₂) (c₁ : Foreign R₁) (c₂ : Foreign R₂) (pair : P₁ → P₂ → Bytes) (gPair : Q₁ → Q₂ → Bytes)
    (cPair : R₁ → R₂ → Bytes) (h₁ : Generated m S₁) (h₂ : Generated m S₂) :
    (∀ a < m, ∀ b < m, (pairingBodyTwo S₁ S₂ g₁ g₂ c₁ c₂ pair gPair cPair a b).1 = true) ↔
      ∀ p q, PairAgrees S₁ S₂ g₁ g₂ pair gPair p q ∧ PairAgrees S₁ S₂ c₁ c₂ pair cPair p q := by
  have draw : ∀ a b, (pairingBodyTwo S₁ S₂ g₁ g₂ c₁ c₂ pair gPair cPair a b).1 = true ↔
      PairAgrees S₁ S₂ g₁ g₂ pair gPair (S₁.smul S₁.gen a) (S₂.smul S₂.gen b) ∧
      PairAgrees S₁ S₂ c₁ c₂ pair cPair (S₁.smul S₁.gen a) (S₂.smul S₂.gen b) := by
    intro a b
    unfold pairingBodyTwo PairAgrees
    simp only [orLog_true, orDiffers_true, toForeign, and_true]
    constructor
    · rintro ⟨x1, h1, x2, h2, x3, h3, x4, h4, e1, e2⟩
      exact ⟨⟨x1, x2, h1, h2, e1.symm⟩, x3, x4, h3, h4, e2.symm⟩
    · rintro ⟨⟨x1, x2, h1, h2, e1⟩, x3, x4, h3, h4, e2⟩
      exact ⟨x1, h1, x2, h2, x3, h3, x4, h4, e1.symm, e2.symm⟩
  constructor
  · intro h p q
    obtain ⟨a, ha, rfl⟩ := h₁ p
    obtain ⟨b, hb, rfl⟩ := h₂ q
    exact (draw a b).1 (h a ha b hb)
  · exact fun h a _ b _ => (draw a b).2 (h _ _)

/-- The wrong addition and the wrong pairing of `C158_violated` fail, a right library passes. -/
example : (additionBodyTwo toySide toySide (toyForeign fun x y => if y = 1 then x + 1 else 0) (toyForeign (· + ·)) (toyForeign (· + ·))
      (toyForeign (· + ·)) 2 2).1 = false ∧
    (pairingBodyTwo toySide toySide (toyForeign (· + ·)) (toyForeign (· + ·)) (toyForeign (· + ·)) (toyForeign (· + ·))
      (fun x y => toySide.marshal (x * y)) (fun x y => if x = y then toySide.marshal (x * y) else toySide.marshal 0)
      (fun x y => toySide.marshal (x * y)) 1 2).1 = false ∧
    ∀ a < 3, ∀ b < 3, (additionBodyTwo toySide toySide (toyForeign (· + ·)) (toyForeign (· + ·)) (toyForeign (· + ·))
      (toyForeign (· + ·)) a b).1 = true := ⟨by decide, by decide, by decide⟩

end Verif.Props
