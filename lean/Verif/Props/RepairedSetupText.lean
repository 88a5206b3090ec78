import Verif.Props.SetupRun

/-!
# The setup without the lines about the primes (C143)

`getSafePrime` no longer prints the number it found. The rest of the setup is unchanged, and its text shows no factor.
-/

namespace Verif.Props
open Verif.Go Verif.Model Verif.Spec Verif.Lemmas

/-- accumulator/common.go:367-383 `getSafePrime` without line 378. -/
def getSafePrimeSilent (S : SetupSource) (test : Nat → Bool) : Nat → Draw Bytes Nat
  | 0 => Draw.stop .loop
  | fuel + 1 => do
    let r ← getSuitablePrimeDraw S test (fuel + 1)
    let ranNum := r * 2 + 1
    if test ranNum = false then getSafePrimeSilent S test fuel else return ranNum

/-- accumulator/common.go:231-251 `TrustedSetupForQRN` with it. -/
def trustedSetupSilent (S : SetupSource) (test : Nat → Bool) (fuel : Nat) : Draw Bytes SetupResult := do
  let p ← getSafePrimeSilent S test fuel
  let q ← getSafePrimeSilent S test fuel
  printTwo "Bit length of p = " (itoa p.size)
  printTwo "Bit length of q = " (itoa q.size)
  let N := p * q
  let g ← getRanQRDraw S p q fuel
  let r ← Draw.mustReturn (randPrime S 2048)
  let order := getOrder p q
  let randomNum : Int := (r : Int) % order
  let h := (bigExp g randomNum N).getD 0
  printTwo "N = " (itoa N)
  printTwo "g = " (itoa g)
  printTwo "h = " (intString h)
  return ⟨N, g, h, p, q⟩

/-- The search for a prime does not look at the text. -/
theorem getSuitablePrimeDraw_text (S : SetupSource) (test : Nat → Bool) (fuel r : Nat) (l l' : List (Option Int)) (o o' : Bytes) :
    getSuitablePrimeDraw S test fuel ⟨l, o⟩ = (.ok r, ⟨l', o'⟩) ↔
      o' = o ∧ ∀ t, getSuitablePrimeDraw S test fuel ⟨l, t⟩ = (.ok r, ⟨l', t⟩) := by
  induction fuel generalizing l o with
  | zero => exact ⟨fun h => (by cases h), fun h => (by cases h.2 [])⟩
  | succ fuel ih =>
    simp only [getSuitablePrimeDraw, draw_bind_ok_iff, mustReturn_ok_iff, randPrime_ok_iff]
    constructor
    · rintro ⟨v, s1, ⟨h0, h1, rfl⟩, h⟩
      have key : o' = o ∧ ∀ t, (if safePrimeSieve v = false then getSuitablePrimeDraw S test fuel
          else if test v = false then getSuitablePrimeDraw S test fuel else pure v) ⟨l ++ [some (v : Int)], t⟩ = (.ok r, ⟨l', t⟩) := by
        by_cases a1 : safePrimeSieve v = false
        · simp only [if_pos a1] at h ⊢
          exact (ih _ _).1 h
        · by_cases a2 : test v = false
          · simp only [if_neg a1, if_pos a2] at h ⊢
            exact (ih _ _).1 h
          · simp only [if_neg a1, if_neg a2] at h ⊢
            rw [draw_pure_ok_iff] at h
            obtain ⟨rfl, h⟩ := h
            injection h with h1 h2
            subst h1 h2
            exact ⟨rfl, fun _ => rfl⟩
      exact ⟨key.1, fun t => ⟨v, _, ⟨h0, h1, rfl⟩, key.2 t⟩⟩
    · rintro ⟨rfl, h⟩
      exact h _

theorem getRanQRDraw_text (S : SetupSource) (p q fuel g : Nat) (l l' : List (Option Int)) (o o' : Bytes) :
    getRanQRDraw S p q fuel ⟨l, o⟩ = (.ok g, ⟨l', o'⟩) ↔
      o' = o ∧ ∀ t, getRanQRDraw S p q fuel ⟨l, t⟩ = (.ok g, ⟨l', t⟩) := by
  induction fuel generalizing l o with
  | zero => exact ⟨fun h => (by cases h), fun h => (by cases h.2 [])⟩
  | succ fuel ih =>
    simp only [getRanQRDraw, draw_bind_ok_iff, mustReturn_ok_iff, randBelow_ok_iff, draw_res_ok_iff]
    constructor
    · rintro ⟨v, s1, ⟨h0, h1, rfl⟩, b, s2, ⟨h2, rfl⟩, h⟩
      have key : o' = o ∧ ∀ t, (if b = false then getRanQRDraw S p q fuel else pure v) ⟨l ++ [some (v : Int)], t⟩ =
          (.ok g, ⟨l', t⟩) := by
        by_cases a1 : b = false
        · simp only [if_pos a1] at h ⊢
          exact (ih _ _).1 h
        · simp only [if_neg a1] at h ⊢
          rw [draw_pure_ok_iff] at h
          obtain ⟨rfl, h⟩ := h
          injection h with h1 h2
          subst h1 h2
          exact ⟨rfl, fun _ => rfl⟩
      exact ⟨key.1, fun t => ⟨v, _, ⟨h0, h1, rfl⟩, b, _, ⟨h2, rfl⟩, key.2 t⟩⟩
    · rintro ⟨rfl, h⟩
      exact h _

/-- A silent search is a search of the code that draws the same numbers. -/
theorem getSafePrimeSilent_text (S : SetupSource) (test : Nat → Bool) (fuel p : Nat) (l l' : List (Option Int)) (o o' : Bytes)
    (h : getSafePrimeSilent S test fuel ⟨l, o⟩ = (.ok p, ⟨l', o'⟩)) :
    o' = o ∧ ∀ t, getSafePrimeDraw S test fuel ⟨l, t⟩ = (.ok p, ⟨l', t ++ foundLine p⟩) := by
  induction fuel generalizing l o with
  | zero => cases h
  | succ fuel ih =>
    simp only [getSafePrimeSilent, getSafePrimeDraw, draw_bind_ok_iff] at h ⊢
    obtain ⟨v, ⟨l1, o1⟩, h1, h⟩ := h
    obtain ⟨e0, h2⟩ := (getSuitablePrimeDraw_text ..).1 h1
    subst e0
    by_cases a1 : test (v * 2 + 1) = false
    · rw [if_pos a1] at h
      obtain ⟨e, h⟩ := ih _ _ h
      exact ⟨e, fun t => ⟨v, _, h2 t, by rw [if_pos a1]; exact h t⟩⟩
    · rw [if_neg a1, draw_pure_ok_iff] at h
      obtain ⟨e, h⟩ := h
      injection h with e1 e2
      subst e e1 e2
      refine ⟨rfl, fun t => ⟨v, _, h2 t, ?_⟩⟩
      rw [if_neg a1, draw_bind_ok_iff]
      exact ⟨(), _, (printTwo_ok_iff ..).2 rfl, rfl⟩

/-- The other way round. -/
theorem getSafePrimeDraw_text (S : SetupSource) (test : Nat → Bool) (fuel p : Nat) (l l' : List (Option Int)) (o o' : Bytes)
    (h : getSafePrimeDraw S test fuel ⟨l, o⟩ = (.ok p, ⟨l', o'⟩)) :
    ∀ t, getSafePrimeSilent S test fuel ⟨l, t⟩ = (.ok p, ⟨l', t⟩) := by
  induction fuel generalizing l o with
  | zero => cases h
  | succ fuel ih =>
    simp only [getSafePrimeSilent, getSafePrimeDraw, draw_bind_ok_iff] at h ⊢
    obtain ⟨v, ⟨l1, o1⟩, h1, h⟩ := h
    obtain ⟨e0, h2⟩ := (getSuitablePrimeDraw_text ..).1 h1
    subst e0
    by_cases a1 : test (v * 2 + 1) = false
    · rw [if_pos a1] at h
      exact fun t => ⟨v, _, h2 t, by rw [if_pos a1]; exact ih _ _ h t⟩
    · rw [if_neg a1, draw_bind_ok_iff] at h
      obtain ⟨u, s2, h3, h4⟩ := h
      rw [printTwo_ok_iff] at h3
      rw [draw_pure_ok_iff] at h4
      obtain ⟨e, h4⟩ := h4
      subst h3 e
      injection h4 with e1 e2
      subst e1
      exact fun t => ⟨v, _, h2 t, by rw [if_neg a1]; rfl⟩

/-- A completed run of the silent setup is a run of the code with the same result, whose text begins with the two lines. -/
theorem trustedSetupSilent_run (S : SetupSource) (test : Nat → Bool) (fuel : Nat) (v : SetupResult) (s : Cell Bytes)
    (h : trustedSetupSilent S test fuel freshCell = (.ok v, s)) :
    trustedSetupDraw S test fuel freshCell = (.ok v, ⟨s.log, foundLine v.p ++ foundLine v.q ++ s.obj⟩) ∧ s.obj = restText v := by
  unfold trustedSetupSilent freshCell at h
  unfold trustedSetupDraw freshCell
  simp only [draw_bind_ok_iff, printTwo_ok_iff, mustReturn_ok_iff, randPrime_ok_iff, draw_pure_ok_iff] at h ⊢
  obtain ⟨p, ⟨l1, o1⟩, hp, q, ⟨l2, o2⟩, hq, ⟨⟩, s3, rfl, ⟨⟩, s4, rfl, g, ⟨l5, o5⟩, hg, r, s6, ⟨hb, hr, rfl⟩, ⟨⟩, s7, rfl, ⟨⟩, s8,
    rfl, ⟨⟩, s9, rfl, rfl, rfl⟩ := h
  obtain ⟨e1, hp'⟩ := getSafePrimeSilent_text _ _ _ _ _ _ _ _ hp
  obtain ⟨e2, hq'⟩ := getSafePrimeSilent_text _ _ _ _ _ _ _ _ hq
  obtain ⟨e3, hg'⟩ := (getRanQRDraw_text ..).1 hg
  subst e1 e2 e3
  refine ⟨⟨p, _, hp' _, q, _, hq' _, ⟨⟩, _, rfl, ⟨⟩, _, rfl, g, _, hg' _, r, _, ⟨hb, hr, rfl⟩, ⟨⟩, _, rfl, ⟨⟩, _, rfl, ⟨⟩, _, rfl, rfl,
    ?_⟩, ?_⟩
  · simp
  · simp [restText]

/-- C143 for the repaired setup: the text of a completed run shows no proper factor of the modulus, and the result is one that
the code gives with the same random numbers. -/
theorem C143_repaired_partial (S : SetupSource) (test : Nat → Bool) (fuel : Nat) (v : SetupResult) (s : Cell Bytes)
    (hS : SizedSource S) (hsound : ∀ n, test n = true → n.Prime)
    (h : trustedSetupSilent S test fuel freshCell = (.ok v, s)) :
    ¬ ShowsFactor s.obj v.N ∧ ∃ s', trustedSetupDraw S test fuel freshCell = (.ok v, s') ∧ s'.log = s.log := by
  obtain ⟨h1, h2⟩ := trustedSetupSilent_run S test fuel v s h
  obtain ⟨rest, h3, h4⟩ := C143_rest_partial S test fuel v _ hS hsound h1
  have : s.obj = rest := List.append_cancel_left h3
  rw [this]
  exact ⟨h4, _, h1, rfl⟩

/-- A completed run of the code is a run of the repaired setup with the same result. -/
theorem C143_repaired_same_partial (S : SetupSource) (test : Nat → Bool) (fuel : Nat) (v : SetupResult) (s : Cell Bytes)
    (h : trustedSetupDraw S test fuel freshCell = (.ok v, s)) :
    trustedSetupSilent S test fuel freshCell = (.ok v, ⟨s.log, restText v⟩) := by
  unfold trustedSetupDraw freshCell at h
  unfold trustedSetupSilent freshCell
  simp only [draw_bind_ok_iff, printTwo_ok_iff, mustReturn_ok_iff, randPrime_ok_iff, draw_pure_ok_iff] at h ⊢
  obtain ⟨p, ⟨l1, o1⟩, hp, q, ⟨l2, o2⟩, hq, ⟨⟩, s3, rfl, ⟨⟩, s4, rfl, g, ⟨l5, o5⟩, hg, r, s6, ⟨hb, hr, rfl⟩, ⟨⟩, s7, rfl, ⟨⟩, s8,
    rfl, ⟨⟩, s9, rfl, rfl, rfl⟩ := h
  have hp' := getSafePrimeDraw_text _ _ _ _ _ _ _ _ hp
  have hq' := getSafePrimeDraw_text _ _ _ _ _ _ _ _ hq
  obtain ⟨e3, hg'⟩ := (getRanQRDraw_text ..).1 hg
  refine ⟨p, _, hp' _, q, _, hq' _, ⟨⟩, _, rfl, ⟨⟩, _, rfl, g, _, hg' _, r, _, ⟨hb, hr, rfl⟩, ⟨⟩, _, rfl, ⟨⟩, _, rfl, ⟨⟩, _, rfl, rfl,
    ?_⟩
  simp [restText]

example : ∃ v s, trustedSetupSilent (twoPrimes setupPrime1 setupPrime2) exactTest 1 freshCell = (.ok v, s) ∧ s.obj = restText v := by
  obtain ⟨v, s, hr, _⟩ := twoPrimes_run setupPrime1 setupPrime2 exactTest ((exactTest_iff _).2 setupPrime1_prime)
    ((exactTest_iff _).2 setupPrime2_prime) ((exactTest_iff _).2 setupPrime1_safe) ((exactTest_iff _).2 setupPrime2_safe)
  exact ⟨v, _, C143_repaired_same_partial _ _ _ _ _ hr, rfl⟩

end Verif.Props
