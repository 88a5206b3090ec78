import Verif.Props.Generators

/-!
# The setup with a check of the drawn square (C109)

`getRanQR` draws again if `g - 1` has a common factor with `N`. Then both printed numbers generate the squares.
-/

namespace Verif.Props
open Verif.Go Verif.Model Verif.Spec Verif.Lemmas

/-- accumulator/common.go:385-403 `getRanQR` with the second condition. -/
def getRanQRRepaired (rnd : Nat → Nat) (p q : Nat) : Nat → Nat → Run Nat
  | 0, _ => ExceptT.mk none
  | fuel + 1, pos => do
    let ranNum := rnd pos
    let flag ← liftRes (isQR ranNum p q)
    if flag = false then getRanQRRepaired rnd p q fuel (pos + 1)
    else if Int.gcd ((ranNum : Int) - 1) ((p * q : Nat) : Int) ≠ 1 then getRanQRRepaired rnd p q fuel (pos + 1)
    else pure ranNum

/-- accumulator/common.go:231-251 `TrustedSetupForQRN` with `getRanQRRepaired`. -/
def trustedSetupBases (test : Nat → Bool) (cand rnd : Nat → Nat) (r : Nat) (fuel : Nat) :
    Run (Nat × Nat × Int × Nat × Nat) := do
  let pp ← liftLoop (getSafePrime test cand fuel 0)
  let qq ← liftLoop (getSafePrime test cand fuel pp.2)
  let p := pp.1
  let q := qq.1
  let N := p * q
  let g ← getRanQRRepaired rnd p q fuel 0
  let order := getOrder p q
  let randomNum : Int := (r : Int) % order
  let h := (bigExp g randomNum N).getD 0
  pure (N, g, h, p, q)

/-- A number that the repaired loop returns was drawn and passes both tests. -/
theorem getRanQRRepaired_spec (rnd : Nat → Nat) (p q : Nat) : ∀ fuel pos g, getRanQRRepaired rnd p q fuel pos = Run.ok g →
    ∃ k, pos ≤ k ∧ k < pos + fuel ∧ g = rnd k ∧ isQR (g : Int) p q = .ok true ∧
      Int.gcd ((g : Int) - 1) ((p * q : Nat) : Int) = 1 := by
  intro fuel
  induction fuel with
  | zero => intro pos g h; cases h
  | succ fuel ih =>
    intro pos g h
    rw [getRanQRRepaired] at h
    obtain ⟨flag, hf, h⟩ := (run_bind_ok_iff _ _ _).1 h
    rw [liftRes_ok_iff] at hf
    have again : getRanQRRepaired rnd p q fuel (pos + 1) = Run.ok g → ∃ k, pos ≤ k ∧ k < pos + (fuel + 1) ∧ g = rnd k ∧
        isQR (g : Int) p q = .ok true ∧ Int.gcd ((g : Int) - 1) ((p * q : Nat) : Int) = 1 := by
      intro h
      obtain ⟨k, h1, h2, h3⟩ := ih _ _ h
      exact ⟨k, by omega, by omega, h3⟩
    split at h
    · exact again h
    · rename_i hflag
      split at h
      · exact again h
      · rename_i hgcd
        have e : rnd pos = g := run_ok_inj h
        subst e
        cases flag with
        | false => exact absurd rfl hflag
        | true => exact ⟨pos, le_refl _, by omega, rfl, hf, not_not.1 hgcd⟩

/-- A run of the repaired setup is a run of the code that draws the returned number at once. -/
theorem trustedSetupBases_run (test : Nat → Bool) (cand rnd : Nat → Nat) (r fuel N g p q : Nat) (h : Int)
    (hrun : trustedSetupBases test cand rnd r fuel = Run.ok (N, g, h, p, q)) :
    trustedSetupForQRN test cand (fun _ => g) r fuel = Run.ok (N, g, h, p, q) ∧ Int.gcd ((g : Int) - 1) N = 1 ∧
      ∃ k, k < fuel ∧ g = rnd k := by
  unfold trustedSetupBases at hrun
  unfold trustedSetupForQRN
  obtain ⟨⟨p0, pos1⟩, hp, hrun⟩ := (run_bind_ok_iff _ _ _).1 hrun
  obtain ⟨⟨q0, pos2⟩, hq, hrun⟩ := (run_bind_ok_iff _ _ _).1 hrun
  obtain ⟨g0, hg, hrun⟩ := (run_bind_ok_iff _ _ _).1 hrun
  have hrun := run_ok_inj hrun
  simp only [Prod.mk.injEq] at hrun
  obtain ⟨rfl, rfl, rfl, rfl, rfl⟩ := hrun
  simp only at hg hq
  rw [hp, run_ok_bind, hq, run_ok_bind]
  obtain ⟨k, -, hk, hdr, hsq, hgcd⟩ := getRanQRRepaired_spec _ _ _ _ _ _ hg
  have hone : getRanQR (fun _ => g0) p0 q0 fuel 0 = Run.ok g0 := by
    cases fuel with
    | zero => omega
    | succ f =>
      rw [getRanQR, hsq]
      rfl
  simp only [hone, run_ok_bind]
  exact ⟨rfl, hgcd, k, by omega, hdr⟩

/-- C109 for the repaired setup: both printed numbers generate the squares, for every source of random numbers. -/
theorem C109_repaired_partial (test : Nat → Bool) (cand rnd : Nat → Nat) (r fuel N g p q b : Nat) (h : Int)
    (ht : ∀ n, test n = true → n.Prime) (hb : ∀ i, (cand i).size = b) (hr : r.Prime) (hrb : r.size ≠ b) (hne : p ≠ q)
    (hrun : trustedSetupBases test cand rnd r fuel = Run.ok (N, g, h, p, q)) :
    GeneratesSquares N g ∧ GeneratesSquares N h := by
  obtain ⟨h1, h2, -⟩ := trustedSetupBases_run _ _ _ _ _ _ _ _ _ _ hrun
  have hs : FromSetup ⟨N, g, h⟩ p q b := ⟨hne, test, cand, _, r, fuel, N, g, ht, hb, hr, hrb, h1, rfl, rfl⟩
  have := C109_iff_partial _ _ _ _ hs
  exact ⟨this.1.2 h2, this.2.2 h2⟩

/-- A run of the code whose number passes the check is a run of the repaired setup with the same result. -/
theorem C109_repaired_same_partial (test : Nat → Bool) (cand rnd : Nat → Nat) (r fuel N g p q : Nat) (h : Int)
    (hrun : trustedSetupForQRN test cand rnd r fuel = Run.ok (N, g, h, p, q)) (hg : Int.gcd ((g : Int) - 1) N = 1) :
    trustedSetupBases test cand rnd r fuel = Run.ok (N, g, h, p, q) := by
  have loop : ∀ p q g : Nat, Int.gcd ((g : Int) - 1) ((p * q : Nat) : Int) = 1 → ∀ fuel pos, getRanQR rnd p q fuel pos = Run.ok g →
      getRanQRRepaired rnd p q fuel pos = Run.ok g := by
    intro p q g hg fuel
    induction fuel with
    | zero => intro pos h; cases h
    | succ fuel ih =>
      intro pos h
      rw [getRanQR] at h
      obtain ⟨flag, hf, h⟩ := (run_bind_ok_iff _ _ _).1 h
      rw [getRanQRRepaired, hf, run_ok_bind]
      split at h
      · rename_i e
        rw [if_pos e]
        exact ih _ h
      · rename_i e
        have e2 : rnd pos = g := run_ok_inj h
        rw [if_neg e, if_neg (by rw [e2]; exact not_not.2 hg)]
        exact h
  unfold trustedSetupForQRN at hrun
  unfold trustedSetupBases
  obtain ⟨⟨p0, pos1⟩, hp, hrun⟩ := (run_bind_ok_iff _ _ _).1 hrun
  obtain ⟨⟨q0, pos2⟩, hq, hrun⟩ := (run_bind_ok_iff _ _ _).1 hrun
  obtain ⟨g0, hg0, hrun⟩ := (run_bind_ok_iff _ _ _).1 hrun
  have hrun' := run_ok_inj hrun
  simp only [Prod.mk.injEq] at hrun'
  obtain ⟨rfl, rfl, -, rfl, rfl⟩ := hrun'
  simp only at hg0 hq hg
  rw [hp, run_ok_bind, hq, run_ok_bind]
  simp only [loop _ _ _ hg _ _ hg0, run_ok_bind]
  exact hrun

/-- The setup with the primes 47 and 59 passes the check. -/
example : ∃ test cand rnd r fuel, trustedSetupBases test cand rnd r fuel = Run.ok (2773, 4, 2288, 47, 59) := by
  obtain ⟨hd, test, cand, rnd, r, fuel, N, g, h1, h2, h3, h4, hrun, hN, hG⟩ := setup2773
  have hN' : N = 2773 := by simp only at hN; omega
  have hg' : g = 4 := by simp only at hG; omega
  subst hN' hg'
  exact ⟨test, cand, rnd, r, fuel, C109_repaired_same_partial _ _ _ _ _ _ _ _ _ _ hrun (by decide +kernel)⟩

end Verif.Props
