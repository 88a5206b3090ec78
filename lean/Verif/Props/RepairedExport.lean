import Verif.Props.SnarkFlow

/-!
# The contract exported for the key of the proof (C86)

`TestMultiSwapAndOutputSmartContract2` loads the key that `SetupZkMultiswap` wrote, as `TestMultiSwapAndOutputSmartContract` does, and
prints the public witness that `Verify` makes.
-/

namespace Verif.Props
open Verif.Go Verif.Model Verif.Lemmas Verif.Spec Verif.Model.SnarkFlow Verif.Lemmas.SnarkFlow

variable {S : Snark}

/-- zkmultiswap/common.go:265-391 `TestMultiSwapAndOutputSmartContract2` without the second setup of line 272 and its two key files. -/
def outputContractLoaded {S : Snark} (E : Env) (fuel : Nat) (G N accMid : Int) (coin coin' : S.Coin) (testSetSize : UInt32)
    (d : Disk S) : Run (Disk S × Outcome S) := do
  match compile E testSetSize with
  | none => Run.ok (d, .err)
  | some _ =>
    let d ← liftRes (setupZkMultiswap E testSetSize coin d)
    match loadVerifyingKey d (keyFile testSetSize.toNat) with
    | none => Run.ok (d, .err)
    | some vk =>
      let d := write d (ascii "Notuscontract_g16.sol") (.sol vk)
      let testSet ← genTestSet E fuel testSetSize G N accMid
      let publicInfo := testSet.publicPart
      match ← liftRes (prove testSet coin' d) with
      | none => liftRes (goPanic "Error during Prove")
      | some proof =>
        let flag ← liftRes (verify proof testSetSize publicInfo d)
        if flag = false then Run.ok (d, .failed)
        else Run.ok (d, .printed proof (genPublicWitness publicInfo))

/-- The disk after it. -/
theorem loaded_keyAt (n : Nat) (coin : S.Coin) (d : Disk S) (f : File S) :
    KeyAt (write (setupWithDump (.multi n) coin (keyFile n) d) (ascii "Notuscontract_g16.sol") f) (keyFile n) (.multi n) coin :=
  (write_other_keyAt other_notus _ _ _ _).2 (setup_keyAt _ _ _ _)

/-- C86 for the repaired export: the contract accepts the proof and the inputs that are printed, for all proof systems and disks. -/
theorem C86_repaired_partial (E : Env) (fuel : Nat) (G N accMid : Int) (coin coin' : S.Coin) (n : UInt32) (d d' : Disk S)
    (p : S.Proof) (input : List Nat)
    (h : outputContractLoaded E fuel G N accMid coin coin' n d = Run.ok (d', .printed p input)) :
    ∃ vk, d' (ascii "Notuscontract_g16.sol") = some (.sol vk) ∧ contractAccepts vk input p = true := by
  unfold outputContractLoaded at h
  rw [compile_eq] at h
  by_cases hn : n.toNat = 0
  · simp only [if_pos hn] at h
    obtain ⟨-, h⟩ := Prod.mk.inj (run_ok_inj h)
    cases h
  · simp only [if_neg hn] at h
    simp only [run_bind_ok_iff, liftRes_ok_iff, setupZkMultiswap_ok_iff] at h
    obtain ⟨d1, ⟨-, rfl⟩, h⟩ := h
    rw [loadVerifyingKey, readVk_of (setup_keyAt _ _ _ _).2.2] at h
    simp only [run_bind_ok_iff, liftRes_ok_iff] at h
    obtain ⟨u, h2, q, h3, h4⟩ := h
    cases q with
    | none => exact absurd ((liftRes_ok_iff _ _).1 h4) (by simp [goPanic])
    | some p' =>
      simp only [run_bind_ok_iff, liftRes_ok_iff] at h4
      obtain ⟨b, h4, h5⟩ := h4
      cases b with
      | false =>
        rw [if_pos rfl] at h5
        obtain ⟨-, h5⟩ := Prod.mk.inj (run_ok_inj h5)
        cases h5
      | true =>
        rw [if_neg (by simp)] at h5
        obtain ⟨rfl, h6⟩ := Prod.mk.inj (run_ok_inj h5)
        injection h6 with e1 e2
        subst e1 e2
        refine ⟨_, write_same _ _ _, ?_⟩
        rw [verify_of_keyAt _ _ (loaded_keyAt _ _ _ _)] at h4
        injection h4 with h4
        rw [contractAccepts, h4, Bool.and_true, List.all_eq_true]
        intro v hv
        rw [genPublicWitness_eq, List.mem_map] at hv
        obtain ⟨w, -, rfl⟩ := hv
        rw [elementFromBigInt]
        have h0 : (frOrder : Int) ≠ 0 := by decide
        have h1 := Int.emod_nonneg w h0
        have h2 := Int.emod_lt_of_pos w (show (0 : Int) < frOrder by decide)
        exact decide_eq_true (by omega)

/-- With a complete proof system a proof is printed for every test set of up to 2^31 users without an overflow. -/
theorem C86_repaired_prints_partial {E : Env} (hC : Complete E S) (fuel : Nat) (G N accMid : Int) (coin coin' : S.Coin) (n : UInt32)
    (hn : n.toNat ≤ 2 ^ 31) (d : Disk S) (u : UpdateSet32) (hg : genTestSet E fuel n G N accMid = Run.ok u) (ho : NoOverflow E u) :
    ∃ d' p, outputContractLoaded E fuel G N accMid coin coin' n d = Run.ok (d', .printed p (genPublicWitness u.publicPart)) := by
  obtain ⟨h2, hl, -, -, hs⟩ := C64_genTestSet_partial E fuel n G N accMid u hn hg
  obtain ⟨c, h3, h4⟩ := hs ho
  obtain ⟨p, h5, h6⟩ := C85_prove_verify hC hl
    (loaded_keyAt n.toNat coin d (.sol (S.setup (.multi n.toNat) coin).2)) h3 h4 coin'
  refine ⟨write (setupWithDump (.multi n.toNat) coin (keyFile n.toNat) d) (ascii "Notuscontract_g16.sol")
    (.sol (S.setup (.multi n.toNat) coin).2), p, ?_⟩
  unfold outputContractLoaded
  rw [compile_eq]
  simp only [if_neg (show ¬ n.toNat = 0 by omega)]
  simp only [run_bind_ok_iff, liftRes_ok_iff, setupZkMultiswap_ok_iff]
  refine ⟨_, ⟨by omega, rfl⟩, ?_⟩
  rw [loadVerifyingKey, readVk_of (setup_keyAt _ _ _ _).2.2]
  simp only [run_bind_ok_iff, liftRes_ok_iff]
  refine ⟨u, hg, some p, h5, ?_⟩
  simp only [run_bind_ok_iff, liftRes_ok_iff]
  exact ⟨true, h6, rfl⟩

/-- A run that prints a proof. -/
example : ∃ (d' : Disk (idealSnark sumEnv)) (p : (idealSnark sumEnv).Proof) (input : List Nat),
    outputContractLoaded sumEnv 1 2 35 4 (0 : Nat) (2 : Nat) 2 (fun _ => none : Disk (idealSnark sumEnv)) =
      Run.ok (d', .printed p input) := by
  have hg := sumEnv_testSet 2 (by decide) 2 35 4
  obtain ⟨d', p, h⟩ := C86_repaired_prints_partial (S := idealSnark sumEnv) (idealSnark_complete sumEnv) 1 2 35 4 (0 : Nat) (2 : Nat) 2
    (by decide) (fun _ => none) _ hg (by unfold NoOverflow; decide +kernel)
  exact ⟨d', p, _, h⟩

end Verif.Props
