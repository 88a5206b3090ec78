import Verif.Props.RepairedClose

/-! # Repair of C140 and C141 for the program that generates the contract -/

namespace Verif.Props
open Verif.Go Verif.Model Verif.Lemmas Verif.Spec Verif.Model.SnarkFlow Verif.Lemmas.SnarkFlow

variable {S : Snark}

/-- zkmultiswap/gnark-tests/solidity/contract/main.go:26-62 `generateGroth16` with changes: errors of opening, reading and closing the
key are returned in place of being printed, and the contract file is closed. No key is used after a failed read. Not in the repository. -/
def generateGroth16Checked (bad : Nat → Bool) (order : List Part) (E : Env) (coin : S.Coin) : FM S Bool := do
  match compile E 5 with
  | none => pure false
  | some r1cs =>
    if ← dumpF bad r1cs coin keyPathPrefix order then
      match ← loadVerifyingKeyClosing bad keyPathPrefix with
      | none => pure false
      | some vk =>
        match ← osCreate bad (ascii "Notuscontract_g16.sol") with
        | none => pure false
        | some g =>
          let b ← fillFile bad g (.sol vk)
          let c ← closeFile bad (some g)
          pure (b && c)
    else pure false

/-- Whatever operations fail, the changed program leaves no file open, and if it returns without an error then the directory is that of
a run without failures. -/
theorem C140_repaired_generate_partial {bad : Nat → Bool} {order : List Part} (ho : WritesAll order) {E : Env} {coin : S.Coin}
    {s s' : FState S} {b : Bool} (h : generateGroth16Checked bad order E coin s = Run.ok (b, s')) :
    s'.opened = s.opened ∧ (b = true → generateGroth16 E coin s.disk = some s'.disk) := by
  unfold generateGroth16Checked at h
  unfold generateGroth16
  have h5 : compile E 5 = some (.multi 5) := compile_eq E 5
  rw [h5] at h ⊢
  dsimp only at h ⊢
  rw [fm_bind_ok_iff] at h; obtain ⟨b1, s1, h1, h⟩ := h
  obtain ⟨o1, d1⟩ := dumpF_ok h1
  cases b1 with
  | false =>
    obtain ⟨rfl, rfl⟩ := fm_pure_ok h
    exact ⟨o1, fun h => by cases h⟩
  | true =>
    have hd1 : s1.disk = setupWithDump (.multi 5) coin keyPathPrefix s.disk := by rw [d1 rfl, C139_complete ho]
    rw [if_pos rfl, fm_bind_ok_iff] at h; obtain ⟨key, s2, h2, h⟩ := h
    obtain ⟨o2, d2, k2⟩ := C141_repaired_load_partial h2
    cases key with
    | none =>
      obtain ⟨rfl, rfl⟩ := fm_pure_ok h
      exact ⟨o2.trans o1, fun h => by cases h⟩
    | some vk =>
      have hk : readVk s1.disk (vkName keyPathPrefix) = some vk := k2 vk rfl
      rw [fm_bind_ok_iff] at h; obtain ⟨g, s3, h3, h⟩ := h
      unfold osCreate at h3
      split at h3
      · obtain ⟨rfl, rfl⟩ := Prod.mk.inj (run_ok_inj h3)
        obtain ⟨rfl, rfl⟩ := fm_pure_ok h
        exact ⟨o2.trans o1, fun h => by cases h⟩
      · obtain ⟨rfl, rfl⟩ := Prod.mk.inj (run_ok_inj h3)
        rw [fm_bind_ok_iff] at h; obtain ⟨f, s4, h4, h⟩ := h
        obtain ⟨o4, d4⟩ := fillFile_ok h4
        rw [fm_bind_ok_iff] at h; obtain ⟨c, s5, h6, h⟩ := h
        obtain ⟨-, rfl⟩ := Prod.mk.inj (run_ok_inj h6)
        obtain ⟨rfl, rfl⟩ := fm_pure_ok h
        refine ⟨?_, fun hb => ?_⟩
        · show s4.opened.erase (ascii "Notuscontract_g16.sol") = s.opened
          rw [o4, ← o1, ← o2]
          exact List.erase_cons_head ..
        · have hf : f = true := (Bool.and_eq_true_iff.1 hb).1
          rw [← hd1, hk]
          show some _ = some s4.disk
          rw [d4 hf, ← d2]
          exact congrArg some (write_twice _ _ _ _).symm

/-- Without failures the changed program succeeds, in every directory. -/
theorem C140_repaired_generate_same_partial {order : List Part} (ho : WritesAll order) (E : Env) (coin : S.Coin) (s : FState S) :
    ∃ s', generateGroth16Checked neverBad order E coin s = Run.ok (true, s') ∧ generateGroth16 E coin s.disk = some s'.disk ∧
      s'.opened = s.opened := by
  have h5 : compile E 5 = some (.multi 5) := compile_eq E 5
  obtain ⟨s1, h1⟩ := dumpF_never (.multi 5) coin keyPathPrefix order s
  have d1 : s1.disk = setupWithDump (.multi 5) coin keyPathPrefix s.disk := by rw [(dumpF_ok h1).2 rfl, C139_complete ho]
  have hv : loadVerifyingKey s1.disk keyPathPrefix = some (S.setup (.multi 5) coin).2 := by
    rw [d1]
    exact readVk_of (setup_keyAt (.multi 5) coin keyPathPrefix s.disk).2.2
  obtain ⟨s2, h2, -⟩ := C141_repaired_never_partial hv
  have key : ∃ s', generateGroth16Checked neverBad order E coin s = Run.ok (true, s') := by
    unfold generateGroth16Checked
    rw [h5]
    dsimp only
    rw [fm_bind_run h1, if_pos rfl, fm_bind_run h2]
    exact ⟨_, rfl⟩
  obtain ⟨s', h3⟩ := key
  have h4 := C140_repaired_generate_partial ho h3
  exact ⟨s', h3, h4.2 rfl, h4.1⟩

/-- C140 as a whole, with the changed program in place of `generateGroth16`: a function that returns without an error has the result and
leaves the directory of a run without failures. -/
theorem C140_repaired_partial (S : Snark) (E : Env) (bad : Nat → Bool) (order : List Part) (s s' : FState S) (ho : WritesAll order)
    (hr : Reach E s.disk) :
    (∀ fuel G N accMid coin coin' n b, testMultiSwapF bad order E fuel G N accMid coin coin' n s = Run.ok (b, s') →
      testMultiSwap E fuel G N accMid coin coin' n s.disk = Run.ok (s'.disk, b)) ∧
    (∀ coin n, outputContractF bad order E coin n s = Run.ok ((), s') → outputContract E coin n s.disk = .ok s'.disk) ∧
    (∀ fuel G N accMid coin coin2 coin' n o, o ≠ .err →
      outputContract2F bad order E fuel G N accMid coin coin2 coin' n s = Run.ok (o, s') →
      outputContract2 E fuel G N accMid coin coin2 coin' n s.disk = Run.ok (s'.disk, o)) ∧
    (∀ coin coin' n b, testMerkleMultiSwapF bad order E coin coin' n s = Run.ok (b, s') →
      testMerkleMultiSwap E coin coin' n s.disk = .ok (s'.disk, b)) ∧
    ∀ coin, generateGroth16Checked bad order E coin s = Run.ok (true, s') → generateGroth16 E coin s.disk = some s'.disk :=
  ⟨fun _ _ _ _ _ _ _ _ h => C140_test_partial ho h, fun _ _ h => C140_output_partial ho hr h,
    fun _ _ _ _ _ _ _ _ _ he h => C140_output2_partial ho he h, fun _ _ _ _ h => C140_merkle_partial ho h,
    fun _ h => (C140_repaired_generate_partial ho h).2 rfl⟩

/-- An empty directory. -/
example (c : S.Coin) : ∃ s', generateGroth16Checked neverBad [.ccs, .pk, .vk] sumEnv c ⟨fun _ => none, [], 0⟩ = Run.ok (true, s') ∧
    s'.opened = [] := by
  obtain ⟨s', h1, -, h2⟩ := C140_repaired_generate_same_partial all_parts sumEnv c ⟨fun _ => none, [], 0⟩
  exact ⟨s', h1, h2⟩

end Verif.Props
