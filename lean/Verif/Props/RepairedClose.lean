import Verif.Props.FileErrors

/-! # Repair of C141: closing every file -/

namespace Verif.Props
open Verif.Go Verif.Model Verif.Lemmas Verif.Spec Verif.Model.SnarkFlow Verif.Lemmas.SnarkFlow

variable {S : Snark}

/-- zkmultiswap/zkmultiswap.go:20-32 `LoadVerifyingKey` with a change: a file that was opened is closed before the result of the reading
is looked at. Not in the repository. -/
def loadVerifyingKeyClosing (bad : Nat → Bool) (filepath : Bytes) : FM S (Option S.VK) := do
  let f ← osOpen bad (vkName filepath)
  let k ← readKey bad f
  let c ← closeFile bad f
  if c then pure k else pure none

/-- zkmultiswap/common.go:238-262 `TestMultiSwapAndOutputSmartContract` with a change: the file of the contract is closed. Not in the
repository. -/
def outputContractClosing (bad : Nat → Bool) (order : List Part) (E : Env) (coin : S.Coin) (testSetSize : UInt32) : FM S Unit := do
  ensureKeysF bad order E testSetSize coin
  match ← loadVerifyingKeyClosing bad (keyFile testSetSize.toNat) with
  | none => noFiles (liftRes (goPanic "read file error"))
  | some vk =>
    match ← osCreate bad (ascii "contract_g16.sol") with
    | none => noFiles (liftRes (goPanic "Create"))
    | some f =>
      if ← fillFile bad f (.sol vk) then
        if ← closeFile bad (some f) then pure () else noFiles (liftRes (goPanic "Close"))
      else noFiles (liftRes (goPanic "ExportSolidity"))

/-- The changed loading leaves no file open, whatever operations fail, and a key it returns is the one on the disk. -/
theorem C141_repaired_load_partial {bad : Nat → Bool} {path : Bytes} {s s' : FState S} {r : Option S.VK}
    (h : loadVerifyingKeyClosing bad path s = Run.ok (r, s')) :
    s'.opened = s.opened ∧ s'.disk = s.disk ∧ ∀ k, r = some k → loadVerifyingKey s.disk path = some k := by
  unfold loadVerifyingKeyClosing at h
  rw [fm_bind_ok_iff] at h; obtain ⟨f, s1, h1, h⟩ := h
  rw [fm_bind_ok_iff] at h; obtain ⟨k, s2, h2, h⟩ := h
  rw [fm_bind_ok_iff] at h; obtain ⟨c, s3, h3, h⟩ := h
  unfold osOpen at h1
  split at h1
  · obtain ⟨rfl, rfl⟩ := Prod.mk.inj (run_ok_inj h1)
    obtain ⟨rfl, rfl⟩ := Prod.mk.inj (run_ok_inj h2)
    obtain ⟨rfl, rfl⟩ := Prod.mk.inj (run_ok_inj h3)
    obtain ⟨rfl, rfl⟩ := fm_pure_ok h
    exact ⟨rfl, rfl, fun k hk => by cases hk⟩
  · obtain ⟨rfl, rfl⟩ := Prod.mk.inj (run_ok_inj h1)
    obtain ⟨hk, rfl⟩ := Prod.mk.inj (run_ok_inj h2)
    obtain ⟨-, rfl⟩ := Prod.mk.inj (run_ok_inj h3)
    have ho : (vkName path :: s.opened).erase (vkName path) = s.opened := List.erase_cons_head ..
    cases c with
    | false =>
      obtain ⟨rfl, rfl⟩ := fm_pure_ok h
      exact ⟨ho, rfl, fun k hk => by cases hk⟩
    | true =>
      obtain ⟨rfl, rfl⟩ := fm_pure_ok h
      refine ⟨ho, rfl, fun v hv => ?_⟩
      rw [hv] at hk
      split at hk
      · cases hk
      · exact hk

/-- The changed export leaves no file open. The directory holds the contract of the key that was loaded. -/
theorem C141_repaired_output_partial {bad : Nat → Bool} {order : List Part} (ho : WritesAll order) {E : Env} {coin : S.Coin}
    {n : UInt32} {s s' : FState S} (h : outputContractClosing bad order E coin n s = Run.ok ((), s')) :
    s'.opened = s.opened ∧ (outputContract E coin n s.disk = .ok s'.disk ∨
      (s.disk (ccsName (keyFile n.toNat))).isSome = false ∧ ∃ vk, loadVerifyingKey s.disk (keyFile n.toNat) = some vk ∧
        s'.disk = write s.disk (ascii "contract_g16.sol") (.sol vk)) := by
  unfold outputContractClosing at h
  rw [fm_bind_ok_iff] at h; obtain ⟨⟨⟩, s1, h1, h⟩ := h
  rw [fm_bind_ok_iff] at h; obtain ⟨k, s2, h2, h⟩ := h
  obtain ⟨o1, k1⟩ := ensureF_ok ho h1
  obtain ⟨o2, d2, r2⟩ := C141_repaired_load_partial h2
  cases k with
  | none => exact absurd h panic_not_ok
  | some vk =>
    have e2 := r2 vk rfl
    rw [fm_bind_ok_iff] at h; obtain ⟨f, s3, h3, h⟩ := h
    unfold osCreate at h3
    split at h3
    · obtain ⟨rfl, rfl⟩ := Prod.mk.inj (run_ok_inj h3)
      exact absurd h panic_not_ok
    · obtain ⟨rfl, rfl⟩ := Prod.mk.inj (run_ok_inj h3)
      rw [fm_bind_ok_iff] at h; obtain ⟨b, s4, h4, h⟩ := h
      obtain ⟨o4, d4⟩ := fillFile_ok h4
      cases b with
      | false => exact absurd h panic_not_ok
      | true =>
        rw [if_pos rfl, fm_bind_ok_iff] at h; obtain ⟨c, s5, h5, h⟩ := h
        obtain ⟨-, rfl⟩ := Prod.mk.inj (run_ok_inj h5)
        cases c with
        | false => exact absurd h panic_not_ok
        | true =>
          obtain ⟨-, rfl⟩ := fm_pure_ok h
          have hd : s4.disk = write s1.disk (ascii "contract_g16.sol") (.sol vk) := by
            rw [d4 rfl, ← d2]
            exact write_twice _ _ _ _
          refine ⟨?_, ?_⟩
          · show s4.opened.erase (ascii "contract_g16.sol") = s.opened
            rw [o4, ← o1, ← o2]
            exact List.erase_cons_head ..
          · show outputContract E coin n s.disk = .ok s4.disk ∨ _ ∧ ∃ vk, _ ∧ s4.disk = _
            rcases k1 with k1 | ⟨k1, k2⟩
            · exact .inl ((outputContract_ok_iff ..).2 ⟨s1.disk, vk, k1, e2, hd⟩)
            · rw [k1] at hd e2
              exact .inr ⟨k2, vk, e2, hd⟩

/-- Any number of calls of the changed export leaves the open files as they were. -/
theorem C141_repaired_calls_partial {bad : Nat → Bool} {order : List Part} (ho : WritesAll order) {E : Env} {coin : S.Coin}
    {n : UInt32} (k : Nat) {s s' : FState S}
    (h : (List.replicate k ()).forM (fun _ => outputContractClosing bad order E coin n) s = Run.ok ((), s')) :
    s'.opened = s.opened := by
  induction k generalizing s with
  | zero =>
    obtain ⟨-, rfl⟩ := fm_pure_ok h
    rfl
  | succ k ih =>
    rw [List.replicate_succ] at h
    change ((outputContractClosing bad order E coin n) >>= fun _ =>
      (List.replicate k ()).forM (fun _ => outputContractClosing bad order E coin n)) s = _ at h
    rw [fm_bind_ok_iff] at h; obtain ⟨⟨⟩, s1, h1, h2⟩ := h
    rw [ih h2, (C141_repaired_output_partial ho h1).1]

/-- With a key on the disk and no failures the changed loading returns the key. -/
theorem C141_repaired_never_partial {path : Bytes} {k : S.VK} {s : FState S} (h : loadVerifyingKey s.disk path = some k) :
    ∃ s', loadVerifyingKeyClosing neverBad path s = Run.ok (some k, s') ∧ s'.disk = s.disk := by
  have hn : (neverBad s.tick || (s.disk (vkName path)).isNone) = false := by
    unfold loadVerifyingKey readVk at h
    split at h
    · rename_i he
      rw [he]
      rfl
    · cases h
  have h1 : osOpen neverBad (vkName path) s =
      Run.ok (some (vkName path), { s.next with opened := vkName path :: s.opened }) := by
    unfold osOpen
    rw [hn]
    rfl
  unfold loadVerifyingKeyClosing
  rw [fm_bind_run h1]
  have h2 : readKey neverBad (some (vkName path)) { s.next with opened := vkName path :: s.opened } =
      Run.ok (some k, FState.next { s.next with opened := vkName path :: s.opened }) := by
    show Run.ok (loadVerifyingKey s.disk path, _) = _
    rw [h]
  rw [fm_bind_run h2]
  exact ⟨_, rfl, rfl⟩

/-- Without failures the changed export writes what the model without failures writes. -/
theorem C141_repaired_same_partial {order : List Part} (ho : WritesAll order) {E : Env} {coin : S.Coin} {n : UInt32}
    {s : FState S} {d' : Disk S} (h : outputContract E coin n s.disk = .ok d') :
    ∃ s', outputContractClosing neverBad order E coin n s = Run.ok ((), s') ∧ s'.disk = d' ∧ s'.opened = s.opened := by
  obtain ⟨d1, vk, h1, h2, rfl⟩ := (outputContract_ok_iff ..).1 h
  obtain ⟨s1, e1, rfl⟩ := ensure_never ho h1
  obtain ⟨s2, e2, d2⟩ := C141_repaired_never_partial h2
  have key : ∃ s', outputContractClosing neverBad order E coin n s = Run.ok ((), s') ∧
      s'.disk = write s1.disk (ascii "contract_g16.sol") (.sol vk) := by
    unfold outputContractClosing
    rw [fm_bind_run e1, fm_bind_run e2, ← d2]
    exact ⟨_, rfl, write_twice _ _ _ _⟩
  obtain ⟨s', h3, h4⟩ := key
  exact ⟨s', h3, h4, (C141_repaired_output_partial ho h3).1⟩

/-- In an empty directory the changed export makes the keys and the contract and leaves nothing open. -/
theorem C141_repaired_empty_partial (E : Env) (n : UInt32) (hn : n.toNat ≠ 0) (c : S.Coin) : ∃ s',
    outputContractClosing neverBad [.ccs, .pk, .vk] E c n ⟨fun _ => none, [], 0⟩ = Run.ok ((), s') ∧ s'.opened = [] := by
  have hk := setup_keyAt (.multi n.toNat) c (keyFile n.toNat) (fun _ => none)
  obtain ⟨s', h1, -, h2⟩ := C141_repaired_same_partial all_parts (E := E) (coin := c) (n := n) (s := ⟨fun _ => none, [], 0⟩)
    ((outputContract_ok_iff ..).2 ⟨setupWithDump (.multi n.toNat) c (keyFile n.toNat) (fun _ => none), _,
      (setupZkMultiswap_ok_iff ..).2 ⟨hn, rfl⟩, readVk_of hk.2.2, rfl⟩)
  exact ⟨s', h1, h2⟩

example (c : S.Coin) : ∃ s', outputContractClosing neverBad [.ccs, .pk, .vk] sumEnv c 2 ⟨fun _ => none, [], 0⟩ = Run.ok ((), s') ∧
    s'.opened = [] := C141_repaired_empty_partial sumEnv 2 (by decide) c

/-- A file that cannot be read: the changed loading opens it, fails and leaves nothing open; the loading of the repository leaves it
open. -/
example (s s' : FState S) (r : Option S.VK) (h : s.disk (vkName (ascii "k")) = some .cut) (h' : s.opened = [])
    (h1 : loadVerifyingKeyClosing neverBad (ascii "k") s = Run.ok (r, s')) : s'.opened = [] ∧ r = none := by
  obtain ⟨h2, -, h3⟩ := C141_repaired_load_partial h1
  refine ⟨h2.trans h', ?_⟩
  cases r with
  | none => rfl
  | some k =>
    have h4 := h3 k rfl
    unfold loadVerifyingKey readVk at h4
    rw [h] at h4
    cases h4

end Verif.Props
