import Verif.Lemmas.SnarkFlow
import Verif.Props.Contract
import Verif.Props.MerkleSwap

/-! # Properties C85 to C87: keys on disk, proving, verifying and the exported contract -/

namespace Verif.Props
open Verif.Go Verif.Model Verif.Lemmas Verif.Spec Verif.Model.SnarkFlow Verif.Lemmas.SnarkFlow

variable {S : Snark}

/-! ## C85 -/

theorem merkleSetup_ok_iff (E : Env) (n : UInt32) (coin : S.Coin) (d d' : Disk S) :
    merkleSetup E n coin d = .ok d' ↔ d' = setupWithDump (.merkle n.toNat) coin (merkleKeyFile n.toNat) d := by
  have h : ∃ b, MerkleSwap.define E (MerkleSwap.initCircuitWithSize n) = .ok b := by
    rw [MerkleSwap.define, mapM_ok (g := fun i => decide (pathHash E ((MerkleSwap.initCircuitWithSize n).testInputs.getD i 0) =
      (MerkleSwap.initCircuitWithSize n).testOutputs.getD i 0))]
    · exact ⟨_, rfl⟩
    · intro i hi
      have hi := List.mem_range.1 hi
      have hi' : i < (MerkleSwap.initCircuitWithSize n).testOutputs.length := by
        simpa [MerkleSwap.initCircuitWithSize] using hi
      rw [merkle_checkOne_eq E _ i hi hi']
      simp [hi, hi']
  obtain ⟨b, hb⟩ := h
  rw [merkleSetup, hb]
  simp [eq_comm]

/-- After the first part of `TestMerkleMultiSwap` the keys are there. -/
theorem merkleTest_keys (E : Env) (coin coin' : S.Coin) (n : UInt32) (d d' : Disk S) (b : Bool) (hd : KeysOk d)
    (h : testMerkleMultiSwap E coin coin' n d = .ok (d', b)) :
    KeysOk d' ∧ ∃ c, KeyAt d' (merkleKeyFile n.toNat) (.merkle n.toNat) c := by
  unfold testMerkleMultiSwap at h
  have key : ∀ d1 : Disk S, (do
      match merkleProve E n coin' d1 with
      | none => goPanic "Error during Prove"
      | some proof =>
        let flag ← merkleVerify E proof n d1
        .ok (d1, flag)) = Except.ok (d', b) → d' = d1 := by
    intro d1 h
    cases hp : merkleProve E n coin' d1 with
    | none => rw [hp] at h; simp [goPanic] at h
    | some p =>
      rw [hp] at h
      cases hv : merkleVerify E p n d1 with
      | error m => simp only [hv] at h; cases h
      | ok v =>
        simp only [hv, except_bind_ok, Except.ok.injEq, Prod.mk.injEq] at h
        exact h.1.symm
  split_ifs at h with hi
  · rw [except_bind_ok] at h
    rw [key d h]
    refine ⟨hd, ?_⟩
    rcases (hd n.toNat).2 with ⟨h1, -, -⟩ | hc
    · rw [h1] at hi; cases hi
    · exact hc
  · cases hs : merkleSetup E n coin d with
    | error m => rw [hs] at h; cases h
    | ok d1 =>
      rw [hs, except_bind_ok] at h
      rw [key d1 h]
      rw [merkleSetup_ok_iff] at hs
      subst hs
      exact ⟨merkleSetup_keysOk _ _ _ hd, coin, setup_keyAt _ _ _ _⟩

/-- C85: whatever functions are run on an initially empty directory, and whatever sizes they use, for every size and both
circuits either none of the three key files exists or all three do and belong to the same setup of that size. -/
theorem C85_keys (E : Env) (d : Disk S) (h : Reach E d) : KeysOk d := by
  have test : ∀ {d d' : Disk S} {b : Bool} (fuel : Nat) (G N accMid : Int) (coin coin' : S.Coin) (n : UInt32), KeysOk d →
      testMultiSwap E fuel G N accMid coin coin' n d = Run.ok (d', b) → KeysOk d' := by
    intro d d' b fuel G N accMid coin coin' n hd h
    obtain ⟨u, p, h1, -⟩ := (testMultiSwap_ok_iff ..).1 h
    exact (ensureKeys_keyAt hd h1).1
  have output : ∀ {d d' : Disk S} (coin : S.Coin) (n : UInt32), KeysOk d → outputContract E coin n d = .ok d' →
      KeysOk d' := by
    intro d d' coin n hd h
    obtain ⟨d1, vk, h1, -, rfl⟩ := (outputContract_ok_iff ..).1 h
    exact (write_other_keysOk other_contract _).2 (ensureKeys_keyAt hd h1).1
  have output2 : ∀ {d d' : Disk S} {o : Outcome S} (fuel : Nat) (G N accMid : Int) (coin coin2 coin' : S.Coin)
      (n : UInt32), KeysOk d → outputContract2 E fuel G N accMid coin coin2 coin' n d = Run.ok (d', o) → KeysOk d' := by
    intro d d' o fuel G N accMid coin coin2 coin' n hd h
    rcases (outputContract2_ok_iff ..).1 h with ⟨-, rfl, -⟩ | ⟨-, rfl, -⟩
    · exact hd
    · exact disk2_keysOk _ _ _ _ hd
  induction h with
  | empty => exact fun n => ⟨Or.inl ⟨rfl, rfl, rfl⟩, Or.inl ⟨rfl, rfl, rfl⟩⟩
  | setup n coin _ h ih =>
    obtain ⟨-, rfl⟩ := (setupZkMultiswap_ok_iff ..).1 h
    exact setup_keysOk _ _ _ ih
  | test fuel G N accMid coin coin' n _ h ih => exact test _ _ _ _ _ _ _ ih h
  | output coin n _ h ih => exact output _ _ ih h
  | output2 fuel G N accMid coin coin2 coin' n _ h ih => exact output2 _ _ _ _ _ _ _ _ ih h
  | basic fuel G N n r _ h ih =>
    obtain ⟨d1, d2, b, h1, h2, h3, -⟩ := (basicProcess_ok_iff ..).1 h
    exact output2 _ _ _ _ _ _ _ _ (output _ _ (test _ _ _ _ _ _ _ ih h1) h2) h3
  | merkleSetup n coin _ h ih =>
    rw [merkleSetup_ok_iff] at h
    subst h
    exact merkleSetup_keysOk _ _ _ ih
  | merkleTest coin coin' n _ h ih => exact (merkleTest_keys E _ _ _ _ _ _ ih h).1

/-- A set that `AssignCircuit` accepts fits the constraint system of its size. -/
theorem assign_fits {u : UpdateSet32} {c : Circuit} (h : assignCircuit u = .ok c) :
    Fits (.multi u.userID.length) (.multi c) := by
  have hv : u.isValid = true := by
    by_contra hv
    rw [assignCircuit, if_pos (by simpa using hv)] at h
    cases h
  obtain ⟨h0, h1, h2, h3, h4⟩ := (C66_isValid_iff u).1 hv
  rw [(C66_assignCircuit u).2 hv] at h
  injection h with h
  subst h
  refine ⟨?_, ?_, ?_, ?_, ?_⟩ <;> simp [assigned, h1, h2, h3, h4]

/-- C85: with keys of the size of the set, `Prove` gives a proof for every set the circuit accepts and `Verify` accepts it
with the public part of the set. -/
theorem C85_prove_verify {E : Env} (hC : Complete E S) {d : Disk S} {u : UpdateSet32} {coin : S.Coin} {n : UInt32}
    (hn : u.userID.length = n.toNat) (hk : KeyAt d (keyFile n.toNat) (.multi n.toNat) coin) {c : Circuit}
    (h : assignCircuit u = .ok c) (hs : define E c = .ok true) (k : S.Coin) :
    ∃ p, prove u k d = .ok (some p) ∧ verify p n u.publicPart d = .ok true := by
  obtain ⟨p, h1, h2⟩ := hC (.multi u.userID.length) coin (.multi c) k (assign_fits h) hs
  refine ⟨p, ?_, ?_⟩
  · rw [prove_of_keyAt (coin := coin) k (by rwa [hn]), h, ← h1]; rfl
  · rw [verify_of_keyAt p _ hk, ← (C65_public_part u c h).1, ← hn]
    exact congrArg Except.ok h2

/-- What a successful call of `Prove` on a consistent disk returned. -/
theorem prove_ok {d : Disk S} (hd : KeysOk d) {u : UpdateSet32} {k : S.Coin} {p : S.Proof}
    (h : prove u k d = .ok (some p)) : ∃ c coin, assignCircuit u = .ok c ∧
      KeyAt d (keyFile u.userID.length) (.multi u.userID.length) coin ∧
      S.prove (.multi u.userID.length) (S.setup (.multi u.userID.length) coin).1 (.multi c) k = some p := by
  rcases (hd u.userID.length).1 with ⟨-, h2, -⟩ | ⟨coin, hk⟩
  · rw [prove] at h
    simp [readPk, h2] at h
  · rw [prove_of_keyAt k hk] at h
    cases hc : assignCircuit u with
    | error m => rw [hc] at h; cases h
    | ok c =>
      rw [hc] at h
      injection h with h
      exact ⟨c, coin, rfl, hk, h⟩

/-- C85: `Verify` accepts a proof made by `Prove` only for the size and the public values (as field elements) of the set it
was made for. -/
theorem C85_verify_other {E : Env} (hB : Binding E S) {d : Disk S} (hd : KeysOk d) {u : UpdateSet32} {k : S.Coin}
    {p : S.Proof} (h : prove u k d = .ok (some p)) (n : UInt32) (i : PublicInfo) (hv : verify p n i d = .ok true) :
    n.toNat = u.userID.length ∧ genPublicWitness i = genPublicWitness u.publicPart ∧
      ∃ c, assignCircuit u = .ok c ∧ define E c = .ok true := by
  obtain ⟨c, coin, h1, hk, h2⟩ := prove_ok hd h
  rcases (hd n.toNat).1 with ⟨-, -, h3⟩ | ⟨coin', hk'⟩
  · rw [verify, loadVerifyingKey, readVk, h3] at hv
    cases hv
  · rw [verify_of_keyAt p i hk'] at hv
    injection hv with hv
    obtain ⟨a, -, b, s⟩ := hB _ _ _ _ _ _ _ _ h2 hv
    injection a with a
    exact ⟨a, b.trans (C65_public_part u c h1).1, c, h1, s⟩

/-- C85: `TestMultiSwap` of any size from 2 to `2 ^ 31` on any directory passes if the challenges are found and no hash
plus delta overflows the field; the directory afterwards has the keys of this size and keeps those that were there. -/
theorem C85_test_passes {E : Env} (hC : Complete E S) {d : Disk S} (hr : Reach E d) (fuel : Nat) (G N accMid : Int)
    (coin coin' : S.Coin) (n : UInt32) (hn : n.toNat ≤ 2 ^ 31) (u : UpdateSet32)
    (hg : genTestSet E fuel n G N accMid = Run.ok u) (ho : NoOverflow E u) :
    ∃ d', testMultiSwap E fuel G N accMid coin coin' n d = Run.ok (d', true) ∧
      (∃ c, KeyAt d' (keyFile n.toNat) (.multi n.toNat) c) ∧
      ∀ m c, KeyAt d (keyFile m) (.multi m) c → KeyAt d' (keyFile m) (.multi m) c := by
  have hd := C85_keys E d hr
  obtain ⟨h2, hl, -, -, hs⟩ := C64_genTestSet_partial E fuel n G N accMid u hn hg
  obtain ⟨c, h3, h4⟩ := hs ho
  obtain ⟨d', hd'⟩ := ensureKeys_total E n coin d hd (by omega)
  obtain ⟨-, c', hk⟩ := ensureKeys_keyAt hd hd'
  obtain ⟨p, h5, h6⟩ := C85_prove_verify hC hl hk h3 h4 coin'
  refine ⟨d', (testMultiSwap_ok_iff ..).2 ⟨u, p, hd', hg, h5, h6⟩, ⟨c', hk⟩, ?_⟩
  intro m c0 hc0
  rcases (ensureKeys_ok_iff E n coin d d' hd).1 hd' with ⟨-, -, rfl⟩ | ⟨hno, -, rfl⟩
  · exact hc0
  · have hm : m ≠ n.toNat := by
      rintro rfl
      exact hno c0 hc0
    obtain ⟨a1, a2, a3⟩ := setup_other (.multi n.toNat) coin (keyFile n.toNat) (keyFile m)
      (fun e => hm (keyFile_inj.1 e)) d
    unfold KeyAt
    rw [a1, a2, a3]
    exact hc0

/-- C85: what `TestMultiSwap` prints is the truth about the circuit: "passed" only if the circuit accepts the set. -/
theorem C85_test_sound {E : Env} (hB : Binding E S) {d d' : Disk S} (hr : Reach E d) (fuel : Nat) (G N accMid : Int)
    (coin coin' : S.Coin) (n : UInt32) (h : testMultiSwap E fuel G N accMid coin coin' n d = Run.ok (d', true)) :
    ∃ u c, genTestSet E fuel n G N accMid = Run.ok u ∧ assignCircuit u = .ok c ∧ define E c = .ok true := by
  obtain ⟨u, p, h1, h2, h3, h4⟩ := (testMultiSwap_ok_iff ..).1 h
  obtain ⟨-, -, c, h5, h6⟩ := C85_verify_other hB (ensureKeys_keyAt (C85_keys E d hr) h1).1 h3 n _ h4
  exact ⟨u, c, h2, h5, h6⟩

/-- C85: `TestMerkleMultiSwap` of any size but zero passes on any directory. -/
theorem C85_merkle_passes {E : Env} (hC : Complete E S) {d : Disk S} (hr : Reach E d) (coin coin' : S.Coin) (n : UInt32)
    (hn : n.toNat ≠ 0) : ∃ d', testMerkleMultiSwap E coin coin' n d = .ok (d', true) := by
  have hd := C85_keys E d hr
  have key : ∀ (d1 : Disk S) (c : S.Coin), KeyAt d1 (merkleKeyFile n.toNat) (.merkle n.toNat) c → (do
      match merkleProve E n coin' d1 with
      | none => goPanic "Error during Prove"
      | some proof =>
        let flag ← merkleVerify E proof n d1
        .ok (d1, flag)) = Except.ok (d1, true) := by
    intro d1 c hk
    obtain ⟨p, h1, h2⟩ := hC (.merkle n.toNat) c (.merkle (MerkleSwap.assignCircuit E n)) coin'
      (by refine ⟨hn, ?_, ?_⟩ <;> simp [MerkleSwap.assignCircuit]) (C69_own_assignment E n)
    have hp : merkleProve E n coin' d1 = some p := by
      rw [merkleProve]
      simp only [readPk_of hk.2.1, readCcs_of hk.1]
      exact h1
    have hv : merkleVerify E p n d1 = .ok true := by
      rw [merkleVerify, loadVerifyingKey, readVk_of hk.2.2]
      exact congrArg Except.ok h2
    simp only [hp, hv, except_bind_ok]
  unfold testMerkleMultiSwap
  split_ifs with hi
  · rcases (hd n.toNat).2 with ⟨h1, -, -⟩ | ⟨c, hc⟩
    · rw [h1] at hi; cases hi
    · exact ⟨d, by rw [except_bind_ok]; exact key d c hc⟩
  · refine ⟨setupWithDump (.merkle n.toNat) coin (merkleKeyFile n.toNat) d, ?_⟩
    rw [(merkleSetup_ok_iff ..).2 rfl, except_bind_ok]
    exact key _ coin (setup_keyAt _ _ _ _)

/-- `sumEnv` finds the challenge 13 at once. -/
theorem sumEnv_prime (l : List Bytes) : fsHashToPrime sumEnv 1 l lenMax252 = some 13 := by
  have : wrapNumber (List.replicate 31 0 ++ [13]) lenMax252 = 13 := by decide +kernel
  simp only [fsHashToPrime, fsPrimeLoop, sumEnv, this]
  rfl

theorem sumEnv_testSet (n : UInt32) (hn : 2 ≤ n.toNat) (G N accMid : Int) :
    genTestSet sumEnv 1 n G N accMid = Run.ok (testSet sumEnv n.toNat 13 13) :=
  (genTestSet_ok_iff _ _ _ _ _ _ _).2 ⟨13, 13, sumEnv_prime _, sumEnv_prime _, by decide, by decide, hn, rfl⟩

/-- Two tests of different sizes one after the other, in one directory, with ideal proofs. -/
example : ∃ d1 d2 : Disk (idealSnark sumEnv),
    testMultiSwap sumEnv 1 2 35 4 (0 : Nat) (1 : Nat) 2 (fun _ => none : Disk (idealSnark sumEnv)) = Run.ok (d1, true) ∧
    testMultiSwap sumEnv 1 2 35 4 (2 : Nat) (3 : Nat) 3 d1 = Run.ok (d2, true) := by
  have o : ∀ n : UInt32, NoOverflow sumEnv (testSet sumEnv n.toNat 13 13) → n.toNat ≤ 2 ^ 31 → 2 ≤ n.toNat →
      ∀ (d : Disk (idealSnark sumEnv)) (a b : Nat), Reach sumEnv d →
      ∃ d', testMultiSwap sumEnv 1 2 35 4 a b n d = Run.ok (d', true) := by
    intro n h1 h2 h3 d a b hr
    obtain ⟨d', h, -⟩ := C85_test_passes (idealSnark_complete sumEnv) hr 1 2 35 4 a b n h2 _ (sumEnv_testSet n h3 _ _ _) h1
    exact ⟨d', h⟩
  obtain ⟨d1, h1⟩ := o 2 (by unfold NoOverflow; decide +kernel) (by decide) (by decide) (fun _ => none) 0 1 .empty
  obtain ⟨d2, h2⟩ := o 3 (by unfold NoOverflow; decide +kernel) (by decide) (by decide) d1 2 3
    (.test 1 2 35 4 (0 : Nat) (1 : Nat) 2 .empty h1)
  exact ⟨d1, d2, h1, h2⟩

/-! ## C86 -/

/-- The contract that `TestMultiSwapAndOutputSmartContract2` exports accepts the proof with the inputs that it prints. -/
def C86_statement : Prop :=
  ∀ (E : Env) (S : Snark), Complete E S → ∀ (fuel : Nat) (G N accMid : Int) (coin coin2 coin' : S.Coin) (n : UInt32)
    (d d' : Disk S) (p : S.Proof) (input : List Nat), Reach E d →
    outputContract2 E fuel G N accMid coin coin2 coin' n d = Run.ok (d', .printed p input) →
    ∃ vk, d' (ascii "Notuscontract_g16.sol") = some (.sol vk) ∧ contractAccepts vk input p = true

/-- C86: the contract is exported for another key than the one of the proof: no inputs at all are accepted. -/
theorem C86_second_never {E : Env} (hB : Binding E S) (fuel : Nat) (G N accMid : Int) (coin coin2 coin' : S.Coin)
    (hne : coin2 ≠ coin) (n : UInt32) (d d' : Disk S) (hr : Reach E d) (p : S.Proof) (input : List Nat)
    (h : outputContract2 E fuel G N accMid coin coin2 coin' n d = Run.ok (d', .printed p input)) :
    ∃ vk, d' (ascii "Notuscontract_g16.sol") = some (.sol vk) ∧ ∀ v, contractAccepts vk v p = false := by
  have hd := C85_keys E d hr
  rcases (outputContract2_ok_iff ..).1 h with ⟨-, -, h⟩ | ⟨h0, rfl, u, p', b, h1, h2, h3, h4⟩
  · cases h
  · refine ⟨_, disk2_sol _ _ _ _, ?_⟩
    have hb : b = true ∧ p' = p := by
      cases b with
      | false => cases h4
      | true => injection h4 with h4; exact ⟨rfl, h4.symm⟩
    obtain ⟨rfl, rfl⟩ := hb
    obtain ⟨hl, -⟩ := C85_verify_other hB (disk2_keysOk _ _ _ _ hd) h2 n _ h3
    obtain ⟨c, cc, -, hk, hp⟩ := prove_ok (disk2_keysOk _ coin coin2 _ hd) h2
    intro v
    by_contra hv
    rw [Bool.not_eq_false, contractAccepts, Bool.and_eq_true] at hv
    have hk2 := disk2_keyAt n.toNat coin coin2 d
    have hpk : (S.setup (.multi n.toNat) cc).1 = (S.setup (.multi n.toNat) coin).1 := by
      rw [← hl] at hk
      have e := hk.2.1.symm.trans hk2.2.1
      injection e with e
      injection e
    rw [← hl, hpk] at hp
    exact hne (hB _ _ _ _ _ _ _ _ hp hv.2).2.1

/-- A run that prints a proof. -/
theorem C86_run : ∃ (d' : Disk (idealSnark sumEnv)) (p : (idealSnark sumEnv).Proof) (input : List Nat),
    outputContract2 sumEnv 1 2 35 4 (0 : Nat) (1 : Nat) (2 : Nat) 2 (fun _ => none : Disk (idealSnark sumEnv)) =
      Run.ok (d', .printed p input) := by
  have hg := sumEnv_testSet 2 (by decide) 2 35 4
  obtain ⟨-, hl, -, -, hs⟩ := C64_genTestSet_partial sumEnv 1 2 2 35 4 _ (by decide) hg
  obtain ⟨c, h3, h4⟩ := hs (by unfold NoOverflow; decide +kernel)
  obtain ⟨p, h5, h6⟩ := C85_prove_verify (idealSnark_complete sumEnv) hl
    (disk2_keyAt (S := idealSnark sumEnv) (2 : UInt32).toNat (0 : Nat) (1 : Nat) (fun _ => none)) h3 h4 (2 : Nat)
  exact ⟨_, p, _, (outputContract2_ok_iff ..).2 (Or.inr ⟨by decide, rfl, _, p, true, hg, h5, h6, rfl⟩)⟩

theorem C86_violated : ¬ C86_statement := by
  intro h
  obtain ⟨d', p, input, hr⟩ := C86_run
  obtain ⟨vk, h1, h2⟩ := h sumEnv (idealSnark sumEnv) (idealSnark_complete _) _ _ _ _ _ _ _ _ _ _ _ _ .empty hr
  obtain ⟨vk', h3, h4⟩ := C86_second_never (idealSnark_binding sumEnv) _ _ _ _ _ _ _ (show (1 : Nat) ≠ 0 by decide) _ _ _ .empty _ _ hr
  rw [h1] at h3
  injection h3 with h3
  injection h3 with h3
  rw [h3, h4] at h2
  cases h2

/-- A contract for the key on disk accepts the proofs of `Prove` with the public values of the set. -/
theorem contract_of_keyAt {E : Env} (hC : Complete E S) {d : Disk S} {u : UpdateSet32} {coin : S.Coin} {n : UInt32}
    (hn : u.userID.length = n.toNat) (hk : KeyAt d (keyFile n.toNat) (.multi n.toNat) coin) {c : Circuit}
    (h : assignCircuit u = .ok c) (hs : define E c = .ok true) (k : S.Coin) :
    ∃ p, prove u k d = .ok (some p) ∧
      contractAccepts (S.setup (.multi n.toNat) coin).2 (genPublicWitness u.publicPart) p = true := by
  obtain ⟨p, h1, h2⟩ := C85_prove_verify hC hn hk h hs k
  refine ⟨p, h1, ?_⟩
  rw [verify_of_keyAt p _ hk] at h2
  injection h2 with h2
  rw [contractAccepts, h2, Bool.and_true, List.all_eq_true]
  intro v hv
  rw [genPublicWitness_eq, List.mem_map] at hv
  obtain ⟨w, -, rfl⟩ := hv
  rw [elementFromBigInt]
  have h0 : (frOrder : Int) ≠ 0 := by decide
  have h1 := Int.emod_nonneg w h0
  have h2 := Int.emod_lt_of_pos w (show (0 : Int) < frOrder by decide)
  exact decide_eq_true (by omega)

/-- C86: the contract of `TestMultiSwapAndOutputSmartContract` accepts the proofs that `Prove` makes with the keys then on
disk, with the inputs in the order of the circuit. -/
theorem C86_output_partial {E : Env} (hC : Complete E S) {d d' : Disk S} (hr : Reach E d) (coin : S.Coin) (n : UInt32)
    (h : outputContract E coin n d = .ok d') : ∃ vk, d' (ascii "contract_g16.sol") = some (.sol vk) ∧
      ∀ (u : UpdateSet32) (c : Circuit) (k : S.Coin), u.userID.length = n.toNat → assignCircuit u = .ok c →
        define E c = .ok true →
        ∃ p, prove u k d' = .ok (some p) ∧ contractAccepts vk (genPublicWitness u.publicPart) p = true := by
  obtain ⟨d1, vk, h1, h2, rfl⟩ := (outputContract_ok_iff ..).1 h
  refine ⟨vk, write_same _ _ _, ?_⟩
  obtain ⟨-, cc, hk⟩ := ensureKeys_keyAt (C85_keys E d hr) h1
  rw [loadVerifyingKey, readVk_of hk.2.2] at h2
  injection h2 with h2
  subst h2
  intro u c k hn hc hs
  exact contract_of_keyAt hC hn ((write_other_keyAt other_contract _ _ _ _).2 hk) hc hs k

/-- C86: after `testbasicprocess` both contracts on disk reject every proof that `Prove` makes with the keys on disk,
with any inputs, if its setups drew different numbers and the key on disk before (if any) is another one. -/
theorem C86_basic_partial {E : Env} (hB : Binding E S) (fuel : Nat) (G N : Int) (n : UInt32) (r : BasicCoins S)
    (d d' : Disk S) (hr : Reach E d) (o : Outcome S) (h : basicProcess E fuel G N n r d = Run.ok (d', o))
    (h14 : r.c1 ≠ r.c4) (h54 : r.c5 ≠ r.c4)
    (hold : ¬ KeyAt d (keyFile n.toNat) (.multi n.toNat) r.c4) :
    ∃ vk vk', d' (ascii "contract_g16.sol") = some (.sol vk) ∧ d' (ascii "Notuscontract_g16.sol") = some (.sol vk') ∧
      ∀ (u : UpdateSet32) (k : S.Coin) (p : S.Proof) (v : List Nat), u.userID.length = n.toNat →
        prove u k d' = .ok (some p) → contractAccepts vk v p = false ∧ contractAccepts vk' v p = false := by
  have hd := C85_keys E d hr
  obtain ⟨d1, d2, b, h1, h2, h3, h4⟩ := (basicProcess_ok_iff ..).1 h
  obtain ⟨u1, p1, e1, -⟩ := (testMultiSwap_ok_iff ..).1 h1
  have hd1 := (ensureKeys_keyAt hd e1).1
  obtain ⟨d3, vk, e2, e3, rfl⟩ := (outputContract_ok_iff ..).1 h2
  have k1 : ∃ c, c ≠ r.c4 ∧ KeyAt d1 (keyFile n.toNat) (.multi n.toNat) c := by
    rcases (ensureKeys_ok_iff E n r.c1 d d1 hd).1 e1 with ⟨c, hc, rfl⟩ | ⟨-, -, rfl⟩
    · exact ⟨c, fun e => hold (e ▸ hc), hc⟩
    · exact ⟨r.c1, h14, setup_keyAt _ _ _ _⟩
  obtain ⟨c, hne, hk⟩ := k1
  have e4 : d3 = d1 := by
    rcases (ensureKeys_ok_iff E n r.c3 d1 d3 hd1).1 e2 with ⟨-, -, rfl⟩ | ⟨hno, -⟩
    · rfl
    · exact absurd hk (hno c)
  subst e4
  rw [loadVerifyingKey, readVk_of hk.2.2] at e3
  injection e3 with e3
  subst e3
  rcases (outputContract2_ok_iff ..).1 h3 with ⟨-, -, e⟩ | ⟨-, rfl, -⟩
  · exact absurd e h4
  refine ⟨(S.setup (.multi n.toNat) c).2, _, ?_, disk2_sol _ _ _ _, ?_⟩
  · rw [disk2_contract, write_same]
  · intro u k p v hn hp
    have hd2 : KeysOk (disk2 n.toNat r.c4 r.c5 (write d3 (ascii "contract_g16.sol") (.sol (S.setup (.multi n.toNat) c).2))) :=
      disk2_keysOk _ _ _ _ ((write_other_keysOk other_contract _).2 hd1)
    obtain ⟨cc, coin, -, hk', hp⟩ := prove_ok hd2 hp
    have hpk : (S.setup (.multi n.toNat) coin).1 = (S.setup (.multi n.toNat) r.c4).1 := by
      rw [hn] at hk'
      have e := hk'.2.1.symm.trans (disk2_keyAt n.toNat r.c4 r.c5 _).2.1
      injection e with e
      injection e
    rw [hn, hpk] at hp
    have no : ∀ c', c' ≠ r.c4 → contractAccepts (S.setup (.multi n.toNat) c').2 v p = false := by
      intro c' hc'
      by_contra hv
      rw [Bool.not_eq_false, contractAccepts, Bool.and_eq_true] at hv
      exact hc' (hB _ _ _ _ _ _ _ _ hp hv.2).2.1
    exact ⟨no c hne, no r.c5 h54⟩

/-- Runs of `testbasicprocess`: with ideal proofs and different coins it runs to the end and prints a proof. -/
theorem C86_basic_run : ∃ (d' : Disk (idealSnark sumEnv)) (p : (idealSnark sumEnv).Proof) (input : List Nat),
    basicProcess sumEnv 1 2 35 2 (S := idealSnark sumEnv) ⟨4, 4, (1 : Nat), (2 : Nat), (3 : Nat), (4 : Nat), (5 : Nat), (6 : Nat)⟩
      (fun _ => none : Disk (idealSnark sumEnv)) = Run.ok (d', .printed p input) := by
  have hC := idealSnark_complete sumEnv
  have hg := sumEnv_testSet 2 (by decide) 2 35 4
  have hno : NoOverflow sumEnv (testSet sumEnv (2 : UInt32).toNat 13 13) := by unfold NoOverflow; decide +kernel
  obtain ⟨-, hl, -, -, hs⟩ := C64_genTestSet_partial sumEnv 1 2 2 35 4 _ (by decide) hg
  obtain ⟨c, h3, h4⟩ := hs hno
  obtain ⟨d1, h1, ⟨c1, k1⟩, -⟩ := C85_test_passes hC (S := idealSnark sumEnv) (d := fun _ => none) .empty 1 2 35 4
    (1 : Nat) (2 : Nat) 2 (by decide) _ hg hno
  have r1 : Reach sumEnv d1 := .test 1 2 35 4 (1 : Nat) (2 : Nat) 2 .empty h1
  obtain ⟨d2, h2⟩ : ∃ d2, outputContract sumEnv (3 : Nat) 2 d1 = .ok d2 :=
    ⟨_, (outputContract_ok_iff ..).2 ⟨d1, _, (ensureKeys_ok_iff _ _ _ _ _ (C85_keys _ _ r1)).2 (Or.inl ⟨c1, k1, rfl⟩),
      readVk_of k1.2.2, rfl⟩⟩
  obtain ⟨p, h5, h6⟩ := C85_prove_verify hC hl
    (disk2_keyAt (S := idealSnark sumEnv) (2 : UInt32).toNat (4 : Nat) (5 : Nat) d2) h3 h4 (6 : Nat)
  exact ⟨_, p, _, (basicProcess_ok_iff ..).2 ⟨d1, d2, true, h1, h2,
    (outputContract2_ok_iff ..).2 (Or.inr ⟨by decide, rfl, _, p, true, hg, h5, h6, rfl⟩), by simp⟩⟩

/-- Hypotheses of `C86_basic_partial` for this run, and what follows for the printed proof's set. -/
example : Binding sumEnv (idealSnark sumEnv) ∧ (1 : Nat) ≠ 4 ∧ (5 : Nat) ≠ 4 ∧
    ¬ KeyAt (fun _ => none : Disk (idealSnark sumEnv)) (keyFile 2) (.multi 2) (4 : Nat) :=
  ⟨idealSnark_binding sumEnv, by decide, by decide, fun h => by cases h.1⟩

/-! ### gnark-tests -/

/-- What the contract for a key answers to the test set's proof with this key, as the Solidity test asks it. -/
theorem test_answers {E : Env} (hC : Complete E S) (hB : Binding E S) (coin k : S.Coin) {fuel : Nat} {G N accMid : Int}
    {u : UpdateSet32} (hg : genTestSet E fuel 5 G N accMid = Run.ok u) (ho : NoOverflow E u)
    (h42 : E.probablyPrime 42 = false) :
    ∃ c p, assignCircuit u = .ok c ∧ S.prove (.multi 5) (S.setup (.multi 5) coin).1 (.multi c) k = some p ∧
      contractAccepts (S.setup (.multi 5) coin).2 (List.ofFn (Contract.testInput u.publicPart)) p = true ∧
      contractAccepts (S.setup (.multi 5) coin).2 (42 :: (List.ofFn (Contract.testInput u.publicPart)).tail) p = false := by
  have h5 : (5 : UInt32).toNat = 5 := by decide
  obtain ⟨-, hl, -, hh, hs⟩ := C64_genTestSet_partial E fuel 5 G N accMid u (by decide) hg
  obtain ⟨c, h3, h4⟩ := hs ho
  rw [h5] at hl
  obtain ⟨p, h6, h7⟩ := hC (.multi 5) coin (.multi c) k (hl ▸ assign_fits h3) h4
  have hpub := (C65_public_part u c h3).1
  have hti := testInput_eq _ (honest_inField E u hh)
  have hlt : ∀ v ∈ genPublicWitness u.publicPart, v < frOrder := by
    intro v hv
    rw [genPublicWitness_eq, List.mem_map] at hv
    obtain ⟨w, -, rfl⟩ := hv
    rw [elementFromBigInt]
    have h0 : (frOrder : Int) ≠ 0 := by decide
    have h1 := Int.emod_nonneg w h0
    have h2 := Int.emod_lt_of_pos w (show (0 : Int) < frOrder by decide)
    omega
  have a1 : contractAccepts (S.setup (.multi 5) coin).2 (genPublicWitness u.publicPart) p = true := by
    rw [contractAccepts, Bool.and_eq_true, List.all_eq_true, ← hpub]
    exact ⟨fun v hv => decide_eq_true (hlt v (hpub ▸ hv)), h7⟩
  have a2 : contractAccepts (S.setup (.multi 5) coin).2 (42 :: (genPublicWitness u.publicPart).tail) p = false := by
    by_contra hv
    rw [Bool.not_eq_false, contractAccepts, Bool.and_eq_true] at hv
    have hv := (hB _ _ _ _ _ _ _ _ h6 hv.2).2.2.1
    have hv : 42 :: (genPublicWitness u.publicPart).tail = genPublicWitness u.publicPart := hv.trans hpub
    obtain ⟨L1, L2, g1, -, p1, -, -, rfl⟩ := (genTestSet_ok_iff E fuel 5 G N accMid u).1 hg
    have q1 := C37_below_field_order E fuel _ L1 (Or.inl g1)
    have hd : (genPublicWitness (testSet E (5 : UInt32).toNat L1 L2).publicPart).head? = some L1 := by
      rw [genPublicWitness_eq]
      have : elementFromBigInt (L1 : Int) = L1 := by
        rw [elementFromBigInt, Int.emod_eq_of_lt (by omega) (by exact_mod_cast q1)]; rfl
      exact congrArg some this
    rw [← hv] at hd
    injection hd with hd
    rw [hd] at h42
    rw [fsHashToPrime_prime E fuel _ _ _ g1] at h42
    cases h42
  exact ⟨c, p, h3, h6, by rw [hti]; exact a1, by rw [hti]; exact a2⟩

/-- C86: the contract and the keys of `generateGroth16` belong together, so in the Solidity test the proof of the test set
is accepted and, if 42 is not taken for a prime, the proof with the changed input is rejected. -/
theorem C86_gnark_tests_partial {E : Env} (hC : Complete E S) (hB : Binding E S) (coin k : S.Coin) (d d' : Disk S)
    (hd : generateGroth16 E coin d = some d') (fuel : Nat) (G N accMid : Int) (u : UpdateSet32)
    (hg : genTestSet E fuel 5 G N accMid = Run.ok u) (ho : NoOverflow E u) (h42 : E.probablyPrime 42 = false) :
    contractTest E fuel G N accMid k d' = Run.ok (true, false) := by
  have h5 : (5 : UInt32).toNat = 5 := by decide
  have hcomp : compile E 5 = some (.multi 5) := by rw [compile_eq, h5, if_neg (by decide)]
  have hk := setup_keyAt (.multi 5) coin keyPathPrefix d
  rw [generateGroth16, hcomp] at hd
  simp only [readVk_of hk.2.2, Option.some.injEq] at hd
  have hd1 : KeyAt d' keyPathPrefix (.multi 5) coin := by
    rw [← hd, write_other_keyAt other_notus]; exact hk
  have hd2 : d' (ascii "Notuscontract_g16.sol") = some (.sol (S.setup (.multi 5) coin).2) := by rw [← hd, write_same]
  obtain ⟨c, p, h3, h6, a1, a2⟩ := test_answers hC hB coin k hg ho h42
  unfold contractTest
  simp only [run_bind_ok_iff, liftRes_ok_iff]
  refine ⟨u, hg, c, h3, ?_⟩
  simp only [readCcs_of hd1.1, readPk_of hd1.2.1, hd2, h6, a1, a2]

/-- Hypotheses of `C86_gnark_tests_partial`. -/
example : ∃ d' : Disk (idealSnark sumEnv), generateGroth16 sumEnv (0 : Nat) (fun _ => none) = some d' ∧
    genTestSet sumEnv 1 5 2 35 4 = Run.ok (testSet sumEnv 5 13 13) ∧ NoOverflow sumEnv (testSet sumEnv 5 13 13) ∧
    sumEnv.probablyPrime 42 = false := by
  have hg : ∃ d' : Disk (idealSnark sumEnv), generateGroth16 sumEnv (0 : Nat) (fun _ => none) = some d' := by
    have hc : compile sumEnv 5 = some (.multi 5) := by rw [compile_eq, if_neg (by decide)]; rfl
    unfold generateGroth16
    simp only [hc]
    exact ⟨_, rfl⟩
  obtain ⟨d', hd'⟩ := hg
  exact ⟨d', hd', sumEnv_testSet 5 (by decide) _ _ _, by unfold NoOverflow; decide +kernel, rfl⟩

/-! ## C87 -/

/-- There is a constraint system of this size on disk. -/
def isCircuitExistFor (d : Disk S) (n : Nat) : Bool := (d (ccsName (keyFile n))).isSome

/-- `Prove` reports an error for sets that the circuit rejects. -/
def C87_statement : Prop :=
  ∀ (E : Env) (S : Snark), Complete E S → IgnoresErrors S → ∀ (d : Disk S) (u : UpdateSet32) (c : Circuit)
    (k : S.Coin), Reach E d → assignCircuit u = .ok c → define E c = .ok false → prove u k d = .ok none

/-- C87: with keys of the size there is no error for any set that `AssignCircuit` takes. -/
theorem C87_no_error (hI : IgnoresErrors S) {d : Disk S} {u : UpdateSet32} {coin : S.Coin}
    (hk : KeyAt d (keyFile u.userID.length) (.multi u.userID.length) coin) {c : Circuit} (h : assignCircuit u = .ok c)
    (k : S.Coin) : ∃ p, prove u k d = .ok (some p) := by
  obtain ⟨p, h1⟩ := hI (.multi u.userID.length) coin (.multi c) k (assign_fits h)
  exact ⟨p, by rw [prove_of_keyAt k hk, h, ← h1]; rfl⟩

theorem C87_violated : ¬ C87_statement := by
  intro h
  have hs := (setupZkMultiswap_ok_iff (S := idealSnark sumEnv) sumEnv 2 (0 : Nat) (fun _ => none) _).2 ⟨by decide, rfl⟩
  obtain ⟨c, h1, h2⟩ := C63_first_changed_rejected sumEnv changedSet (by decide) changedSet_honest (by decide)
  obtain ⟨p, hp⟩ := C87_no_error (idealSnark_ignores sumEnv) (u := changedSet)
    (setup_keyAt (S := idealSnark sumEnv) (.multi 2) (0 : Nat) (keyFile 2) (fun _ => none)) h1 (0 : Nat)
  have := h sumEnv _ (idealSnark_complete _) (idealSnark_ignores _) _ changedSet c (0 : Nat)
    (.setup 2 (0 : Nat) .empty hs) h1 h2
  have hp' := hp.symm.trans this
  injection hp' with hp'
  cases hp'

/-- C87: on every reachable directory `Prove` fails with an error exactly if there are no keys of the size of the set, and
panics exactly if there are and the set fails `IsValid`; a proof for a set that the circuit rejects is never accepted. -/
theorem C87_prove_partial {E : Env} (hI : IgnoresErrors S) {d : Disk S} (hr : Reach E d) (u : UpdateSet32) (k : S.Coin) :
    (prove u k d = .ok none ↔ isCircuitExistFor d u.userID.length = false) ∧
    ((prove u k d).panics = true ↔ isCircuitExistFor d u.userID.length = true ∧ u.isValid = false) ∧
    (Binding E S → ∀ p c, prove u k d = .ok (some p) → assignCircuit u = .ok c → define E c = .ok false →
      ∀ n i, verify p n i d ≠ .ok true) := by
  have hd := C85_keys E d hr
  have third : Binding E S → ∀ p c, prove u k d = .ok (some p) → assignCircuit u = .ok c → define E c = .ok false →
      ∀ n i, verify p n i d ≠ .ok true := by
    intro hB p c h1 h2 h3 n i h4
    obtain ⟨-, -, c', h5, h6⟩ := C85_verify_other hB hd h1 n i h4
    rw [h2] at h5
    injection h5 with h5
    rw [← h5, h3] at h6
    cases h6
  rcases (hd u.userID.length).1 with ⟨h1, h2, -⟩ | ⟨coin, hk⟩
  · have e : prove u k d = .ok none := by rw [prove]; simp [readPk, h2]
    have e' : isCircuitExistFor d u.userID.length = false := by rw [isCircuitExistFor, h1]; rfl
    refine ⟨⟨fun _ => e', fun _ => e⟩, ?_, third⟩
    rw [e, e']
    simp [Res.panics]
  · have e' : isCircuitExistFor d u.userID.length = true := by rw [isCircuitExistFor, hk.1]; rfl
    cases hv : u.isValid with
    | false =>
      have hp := (C66_assignCircuit u).1 hv
      have e : (prove u k d).panics = true := by
        rw [prove_of_keyAt k hk]
        cases ha : assignCircuit u with
        | ok c => rw [ha] at hp; cases hp
        | error m => rfl
      refine ⟨⟨fun h => ?_, fun h => ?_⟩, ⟨fun _ => ⟨e', rfl⟩, fun _ => e⟩, third⟩
      · rw [h] at e; cases e
      · rw [e'] at h; cases h
    | true =>
      obtain ⟨p, hp⟩ := C87_no_error hI hk ((C66_assignCircuit u).2 hv) k
      refine ⟨⟨fun h => ?_, fun h => ?_⟩, ⟨fun h => ?_, fun h => ?_⟩, third⟩
      · rw [hp] at h; injection h with h; cases h
      · rw [e'] at h; cases h
      · rw [hp] at h; cases h
      · cases h.2

/-- C87 on any directory, also one from which files were deleted or overwritten: a missing proving key or constraint
system is reported as an error, and `Prove` panics exactly if both are there and the set fails `IsValid`. `Verify` panics
exactly if the verifying key is missing. -/
theorem C87_any_directory (d : Disk S) (u : UpdateSet32) (k : S.Coin) :
    ((∀ pk, d (pkName (keyFile u.userID.length)) ≠ some (.pk pk)) → prove u k d = .ok none) ∧
    ((∀ sys, d (ccsName (keyFile u.userID.length)) ≠ some (.ccs sys)) → prove u k d = .ok none) ∧
    ((prove u k d).panics = true ↔ (∃ pk, d (pkName (keyFile u.userID.length)) = some (.pk pk)) ∧
      (∃ sys, d (ccsName (keyFile u.userID.length)) = some (.ccs sys)) ∧ u.isValid = false) ∧
    (∀ (p : S.Proof) (n : UInt32) (i : PublicInfo), (verify p n i d).panics = true ↔
      ∀ vk, d (vkName (keyFile n.toNat)) ≠ some (.vk vk)) := by
  have hpk : ∀ name, readPk d name = none ↔ ∀ pk, d name ≠ some (.pk pk) := by
    intro name
    rw [readPk]
    split
    · rename_i k h; simp [h]
    · rename_i h; simpa using h
  have hccs : ∀ name, readCcs d name = none ↔ ∀ sys, d name ≠ some (.ccs sys) := by
    intro name
    rw [readCcs]
    split
    · rename_i k h; simp [h]
    · rename_i h; simpa using h
  have hvk : ∀ name, readVk d name = none ↔ ∀ vk, d name ≠ some (.vk vk) := by
    intro name
    rw [readVk]
    split
    · rename_i k h; simp [h]
    · rename_i h; simpa using h
  have h1 : (∀ pk, d (pkName (keyFile u.userID.length)) ≠ some (.pk pk)) → prove u k d = .ok none := by
    intro h
    rw [prove]
    simp only [(hpk _).2 h]
  have h2 : (∀ sys, d (ccsName (keyFile u.userID.length)) ≠ some (.ccs sys)) → prove u k d = .ok none := by
    intro h
    rw [prove]
    simp only [(hccs _).2 h]
    cases readPk d (pkName (keyFile u.userID.length)) <;> rfl
  refine ⟨h1, h2, ⟨fun h => ⟨?_, ?_, ?_⟩, ?_⟩, fun p n i => ?_⟩
  · by_contra hc
    rw [h1 (fun pk e => hc ⟨pk, e⟩)] at h
    cases h
  · by_contra hc
    rw [h2 (fun pk e => hc ⟨pk, e⟩)] at h
    cases h
  · by_contra hc
    have hv : u.isValid = true := by simpa using hc
    rw [prove] at h
    simp only [(C66_assignCircuit u).2 hv] at h
    split at h
    · cases h
    · split at h <;> cases h
  · rintro ⟨⟨pk, e1⟩, ⟨sys, e2⟩, hv⟩
    have hp := (C66_assignCircuit u).1 hv
    rw [prove]
    simp only [readPk, readCcs, e1, e2]
    cases ha : assignCircuit u with
    | ok c => rw [ha] at hp; cases hp
    | error m => rfl
  · rw [← hvk, verify, loadVerifyingKey]
    cases readVk d (vkName (keyFile n.toNat)) with
    | none => simp [goPanic, Res.panics]
    | some vk => simp [Res.panics]

/-- A directory with only a proving key, and a valid set. -/
example : prove changedSet (0 : Nat) (S := idealSnark sumEnv)
    (write (fun _ => none) (pkName (keyFile 2)) (.pk ((idealSnark sumEnv).setup (.multi 2) (0 : Nat)).1)) = .ok none := by
  refine (C87_any_directory (S := idealSnark sumEnv) _ changedSet (0 : Nat)).2.1 ?_
  intro sys h
  have hne : ccsName (keyFile changedSet.userID.length) ≠ pkName (keyFile 2) := by decide +kernel
  have h' := (if_neg hne).symm.trans h
  cases h'

end Verif.Props
