import Verif.Spec.SnarkFlow
import Verif.Lemmas.Bytes
import Verif.Lemmas.Hashes
import Verif.Lemmas.MultiSwap

/-! # Lemmas about the key files -/

namespace Verif.Lemmas.SnarkFlow
open Verif.Go Verif.Model Verif.Model.SnarkFlow Verif.Spec Verif.Lemmas

variable {S : Snark}

theorem suffix_ne (x y s t : Bytes) (k : Nat) (hs : k ≤ s.length) (ht : k ≤ t.length)
    (h : s.reverse.take k ≠ t.reverse.take k) : x ++ s ≠ y ++ t := by
  intro e
  apply h
  have := congrArg (fun l => l.reverse.take k) e
  simp only [List.reverse_append] at this
  rwa [List.take_append_of_le_length (by simpa using hs), List.take_append_of_le_length (by simpa using ht)] at this

theorem ccs_ne_pk (x y : Bytes) : ccsName x ≠ pkName y := suffix_ne _ _ _ _ 7 (by decide) (by decide) (by decide)
theorem ccs_ne_vk (x y : Bytes) : ccsName x ≠ vkName y := suffix_ne _ _ _ _ 7 (by decide) (by decide) (by decide)
theorem pk_ne_vk (x y : Bytes) : pkName x ≠ vkName y := suffix_ne _ _ _ _ 7 (by decide) (by decide) (by decide)

theorem ccs_inj {x y : Bytes} : ccsName x = ccsName y ↔ x = y := List.append_left_inj _
theorem pk_inj {x y : Bytes} : pkName x = pkName y ↔ x = y := List.append_left_inj _
theorem vk_inj {x y : Bytes} : vkName x = vkName y ↔ x = y := List.append_left_inj _

theorem keyFile_inj {n m : Nat} : keyFile n = keyFile m ↔ n = m := by
  constructor
  · intro h; exact itoa_injective _ _ (List.append_cancel_left h)
  · rintro rfl; rfl

theorem merkleKeyFile_inj {n m : Nat} : merkleKeyFile n = merkleKeyFile m ↔ n = m := by
  constructor
  · intro h; exact itoa_injective _ _ (List.append_cancel_left h)
  · rintro rfl; rfl

theorem keyFile_ne_merkle (n m : Nat) : keyFile n ≠ merkleKeyFile m := by
  intro h
  have h' := congrArg (fun l => l.take 1) h
  simp only [keyFile, keyPathPrefix, merkleKeyFile, List.append_assoc] at h'
  rw [List.take_append_of_le_length (by decide), List.take_append_of_le_length (by decide)] at h'
  revert h'
  decide

/-- A name that is none of the key files. -/
def Other (name : Bytes) : Prop := ∀ base, name ≠ ccsName base ∧ name ≠ pkName base ∧ name ≠ vkName base

theorem other_of_suffix (name : Bytes) (h : 5 ≤ name.length)
    (h' : name.reverse.take 5 ≠ (ascii ".save").reverse.take 5) : Other name := by
  have e : ∀ base s, 5 ≤ s.length → s.reverse.take 5 = (ascii ".save").reverse.take 5 → name ≠ base ++ s := by
    intro base s hs hs'
    have := suffix_ne [] base name s 5 h hs (by rwa [hs'])
    simpa using this
  intro base
  exact ⟨e base _ (by decide) (by decide), e base _ (by decide) (by decide), e base _ (by decide) (by decide)⟩

theorem other_contract : Other (ascii "contract_g16.sol") := other_of_suffix _ (by decide) (by decide)
theorem other_notus : Other (ascii "Notuscontract_g16.sol") := other_of_suffix _ (by decide) (by decide)
theorem other_notusVk : Other (ascii "Notus.g16.vk") := other_of_suffix _ (by decide) (by decide)
theorem other_notusPk : Other (ascii "Notus.g16.pk") := other_of_suffix _ (by decide) (by decide)

theorem write_same (d : Disk S) (n : Bytes) (f : File S) : write d n f n = some f := by simp [write]

theorem write_ne (d : Disk S) {n m : Bytes} (f : File S) (h : m ≠ n) : write d n f m = d m := by simp [write, h]

theorem write_other_keyAt {d : Disk S} {name : Bytes} (h : Other name) (f : File S) (base : Bytes) (sys : System)
    (coin : S.Coin) : KeyAt (write d name f) base sys coin ↔ KeyAt d base sys coin := by
  obtain ⟨h1, h2, h3⟩ := h base
  unfold KeyAt
  rw [write_ne _ _ h1.symm, write_ne _ _ h2.symm, write_ne _ _ h3.symm]

theorem write_other_group {d : Disk S} {name : Bytes} (h : Other name) (f : File S) (base : Bytes) (sys : System) :
    KeyGroup (write d name f) base sys ↔ KeyGroup d base sys := by
  obtain ⟨h1, h2, h3⟩ := h base
  unfold KeyGroup
  simp only [write_other_keyAt h]
  rw [write_ne _ _ h1.symm, write_ne _ _ h2.symm, write_ne _ _ h3.symm]

theorem write_other_keysOk {d : Disk S} {name : Bytes} (h : Other name) (f : File S) :
    KeysOk (write d name f) ↔ KeysOk d := by
  unfold KeysOk
  simp only [write_other_group h]

theorem setup_keyAt (sys : System) (coin : S.Coin) (base : Bytes) (d : Disk S) :
    KeyAt (setupWithDump sys coin base d) base sys coin := by
  refine ⟨?_, ?_, ?_⟩
  · rw [setupWithDump, write_ne _ _ (ccs_ne_vk _ _), write_ne _ _ (ccs_ne_pk _ _), write_same]
  · rw [setupWithDump, write_ne _ _ (pk_ne_vk _ _), write_same]
  · rw [setupWithDump, write_same]

theorem setup_other (sys : System) (coin : S.Coin) (base base' : Bytes) (h : base' ≠ base) (d : Disk S) :
    setupWithDump sys coin base d (ccsName base') = d (ccsName base') ∧
    setupWithDump sys coin base d (pkName base') = d (pkName base') ∧
    setupWithDump sys coin base d (vkName base') = d (vkName base') := by
  have h1 : ccsName base' ≠ ccsName base := fun e => h (ccs_inj.1 e)
  have h2 : pkName base' ≠ pkName base := fun e => h (pk_inj.1 e)
  have h3 : vkName base' ≠ vkName base := fun e => h (vk_inj.1 e)
  refine ⟨?_, ?_, ?_⟩
  · rw [setupWithDump, write_ne _ _ (ccs_ne_vk _ _), write_ne _ _ (ccs_ne_pk _ _), write_ne _ _ h1]
  · rw [setupWithDump, write_ne _ _ (pk_ne_vk _ _), write_ne _ _ h2, write_ne _ _ (ccs_ne_pk _ _).symm]
  · rw [setupWithDump, write_ne _ _ h3, write_ne _ _ (pk_ne_vk _ _).symm, write_ne _ _ (ccs_ne_vk _ _).symm]

theorem setup_other_name (sys : System) (coin : S.Coin) (base name : Bytes) (h : Other name) (d : Disk S) :
    setupWithDump sys coin base d name = d name := by
  obtain ⟨h1, h2, h3⟩ := h base
  rw [setupWithDump, write_ne _ _ h3, write_ne _ _ h2, write_ne _ _ h1]

theorem setup_other_group (sys sys' : System) (coin : S.Coin) (base base' : Bytes) (h : base' ≠ base) (d : Disk S) :
    KeyGroup (setupWithDump sys coin base d) base' sys' ↔ KeyGroup d base' sys' := by
  obtain ⟨h1, h2, h3⟩ := setup_other sys coin base base' h d
  unfold KeyGroup KeyAt
  rw [h1, h2, h3]

theorem setup_keysOk (n : Nat) (coin : S.Coin) (d : Disk S) (h : KeysOk d) :
    KeysOk (setupWithDump (.multi n) coin (keyFile n) d) := by
  intro m
  constructor
  · by_cases e : m = n
    · subst e; exact Or.inr ⟨coin, setup_keyAt _ _ _ _⟩
    · exact (setup_other_group _ _ _ _ _ (fun e' => e (keyFile_inj.1 e')) _).2 (h m).1
  · exact (setup_other_group _ _ _ _ _ (keyFile_ne_merkle _ _).symm _).2 (h m).2

theorem merkleSetup_keysOk (n : Nat) (coin : S.Coin) (d : Disk S) (h : KeysOk d) :
    KeysOk (setupWithDump (.merkle n) coin (merkleKeyFile n) d) := by
  intro m
  constructor
  · exact (setup_other_group _ _ _ _ _ (keyFile_ne_merkle _ _) _).2 (h m).1
  · by_cases e : m = n
    · subst e; exact Or.inr ⟨coin, setup_keyAt _ _ _ _⟩
    · exact (setup_other_group _ _ _ _ _ (fun e' => e (merkleKeyFile_inj.1 e')) _).2 (h m).2

theorem readCcs_of {d : Disk S} {n : Bytes} {s : System} (h : d n = some (.ccs s)) : readCcs d n = some s := by
  rw [readCcs, h]

theorem readPk_of {d : Disk S} {n : Bytes} {s : S.PK} (h : d n = some (.pk s)) : readPk d n = some s := by
  rw [readPk, h]

theorem readVk_of {d : Disk S} {n : Bytes} {s : S.VK} (h : d n = some (.vk s)) : readVk d n = some s := by
  rw [readVk, h]

/-- `Prove` with keys. -/
theorem prove_of_keyAt {d : Disk S} {u : UpdateSet32} {coin : S.Coin} (k : S.Coin)
    (h : KeyAt d (keyFile u.userID.length) (.multi u.userID.length) coin) :
    prove u k d = (assignCircuit u).map fun c =>
      S.prove (.multi u.userID.length) (S.setup (.multi u.userID.length) coin).1 (.multi c) k := by
  obtain ⟨h1, h2, -⟩ := h
  rw [prove]
  simp only [readPk_of h2, readCcs_of h1]
  cases assignCircuit u <;> rfl

/-- `Verify` with keys. -/
theorem verify_of_keyAt {d : Disk S} {n : UInt32} {coin : S.Coin} (p : S.Proof) (i : PublicInfo)
    (h : KeyAt d (keyFile n.toNat) (.multi n.toNat) coin) :
    verify p n i d = .ok (S.verify (S.setup (.multi n.toNat) coin).2 (genPublicWitness i) p) := by
  rw [verify, loadVerifyingKey, readVk_of h.2.2]

/-- Compiling works for all sizes but zero. -/
theorem compile_eq (E : Env) (n : UInt32) : compile E n = if n.toNat = 0 then none else some (.multi n.toNat) := by
  unfold compile
  split_ifs with h
  · have : (define E (initCircuitWithSize n)).panics = true := by
      have hl : ∀ {α : Type} (f : Nat → α), (List.range n.toNat).map f = [] := by intro α f; rw [h]; rfl
      simp only [initCircuitWithSize, hl]
      rfl
    cases hd : define E (initCircuitWithSize n) with
    | ok v => rw [hd] at this; cases this
    | error m => rfl
  · obtain ⟨b, hb⟩ := define_total E (initCircuitWithSize n)
      (by refine ⟨?_, ?_, ?_, ?_, ?_⟩ <;> simp [initCircuitWithSize]; omega)
    rw [hb]

theorem setupZkMultiswap_ok_iff (E : Env) (n : UInt32) (coin : S.Coin) (d d' : Disk S) :
    setupZkMultiswap E n coin d = .ok d' ↔
      n.toNat ≠ 0 ∧ d' = setupWithDump (.multi n.toNat) coin (keyFile n.toNat) d := by
  rw [setupZkMultiswap, compile_eq]
  split_ifs with h
  · simp [h, goPanic]
  · simp [h, eq_comm]

/-- After `ensureKeys` the keys of this size are there; a new setup uses the given coin. -/
theorem ensureKeys_ok_iff (E : Env) (n : UInt32) (coin : S.Coin) (d d' : Disk S) (hd : KeysOk d) :
    ensureKeys E n coin d = .ok d' ↔
      (∃ c, KeyAt d (keyFile n.toNat) (.multi n.toNat) c ∧ d' = d) ∨
      ((∀ c, ¬ KeyAt d (keyFile n.toNat) (.multi n.toNat) c) ∧ n.toNat ≠ 0 ∧
        d' = setupWithDump (.multi n.toNat) coin (keyFile n.toNat) d) := by
  rw [ensureKeys, isCircuitExist]
  rcases (hd n.toNat).1 with ⟨h1, -, -⟩ | ⟨c, hc⟩
  · have hno : ∀ c, ¬ KeyAt d (keyFile n.toNat) (.multi n.toNat) c := by
      intro c hc
      rw [hc.1] at h1
      cases h1
    rw [h1]
    simp only [Option.isSome_none, Bool.false_eq_true, if_false]
    rw [setupZkMultiswap_ok_iff]
    constructor
    · rintro ⟨a, b⟩; exact Or.inr ⟨hno, a, b⟩
    · rintro (⟨c, hc, -⟩ | ⟨-, a, b⟩)
      · exact absurd hc (hno c)
      · exact ⟨a, b⟩
  · rw [hc.1]
    simp only [Option.isSome_some, if_true]
    constructor
    · intro h; injection h with h; exact Or.inl ⟨c, hc, h.symm⟩
    · rintro (⟨-, -, rfl⟩ | ⟨hn, -⟩)
      · rfl
      · exact absurd hc (hn c)

theorem ensureKeys_keyAt {E : Env} {n : UInt32} {coin : S.Coin} {d d' : Disk S} (hd : KeysOk d)
    (h : ensureKeys E n coin d = .ok d') : KeysOk d' ∧ ∃ c, KeyAt d' (keyFile n.toNat) (.multi n.toNat) c := by
  rcases (ensureKeys_ok_iff E n coin d d' hd).1 h with ⟨c, hc, rfl⟩ | ⟨-, -, rfl⟩
  · exact ⟨hd, c, hc⟩
  · exact ⟨setup_keysOk _ _ _ hd, coin, setup_keyAt _ _ _ _⟩

theorem ensureKeys_other {E : Env} {n : UInt32} {coin : S.Coin} {d d' : Disk S} (hd : KeysOk d)
    (h : ensureKeys E n coin d = .ok d') (name : Bytes) (ho : Other name) : d' name = d name := by
  rcases (ensureKeys_ok_iff E n coin d d' hd).1 h with ⟨c, hc, rfl⟩ | ⟨-, -, rfl⟩
  · rfl
  · exact setup_other_name _ _ _ _ ho _

theorem ensureKeys_total (E : Env) (n : UInt32) (coin : S.Coin) (d : Disk S) (hd : KeysOk d) (hn : n.toNat ≠ 0) :
    ∃ d', ensureKeys E n coin d = .ok d' := by
  by_cases h : ∃ c, KeyAt d (keyFile n.toNat) (.multi n.toNat) c
  · obtain ⟨c, hc⟩ := h
    exact ⟨d, (ensureKeys_ok_iff E n coin d d hd).2 (Or.inl ⟨c, hc, rfl⟩)⟩
  · exact ⟨_, (ensureKeys_ok_iff E n coin d _ hd).2 (Or.inr ⟨fun c hc => h ⟨c, hc⟩, hn, rfl⟩)⟩

/-! ## Runs -/

theorem testMultiSwap_ok_iff (E : Env) (fuel : Nat) (G N accMid : Int) (coin coin' : S.Coin) (n : UInt32) (d d' : Disk S)
    (b : Bool) : testMultiSwap E fuel G N accMid coin coin' n d = Run.ok (d', b) ↔
      ∃ u p, ensureKeys E n coin d = .ok d' ∧ genTestSet E fuel n G N accMid = Run.ok u ∧
        prove u coin' d' = .ok (some p) ∧ verify p n u.publicPart d' = .ok b := by
  unfold testMultiSwap
  simp only [run_bind_ok_iff, liftRes_ok_iff]
  constructor
  · rintro ⟨d1, h1, u, h2, o, h3, h4⟩
    cases o with
    | none => exact absurd ((liftRes_ok_iff _ _).1 h4) (by simp [goPanic])
    | some p =>
      simp only [run_bind_ok_iff, liftRes_ok_iff] at h4
      obtain ⟨f, h4, h5⟩ := h4
      obtain ⟨rfl, rfl⟩ := Prod.mk.inj (run_ok_inj h5)
      exact ⟨u, p, h1, h2, h3, h4⟩
  · rintro ⟨u, p, h1, h2, h3, h4⟩
    refine ⟨d', h1, u, h2, some p, h3, ?_⟩
    simp only [run_bind_ok_iff, liftRes_ok_iff]
    exact ⟨b, h4, rfl⟩

theorem outputContract_ok_iff (E : Env) (coin : S.Coin) (n : UInt32) (d d' : Disk S) :
    outputContract E coin n d = .ok d' ↔ ∃ d1 vk, ensureKeys E n coin d = .ok d1 ∧
      loadVerifyingKey d1 (keyFile n.toNat) = some vk ∧ d' = write d1 (ascii "contract_g16.sol") (.sol vk) := by
  unfold outputContract
  cases h : ensureKeys E n coin d with
  | error m => simp [bind, Except.bind]
  | ok d1 =>
    rw [except_bind_ok]
    cases hv : loadVerifyingKey d1 (keyFile n.toNat) with
    | none => simp [goPanic, hv]
    | some vk => simp [hv, eq_comm]

/-- The disk after lines 266-303 of zkmultiswap/common.go. -/
def disk2 (n : Nat) (coin coin2 : S.Coin) (d : Disk S) : Disk S :=
  write (write (write (setupWithDump (.multi n) coin (keyFile n) d) (ascii "Notus.g16.vk")
    (.vk (S.setup (.multi n) coin2).2)) (ascii "Notus.g16.pk") (.pk (S.setup (.multi n) coin2).1))
    (ascii "Notuscontract_g16.sol") (.sol (S.setup (.multi n) coin2).2)

theorem outputContract2_ok_iff (E : Env) (fuel : Nat) (G N accMid : Int) (coin coin2 coin' : S.Coin) (n : UInt32)
    (d d' : Disk S) (o : Outcome S) :
    outputContract2 E fuel G N accMid coin coin2 coin' n d = Run.ok (d', o) ↔
      (n.toNat = 0 ∧ d' = d ∧ o = .err) ∨
      (n.toNat ≠ 0 ∧ d' = disk2 n.toNat coin coin2 d ∧ ∃ u p b, genTestSet E fuel n G N accMid = Run.ok u ∧
        prove u coin' d' = .ok (some p) ∧ verify p n u.publicPart d' = .ok b ∧
        o = if b = false then .failed else .printed p (contractInputs u.publicPart)) := by
  unfold outputContract2
  rw [compile_eq]
  by_cases hn : n.toNat = 0
  · simp only [if_pos hn]
    constructor
    · intro h
      obtain ⟨rfl, rfl⟩ := Prod.mk.inj (run_ok_inj h)
      exact Or.inl ⟨hn, rfl, rfl⟩
    · rintro (⟨-, rfl, rfl⟩ | ⟨h, -⟩)
      · rfl
      · exact absurd hn h
  · simp only [if_neg hn]
    simp only [run_bind_ok_iff, liftRes_ok_iff, setupZkMultiswap_ok_iff]
    constructor
    · rintro ⟨d1, ⟨-, rfl⟩, u, h2, q, h3, h4⟩
      cases q with
      | none => exact absurd ((liftRes_ok_iff _ _).1 h4) (by simp [goPanic])
      | some p =>
        simp only [run_bind_ok_iff, liftRes_ok_iff] at h4
        obtain ⟨b, h4, h5⟩ := h4
        cases b with
        | false =>
          rw [if_pos rfl] at h5
          obtain ⟨rfl, rfl⟩ := Prod.mk.inj (run_ok_inj h5)
          exact Or.inr ⟨hn, rfl, u, p, false, h2, h3, h4, rfl⟩
        | true =>
          rw [if_neg (by simp)] at h5
          obtain ⟨rfl, rfl⟩ := Prod.mk.inj (run_ok_inj h5)
          exact Or.inr ⟨hn, rfl, u, p, true, h2, h3, h4, rfl⟩
    · rintro (⟨h, -⟩ | ⟨-, rfl, u, p, b, h2, h3, h4, rfl⟩)
      · exact absurd h hn
      · refine ⟨_, ⟨hn, rfl⟩, u, h2, some p, h3, ?_⟩
        simp only [run_bind_ok_iff, liftRes_ok_iff]
        refine ⟨b, h4, ?_⟩
        cases b <;> rfl

theorem disk2_keysOk (n : Nat) (coin coin2 : S.Coin) (d : Disk S) (h : KeysOk d) : KeysOk (disk2 n coin coin2 d) := by
  rw [disk2, write_other_keysOk other_notus, write_other_keysOk other_notusPk, write_other_keysOk other_notusVk]
  exact setup_keysOk _ _ _ h

theorem disk2_keyAt (n : Nat) (coin coin2 : S.Coin) (d : Disk S) :
    KeyAt (disk2 n coin coin2 d) (keyFile n) (.multi n) coin := by
  rw [disk2, write_other_keyAt other_notus, write_other_keyAt other_notusPk, write_other_keyAt other_notusVk]
  exact setup_keyAt _ _ _ _

theorem disk2_sol (n : Nat) (coin coin2 : S.Coin) (d : Disk S) :
    disk2 n coin coin2 d (ascii "Notuscontract_g16.sol") = some (.sol (S.setup (.multi n) coin2).2) := by
  rw [disk2, write_same]

theorem disk2_contract (n : Nat) (coin coin2 : S.Coin) (d : Disk S) :
    disk2 n coin coin2 d (ascii "contract_g16.sol") = d (ascii "contract_g16.sol") := by
  rw [disk2, write_ne _ _ (by decide), write_ne _ _ (by decide), write_ne _ _ (by decide),
    setup_other_name _ _ _ _ other_contract]

theorem basicProcess_ok_iff (E : Env) (fuel : Nat) (G N : Int) (n : UInt32) (r : BasicCoins S) (d d' : Disk S)
    (o : Outcome S) : basicProcess E fuel G N n r d = Run.ok (d', o) ↔
      ∃ d1 d2 b, testMultiSwap E fuel G N r.accMid1 r.c1 r.c2 n d = Run.ok (d1, b) ∧ outputContract E r.c3 n d1 = .ok d2 ∧
        outputContract2 E fuel G N r.accMid2 r.c4 r.c5 r.c6 n d2 = Run.ok (d', o) ∧ o ≠ .err := by
  unfold basicProcess
  simp only [run_bind_ok_iff, liftRes_ok_iff]
  constructor
  · rintro ⟨⟨d1, b⟩, h1, d2, h2, ⟨d3, o3⟩, h3, h4⟩
    cases o3 with
    | err => exact absurd ((liftRes_ok_iff _ _).1 h4) (by simp [goPanic])
    | failed =>
      obtain ⟨rfl, rfl⟩ := Prod.mk.inj (run_ok_inj h4)
      exact ⟨d1, d2, b, h1, h2, h3, by simp⟩
    | printed p i =>
      obtain ⟨rfl, rfl⟩ := Prod.mk.inj (run_ok_inj h4)
      exact ⟨d1, d2, b, h1, h2, h3, by simp⟩
  · rintro ⟨d1, d2, b, h1, h2, h3, h4⟩
    refine ⟨(d1, b), h1, d2, h2, (d', o), h3, ?_⟩
    cases o with
    | err => exact absurd rfl h4
    | failed => rfl
    | printed p i => rfl

end Verif.Lemmas.SnarkFlow
