import Verif.Model.BindingMethods
import Verif.Props.PairingCode

/-!
# C163: transactions made with the Go binding

`Transfer` and `Transact` of the types `VerifierRaw`, `VerifierTransactorRaw`, `PairingRaw` and `PairingTransactorRaw`, and the other
ways of reading, zkmultiswap/gnark-tests/solidity/solidity_groth16.go.
-/

namespace Verif.Props

open Verif.Go Verif.Model Verif.Model.EvmMachine Verif.Model.Solidity

/-! ## Specification -/

/-- The verdict of the Solidity source for the arguments modulo 2^256. -/
def sourceVerdict (E : Evm) (a b0 b1 c : Int × Int) (input : Fin 7 → Int) : Res Bool :=
  verifyProof E testKey (asWord a.1, asWord a.2) (asWord b0.1, asWord b0.2) (asWord b1.1, asWord b1.2)
    (asWord c.1, asWord c.2) (fun i => asWord (input i))

/-- The transactions that should succeed: `verifyProof` without a payment, where the source comes to a verdict, be it "true" or
"false". -/
def ShouldSucceed (t : TxWorld) (c : TxCall) : Prop :=
  t.value = 0 ∧ ∃ a b0 b1 c' input b, c = .transact "verifyProof" (.proof a b0 b1 c' input) ∧ sourceVerdict t.evm a b0 b1 c' input = .ok b

/-- A payment is a word and the precompiled contracts answer with words. -/
def TxOk (t : TxWorld) : Prop := t.value < 2 ^ 256 ∧ Words t.evm

/-- **C163.** After a deployment with the binding and any transactions with it: the contract `Verifier` owns nothing and keeps its
code, and the next transaction succeeds exactly if it is a `verifyProof` without a payment for which the source comes to a
verdict. The library `Pairing` owns what its deployment paid, and no transaction to it succeeds. -/
def C163_statement : Prop :=
  ∀ (l : List (TxWorld × TxCall)), (∀ x ∈ l, TxOk x.1) → ∀ (t0 t : TxWorld), TxOk t0 → TxOk t → ∀ (c : TxCall) (fuel : Nat),
    12000 ≤ fuel →
    (∀ acc, deployVerifier t0 fuel = some acc →
      (sendAll (sendVerifier fuel) acc l).balance = 0 ∧ (sendAll (sendVerifier fuel) acc l).code = codeBytes verifierCode ∧
      ((sendVerifier fuel (sendAll (sendVerifier fuel) acc l) t c).1 = true ↔ ShouldSucceed t c)) ∧
    ∀ self < 2 ^ 160, ∃ acc, deployPairing self t0 fuel = some acc ∧
      (sendAll (sendPairing self fuel) acc l).balance = t0.value ∧
      (sendPairing self fuel (sendAll (sendPairing self fuel) acc l) t c).1 = false

/-! ## Proof -/

theorem verifierCode_bytes : Code.ofBytes (codeBytes verifierCode) = verifierCode := by
  have h : (Code.ofBytes (codeBytes verifierCode)).bytes = verifierCode.bytes := by decide +kernel
  have h' : (Code.ofBytes (codeBytes verifierCode)).len = verifierCode.len := by decide +kernel
  revert h h'
  generalize Code.ofBytes (codeBytes verifierCode) = x
  intro h h'
  cases x
  simp only at h h'
  subst h h'
  rfl

/-- A transaction to the contract, in its own words. -/
theorem send_verifier (fuel : Nat) (hf : 12000 ≤ fuel) (acc : Account) (hc : acc.code = codeBytes verifierCode) (t : TxWorld)
    (ht : TxOk t) (c : TxCall) :
    ((sendVerifier fuel acc t c).1 = true ↔ ShouldSucceed t c) ∧
      ((sendVerifier fuel acc t c).1 = true → t.value = 0) ∧
      (sendVerifier fuel acc t c).2 = acc := by
  have refused : ∀ data : Bytes, data.length < 2 ^ 255 → ¬ IsCall ⟨t.value, data, t.gas, t.evm⟩ →
      acc.receive t.value (run (Code.ofBytes acc.code) ⟨t.value, data, t.gas, t.evm⟩ fuel) = (false, acc) := by
    intro data hd hn
    rw [hc, verifierCode_bytes, (C149_bytecode ⟨t.value, data, t.gas, t.evm⟩ ht.1 hd ht.2 fuel hf).2 hn]
    rfl
  have empty : acc.receive t.value (run (Code.ofBytes acc.code) ⟨t.value, [], t.gas, t.evm⟩ fuel) = (false, acc) :=
    refused [] (show 0 < 2 ^ 255 by decide +kernel) (fun h => absurd h.2.1 (show ¬ (484 ≤ 0) by decide))
  have no : ∀ r : Bool × Account, r = (false, acc) → ¬ ShouldSucceed t c →
      (r.1 = true ↔ ShouldSucceed t c) ∧ (r.1 = true → t.value = 0) ∧ r.2 = acc := by
    rintro r rfl hn
    exact ⟨⟨fun h => (by cases h), fun h => absurd h hn⟩, fun h => (by cases h), rfl⟩
  cases c with
  | transfer => exact no _ empty (by rintro ⟨-, a, b0, b1, c', input, b, h, -⟩; cases h)
  | transact method args =>
    by_cases hm : method = ""
    · subst hm
      have hn : ¬ ShouldSucceed t (.transact "" args) := by
        rintro ⟨-, a, b0, b1, c', input, b, h, -⟩
        injection h with h
        exact absurd h (by decide)
      refine no _ ?_ hn
      cases args with
      | none => exact empty
      | proof _ _ _ _ _ => rfl
      | other => rfl
    · by_cases hv : method = "verifyProof"
      · subst hv
        cases args with
        | none => exact no _ rfl (by rintro ⟨-, a, b0, b1, c', input, b, h, -⟩; cases h)
        | other => exact no _ rfl (by rintro ⟨-, a, b0, b1, c', input, b, h, -⟩; cases h)
        | proof a b0 b1 c' input =>
          have hdata : (TxCall.transact "verifyProof" (.proof a b0 b1 c' input)).data verifierMethods =
            .ok (callData a b0 b1 c' input) := rfl
          unfold sendVerifier
          rw [hdata]
          dsimp only
          by_cases h0 : t.value = 0
          · have hrun := callData_run t.evm t.gas fuel a b0 b1 c' input ht.2 hf
            have hs : ShouldSucceed t (.transact "verifyProof" (.proof a b0 b1 c' input)) ↔
                ∃ b, sourceVerdict t.evm a b0 b1 c' input = .ok b := by
              constructor
              · rintro ⟨-, _, _, _, _, _, b, h, hb⟩
                cases h
                exact ⟨b, hb⟩
              · rintro ⟨b, hb⟩
                exact ⟨h0, _, _, _, _, _, b, rfl, hb⟩
            rw [hs, hc, verifierCode_bytes, h0, hrun]
            show (((acc.receive 0 (some (match sourceVerdict t.evm a b0 b1 c' input with
              | .ok b => .returned (answerBytes b)
              | .error m => _))).1 = true) ↔ _) ∧ _ ∧ (acc.receive 0 (some (match sourceVerdict t.evm a b0 b1 c' input with
              | .ok b => .returned (answerBytes b)
              | .error m => _))).2 = acc
            cases sourceVerdict t.evm a b0 b1 c' input with
            | ok b => exact ⟨⟨fun _ => ⟨b, rfl⟩, fun _ => rfl⟩, fun _ => rfl, rfl⟩
            | error m =>
              dsimp only
              split_ifs <;> exact ⟨⟨fun h => (by cases h), fun ⟨b, h⟩ => (by cases h)⟩, fun _ => rfl, rfl⟩
          · refine no _ (refused _ (by rw [callData_length]; decide +kernel) (fun h => h0 h.1)) ?_
            exact fun h => h0 h.1
      · refine no _ ?_ ?_
        · have : (TxCall.transact method args).data verifierMethods = .error "method not found" := by
            show packCall _ _ _ = _
            unfold packCall
            rw [if_neg hm, if_neg (by simpa [verifierMethods] using hv)]
          unfold sendVerifier
          rw [this]
        · rintro ⟨-, a, b0, b1, c', input, b, h, -⟩
          injection h with h
          exact hv h

theorem sendAll_verifier (fuel : Nat) (hf : 12000 ≤ fuel) (acc : Account) (hc : acc.code = codeBytes verifierCode)
    (l : List (TxWorld × TxCall)) (hl : ∀ x ∈ l, TxOk x.1) : sendAll (sendVerifier fuel) acc l = acc := by
  induction l with
  | nil => rfl
  | cons x l ih =>
    show sendAll (sendVerifier fuel) (sendVerifier fuel acc x.1 x.2).2 l = acc
    rw [(send_verifier fuel hf acc hc x.1 (hl x (by simp)) x.2).2.2]
    exact ih (fun y hy => hl y (by simp [hy]))

theorem send_pairing (self fuel : Nat) (hf : 9 ≤ fuel) (acc : Account) (hc : acc.code = libraryBytes self) (t : TxWorld)
    (c : TxCall) : sendPairing self fuel acc t c = (false, acc) := by
  unfold sendPairing
  cases c.data pairingMethods with
  | error m => rfl
  | ok data =>
    dsimp only
    rw [hc, C153_call self self _ fuel hf]
    rfl

theorem sendAll_pairing (self fuel : Nat) (hf : 9 ≤ fuel) (acc : Account) (hc : acc.code = libraryBytes self)
    (l : List (TxWorld × TxCall)) : sendAll (sendPairing self fuel) acc l = acc := by
  induction l with
  | nil => rfl
  | cons x l ih =>
    show sendAll (sendPairing self fuel) (sendPairing self fuel acc x.1 x.2).2 l = acc
    rw [send_pairing self fuel hf acc hc]
    exact ih

/-- The account that `DeployVerifier` leaves: there is one only if nothing was paid. -/
theorem C163_deploy (t : TxWorld) (ht : TxOk t) (fuel : Nat) (hf : 20 ≤ fuel) :
    deployVerifier t fuel = if t.value = 0 then some ⟨codeBytes verifierCode, 0⟩ else none := by
  unfold deployVerifier
  rw [C150_deploy ⟨t.value, [], t.gas, t.evm⟩ ht.1 fuel hf]
  by_cases h : t.value = 0
  · simp only [h, if_true]
  · simp only [h, if_false]

/-- **C163.** -/
theorem C163_transactions : C163_statement := by
  intro l hl t0 t ht0 ht c fuel hf
  constructor
  · intro acc hacc
    rw [C163_deploy t0 ht0 fuel (by omega)] at hacc
    split_ifs at hacc
    have hb : acc.balance = 0 := by rw [← Option.some.inj hacc]
    have hc : acc.code = codeBytes verifierCode := by rw [← Option.some.inj hacc]
    rw [sendAll_verifier fuel hf acc hc l hl]
    exact ⟨hb, hc, (send_verifier fuel hf acc hc t ht c).1⟩
  · intro self _
    refine ⟨⟨libraryBytes self, t0.value⟩, ?_, ?_, ?_⟩
    · unfold deployPairing
      rw [C153_deploy self _ fuel (by omega)]
    · rw [sendAll_pairing self fuel (by omega) _ rfl]
    · rw [sendAll_pairing self fuel (by omega) _ rfl, send_pairing self fuel (by omega) _ rfl]

/-- The raw call answers `b` exactly if the name is `verifyProof`, the arguments are of its types, and the source says `b`. -/
theorem C163_raw_call (E : Evm) (hE : Words E) (gas : Nat → Nat) (fuel : Nat) (hf : 12000 ≤ fuel) (method : String)
    (args : RawArgs) : ∃ r, verifierRawCall E gas fuel method args = some r ∧ ∀ b, r = .ok b ↔
      ∃ a b0 b1 c input, method = "verifyProof" ∧ args = .proof a b0 b1 c input ∧ sourceVerdict E a b0 b1 c input = .ok b := by
  by_cases hm : method = ""
  · subst hm
    have hn : ∀ b : Bool, ∀ m : String, (Except.error m : Res Bool) = .ok b ↔ ∃ a b0 b1 c input, "" = "verifyProof" ∧
        args = .proof a b0 b1 c input ∧ sourceVerdict E a b0 b1 c input = .ok b :=
      fun b m => ⟨fun h => (by cases h), fun ⟨_, _, _, _, _, h, _⟩ => absurd h (by decide)⟩
    cases args with
    | none =>
      refine ⟨.error "execution failed", ?_, fun b => hn b _⟩
      show (match run verifierCode ⟨0, [], gas, E⟩ fuel with
        | none => none
        | some (.returned l) => _
        | some _ => _) = _
      rw [(C149_bytecode ⟨0, [], gas, E⟩ (show 0 < 2 ^ 256 by decide +kernel) (show 0 < 2 ^ 255 by decide +kernel) hE fuel
        hf).2 (fun h => absurd h.2.1 (show ¬ (484 ≤ 0) by decide))]
    | proof _ _ _ _ _ => exact ⟨_, rfl, fun b => hn b _⟩
    | other => exact ⟨_, rfl, fun b => hn b _⟩
  · by_cases hv : method = "verifyProof"
    · subst hv
      cases args with
      | none => exact ⟨_, rfl, fun b => ⟨fun h => (by cases h), fun ⟨_, _, _, _, _, _, h, _⟩ => (by cases h)⟩⟩
      | other => exact ⟨_, rfl, fun b => ⟨fun h => (by cases h), fun ⟨_, _, _, _, _, _, h, _⟩ => (by cases h)⟩⟩
      | proof a b0 b1 c input =>
        obtain ⟨r, h1, h2⟩ := C150_call E gas fuel a b0 b1 c input hE hf
        refine ⟨r, h1, fun b => (h2 b).trans ⟨fun h => ⟨a, b0, b1, c, input, rfl, rfl, h⟩, ?_⟩⟩
        rintro ⟨_, _, _, _, _, -, h, hb⟩
        cases h
        exact hb
    · refine ⟨.error "method not found", ?_, fun b => ⟨fun h => (by cases h), fun ⟨_, _, _, _, _, h, _⟩ => absurd h hv⟩⟩
      unfold verifierRawCall packCall
      rw [if_neg hm, if_neg (by simpa [verifierMethods] using hv)]

/-- The two sessions answer `b` exactly if the source says `b`. -/
theorem C163_sessions (E : Evm) (hE : Words E) (gas : Nat → Nat) (fuel : Nat) (hf : 12000 ≤ fuel) (a b0 b1 c : Int × Int)
    (input : Fin 7 → Int) : ∃ r, sessionVerifyProof E gas fuel a b0 b1 c input = some r ∧
      ∀ b, r = .ok b ↔ sourceVerdict E a b0 b1 c input = .ok b := C150_call E gas fuel a b0 b1 c input hE hf

/-! ## Examples -/

/-- A transaction with a wrong proof succeeds as well: its status does not tell the verdict. -/
example : ∃ acc, deployVerifier ⟨0, fun _ => 0, pickyEvm 5⟩ 12000 = some acc ∧
    sourceVerdict (pickyEvm 5) (1, 2) (1, 2) (1, 2) (1, 2) (fun _ => 3) = .ok false ∧
    (sendVerifier 12000 acc ⟨0, fun _ => 0, pickyEvm 5⟩
      (.transact "verifyProof" (.proof (1, 2) (1, 2) (1, 2) (1, 2) (fun _ => 3)))).1 = true := by
  have hok : TxOk ⟨0, fun _ => 0, pickyEvm 5⟩ := ⟨show 0 < 2 ^ 256 by decide +kernel, picky_words _⟩
  have hs : sourceVerdict (pickyEvm 5) (1, 2) (1, 2) (1, 2) (1, 2) (fun _ => 3) = .ok false := by decide +kernel
  have hd := C163_deploy ⟨0, fun _ => 0, pickyEvm 5⟩ hok 12000 (by decide)
  exact ⟨_, hd, hs, ((C163_transactions [] (by simp) _ _ hok hok _ 12000 (Nat.le_refl _)).1 _ hd).2.2.2
    ⟨rfl, _, _, _, _, _, false, rfl, hs⟩⟩

/-- A payment of 1 to the contract fails and is not taken. -/
example : ∃ acc, deployVerifier ⟨0, fun _ => 0, pickyEvm 5⟩ 12000 = some acc ∧
    (sendVerifier 12000 acc ⟨1, fun _ => 0, pickyEvm 5⟩ .transfer).1 = false ∧
    (sendAll (sendVerifier 12000) acc [(⟨1, fun _ => 0, pickyEvm 5⟩, .transfer)]).balance = 0 := by
  have hok : TxOk ⟨0, fun _ => 0, pickyEvm 5⟩ := ⟨show 0 < 2 ^ 256 by decide +kernel, picky_words _⟩
  have hok1 : TxOk ⟨1, fun _ => 0, pickyEvm 5⟩ := ⟨show 1 < 2 ^ 256 by decide +kernel, picky_words _⟩
  have hd := C163_deploy ⟨0, fun _ => 0, pickyEvm 5⟩ hok 12000 (by decide)
  refine ⟨_, hd, ?_, ((C163_transactions [(⟨1, fun _ => 0, pickyEvm 5⟩, .transfer)] (by simpa using hok1) _ _ hok hok1 .transfer
    12000 (Nat.le_refl _)).1 _ hd).1⟩
  have h := ((C163_transactions [] (by simp) _ _ hok hok1 .transfer 12000 (Nat.le_refl _)).1 _ hd).2.2
  cases hr : (sendVerifier 12000 _ ⟨1, fun _ => 0, pickyEvm 5⟩ .transfer).1 with
  | false => rfl
  | true => exact absurd (h.1 hr).1 (by decide)

/-- A payment of 7 with the deployment of the library stays there. -/
example : ∃ acc, deployPairing 5 ⟨7, fun _ => 0, pickyEvm 5⟩ 12000 = some acc ∧
    (sendAll (sendPairing 5 12000) acc [(⟨1, fun _ => 0, pickyEvm 5⟩, .transfer)]).balance = 7 := by
  have hok7 : TxOk ⟨7, fun _ => 0, pickyEvm 5⟩ := ⟨show 7 < 2 ^ 256 by decide +kernel, picky_words _⟩
  have hok1 : TxOk ⟨1, fun _ => 0, pickyEvm 5⟩ := ⟨show 1 < 2 ^ 256 by decide +kernel, picky_words _⟩
  obtain ⟨acc, h1, h2, -⟩ := (C163_transactions [(⟨1, fun _ => 0, pickyEvm 5⟩, .transfer)] (by simpa using hok1) _ _ hok7 hok1
    .transfer 12000 (Nat.le_refl _)).2 5 (by decide)
  exact ⟨acc, h1, h2⟩

end Verif.Props
