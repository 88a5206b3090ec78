import Verif.Props.Bytecode
import Verif.Props.SolidityGroups

/-!
# C150: deploying and calling the contract through the Go binding

`DeployVerifier` and `VerifyProof`, zkmultiswap/gnark-tests/solidity/solidity_groth16.go:220-233 and 381-393.
-/

namespace Verif.Props

open Verif.Go Verif.Model Verif.Model.EvmMachine Verif.Model.Solidity Verif.Spec.BN254

/-! ## Specification -/

/-- The bytes of a program. -/
def codeBytes (c : Code) : List Nat := (List.range c.len).map c.byte

/-- The word that stands for a Go number: the number modulo 2^256. -/
def asWord (v : Int) : Nat := (v % (2 ^ 256 : Int)).toNat

/-- **C150.** The deployment leaves the code of C149 at the address of the contract (and refuses a payment), and a call of
`VerifyProof` of the binding returns the verdict of the source for the arguments as words: the same truth value, or an error
if the source ends with an error. -/
def C150_statement : Prop :=
  (∀ w : World, w.value < 2 ^ 256 → ∀ fuel ≥ 20,
    run deployCode w fuel = some (if w.value = 0 then .returned (codeBytes verifierCode) else .reverted)) ∧
  ∀ (E : Evm) (gas : Nat → Nat) (fuel : Nat) (a b0 b1 c : Int × Int) (input : Fin 7 → Int), Words E → 12000 ≤ fuel →
    ∃ r, bindingVerifyProof E gas fuel a b0 b1 c input = some r ∧
      ∀ b, r = .ok b ↔ verifyProof E testKey (asWord a.1, asWord a.2) (asWord b0.1, asWord b0.2) (asWord b1.1, asWord b1.2)
        (asWord c.1, asWord c.2) (fun i => asWord (input i)) = .ok b

/-! ## Deployment -/

theorem deploy_jump : (jumpdests deployCode).testBit 16 = true := by decide +kernel

theorem deploy_tail : verifierCode.bytes = deployCode.bytes % 2 ^ (8 * 8104) := by decide +kernel

theorem byte_of_tail (D n j : Nat) (h : j + 8 ≤ n) : ((D % 2 ^ n) >>> j) % 256 = (D >>> j) % 256 := by
  have e : (256 : Nat) = 2 ^ 8 := rfl
  apply Nat.eq_of_testBit_eq
  intro i
  rw [e, Nat.testBit_mod_two_pow, Nat.testBit_mod_two_pow, Nat.testBit_shiftRight, Nat.testBit_shiftRight,
    Nat.testBit_mod_two_pow]
  by_cases hi : i < 8
  · have : j + i < n := by omega
    simp [hi, this]
  · simp [hi]

theorem deploy_byte (i : Nat) (h : i < 8104) : deployCode.byte (32 + i) = verifierCode.byte i := by
  have l1 : deployCode.len = 8136 := rfl
  have l2 : verifierCode.len = 8104 := rfl
  unfold Code.byte
  rw [l1, l2, if_pos (by omega), if_pos h, deploy_tail, show 8136 - 1 - (32 + i) = 8104 - 1 - i by omega]
  exact (byte_of_tail deployCode.bytes (8 * 8104) (8 * (8104 - 1 - i)) (by omega)).symm

theorem deploy_decode :
    decode deployCode 0 = .push 0x80 1 ∧ decode deployCode 2 = .push 0x40 1 ∧ decode deployCode 4 = .mstore ∧
    decode deployCode 5 = .callvalue ∧ decode deployCode 6 = .dup 0 ∧ decode deployCode 7 = .iszero ∧
    decode deployCode 8 = .push 0x10 2 ∧ decode deployCode 11 = .jumpi ∧ decode deployCode 12 = .push 0 1 ∧
    decode deployCode 14 = .dup 0 ∧ decode deployCode 15 = .revert ∧ decode deployCode 16 = .jumpdest ∧
    decode deployCode 17 = .pop ∧ decode deployCode 18 = .push 8104 2 ∧ decode deployCode 21 = .dup 0 ∧
    decode deployCode 22 = .push 32 2 ∧ decode deployCode 25 = .push 0 1 ∧ decode deployCode 27 = .codecopy ∧
    decode deployCode 28 = .push 0 1 ∧ decode deployCode 30 = .ret := by decide +kernel

theorem runFrom_next (c : Code) (jd : Nat) (w : World) (n : Nat) (s t : State) (h : step c jd w s = .next t) :
    runFrom c jd w (n + 1) s = runFrom c jd w n t := by
  unfold runFrom
  rw [h]
  cases n <;> rfl

theorem runFrom_done (c : Code) (jd : Nat) (w : World) (n : Nat) (s : State) (o : Outcome) (h : step c jd w s = .done o) :
    runFrom c jd w (n + 1) s = some o := by
  unfold runFrom
  rw [h]

theorem C150_deploy (w : World) (hv : w.value < 2 ^ 256) (fuel : Nat) (hf : 20 ≤ fuel) :
    run deployCode w fuel = some (if w.value = 0 then .returned (codeBytes verifierCode) else .reverted) := by
  obtain ⟨d0, d2, d4, d5, d6, d7, d8, d11, d12, d14, d15, d16, d17, d18, d21, d22, d25, d27, d28, d30⟩ := deploy_decode
  have hval : w.value % wordMod = w.value := Nat.mod_eq_of_lt hv
  unfold run
  refine Verif.Lemmas.EvmSymbolic.runFrom_mono _ _ w _ 20 fuel start hf ?_
  generalize hj : jumpdests deployCode = jd
  have hbit : jd.testBit 16 = true := hj ▸ deploy_jump
  let m1 : Nat → Nat := writeWord (fun _ => 0) 64 128
  rw [runFrom_next _ _ w 19 start ⟨2, [0x80], fun _ => 0, 0⟩ (by unfold step start; rw [d0]),
    runFrom_next _ _ w 18 _ ⟨4, [0x40, 0x80], fun _ => 0, 0⟩ (by unfold step; rw [d2]),
    runFrom_next _ _ w 17 _ ⟨5, [], m1, 0⟩ (by unfold step; rw [d4]),
    runFrom_next _ _ w 16 _ ⟨6, [w.value], m1, 0⟩ (by unfold step; rw [d5, hval]),
    runFrom_next _ _ w 15 _ ⟨7, [w.value, w.value], m1, 0⟩ (by unfold step; rw [d6]; rfl),
    runFrom_next _ _ w 14 _ ⟨8, [ofBool (decide (w.value = 0)), w.value], m1, 0⟩ (by unfold step; rw [d7]),
    runFrom_next _ _ w 13 _ ⟨11, [16, ofBool (decide (w.value = 0)), w.value], m1, 0⟩ (by unfold step; rw [d8])]
  by_cases h0 : w.value = 0
  · rw [if_pos h0,
      runFrom_next _ _ w 12 _ ⟨16, [w.value], m1, 0⟩ (by unfold step; rw [d11, h0]; dsimp only; rw [if_neg (by decide), if_pos hbit]),
      runFrom_next _ _ w 11 _ ⟨17, [w.value], m1, 0⟩ (by unfold step; rw [d16]),
      runFrom_next _ _ w 10 _ ⟨18, [], m1, 0⟩ (by unfold step; rw [d17]),
      runFrom_next _ _ w 9 _ ⟨21, [8104], m1, 0⟩ (by unfold step; rw [d18]),
      runFrom_next _ _ w 8 _ ⟨22, [8104, 8104], m1, 0⟩ (by unfold step; rw [d21]; rfl),
      runFrom_next _ _ w 7 _ ⟨25, [32, 8104, 8104], m1, 0⟩ (by unfold step; rw [d22]),
      runFrom_next _ _ w 6 _ ⟨27, [0, 32, 8104, 8104], m1, 0⟩ (by unfold step; rw [d25]),
      runFrom_next _ _ w 5 _ ⟨28, [8104], copyTo m1 0 8104 fun i => deployCode.byte (32 + i), 0⟩ (by unfold step; rw [d27]),
      runFrom_next _ _ w 4 _ ⟨30, [0, 8104], copyTo m1 0 8104 fun i => deployCode.byte (32 + i), 0⟩ (by unfold step; rw [d28]),
      runFrom_done _ _ w 3 _ (.returned ((List.range 8104).map fun i =>
        copyTo m1 0 8104 (fun i => deployCode.byte (32 + i)) (0 + i))) (by unfold step; rw [d30])]
    refine congrArg (fun l => some (Outcome.returned l)) ?_
    show _ = (List.range 8104).map verifierCode.byte
    refine List.map_congr_left fun i hi => ?_
    have hi' := List.mem_range.1 hi
    unfold copyTo
    rw [if_pos (by omega), Nat.zero_add, Nat.sub_zero]
    exact deploy_byte i hi'
  · rw [if_neg h0,
      runFrom_next _ _ w 12 _ ⟨12, [w.value], m1, 0⟩ (by
        unfold step; rw [d11, decide_eq_false h0]; dsimp only; rw [if_pos (by decide)]),
      runFrom_next _ _ w 11 _ ⟨14, [0, w.value], m1, 0⟩ (by unfold step; rw [d12]),
      runFrom_next _ _ w 10 _ ⟨15, [0, 0, w.value], m1, 0⟩ (by unfold step; rw [d14]; rfl),
      runFrom_done _ _ w 9 _ .reverted (by unfold step; rw [d15])]

/-! ## The call -/

theorem word32_length (v : Nat) : (word32 v).length = 32 := by simp [word32]

theorem setBytes_word32 (v : Nat) (h : v < 2 ^ 256) : setBytes (word32 v) = v := by
  have h1 : setBytes (word32 v) = wordAt (byteOf v) 0 := by
    unfold setBytes word32 wordAt
    rw [List.foldl_map]
    congr 1
    funext acc i
    rw [Nat.zero_add, UInt8.toNat_ofNat']
    congr 1
    unfold byteOf
    exact Nat.mod_eq_of_lt (Nat.mod_lt _ (by decide))
  rw [h1]
  exact Verif.Lemmas.EvmSymbolic.wordAt_eq _ _ _ (fun i _ => by rw [Nat.zero_add]) h

theorem drop_words (f : Int → Bytes) (hf : ∀ v, (f v).length = 32) : ∀ (l : List Int) (i : Nat) (v : Int),
    l[i]? = some v → ((l.flatMap f).drop (32 * i)).take 32 = f v
  | [], _, _, h => by simp at h
  | x :: l, 0, v, h => by
    simp only [List.getElem?_cons_zero, Option.some.injEq] at h
    subst h
    rw [Nat.mul_zero, List.drop_zero, List.flatMap_cons, List.take_append_of_le_length (by rw [hf])]
    exact List.take_of_length_le (by rw [hf])
  | x :: l, i + 1, v, h => by
    rw [List.getElem?_cons_succ] at h
    rw [List.flatMap_cons, show 32 * (i + 1) = (f x).length + 32 * i by rw [hf]; omega, List.drop_append]
    have : List.drop ((f x).length + 32 * i) (f x) = [] := List.drop_eq_nil_of_le (by omega)
    rw [this, List.nil_append, Nat.add_sub_cancel_left]
    exact drop_words f hf l i v h

theorem asWord_lt (v : Int) : asWord v < 2 ^ 256 := by
  unfold asWord
  have h1 := Int.emod_nonneg v (show (2 ^ 256 : Int) ≠ 0 by decide +kernel)
  have h2 := Int.emod_lt_of_pos v (show (0 : Int) < 2 ^ 256 by decide +kernel)
  have h3 : ((v % (2 ^ 256 : Int)).toNat : Int) < ((2 ^ 256 : Nat) : Int) := by
    rw [Int.toNat_of_nonneg h1]
    push_cast
    exact h2
  exact Int.ofNat_lt.1 h3

theorem argWord_callData (l : List Int) (i : Nat) (v : Int) (h : l[i]? = some v) :
    argWord ([0xc8, 0x94, 0xe7, 0x57] ++ l.flatMap fun v => word32 (uint256FromBig v)) i = asWord v := by
  unfold argWord
  have e : ([0xc8, 0x94, 0xe7, 0x57] ++ l.flatMap fun v => word32 (uint256FromBig v)).drop (4 + 32 * i) =
      (l.flatMap fun v => word32 (uint256FromBig v)).drop (32 * i) := by
    rw [← List.drop_drop]
    rfl
  rw [e, drop_words _ (fun v => word32_length _) l i v h]
  exact setBytes_word32 _ (asWord_lt v)

/-- The four bytes that name the function, zkmultiswap/gnark-tests/solidity/solidity_groth16.go:378. -/
theorem C150_selector : (Keccak.keccak256 signature).take 4 = [0xc8, 0x94, 0xe7, 0x57] := by decide +kernel

theorem callData_eq (a b0 b1 c : Int × Int) (input : Fin 7 → Int) : callData a b0 b1 c input = [0xc8, 0x94, 0xe7, 0x57] ++
    ([a.1, a.2, b0.1, b0.2, b1.1, b1.2, c.1, c.2] ++ (List.finRange 7).map input).flatMap
      fun v => word32 (uint256FromBig v) := by
  unfold callData
  rw [C150_selector]

theorem callData_length (a b0 b1 c : Int × Int) (input : Fin 7 → Int) : (callData a b0 b1 c input).length = 484 := by
  rw [callData_eq, List.length_append, List.length_flatMap]
  simp [word32_length, Verif.Lemmas.VerifierRuns.finRange7]

/-- A call with the data of the binding and no payment ends as the source says for the arguments modulo 2^256. -/
theorem callData_run (E : Evm) (gas : Nat → Nat) (fuel : Nat) (a b0 b1 c : Int × Int) (input : Fin 7 → Int) (hE : Words E)
    (hf : 12000 ≤ fuel) : run verifierCode ⟨0, callData a b0 b1 c input, gas, E⟩ fuel = some
      (match verifyProof E testKey (asWord a.1, asWord a.2) (asWord b0.1, asWord b0.2) (asWord b1.1, asWord b1.2)
        (asWord c.1, asWord c.2) (fun i => asWord (input i)) with
      | .ok b => .returned (answerBytes b)
      | .error m => if m ∈ ["pairing-add-failed", "pairing-mul-failed", "pairing-opcode-failed"] then .exception else .reverted) := by
  have hdata := callData_eq a b0 b1 c input
  have hlen := callData_length a b0 b1 c input
  have hcall : IsCall ⟨0, callData a b0 b1 c input, gas, E⟩ := by
    refine ⟨rfl, ?_, ?_⟩
    · show 484 ≤ (callData a b0 b1 c input).length
      rw [hlen]
    · show setBytes ((callData a b0 b1 c input).take 4) = 0xc894e757
      have : (callData a b0 b1 c input).take 4 = [0xc8, 0x94, 0xe7, 0x57] := by rw [hdata]; rfl
      rw [this]
      decide
  have hrun := (C149_bytecode ⟨0, callData a b0 b1 c input, gas, E⟩ (show 0 < 2 ^ 256 by decide +kernel)
    (by show (callData a b0 b1 c input).length < 2 ^ 255; rw [hlen]; decide +kernel) hE fuel hf).1 hcall
  rw [hrun]
  have harg := fun i v h => argWord_callData ([a.1, a.2, b0.1, b0.2, b1.1, b1.2, c.1, c.2] ++ (List.finRange 7).map input) i v h
  rw [← hdata] at harg
  have hin : (fun i : Fin 7 => argWord (callData a b0 b1 c input) (8 + i.val)) = fun i => asWord (input i) := by
    funext i
    refine harg (8 + i.val) (input i) ?_
    rw [Verif.Lemmas.VerifierRuns.finRange7]
    fin_cases i <;> rfl
  unfold sourceOutcome
  rw [hin, show argWord (callData a b0 b1 c input) 0 = asWord a.1 from harg 0 _ rfl,
    show argWord (callData a b0 b1 c input) 1 = asWord a.2 from harg 1 _ rfl,
    show argWord (callData a b0 b1 c input) 2 = asWord b0.1 from harg 2 _ rfl,
    show argWord (callData a b0 b1 c input) 3 = asWord b0.2 from harg 3 _ rfl,
    show argWord (callData a b0 b1 c input) 4 = asWord b1.1 from harg 4 _ rfl,
    show argWord (callData a b0 b1 c input) 5 = asWord b1.2 from harg 5 _ rfl,
    show argWord (callData a b0 b1 c input) 6 = asWord c.1 from harg 6 _ rfl,
    show argWord (callData a b0 b1 c input) 7 = asWord c.2 from harg 7 _ rfl]
  rfl

theorem C150_call (E : Evm) (gas : Nat → Nat) (fuel : Nat) (a b0 b1 c : Int × Int) (input : Fin 7 → Int) (hE : Words E)
    (hf : 12000 ≤ fuel) : ∃ r, bindingVerifyProof E gas fuel a b0 b1 c input = some r ∧
      ∀ b, r = .ok b ↔ verifyProof E testKey (asWord a.1, asWord a.2) (asWord b0.1, asWord b0.2) (asWord b1.1, asWord b1.2)
        (asWord c.1, asWord c.2) (fun i => asWord (input i)) = .ok b := by
  unfold bindingVerifyProof
  rw [callData_run E gas fuel a b0 b1 c input hE hf]
  generalize verifyProof E testKey (asWord a.1, asWord a.2) (asWord b0.1, asWord b0.2) (asWord b1.1, asWord b1.2)
    (asWord c.1, asWord c.2) (fun i => asWord (input i)) = r
  have hun : ∀ b, unpackBool (answerBytes b) = .ok b := by decide +kernel
  cases r with
  | ok v =>
    refine ⟨.ok v, congrArg some (hun v), fun b => Iff.rfl⟩
  | error m =>
    refine ⟨.error "execution failed", ?_, fun b => ⟨fun h => (by cases h), fun h => (by cases h)⟩⟩
    dsimp only
    split_ifs <;> rfl

/-- The bytes that `VerifyProof` takes for the answer `b`, whatever contract is at the address: a first word that is 1 for
"true" and 0 for "false", then whole words. All else is an error. -/
theorem C150_answer (l : List Nat) (b : Bool) :
    unpackBool l = .ok b ↔ ∃ rest, l = List.replicate 31 0 ++ [if b then 1 else 0] ++ rest ∧ 32 ∣ rest.length := by
  have hpre : ∀ x : Nat, (List.replicate 31 0 ++ [x]).length = 32 := fun x => by simp
  constructor
  · intro h
    unfold unpackBool at h
    split_ifs at h with h1 h2 h3
    · obtain rfl : b = false := by cases h; rfl
      refine ⟨l.drop 32, ?_, ?_⟩
      · conv_lhs => rw [← List.take_append_drop 32 l, h2]
        rfl
      · rw [List.length_drop]
        omega
    · obtain rfl : b = true := by cases h; rfl
      refine ⟨l.drop 32, ?_, ?_⟩
      · conv_lhs => rw [← List.take_append_drop 32 l, h3]
        rfl
      · rw [List.length_drop]
        omega
  · rintro ⟨rest, rfl, hr⟩
    have hl : (List.replicate 31 0 ++ [if b then 1 else 0] ++ rest).length % 32 = 0 := by
      rw [List.length_append, hpre]
      omega
    have ht : (List.replicate 31 0 ++ [if b then 1 else 0] ++ rest).take 32 = List.replicate 31 0 ++ [if b then 1 else 0] := by
      rw [List.take_append_of_le_length (by rw [hpre]), List.take_of_length_le (by rw [hpre])]
    unfold unpackBool
    rw [ht, hl]
    cases b <;> decide

/-- A word with another bit set, half a word and no answer are errors; a second word is not read. -/
example : (∀ b, unpackBool (List.replicate 31 0 ++ [2]) ≠ .ok b) ∧ (∀ b, unpackBool (List.replicate 16 0) ≠ .ok b) ∧
    (∀ b, unpackBool [] ≠ .ok b) ∧ unpackBool (List.replicate 31 0 ++ [1] ++ List.replicate 32 7) = .ok true := by
  decide

/-- **C150.** -/
theorem C150_binding : C150_statement :=
  ⟨fun w hv fuel hf => C150_deploy w hv fuel hf,
    fun E gas fuel a b0 b1 c input hE hf => C150_call E gas fuel a b0 b1 c input hE hf⟩

/-! ## What the deployed bytes decide -/

/-- C149 with EIP-196 and EIP-197: the deployed bytes answer "true" exactly to those calls of `verifyProof` whose words are
reduced inputs and encodings of points that satisfy the verification equation for the points of the key. -/
theorem C149_groth16 : ∃ alpha beta gamma delta ic, KeyPoints testKey alpha beta gamma delta ic ∧
    ∀ (T : Type) [AddCommGroup T] (e : Point →+ TwistGroup →+ T) (w : World),
      Eip Encodes2 e w.evm.ecAdd w.evm.ecMul w.evm.ecPairing →
      EnoughGas Encodes2 w.evm.ecAdd w.evm.ecMul w.evm.ecPairing →
      w.value < 2 ^ 256 → w.data.length < 2 ^ 255 → Words w.evm → ∀ fuel ≥ 12000,
      (run verifierCode w fuel = some (.returned (answerBytes true)) ↔
        IsCall w ∧ (∀ i : Fin 7, argWord w.data (8 + i.val) < r) ∧ ∃ A B C,
          Encodes (argWord w.data 0) (argWord w.data 1) A ∧
          Encodes2 (argWord w.data 2) (argWord w.data 3) (argWord w.data 4) (argWord w.data 5) B ∧
          Encodes (argWord w.data 6) (argWord w.data 7) C ∧
          Groth16 e alpha beta gamma delta ic (fun i => argWord w.data (8 + i.val)) A B C) := by
  obtain ⟨alpha, beta, gamma, delta, ic, hk, h⟩ := C70_contracts testKey (by simp)
  refine ⟨alpha, beta, gamma, delta, ic, hk, fun T _ e w hE hG hv hl hw fuel hf => ?_⟩
  obtain ⟨h1, h2⟩ := C149_bytecode w hv hl hw fuel hf
  have key := h T e w.evm hE hG (argWord w.data 0, argWord w.data 1) (argWord w.data 2, argWord w.data 3)
    (argWord w.data 4, argWord w.data 5) (argWord w.data 6, argWord w.data 7) (fun i => argWord w.data (8 + i.val))
  have hne : answerBytes false ≠ answerBytes true := by decide +kernel
  by_cases hc : IsCall w
  · rw [h1 hc]
    unfold sourceOutcome
    refine ⟨fun hr => ⟨hc, key.1 ?_⟩, fun hr => ?_⟩
    · generalize verifyProof w.evm testKey (argWord w.data 0, argWord w.data 1) (argWord w.data 2, argWord w.data 3)
        (argWord w.data 4, argWord w.data 5) (argWord w.data 6, argWord w.data 7) (fun i => argWord w.data (8 + i.val)) = v
        at hr
      cases v with
      | error m =>
        dsimp only at hr
        split_ifs at hr <;> cases hr
      | ok b =>
        cases b with
        | true => rfl
        | false =>
          simp only [Option.some.injEq, Outcome.returned.injEq] at hr
          exact absurd hr hne
    · rw [key.2 hr.2]
  · rw [h2 hc]
    exact ⟨fun h => (by cases h), fun h => absurd h.1 hc⟩

/-! ## Other keys, examples -/

/-- Contracts that always answer, with `ok` if the first coordinate of the point α is the given one. -/
def pickyEvm (x : Nat) : Evm where
  ecAdd := fun _ => some (1, 2)
  ecMul := fun _ => some (1, 2)
  ecPairing := fun l => some (if l.getD 6 0 = x then 1 else 0)

/-- A call with 15 equal words. -/
def pickyCall (E : Evm) : World := ⟨0, [0xc8, 0x94, 0xe7, 0x57] ++ List.replicate 480 1, fun _ => 0, E⟩

theorem picky_words (x : Nat) : Words (pickyEvm x) := by
  refine ⟨?_, ?_, ?_⟩
  · intro l r h
    cases h
    decide +kernel
  · intro l r h
    cases h
    decide +kernel
  · intro l r h
    simp only [pickyEvm, Option.some.injEq] at h
    subst h
    split_ifs <;> decide +kernel

theorem picky_length (E : Evm) : (pickyCall E).data.length < 2 ^ 255 ∧ IsCall (pickyCall E) := by
  have h : (pickyCall E).data.length = 484 := by
    unfold pickyCall
    rw [List.length_append, List.length_replicate]
    rfl
  refine ⟨?_, rfl, ?_, ?_⟩
  · rw [h]
    decide +kernel
  · rw [h]
  · show setBytes (([0xc8, 0x94, 0xe7, 0x57] ++ List.replicate 480 1 : Bytes).take 4) = 0xc894e757
    decide +kernel

theorem picky_run (x fuel : Nat) (hf : 12000 ≤ fuel) : run verifierCode (pickyCall (pickyEvm x)) fuel =
    some (sourceOutcome (pickyEvm x) testKey ([0xc8, 0x94, 0xe7, 0x57] ++ List.replicate 480 1)) :=
  (C149_bytecode (pickyCall (pickyEvm x)) (show 0 < 2 ^ 256 by decide +kernel) (picky_length _).1
    (picky_words x) fuel hf).1 (picky_length _).2

/-- C149: the bytes do not belong to the contracts in the root of the repository. -/
theorem C149_other_keys : ∀ vk ∈ [notusKey, contractKey], ∃ w : World, w.value < 2 ^ 256 ∧ w.data.length < 2 ^ 255 ∧
    Words w.evm ∧ IsCall w ∧ ∀ fuel ≥ 12000, run verifierCode w fuel ≠ some (sourceOutcome w.evm vk w.data) := by
  intro vk hvk
  have hne : ∀ vk ∈ [notusKey, contractKey],
      sourceOutcome (pickyEvm testKey.alfa1.x) testKey ([0xc8, 0x94, 0xe7, 0x57] ++ List.replicate 480 1) ≠
      sourceOutcome (pickyEvm testKey.alfa1.x) vk ([0xc8, 0x94, 0xe7, 0x57] ++ List.replicate 480 1) := by decide +kernel
  refine ⟨pickyCall (pickyEvm testKey.alfa1.x), show 0 < 2 ^ 256 by decide +kernel, (picky_length _).1,
    picky_words _, (picky_length _).2, fun fuel hf h => ?_⟩
  rw [picky_run _ fuel hf, Option.some.injEq] at h
  exact hne vk hvk h

/-- A call that is answered with "true". -/
example : run verifierCode (pickyCall (pickyEvm testKey.alfa1.x)) 12000 = some (.returned (answerBytes true)) := by
  rw [picky_run _ _ (Nat.le_refl _)]
  exact congrArg some (by decide +kernel)

/-- A call that is answered with "false". -/
example : run verifierCode (pickyCall (pickyEvm 5)) 12000 = some (.returned (answerBytes false)) := by
  rw [picky_run _ _ (Nat.le_refl _)]
  exact congrArg some (by decide +kernel)

/-- The binding: inputs are taken modulo 2^256, and an input that is too large gives an error. -/
example : ∃ r, bindingVerifyProof (pickyEvm testKey.alfa1.x) (fun _ => 7) 12000 (1, 2) (1, 2) (1, 2) (1, 2 - 2 ^ 256) (fun _ => 3) =
    some r ∧ r = .ok true := by
  obtain ⟨r, h1, h2⟩ := C150_call (pickyEvm testKey.alfa1.x) (fun _ => 7) 12000 (1, 2) (1, 2) (1, 2) (1, 2 - 2 ^ 256)
    (fun _ => 3) (picky_words _) (Nat.le_refl _)
  exact ⟨r, h1, (h2 true).2 (by decide +kernel)⟩

example : ∃ r, bindingVerifyProof (pickyEvm testKey.alfa1.x) (fun _ => 7) 12000 (1, 2) (1, 2) (1, 2) (1, 2) (fun _ => -1) =
    some r ∧ ∀ b, r ≠ .ok b := by
  obtain ⟨r, h1, h2⟩ := C150_call (pickyEvm testKey.alfa1.x) (fun _ => 7) 12000 (1, 2) (1, 2) (1, 2) (1, 2)
    (fun _ => -1) (picky_words _) (Nat.le_refl _)
  have hno : ∀ b, verifyProof (pickyEvm testKey.alfa1.x) testKey (asWord 1, asWord 2) (asWord 1, asWord 2) (asWord 1, asWord 2)
      (asWord 1, asWord 2) (fun _ => asWord (-1)) ≠ .ok b := by decide +kernel
  exact ⟨r, h1, fun b hb => hno b ((h2 b).1 hb)⟩

/-- A deployment that pays is refused. -/
example : run deployCode ⟨1, [], fun _ => 0, pickyEvm 0⟩ 20 = some .reverted :=
  C150_deploy ⟨1, [], fun _ => 0, pickyEvm 0⟩ (show 1 < 2 ^ 256 by decide +kernel) 20 (Nat.le_refl _)

end Verif.Props
