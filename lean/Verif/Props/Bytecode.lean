import Verif.Lemmas.VerifierRuns

/-!
# C149: the bytecode in the Go binding does what the source of the contract says

`verifierCode` (zkmultiswap/gnark-tests/solidity/solidity_groth16.go:208) against `Solidity.verifyProof` with the key of
zkmultiswap/gnark-tests/solidity/Notuscontract_g16.sol. The compiler is not trusted: the theorem is about the bytes.
-/

namespace Verif.Props

open Verif.Go Verif.Model Verif.Model.EvmMachine Verif.Model.Solidity Verif.Lemmas.EvmSymbolic Verif.Lemmas.VerifierTree
open Verif.Lemmas.VerifierRuns

/-! ## Specification -/

/-- Argument `i` of a call: 32 bytes, big-endian, behind the four bytes that name the function. -/
def argWord (data : Bytes) (i : Nat) : Nat := setBytes ((data.drop (4 + 32 * i)).take 32)

/-- `abi.encode` of a truth value: 31 zeros and 0 or 1. -/
def answerBytes (b : Bool) : List Nat := List.replicate 31 0 ++ [if b then 1 else 0]

/-- What a call should do according to the source for the key `vk`. A failed call of a precompiled contract ends with
`invalid()`, any other refusal is a `require`. -/
def sourceOutcome (E : Evm) (vk : VerifyingKey) (data : Bytes) : Outcome :=
  match verifyProof E vk (argWord data 0, argWord data 1) (argWord data 2, argWord data 3) (argWord data 4, argWord data 5)
    (argWord data 6, argWord data 7) (fun i => argWord data (8 + i.val)) with
  | .ok b => .returned (answerBytes b)
  | .error m =>
    if m ∈ ["pairing-add-failed", "pairing-mul-failed", "pairing-opcode-failed"] then .exception else .reverted

/-- A call is for `verifyProof` if no value is sent with it and the data are the four bytes of the name (`0xc894e757`,
zkmultiswap/gnark-tests/solidity/solidity_groth16.go:378) followed by at least 15 words. -/
def IsCall (w : World) : Prop := w.value = 0 ∧ 4 + 15 * 32 ≤ w.data.length ∧ setBytes (w.data.take 4) = 0xc894e757

/-- **C149.** For all data of less than 2^255 bytes, every value, every behaviour of the precompiled contracts and every
number read by `GAS`: a call of the contract ends as the source says, and calls of anything else are reverted. -/
def C149_statement : Prop := ∀ w : World, w.value < 2 ^ 256 → w.data.length < 2 ^ 255 → Words w.evm → ∀ fuel ≥ 12000,
  (IsCall w → run verifierCode w fuel = some (sourceOutcome w.evm testKey w.data)) ∧
  (¬ IsCall w → run verifierCode w fuel = some .reverted)

/-! ## Proof -/

theorem wordAt_data (w : World) (a : Nat) (h : a + 32 ≤ w.data.length) :
    wordAt w.dataByte a = setBytes ((w.data.drop a).take 32) := by
  have key : ∀ k, a + k ≤ w.data.length → (List.range k).foldl (fun acc i => acc * 256 + w.dataByte (a + i)) 0 =
      setBytes ((w.data.drop a).take k) := by
    intro k
    induction k with
    | zero => intro _; rfl
    | succ k ih =>
      intro hk
      have hlt : a + k < w.data.length := by omega
      rw [wordAt_step, ih (by omega), List.take_add_one, List.getElem?_drop, List.getElem?_eq_getElem hlt]
      simp only [setBytes, Option.toList_some, List.foldl_append, List.foldl_cons, List.foldl_nil]
      unfold World.dataByte
      rw [List.getD_eq_getElem?_getD, List.getElem?_eq_getElem hlt, Option.getD_some]
  exact key 32 h

theorem selector_data (w : World) (h : 4 ≤ w.data.length) : wordAt w.dataByte 0 >>> 224 = setBytes (w.data.take 4) := by
  have key : ∀ m k, (List.range (k + m)).foldl (fun acc i => acc * 256 + w.dataByte (0 + i)) 0 / 256 ^ m =
      (List.range k).foldl (fun acc i => acc * 256 + w.dataByte (0 + i)) 0 := by
    intro m
    induction m with
    | zero => intro k; simp
    | succ m ih =>
      intro k
      have hlt := dataByte_lt w (0 + (k + m))
      rw [← Nat.add_assoc, wordAt_step, Nat.pow_succ, Nat.mul_comm (256 ^ m) 256, ← Nat.div_div_eq_div_mul, ← ih k]
      refine congrArg (· / 256 ^ m) ?_
      omega
  have h4 : (List.range 4).foldl (fun acc i => acc * 256 + w.dataByte (0 + i)) 0 = setBytes (w.data.take 4) := by
    match hd : w.data, h with
    | x0 :: x1 :: x2 :: x3 :: l, _ =>
      simp [List.range_succ, World.dataByte, hd, setBytes]
  have h28 : (2 : Nat) ^ 224 = 256 ^ 28 := by decide +kernel
  rw [Nat.shiftRight_eq_div_pow, h28, ← h4]
  exact key 28 4

theorem eval_dataEnd (w : World) (rets : List (List Nat)) (h4 : 4 ≤ w.data.length) (h : w.data.length < 2 ^ 255) :
    evalEx w rets dataEnd = w.data.length := by
  show (4 + (w.data.length % wordMod + (wordMod - 4 % wordMod)) % wordMod) % wordMod = _
  have hW : w.data.length < wordMod := lt_trans h (Nat.pow_lt_pow_right (by decide) (by decide))
  rw [Nat.mod_eq_of_lt hW, sub_word _ _ _ hW h4, Nat.add_sub_cancel' h4, Nat.mod_eq_of_lt hW]

theorem slt_small (a b : Nat) (ha : a < 2 ^ 255) (hb : b < 2 ^ 255) : Bin.slt.apply a b = ofBool (decide (a < b)) := by
  show ofBool (if isNeg a = isNeg b then decide (a < b) else isNeg a) = _
  have h1 : isNeg a = false := decide_eq_false (not_le.2 ha)
  have h2 : isNeg b = false := decide_eq_false (not_le.2 hb)
  rw [h1, h2, if_pos rfl]

theorem fits_pass (w : World) (rets : List (List Nat)) (a n : Nat) (hn : 32 ≤ n) (h : a + n ≤ w.data.length)
    (h4 : 4 ≤ w.data.length) (hw : w.data.length < 2 ^ 255) : ∀ c ∈ fits a n, evalEx w rets c ≠ 0 := by
  intro c hc
  simp only [fits, List.mem_cons, List.not_mem_nil, or_false] at hc
  rcases hc with rfl | rfl
  · show Bin.slt.apply (a + 31) (evalEx w rets dataEnd) ≠ 0
    rw [eval_dataEnd w rets h4 hw, slt_small _ _ (lt_of_le_of_lt (by omega : a + 31 ≤ w.data.length) hw) hw,
      decide_eq_true (by omega : a + 31 < w.data.length)]
    decide
  · show ofBool (decide (ofBool (decide (evalEx w rets dataEnd < a + n)) = 0)) ≠ 0
    rw [eval_dataEnd w rets h4 hw, decide_eq_false (not_lt.2 h)]
    decide

theorem same_pass (w : World) (rets : List (List Nat)) (a : Nat) : evalEx w rets (same a) ≠ 0 := by
  show ofBool (decide (wordAt w.dataByte a = wordAt w.dataByte a)) ≠ 0
  rw [decide_eq_true rfl]
  decide

theorem need_pass (w : World) (rets : List (List Nat)) (c : Ex) (t : Tree) (h : evalEx w rets c ≠ 0) :
    evalTree w rets (need c t) = evalTree w rets t := by rw [eval_need, if_neg h]

/-- The bytecode and the source agree on what the arguments are. -/
theorem decoded_eval (w : World) (hE : Words w.evm) (h : 4 + 15 * 32 ≤ w.data.length) (hw : w.data.length < 2 ^ 255)
    (vk : VerifyingKey) : evalTree w [] (needs checks (body vk)) = some (sourceOutcome w.evm vk w.data) := by
  have h4 : 4 ≤ w.data.length := by omega
  have first : evalEx w [] (.isz (.bin .slt (.bin .sub dataEnd (.const 4)) (.const 480))) ≠ 0 := by
    show ofBool (decide (Bin.slt.apply (Bin.sub.apply (evalEx w [] dataEnd) 4) 480 = 0)) ≠ 0
    have hW : w.data.length < wordMod := lt_trans hw (Nat.pow_lt_pow_right (by decide) (by decide))
    have hs : Bin.sub.apply w.data.length 4 = w.data.length - 4 := sub_word _ _ _ hW h4
    rw [eval_dataEnd w [] h4 hw, hs, slt_small _ _ (lt_of_le_of_lt (Nat.sub_le _ _) hw) (by decide +kernel),
      decide_eq_false (by omega : ¬ w.data.length - 4 < 480)]
    decide
  have hf := fun a n hn hl => fits_pass w [] a n hn hl h4 hw
  have hs1 : ∀ l : List Nat, ∀ c ∈ l.map same, evalEx w [] c ≠ 0 := by
    intro l c hc
    obtain ⟨a, _, rfl⟩ := List.mem_map.1 hc
    exact same_pass w [] a
  unfold checks
  simp only [needs_append]
  rw [needs_pass w [] _ _ (by intro c hc; rw [List.mem_singleton.1 hc]; exact first),
    needs_pass w [] _ _ (hf 4 64 (by omega) (by omega)), needs_pass w [] _ [same 4, same 36] (hs1 [4, 36]),
    needs_pass w [] _ _ (hf 68 128 (by omega) (by omega)), needs_pass w [] _ _ (hf 68 64 (by omega) (by omega)),
    needs_pass w [] _ [same 68, same 100] (hs1 [68, 100]), needs_pass w [] _ _ (hf 132 64 (by omega) (by omega)),
    needs_pass w [] _ [same 132, same 164] (hs1 [132, 164]), needs_pass w [] _ _ (hf 196 64 (by omega) (by omega)),
    needs_pass w [] _ [same 196, same 228] (hs1 [196, 228]), needs_pass w [] _ _ (hf 260 224 (by omega) (by omega)),
    needs_pass w [] _ [same 260, same 292, same 324, same 356, same 388, same 420, same 452] (hs1 [260, 292, 324, 356, 388, 420, 452])]
  have ha : ∀ i < 15, argWord w.data i = wordAt w.dataByte (4 + 32 * i) := fun i hi =>
    (wordAt_data w (4 + 32 * i) (by omega)).symm
  have hin : (fun i : Fin 7 => argWord w.data (8 + i.val)) = inputs w := by
    funext i
    rw [ha (8 + i.val) (by omega)]
    show _ = wordAt w.dataByte (260 + 32 * i.val)
    rw [show 4 + 32 * (8 + i.val) = 260 + 32 * i.val by omega]
  have hans : ∀ b, boolOutcome b = .returned (answerBytes b) := by decide +kernel
  have hsrc : ∀ r : Res Bool, (match r with
      | .ok b => .returned (answerBytes b)
      | .error m =>
        if m ∈ ["pairing-add-failed", "pairing-mul-failed", "pairing-opcode-failed"] then Outcome.exception
        else .reverted) = outcome boolOutcome r := by
    intro r
    cases r with
    | ok b => exact (hans b).symm
    | error m =>
      show _ = refusal m
      unfold refusal
      simp
  unfold sourceOutcome
  rw [hsrc, hin, ha 0 (by omega), ha 1 (by omega), ha 2 (by omega), ha 3 (by omega), ha 4 (by omega), ha 5 (by omega),
    ha 6 (by omega), ha 7 (by omega)]
  unfold verifyProof
  refine require_eval w [] 4 primeQ _ (by decide) _ _ _ ?_
  refine require_eval w [] 36 primeQ _ (by decide) _ _ _ ?_
  refine require_eval w [] 68 primeQ _ (by decide) _ _ _ ?_
  refine require_eval w [] 132 primeQ _ (by decide) _ _ _ ?_
  refine require_eval w [] 100 primeQ _ (by decide) _ _ _ ?_
  refine require_eval w [] 164 primeQ _ (by decide) _ _ _ ?_
  refine require_eval w [] 196 primeQ _ (by decide) _ _ _ ?_
  refine require_eval w [] 228 primeQ _ (by decide) _ _ _ ?_
  exact body_eval w hE vk

theorem whole_eval (w : World) (hv : w.value < 2 ^ 256) (hw : w.data.length < 2 ^ 255) (hE : Words w.evm)
    (vk : VerifyingKey) :
    (IsCall w → evalTree w [] (wholeTree vk) = some (sourceOutcome w.evm vk w.data)) ∧
    (¬ IsCall w → evalTree w [] (wholeTree vk) = some .reverted) := by
  have hW : w.data.length < wordMod := lt_trans hw (Nat.pow_lt_pow_right (by decide) (by decide))
  have e1 : evalEx w [] (.isz .value) = 0 ↔ w.value ≠ 0 := by
    show ofBool (decide (w.value % wordMod = 0)) = 0 ↔ _
    rw [Nat.mod_eq_of_lt (show w.value < wordMod from hv), ofBool_eq_zero, decide_eq_false_iff_not]
  have e2 : evalEx w [] (.bin .lt .size (.const 4)) = 0 ↔ 4 ≤ w.data.length := by
    show ofBool (decide (w.data.length % wordMod < 4)) = 0 ↔ _
    rw [Nat.mod_eq_of_lt hW, ofBool_eq_zero, decide_eq_false_iff_not, not_lt]
  have e3 : 4 ≤ w.data.length → (evalEx w [] (.bin .eq (.const 0xc894e757) (.bin .shr (.const 224) (.cd 0))) = 0 ↔
      setBytes (w.data.take 4) ≠ 0xc894e757) := by
    intro h4
    show ofBool (decide (0xc894e757 = wordAt w.dataByte 0 >>> 224)) = 0 ↔ _
    rw [selector_data w h4, ofBool_eq_zero, decide_eq_false_iff_not]
    exact not_congr eq_comm
  unfold wholeTree
  refine ⟨fun h => ?_, fun h => ?_⟩
  · obtain ⟨h1, h2, h3⟩ := h
    have h4 : 4 ≤ w.data.length := by omega
    rw [need_pass w [] _ _ (fun h => e1.1 h h1), evalTree, if_pos (e2.2 h4), need_pass w [] _ _ (fun h => (e3 h4).1 h h3)]
    exact decoded_eval w hE h2 hw vk
  · rw [eval_need]
    by_cases h1 : w.value = 0
    · rw [if_neg (fun h => e1.1 h h1), evalTree]
      by_cases h4 : 4 ≤ w.data.length
      · rw [if_pos (e2.2 h4), eval_need]
        by_cases h3 : setBytes (w.data.take 4) = 0xc894e757
        · rw [if_neg (fun h => (e3 h4).1 h h3)]
          have hl : w.data.length < 4 + 15 * 32 := by
            by_contra hc
            exact h ⟨h1, not_lt.1 hc, h3⟩
          unfold checks
          simp only [needs_append]
          show evalTree w [] (need _ _) = _
          rw [eval_need, if_pos]
          show ofBool (decide (Bin.slt.apply (Bin.sub.apply (evalEx w [] dataEnd) 4) 480 = 0)) = 0
          have hs : Bin.sub.apply w.data.length 4 = w.data.length - 4 := sub_word _ _ _ hW h4
          rw [eval_dataEnd w [] h4 hw, hs, slt_small _ _ (lt_of_le_of_lt (Nat.sub_le _ _) hw) (by decide +kernel),
            decide_eq_true (by omega : w.data.length - 4 < 480)]
          decide
        · rw [if_pos ((e3 h4).2 h3)]
      · rw [if_neg (fun h => h4 (e2.1 h))]
        rfl
    · rw [if_pos (e1.2 h1)]

/-- **C149.** -/
theorem C149_bytecode : C149_statement := by
  intro w hv hw hE fuel hf
  have hW : w.data.length < wordMod := lt_trans hw (Nat.pow_lt_pow_right (by decide) (by decide))
  have hrun : ∀ o, evalTree w [] (wholeTree testKey) = some o → run verifierCode w fuel = some o := by
    intro o ho
    unfold run
    rw [jumpTargets_eq]
    refine runFrom_mono _ _ w o 12000 fuel start hf ?_
    refine runSym_sound verifierCode jumpTargets w hW o 12000 [] _ start (start_rel w) ?_
    rw [tree_eq]
    exact ho
  obtain ⟨h1, h2⟩ := whole_eval w hv hw hE testKey
  exact ⟨fun h => hrun _ (h1 h), fun h => hrun _ (h2 h)⟩

end Verif.Props
