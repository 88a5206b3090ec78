import Verif.Lemmas.VerifierGas
import Verif.Props.Deploy

/-!
# C156: gas cannot change an answer of the contract, and an answer always costs the same

`runGas` (the machine with gas and with the limit of the stack) on `verifierCode` and `deployCode`, the bytes of
zkmultiswap/gnark-tests/solidity/solidity_groth16.go:208.
-/

namespace Verif.Props

open Verif.Go Verif.Model Verif.Model.EvmMachine Verif.Model.EvmGas Verif.Model.Solidity Verif.Lemmas.EvmSymbolic
open Verif.Lemmas.EvmGas Verif.Lemmas.VerifierGas Verif.Lemmas.VerifierTree Verif.Lemmas.VerifierRuns

/-! ## Specification -/

/-- What an answer costs; `x`, `y` are the coordinates of the point A of the proof. -/
def answerGas (x y : Nat) : Nat := if x ≠ 0 then 262130 else if y ≠ 0 then 262150 else 261773

/-- What a call must bring along. -/
def callGas (x y : Nat) : Nat := if x ≠ 0 then 264636 else if y ≠ 0 then 264656 else 264279

/-- **C156.** A call of `verifyProof` ends as the source says or, for lack of gas, with an exception. It ends as the source says
if it has the gas `callGas`; with less there is no answer. An answer costs `answerGas`. Other calls are reverted or run out
of gas. -/
def C156_statement : Prop := ∀ w : World, w.value < 2 ^ 256 → w.data.length < 2 ^ 255 → Words w.evm → ∀ g < 2 ^ 256, ∀ fuel ≥ 12000,
  ∃ o left, runGas verifierCode w g fuel = some (o, left) ∧
    (IsCall w →
      (o = sourceOutcome w.evm testKey w.data ∨ o = .exception) ∧
      (callGas (argWord w.data 0) (argWord w.data 1) ≤ g → o = sourceOutcome w.evm testKey w.data) ∧
      ∀ bytes, o = .returned bytes → callGas (argWord w.data 0) (argWord w.data 1) ≤ g ∧
        left + answerGas (argWord w.data 0) (argWord w.data 1) = g) ∧
    (¬ IsCall w → (o = .reverted ∨ o = .exception) ∧ (264656 ≤ g → o = .reverted))

/-! ## Proof -/

theorem known_isNot0 (w : World) (rets : List (List Nat)) (a : Nat) :
    evalEx w rets (isNot0 a) ≠ 0 ↔ wordAt w.dataByte a ≠ 0 := not_congr (eval_isNot0 w rets a)

theorem gas_ends (w : World) (hw : w.data.length < 2 ^ 255) (g : Nat) (hg : g < 2 ^ 256) (o : Outcome)
    (ho : ∀ ρ, evalTree ⟨w.value, w.data, ρ, w.evm⟩ [] (wholeTree testKey) = some o) :
    Ends g o (callGas (wordAt w.dataByte 4) (wordAt w.dataByte 36),
      [(answerGas (wordAt w.dataByte 4) (wordAt w.dataByte 36), callGas (wordAt w.dataByte 4) (wordAt w.dataByte 36))])
      (runGasFrom verifierCode jumpTargets w 12000 ⟨start, g, 0⟩) := by
  have hW : w.data.length < wordMod := lt_trans hw (Nat.pow_lt_pow_right (by decide) (by decide))
  have main : ∀ known x, gasSym verifierCode jumpTargets known 12000 ⟨0, [], [], 0, 0⟩ 0 0 [] = some x →
      (∀ e b, known e = some b → ∀ ρ rets, (evalEx ⟨w.value, w.data, ρ, w.evm⟩ rets e ≠ 0 ↔ b = true)) →
      Ends g o x (runGasFrom verifierCode jumpTargets w 12000 ⟨start, g, 0⟩) := by
    intro known x hx hk
    refine gasSym_sound verifierCode jumpTargets known w hW (readings verifierCode jumpTargets w 12000 ⟨start, g, 0⟩) g hg o
      (fun e b h rets => hk e b h _ rets) 12000 [] _ ⟨start, g, 0⟩ 0 [] x (start_rel _) rfl rfl
      (fun k r h => ?_) (fun _ _ => rfl) hx ?_
    · rw [List.getElem?_nil] at h
      cases h
    · rw [tree_eq]
      exact ho _
  have h4 : ∀ ρ rets, evalEx ⟨w.value, w.data, ρ, w.evm⟩ rets (isNot0 4) ≠ 0 ↔ wordAt w.dataByte 4 ≠ 0 :=
    fun ρ rets => known_isNot0 ⟨w.value, w.data, ρ, w.evm⟩ rets 4
  have h36 : ∀ ρ rets, evalEx ⟨w.value, w.data, ρ, w.evm⟩ rets (isNot0 36) ≠ 0 ↔ wordAt w.dataByte 36 ≠ 0 :=
    fun ρ rets => known_isNot0 ⟨w.value, w.data, ρ, w.evm⟩ rets 36
  generalize wordAt w.dataByte 4 = x at h4 ⊢
  generalize wordAt w.dataByte 36 = y at h36 ⊢
  unfold callGas answerGas
  by_cases hx : x ≠ 0
  · rw [if_pos hx, if_pos hx]
    refine main knownX _ gas_x fun e b h ρ rets => ?_
    unfold knownX at h
    split_ifs at h with he
    cases h
    rw [he, h4]
    exact iff_of_true hx rfl
  · rw [if_neg hx, if_neg hx]
    by_cases hy : y ≠ 0
    · rw [if_pos hy, if_pos hy]
      refine main knownY _ gas_y fun e b h ρ rets => ?_
      unfold knownY at h
      split_ifs at h with he he'
      · cases h
        rw [he, h4]
        exact iff_of_false hx (by decide)
      · cases h
        rw [he', h36]
        exact iff_of_true hy rfl
    · rw [if_neg hy, if_neg hy]
      refine main known0 _ gas_0 fun e b h ρ rets => ?_
      unfold known0 at h
      split_ifs at h with he he'
      · cases h
        rw [he, h4]
        exact iff_of_false hx (by decide)
      · cases h
        rw [he', h36]
        exact iff_of_false hy (by decide)

theorem callGas_le (x y : Nat) : callGas x y ≤ 264656 := by
  unfold callGas
  split_ifs <;> decide

/-- **C156.** -/
theorem C156_gas : C156_statement := by
  intro w hv hw hE g hg fuel hf
  have key : ∀ o, (∀ ρ, evalTree ⟨w.value, w.data, ρ, w.evm⟩ [] (wholeTree testKey) = some o) → _ := gas_ends w hw g hg
  have hrun : ∀ r, runGasFrom verifierCode jumpTargets w 12000 ⟨start, g, 0⟩ = some r →
      runGas verifierCode w g fuel = some r := by
    intro r hr
    unfold runGas
    rw [jumpTargets_eq]
    exact runGas_mono _ _ w r 12000 fuel _ hf hr
  by_cases hc : IsCall w
  · obtain ⟨o, left, e, h1, h2, h3⟩ := key (sourceOutcome w.evm testKey w.data) fun ρ =>
      (whole_eval ⟨w.value, w.data, ρ, w.evm⟩ hv hw hE testKey).1 hc
    have hlen := hc.2.1
    have a0 : argWord w.data 0 = wordAt w.dataByte 4 := (wordAt_data w 4 (by omega)).symm
    have a1 : argWord w.data 1 = wordAt w.dataByte 36 := (wordAt_data w 36 (by omega)).symm
    refine ⟨o, left, hrun _ e, fun _ => ⟨h1, ?_, ?_⟩, fun h => absurd hc h⟩
    · rw [a0, a1]
      exact h2
    · intro bytes hb
      obtain ⟨z, hz, hz1, hz2⟩ := h3 bytes hb
      rw [List.mem_singleton] at hz
      subst hz
      rw [a0, a1]
      exact ⟨hz2, hz1⟩
  · obtain ⟨o, left, e, h1, h2, h3⟩ := key .reverted fun ρ => (whole_eval ⟨w.value, w.data, ρ, w.evm⟩ hv hw hE testKey).2 hc
    exact ⟨o, left, hrun _ e, fun h => absurd h hc, fun _ => ⟨h1, fun h => h2 (Nat.le_trans (callGas_le _ _) h)⟩⟩

theorem exception_left (c : Code) (jd : Nat) (w : World) (left : Nat) : ∀ fuel s,
    runGasFrom c jd w fuel s = some (.exception, left) → left = 0 := by
  intro fuel
  induction fuel with
  | zero =>
    intro s h
    cases h
  | succ fuel ih =>
    intro s h
    unfold runGasFrom at h
    split at h
    · exact ih _ h
    · next o l hs =>
      cases h
      unfold gasStep at hs
      simp only at hs
      split_ifs at hs with h1
      · cases hs
        rfl
      · split at hs
        · split_ifs at hs
          cases hs
          rfl
        · cases hs
          rfl

/-- A call with a point that is not on the curve, or with another input that a precompiled contract refuses, takes all gas of the
caller, however much it is. -/
theorem C156_refused_takes_all (w : World) (hv : w.value < 2 ^ 256) (hw : w.data.length < 2 ^ 255) (hE : Words w.evm) (g : Nat)
    (hg : g < 2 ^ 256) (fuel : Nat) (hf : 12000 ≤ fuel) (hc : IsCall w) (hs : sourceOutcome w.evm testKey w.data = .exception) :
    runGas verifierCode w g fuel = some (.exception, 0) := by
  obtain ⟨o, left, e, h, _⟩ := C156_gas w hv hw hE g hg fuel hf
  have ho : o = .exception := by
    rcases (h hc).1 with h | h
    · exact h.trans hs
    · exact h
  subst ho
  rw [e, exception_left _ _ w left fuel _ e]

/-- Two calls that are answered, with points A whose first coordinates are not zero, cost the same, whatever the proofs, the
public inputs and the answers are: "the testSetSize should not affect the gas cost"
(zkmultiswap/gnark-tests/solidity/solidity_groth16_test.go:29). -/
theorem C156_same_cost (w w' : World) (g g' left left' : Nat) (b b' : List Nat) (hv : w.value < 2 ^ 256)
    (hv' : w'.value < 2 ^ 256) (hw : w.data.length < 2 ^ 255) (hw' : w'.data.length < 2 ^ 255) (hE : Words w.evm)
    (hE' : Words w'.evm) (hg : g < 2 ^ 256) (hg' : g' < 2 ^ 256) (fuel : Nat) (hf : 12000 ≤ fuel)
    (hx : argWord w.data 0 ≠ 0) (hx' : argWord w'.data 0 ≠ 0)
    (h : runGas verifierCode w g fuel = some (.returned b, left))
    (h' : runGas verifierCode w' g' fuel = some (.returned b', left')) : g - left = g' - left' := by
  have one : ∀ (w : World) (g left : Nat) (b : List Nat), w.value < 2 ^ 256 → w.data.length < 2 ^ 255 → Words w.evm →
      g < 2 ^ 256 → argWord w.data 0 ≠ 0 → runGas verifierCode w g fuel = some (.returned b, left) → g - left = 262130 := by
    intro w g left b hv hw hE hg hx h
    obtain ⟨o, l, e, h1, h2⟩ := C156_gas w hv hw hE g hg fuel hf
    rw [h] at e
    cases e
    by_cases hc : IsCall w
    · have h3 := ((h1 hc).2.2 b rfl).2
      unfold answerGas at h3
      rw [if_pos hx] at h3
      omega
    · rcases (h2 hc).1 with e | e <;> cases e
  rw [one w g left b hv hw hE hg hx h, one w' g' left' b' hv' hw' hE' hg' hx' h']

/-- With the gas of `callGas` the run is the one without gas of C149, for every reading of `GAS` there. -/
theorem C156_enough (w : World) (hv : w.value < 2 ^ 256) (hw : w.data.length < 2 ^ 255) (hE : Words w.evm) (g : Nat)
    (hg : g < 2 ^ 256) (hm : 264656 ≤ g) (fuel : Nat) (hf : 12000 ≤ fuel) :
    (runGas verifierCode w g fuel).map Prod.fst = run verifierCode w fuel := by
  obtain ⟨o, l, e, h1, h2⟩ := C156_gas w hv hw hE g hg fuel hf
  obtain ⟨k1, k2⟩ := C149_bytecode w hv hw hE fuel hf
  rw [e]
  by_cases hc : IsCall w
  · rw [k1 hc, ← (h1 hc).2.1 (Nat.le_trans (callGas_le _ _) hm)]
    rfl
  · rw [k2 hc, ← (h2 hc).2 hm]
    rfl

/-! ## The deployment, and the limit of the test -/

/-- What a run that needs `total` gives. -/
def paid (o : Outcome) (total g : Nat) : Option (Outcome × Nat) := if total ≤ g then some (o, g - total) else some (.exception, 0)

theorem paid_next (c : Code) (jd : Nat) (w : World) (n : Nat) (s t : State) (i : Instr) (words used total k words' : Nat) (o : Outcome)
    (hi : decode c s.pc = i) (hns : i ≠ .staticcall) (hk : cost i s.stack words = k) (hwd : wordsAfter i s.stack words = words')
    (hlen : t.stack.length ≤ 1024) (hle : used + k ≤ total)
    (hstep : ∀ γ, step c jd { w with gas := γ } s = .next t)
    (h : ∀ g, used + k ≤ g → runGasFrom c jd w n ⟨t, g - (used + k), words'⟩ = paid o total g) :
    ∀ g, used ≤ g → runGasFrom c jd w (n + 1) ⟨s, g - used, words⟩ = paid o total g := by
  intro g hg
  have hr : ∀ left, reachable w.evm i s.stack left = w.evm := by
    intro left
    unfold reachable
    split
    · exact absurd rfl hns
    · rfl
  have hl : ∀ left top, leftAfter i s.stack left top = left := by
    intro left top
    unfold leftAfter
    split
    · exact absurd rfl hns
    · rfl
  unfold runGasFrom gasStep
  simp only [hi, hk]
  by_cases hlt : g - used < k
  · rw [if_pos hlt]
    unfold paid
    rw [if_neg (by omega)]
  · rw [if_neg hlt, hr, hstep]
    simp only [if_pos hlen, hl, hwd]
    rw [show g - used - k = g - (used + k) by omega]
    exact h g (by omega)

theorem paid_done (c : Code) (jd : Nat) (w : World) (n : Nat) (s : State) (i : Instr) (words used total k : Nat) (o : Outcome)
    (hi : decode c s.pc = i) (hns : i ≠ .staticcall) (hk : cost i s.stack words = k) (ho : o ≠ .exception)
    (hle : used + k = total) (hstep : ∀ γ, step c jd { w with gas := γ } s = .done o) :
    ∀ g, used ≤ g → runGasFrom c jd w (n + 1) ⟨s, g - used, words⟩ = paid o total g := by
  intro g hg
  have hr : ∀ left, reachable w.evm i s.stack left = w.evm := by
    intro left
    unfold reachable
    split
    · exact absurd rfl hns
    · rfl
  unfold runGasFrom gasStep paid
  simp only [hi, hk]
  by_cases hlt : g - used < k
  · rw [if_pos hlt, if_neg (by omega)]
  · rw [if_neg hlt, hr, hstep]
    simp only [if_neg ho]
    rw [if_pos (by omega), show g - used - k = g - total by omega]

local macro "pay" : tactic => `(tactic| simp [cost, baseCost, wordsAfter, memoryCost, touch])

/-- The deployment leaves the code exactly if it has 1701 units of gas, and takes these; a payment is refused for 45 units. -/
theorem C156_deploy (w : World) (hv : w.value < 2 ^ 256) (g fuel : Nat) (hf : 20 ≤ fuel) :
    runGas deployCode w g fuel = if w.value = 0 then (if 1701 ≤ g then some (.returned (codeBytes verifierCode), g - 1701) else
      some (.exception, 0)) else if 45 ≤ g then some (.reverted, g - 45) else some (.exception, 0) := by
  obtain ⟨d0, d2, d4, d5, d6, d7, d8, d11, d12, d14, d15, d16, d17, d18, d21, d22, d25, d27, d28, d30⟩ := deploy_decode
  have hval : w.value % wordMod = w.value := Nat.mod_eq_of_lt hv
  suffices h : ∀ o total, o = (if w.value = 0 then .returned (codeBytes verifierCode) else .reverted) →
      total = (if w.value = 0 then 1701 else 45) → runGas deployCode w g fuel = paid o total g by
    rw [h _ _ rfl rfl]
    unfold paid
    by_cases h0 : w.value = 0
    · simp only [if_pos h0]
    · simp only [if_neg h0]
  intro o total ho ht
  have hmin : 45 ≤ total := by
    rw [ht]
    split_ifs <;> decide
  unfold runGas
  rw [show paid o total g = some (if total ≤ g then (o, g - total) else (.exception, 0)) by unfold paid; split_ifs <;> rfl]
  refine runGas_mono _ _ w (if total ≤ g then (o, g - total) else (.exception, 0)) 20 fuel _ hf ?_
  generalize hj : jumpdests deployCode = jd
  have hbit : jd.testBit 16 = true := hj ▸ deploy_jump
  let m1 : Nat → Nat := writeWord (fun _ => 0) 64 128
  suffices h : runGasFrom deployCode jd w 20 ⟨start, g - 0, 0⟩ = paid o total g by
    rw [Nat.sub_zero] at h
    rw [h]
    unfold paid
    split_ifs <;> rfl
  refine paid_next _ _ w 19 start ⟨2, [0x80], fun _ => 0, 0⟩ (.push 0x80 1) 0 0 total 3 0 o d0 (by simp) (by pay) (by pay) (by simp) (by omega)
    (fun γ => by unfold step start; rw [d0]) ?_ g (Nat.zero_le _)
  refine paid_next _ _ w 18 _ ⟨4, [0x40, 0x80], fun _ => 0, 0⟩ _ 0 3 total 3 0 o d2 (by simp) (by pay) (by pay) (by simp) (by omega)
    (fun γ => by unfold step; rw [d2]) ?_
  refine paid_next _ _ w 17 _ ⟨5, [], m1, 0⟩ _ 0 6 total 12 3 o d4 (by simp) (by pay) (by pay) (by simp) (by omega)
    (fun γ => by unfold step; rw [d4]) ?_
  refine paid_next _ _ w 16 _ ⟨6, [w.value], m1, 0⟩ _ 3 18 total 2 3 o d5 (by simp) (by pay) (by pay) (by simp) (by omega)
    (fun γ => by unfold step; rw [d5]; simp only [hval]) ?_
  refine paid_next _ _ w 15 _ ⟨7, [w.value, w.value], m1, 0⟩ _ 3 20 total 3 3 o d6 (by simp) (by pay) (by pay) (by simp) (by omega)
    (fun γ => by unfold step; rw [d6]; rfl) ?_
  refine paid_next _ _ w 14 _ ⟨8, [ofBool (decide (w.value = 0)), w.value], m1, 0⟩ _ 3 23 total 3 3 o d7 (by simp) (by pay) (by pay) (by simp)
    (by omega) (fun γ => by unfold step; rw [d7]) ?_
  refine paid_next _ _ w 13 _ ⟨11, [16, ofBool (decide (w.value = 0)), w.value], m1, 0⟩ _ 3 26 total 3 3 o d8 (by simp) (by pay) (by pay) (by simp)
    (by omega) (fun γ => by unfold step; rw [d8]) ?_
  by_cases h0 : w.value = 0
  · rw [if_pos h0] at ho ht
    subst ht
    refine paid_next _ _ w 12 _ ⟨16, [w.value], m1, 0⟩ _ 3 29 1701 10 3 o d11 (by simp) (by pay) (by pay) (by simp) (by omega)
      (fun γ => by unfold step; rw [d11, h0]; dsimp only; rw [if_neg (by decide), if_pos hbit]) ?_
    refine paid_next _ _ w 11 _ ⟨17, [w.value], m1, 0⟩ _ 3 39 1701 1 3 o d16 (by simp) (by pay) (by pay) (by simp) (by omega)
      (fun γ => by unfold step; rw [d16]) ?_
    refine paid_next _ _ w 10 _ ⟨18, [], m1, 0⟩ _ 3 40 1701 2 3 o d17 (by simp) (by pay) (by pay) (by simp) (by omega)
      (fun γ => by unfold step; rw [d17]) ?_
    refine paid_next _ _ w 9 _ ⟨21, [8104], m1, 0⟩ _ 3 42 1701 3 3 o d18 (by simp) (by pay) (by pay) (by simp) (by omega)
      (fun γ => by unfold step; rw [d18]) ?_
    refine paid_next _ _ w 8 _ ⟨22, [8104, 8104], m1, 0⟩ _ 3 45 1701 3 3 o d21 (by simp) (by pay) (by pay) (by simp) (by omega)
      (fun γ => by unfold step; rw [d21]; rfl) ?_
    refine paid_next _ _ w 7 _ ⟨25, [32, 8104, 8104], m1, 0⟩ _ 3 48 1701 3 3 o d22 (by simp) (by pay) (by pay) (by simp) (by omega)
      (fun γ => by unfold step; rw [d22]) ?_
    refine paid_next _ _ w 6 _ ⟨27, [0, 32, 8104, 8104], m1, 0⟩ _ 3 51 1701 3 3 o d25 (by simp) (by pay) (by pay) (by simp) (by omega)
      (fun γ => by unfold step; rw [d25]) ?_
    refine paid_next _ _ w 5 _ ⟨28, [8104], copyTo m1 0 8104 fun i => deployCode.byte (32 + i), 0⟩ _ 3 54 1701 1644 254 o d27 (by simp)
      (by pay) (by pay) (by simp) (by omega) (fun γ => by unfold step; rw [d27]) ?_
    refine paid_next _ _ w 4 _ ⟨30, [0, 8104], copyTo m1 0 8104 fun i => deployCode.byte (32 + i), 0⟩ _ 254 1698 1701 3 254 o d28
      (by simp) (by pay) (by pay) (by simp) (by omega) (fun γ => by unfold step; rw [d28]) ?_
    refine paid_done _ _ w 3 _ _ 254 1701 1701 0 o d30 (by simp) (by pay) (by rw [ho]; simp) rfl fun γ => ?_
    unfold step
    rw [d30, ho]
    refine congrArg (fun l => Step.done (Outcome.returned l)) ?_
    show _ = (List.range 8104).map verifierCode.byte
    refine List.map_congr_left fun i hi => ?_
    have hi' := List.mem_range.1 hi
    show copyTo m1 0 8104 (fun i => deployCode.byte (32 + i)) (0 + i) = _
    unfold copyTo
    rw [if_pos (by omega), Nat.zero_add, Nat.sub_zero]
    exact deploy_byte i hi'
  · rw [if_neg h0] at ho ht
    subst ht
    refine paid_next _ _ w 12 _ ⟨12, [w.value], m1, 0⟩ _ 3 29 45 10 3 o d11 (by simp) (by pay) (by pay) (by simp) (by omega)
      (fun γ => by unfold step; rw [d11, decide_eq_false h0]; dsimp only; rw [if_pos (by decide)]) ?_
    refine paid_next _ _ w 11 _ ⟨14, [0, w.value], m1, 0⟩ _ 3 39 45 3 3 o d12 (by simp) (by pay) (by pay) (by simp) (by omega)
      (fun γ => by unfold step; rw [d12]) ?_
    refine paid_next _ _ w 10 _ ⟨15, [0, 0, w.value], m1, 0⟩ _ 3 42 45 3 3 o d14 (by simp) (by pay) (by pay) (by simp) (by omega)
      (fun γ => by unfold step; rw [d14]; rfl) ?_
    refine paid_done _ _ w 9 _ _ 3 45 45 0 o d15 (by simp) (by pay) (by rw [ho]; simp) rfl fun γ => ?_
    unfold step
    rw [d15, ho]

/-- What a transaction with this data costs before the first instruction (EIP-2028); a deployment costs 32000 more. -/
def transactionGas (data : List Nat) : Nat := 21000 + (data.map fun b => if b = 0 then 4 else 16).sum

/-- The limit of a block in the test, zkmultiswap/gnark-tests/solidity/solidity_groth16_test.go:55. -/
def blockGas : Nat := 4712388

theorem transactionGas_le (data : List Nat) : transactionGas data ≤ 21000 + 16 * data.length := by
  unfold transactionGas
  refine Nat.add_le_add_left ?_ _
  induction data with
  | nil => exact Nat.zero_le _
  | cons b l ih =>
    rw [List.map_cons, List.sum_cons, List.length_cons]
    have : (if b = 0 then 4 else 16) ≤ 16 := by split_ifs <;> decide
    omega

/-- The deployment in the test fits into a block: with what the limit leaves after the price of the transaction the code is
made, and 200 units for each byte of it are left. -/
theorem C156_deploy_fits (w : World) (hv : w.value = 0) (fuel : Nat) (hf : 20 ≤ fuel) :
    ∃ g left, transactionGas (codeBytes deployCode) + 32000 + g = blockGas ∧
      runGas deployCode w g fuel = some (.returned (codeBytes verifierCode), left) ∧ 200 * (codeBytes verifierCode).length ≤ left := by
  have ht : transactionGas (codeBytes deployCode) = 142332 := by decide +kernel
  refine ⟨4538056, 4538056 - 1701, by rw [ht]; rfl, ?_, ?_⟩
  · rw [C156_deploy w (by rw [hv]; decide +kernel) _ fuel hf, if_pos hv, if_pos (by decide)]
  · rw [show (codeBytes verifierCode).length = 8104 from (List.length_map ..).trans List.length_range]
    decide

/-- Every call in a transaction with the 484 bytes of `verifyProof` fits into a block of the test: it ends as the source says. -/
theorem C156_call_fits (w : World) (hv : w.value < 2 ^ 256) (hc : IsCall w) (hl : w.data.length = 484) (hE : Words w.evm) (fuel : Nat)
    (hf : 12000 ≤ fuel) : ∃ g left, transactionGas (w.data.map UInt8.toNat) + g = blockGas ∧
      runGas verifierCode w g fuel = some (sourceOutcome w.evm testKey w.data, left) := by
  have ht := transactionGas_le (w.data.map UInt8.toNat)
  rw [List.length_map, hl] at ht
  have hb : blockGas = 4712388 := rfl
  obtain ⟨o, left, e, h, _⟩ := C156_gas w hv (by rw [hl]; decide +kernel) hE (blockGas - transactionGas (w.data.map UInt8.toNat))
    (lt_of_le_of_lt (Nat.sub_le _ _) (by decide +kernel)) fuel hf
  refine ⟨blockGas - transactionGas (w.data.map UInt8.toNat), left, by omega, ?_⟩
  rw [e, (h hc).2.1 (Nat.le_trans (callGas_le _ _) (by omega))]

/-! ## A call with just enough gas, and with one unit less -/

theorem picky_first : argWord (pickyCall (pickyEvm testKey.alfa1.x)).data 0 ≠ 0 := by decide +kernel

theorem picky_gas (g : Nat) (hg : g < 2 ^ 256) :
    ∃ o left, runGas verifierCode (pickyCall (pickyEvm testKey.alfa1.x)) g 12000 = some (o, left) ∧
      (o = .returned (answerBytes true) ∨ o = .exception) ∧ (264636 ≤ g → o = .returned (answerBytes true)) ∧
      ∀ bytes, o = .returned bytes → 264636 ≤ g ∧ left + 262130 = g := by
  obtain ⟨o, left, e, h, _⟩ := C156_gas (pickyCall (pickyEvm testKey.alfa1.x)) (show 0 < 2 ^ 256 by decide +kernel)
    (picky_length _).1 (picky_words _) g hg 12000 le_rfl
  have hs : sourceOutcome (pickyCall (pickyEvm testKey.alfa1.x)).evm testKey (pickyCall (pickyEvm testKey.alfa1.x)).data =
      .returned (answerBytes true) := by decide +kernel
  have h := h (picky_length _).2
  unfold callGas answerGas at h
  rw [hs, if_pos picky_first, if_pos picky_first] at h
  exact ⟨o, left, e, h⟩

example : runGas verifierCode (pickyCall (pickyEvm testKey.alfa1.x)) 264636 12000 = some (.returned (answerBytes true), 2506) := by
  obtain ⟨o, left, e, _, h1, h2⟩ := picky_gas 264636 (by decide +kernel)
  have h := h1 le_rfl
  subst h
  have := (h2 _ rfl).2
  rw [e, show left = 2506 by omega]

example : ∃ left, runGas verifierCode (pickyCall (pickyEvm testKey.alfa1.x)) 264635 12000 = some (.exception, left) := by
  obtain ⟨o, left, e, h | h, _, h2⟩ := picky_gas 264635 (by decide +kernel)
  · exact absurd (h2 _ h).1 (by decide)
  · exact ⟨left, h ▸ e⟩

/-- Contracts that refuse everything: a million units are gone. -/
example : runGas verifierCode (pickyCall failing) 1000000 12000 = some (.exception, 0) :=
  C156_refused_takes_all (pickyCall failing) (show 0 < 2 ^ 256 by decide +kernel) (picky_length _).1
    ⟨fun _ _ h => (by cases h), fun _ _ h => (by cases h), fun _ _ h => (by cases h)⟩ 1000000 (by decide +kernel) 12000 le_rfl
    (picky_length _).2 (by decide +kernel)

/-- A deployment with one unit too little, and one that pays. -/
example : runGas deployCode ⟨0, [], fun _ => 0, pickyEvm 0⟩ 1700 20 = some (.exception, 0) :=
  C156_deploy ⟨0, [], fun _ => 0, pickyEvm 0⟩ (show 0 < 2 ^ 256 by decide +kernel) 1700 20 le_rfl

example : runGas deployCode ⟨1, [], fun _ => 0, pickyEvm 0⟩ 1000 20 = some (.reverted, 955) :=
  C156_deploy ⟨1, [], fun _ => 0, pickyEvm 0⟩ (show 1 < 2 ^ 256 by decide +kernel) 1000 20 le_rfl

/-- The call above in a block of the test. -/
example : ∃ g left, transactionGas ((pickyCall (pickyEvm testKey.alfa1.x)).data.map UInt8.toNat) + g = blockGas ∧
    runGas verifierCode (pickyCall (pickyEvm testKey.alfa1.x)) g 12000 = some (.returned (answerBytes true), left) := by
  have hs : sourceOutcome (pickyCall (pickyEvm testKey.alfa1.x)).evm testKey (pickyCall (pickyEvm testKey.alfa1.x)).data =
      .returned (answerBytes true) := by decide +kernel
  obtain ⟨g, left, h1, h2⟩ := C156_call_fits (pickyCall (pickyEvm testKey.alfa1.x)) (show 0 < 2 ^ 256 by decide +kernel)
    (picky_length _).2 (by unfold pickyCall; rw [List.length_append, List.length_replicate]; rfl) (picky_words _) 12000 le_rfl
  exact ⟨g, left, h1, hs ▸ h2⟩

end Verif.Props
