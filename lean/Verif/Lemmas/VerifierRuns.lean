import Verif.Lemmas.VerifierTree
import Mathlib.Tactic.FinCases

/-!
# The tree of the bytecode and the source of the contract

The meaning of `wholeTree` in terms of the model of the source, `Solidity.verifyProof`.
-/

namespace Verif.Lemmas.VerifierRuns

open Verif.Go Verif.Model Verif.Model.EvmMachine Verif.Model.Solidity Verif.Lemmas.EvmSymbolic Verif.Lemmas.VerifierTree

/-- How the machine shows the errors of the source: a failed call of a precompiled contract is followed by `invalid()`, the
other errors are `require`. -/
def refusal (m : String) : Outcome :=
  if m = "pairing-add-failed" ∨ m = "pairing-mul-failed" ∨ m = "pairing-opcode-failed" then .exception else .reverted

def outcome {α : Type} (f : α → Outcome) : Res α → Outcome
  | .ok a => f a
  | .error m => refusal m

theorem outcome_bind {α β : Type} (f : β → Outcome) (r : Res α) (g : α → Res β) :
    outcome f (r >>= g) = outcome (fun a => outcome f (g a)) r := by cases r <;> rfl

theorem refusal_add : refusal "pairing-add-failed" = .exception := by decide

theorem refusal_mul : refusal "pairing-mul-failed" = .exception := by decide

theorem refusal_pair : refusal "pairing-opcode-failed" = .exception := by decide

theorem eval_need (w : World) (rets : List (List Nat)) (c : Ex) (t : Tree) :
    evalTree w rets (need c t) = if evalEx w rets c = 0 then some .reverted else evalTree w rets t := rfl

theorem needs_append (l1 l2 : List Ex) (t : Tree) : needs (l1 ++ l2) t = needs l1 (needs l2 t) := by
  simp [needs, List.foldr_append]

theorem needs_pass (w : World) (rets : List (List Nat)) (t : Tree) : ∀ l : List Ex, (∀ c ∈ l, evalEx w rets c ≠ 0) →
    evalTree w rets (needs l t) = evalTree w rets t
  | [], _ => rfl
  | c :: l, h => by
    show evalTree w rets (need c (needs l t)) = _
    rw [eval_need, if_neg (h c List.mem_cons_self), needs_pass w rets t l fun c hc => h c (List.mem_cons_of_mem _ hc)]

theorem ofBool_eq_zero (b : Bool) : ofBool b = 0 ↔ b = false := by cases b <;> simp [ofBool]

theorem eval_below (w : World) (rets : List (List Nat)) (a n : Nat) :
    evalEx w rets (below a n) = 0 ↔ ¬ wordAt w.dataByte a < n := by
  show ofBool (decide (wordAt w.dataByte a < n)) = 0 ↔ _
  rw [ofBool_eq_zero, decide_eq_false_iff_not]

/-- One `require` of the source. -/
theorem require_eval {α : Type} (w : World) (rets : List (List Nat)) (a n : Nat) (m : String) (hm : refusal m = .reverted)
    (t : Tree) (f : α → Outcome) (g : Unit → Res α) (ht : evalTree w rets t = some (outcome f (g ()))) :
    evalTree w rets (need (below a n) t) = some (outcome f (require (decide (wordAt w.dataByte a < n)) m >>= g)) := by
  rw [eval_need]
  by_cases h : wordAt w.dataByte a < n
  · rw [if_neg (by rw [eval_below]; exact not_not.2 h), ht, decide_eq_true h]
    rfl
  · rw [if_pos ((eval_below w rets a n).2 h), decide_eq_false h]
    show some Outcome.reverted = some (refusal m)
    rw [hm]

theorem ret_last (w : World) (rets : List (List Nat)) (ws : List Nat) (k j : Nat) (hk : rets.length = k) :
    evalEx w (rets ++ [ws]) (.ret k j) = (ws.getD j 0) % wordMod := by
  subst hk
  show (((rets ++ [ws]).getD rets.length []).getD j 0) % wordMod = _
  have h1 : (rets ++ [ws]).getD rets.length [] = ws := by simp [List.getD_eq_getElem?_getD]
  rw [h1]

/-- The call of `ecAdd`. -/
theorem plus_eval {α : Type} (w : World) (hE : Words w.evm) (rets : List (List Nat)) (x1 y1 x2 y2 : Ex) (p1 p2 : G1) (k : Nat)
    (hk : rets.length = k) (hx1 : evalEx w rets x1 = p1.x) (hy1 : evalEx w rets y1 = p1.y) (hx2 : evalEx w rets x2 = p2.x)
    (hy2 : evalEx w rets y2 = p2.y) (t : Tree) (f : α → Outcome) (g : G1 → Res α)
    (ht : ∀ rets' s, rets'.length = k + 1 → evalEx w rets' (.ret k 0) = s.x → evalEx w rets' (.ret k 1) = s.y →
      evalTree w rets' t = some (outcome f (g s))) :
    evalTree w rets (callOk 6 [x1, y1, x2, y2] t) = some (outcome f (plus w.evm p1 p2 >>= g)) := by
  show (match precompile w.evm 6 [evalEx w rets x1, evalEx w rets y1, evalEx w rets x2, evalEx w rets y2] with
    | none => none
    | some none => some Outcome.exception
    | some (some ws) => evalTree w (rets ++ [ws]) t) = _
  rw [hx1, hy1, hx2, hy2]
  have hp : precompile w.evm 6 [p1.x, p1.y, p2.x, p2.y] =
      some ((w.evm.ecAdd [p1.x, p1.y, p2.x, p2.y]).map fun r => [r.1 % wordMod, r.2 % wordMod]) := rfl
  rw [hp]
  unfold plus
  cases hr : w.evm.ecAdd [p1.x, p1.y, p2.x, p2.y] with
  | none => exact congrArg some refusal_add.symm
  | some r =>
    obtain ⟨h1, h2⟩ := hE.add _ r hr
    refine ht (rets ++ [[r.1 % wordMod, r.2 % wordMod]]) ⟨r.1, r.2⟩ (by simp [hk]) ?_ ?_
    · rw [ret_last w rets _ k 0 hk]
      exact (Nat.mod_mod _ _).trans (Nat.mod_eq_of_lt h1)
    · rw [ret_last w rets _ k 1 hk]
      exact (Nat.mod_mod _ _).trans (Nat.mod_eq_of_lt h2)

/-- The call of `ecMul`. -/
theorem mul_eval {α : Type} (w : World) (hE : Words w.evm) (rets : List (List Nat)) (x y v : Ex) (p : G1) (n : Nat) (k : Nat)
    (hk : rets.length = k) (hx : evalEx w rets x = p.x) (hy : evalEx w rets y = p.y) (hv : evalEx w rets v = n)
    (t : Tree) (f : α → Outcome) (g : G1 → Res α)
    (ht : ∀ ws s, evalEx w (rets ++ [ws]) (.ret k 0) = s.x → evalEx w (rets ++ [ws]) (.ret k 1) = s.y →
      evalTree w (rets ++ [ws]) t = some (outcome f (g s))) :
    evalTree w rets (callOk 7 [x, y, v] t) = some (outcome f (scalarMul w.evm p n >>= g)) := by
  show (match precompile w.evm 7 [evalEx w rets x, evalEx w rets y, evalEx w rets v] with
    | none => none
    | some none => some Outcome.exception
    | some (some ws) => evalTree w (rets ++ [ws]) t) = _
  rw [hx, hy, hv]
  have hp : precompile w.evm 7 [p.x, p.y, n] =
      some ((w.evm.ecMul [p.x, p.y, n]).map fun r => [r.1 % wordMod, r.2 % wordMod]) := rfl
  rw [hp]
  unfold scalarMul
  cases hr : w.evm.ecMul [p.x, p.y, n] with
  | none => exact congrArg some refusal_mul.symm
  | some r =>
    obtain ⟨h1, h2⟩ := hE.mul _ r hr
    refine ht [r.1 % wordMod, r.2 % wordMod] ⟨r.1, r.2⟩ ?_ ?_
    · rw [ret_last w rets _ k 0 hk]
      exact (Nat.mod_mod _ _).trans (Nat.mod_eq_of_lt h1)
    · rw [ret_last w rets _ k 1 hk]
      exact (Nat.mod_mod _ _).trans (Nat.mod_eq_of_lt h2)

/-- One round of the loop over the public inputs. -/
theorem round_eval {α : Type} (w : World) (hE : Words w.evm) (vk : VerifyingKey) (input : Fin 7 → Nat) (i : Fin 7) (a : Nat)
    (hin : wordAt w.dataByte a = input i) (rets : List (List Nat)) (x y : Ex) (s : G1) (k : Nat) (hk : rets.length = k)
    (hxk : x.Ok k) (hyk : y.Ok k) (hx : evalEx w rets x = s.x) (hy : evalEx w rets y = s.y) (t : Tree) (f : α → Outcome)
    (g : G1 → Res α)
    (ht : ∀ rets' s', rets'.length = k + 2 → evalEx w rets' (.ret (k + 1) 0) = s'.x →
      evalEx w rets' (.ret (k + 1) 1) = s'.y → evalTree w rets' t = some (outcome f (g s'))) :
    evalTree w rets (round (vk.ic i.succ) a x y k t) = some (outcome f (inputRound w.evm vk input s i >>= g)) := by
  have e : (inputRound w.evm vk input s i >>= g) =
      (require (decide (wordAt w.dataByte a < snarkScalarField)) "verifier-gte-snark-scalar-field" >>= fun _ =>
        scalarMul w.evm (vk.ic i.succ) (input i) >>= fun q => plus w.evm s q >>= g) := by
    unfold inputRound
    rw [hin]
    simp only [bind_assoc]
  rw [e]
  refine require_eval w rets a snarkScalarField _ (by decide) _ f _ ?_
  refine mul_eval w hE rets (.const _) (.const _) (.cd a) (vk.ic i.succ) (input i) k hk rfl rfl hin _ f _ ?_
  intro ws q hq1 hq2
  refine plus_eval w hE (rets ++ [ws]) _ _ _ _ s q (k + 1) (by simp [hk]) ?_ ?_ hq1 hq2 t f g ht
  · rw [eval_append w rets ws x (by rw [hk]; exact hxk), hx]
  · rw [eval_append w rets ws y (by rw [hk]; exact hyk), hy]

/-- The answer of the contract as the machine returns it. -/
def boolOutcome (b : Bool) : Outcome := .returned (wordBytes (if b then 1 else 0))

theorem answer_eval (w : World) (hE : Words w.evm) (rets : List (List Nat)) (hk : rets.length = 15) (vk : VerifyingKey)
    (x y : Ex) (A : G1) (B : G2) (S C : G1) (hx : evalEx w rets x = A.x) (hy : evalEx w rets y = A.y)
    (hB : B = ⟨wordAt w.dataByte 68, wordAt w.dataByte 100, wordAt w.dataByte 132, wordAt w.dataByte 164⟩)
    (hC : C = ⟨wordAt w.dataByte 196, wordAt w.dataByte 228⟩)
    (h0 : evalEx w rets (.ret 14 0) = S.x) (h1 : evalEx w rets (.ret 14 1) = S.y) :
    evalTree w rets (answer vk x y) =
      some (outcome boolOutcome (pairing w.evm A B vk.alfa1 vk.beta2 S vk.gamma2 C vk.delta2)) := by
  subst hB hC
  have hmap : ([x, y, Ex.cd 68, .cd 100, .cd 132, .cd 164] ++ g1 vk.alfa1 ++ g2 vk.beta2 ++ [Ex.ret 14 0, .ret 14 1] ++
      g2 vk.gamma2 ++ [Ex.cd 196, .cd 228] ++ g2 vk.delta2).map (evalEx w rets) =
      [(A, (⟨wordAt w.dataByte 68, wordAt w.dataByte 100, wordAt w.dataByte 132, wordAt w.dataByte 164⟩ : G2)),
        (vk.alfa1, vk.beta2), (S, vk.gamma2), (⟨wordAt w.dataByte 196, wordAt w.dataByte 228⟩, vk.delta2)].flatMap
        fun x => pairWords x.1 x.2 := by
    simp only [List.map_cons, List.map_nil, g1, g2, hx, hy, h0, h1, List.flatMap_cons, List.flatMap_nil,
      pairWords, List.cons_append, List.nil_append, List.append_nil]
    rfl
  unfold answer callOk
  rw [evalTree, hmap]
  generalize hl : ([(A, (⟨wordAt w.dataByte 68, wordAt w.dataByte 100, wordAt w.dataByte 132, wordAt w.dataByte 164⟩ : G2)),
        (vk.alfa1, vk.beta2), (S, vk.gamma2), (⟨wordAt w.dataByte 196, wordAt w.dataByte 228⟩, vk.delta2)].flatMap
        fun x => pairWords x.1 x.2) = l
  have hp : precompile w.evm 8 l = some ((w.evm.ecPairing l).map fun r => [r % wordMod]) := rfl
  have hq : pairing w.evm A ⟨wordAt w.dataByte 68, wordAt w.dataByte 100, wordAt w.dataByte 132, wordAt w.dataByte 164⟩ vk.alfa1
      vk.beta2 S vk.gamma2 ⟨wordAt w.dataByte 196, wordAt w.dataByte 228⟩ vk.delta2 =
      (called (w.evm.ecPairing l) "pairing-opcode-failed" >>= fun out => pure (out != 0)) := by
    rw [← hl]
    rfl
  rw [hp, hq]
  cases hr : w.evm.ecPairing l with
  | none => exact congrArg some refusal_pair.symm
  | some r =>
    have h2 := hE.pair l r hr
    show some (Outcome.returned (wordBytes (evalEx w (rets ++ [[r % wordMod]]) _))) = some (boolOutcome (r != 0))
    have h3 : evalEx w (rets ++ [[r % wordMod]]) (.ret 15 0) = r := by
      rw [ret_last w rets _ 15 0 hk]
      exact (Nat.mod_mod _ _).trans (Nat.mod_eq_of_lt h2)
    unfold boolOutcome
    refine congrArg (fun v => some (Outcome.returned (wordBytes v))) ?_
    show ofBool (decide (ofBool (decide (ofBool (decide (ofBool (decide
      (evalEx w (rets ++ [[r % wordMod]]) (.ret 15 0) = 0)) = 0)) = 0)) = 0)) = _
    rw [h3]
    by_cases h0 : r = 0
    · subst h0
      rfl
    · rw [decide_eq_false h0]
      have : (r != 0) = true := by simpa using h0
      rw [this]
      rfl

theorem eval_isNot0 (w : World) (rets : List (List Nat)) (a : Nat) :
    evalEx w rets (isNot0 a) = 0 ↔ wordAt w.dataByte a = 0 := by
  show ofBool (decide (ofBool (decide (wordAt w.dataByte a = 0)) = 0)) = 0 ↔ _
  by_cases h : wordAt w.dataByte a = 0
  · simp [h, ofBool]
  · simp [h, ofBool]

theorem primeQ_lt : primeQ < wordMod := by decide +kernel

theorem sub_word (a b n : Nat) (ha : a < n) (hb : b ≤ a) : (a + (n - b % n)) % n = a - b := by
  rw [Nat.mod_eq_of_lt (lt_of_le_of_lt hb ha)]
  have : a + (n - b) = (a - b) + n := by omega
  rw [this, Nat.add_mod_right]
  exact Nat.mod_eq_of_lt (by omega)

theorem eval_negY (w : World) (rets : List (List Nat)) : evalEx w rets negY = primeQ - wordAt w.dataByte 36 % primeQ := by
  show (primeQ + (wordMod - (if primeQ = 0 then 0 else wordAt w.dataByte 36 % primeQ) % wordMod)) % wordMod = _
  have hq : 0 < primeQ := by decide +kernel
  rw [if_neg (Nat.pos_iff_ne_zero.1 hq)]
  exact sub_word _ _ _ primeQ_lt (le_of_lt (Nat.mod_lt _ hq))

theorem negated_eval (w : World) (rets : List (List Nat)) (vk : VerifyingKey) :
    evalTree w rets (negated vk) = evalTree w rets (answer vk (.cd 4) negY) := by
  unfold negated
  rw [eval_need, if_neg]
  show ¬ ofBool (decide (ofBool (decide (primeQ < evalEx w rets negY)) = 0)) = 0
  have h : ¬ primeQ < evalEx w rets negY := by
    rw [eval_negY]
    exact not_lt.2 (Nat.sub_le _ _)
  rw [decide_eq_false h]
  decide

theorem negate_eval (w : World) (hE : Words w.evm) (rets : List (List Nat)) (hk : rets.length = 15) (vk : VerifyingKey)
    (B : G2) (S C : G1)
    (hB : B = ⟨wordAt w.dataByte 68, wordAt w.dataByte 100, wordAt w.dataByte 132, wordAt w.dataByte 164⟩)
    (hC : C = ⟨wordAt w.dataByte 196, wordAt w.dataByte 228⟩)
    (h0 : evalEx w rets (.ret 14 0) = S.x) (h1 : evalEx w rets (.ret 14 1) = S.y) :
    evalTree w rets (.branch (isNot0 4)
      (.branch (isNot0 4) (negated vk) (answer vk (.const 0) (.const 0)))
      (.branch (isNot0 36) (negated vk) (answer vk (.const 0) (.const 0)))) =
      some (outcome boolOutcome (pairing w.evm (negate ⟨wordAt w.dataByte 4, wordAt w.dataByte 36⟩) B vk.alfa1 vk.beta2 S
        vk.gamma2 C vk.delta2)) := by
  have hneg : ¬ (wordAt w.dataByte 4 = 0 ∧ wordAt w.dataByte 36 = 0) → evalTree w rets (negated vk) =
      some (outcome boolOutcome (pairing w.evm (negate ⟨wordAt w.dataByte 4, wordAt w.dataByte 36⟩) B vk.alfa1 vk.beta2 S
        vk.gamma2 C vk.delta2)) := by
    intro h
    rw [negated_eval]
    refine answer_eval w hE rets hk vk _ _ _ B S C ?_ ?_ hB hC h0 h1
    · unfold negate
      rw [if_neg h]
      rfl
    · unfold negate
      rw [if_neg h, eval_negY]
  have hzero : (wordAt w.dataByte 4 = 0 ∧ wordAt w.dataByte 36 = 0) → evalTree w rets (answer vk (.const 0) (.const 0)) =
      some (outcome boolOutcome (pairing w.evm (negate ⟨wordAt w.dataByte 4, wordAt w.dataByte 36⟩) B vk.alfa1 vk.beta2 S
        vk.gamma2 C vk.delta2)) := by
    intro h
    refine answer_eval w hE rets hk vk _ _ _ B S C ?_ ?_ hB hC h0 h1
    · unfold negate
      rw [if_pos h]
      rfl
    · unfold negate
      rw [if_pos h]
      rfl
  rw [evalTree]
  by_cases hx : wordAt w.dataByte 4 = 0
  · rw [if_pos ((eval_isNot0 w rets 4).2 hx), evalTree]
    by_cases hy : wordAt w.dataByte 36 = 0
    · rw [if_pos ((eval_isNot0 w rets 36).2 hy)]
      exact hzero ⟨hx, hy⟩
    · rw [if_neg (fun h => hy ((eval_isNot0 w rets 36).1 h))]
      exact hneg fun h => hy h.2
  · rw [if_neg (fun h => hx ((eval_isNot0 w rets 4).1 h)), evalTree, if_neg (fun h => hx ((eval_isNot0 w rets 4).1 h))]
    exact hneg fun h => hx h.1

/-- The public inputs in the data of the call. -/
def inputs (w : World) : Fin 7 → Nat := fun i => wordAt w.dataByte (260 + 32 * i.val)

theorem finRange7 : List.finRange 7 = [0, 1, 2, 3, 4, 5, 6] := by decide

theorem body_eval (w : World) (hE : Words w.evm) (vk : VerifyingKey) :
    evalTree w [] (body vk) = some (outcome boolOutcome (do
      let vkx ← (List.finRange 7).foldlM (inputRound w.evm vk (inputs w)) ⟨0, 0⟩
      let vkx ← plus w.evm vkx (vk.ic 0)
      pairing w.evm (negate ⟨wordAt w.dataByte 4, wordAt w.dataByte 36⟩)
        ⟨wordAt w.dataByte 68, wordAt w.dataByte 100, wordAt w.dataByte 132, wordAt w.dataByte 164⟩ vk.alfa1 vk.beta2 vkx
        vk.gamma2 ⟨wordAt w.dataByte 196, wordAt w.dataByte 228⟩ vk.delta2)) := by
  rw [finRange7]
  simp only [List.foldlM_cons, List.foldlM_nil, bind_assoc, pure_bind]
  refine round_eval w hE vk (inputs w) 0 260 rfl [] (.const 0) (.const 0) ⟨0, 0⟩ 0 rfl wordMod_pos wordMod_pos rfl rfl _ _ _ ?_
  intro rets s hk hx hy
  refine round_eval w hE vk (inputs w) 1 292 rfl rets (.ret 1 0) (.ret 1 1) s 2 hk (Nat.lt_succ_self 1) (Nat.lt_succ_self 1) hx hy _ _ _ ?_
  intro rets s hk hx hy
  refine round_eval w hE vk (inputs w) 2 324 rfl rets (.ret 3 0) (.ret 3 1) s 4 hk (Nat.lt_succ_self 3) (Nat.lt_succ_self 3) hx hy _ _ _ ?_
  intro rets s hk hx hy
  refine round_eval w hE vk (inputs w) 3 356 rfl rets (.ret 5 0) (.ret 5 1) s 6 hk (Nat.lt_succ_self 5) (Nat.lt_succ_self 5) hx hy _ _ _ ?_
  intro rets s hk hx hy
  refine round_eval w hE vk (inputs w) 4 388 rfl rets (.ret 7 0) (.ret 7 1) s 8 hk (Nat.lt_succ_self 7) (Nat.lt_succ_self 7) hx hy _ _ _ ?_
  intro rets s hk hx hy
  refine round_eval w hE vk (inputs w) 5 420 rfl rets (.ret 9 0) (.ret 9 1) s 10 hk (Nat.lt_succ_self 9) (Nat.lt_succ_self 9) hx hy _ _ _ ?_
  intro rets s hk hx hy
  refine round_eval w hE vk (inputs w) 6 452 rfl rets (.ret 11 0) (.ret 11 1) s 12 hk (Nat.lt_succ_self 11) (Nat.lt_succ_self 11) hx hy _ _ _ ?_
  intro rets s hk hx hy
  refine plus_eval w hE rets _ _ _ _ s (vk.ic 0) 14 hk hx hy rfl rfl _ _ _ ?_
  intro rets s hk hx hy
  exact negate_eval w hE rets hk vk _ s _ rfl rfl hx hy

end Verif.Lemmas.VerifierRuns
