import Verif.Lemmas.EvmSymbolic
import Verif.Model.EvmGas

/-!
# The gas of all runs of a program

`gasSym` goes through the tree of `runSym` and adds up what is paid. `gasSym_sound`: a run with gas ends like the run without,
or for lack of gas with an exception; the second does not happen if there is as much gas as `gasSym` says.
-/

namespace Verif.Lemmas.EvmGas

open Verif.Go Verif.Model Verif.Model.EvmMachine Verif.Model.EvmGas Verif.Lemmas.EvmSymbolic

def constVal : Ex → Nat
  | .const n => n
  | _ => 0

def isConst : Ex → Bool
  | .const _ => true
  | _ => false

/-- The entries of the stack on which the price of an instruction depends, without the gas that a call asks for. -/
def positions : Instr → List Nat
  | .calldatacopy => [0, 2]
  | .codecopy => [0, 2]
  | .mload => [0]
  | .mstore => [0]
  | .staticcall => [1, 2, 3, 4, 5]
  | .ret => [0, 1]
  | .revert => [0, 1]
  | _ => []

def symKnown (i : Instr) (stack : List Ex) : Bool := (positions i).all fun k => isConst (stack.getD k .size)

/-- The gas without which a call with price `p` fails; `used` had been paid before the call and `r` when the gas was read. -/
def callNeeds (used r q p : Nat) : Nat := max (if q ≤ p then r + q + p else 0) (used + p + (p - 1) / 63)

/-- The gas that is enough, and for each run that returns the gas that is used and the gas without which it does not return.
`used` is what has been paid so far, `reads` what had been paid at each `GAS`; `known` says which conditions are known. -/
def gasSym (c : Code) (jd : Nat) (known : Ex → Option Bool) :
    Nat → SState → Nat → Nat → List Nat → Option (Nat × List (Nat × Nat))
  | 0, _, _, _, _ => none
  | fuel + 1, s, used, words, reads =>
    if symKnown (decode c s.pc) s.stack then
      forceNat (used + cost (decode c s.pc) (s.stack.map constVal) words) fun used' =>
      forceNat (wordsAfter (decode c s.pc) (s.stack.map constVal) words) fun words' =>
      match symStep c jd s with
      | .next depth s' =>
        if s'.stack.length ≤ 1024 then
          forceState depth s' fun s' =>
            gasSym c jd known fuel s' used' words' (if decode c s.pc = .gas then reads ++ [used'] else reads)
        else none
      | .branch b s1 s2 =>
        if s1.stack.length ≤ 1024 ∧ s2.stack.length ≤ 1024 then
          match known b with
          | some true => forceState 0 s1 fun s1 => gasSym c jd known fuel s1 used' words' reads
          | some false => forceState 0 s2 fun s2 => gasSym c jd known fuel s2 used' words' reads
          | none =>
            match forceState 0 s1 fun s1 => gasSym c jd known fuel s1 used' words' reads,
              forceState 0 s2 fun s2 => gasSym c jd known fuel s2 used' words' reads with
            | some x, some y => some (max x.1 y.1, x.2 ++ y.2)
            | _, _ => none
        else none
      | .call _ _ s1 s2 =>
        if s1.stack.length ≤ 1024 ∧ s2.stack.length ≤ 1024 then
          match s.stack, runSym c jd fuel s2 with
          | .bin .sub (.gas k) (.const q) :: _, .exception =>
            match reads[k]? with
            | none => none
            | some r =>
              forceNat (price ((s.stack.map constVal).getD 1 0) ((s.stack.map constVal).getD 3 0)) fun p =>
              forceNat (used' + p) fun used'' =>
              match forceState 1 s1 fun s1 => gasSym c jd known fuel s1 used'' words' reads with
              | none => none
              | some x => some (max x.1 (max (r + q + p) (used' + p + (p - 1) / 63)),
                x.2.map fun y => (y.1, max y.2 (callNeeds used' r q p)))
          | _, _ => none
        else none
      | .done (.ret _) => some (used', [(used', used')])
      | .done .reverted => some (used', [])
      | .done .exception => some (used', [])
      | .done _ => none
    else none

/-! ## The two machines -/

/-- The numbers read by `GAS`. -/
def readings (c : Code) (jd : Nat) (w : World) : Nat → GState → Nat → Nat
  | 0, _, _ => 0
  | fuel + 1, s, k =>
    if decode c s.state.pc = .gas ∧ k = s.state.gasReads then s.gas - cost (decode c s.state.pc) s.state.stack s.words
    else match gasStep c jd w s with
      | .next s' => readings c jd w fuel s' k
      | .done _ _ => 0

theorem step_congr (c : Code) (jd : Nat) (w : World) (g1 g2 : Nat → Nat) (t : State)
    (h : decode c t.pc = .gas → g1 t.gasReads = g2 t.gasReads) :
    step c jd { w with gas := g1 } t = step c jd { w with gas := g2 } t := by
  obtain ⟨pc, stack, mem, g⟩ := t
  dsimp only at h
  unfold step
  dsimp only
  cases hi : decode c pc
  case gas =>
    dsimp only
    rw [h hi]
  all_goals rcases stack with _ | ⟨a, _ | ⟨b, _ | ⟨d, _ | ⟨e, _ | ⟨f, _ | ⟨x, l⟩⟩⟩⟩⟩⟩ <;> rfl

theorem staticCall_gasReads (w : World) (pc : Nat) (rest : List Nat) (mem : Nat → Nat)
    (g addr inOff inSize outOff outSize : Nat) (t' : State)
    (h : staticCall w pc rest mem g addr inOff inSize outOff outSize = .next t') : t'.gasReads = g := by
  unfold staticCall at h
  split_ifs at h
  split at h
  · cases h
  · cases h; rfl
  · split_ifs at h
    cases h; rfl

theorem step_gasReads (c : Code) (jd : Nat) (w : World) (t t' : State) (h : step c jd w t = .next t') :
    t'.gasReads = t.gasReads + if decode c t.pc = .gas then 1 else 0 := by
  obtain ⟨pc, stack, mem, g⟩ := t
  unfold step at h
  dsimp only at h ⊢
  cases hi : decode c pc <;> rw [hi] at h
  case gas =>
    cases h
    rfl
  case dup n =>
    dsimp only at h
    rw [if_neg (by simp)]
    split at h <;> cases h
    rfl
  case swap n =>
    dsimp only at h
    rw [if_neg (by simp)]
    split at h <;> cases h
    rfl
  all_goals
    rw [if_neg (by simp)]
    rcases stack with _ | ⟨a, _ | ⟨b, _ | ⟨d, _ | ⟨e, _ | ⟨f, _ | ⟨x, l⟩⟩⟩⟩⟩⟩ <;> dsimp only at h <;> (try split_ifs at h) <;>
      first
        | (cases h; rfl)
        | cases h
        | exact staticCall_gasReads _ _ _ _ _ _ _ _ _ _ _ h

/-- The world of the run without gas that reads the same numbers. -/
theorem gasStep_eq (c : Code) (jd : Nat) (w : World) (ρ : Nat → Nat) (fuel : Nat) (gs : GState)
    (hρ : ∀ k ≥ gs.state.gasReads, ρ k = readings c jd w (fuel + 1) gs k) :
    gasStep c jd w gs =
      if gs.gas < cost (decode c gs.state.pc) gs.state.stack gs.words then .done .exception 0
      else match step c jd ⟨w.value, w.data, ρ, reachable w.evm (decode c gs.state.pc) gs.state.stack
          (gs.gas - cost (decode c gs.state.pc) gs.state.stack gs.words)⟩ gs.state with
        | .next t =>
          if t.stack.length ≤ 1024 then .next ⟨t, leftAfter (decode c gs.state.pc) gs.state.stack
            (gs.gas - cost (decode c gs.state.pc) gs.state.stack gs.words) (t.stack.getD 0 0),
            wordsAfter (decode c gs.state.pc) gs.state.stack gs.words⟩
          else .done .exception 0
        | .done o => .done o (if o = .exception then 0 else gs.gas - cost (decode c gs.state.pc) gs.state.stack gs.words) := by
  unfold gasStep
  dsimp only
  have := step_congr c jd ⟨w.value, w.data, ρ, reachable w.evm (decode c gs.state.pc) gs.state.stack
    (gs.gas - cost (decode c gs.state.pc) gs.state.stack gs.words)⟩
    (fun _ => gs.gas - cost (decode c gs.state.pc) gs.state.stack gs.words) ρ gs.state
    (fun h => by
      rw [hρ _ (Nat.le_refl _)]
      unfold readings
      rw [if_pos ⟨h, rfl⟩])
  dsimp only at this
  rw [this]
  rfl

/-- The numbers that are read after an instruction. -/
theorem readings_next (c : Code) (jd : Nat) (w w' : World) (ρ : Nat → Nat) (fuel : Nat) (gs gs' : GState)
    (hρ : ∀ k ≥ gs.state.gasReads, ρ k = readings c jd w (fuel + 1) gs k) (h : gasStep c jd w gs = .next gs')
    (ht : step c jd w' gs.state = .next gs'.state) : ∀ k ≥ gs'.state.gasReads, ρ k = readings c jd w fuel gs' k := by
  intro k hk
  rw [step_gasReads c jd w' _ _ ht] at hk
  rw [hρ k (by omega)]
  have e : readings c jd w (fuel + 1) gs k =
    if decode c gs.state.pc = .gas ∧ k = gs.state.gasReads then
      gs.gas - cost (decode c gs.state.pc) gs.state.stack gs.words
    else match gasStep c jd w gs with
      | .next s' => readings c jd w fuel s' k
      | .done _ _ => 0 := rfl
  rw [e, h, if_neg]
  rintro ⟨h1, h2⟩
  rw [if_pos h1] at hk
  omega

/-! ## Expressions -/

theorem eval_evm (w : World) (E : Solidity.Evm) (rets : List (List Nat)) : ∀ e : Ex,
    evalEx { w with evm := E } rets e = evalEx w rets e
  | .const _ => rfl
  | .cd _ => rfl
  | .size => rfl
  | .value => rfl
  | .gas _ => rfl
  | .ret _ _ => rfl
  | .bin o a b => by simp only [evalEx, eval_evm w E rets a, eval_evm w E rets b]
  | .isz a => by simp only [evalEx, eval_evm w E rets a]
  | .not a => by simp only [evalEx, eval_evm w E rets a]

theorem eval_evm' (w : World) (E : Solidity.Evm) (rets : List (List Nat)) :
    evalEx { w with evm := E } rets = evalEx w rets := funext (eval_evm w E rets)

theorem memOf_evm (w : World) (E : Solidity.Evm) (rets : List (List Nat)) : ∀ l : List Entry,
    memOf { w with evm := E } rets l = memOf w rets l
  | [] => rfl
  | .word a e :: l => by rw [memOf, memOf, memOf_evm w E rets l, eval_evm]
  | .zeros a n :: l => by rw [memOf, memOf, memOf_evm w E rets l]

theorem rel_evm (w : World) (E : Solidity.Evm) (rets : List (List Nat)) (s : SState) (t : State) :
    Rel { w with evm := E } rets s t ↔ Rel w rets s t := by
  constructor <;> intro ⟨h1, h2, h3, h4, h5, h6, h7⟩
  · exact ⟨h1, by rw [h2, eval_evm' w E rets], by rw [h3, memOf_evm w E rets], h4, h5, h6, h7⟩
  · exact ⟨h1, by rw [h2, eval_evm' w E rets], by rw [h3, memOf_evm w E rets], h4, h5, h6, h7⟩

theorem getD_const (w : World) (rets : List (List Nat)) (stack : List Ex) (k : Nat)
    (h : isConst (stack.getD k .size) = true) :
    (stack.map (evalEx w rets)).getD k 0 = (stack.map constVal).getD k 0 := by
  rw [List.getD_eq_getElem?_getD] at h
  rw [List.getD_eq_getElem?_getD, List.getD_eq_getElem?_getD, List.getElem?_map, List.getElem?_map]
  cases hk : stack[k]? with
  | none => rfl
  | some e =>
    rw [hk] at h
    cases e <;> first | rfl | simp [isConst] at h

theorem wordsAfter_eq (w : World) (rets : List (List Nat)) (i : Instr) (stack : List Ex) (words : Nat)
    (h : symKnown i stack = true) :
    wordsAfter i (stack.map (evalEx w rets)) words = wordsAfter i (stack.map constVal) words := by
  unfold symKnown at h
  rw [List.all_eq_true] at h
  have hk : ∀ k ∈ positions i, _ := fun k hk => getD_const w rets stack k (h k hk)
  cases i <;> first
    | rfl
    | (simp only [positions, List.mem_cons, List.not_mem_nil, or_false, forall_eq_or_imp, forall_eq] at hk
       simp only [wordsAfter, hk])

theorem cost_eq (w : World) (rets : List (List Nat)) (i : Instr) (stack : List Ex) (words : Nat)
    (h : symKnown i stack = true) : cost i (stack.map (evalEx w rets)) words = cost i (stack.map constVal) words := by
  unfold cost
  rw [wordsAfter_eq w rets i stack words h]
  unfold symKnown at h
  rw [List.all_eq_true] at h
  have hk : ∀ k ∈ positions i, _ := fun k hk => getD_const w rets stack k (h k hk)
  cases i
  case bin o => cases o <;> rfl
  all_goals first
    | rfl
    | (simp only [positions, List.mem_cons, List.not_mem_nil, or_false, forall_eq_or_imp, forall_eq] at hk
       simp only [baseCost, hk])

/-! ## Soundness -/

/-- What an instruction does, seen from the run without gas that reads the same numbers. -/
theorem gas_cases (c : Code) (jd : Nat) (w : World) (hd : w.data.length < wordMod) (ρ : Nat → Nat) (fuel : Nat)
    (rets : List (List Nat)) (s : SState) (gs : GState) (r : Rel ⟨w.value, w.data, ρ, w.evm⟩ rets s gs.state)
    (hρ : ∀ k ≥ gs.state.gasReads, ρ k = readings c jd w (fuel + 1) gs k) :
    (gs.gas < cost (decode c gs.state.pc) gs.state.stack gs.words ∧ gasStep c jd w gs = .done .exception 0) ∨
    ∃ left S, left + cost (decode c gs.state.pc) gs.state.stack gs.words = gs.gas ∧
      StepOk ⟨w.value, w.data, ρ, reachable w.evm (decode c gs.state.pc) gs.state.stack left⟩ rets S (symStep c jd s) ∧
      (∀ t, S = .next t → t.stack.length ≤ 1024 →
        gasStep c jd w gs = .next ⟨t, leftAfter (decode c gs.state.pc) gs.state.stack left (t.stack.getD 0 0),
            wordsAfter (decode c gs.state.pc) gs.state.stack gs.words⟩ ∧
        ∀ k ≥ t.gasReads, ρ k = readings c jd w fuel ⟨t, leftAfter (decode c gs.state.pc) gs.state.stack left
            (t.stack.getD 0 0), wordsAfter (decode c gs.state.pc) gs.state.stack gs.words⟩ k) ∧
      (∀ t, S = .next t → ¬ t.stack.length ≤ 1024 → gasStep c jd w gs = .done .exception 0) ∧
      (∀ t, S = .next t → t.gasReads = gs.state.gasReads + if decode c gs.state.pc = .gas then 1 else 0) ∧
      ∀ o, S = .done o → gasStep c jd w gs = .done o (if o = .exception then 0 else left) := by
  have h := gasStep_eq c jd w ρ fuel gs hρ
  by_cases hc : gs.gas < cost (decode c gs.state.pc) gs.state.stack gs.words
  · rw [if_pos hc] at h
    exact Or.inl ⟨hc, h⟩
  · rw [if_neg hc] at h
    obtain ⟨left, hl⟩ : ∃ left, left = gs.gas - cost (decode c gs.state.pc) gs.state.stack gs.words := ⟨_, rfl⟩
    rw [← hl] at h
    have hstep := symStep_ok c jd ⟨w.value, w.data, ρ, reachable w.evm (decode c gs.state.pc) gs.state.stack left⟩ hd rets s
      gs.state ((rel_evm ⟨w.value, w.data, ρ, w.evm⟩ _ rets s gs.state).2 r)
    refine Or.inr ⟨left, _, by omega, hstep, ?_, ?_, ?_, ?_⟩
    · intro t ht hlen
      rw [ht] at h
      dsimp only at h
      rw [if_pos hlen] at h
      exact ⟨h, readings_next c jd w _ ρ fuel gs _ hρ h ht⟩
    · intro t ht hlen
      rw [ht] at h
      dsimp only at h
      rw [if_neg hlen] at h
      exact h
    · intro t ht
      exact step_gasReads c jd _ _ _ ht
    · intro o ho
      rw [ho] at h
      exact h

/-- Where the tree has an exception, a run with gas ends with one. -/
theorem exception_sound (c : Code) (jd : Nat) (w : World) (hd : w.data.length < wordMod) (ρ : Nat → Nat) :
    ∀ (fuel : Nat) (rets : List (List Nat)) (s : SState) (gs : GState), Rel ⟨w.value, w.data, ρ, w.evm⟩ rets s gs.state →
      (∀ k ≥ gs.state.gasReads, ρ k = readings c jd w fuel gs k) → runSym c jd fuel s = .exception →
      runGasFrom c jd w fuel gs = some (.exception, 0)
  | 0, _, _, _, _, _, h => nomatch h
  | fuel + 1, rets, s, gs, r, hρ, h => by
    unfold runSym at h
    unfold runGasFrom
    rcases gas_cases c jd w hd ρ fuel rets s gs r hρ with ⟨_, hg⟩ | ⟨left, S, -, hS, hnext, hlong, -, hdone⟩
    · rw [hg]
    · cases hs : symStep c jd s with
      | next d s' =>
        rw [hs] at hS h
        obtain ⟨t', ht, r'⟩ := hS
        simp only [forceState_eq] at h
        by_cases hlen : t'.stack.length ≤ 1024
        · obtain ⟨hg, hρ'⟩ := hnext t' ht hlen
          rw [hg]
          exact exception_sound c jd w hd ρ fuel rets s' _ ((rel_evm ⟨w.value, w.data, ρ, w.evm⟩ _ rets s' t').1 r') hρ' h
        · rw [hlong t' ht hlen]
      | branch b s1 s2 =>
        rw [hs] at h
        cases h
      | call addr inp s1 s2 =>
        rw [hs] at h
        cases h
      | done tr =>
        rw [hs] at h hS
        dsimp only at h
        subst h
        rw [hdone .exception (hS .exception rfl), if_pos rfl]

theorem symStep_staticcall (c : Code) (jd : Nat) (s : SState) (h : decode c s.pc = .staticcall) :
    symStep c jd s = .done .giveUp ∨ ∃ addr inp rest s1 s2, symStep c jd s = .call addr inp s1 s2 ∧
      s1.stack = .const 1 :: rest ∧ s2.stack = .const 0 :: rest := by
  unfold symStep
  rw [h]
  dsimp only
  split
  · unfold symCall
    split_ifs
    · split
      · exact Or.inl rfl
      · split_ifs
        · split
          · exact Or.inl rfl
          · exact Or.inr ⟨_, _, _, _, _, rfl, rfl, rfl⟩
        · exact Or.inl rfl
    · exact Or.inl rfl
  · exact Or.inl rfl

theorem symStep_other (c : Code) (jd : Nat) (s s1 s2 : SState) (addr : Nat) (inp : List Ex)
    (h : symStep c jd s = .call addr inp s1 s2) : decode c s.pc = .staticcall := by
  by_contra hn
  unfold symStep at h
  cases hi : decode c s.pc <;> rw [hi] at h <;> dsimp only at h
  case staticcall => exact hn hi
  all_goals first
    | cases h
    | (split at h <;> first
        | cases h
        | (split at h <;> first
            | cases h
            | (split at h <;> cases h)))

theorem leftAfter_other (i : Instr) (stack : List Nat) (left top : Nat) (h : i ≠ .staticcall) :
    leftAfter i stack left top = left := by
  unfold leftAfter
  split
  · exact absurd rfl h
  · rfl

theorem gasSym_le (c : Code) (jd : Nat) (known : Ex → Option Bool) : ∀ (fuel : Nat) (s : SState) (used words : Nat)
    (reads : List Nat) (x : Nat × List (Nat × Nat)), gasSym c jd known fuel s used words reads = some x →
      used + cost (decode c s.pc) (s.stack.map constVal) words ≤ x.1
  | 0, _, _, _, _, _, h => nomatch h
  | fuel + 1, s, used, words, reads, x, h => by
    unfold gasSym at h
    have hk : symKnown (decode c s.pc) s.stack = true := by
      by_contra hn
      rw [if_neg hn] at h
      cases h
    rw [if_pos hk] at h
    simp only [forceNat_eq, forceState_eq] at h
    generalize used + cost (decode c s.pc) (s.stack.map constVal) words = used' at h ⊢
    have ih := fun s used words reads x h => Nat.le_trans (Nat.le_add_right _ _)
      (gasSym_le c jd known fuel s used words reads x h)
    cases hs : symStep c jd s with
    | next d s' =>
      rw [hs] at h
      dsimp only at h
      split at h
      · exact ih _ _ _ _ _ h
      · cases h
    | branch b s1 s2 =>
      rw [hs] at h
      dsimp only at h
      split_ifs at h
      split at h
      · exact ih _ _ _ _ _ h
      · exact ih _ _ _ _ _ h
      · split at h
        · rename_i x1 x2 h1 h2
          cases h
          exact Nat.le_trans (ih _ _ _ _ _ h1) (Nat.le_max_left _ _)
        · cases h
    | call addr inp s1 s2 =>
      rw [hs] at h
      dsimp only at h
      split_ifs at h
      split at h
      · split at h
        · cases h
        · split at h
          · cases h
          · rename_i y hy
            cases h
            exact Nat.le_trans (Nat.le_add_right _ _) (Nat.le_trans (ih _ _ _ _ _ hy) (Nat.le_max_left _ _))
      · cases h
    | done tr =>
      rw [hs] at h
      cases tr <;> dsimp only at h <;> cases h <;> exact Nat.le_refl _

/-- How a run with gas should end. -/
def Ends (g0 : Nat) (o : Outcome) (x : Nat × List (Nat × Nat)) (res : Option (Outcome × Nat)) : Prop :=
  ∃ o' left, res = some (o', left) ∧ (o' = o ∨ o' = .exception) ∧ (x.1 ≤ g0 → o' = o) ∧
    ∀ b, o' = .returned b → ∃ y ∈ x.2, left + y.1 = g0 ∧ y.2 ≤ g0

theorem Ends.exception {g0 : Nat} {o : Outcome} {x : Nat × List (Nat × Nat)} (h : x.1 ≤ g0 → o = .exception) :
    Ends g0 o x (some (.exception, 0)) :=
  ⟨.exception, 0, rfl, Or.inr rfl, fun hx => (h hx).symm, fun _ hb => nomatch hb⟩

theorem Ends.mono {g0 : Nat} {o : Outcome} {x y : Nat × List (Nat × Nat)} {res : Option (Outcome × Nat)} (h : Ends g0 o x res)
    (h1 : x.1 ≤ y.1) (h2 : ∀ z ∈ x.2, z ∈ y.2) : Ends g0 o y res := by
  obtain ⟨o', left, e, a, b, d⟩ := h
  refine ⟨o', left, e, a, fun hy => b (Nat.le_trans h1 hy), fun bs hb => ?_⟩
  obtain ⟨z, hz, h⟩ := d bs hb
  exact ⟨z, h2 z hz, h⟩

theorem asked_eval (a q n : Nat) (ha : a < n) (hq : q < n) :
    (q ≤ a ∧ (a % n + (n - q % n)) % n = a - q) ∨ (a < q ∧ (a % n + (n - q % n)) % n = n + a - q) := by
  rw [Nat.mod_eq_of_lt ha, Nat.mod_eq_of_lt hq]
  by_cases h : q ≤ a
  · left
    refine ⟨h, ?_⟩
    rw [show a + (n - q) = (a - q) + n by omega, Nat.add_mod_right, Nat.mod_eq_of_lt (by omega)]
  · right
    refine ⟨by omega, ?_⟩
    rw [show a + (n - q) = n + a - q by omega, Nat.mod_eq_of_lt (by omega)]

theorem precompile_failing (E : Solidity.Evm) (addr : Nat) (inp : List Nat) (h : precompile E addr inp ≠ none) :
    precompile failing addr inp = some none := by
  unfold precompile at h ⊢
  split_ifs at h ⊢ <;> first | rfl | exact absurd rfl h

/-- A run with gas ends like the run without that reads the same numbers, or for lack of gas with an exception. -/
theorem gasSym_sound (c : Code) (jd : Nat) (known : Ex → Option Bool) (w : World) (hd : w.data.length < wordMod)
    (ρ : Nat → Nat) (g0 : Nat) (hg0 : g0 < wordMod) (o : Outcome)
    (hknown : ∀ e b, known e = some b → ∀ rets, (evalEx ⟨w.value, w.data, ρ, w.evm⟩ rets e ≠ 0 ↔ b = true)) :
    ∀ (fuel : Nat) (rets : List (List Nat)) (s : SState) (gs : GState) (used : Nat) (reads : List Nat)
      (x : Nat × List (Nat × Nat)), Rel ⟨w.value, w.data, ρ, w.evm⟩ rets s gs.state → gs.gas + used = g0 →
      reads.length = s.gasReads → (∀ k r, reads[k]? = some r → ρ k + r = g0 ∧ r ≤ used) →
      (∀ k ≥ gs.state.gasReads, ρ k = readings c jd w fuel gs k) →
      gasSym c jd known fuel s used gs.words reads = some x →
      evalTree ⟨w.value, w.data, ρ, w.evm⟩ rets (runSym c jd fuel s) = some o →
      Ends g0 o x (runGasFrom c jd w fuel gs)
  | 0, _, _, _, _, _, _, _, _, _, _, _, h, _ => nomatch h
  | fuel + 1, rets, s, gs, used, reads, x, r, hused, hlen, hreads, hρ, hg, h => by
    have hle := gasSym_le c jd known (fuel + 1) s used gs.words reads x hg
    unfold gasSym at hg
    have hk : symKnown (decode c s.pc) s.stack = true := by
      by_contra hn
      rw [if_neg hn] at hg
      cases hg
    rw [if_pos hk] at hg
    simp only [forceNat_eq, forceState_eq] at hg
    have hcost : cost (decode c gs.state.pc) gs.state.stack gs.words =
        cost (decode c s.pc) (s.stack.map constVal) gs.words := by
      rw [r.pc, r.stack, cost_eq _ _ _ _ _ hk]
    have hwords : wordsAfter (decode c gs.state.pc) gs.state.stack gs.words =
        wordsAfter (decode c s.pc) (s.stack.map constVal) gs.words := by
      rw [r.pc, r.stack, wordsAfter_eq _ _ _ _ _ hk]
    obtain ⟨used', hused'⟩ : ∃ used', used' = used + cost (decode c s.pc) (s.stack.map constVal) gs.words := ⟨_, rfl⟩
    rw [← hused'] at hg hle
    rw [← hwords] at hg
    have hcases := gas_cases c jd w hd ρ fuel rets s gs r hρ
    rw [hcost] at hcases
    unfold runGasFrom
    rcases hcases with ⟨hlow, hgs⟩ | ⟨left, S, hleft, hS, hnext, hlong, hcount, hdone⟩
    · rw [hgs]
      exact Ends.exception fun hx => by omega
    have hsum : left + used' = g0 := by omega
    have hreads' : ∀ k r, reads[k]? = some r → ρ k + r = g0 ∧ r ≤ used' := fun k r hkr =>
      ⟨(hreads k r hkr).1, by have := (hreads k r hkr).2; omega⟩
    have hother : decode c s.pc ≠ .staticcall → ∀ top, leftAfter (decode c gs.state.pc) gs.state.stack left top = left :=
      fun hne top => leftAfter_other _ _ _ _ (by rw [r.pc]; exact hne)
    unfold runSym at h
    cases hs : symStep c jd s with
    | next d s' =>
      rw [hs] at hS hg h
      obtain ⟨t', ht, r'⟩ := hS
      replace r' := (rel_evm ⟨w.value, w.data, ρ, w.evm⟩ _ rets s' t').1 r'
      simp only [forceState_eq] at h
      have hne : decode c s.pc ≠ .staticcall := by
        intro hst
        rcases symStep_staticcall c jd s hst with e | ⟨_, _, _, _, _, e, _⟩ <;> rw [hs] at e <;> cases e
      dsimp only at hg
      split at hg
      case isFalse => cases hg
      rename_i hl
      have hl' : t'.stack.length ≤ 1024 := by rw [r'.stack, List.length_map]; exact hl
      obtain ⟨hgs, hρ'⟩ := hnext t' ht hl'
      rw [hother hne] at hgs hρ'
      rw [hgs]
      have hc := hcount t' ht
      rw [r'.gas, r.gas, r.pc] at hc
      refine gasSym_sound c jd known w hd ρ g0 hg0 o hknown fuel rets s' ⟨t', left, _⟩ used' _ x r' hsum ?_ ?_ hρ' hg h
      · rw [hc]
        split_ifs
        · rw [List.length_append, hlen]
          rfl
        · exact hlen
      · intro k q hkq
        split_ifs at hkq with hgas
        · rw [List.getElem?_append] at hkq
          split_ifs at hkq with hlt
          · exact hreads' k q hkq
          · have hk0 : k = reads.length := by
              by_contra hne
              rw [List.getElem?_eq_none (by simp; omega)] at hkq
              cases hkq
            subst hk0
            simp only [Nat.sub_self, List.getElem?_cons_zero, Option.some.injEq] at hkq
            subst hkq
            refine ⟨?_, Nat.le_refl _⟩
            rw [hlen, ← r.gas, hρ _ (Nat.le_refl _)]
            unfold readings
            rw [if_pos ⟨by rw [r.pc]; exact hgas, rfl⟩, hcost]
            omega
        · exact hreads' k q hkq
    | branch b s1 s2 =>
      rw [hs] at hS hg h
      simp only [forceState_eq, evalTree] at h
      unfold StepOk at hS
      dsimp only at hS hg
      rw [eval_evm ⟨w.value, w.data, ρ, w.evm⟩] at hS
      have hne : decode c s.pc ≠ .staticcall := by
        intro hst
        rcases symStep_staticcall c jd s hst with e | ⟨_, _, _, _, _, e, _⟩ <;> rw [hs] at e <;> cases e
      have hng : decode c s.pc ≠ .gas := by
        intro hst
        unfold symStep at hs
        rw [hst] at hs
        cases hs
      split at hg
      case isFalse => cases hg
      rename_i hl
      have go : ∀ (s' : SState) (t' : State) (y : Nat × List (Nat × Nat)), s'.stack.length ≤ 1024 → S = .next t' →
          Rel ⟨w.value, w.data, ρ, w.evm⟩ rets s' t' →
          gasSym c jd known fuel s' used' (wordsAfter (decode c gs.state.pc) gs.state.stack gs.words) reads = some y →
          evalTree ⟨w.value, w.data, ρ, w.evm⟩ rets (runSym c jd fuel s') = some o →
          Ends g0 o y (match gasStep c jd w gs with
            | .next s' => runGasFrom c jd w fuel s'
            | .done o left => some (o, left)) := by
        intro s' t' y hl ht r' hg h
        have hl' : t'.stack.length ≤ 1024 := by rw [r'.stack, List.length_map]; exact hl
        obtain ⟨hgs, hρ'⟩ := hnext t' ht hl'
        rw [hother hne] at hgs hρ'
        rw [hgs]
        have hc := hcount t' ht
        rw [r'.gas, r.gas, r.pc, if_neg hng] at hc
        exact gasSym_sound c jd known w hd ρ g0 hg0 o hknown fuel rets s' ⟨t', left, _⟩ used' _ y r' hsum
          (by rw [hc, hlen]; rfl) hreads' hρ' hg h
      by_cases hb : evalEx ⟨w.value, w.data, ρ, w.evm⟩ rets b = 0
      · rw [if_pos hb] at hS h
        obtain ⟨t', ht, r'⟩ := hS
        replace r' := (rel_evm ⟨w.value, w.data, ρ, w.evm⟩ _ rets s2 t').1 r'
        split at hg
        · rename_i hkb
          exact absurd hb ((hknown b true hkb rets).2 rfl)
        · exact go s2 t' x hl.2 ht r' hg h
        · split at hg
          · rename_i x1 x2 h1 h2
            cases hg
            exact (go s2 t' x2 hl.2 ht r' h2 h).mono (Nat.le_max_right _ _) fun z hz => List.mem_append_right _ hz
          · cases hg
      · rw [if_neg hb] at hS h
        obtain ⟨t', ht, r'⟩ := hS
        replace r' := (rel_evm ⟨w.value, w.data, ρ, w.evm⟩ _ rets s1 t').1 r'
        split at hg
        · exact go s1 t' x hl.1 ht r' hg h
        · rename_i hkb
          have := (hknown b false hkb rets).1 hb
          cases this
        · split at hg
          · rename_i x1 x2 h1 h2
            cases hg
            exact (go s1 t' x1 hl.1 ht r' h1 h).mono (Nat.le_max_left _ _) fun z hz => List.mem_append_left _ hz
          · cases hg
    | call addr inp s1 s2 =>
      rw [hs] at hS hg h
      simp only [forceState_eq, evalTree] at h
      have hst : decode c s.pc = .staticcall := symStep_other c jd s s1 s2 addr inp hs
      obtain ⟨rest, hs1, hs2⟩ : ∃ rest, s1.stack = .const 1 :: rest ∧ s2.stack = .const 0 :: rest := by
        rcases symStep_staticcall c jd s hst with e | ⟨_, _, rest, _, _, e, h1, h2⟩ <;> rw [hs] at e <;> cases e
        exact ⟨rest, h1, h2⟩
      dsimp only at hg
      split at hg
      case isFalse => cases hg
      rename_i hl
      split at hg
      case h_2 => cases hg
      rename_i k q tail hstack hexc
      split at hg
      · cases hg
      rename_i rk hrk
      obtain ⟨p, hp⟩ : ∃ p, p = price ((s.stack.map constVal).getD 1 0) ((s.stack.map constVal).getD 3 0) := ⟨_, rfl⟩
      rw [← hp] at hg
      split at hg
      · cases hg
      rename_i y hy
      cases hg
      have hprice : price (gs.state.stack.getD 1 0) (gs.state.stack.getD 3 0) = p := by
        rw [hst] at hk
        unfold symKnown at hk
        rw [List.all_eq_true] at hk
        rw [r.stack, getD_const _ rets s.stack 1 (hk 1 (by decide)), getD_const _ rets s.stack 3 (hk 3 (by decide)), ← hp]
      obtain ⟨asked, hasked⟩ : ∃ asked, asked = gs.state.stack.getD 0 0 := ⟨_, rfl⟩
      have hq : q < wordMod := by
        have := r.okStack (.bin .sub (.gas k) (.const q)) (by rw [hstack]; exact List.mem_cons_self)
        exact this.2
      have hrk' := hreads k rk hrk
      have hask : asked = (ρ k % wordMod + (wordMod - q % wordMod)) % wordMod := by
        rw [hasked, r.stack, hstack]
        rfl
      have hask' := asked_eval (ρ k) q wordMod (by omega) hq
      rw [← hask] at hask'
      have hst' : decode c gs.state.pc = .staticcall := by rw [r.pc]; exact hst
      rw [hst'] at hnext hS
      have hafter : ∀ top, leftAfter .staticcall gs.state.stack left top =
          if top = 0 then left - forwarded asked left else left - p := by
        intro top
        unfold leftAfter
        dsimp only
        rw [← hasked, hprice]
      have hreach : reachable w.evm .staticcall gs.state.stack left = if p ≤ forwarded asked left then w.evm else failing := by
        unfold reachable
        dsimp only
        rw [← hasked, hprice]
      have hfwd : forwarded asked left = min asked (left - left / 64) := rfl
      rw [hreach] at hS
      unfold StepOk at hS
      dsimp only at hS
      have hfail : ∀ t', S = .next t' → Rel ⟨w.value, w.data, ρ, w.evm⟩ rets s2 t' →
          ∃ gs', gasStep c jd w gs = .next gs' ∧ runGasFrom c jd w fuel gs' = some (.exception, 0) := by
        intro t' ht r'
        have hl' : t'.stack.length ≤ 1024 := by rw [r'.stack, List.length_map]; exact hl.2
        obtain ⟨hgs, hρ'⟩ := hnext t' ht hl'
        exact ⟨_, hgs, exception_sound c jd w hd ρ fuel rets s2 _ r' hρ' hexc⟩
      by_cases hpf : p ≤ forwarded asked left
      · rw [if_pos hpf] at hS
        cases hpre : precompile w.evm addr (inp.map (evalEx ⟨w.value, w.data, ρ, w.evm⟩ rets)) with
        | none =>
          rw [hpre] at h
          cases h
        | some z =>
          rw [hpre] at h hS
          cases z with
          | none =>
            obtain ⟨t', ht, r'⟩ := hS
            obtain ⟨gs', e1, e2⟩ := hfail t' ht r'
            rw [e1]
            dsimp only
            rw [e2]
            rw [hexc] at h
            cases h
            exact Ends.exception fun _ => rfl
          | some ws =>
            obtain ⟨t', ht, r'⟩ := hS
            have hl' : t'.stack.length ≤ 1024 := by rw [r'.stack, List.length_map]; exact hl.1
            obtain ⟨hgs, hρ'⟩ := hnext t' ht hl'
            have htop : t'.stack.getD 0 0 = 1 := by rw [r'.stack, hs1]; rfl
            rw [hafter, htop, if_neg (by decide)] at hgs hρ'
            rw [hgs]
            have hc := hcount t' ht
            rw [r'.gas, r.gas, hst', if_neg (by simp)] at hc
            have key := gasSym_sound c jd known w hd ρ g0 hg0 o hknown fuel (rets ++ [ws]) s1 ⟨t', left - p, _⟩ (used' + p)
              reads y r' (by show left - p + (used' + p) = g0; omega) (by rw [hc, hlen]; rfl)
              (fun k r hkr => ⟨(hreads' k r hkr).1, by have := (hreads' k r hkr).2; omega⟩) hρ' (by rw [← hst']; exact hy) h
            obtain ⟨o', l, e, a, b, d⟩ := key
            refine ⟨o', l, e, a, fun hx => b (Nat.le_trans (Nat.le_max_left _ _) hx), fun bs hbs => ?_⟩
            obtain ⟨v, hv, hv1, hv2⟩ := d bs hbs
            refine ⟨_, List.mem_map.2 ⟨v, hv, rfl⟩, hv1, Nat.max_le.2 ⟨hv2, Nat.max_le.2 ⟨?_, by omega⟩⟩⟩
            split_ifs <;> omega
      · rw [if_neg hpf] at hS
        rw [eval_evm' ⟨w.value, w.data, ρ, w.evm⟩ failing rets] at hS
        cases hpre : precompile w.evm addr (inp.map (evalEx ⟨w.value, w.data, ρ, w.evm⟩ rets)) with
        | none =>
          rw [hpre] at h
          cases h
        | some z =>
          rw [precompile_failing w.evm addr _ (by rw [hpre]; simp)] at hS
          obtain ⟨t', ht, r'⟩ := hS
          obtain ⟨gs', e1, e2⟩ := hfail t' ht ((rel_evm ⟨w.value, w.data, ρ, w.evm⟩ failing rets s2 t').1 r')
          rw [e1]
          dsimp only
          rw [e2]
          refine Ends.exception fun hx => absurd ?_ hpf
          have h1 := Nat.max_le.1 (Nat.max_le.1 hx).2
          omega
    | done tr =>
      rw [hs] at hS hg h
      have hne : decode c s.pc = .staticcall → tr = .giveUp := by
        intro hst
        rcases symStep_staticcall c jd s hst with e | ⟨_, _, _, _, _, e, _⟩ <;> rw [hs] at e <;> cases e
        rfl
      have hev : reachable w.evm (decode c gs.state.pc) gs.state.stack left = w.evm := by
        unfold reachable
        rw [r.pc]
        split
        · rename_i hst
          rw [hne hst] at h
          cases h
        · rfl
      rw [hev] at hS
      rw [hdone o (hS o h)]
      refine ⟨o, _, rfl, Or.inl rfl, fun _ => rfl, ?_⟩
      rintro bs rfl
      rw [if_neg (by simp)]
      cases tr <;> dsimp only at hg <;> cases hg <;> first
        | exact ⟨_, List.mem_singleton_self _, hsum, by omega⟩
        | cases h

end Verif.Lemmas.EvmGas
