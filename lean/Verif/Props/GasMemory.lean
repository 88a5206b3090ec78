import Verif.Model.EvmGas

/-!
# C162: what gas means for any program

For all programs, not only the two of the Go binding: memory that has been written has been paid for, and a call ends after
at most as many instructions as it has gas, plus one.
-/

namespace Verif.Props

open Verif.Model Verif.Model.EvmMachine Verif.Model.EvmGas

/-- The states that a run comes to from `s` on. -/
inductive GasReach (c : Code) (jd : Nat) (w : World) (s : GState) : GState → Prop
  | refl : GasReach c jd w s s
  | step {t u : GState} : GasReach c jd w s t → gasStep c jd w t = .next u → GasReach c jd w s u

/-- No program writes memory that it has not paid for, and every call ends. -/
def C162_statement : Prop :=
  ∀ (c : Code) (w : World) (g : Nat),
    (∀ s, GasReach c (jumpdests c) w ⟨start, g, 0⟩ s →
      (∀ i, 32 * s.words ≤ i → s.state.mem i = 0) ∧ 3 * s.words + s.words * s.words / 512 + s.gas ≤ g) ∧
    ∃ o left, runGas c w g (g + 1) = some (o, left) ∧ left ≤ g

theorem words_le_touch (words a n : Nat) : words ≤ touch words a n := by
  unfold touch
  split_ifs
  · exact Nat.le_refl _
  · exact Nat.le_max_left _ _

theorem le_touch (words a n : Nat) (h : n ≠ 0) : a + n ≤ 32 * touch words a n := by
  unfold touch
  rw [if_neg h]
  have := Nat.le_max_right words ((a + n + 31) / 32)
  omega

theorem words_le_wordsAfter (i : Instr) (stack : List Nat) (words : Nat) : words ≤ wordsAfter i stack words := by
  unfold wordsAfter
  split
  any_goals exact words_le_touch _ _ _
  · exact Nat.le_trans (words_le_touch _ _ _) (words_le_touch _ _ _)
  · exact Nat.le_refl _

theorem memoryCost_mono {a b : Nat} (h : a ≤ b) : memoryCost a ≤ memoryCost b := by
  unfold memoryCost
  have := Nat.div_le_div_right (c := 512) (Nat.mul_le_mul h h)
  omega

theorem writeWords_above (out : List Nat) : ∀ (f : Nat → Nat) (a i : Nat), a + 32 * out.length ≤ i →
    writeWords f a out i = f i := by
  induction out with
  | nil => intro f a i _; rfl
  | cons v vs ih =>
    intro f a i h
    rw [List.length_cons] at h
    rw [writeWords, ih _ _ _ (by omega), writeWord, if_neg (by omega)]

theorem le_of_touch {words a n i : Nat} (h : 32 * touch words a n ≤ i) (hn : n ≠ 0) : a + n ≤ i :=
  Nat.le_trans (le_touch words a n hn) h

theorem copyTo_above {f src : Nat → Nat} {d n i : Nat} (h : n ≠ 0 → d + n ≤ i) : copyTo f d n src i = f i := by
  rw [copyTo, if_neg]
  intro hh
  have := h (by omega)
  omega

/-- An instruction writes only memory that is counted. -/
theorem step_mem {c : Code} {jd : Nat} {w : World} {s t : State} (words : Nat) (h : step c jd w s = .next t) (i : Nat)
    (hi : 32 * wordsAfter (decode c s.pc) s.stack words ≤ i) : t.mem i = s.mem i := by
  unfold step at h
  split at h
  all_goals try (injection h with h; subst h; rfl)
  all_goals try cases h
  all_goals try (split at h; all_goals (first | (injection h with h; subst h; rfl) | cases h | skip))
  case h_14.isFalse => split at h <;> cases h; rfl
  case h_8 d a n l e1 e2 =>
    rw [e1, e2] at hi
    exact copyTo_above (f := s.mem) (src := fun i => w.dataByte (a + i)) (le_of_touch hi)
  case h_9 d a n l e1 e2 =>
    rw [e1, e2] at hi
    exact copyTo_above (f := s.mem) (src := fun i => c.byte (a + i)) (le_of_touch hi)
  case h_12 a v l e1 e2 =>
    rw [e1, e2] at hi
    have h2 : a + 32 ≤ i := le_of_touch hi (by decide)
    show writeWord _ a v i = _
    rw [writeWord, if_neg (by omega)]
  case h_20 e1 e2 =>
    rw [e1, e2] at hi
    unfold staticCall at h
    split at h
    · split at h
      · cases h
      · cases h; rfl
      · split at h
        · rename_i hle
          cases h
          rename_i out _
          by_cases h0 : out.length = 0
          · rw [List.length_eq_zero_iff] at h0
            rw [h0]; rfl
          · exact writeWords_above _ _ _ _ (Nat.le_trans (Nat.add_le_add_left hle _) (le_of_touch hi (by omega)))
        · cases h
    · cases h

/-- An instruction after which the run goes on costs something. -/
theorem step_cost {c : Code} {jd : Nat} {w : World} {s t : State} (stack : List Nat) (h : step c jd w s = .next t) :
    1 ≤ baseCost (decode c s.pc) stack := by
  cases hd : decode c s.pc
  case bin o => cases o <;> simp [baseCost]
  case stop => simp [step, hd] at h
  case ret =>
    simp only [step, hd] at h
    split at h <;> simp_all
  case revert =>
    simp only [step, hd] at h
    split at h <;> simp_all
  case invalid => simp [step, hd] at h
  case other => simp [step, hd] at h
  all_goals (simp only [baseCost]; omega)

theorem leftAfter_le (i : Instr) (stack : List Nat) (left top : Nat) : leftAfter i stack left top ≤ left := by
  unfold leftAfter
  split
  · split_ifs <;> omega
  · exact Nat.le_refl _

/-- What one instruction does to gas and memory. -/
theorem gasStep_next {c : Code} {jd : Nat} {w : World} {s u : GState} (h : gasStep c jd w s = .next u) :
    u.gas < s.gas ∧ memoryCost u.words + u.gas ≤ memoryCost s.words + s.gas ∧ s.words ≤ u.words ∧
      ∀ i, 32 * u.words ≤ i → u.state.mem i = s.state.mem i := by
  simp only [gasStep] at h
  split_ifs at h with hg
  split at h
  · rename_i t ht
    split_ifs at h
    injection h with h
    subst h
    have hb := step_cost s.state.stack ht
    have hl := leftAfter_le (decode c s.state.pc) s.state.stack
      (s.gas - cost (decode c s.state.pc) s.state.stack s.words) (t.stack.getD 0 0)
    have hw := words_le_wordsAfter (decode c s.state.pc) s.state.stack s.words
    have hm := memoryCost_mono hw
    have hc : cost (decode c s.state.pc) s.state.stack s.words = baseCost (decode c s.state.pc) s.state.stack +
      (memoryCost (wordsAfter (decode c s.state.pc) s.state.stack s.words) - memoryCost s.words) := rfl
    refine ⟨?_, ?_, hw, fun i hi => step_mem s.words ht i hi⟩
    · show leftAfter _ _ _ _ < _
      omega
    · show memoryCost (wordsAfter _ _ _) + leftAfter _ _ _ _ ≤ _
      omega
  · cases h

/-- What is left at the end is not more than there was. -/
theorem gasStep_done {c : Code} {jd : Nat} {w : World} {s : GState} {o : EvmMachine.Outcome} {left : Nat}
    (h : gasStep c jd w s = .done o left) : left ≤ s.gas := by
  simp only [gasStep] at h
  split_ifs at h with hg
  · cases h; omega
  · split at h
    · split_ifs at h
      cases h; omega
    · cases h
      split_ifs <;> omega

theorem runGasFrom_ends (c : Code) (jd : Nat) (w : World) : ∀ (n : Nat) (s : GState), s.gas < n →
    ∃ o left, runGasFrom c jd w n s = some (o, left) ∧ left ≤ s.gas := by
  intro n
  induction n with
  | zero => intro s h; omega
  | succ n ih =>
    intro s h
    cases hs : gasStep c jd w s with
    | done o left => exact ⟨o, left, by simp [runGasFrom, hs], gasStep_done hs⟩
    | next u =>
      have hu := (gasStep_next hs).1
      obtain ⟨o, left, h1, h2⟩ := ih u (by omega)
      exact ⟨o, left, by simp only [runGasFrom, hs]; exact h1, by omega⟩

theorem C162_paid (c : Code) (w : World) (g : Nat) (s : GState) (h : GasReach c (jumpdests c) w ⟨start, g, 0⟩ s) :
    (∀ i, 32 * s.words ≤ i → s.state.mem i = 0) ∧ 3 * s.words + s.words * s.words / 512 + s.gas ≤ g := by
  induction h with
  | refl => exact ⟨fun _ _ => rfl, by simp⟩
  | step _ hs ih =>
    obtain ⟨-, h2, h3, h4⟩ := gasStep_next hs
    refine ⟨fun i hi => ?_, Nat.le_trans h2 ih.2⟩
    rw [h4 i hi]
    exact ih.1 i (by omega)

/-- C162. -/
theorem C162_gas : C162_statement := fun c w g =>
  ⟨C162_paid c w g, runGasFrom_ends _ _ _ _ ⟨start, g, 0⟩ (Nat.lt_succ_self g)⟩

/-- C162: more steps do not change the end, so a call of any program has one outcome. -/
theorem C162_one_outcome (c : Code) (w : World) (g fuel : Nat) (h : g < fuel) :
    runGas c w g fuel = runGas c w g (g + 1) := by
  have hm : ∀ (n : Nat) (s : GState) (k : Nat) (r : EvmMachine.Outcome × Nat),
      runGasFrom c (jumpdests c) w n s = some r → runGasFrom c (jumpdests c) w (n + k) s = some r := by
    intro n
    induction n with
    | zero => intro s k r h; cases h
    | succ n ih =>
      intro s k r h
      rw [Nat.succ_add]
      unfold runGasFrom at h ⊢
      cases hs : gasStep c (jumpdests c) w s with
      | done o left => rw [hs] at h; exact h
      | next u => rw [hs] at h; exact ih u k r h
  obtain ⟨o, left, h1, -⟩ := (C162_gas c w g).2
  rw [h1]
  have := hm (g + 1) _ (fuel - (g + 1)) _ h1
  rwa [Nat.add_sub_cancel' h] at this

/-! ### An example: a program that only jumps to its beginning -/

/-- `JUMPDEST`, `PUSH1 0`, `JUMP`. -/
def loopCode : Code := ⟨0x5b600056, 4⟩

/-- Without gas it runs for ever. -/
theorem loop_forever (w : World) (fuel : Nat) : run loopCode w fuel = none := by
  have jd : jumpdests loopCode = 1 := by decide +kernel
  have d0 : decode loopCode 0 = .jumpdest := by decide +kernel
  have d1 : decode loopCode 1 = .push 0 1 := by decide +kernel
  have d3 : decode loopCode 3 = .jump := by decide +kernel
  have key : ∀ fuel m k, runFrom loopCode 1 w fuel ⟨0, [], m, k⟩ = none ∧ runFrom loopCode 1 w fuel ⟨1, [], m, k⟩ = none ∧
      runFrom loopCode 1 w fuel ⟨3, [0], m, k⟩ = none := by
    intro fuel
    induction fuel with
    | zero => intro m k; exact ⟨rfl, rfl, rfl⟩
    | succ n ih =>
      intro m k
      obtain ⟨h0, h1, h3⟩ := ih m k
      refine ⟨?_, ?_, ?_⟩
      · simpa [runFrom, step, d0] using h1
      · simpa [runFrom, step, d1] using h3
      · simpa [runFrom, step, d3] using h0
  rw [run, jd]
  exact (key fuel _ _).1

/-- With gas it ends, by an exception that takes all gas. -/
example (w : World) : ∃ o left, runGas loopCode w 100 101 = some (o, left) ∧ left ≤ 100 := (C162_gas loopCode w 100).2

example : runGas loopCode ⟨0, [], fun _ => 0, failing⟩ 100 101 = some (.exception, 0) := by decide +kernel

/-- A program that writes a word at address 64: three words of memory are paid for. -/
example : ∃ s, GasReach ⟨0x6001604052, 5⟩ (jumpdests ⟨0x6001604052, 5⟩) ⟨0, [], fun _ => 0, failing⟩ ⟨start, 100, 0⟩ s ∧
    s.words = 3 ∧ s.gas = 82 ∧ s.state.mem 95 = 1 := by
  refine ⟨_, .step (.step (.step .refl rfl) rfl) rfl, ?_, ?_, ?_⟩ <;> decide +kernel

end Verif.Props
