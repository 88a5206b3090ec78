import Verif.Go.Goroutines
import Verif.Lemmas.ForkJoin
import Verif.Model.Accumulator
import Mathlib.Tactic.Linarith
import Mathlib.Tactic.Ring

/-! # Lemmas for counting goroutines -/

namespace Verif.Go

variable {α : Type}

/-- Goroutines of a program, the first one included. -/
def Prog.size : Prog α → Nat
  | .ret _ => 1
  | .fork _ cs _ => 1 + ∑ i, (cs i).size

/-- Goroutines that exist or are still to be started. -/
def Cfg.pot : Cfg α → Nat
  | .run p => p.size
  | .wait _ cs _ _ => 1 + ∑ i, (cs i).pot
  | .send _ => 1
  | .done => 0
  | .crash => 1

theorem Prog.one_le_size (p : Prog α) : 1 ≤ p.size := by
  cases p <;> simp [Prog.size]

theorem Cfg.alive_le_pot (c : Cfg α) : c.alive ≤ c.pot := by
  induction c with
  | run p => exact p.one_le_size
  | wait n cs got k ih =>
    simp only [Cfg.alive, Cfg.pot]
    exact Nat.add_le_add_left (Finset.sum_le_sum fun i _ => ih i) 1
  | _ => simp [Cfg.alive, Cfg.pot]

theorem pot_update_le {n : Nat} (f : Fin n → Cfg α) (i : Fin n) (c : Cfg α) (h : c.pot ≤ (f i).pot) :
    ∑ j, (Function.update f i c j).pot ≤ ∑ j, (f j).pot := by
  apply Finset.sum_le_sum
  intro j _
  by_cases hj : j = i
  · subst hj; rw [Function.update_self]; exact h
  · rw [Function.update_of_ne hj]

theorem Step.pot_le {c c' : Cfg α} (h : Step c c') : c'.pot ≤ c.pot := by
  induction h with
  | retOk v => simp [Cfg.pot, Prog.size]
  | retPanic e => simp [Cfg.pot, Prog.size]
  | fork n cs k => simp [Cfg.pot, Prog.size]
  | child n cs got k i c' hs ih =>
    simp only [Cfg.pot]
    exact Nat.add_le_add_left (pot_update_le cs i c' ih) 1
  | recv n cs got k h v hv =>
    simp only [Cfg.pot]
    exact Nat.add_le_add_left (pot_update_le cs _ .done (Nat.zero_le _)) 1
  | childCrash => simp [Cfg.pot]
  | joinOk => simp [Cfg.pot]
  | joinPanic => simp [Cfg.pot]

theorem Steps.pot_le {c c' : Cfg α} (h : Steps c c') : c'.pot ≤ c.pot := by
  induction h with
  | refl => exact Nat.le_refl _
  | tail _ hs ih => exact Nat.le_trans hs.pot_le ih

theorem Steps.trans {a b c : Cfg α} (h1 : Steps a b) (h2 : Steps b c) : Steps a c := by
  induction h2 with
  | refl => exact h1
  | tail _ hs ih => exact .tail ih hs

theorem Steps.childSteps (n : Nat) (cs : Fin n → Cfg α) (got : List α) (k : List α → Res α) (i : Fin n) (c' : Cfg α)
    (h : Steps (cs i) c') : Steps (.wait n cs got k) (.wait n (Function.update cs i c') got k) := by
  generalize hc : cs i = c at h
  induction h with
  | refl => rw [← hc, Function.update_eq_self]; exact .refl _
  | tail _ hs ih =>
    refine .tail ih ?_
    have := Step.child n (Function.update cs i _) got k i _ (by rw [Function.update_self]; exact hs)
    rwa [Function.update_idem] at this

/-- The children can be moved one after the other. -/
theorem Steps.children (n : Nat) (cs ds : Fin n → Cfg α) (got : List α) (k : List α → Res α)
    (h : ∀ i, Steps (cs i) (ds i)) : Steps (.wait n cs got k) (.wait n ds got k) := by
  have key : ∀ s : Finset (Fin n), Steps (.wait n cs got k) (.wait n (fun i => if i ∈ s then ds i else cs i) got k) := by
    intro s
    induction s using Finset.induction_on with
    | empty => simpa using Steps.refl _
    | insert a s ha ih =>
      refine ih.trans ?_
      have := Steps.childSteps n (fun i => if i ∈ s then ds i else cs i) got k a (ds a) (by simpa [ha] using h a)
      convert this using 2
      funext i
      by_cases hi : i = a
      · subst hi; simp
      · simp [hi]
  simpa using key Finset.univ

/-- State in which everything has been started and nothing has been computed. -/
def Prog.full : Prog α → Cfg α
  | .ret v => .run (.ret v)
  | .fork n cs k => .wait n (fun i => (cs i).full) [] k

theorem Prog.full_alive (p : Prog α) : p.full.alive = p.size := by
  induction p with
  | ret v => rfl
  | fork n cs k ih => simp only [Prog.full, Cfg.alive, Prog.size, ih]

theorem Prog.steps_full (p : Prog α) : Steps (.run p) p.full := by
  induction p with
  | ret v => exact .refl _
  | fork n cs k ih => exact (Steps.tail (.refl _) (.fork n cs k)).trans (Steps.children n _ _ [] k ih)

/-- The peak is the number of goroutines of the program. -/
theorem peakIs_size (p : Prog α) : PeakIs p (p.size - 1) := by
  have h1 := p.one_le_size
  refine ⟨fun c hc => ?_, p.full, p.steps_full, ?_⟩
  · have := c.alive_le_pot
    have := hc.pot_le
    simp only [Cfg.pot] at this
    omega
  · rw [p.full_alive]; omega

theorem PeakIs.unique {p : Prog α} {m m' : Nat} (h : PeakIs p m) (h' : PeakIs p m') : m = m' := by
  obtain ⟨c, hc, e⟩ := h.2
  obtain ⟨c', hc', e'⟩ := h'.2
  have := h'.1 c hc
  have := h.1 c' hc'
  omega

theorem Good.within {p : Prog α} {c d : Cfg α} (hg : Good p c) (hd : Within d c) : d = .done ∨ ∃ q, Good q d := by
  induction hd generalizing p with
  | self c => exact .inr ⟨p, hg⟩
  | child n cs got k i d hw ih =>
    cases hg with
    | wait _ ps _ _ _ hle hdone hrest =>
      by_cases hi : i.val < got.length
      · rw [(hdone i hi).1] at hw
        cases hw
        exact .inl rfl
      · exact ih (hrest i (by omega))

theorem Good.join_alive {p : Prog α} {d : Cfg α} {v : α} (hg : Good p d) (hs : Step d (.send v)) : d.alive = 1 := by
  cases hs with
  | retOk => rfl
  | joinOk n cs got k _ hlen _ =>
    cases hg with
    | wait _ ps _ _ _ hle hdone hrest =>
      have : ∀ i, (cs i).alive = 0 := fun i => by rw [(hdone i (by omega)).1]; rfl
      simp [Cfg.alive, this]

end Verif.Go

namespace Verif.Lemmas
open Verif.Go Verif.Model

theorem slice_size {β : Type} (l : List β) (a b : Nat) (h : b ≤ l.length) : (slice l a b).length = b - a := by
  simp only [slice, List.length_take, List.length_drop]; omega

section Products
variable {α : Type} [One α] [Mul α]

theorem sppChan_size_leaf (set : List α) (limit : Int) (h : limit = 0 ∨ set.length ≤ 2) :
    (setProductParallelWithChan set limit).size = 1 := by
  unfold setProductParallelWithChan
  split
  · rfl
  · rw [dif_pos (h.resolve_left ‹_›)]; rfl

theorem sppChan_size_fork (set : List α) (limit : Int) (h : limit ≠ 0) (h2 : 2 < set.length) :
    (setProductParallelWithChan set limit).size =
      1 + ((setProductParallelWithChan (slice set 0 (set.length / 2)) (limit - 1)).size +
        (setProductParallelWithChan (slice set (set.length / 2) set.length) (limit - 1)).size) := by
  rw [setProductParallelWithChan, if_neg h, dif_neg (by omega), Prog.size, Fin.sum_univ_two]
  rfl

theorem spp_eq_chan (set : List α) (limit : Int) : setProductParallel set limit = setProductParallelWithChan set limit := by
  conv_rhs => rw [setProductParallelWithChan]
  rw [setProductParallel]
  rfl

theorem sppChan_size_le (l : Nat) (set : List α) : (setProductParallelWithChan set (l : Int)).size ≤ 2 ^ (l + 1) - 1 := by
  induction l generalizing set with
  | zero => rw [sppChan_size_leaf _ _ (.inl (by simp))]; simp
  | succ l ih =>
    have h1 := Nat.one_le_two_pow (n := l)
    have e1 : 2 ^ (l + 1 + 1) = 2 ^ l * 4 := by rw [pow_succ, pow_succ]; omega
    have e2 : 2 ^ (l + 1) = 2 ^ l * 2 := pow_succ _ _
    by_cases h : set.length ≤ 2
    · rw [sppChan_size_leaf _ _ (.inr h)]; omega
    · rw [sppChan_size_fork _ _ (by omega) (by omega), show ((l + 1 : Nat) : Int) - 1 = l by omega]
      have h3 := ih (slice set 0 (set.length / 2))
      have h4 := ih (slice set (set.length / 2) set.length)
      omega

theorem sppChan_size_eq (l : Nat) (set : List α) (hn : l = 0 ∨ 3 * 2 ^ l ≤ 2 * set.length) :
    (setProductParallelWithChan set (l : Int)).size = 2 ^ (l + 1) - 1 := by
  induction l generalizing set with
  | zero => rw [sppChan_size_leaf _ _ (.inl (by simp))]; simp
  | succ l ih =>
    have h1 := Nat.one_le_two_pow (n := l)
    have e1 : 2 ^ (l + 1 + 1) = 2 ^ l * 4 := by rw [pow_succ, pow_succ]; omega
    have e2 : 2 ^ (l + 1) = 2 ^ l * 2 := pow_succ _ _
    have hn : 3 * 2 ^ (l + 1) ≤ 2 * set.length := by omega
    have hev : l = 0 ∨ 2 ^ l % 2 = 0 := by
      cases l with
      | zero => exact .inl rfl
      | succ l => right; rw [pow_succ]; omega
    rw [sppChan_size_fork _ _ (by omega) (by omega), show ((l + 1 : Nat) : Int) - 1 = l by omega]
    rw [ih (slice set 0 (set.length / 2)) (by rw [slice_size _ _ _ (by omega)]; omega),
      ih (slice set (set.length / 2) set.length) (by rw [slice_size _ _ _ (by omega)]; omega)]
    omega

theorem sppChan_size_neg (n : Nat) : ∀ (set : List α) (limit : Int), set.length = n → limit < 0 →
    n ≤ (setProductParallelWithChan set limit).size + 1 := by
  induction n using Nat.strong_induction_on with
  | _ n ih =>
    intro set limit hn hl
    by_cases h : set.length ≤ 2
    · rw [sppChan_size_leaf _ _ (.inr h)]; omega
    · rw [sppChan_size_fork _ _ (by omega) (by omega)]
      have h3 := ih (set.length / 2) (by omega) (slice set 0 (set.length / 2)) (limit - 1)
        (by rw [slice_size _ _ _ (by omega)]; omega) (by omega)
      have h4 := ih (set.length - set.length / 2) (by omega) (slice set (set.length / 2) set.length) (limit - 1)
        (by rw [slice_size _ _ _ (by omega)]) (by omega)
      omega

end Products

theorem chan_size_leaf (base N : Nat) (set : List Nat) (limit : Int) (h : limit ≤ 0 ∨ set.length ≤ 4) :
    (proveMembershipWithChan base N set limit).size = 1 := by
  unfold proveMembershipWithChan
  split
  · rfl
  · rw [dif_pos (h.resolve_left ‹_›)]; rfl

theorem chan_size_fork (base N : Nat) (set : List Nat) (limit : Int) (h : 0 < limit) (h2 : 4 < set.length) :
    ∃ b0 b1, (proveMembershipWithChan base N set limit).size =
      1 + ((proveMembershipWithChan b0 N (slice set 0 (set.length / 2)) (limit - 1)).size +
        (proveMembershipWithChan b1 N (slice set (set.length / 2) set.length) (limit - 1)).size) := by
  rw [proveMembershipWithChan, if_neg (by omega), dif_neg (by omega)]
  simp only [Prog.size, Fin.sum_univ_two]
  exact ⟨_, _, rfl⟩

theorem chan_size_le (l : Nat) (base N : Nat) (set : List Nat) :
    (proveMembershipWithChan base N set (l : Int)).size ≤ 2 ^ (l + 1) - 1 := by
  induction l generalizing set base with
  | zero => rw [chan_size_leaf _ _ _ _ (.inl (by simp))]; simp
  | succ l ih =>
    have h1 := Nat.one_le_two_pow (n := l)
    have e1 : 2 ^ (l + 1 + 1) = 2 ^ l * 4 := by rw [pow_succ, pow_succ]; omega
    have e2 : 2 ^ (l + 1) = 2 ^ l * 2 := pow_succ _ _
    by_cases h : set.length ≤ 4
    · rw [chan_size_leaf _ _ _ _ (.inr h)]; omega
    · obtain ⟨b0, b1, e⟩ := chan_size_fork base N set ((l + 1 : Nat) : Int) (by omega) (by omega)
      rw [e, show ((l + 1 : Nat) : Int) - 1 = l by omega]
      have h3 := ih b0 (slice set 0 (set.length / 2))
      have h4 := ih b1 (slice set (set.length / 2) set.length)
      omega

theorem chan_size_eq (l : Nat) (base N : Nat) (set : List Nat) (hn : l = 0 ∨ 5 * 2 ^ l ≤ 2 * set.length) :
    (proveMembershipWithChan base N set (l : Int)).size = 2 ^ (l + 1) - 1 := by
  induction l generalizing set base with
  | zero => rw [chan_size_leaf _ _ _ _ (.inl (by simp))]; simp
  | succ l ih =>
    have h1 := Nat.one_le_two_pow (n := l)
    have e1 : 2 ^ (l + 1 + 1) = 2 ^ l * 4 := by rw [pow_succ, pow_succ]; omega
    have e2 : 2 ^ (l + 1) = 2 ^ l * 2 := pow_succ _ _
    have hn : 5 * 2 ^ (l + 1) ≤ 2 * set.length := by omega
    have hev : l = 0 ∨ 2 ^ l % 2 = 0 := by
      cases l with
      | zero => exact .inl rfl
      | succ l => right; rw [pow_succ]; omega
    obtain ⟨b0, b1, e⟩ := chan_size_fork base N set ((l + 1 : Nat) : Int) (by omega) (by omega)
    rw [e, show ((l + 1 : Nat) : Int) - 1 = l by omega]
    rw [ih b0 (slice set 0 (set.length / 2)) (by rw [slice_size _ _ _ (by omega)]; omega),
      ih b1 (slice set (set.length / 2) set.length) (by rw [slice_size _ _ _ (by omega)]; omega)]
    omega

theorem four_size (base N : Nat) (set : List Nat) (limit : Int) :
    ∃ b0 b1 b2 b3, (fourWorkers base N set limit).size =
      1 + ((proveMembershipWithChan b0 N (slice set 0 (set.length / 4)) limit).size +
        (proveMembershipWithChan b1 N (slice set (set.length / 4) (set.length / 2)) limit).size +
        (proveMembershipWithChan b2 N (slice set (set.length / 2) (set.length * 3 / 4)) limit).size +
        (proveMembershipWithChan b3 N (slice set (set.length * 3 / 4) set.length) limit).size) := by
  rw [fourWorkers]
  simp only [Prog.size, Fin.sum_univ_four]
  exact ⟨_, _, _, _, rfl⟩

theorem four_size_one (base N : Nat) (set : List Nat) (limit : Int) (h : limit ≤ 0) :
    (fourWorkers base N set limit).size = 5 := by
  obtain ⟨b0, b1, b2, b3, e⟩ := four_size base N set limit
  rw [e]
  simp only [chan_size_leaf _ _ _ _ (.inl h)]

theorem four_size_le (l : Nat) (base N : Nat) (set : List Nat) :
    (fourWorkers base N set (l : Int)).size ≤ 2 ^ (l + 3) - 3 := by
  obtain ⟨b0, b1, b2, b3, e⟩ := four_size base N set (l : Int)
  rw [e]
  have h1 := Nat.one_le_two_pow (n := l)
  have e1 : 2 ^ (l + 3) = 2 ^ l * 8 := by rw [pow_add]; norm_num
  have e2 : 2 ^ (l + 1) = 2 ^ l * 2 := pow_succ _ _
  have h0 := chan_size_le l b0 N (slice set 0 (set.length / 4))
  have h1 := chan_size_le l b1 N (slice set (set.length / 4) (set.length / 2))
  have h2 := chan_size_le l b2 N (slice set (set.length / 2) (set.length * 3 / 4))
  have h3 := chan_size_le l b3 N (slice set (set.length * 3 / 4) set.length)
  omega

theorem four_size_eq (l : Nat) (base N : Nat) (set : List Nat) (hn : l = 0 ∨ 5 * 2 ^ (l + 1) ≤ set.length) :
    (fourWorkers base N set (l : Int)).size = 2 ^ (l + 3) - 3 := by
  obtain ⟨b0, b1, b2, b3, e⟩ := four_size base N set (l : Int)
  have h1 := Nat.one_le_two_pow (n := l)
  have e1 : 2 ^ (l + 3) = 2 ^ l * 8 := by rw [pow_add]; norm_num
  have e2 : 2 ^ (l + 1) = 2 ^ l * 2 := pow_succ _ _
  have hev : l = 0 ∨ 2 ^ l % 2 = 0 := by
    cases l with
    | zero => exact .inl rfl
    | succ l => right; rw [pow_succ]; omega
  rw [e, chan_size_eq l b0 N _ (by rw [slice_size _ _ _ (by omega)]; omega),
    chan_size_eq l b1 N _ (by rw [slice_size _ _ _ (by omega)]; omega),
    chan_size_eq l b2 N _ (by rw [slice_size _ _ _ (by omega)]; omega),
    chan_size_eq l b3 N _ (by rw [slice_size _ _ _ (by omega)]; omega)]
  omega

end Verif.Lemmas
