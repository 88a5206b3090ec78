import Verif.Props.ThreeSquares
import Verif.Props.Precompute

/-! # What is left running when ThreeSquares and Table.Compute have returned (C133) -/

namespace Verif.Props
open Verif.Go Verif.Model Verif.Lemmas

/-- The goroutine was never started or has ended. -/
def Ended (w : ThreeSq.Worker) : Prop := w = .idle ∨ w = .exited

/-- When `ThreeSquares` has returned, the goroutines it started can all still end. (Weaker than ending in every run.) -/
def C133_statement : Prop :=
  ∀ (E : TSEnv) (K n : Nat) (s : ThreeSq.St) (t : Int3), n % 4 = 1 → ThreeSq.Reach E K n s → s.main = .ret t →
    ∃ s', Exec (ThreeSq.Step E K n) s s' ∧ ∀ i, Ended (s'.workers i)

/-- Some even number below `p` has the power `(p-1)/2` equal to `-1` modulo `p`. -/
def HasRoot (p : Nat) : Prop := ∃ r < p / 2, (2 * r) ^ ((p - 1) / 2) % p = p - 1

theorem hasRoot_iff (E : TSEnv) (p : Nat) (hp : 2 ≤ p) (h4 : p % 4 = 1) : HasRoot p ↔
    ∃ coins g, CoinsOK p coins ∧ findTwoSquares E p coins = some g ∧ isValidGaussianIntGCD (some g) = true := by
  constructor
  · rintro ⟨r, hr, hu⟩
    exact exists_found_of_coin E p hp h4 r hr hu
  · rintro ⟨coins, g, hc, hg, hv⟩
    obtain ⟨r, hr, hu, -⟩ := findTwoSquaresLoop_some E p coins g hg
    exact ⟨r, hc.2 r hr, hu⟩

/-- A goroutine searching at a number without such a root searches forever, whatever the others do. -/
theorem C133_spins (E : TSEnv) (K n i : Nat) (x : Int) (p : Nat) (hp : ¬ HasRoot p) (s s' : ThreeSq.St)
    (hs : s.workers i = .search x p) (h : Exec (ThreeSq.Step E K n) s s') (hk : ∀ k, s.main = .spawn k → i < k) :
    s'.workers i = .search x p := by
  have upd : ∀ (s : ThreeSq.St) (k : Nat) (w : ThreeSq.Worker), s.workers i = .search x p →
      (k ≠ i) → Function.update s.workers k w i = .search x p := by
    intro s k w h hw
    rw [Function.update_of_ne (Ne.symm hw)]; exact h
  suffices s'.workers i = .search x p ∧ ∀ k, s'.main = .spawn k → i < k from this.1
  induction h with
  | refl => exact ⟨hs, hk⟩
  | @tail a b _ hst ih =>
    obtain ⟨ih, ihk⟩ := ih
    have no : ∀ k v, a.workers k = v → (∀ y q, v ≠ .search y q) → k ≠ i := by
      rintro k v h1 h2 rfl
      rw [ih] at h1
      exact h2 _ _ h1.symm
    cases hst with
    | spawn k hm hk' =>
      have := ihk k hm
      refine ⟨upd a k _ ih (by omega), fun k' h' => ?_⟩
      injection h' with h'
      omega
    | spawned hm => exact ⟨ih, fun k h => by cases h⟩
    | ret t hm => exact ⟨ih, fun k h => by cases h⟩
    | ctxDone k cnt hw hc => exact ⟨upd a k _ ih (no k _ hw (by simp)), ihk⟩
    | negX k cnt hw hc hx => exact ⟨upd a k _ ih (no k _ hw (by simp)), ihk⟩
    | smallP k cnt hw hc hx hp => exact ⟨upd a k _ ih (no k _ hw (by simp)), ihk⟩
    | filtered k cnt hw hc hx hp hf => exact ⟨upd a k _ ih (no k _ hw (by simp)), ihk⟩
    | search k cnt hw hc hx hp hf => exact ⟨upd a k _ ih (no k _ hw (by simp)), ihk⟩
    | again k y q coins hw hcoins hv => exact ⟨ih, ihk⟩
    | found k y q coins g hw hcoins hg hv =>
      refine ⟨upd a k _ ih ?_, ihk⟩
      rintro rfl
      rw [ih] at hw
      injection hw with h1 h2
      subst h2
      obtain ⟨r, hr, hu, -⟩ := findTwoSquaresLoop_some E _ coins g hg
      exact hp ⟨r, hcoins.2 r hr, hu⟩
    | send k t hw hm => exact ⟨upd a k _ ih (no k _ hw (by simp)), fun k h => by cases h⟩
    | drop k t hw hm => exact ⟨upd a k _ ih (no k _ hw (by simp)), ihk⟩

/-- What the states of a run have in common: only started goroutines are not idle, and numbers searched at are 1 modulo 4
and at least 2. -/
theorem lifecycle_inv (E : TSEnv) (K n : Nat) (hn : n % 4 = 1) (s : ThreeSq.St) (h : ThreeSq.Reach E K n s) :
    (∀ i, K ≤ i → s.workers i = .idle) ∧ (∀ k, s.main = .spawn k → ∀ i, k ≤ i → s.workers i = .idle) ∧
    ∀ i x p, s.workers i = .search x p → 2 ≤ p ∧ p % 4 = 1 := by
  induction h with
  | refl => exact ⟨fun _ _ => rfl, fun _ _ _ _ => rfl, fun i x p h => by cases h⟩
  | @tail a b _ hst ih =>
    obtain ⟨h1, h2, h3⟩ := ih
    have key : ∀ (k : Nat) (w : ThreeSq.Worker), a.workers k ≠ .idle →
        (∀ x p, w = .search x p → 2 ≤ p ∧ p % 4 = 1) →
        (∀ i, K ≤ i → Function.update a.workers k w i = .idle) ∧
        (∀ k', a.main = .spawn k' → ∀ i, k' ≤ i → Function.update a.workers k w i = .idle) ∧
        ∀ i x p, Function.update a.workers k w i = .search x p → 2 ≤ p ∧ p % 4 = 1 := by
      intro k w hk hw
      refine ⟨fun i hi => ?_, fun k' hk' i hi => ?_, fun i x p he => ?_⟩
      · rw [Function.update_of_ne (by rintro rfl; exact hk (h1 _ hi))]; exact h1 i hi
      · rw [Function.update_of_ne (by rintro rfl; exact hk (h2 _ hk' _ hi))]; exact h2 k' hk' i hi
      · by_cases hik : i = k
        · subst hik; rw [Function.update_self] at he; exact hw x p he
        · rw [Function.update_of_ne hik] at he; exact h3 i x p he
    cases hst with
    | spawn k hm hk =>
      refine ⟨fun i hi => ?_, fun k' hk' i hi => ?_, fun i x p he => ?_⟩
      · show Function.update a.workers k (.top k) i = .idle
        rw [Function.update_of_ne (by omega)]; exact h1 i hi
      · injection hk' with hk'
        show Function.update a.workers k (.top k) i = .idle
        rw [Function.update_of_ne (by omega)]; exact h2 k hm i (by omega)
      · change Function.update a.workers k (.top k) i = .search x p at he
        by_cases hik : i = k
        · subst hik; rw [Function.update_self] at he; cases he
        · rw [Function.update_of_ne hik] at he; exact h3 i x p he
    | spawned hm => exact ⟨h1, (fun k h => by cases h), h3⟩
    | ret t hm => exact ⟨h1, (fun k h => by cases h), h3⟩
    | ctxDone k cnt hw hc => exact key k _ (by rw [hw]; simp) (by simp)
    | negX k cnt hw hc hx => exact key k _ (by rw [hw]; simp) (by simp)
    | smallP k cnt hw hc hx hp => exact key k _ (by rw [hw]; simp) (by simp)
    | filtered k cnt hw hc hx hp hf => exact key k _ (by rw [hw]; simp) (by simp)
    | search k cnt hw hc hx hp hf =>
      refine key k _ (by rw [hw]; simp) ?_
      intro x p he
      injection he with he1 he2
      subst he2
      refine ⟨by omega, ?_⟩
      have : ThreeSq.candP n cnt = n - 4 * (ThreeSq.halfX n cnt * ThreeSq.halfX n cnt) := by
        unfold ThreeSq.candP; ring
      generalize ThreeSq.halfX n cnt * ThreeSq.halfX n cnt = y at this
      omega
    | again k y q coins hw hcoins hv => exact ⟨h1, h2, h3⟩
    | found k y q coins g hw hcoins hg hv => exact key k _ (by rw [hw]; simp) (by simp)
    | send k t hw hm =>
      obtain ⟨k1, -, k3⟩ := key k .exited (by rw [hw]; simp) (by simp)
      exact ⟨k1, (fun k h => by cases h), k3⟩
    | drop k t hw hm => exact key k _ (by rw [hw]; simp) (by simp)

/-- After the return a single goroutine that is not searching at a number without root can end, without the others
moving. -/
theorem can_end (E : TSEnv) (K n i : Nat) (s : ThreeSq.St) (t : Int3) (hm : s.main = .ret t)
    (h : ∀ x p, s.workers i = .search x p → 2 ≤ p ∧ p % 4 = 1 ∧ HasRoot p) :
    ∃ s', Exec (ThreeSq.Step E K n) s s' ∧ s'.main = .ret t ∧ Ended (s'.workers i) ∧
      ∀ j, j ≠ i → s'.workers j = s.workers j := by
  cases hw : s.workers i with
  | idle => exact ⟨s, .refl _, hm, .inl hw, fun _ _ => rfl⟩
  | exited => exact ⟨s, .refl _, hm, .inr hw, fun _ _ => rfl⟩
  | top cnt =>
    refine ⟨_, .tail (.refl _) (.ctxDone s i cnt hw (by rw [hm]; trivial)), hm, .inr ?_, fun j hj => ?_⟩
    · simp [ThreeSq.setWorker]
    · simp [ThreeSq.setWorker, Function.update_of_ne hj]
  | send u =>
    refine ⟨_, .tail (.refl _) (.drop s i u hw (by rw [hm]; simp)), hm, .inr ?_, fun j hj => ?_⟩
    · simp [ThreeSq.setWorker]
    · simp [ThreeSq.setWorker, Function.update_of_ne hj]
  | search x p =>
    obtain ⟨h2, h4, hr⟩ := h x p hw
    obtain ⟨coins, g, hc, hg, hv⟩ := (hasRoot_iff E p h2 h4).1 hr
    refine ⟨_, .tail (.tail (.refl _) (.found s i x p coins g hw hc hg hv))
      (.drop _ i (newInt3 x g.re g.im) (by simp [ThreeSq.setWorker]) (by simp [ThreeSq.setWorker, hm])), hm, .inr ?_,
      fun j hj => ?_⟩
    · simp [ThreeSq.setWorker]
    · simp [ThreeSq.setWorker, Function.update_of_ne hj]

/-- The exact condition: in a state in which the call has returned, all goroutines can still end if and only if none of
them searches at a number without root. Missing from `C133_statement`: states with such a goroutine. -/
theorem C133_ends_iff_partial (E : TSEnv) (K n : Nat) (hn : n % 4 = 1) (s : ThreeSq.St) (t : Int3)
    (h : ThreeSq.Reach E K n s) (hm : s.main = .ret t) :
    (∃ s', Exec (ThreeSq.Step E K n) s s' ∧ ∀ i, Ended (s'.workers i)) ↔
      ∀ i x p, s.workers i = .search x p → HasRoot p := by
  obtain ⟨h1, -, h3⟩ := lifecycle_inv E K n hn s h
  constructor
  · rintro ⟨s', hs', he⟩ i x p hw
    by_contra hr
    have := C133_spins E K n i x p hr s s' hw hs' (fun k hk => by rw [hm] at hk; cases hk)
    rcases he i with h | h <;> rw [this] at h <;> cases h
  · intro hr
    have key : ∀ k, ∃ s', Exec (ThreeSq.Step E K n) s s' ∧ s'.main = .ret t ∧ (∀ i, i < k → Ended (s'.workers i)) ∧
        ∀ i, k ≤ i → s'.workers i = s.workers i := by
      intro k
      induction k with
      | zero => exact ⟨s, .refl _, hm, fun i hi => by omega, fun _ _ => rfl⟩
      | succ k ih =>
        obtain ⟨a, ha, hma, he, hs⟩ := ih
        obtain ⟨b, hb, hmb, heb, hsb⟩ := can_end E K n k a t hma (by
          intro x p hw
          rw [hs k (Nat.le_refl _)] at hw
          exact ⟨(h3 k x p hw).1, (h3 k x p hw).2, hr k x p hw⟩)
        refine ⟨b, ThreeSqL.exec_trans ha hb, hmb, fun i hi => ?_, fun i hi => ?_⟩
        · by_cases hik : i = k
          · subst hik; exact heb
          · rw [hsb i hik]; exact he i (by omega)
        · rw [hsb i (by omega)]; exact hs i (by omega)
    obtain ⟨s', hs', -, he, hs⟩ := key K
    refine ⟨s', hs', fun i => ?_⟩
    by_cases hi : i < K
    · exact he i hi
    · left; rw [hs i (by omega)]; exact h1 i (by omega)

/-- At a prime that is 1 modulo 4 there is a root, so a goroutine searching there can end. -/
theorem C133_prime_partial (p : Nat) (hp : p.Prime) (h4 : p % 4 = 1) : HasRoot p := exists_coin p hp h4

/-- How many steps a goroutine makes after the return, apart from rounds of the search without a result. -/
def leftSteps : ThreeSq.Worker → Nat
  | .idle => 0
  | .top _ => 1
  | .search _ _ => 2
  | .send _ => 1
  | .exited => 0

theorem leftSteps_update (K : Nat) (f : Nat → ThreeSq.Worker) (i : Nat) (w : ThreeSq.Worker)
    (hidle : ∀ i, K ≤ i → f i = .idle) (h : leftSteps w < leftSteps (f i)) :
    ∑ j ∈ Finset.range K, leftSteps (Function.update f i w j) < ∑ j ∈ Finset.range K, leftSteps (f j) := by
  have hi : i < K := by
    by_contra hi
    rw [hidle i (by omega)] at h
    simp [leftSteps] at h
  apply Finset.sum_lt_sum
  · intro j _
    by_cases hj : j = i
    · subst hj; rw [Function.update_self]; omega
    · rw [Function.update_of_ne hj]
  · exact ⟨i, Finset.mem_range.2 hi, by rw [Function.update_self]; exact h⟩

/-- Nothing else is left running: after the return there are at most two steps per goroutine that are not rounds of a search
without a result, and where no such step is possible every goroutine has ended or searches at a number without root. -/
theorem C133_others_end_partial (E : TSEnv) (K n : Nat) (hn : n % 4 = 1) (s : ThreeSq.St) (t : Int3)
    (h : ThreeSq.Reach E K n s) (hm : s.main = .ret t) :
    AlwaysStops (fun a b => ThreeSq.Step E K n a b ∧ b ≠ a) s ∧
    ∀ s', Exec (ThreeSq.Step E K n) s s' → s'.main = .ret t ∧
      ((∀ s'', ThreeSq.Step E K n s' s'' → s'' = s') →
        ∀ i, Ended (s'.workers i) ∨ ∃ x p, s'.workers i = .search x p ∧ ¬ HasRoot p) := by
  have hret : ∀ a b, a.main = .ret t → ThreeSq.Step E K n a b → b.main = .ret t := by
    intro a b ha hst
    cases hst with
    | spawn k hm hk => rw [ha] at hm; cases hm
    | spawned hm => rw [ha] at hm; cases hm
    | ret t hm => rw [ha] at hm; cases hm
    | send k t hw hm => rw [ha] at hm; cases hm
    | _ => exact ha
  refine ⟨?_, ?_⟩
  · refine alwaysStops_of_measure _ (fun a => ThreeSq.Reach E K n a ∧ a.main = .ret t)
      (fun a => ∑ j ∈ Finset.range K, leftSteps (a.workers j)) _ ⟨h, hm⟩
      (fun a b ha hb => ⟨.tail ha.1 hb.1, hret a b ha.2 hb.1⟩) ?_
    rintro a b ⟨ha, hma⟩ ⟨hst, hne⟩
    have hidle := (lifecycle_inv E K n hn a ha).1
    have hcan : a.main.cancelled := by rw [hma]; trivial
    cases hst with
    | spawn k hm hk => rw [hma] at hm; cases hm
    | spawned hm => rw [hma] at hm; cases hm
    | ret t hm => rw [hma] at hm; cases hm
    | ctxDone k cnt hw hc => exact leftSteps_update K _ k _ hidle (by rw [hw]; simp [leftSteps])
    | negX k cnt hw hc hx => exact absurd hcan hc
    | smallP k cnt hw hc hx hp => exact absurd hcan hc
    | filtered k cnt hw hc hx hp hf => exact absurd hcan hc
    | search k cnt hw hc hx hp hf => exact absurd hcan hc
    | again k y q coins hw hcoins hv => exact absurd rfl hne
    | found k y q coins g hw hcoins hg hv => exact leftSteps_update K _ k _ hidle (by rw [hw]; simp [leftSteps])
    | send k t hw hm => rw [hma] at hm; cases hm
    | drop k t hw hm => exact leftSteps_update K _ k _ hidle (by rw [hw]; simp [leftSteps])
  · intro s' hs'
    have hm' : s'.main = .ret t := by
      induction hs' with
      | refl => exact hm
      | tail _ hst ih => exact hret _ _ ih hst
    refine ⟨hm', fun hstuck i => ?_⟩
    obtain ⟨-, -, h3⟩ := lifecycle_inv E K n hn s' (ThreeSqL.exec_trans h hs')
    have neq : ∀ w, s'.workers i ≠ w → ThreeSq.setWorker s' i w ≠ s' := by
      intro w hw he
      apply hw
      conv_lhs => rw [← he]
      simp [ThreeSq.setWorker]
    cases hw : s'.workers i with
    | idle => exact .inl (.inl rfl)
    | exited => exact .inl (.inr rfl)
    | top cnt => exact absurd (hstuck _ (.ctxDone s' i cnt hw (by rw [hm']; trivial))) (neq _ (by rw [hw]; simp))
    | send u => exact absurd (hstuck _ (.drop s' i u hw (by rw [hm']; simp))) (neq _ (by rw [hw]; simp))
    | search x p =>
      right
      refine ⟨x, p, rfl, fun hr => ?_⟩
      obtain ⟨coins, g, hc, hg, hv⟩ := (hasRoot_iff E p (h3 i x p hw).1 (h3 i x p hw).2).1 hr
      exact absurd (hstuck _ (.found s' i x p coins g hw hc hg hv)) (neq _ (by rw [hw]; simp))

/-! ## The numbers `4m² + 9` -/

theorem nine_no_root : ¬ HasRoot 9 := by
  have : ∀ r < 4, (2 * r) ^ 4 % 9 ≠ 8 := by decide +kernel
  rintro ⟨r, hr, hu⟩
  exact this r hr hu

theorem rt_nine (m : Nat) (hm : 1 ≤ m) : ThreeSq.rtOf (4 * m ^ 2 + 9) = m := by
  unfold ThreeSq.rtOf
  have h1 : 2 * m ≤ Nat.sqrt (4 * m ^ 2 + 9) := Nat.le_sqrt.2 (by nlinarith)
  have h2 : Nat.sqrt (4 * m ^ 2 + 9) < 2 * m + 2 := Nat.sqrt_lt.2 (by nlinarith)
  omega

theorem cand_nine (m : Nat) (hm : 1 ≤ m) :
    ThreeSq.halfX (4 * m ^ 2 + 9) 0 = m ∧ ThreeSq.candP (4 * m ^ 2 + 9) 0 = 9 := by
  have h : ThreeSq.halfX (4 * m ^ 2 + 9) 0 = m := by simp [ThreeSq.halfX, rt_nine m hm]
  refine ⟨h, ?_⟩
  unfold ThreeSq.candP
  rw [h]
  push_cast
  ring

/-- Goroutine 0 at its first candidate, if it was started. -/
def moved (m : Nat) : ThreeSq.Worker → ThreeSq.Worker
  | .idle => .idle
  | _ => .search (2 * m) 9

theorem moved_started (m : Nat) (w : ThreeSq.Worker) (h : w ≠ .idle) : moved m w = .search (2 * m) 9 := by
  cases w <;> first | rfl | exact absurd rfl h

/-- The state with goroutine 0, if it was started, at its first candidate. -/
def atNine (m : Nat) (s : ThreeSq.St) : ThreeSq.St :=
  { s with workers := Function.update s.workers 0 (moved m (s.workers 0)) }

theorem atNine_other (m : Nat) (s : ThreeSq.St) (i : Nat) (hi : i ≠ 0) : (atNine m s).workers i = s.workers i := by
  simp [atNine, Function.update_of_ne hi]

/-- A step of goroutine 0 that leaves it started does not show. -/
theorem atNine_zero (m : Nat) (s : ThreeSq.St) (w : ThreeSq.Worker) (h : s.workers 0 ≠ .idle) (hw : w ≠ .idle) :
    atNine m (ThreeSq.setWorker s 0 w) = atNine m s := by
  simp [atNine, ThreeSq.setWorker, moved_started m _ h, moved_started m _ hw]

theorem atNine_set (m : Nat) (s : ThreeSq.St) (i : Nat) (w : ThreeSq.Worker) (hi : i ≠ 0) (mn : ThreeSq.Main) :
    atNine m { main := mn, workers := Function.update s.workers i w } =
      { main := mn, workers := Function.update (atNine m s).workers i w } := by
  unfold atNine
  congr 1
  dsimp only
  rw [Function.update_of_ne (Ne.symm hi), Function.update_comm hi]

/-- Goroutine 0 of a call for `4m² + 9` never has a result. -/
theorem zero_of_nine (E : TSEnv) (K m : Nat) (hm : 1 ≤ m) (s : ThreeSq.St) (h : ThreeSq.Reach E K (4 * m ^ 2 + 9) s) :
    s.workers 0 = .idle ∨ s.workers 0 = .top 0 ∨ s.workers 0 = .search (2 * m) 9 ∨
      (s.workers 0 = .exited ∧ s.main.cancelled) := by
  obtain ⟨hx0, hc0⟩ := cand_nine m hm
  induction h with
  | refl => exact .inl rfl
  | @tail a b _ hst ih =>
    have other : ∀ (k : Nat) (w : ThreeSq.Worker) (mn : ThreeSq.Main), k ≠ 0 → (a.main.cancelled → mn.cancelled) →
        Function.update a.workers k w 0 = .idle ∨ Function.update a.workers k w 0 = .top 0 ∨
        Function.update a.workers k w 0 = .search (2 * m) 9 ∨
        (Function.update a.workers k w 0 = .exited ∧ mn.cancelled) := by
      intro k w mn hk hmn
      rw [Function.update_of_ne (Ne.symm hk)]
      rcases ih with h | h | h | ⟨h, h'⟩
      · exact .inl h
      · exact .inr (.inl h)
      · exact .inr (.inr (.inl h))
      · exact .inr (.inr (.inr ⟨h, hmn h'⟩))
    have top0 : ∀ c, a.workers 0 = .top c → c = 0 := by
      intro c hc
      rcases ih with h | h | h | ⟨h, -⟩ <;> rw [h] at hc <;> cases hc
      rfl
    cases hst with
    | spawn k hm' hk =>
      by_cases hk0 : k = 0
      · subst hk0; right; left; simp
      · exact other k _ _ hk0 (by rw [hm']; exact False.elim)
    | spawned hm' =>
      rcases ih with h | h | h | ⟨h, h'⟩
      · exact .inl h
      · exact .inr (.inl h)
      · exact .inr (.inr (.inl h))
      · rw [hm'] at h'; exact h'.elim
    | ret t hm' =>
      rcases ih with h | h | h | ⟨h, h'⟩
      · exact .inl h
      · exact .inr (.inl h)
      · exact .inr (.inr (.inl h))
      · exact .inr (.inr (.inr ⟨h, trivial⟩))
    | ctxDone k cnt hw hc =>
      by_cases hk0 : k = 0
      · subst hk0; right; right; right; exact ⟨by simp [ThreeSq.setWorker], hc⟩
      · exact other k _ _ hk0 id
    | negX k cnt hw hc hx =>
      refine other k _ _ ?_ id
      rintro rfl
      rw [top0 cnt hw, hx0] at hx; omega
    | smallP k cnt hw hc hx hp =>
      refine other k _ _ ?_ id
      rintro rfl
      rw [top0 cnt hw, hc0] at hp; omega
    | filtered k cnt hw hc hx hp hf =>
      refine other k _ _ ?_ id
      rintro rfl
      rw [top0 cnt hw, hc0] at hf
      have := hf.1
      revert this
      decide
    | search k cnt hw hc hx hp hf =>
      by_cases hk0 : k = 0
      · subst hk0
        right; right; left
        rw [top0 cnt hw, hx0, hc0]
        simp [ThreeSq.setWorker]
      · exact other k _ _ hk0 id
    | again k y q coins hw hcoins hv => exact ih
    | found k y q coins g hw hcoins hg hv =>
      refine other k _ _ ?_ id
      rintro rfl
      rcases ih with h | h | h | ⟨h, -⟩ <;> rw [h] at hw <;> cases hw
      obtain ⟨r, hr, hu, -⟩ := findTwoSquaresLoop_some E _ coins g hg
      exact nine_no_root ⟨r, hcoins.2 r hr, hu⟩
    | send k t hw hm' =>
      refine other k _ _ ?_ (by rw [hm']; exact False.elim)
      rintro rfl
      rcases ih with h | h | h | ⟨h, -⟩ <;> rw [h] at hw <;> cases hw
    | drop k t hw hm' =>
      refine other k _ _ ?_ id
      rintro rfl
      rcases ih with h | h | h | ⟨h, -⟩ <;> rw [h] at hw <;> cases hw

/-- Every run for `4m² + 9` can be changed so that goroutine 0 goes at once to its first candidate. -/
theorem atNine_reach (E : TSEnv) (K m : Nat) (hm : 1 ≤ m) (s : ThreeSq.St) (h : ThreeSq.Reach E K (4 * m ^ 2 + 9) s) :
    ThreeSq.Reach E K (4 * m ^ 2 + 9) (atNine m s) := by
  obtain ⟨hx0, hc0⟩ := cand_nine m hm
  induction h with
  | refl => simpa [atNine, ThreeSq.Reach, ThreeSq.init, moved] using Exec.refl (step := ThreeSq.Step E K (4 * m ^ 2 + 9)) ThreeSq.init
  | @tail a b hab hst ih =>
    have hz := zero_of_nine E K m hm a hab
    have zero : ∀ w, a.workers 0 ≠ .idle → w ≠ .idle →
        ThreeSq.Reach E K (4 * m ^ 2 + 9) (atNine m (ThreeSq.setWorker a 0 w)) := by
      intro w h1 h2
      rw [atNine_zero m a w h1 h2]; exact ih
    have other : ∀ (k : Nat) (w : ThreeSq.Worker) (mn : ThreeSq.Main), k ≠ 0 →
        ThreeSq.Step E K (4 * m ^ 2 + 9) (atNine m a) { main := mn, workers := Function.update (atNine m a).workers k w } →
        ThreeSq.Reach E K (4 * m ^ 2 + 9) (atNine m { main := mn, workers := Function.update a.workers k w }) := by
      intro k w mn hk hs
      rw [atNine_set m a k w hk mn]
      exact .tail ih hs
    cases hst with
    | spawn k hm' hk =>
      by_cases hk0 : k = 0
      · subst hk0
        have r1 := Exec.tail ih (ThreeSq.Step.spawn (atNine m a) 0 hm' hk)
        have r2 := Exec.tail r1 (ThreeSq.Step.search _ 0 0 (by simp) id (by rw [hx0]; omega) (by rw [hc0]; omega)
          (by rw [hc0]; rintro ⟨h, -⟩; revert h; decide))
        rw [hx0, hc0] at r2
        simpa [atNine, ThreeSq.Reach, ThreeSq.setWorker, moved] using r2
      · exact other k _ _ hk0 (.spawn (atNine m a) k hm' hk)
    | spawned hm' => exact .tail ih (.spawned (atNine m a) hm')
    | ret t hm' => exact .tail ih (.ret (atNine m a) t hm')
    | ctxDone k cnt hw hc =>
      by_cases hk0 : k = 0
      · subst hk0; exact zero _ (by rw [hw]; simp) (by simp)
      · exact other k _ _ hk0 (.ctxDone (atNine m a) k cnt (by rw [atNine_other m a k hk0, hw]) hc)
    | negX k cnt hw hc hx =>
      by_cases hk0 : k = 0
      · subst hk0; exact zero _ (by rw [hw]; simp) (by simp)
      · exact other k _ _ hk0 (.negX (atNine m a) k cnt (by rw [atNine_other m a k hk0, hw]) hc hx)
    | smallP k cnt hw hc hx hp =>
      by_cases hk0 : k = 0
      · subst hk0; exact zero _ (by rw [hw]; simp) (by simp)
      · exact other k _ _ hk0 (.smallP (atNine m a) k cnt (by rw [atNine_other m a k hk0, hw]) hc hx hp)
    | filtered k cnt hw hc hx hp hf =>
      by_cases hk0 : k = 0
      · subst hk0; exact zero _ (by rw [hw]; simp) (by simp)
      · exact other k _ _ hk0 (.filtered (atNine m a) k cnt (by rw [atNine_other m a k hk0, hw]) hc hx hp hf)
    | search k cnt hw hc hx hp hf =>
      by_cases hk0 : k = 0
      · subst hk0; exact zero _ (by rw [hw]; simp) (by simp)
      · exact other k _ _ hk0 (.search (atNine m a) k cnt (by rw [atNine_other m a k hk0, hw]) hc hx hp hf)
    | again k y q coins hw hcoins hv => exact ih
    | found k y q coins g hw hcoins hg hv =>
      by_cases hk0 : k = 0
      · subst hk0; exact zero _ (by rw [hw]; simp) (by simp)
      · exact other k _ _ hk0 (.found (atNine m a) k y q coins g (by rw [atNine_other m a k hk0, hw]) hcoins hg hv)
    | send k t hw hm' =>
      have hk0 : k ≠ 0 := by
        rintro rfl
        rcases hz with h | h | h | ⟨h, -⟩ <;> rw [h] at hw <;> cases hw
      exact other k _ _ hk0 (.send (atNine m a) k t (by rw [atNine_other m a k hk0, hw]) hm')
    | drop k t hw hm' =>
      by_cases hk0 : k = 0
      · subst hk0; exact zero _ (by rw [hw]; simp) (by simp)
      · exact other k _ _ hk0 (.drop (atNine m a) k t (by rw [atNine_other m a k hk0, hw]) hm')

theorem started_of_ret (E : TSEnv) (K n : Nat) (hK : 1 ≤ K) (s : ThreeSq.St) (h : ThreeSq.Reach E K n s) :
    (∃ k, s.main = .spawn k ∧ k = 0) ∨ s.workers 0 ≠ .idle := by
  induction h with
  | refl => exact .inl ⟨0, rfl, rfl⟩
  | @tail a b _ hst ih =>
    have upd : ∀ (k : Nat) (w : ThreeSq.Worker), w ≠ .idle → a.workers 0 ≠ .idle →
        Function.update a.workers k w 0 ≠ .idle := by
      intro k w hw h
      by_cases hk : (0 : Nat) = k
      · subst hk; rw [Function.update_self]; exact hw
      · rw [Function.update_of_ne hk]; exact h
    have keep : ∀ (k : Nat) (w : ThreeSq.Worker), w ≠ .idle →
        (∃ k, a.main = .spawn k ∧ k = 0) ∨ Function.update a.workers k w 0 ≠ .idle := by
      intro k w hw
      rcases ih with h | h
      · exact .inl h
      · exact .inr (upd k w hw h)
    cases hst with
    | spawn k hm' hk =>
      right
      rcases ih with ⟨k', h1, h2⟩ | h
      · rw [hm'] at h1
        injection h1 with h1
        subst h1
        subst h2
        simp
      · exact upd k _ (by simp) h
    | spawned hm' =>
      right
      rcases ih with ⟨k', h1, h2⟩ | h
      · rw [hm'] at h1
        injection h1 with h1
        omega
      · exact h
    | ret t hm' =>
      right
      rcases ih with ⟨k', h1, h2⟩ | h
      · rw [hm'] at h1; cases h1
      · exact h
    | ctxDone k cnt hw hc => exact keep k _ (by simp)
    | negX k cnt hw hc hx => exact keep k _ (by simp)
    | smallP k cnt hw hc hx hp => exact keep k _ (by simp)
    | filtered k cnt hw hc hx hp hf => exact keep k _ (by simp)
    | search k cnt hw hc hx hp hf => exact keep k _ (by simp)
    | again k y q coins hw hcoins hv => exact ih
    | found k y q coins g hw hcoins hg hv => exact keep k _ (by simp)
    | send k t hw hm' =>
      right
      rcases ih with ⟨k', h1, h2⟩ | h
      · rw [hm'] at h1; cases h1
      · exact upd k _ (by simp) h
    | drop k t hw hm' => exact keep k _ (by simp)

/-- `ThreeSquares(4m² + 9)`, for arbitrarily large numbers and any number of CPUs: whatever result it can return, it can
return while goroutine 0 searches at the number 9, and in every continuation goroutine 0 then searches forever. -/
theorem C133_leak (E : TSEnv) (K m : Nat) (hK : 1 ≤ K) (hm : 1 ≤ m) (t : Int3)
    (h : ThreeSquaresReturns E K ((4 * m ^ 2 + 9 : Nat) : Int) t) :
    ∃ s, ThreeSq.Reach E K (4 * m ^ 2 + 9) s ∧ s.main = .ret t ∧
      ∀ s', Exec (ThreeSq.Step E K (4 * m ^ 2 + 9)) s s' → s'.workers 0 = .search (2 * m) 9 := by
  obtain ⟨-, s, hs, hmain⟩ := h
  rw [Int.toNat_natCast] at hs
  have hne : s.workers 0 ≠ .idle := by
    rcases started_of_ret E K _ hK s hs with ⟨k, h1, -⟩ | h
    · rw [hmain] at h1; cases h1
    · exact h
  refine ⟨atNine m s, atNine_reach E K m hm s hs, hmain, fun s' hs' => ?_⟩
  refine C133_spins E K _ 0 _ 9 nine_no_root _ s' (by simp [atNine, moved_started m _ hne]) hs' (fun k hk => ?_)
  rw [show (atNine m s).main = s.main from rfl, hmain] at hk
  cases hk

/-- For `m = 1` and two CPUs: goroutine 1 has 13 = 0² + 3² + 2². -/
theorem returns_13 : ∃ t, ThreeSquaresReturns tsEnv 2 ((4 * 1 ^ 2 + 9 : Nat) : Int) t := by
  have hsq : Nat.sqrt 13 = 3 := Nat.sqrt_add_eq 3 (a := 4) (by omega)
  have hc : candidate 13 (1 + 0 * 2) = 13 := by simp [candidate, hsq]
  exact C49_some_run_returns tsEnv 2 13 1 0 (by omega) (by rw [hsq]) (fun _ h => by omega)
    (by rw [hc]; norm_num) (by rw [hc]) (.inl (by rw [hc]; norm_num))

theorem C133_violated : ¬ C133_statement := by
  intro h
  obtain ⟨t, ht⟩ := returns_13
  obtain ⟨s, hs, hm, hsp⟩ := C133_leak tsEnv 2 1 (by omega) (by omega) t ht
  obtain ⟨s', hs', he⟩ := h tsEnv 2 _ s t (by norm_num) hs hm
  rcases he 0 with h | h <;> rw [hsp s' hs'] at h <;> cases h

/-- A range proof for `x = a + 1` in `[a, a + 3 + m²]` decomposes `4m² + 9`. -/
example (a m : Int) : 4 * ((a + 1 - a) * (a + 3 + m ^ 2 - (a + 1))) + 1 = 4 * m ^ 2 + 9 := by ring

/-! ## Table.Compute -/

theorem compute_not_crashed (t : Table) (xb : Bytes) (k : Nat) (hc : 0 < t.byteChunkSize) (s : TableCompute.State)
    (hs : Exec (TableCompute.Step t xb k) (TableCompute.init t xb k) s) (v : Int) (hv : s.main = .returned v) :
    s.crashed = false := by
  have hb := TableCompute.book_init t xb k hc
  induction hs with
  | refl => cases hv
  | @tail a b hab hst ih =>
    have hB := TableCompute.exec_book _ _ _ _ a hb hab
    cases hst with
    | dispatch i rest hc hm hq => exact hc
    | take l r i q hc hw hq => exact hc
    | compute l r i w hc hw hq => exact hc
    | computePanic l r i hc hw hq =>
      have := (hB.ret v hv).2
      rw [TableCompute.outstanding_eq, hw] at this
      simp [TableCompute.gotOf] at this
    | put l r w hc hw hq => exact hc
    | collect cnt res w q hc hcol hq hne => exact hc
    | collectLast cnt res w q hc hcol hq hne => exact hc
    | handOver res hc hm hcol => exact hc
    | stop l r res hc hw hm => exact hc

/-- `Compute(x, k)`, for every table from `NewTable`, every number and every `k`: when it has returned, nothing is left in
the channels, the collector has finished, every worker is waiting or has stopped, nothing more can crash, and every
execution from there ends with all workers stopped. -/
theorem C133_compute (g n ub : Int) (m c : Nat) (t : Table) (hn : 1 ≤ n) (ht : newTable g n ub m c = .ok t) (x : Int)
    (k : Nat) (s : TableCompute.State)
    (hs : Exec (TableCompute.Step t (natBytes x.natAbs) k) (TableCompute.init t (natBytes x.natAbs) k) s) (v : Int)
    (hv : s.main = .returned v) :
    s.inQ = [] ∧ s.outQ = [] ∧ s.col = .finished ∧ s.crashed = false ∧ s.workers.length = k ∧
    (∀ w ∈ s.workers, w = .idle ∨ w = .stopped) ∧
    AlwaysStops (TableCompute.Step t (natBytes x.natAbs) k) s ∧
    ∀ s', Exec (TableCompute.Step t (natBytes x.natAbs) k) s s' → s'.main = .returned v ∧
      ((∀ s'', ¬ TableCompute.Step t (natBytes x.natAbs) k s' s'') → s'.workers = List.replicate k .stopped) := by
  obtain ⟨N, rfl⟩ : ∃ N : Nat, n = N := ⟨n.toNat, by omega⟩
  have := neZero_of_pos hn
  have hc := (newTable_ok (N := N) g ub m c t ht).1.chunk
  have hb := TableCompute.book_init t (natBytes x.natAbs) k hc
  have facts : ∀ s, Exec (TableCompute.Step t (natBytes x.natAbs) k) (TableCompute.init t (natBytes x.natAbs) k) s →
      s.main = .returned v → s.inQ = [] ∧ s.outQ = [] ∧ s.col = .finished ∧ s.crashed = false ∧ s.workers.length = k ∧
      (∀ w ∈ s.workers, w = .idle ∨ w = .stopped) := by
    intro s hs hv
    have hB := TableCompute.exec_book _ _ _ _ s hb hs
    obtain ⟨hfin, hout⟩ := hB.ret v hv
    rw [TableCompute.outstanding_eq] at hout
    refine ⟨List.length_eq_zero_iff.1 (by omega), List.length_eq_zero_iff.1 (by omega), hfin,
      compute_not_crashed t _ k hc s hs v hv, hB.len, fun w hw => ?_⟩
    have h1 : s.workers.filterMap TableCompute.gotOf = [] := List.length_eq_zero_iff.1 (by omega)
    have h2 : s.workers.filterMap TableCompute.sendingOf = [] := List.length_eq_zero_iff.1 (by omega)
    rw [List.filterMap_eq_nil_iff] at h1 h2
    cases w with
    | idle => exact .inl rfl
    | stopped => exact .inr rfl
    | got i => have := h1 _ hw; cases this
    | sending u => have := h2 _ hw; cases this
  have hret : ∀ s', Exec (TableCompute.Step t (natBytes x.natAbs) k) s s' → s'.main = .returned v := by
    intro s' hs'
    induction hs' with
    | refl => exact hv
    | tail _ hst ih =>
      cases hst with
      | dispatch i rest hc hm hq => rw [ih] at hm; cases hm
      | handOver res hc hm hcol => rw [ih] at hm; cases hm
      | _ => exact ih
  obtain ⟨f1, f2, f3, f4, f5, f6⟩ := facts s hs hv
  refine ⟨f1, f2, f3, f4, f5, f6, alwaysStops_of_measure _ (fun _ => True) TableCompute.weight _ trivial
    (fun _ _ _ _ => trivial) (fun a b _ h => TableCompute.step_weight _ _ _ a b h), fun s' hs' => ⟨hret s' hs', ?_⟩⟩
  intro hstuck
  obtain ⟨-, -, -, g4, g5, g6⟩ := facts s' (ThreeSqL.exec_trans hs hs') (hret s' hs')
  rw [List.eq_replicate_iff]
  refine ⟨g5, fun w hw => ?_⟩
  rcases g6 w hw with rfl | rfl
  · obtain ⟨l, r, he⟩ := List.append_of_mem hw
    exact absurd (TableCompute.Step.stop s' l r v g4 he (hret s' hs')) (hstuck _)
  · rfl

/-- Two workers on 300, which takes two chunks: the call returns, and afterwards both workers are waiting or have stopped. -/
example : ∃ s, Exec (TableCompute.Step ⟨35, 1, [2, 16, 16]⟩ (natBytes (300 : Int).natAbs) 2)
      (TableCompute.init ⟨35, 1, [2, 16, 16]⟩ (natBytes (300 : Int).natAbs) 2) s ∧ s.workers.length = 2 ∧
      ∀ w ∈ s.workers, w = .idle ∨ w = .stopped := by
  have ht : newTable 2 35 255 3 1 = .ok ⟨35, 1, [2, 16, 16]⟩ := by decide +kernel
  obtain ⟨⟨s, hs, hv⟩, -⟩ := C34_returns_partial 2 35 255 3 1 _ (by norm_num) ht 300 (by norm_num)
    (by unfold Fits; decide +kernel) 2 (by norm_num)
  obtain ⟨-, -, -, -, h5, h6, -⟩ := C133_compute 2 35 255 3 1 _ (by norm_num) ht 300 2 s hs _ hv
  exact ⟨s, hs, h5, h6⟩

/-- A state with the call returned and a goroutine left, as in the hypotheses above. -/
example : ∃ (s : ThreeSq.St) (t : Int3), ThreeSq.Reach tsEnv 2 13 s ∧ s.main = .ret t ∧ s.workers 0 = .search 2 9 := by
  obtain ⟨t, ht⟩ := returns_13
  obtain ⟨s, hs, hm, hsp⟩ := C133_leak tsEnv 2 1 (by omega) (by omega) t ht
  exact ⟨s, t, hs, hm, hsp s (.refl _)⟩

end Verif.Props
