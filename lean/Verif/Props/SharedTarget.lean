import Verif.Model.SharedTarget
import Verif.Model.Pool
import Verif.Props.Lifecycle

/-! # The workers of ThreeSquares and the pooled target (C138) -/

namespace Verif.Props
open Verif.Go Verif.Model Verif.Lemmas

/-- The goroutine was never started or has ended. -/
def STEnded (w : SharedTarget.Worker) : Prop := w = .idle ∨ w = .exited

/-- Every number the search for `n` looks at has a root, so that no goroutine needs to search forever. -/
def Settles (E : TSEnv) (n : Nat) : Prop :=
  ∀ h, h ≤ Nat.sqrt n / 2 → 2 ≤ n - 4 * h ^ 2 → (n - 4 * h ^ 2 < 2 ^ 13 ∨ E.probablyPrime (n - 4 * h ^ 2) = true) →
    HasRoot (n - 4 * h ^ 2)

/-- When `ThreeSquares(n)` has returned to a prover, the goroutines it started can all still end. -/
def C138_statement : Prop :=
  ∀ (E : TSEnv) (K n : Nat) (s : SharedTarget.St) (t : Int3), n % 4 = 1 → Settles E n → SharedTarget.Reach E true K n s →
    s.main = .ret t → ∃ s', Exec (SharedTarget.Step E true K n) s s' ∧ ∀ i, STEnded (s'.workers i)

/-- Some random numbers end the search at `p`. -/
def Findable (E : TSEnv) (p : Nat) : Prop :=
  ∃ coins g, CoinsOK p coins ∧ findTwoSquares E p coins = some g ∧ isValidGaussianIntGCD (some g) = true

theorem findable_iff (E : TSEnv) (p : Nat) (hp : 2 ≤ p) : Findable E p ↔ p % 4 = 1 ∧ HasRoot p := by
  constructor
  · rintro ⟨coins, g, hc, hg, hv⟩
    have hn := two_squares E p hp coins g hg hv
    obtain ⟨r, hr, hu, hge⟩ := findTwoSquaresLoop_some E p coins g hg
    have h4 : p % 4 = 1 := by
      have hcase : p % 4 = 1 ∨ p % 4 = 3 ∨ p % 2 = 0 := by omega
      rcases hcase with h | h | h
      · exact h
      · have := gcd_norm_three E (2 * r) p h hu
        rw [← hge] at this
        simp only at this
        omega
      · exfalso
        by_cases h2 : p = 2
        · subst h2
          have h1 : g.re * g.re ≤ 2 ∧ g.im * g.im ≤ 2 := by
            have := mul_self_nonneg g.re; have := mul_self_nonneg g.im; constructor <;> omega
          have h2 : g.re.natAbs ≤ 1 ∧ g.im.natAbs ≤ 1 := by
            constructor
            · by_contra hh
              have h3 : (2 : Int) ≤ g.re ∨ g.re ≤ -2 := by omega
              rcases h3 with h3 | h3 <;> nlinarith
            · by_contra hh
              have h3 : (2 : Int) ≤ g.im ∨ g.im ≤ -2 := by omega
              rcases h3 with h3 | h3 <;> nlinarith
          have h3 : g.re = -1 ∨ g.re = 0 ∨ g.re = 1 := by omega
          have h4 : g.im = -1 ∨ g.im = 0 ∨ g.im = 1 := by omega
          rcases h3 with h3 | h3 | h3 <;> rcases h4 with h4 | h4 | h4 <;> rw [h3, h4] at hn <;>
            simp [isValidGaussianIntGCD, h3, h4] at hv hn
        · have hk : (p - 1) / 2 ≠ 0 := by omega
          have he : (2 * r) ^ ((p - 1) / 2) % 2 = 0 := by
            rw [Nat.pow_mod, Nat.mul_mod_right, Nat.zero_pow (by omega)]
          have : (2 * r) ^ ((p - 1) / 2) % p % 2 = 0 := by
            rw [Nat.mod_mod_of_dvd _ (Nat.dvd_of_mod_eq_zero h), he]
          rw [hu] at this
          omega
    exact ⟨h4, r, hc.2 r hr, hu⟩
  · rintro ⟨h4, hr⟩
    exact (hasRoot_iff E p hp h4).1 hr

/-! ## What the states of a run have in common -/

/-- What a worker holds is right for `n`. -/
def SharedOK (n : Nat) : SharedTarget.Worker → Prop
  | .search x p => x * x + p = n
  | .send t => ThreeSqL.Good n t
  | _ => True

def SharedMainOK (n : Nat) : ThreeSq.Main → Prop
  | .got t => ThreeSqL.Good n t
  | .ret t => ThreeSqL.Good n t
  | _ => True

structure SharedInv (K n : Nat) (s : SharedTarget.St) : Prop where
  late : s.pooled = true → s.main.cancelled
  target : s.pooled = false → s.target = n
  workers : ¬ s.main.cancelled → ∀ i, SharedOK n (s.workers i)
  main : SharedMainOK n s.main
  idle : ∀ i, K ≤ i → s.workers i = .idle
  ge : ∀ i x p, s.workers i = .search x p → 2 ≤ p

theorem sharedInv_set {K n : Nat} {s : SharedTarget.St} (h : SharedInv K n s) (i : Nat) (w : SharedTarget.Worker)
    (hi : s.workers i ≠ .idle) (hw : ¬ s.main.cancelled → SharedOK n w) (hp : ∀ x p, w = .search x p → 2 ≤ p) :
    SharedInv K n (SharedTarget.setWorker s i w) := by
  refine ⟨h.late, h.target, fun hc j => ?_, h.main, fun j hj => ?_, fun j x p he => ?_⟩
  · simp only [SharedTarget.setWorker]
    by_cases hj : j = i
    · subst hj; rw [Function.update_self]; exact hw hc
    · rw [Function.update_of_ne hj]; exact h.workers hc j
  · simp only [SharedTarget.setWorker]
    rw [Function.update_of_ne (by rintro rfl; exact hi (h.idle _ hj))]; exact h.idle j hj
  · simp only [SharedTarget.setWorker] at he
    by_cases hj : j = i
    · subst hj; rw [Function.update_self] at he; exact hp x p he
    · rw [Function.update_of_ne hj] at he; exact h.ge j x p he

theorem sharedInv_step {E : TSEnv} {put : Bool} {K n : Nat} {s s' : SharedTarget.St} (h : SharedInv K n s)
    (hst : SharedTarget.Step E put K n s s') : SharedInv K n s' := by
  cases hst with
  | spawn k hm hk =>
    have hc : ¬ s.main.cancelled := by rw [hm]; exact id
    refine ⟨fun hp => absurd (h.late hp) hc, h.target, fun _ j => ?_, trivial, fun j hj => ?_, fun j x p he => ?_⟩
    · by_cases hj : j = k
      · subst hj; simp only [Function.update_self]; trivial
      · simp only [Function.update_of_ne hj]; exact h.workers hc j
    · show Function.update s.workers k (.top k) j = .idle
      rw [Function.update_of_ne (by omega)]; exact h.idle j hj
    · change Function.update s.workers k (.top k) j = .search x p at he
      by_cases hj : j = k
      · subst hj; rw [Function.update_self] at he; cases he
      · rw [Function.update_of_ne hj] at he; exact h.ge j x p he
  | spawned hm =>
    have hc : ¬ s.main.cancelled := by rw [hm]; exact id
    exact ⟨fun hp => absurd (h.late hp) hc, h.target, fun _ => h.workers hc, trivial, h.idle, h.ge⟩
  | ret t hm =>
    have := h.main
    rw [hm] at this
    exact ⟨fun _ => trivial, h.target, fun hc => absurd trivial hc, this, h.idle, h.ge⟩
  | put t hm hb =>
    exact ⟨(fun _ => by rw [hm]; trivial), (fun hf => by cases hf), h.workers, h.main, h.idle, h.ge⟩
  | write v hp => exact ⟨h.late, (fun hf => by rw [hp] at hf; cases hf), h.workers, h.main, h.idle, h.ge⟩
  | ctxDone i cnt hw hc => exact sharedInv_set h i _ (by rw [hw]; simp) (fun _ => trivial) (by simp)
  | default i cnt hw hc => exact sharedInv_set h i _ (by rw [hw]; simp) (fun _ => trivial) (by simp)
  | negX i cnt hw hx => exact sharedInv_set h i _ (by rw [hw]; simp) (fun _ => trivial) (by simp)
  | smallP i cnt hw hx hp => exact sharedInv_set h i _ (by rw [hw]; simp) (fun _ => trivial) (by simp)
  | filtered i cnt hw hx hp hf => exact sharedInv_set h i _ (by rw [hw]; simp) (fun _ => trivial) (by simp)
  | search i cnt hw hx hp hf =>
    refine sharedInv_set h i _ (by rw [hw]; simp) (fun hc => ?_) ?_
    · have hpool : s.pooled = false := by
        cases hb : s.pooled with
        | false => rfl
        | true => exact absurd (h.late hb) hc
      show _ + _ = _
      rw [Int.toNat_of_nonneg (by omega), SharedTarget.candP, h.target hpool]
      ring
    · intro x p he
      injection he with h1 h2
      omega
  | again i x p coins hw hcoins hv => exact h
  | found i x p coins g hw hcoins hg hv =>
    refine sharedInv_set h i _ (by rw [hw]; simp) (fun hc => ?_) (by simp)
    have hi := h.workers hc i
    rw [hw] at hi
    have := two_squares E p (h.ge i x p hw) coins g hg hv
    exact ThreeSqL.good_newInt3 n x g.re g.im (by rw [this]; exact hi)
  | send i t hw hm =>
    have hc : ¬ s.main.cancelled := by rw [hm]; exact id
    have hi := h.workers hc i
    rw [hw] at hi
    have := sharedInv_set h i .exited (by rw [hw]; simp) (fun _ => trivial) (by simp)
    exact ⟨fun hp => absurd (h.late hp) hc, h.target, fun _ => this.workers hc, hi, this.idle, this.ge⟩
  | drop i t hw hm => exact sharedInv_set h i _ (by rw [hw]; simp) (fun _ => trivial) (by simp)

theorem sharedInv_reach {E : TSEnv} {put : Bool} {K n : Nat} {s : SharedTarget.St} (h : SharedTarget.Reach E put K n s) :
    SharedInv K n s := by
  induction h with
  | refl => exact ⟨(fun h => by cases h), fun _ => rfl, fun _ _ => trivial, trivial, fun _ _ => rfl, (fun i x p h => by cases h)⟩
  | tail _ hst ih => exact sharedInv_step ih hst

/-- Whatever is written to the target after the return, the numbers returned are right: sorted, not negative, and their squares
sum up to `n`. -/
theorem C138_result (E : TSEnv) (put : Bool) (K n : Nat) (s : SharedTarget.St) (t : Int3) (h : SharedTarget.Reach E put K n s)
    (hm : s.main = .ret t) : t.t0 ^ 2 + t.t1 ^ 2 + t.t2 ^ 2 = n ∧ t.t1 ≤ t.t0 ∧ t.t2 ≤ t.t1 ∧ 0 ≤ t.t2 := by
  have := (sharedInv_reach h).main
  rw [hm] at this
  exact this

/-! ## Searching forever -/

/-- A goroutine searching at a number that is not findable searches forever, whatever the others do. -/
theorem C138_spins (E : TSEnv) (put : Bool) (K n i : Nat) (x : Int) (p : Nat) (hp : ¬ Findable E p) (s s' : SharedTarget.St)
    (hs : s.workers i = .search x p) (h : Exec (SharedTarget.Step E put K n) s s') (hk : ∀ k, s.main = .spawn k → i < k) :
    s'.workers i = .search x p := by
  have upd : ∀ (s : SharedTarget.St) (k : Nat) (w : SharedTarget.Worker), s.workers i = .search x p →
      (k ≠ i) → Function.update s.workers k w i = .search x p := by
    intro s k w h hw
    rw [Function.update_of_ne (Ne.symm hw)]; exact h
  suffices s'.workers i = .search x p ∧ ∀ k, s'.main = .spawn k → i < k from this.1
  induction h with
  | refl => exact ⟨hs, hk⟩
  | @tail a b _ hst ih =>
    obtain ⟨ih, ihk⟩ := ih
    have no : ∀ k v, a.workers k = v → (∀ y q, v ≠ .search y q) → k ≠ i := by
      rintro k v h1 h2 rfl
      rw [ih] at h1
      exact h2 _ _ h1.symm
    cases hst with
    | spawn k hm hk' =>
      have := ihk k hm
      refine ⟨upd a k _ ih (by omega), fun k' h' => ?_⟩
      injection h' with h'
      omega
    | spawned hm => exact ⟨ih, fun k h => by cases h⟩
    | ret t hm => exact ⟨ih, fun k h => by cases h⟩
    | put t hm hb => exact ⟨ih, ihk⟩
    | write v hv => exact ⟨ih, ihk⟩
    | ctxDone k cnt hw hc => exact ⟨upd a k _ ih (no k _ hw (by simp)), ihk⟩
    | default k cnt hw hc => exact ⟨upd a k _ ih (no k _ hw (by simp)), ihk⟩
    | negX k cnt hw hx => exact ⟨upd a k _ ih (no k _ hw (by simp)), ihk⟩
    | smallP k cnt hw hx hp => exact ⟨upd a k _ ih (no k _ hw (by simp)), ihk⟩
    | filtered k cnt hw hx hp hf => exact ⟨upd a k _ ih (no k _ hw (by simp)), ihk⟩
    | search k cnt hw hx hp hf => exact ⟨upd a k _ ih (no k _ hw (by simp)), ihk⟩
    | again k y q coins hw hcoins hv => exact ⟨ih, ihk⟩
    | found k y q coins g hw hcoins hg hv =>
      refine ⟨upd a k _ ih ?_, ihk⟩
      rintro rfl
      rw [ih] at hw
      injection hw with h1 h2
      subst h2
      exact hp ⟨coins, g, hcoins, hg, hv⟩
    | send k t hw hm => exact ⟨upd a k _ ih (no k _ hw (by simp)), fun k h => by cases h⟩
    | drop k t hw hm => exact ⟨upd a k _ ih (no k _ hw (by simp)), ihk⟩

theorem shared_ret {E : TSEnv} {put : Bool} {K n : Nat} {s s' : SharedTarget.St} {t : Int3} (hm : s.main = .ret t)
    (h : Exec (SharedTarget.Step E put K n) s s') : s'.main = .ret t := by
  induction h with
  | refl => exact hm
  | tail _ hst ih =>
    cases hst with
    | spawn k hm hk => rw [ih] at hm; cases hm
    | spawned hm => rw [ih] at hm; cases hm
    | ret t hm => rw [ih] at hm; cases hm
    | send k t hw hm => rw [ih] at hm; cases hm
    | _ => exact ih

/-- A goroutine that has passed the `select` but not yet read the target when the prover goes on: a value `v` that is not 1 modulo
4, written to the target by another goroutine, can make it search forever. -/
theorem C138_late_read (E : TSEnv) (K n i cnt : Nat) (s : SharedTarget.St) (t : Int3) (hm : s.main = .ret t)
    (hw : s.workers i = .reading cnt) (v : Int) (hv : v % 4 ≠ 1) (hx : 0 ≤ ThreeSq.halfX n cnt)
    (hlo : 2 ≤ v - 4 * ThreeSq.halfX n cnt ^ 2) (hhi : v - 4 * ThreeSq.halfX n cnt ^ 2 < 2 ^ 13) :
    ∃ s1, Exec (SharedTarget.Step E true K n) s s1 ∧ ∀ s', Exec (SharedTarget.Step E true K n) s1 s' →
      ∃ x p, s'.workers i = .search x p ∧ ¬ Findable E p := by
  let s1 : SharedTarget.St := { s with pooled := true }
  let s2 : SharedTarget.St := { s1 with target := v }
  have hc : SharedTarget.candP n v cnt = v - 4 * ThreeSq.halfX n cnt ^ 2 := by unfold SharedTarget.candP; ring
  have hp4 : (SharedTarget.candP n v cnt).toNat % 4 ≠ 1 := by
    rw [hc]
    generalize ThreeSq.halfX n cnt ^ 2 = y at *
    omega
  have hge : 2 ≤ (SharedTarget.candP n v cnt).toNat := by rw [hc]; omega
  have hnf : ¬ Findable E (SharedTarget.candP n v cnt).toNat := fun h => hp4 ((findable_iff E _ hge).1 h).1
  have hfil : ¬ ThreeSq.Filtered E (SharedTarget.candP n v cnt).toNat := by
    rintro ⟨h, -⟩
    have : (SharedTarget.candP n v cnt).toNat.size ≤ 13 := Nat.size_le.2 (by rw [hc]; omega)
    unfold bitLenThreshold at h
    omega
  have st1 : SharedTarget.Step E true K n s s1 := .put s t hm rfl
  have st2 : SharedTarget.Step E true K n s1 s2 := .write s1 v rfl
  have st3 := SharedTarget.Step.search (E := E) (put := true) (K := K) (n := n) s2 i cnt hw (by omega)
    (show ¬ SharedTarget.candP n v cnt < 2 by rw [hc]; omega) hfil
  refine ⟨_, .tail (.tail (.tail (.refl _) st1) st2) st3, fun s' hs' => ⟨2 * ThreeSq.halfX n cnt, (SharedTarget.candP n v cnt).toNat, ?_, hnf⟩⟩
  refine C138_spins E true K n i (2 * ThreeSq.halfX n cnt) _ hnf _ s' ?_ hs' ?_
  · simp [SharedTarget.setWorker, s2]
  · intro k hk
    change s.main = _ at hk
    rw [hm] at hk
    cases hk

/-- Every value can be written: `commitForX` of a prover of positivity gets its target from the pool and sets it to its `x`. -/
theorem C138_any_value (x : Int) : ∃ k, Pool.CodeProg (.get 0 :: .set 0 [] (fun _ => x) :: k) :=
  ⟨_, Pool.CodeProg.aopTarget x⟩

/-! ## The violation -/

theorem settles_five (E : TSEnv) : Settles E 5 := by
  intro h hh h2 _
  have hsq : Nat.sqrt 5 = 2 := Nat.sqrt_add_eq 2 (a := 1) (by omega)
  rw [hsq] at hh
  have : h = 0 ∨ h = 1 := by omega
  rcases this with rfl | rfl
  · exact exists_coin 5 (by norm_num) (by norm_num)
  · omega

/-- A run of `ThreeSquares(5)` with two CPUs: goroutine 0 is at line 52 when the caller returns. -/
theorem five_late (E : TSEnv) : ∃ s t, SharedTarget.Reach E true 2 5 s ∧ s.main = .ret t ∧ s.workers 0 = .reading 0 := by
  have hsq : Nat.sqrt 5 = 2 := Nat.sqrt_add_eq 2 (a := 1) (by omega)
  have x1 : ThreeSq.halfX 5 1 = 0 := by simp [ThreeSq.halfX, ThreeSq.rtOf, hsq]
  have c1 : SharedTarget.candP 5 ((5 : Nat) : Int) 1 = 5 := by simp [SharedTarget.candP, x1]
  have hf : ¬ ThreeSq.Filtered E 5 := by
    rintro ⟨h, -⟩
    revert h
    decide
  obtain ⟨coins, g, hc, hg, hv⟩ := exists_found E 5 (by norm_num) (by norm_num)
  let w : Nat → SharedTarget.Worker :=
    Function.update (Function.update (SharedTarget.init 5).workers 0 (.top 0)) 1 (.top 1)
  let s1 : SharedTarget.St := { SharedTarget.init 5 with main := .spawn 2, workers := w }
  have r1 : SharedTarget.Reach E true 2 5 s1 :=
    .tail (.tail (.refl _) (.spawn (SharedTarget.init 5) 0 rfl (by omega))) (.spawn _ 1 rfl (by omega))
  let s2 := SharedTarget.setWorker s1 0 (.reading 0)
  let s3 := SharedTarget.setWorker s2 1 (.reading 1)
  let s4 := SharedTarget.setWorker s3 1 (.search (2 * ThreeSq.halfX 5 1) (SharedTarget.candP 5 ((5 : Nat) : Int) 1).toNat)
  let s5 := SharedTarget.setWorker s4 1 (.send (newInt3 (2 * ThreeSq.halfX 5 1) g.re g.im))
  let s6 : SharedTarget.St := { s5 with main := .recv }
  let t := newInt3 (2 * ThreeSq.halfX 5 1) g.re g.im
  let s7 : SharedTarget.St := { s6 with main := .got t, workers := Function.update s6.workers 1 .exited }
  have st2 : SharedTarget.Step E true 2 5 s1 s2 := .default s1 0 0 (by simp [s1, w]) id
  have st3 : SharedTarget.Step E true 2 5 s2 s3 := .default s2 1 1 (by simp [s2, s1, w, SharedTarget.setWorker]) id
  have st4 : SharedTarget.Step E true 2 5 s3 s4 := .search s3 1 1 (by simp [s3, SharedTarget.setWorker]) (by rw [x1]; omega)
    (show ¬ SharedTarget.candP 5 ((5 : Nat) : Int) 1 < 2 by rw [c1]; omega)
    (show ¬ ThreeSq.Filtered E (SharedTarget.candP 5 ((5 : Nat) : Int) 1).toNat by rw [c1]; exact hf)
  have st5 : SharedTarget.Step E true 2 5 s4 s5 := .found s4 1 (2 * ThreeSq.halfX 5 1)
    (SharedTarget.candP 5 ((5 : Nat) : Int) 1).toNat coins g (by simp [s4, SharedTarget.setWorker]) (by rw [c1]; exact hc)
    (by rw [c1]; exact hg) hv
  have st6 : SharedTarget.Step E true 2 5 s5 s6 := .spawned s5 rfl
  have st7 : SharedTarget.Step E true 2 5 s6 s7 := .send s6 1 t (by simp [s6, s5, SharedTarget.setWorker, t]) rfl
  refine ⟨{ s7 with main := .ret t }, t, .tail (.tail (.tail (.tail (.tail (.tail (.tail r1 st2) st3) st4) st5) st6) st7)
    (.ret s7 t rfl), rfl, ?_⟩
  simp [s7, s6, s5, s4, s3, s2, SharedTarget.setWorker]

/-- Proving that 1 is positive with two CPUs (the target is 5) can leave a goroutine that searches forever: the other goroutine
answers first, the target is put back, a prover for `x = 7` gets it and writes 7, and goroutine 0 searches at 3. -/
theorem C138_violated : ¬ C138_statement := by
  intro h
  have E : TSEnv := tsEnv
  obtain ⟨s, t, hr, hm, hw⟩ := five_late E
  have hsq : Nat.sqrt 5 = 2 := Nat.sqrt_add_eq 2 (a := 1) (by omega)
  have x0 : ThreeSq.halfX 5 0 = 1 := by simp [ThreeSq.halfX, ThreeSq.rtOf, hsq]
  obtain ⟨s1, hs1, hstuck⟩ := C138_late_read E 2 5 0 0 s t hm hw 7 (by decide) (by rw [x0]; omega) (by rw [x0]; omega)
    (by rw [x0]; omega)
  have hm1 : s1.main = .ret t := shared_ret hm hs1
  obtain ⟨s', hs', he⟩ := h E 2 5 s1 t (by decide) (settles_five E) (ThreeSqL.exec_trans hr hs1) hm1
  obtain ⟨x, p, hp, -⟩ := hstuck s' hs'
  rcases he 0 with h | h <;> rw [hp] at h <;> cases h

/-! ## The exact conditions -/

/-- After the return a single goroutine can end without the others moving, if its search can end. -/
theorem shared_can_end (E : TSEnv) (put : Bool) (K n i : Nat) (s : SharedTarget.St) (t : Int3) (hm : s.main = .ret t)
    (hs : ∀ x p, s.workers i = .search x p → Findable E p)
    (hr : ∀ cnt, s.workers i = .reading cnt → 0 ≤ ThreeSq.halfX n cnt → 2 ≤ SharedTarget.candP n s.target cnt →
      ¬ ThreeSq.Filtered E (SharedTarget.candP n s.target cnt).toNat → Findable E (SharedTarget.candP n s.target cnt).toNat) :
    ∃ s', Exec (SharedTarget.Step E put K n) s s' ∧ STEnded (s'.workers i) ∧ s'.target = s.target ∧
      ∀ j, j ≠ i → s'.workers j = s.workers j := by
  have hcan : s.main.cancelled := by rw [hm]; trivial
  have fin : ∀ a, Exec (SharedTarget.Step E put K n) s (SharedTarget.setWorker s i a) →
      SharedTarget.Step E put K n (SharedTarget.setWorker s i a)
        (SharedTarget.setWorker (SharedTarget.setWorker s i a) i .exited) →
      ∃ s', Exec (SharedTarget.Step E put K n) s s' ∧ STEnded (s'.workers i) ∧ s'.target = s.target ∧
        ∀ j, j ≠ i → s'.workers j = s.workers j := fun a h1 h2 =>
    ⟨_, .tail h1 h2, .inr (by simp [SharedTarget.setWorker]), rfl, fun j hj => by
      simp [SharedTarget.setWorker, Function.update_of_ne hj]⟩
  have one : SharedTarget.Step E put K n s (SharedTarget.setWorker s i .exited) →
      ∃ s', Exec (SharedTarget.Step E put K n) s s' ∧ STEnded (s'.workers i) ∧ s'.target = s.target ∧
        ∀ j, j ≠ i → s'.workers j = s.workers j := fun h2 =>
    ⟨_, .tail (.refl _) h2, .inr (by simp [SharedTarget.setWorker]), rfl, fun j hj => by
      simp [SharedTarget.setWorker, Function.update_of_ne hj]⟩
  have self : ∀ a, (SharedTarget.setWorker s i a).workers i = a := fun a => by simp [SharedTarget.setWorker]
  have twice : ∀ a b, SharedTarget.setWorker (SharedTarget.setWorker s i a) i b = SharedTarget.setWorker s i b := fun a b => by
    simp [SharedTarget.setWorker]
  have hrecv : ∀ a, (SharedTarget.setWorker s i a).main ≠ .recv := fun a => by
    show s.main ≠ _
    rw [hm]; simp
  cases hw : s.workers i with
  | idle => exact ⟨s, .refl _, .inl hw, rfl, fun _ _ => rfl⟩
  | exited => exact ⟨s, .refl _, .inr hw, rfl, fun _ _ => rfl⟩
  | top cnt => exact one (.ctxDone s i cnt hw hcan)
  | send u => exact one (.drop s i u hw (by rw [hm]; simp))
  | search x p =>
    obtain ⟨coins, g, hc, hg, hv⟩ := hs x p hw
    exact fin _ (.tail (.refl _) (.found s i x p coins g hw hc hg hv)) (.drop _ i _ (self _) (hrecv _))
  | reading cnt =>
    by_cases hx : ThreeSq.halfX n cnt < 0
    · exact one (.negX s i cnt hw hx)
    by_cases hp : SharedTarget.candP n s.target cnt < 2
    · exact one (.smallP s i cnt hw hx hp)
    by_cases hf : ThreeSq.Filtered E (SharedTarget.candP n s.target cnt).toNat
    · exact fin _ (.tail (.refl _) (.filtered s i cnt hw hx hp hf)) (.ctxDone _ i _ (self _) hcan)
    · obtain ⟨coins, g, hc, hg, hv⟩ := hr cnt hw (by omega) (by omega) hf
      have e1 := SharedTarget.Step.found (E := E) (put := put) (K := K) (n := n) _ i _ _ coins g
        (self (.search (2 * ThreeSq.halfX n cnt) (SharedTarget.candP n s.target cnt).toNat)) hc hg hv
      rw [twice] at e1
      exact fin _ (.tail (.tail (.refl _) (.search s i cnt hw hx hp hf)) e1) (.drop _ i _ (self _) (hrecv _))

/-- All goroutines end one after the other. -/
theorem shared_all_end (E : TSEnv) (put : Bool) (K n : Nat) (s : SharedTarget.St) (t : Int3) (hm : s.main = .ret t)
    (hidle : ∀ i, K ≤ i → s.workers i = .idle) (hs : ∀ i x p, s.workers i = .search x p → Findable E p)
    (hr : ∀ i cnt, s.workers i = .reading cnt → 0 ≤ ThreeSq.halfX n cnt → 2 ≤ SharedTarget.candP n s.target cnt →
      ¬ ThreeSq.Filtered E (SharedTarget.candP n s.target cnt).toNat → Findable E (SharedTarget.candP n s.target cnt).toNat) :
    ∃ s', Exec (SharedTarget.Step E put K n) s s' ∧ ∀ i, STEnded (s'.workers i) := by
  have key : ∀ k, ∃ s', Exec (SharedTarget.Step E put K n) s s' ∧ s'.target = s.target ∧
      (∀ i, i < k → STEnded (s'.workers i)) ∧ ∀ i, k ≤ i → s'.workers i = s.workers i := by
    intro k
    induction k with
    | zero => exact ⟨s, .refl _, rfl, fun i hi => by omega, fun _ _ => rfl⟩
    | succ k ih =>
      obtain ⟨a, ha, hta, he, hsa⟩ := ih
      obtain ⟨b, hb, heb, htb, hsb⟩ := shared_can_end E put K n k a t (shared_ret hm ha)
        (by intro x p hw; rw [hsa k (Nat.le_refl _)] at hw; exact hs k x p hw)
        (by intro cnt hw; rw [hsa k (Nat.le_refl _)] at hw; rw [hta]; exact hr k cnt hw)
      refine ⟨b, ThreeSqL.exec_trans ha hb, htb.trans hta, fun i hi => ?_, fun i hi => ?_⟩
      · by_cases hik : i = k
        · subst hik; exact heb
        · rw [hsb i hik]; exact he i (by omega)
      · rw [hsb i (by omega)]; exact hsa i (by omega)
  obtain ⟨s', hs', -, he, hsi⟩ := key K
  refine ⟨s', hs', fun i => ?_⟩
  by_cases hi : i < K
  · exact he i hi
  · left; rw [hsi i (by omega)]; exact hidle i (by omega)

/-- The exact condition: after the return all goroutines can still end if and only if none of them searches at a number that is
not 1 modulo 4 or has no root. Missing from `C138_statement`: states with such a goroutine. -/
theorem C138_ends_iff_partial (E : TSEnv) (K n : Nat) (s : SharedTarget.St) (t : Int3) (h : SharedTarget.Reach E true K n s)
    (hm : s.main = .ret t) : (∃ s', Exec (SharedTarget.Step E true K n) s s' ∧ ∀ i, STEnded (s'.workers i)) ↔
      ∀ i x p, s.workers i = .search x p → p % 4 = 1 ∧ HasRoot p := by
  have I := sharedInv_reach h
  constructor
  · rintro ⟨s', hs', he⟩ i x p hw
    rw [← findable_iff E p (I.ge i x p hw)]
    by_contra hr
    have := C138_spins E true K n i x p hr s s' hw hs' (fun k hk => by rw [hm] at hk; cases hk)
    rcases he i with h | h <;> rw [this] at h <;> cases h
  · intro hr
    let s1 : SharedTarget.St := { s with pooled := true }
    let s2 : SharedTarget.St := { s1 with target := 0 }
    have st1 : SharedTarget.Step E true K n s s1 := .put s t hm rfl
    have st2 : SharedTarget.Step E true K n s1 s2 := .write s1 0 rfl
    obtain ⟨s', hs', he⟩ := shared_all_end E true K n s2 t hm I.idle
      (fun i x p hw => (findable_iff E p (I.ge i x p hw)).2 (hr i x p hw))
      (by
        intro i cnt hw hx hp
        have h1 : SharedTarget.candP n s2.target cnt ≤ 0 := by
          show 0 - _ ≤ _
          have := mul_self_nonneg (2 * ThreeSq.halfX n cnt)
          omega
        omega)
    exact ⟨s', ThreeSqL.exec_trans (.tail (.tail (.refl _) st1) st2) hs', he⟩

/-! ## The repaired program: the target is not put back -/

structure FixedInv (E : TSEnv) (n : Nat) (s : SharedTarget.St) : Prop where
  pooled : s.pooled = false
  target : s.target = n
  search : ∀ i x p, s.workers i = .search x p → ∃ h : Nat, h ≤ Nat.sqrt n / 2 ∧ p = n - 4 * h ^ 2 ∧
    (n - 4 * h ^ 2 < 2 ^ 13 ∨ E.probablyPrime (n - 4 * h ^ 2) = true)

/-- What a goroutine searches at. -/
theorem candP_fixed (E : TSEnv) (n cnt : Nat) (hx : 0 ≤ ThreeSq.halfX n cnt) (hp : 2 ≤ SharedTarget.candP n n cnt)
    (hf : ¬ ThreeSq.Filtered E (SharedTarget.candP n n cnt).toNat) :
    ∃ h : Nat, h ≤ Nat.sqrt n / 2 ∧ (SharedTarget.candP n n cnt).toNat = n - 4 * h ^ 2 ∧
      (n - 4 * h ^ 2 < 2 ^ 13 ∨ E.probablyPrime (n - 4 * h ^ 2) = true) := by
  obtain ⟨h, hh⟩ := Int.eq_ofNat_of_zero_le hx
  have h1 : (SharedTarget.candP n n cnt).toNat = n - 4 * h ^ 2 := by
    have : SharedTarget.candP n n cnt = (n : Int) - ((4 * h ^ 2 : Nat) : Int) := by
      unfold SharedTarget.candP; rw [hh]; push_cast; ring
    rw [this]
    omega
  refine ⟨h, ?_, h1, ?_⟩
  · unfold ThreeSq.halfX ThreeSq.rtOf at hh
    omega
  · rw [h1] at hf
    unfold ThreeSq.Filtered at hf
    by_cases hb : E.probablyPrime (n - 4 * h ^ 2) = true
    · exact .inr hb
    · left
      by_contra hlt
      refine hf ⟨?_, by simpa using hb⟩
      unfold bitLenThreshold
      by_contra hs
      exact hlt (Nat.size_le.1 (by omega))

theorem fixedInv_set {E : TSEnv} {n : Nat} {s : SharedTarget.St} (h : FixedInv E n s) (i : Nat) (w : SharedTarget.Worker)
    (mn : ThreeSq.Main) (hw : ∀ x p, w ≠ .search x p) :
    FixedInv E n { s with main := mn, workers := Function.update s.workers i w } := by
  refine ⟨h.pooled, h.target, fun j x p he => ?_⟩
  dsimp only at he
  by_cases hj : j = i
  · subst hj; rw [Function.update_self] at he; exact absurd he (hw x p)
  · rw [Function.update_of_ne hj] at he; exact h.search j x p he

theorem fixedInv_reach {E : TSEnv} {K n : Nat} {s : SharedTarget.St} (h : SharedTarget.Reach E false K n s) :
    FixedInv E n s := by
  induction h with
  | refl => exact ⟨rfl, rfl, fun i x p h => by cases h⟩
  | @tail a b _ hst ih =>
    cases hst with
    | spawn k hm hk => exact fixedInv_set ih k _ _ (by simp)
    | spawned hm => exact ⟨ih.pooled, ih.target, ih.search⟩
    | ret t hm => exact ⟨ih.pooled, ih.target, ih.search⟩
    | put t hm hb => cases hb
    | write v hp => rw [ih.pooled] at hp; cases hp
    | ctxDone i cnt hw hc => exact fixedInv_set ih i _ _ (by simp)
    | default i cnt hw hc => exact fixedInv_set ih i _ _ (by simp)
    | negX i cnt hw hx => exact fixedInv_set ih i _ _ (by simp)
    | smallP i cnt hw hx hp => exact fixedInv_set ih i _ _ (by simp)
    | filtered i cnt hw hx hp hf => exact fixedInv_set ih i _ _ (by simp)
    | search i cnt hw hx hp hf =>
      refine ⟨ih.pooled, ih.target, fun j x p he => ?_⟩
      simp only [SharedTarget.setWorker] at he
      by_cases hj : j = i
      · subst hj
        rw [Function.update_self] at he
        injection he with h1 h2
        subst h2
        rw [ih.target] at hp hf ⊢
        exact candP_fixed E n cnt (by omega) (by omega) hf
      · rw [Function.update_of_ne hj] at he; exact ih.search j x p he
    | again i x p coins hw hcoins hv => exact ih
    | found i x p coins g hw hcoins hg hv => exact fixedInv_set ih i _ _ (by simp)
    | send i t hw hm => exact fixedInv_set ih i _ _ (by simp)
    | drop i t hw hm => exact fixedInv_set ih i _ _ (by simp)

/-- If `commitForX` does not put the target back, the property holds. -/
theorem C138_repaired (E : TSEnv) (K n : Nat) (s : SharedTarget.St) (t : Int3) (hn : n % 4 = 1) (hset : Settles E n)
    (h : SharedTarget.Reach E false K n s) (hm : s.main = .ret t) :
    ∃ s', Exec (SharedTarget.Step E false K n) s s' ∧ ∀ i, STEnded (s'.workers i) := by
  have I := sharedInv_reach h
  have F := fixedInv_reach h
  have key : ∀ p, 2 ≤ p → (∃ h : Nat, h ≤ Nat.sqrt n / 2 ∧ p = n - 4 * h ^ 2 ∧
      (n - 4 * h ^ 2 < 2 ^ 13 ∨ E.probablyPrime (n - 4 * h ^ 2) = true)) → Findable E p := by
    rintro p hp ⟨h, hh, rfl, hb⟩
    rw [findable_iff E _ hp]
    refine ⟨?_, hset h hh hp hb⟩
    generalize h ^ 2 = y at hp
    omega
  refine shared_all_end E false K n s t hm I.idle (fun i x p hw => key p (I.ge i x p hw) (F.search i x p hw)) ?_
  intro i cnt hw hx hp hf
  rw [F.target] at hp hf ⊢
  exact key _ (by omega) (candP_fixed E n cnt hx hp hf)

/-- The hypotheses of `C138_late_read` in a run for 5, and those of `C138_repaired` for 5. -/
example : (∃ s t, SharedTarget.Reach tsEnv true 2 5 s ∧ s.main = .ret t ∧ s.workers 0 = .reading 0) ∧ Settles tsEnv 5 :=
  ⟨five_late tsEnv, settles_five tsEnv⟩

end Verif.Props
