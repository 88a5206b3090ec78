import Verif.Lemmas.ThreeSquares
import Mathlib.Tactic.NormNum.Prime

/-! # Properties of the number groups and of the three square decomposition (C47 - C49) -/

namespace Verif.Props
open Verif.Go Verif.Model Verif.Lemmas

/-- External functions for examples. -/
noncomputable def tsEnv : TSEnv where
  probablyPrime := fun n => decide n.Prime
  gcd := EuclideanDomain.gcd
  gcd_dvd_left := EuclideanDomain.gcd_dvd_left
  gcd_dvd_right := EuclideanDomain.gcd_dvd_right
  dvd_gcd := fun _ _ _ => EuclideanDomain.dvd_gcd

/-! ## C47 -/

theorem C47_newInt3 (a b c : Int) : let t := newInt3 a b c
    List.Perm [t.t0, t.t1, t.t2] [(a.natAbs : Int), (b.natAbs : Int), (c.natAbs : Int)] ∧
      t.t0 ≥ t.t1 ∧ t.t1 ≥ t.t2 ∧ t.t2 ≥ 0 := newInt3_spec a b c

theorem C47_newInt4 (a b c d : Int) : let t := newInt4 a b c d
    List.Perm [t.t0, t.t1, t.t2, t.t3]
        [(a.natAbs : Int), (b.natAbs : Int), (c.natAbs : Int), (d.natAbs : Int)] ∧
      t.t0 ≥ t.t1 ∧ t.t1 ≥ t.t2 ∧ t.t2 ≥ t.t3 ∧ t.t3 ≥ 0 := newInt4_spec a b c d

example : newInt3 (-5) 0 7 = ⟨7, 5, 0⟩ ∧ newInt4 3 (-9) 4 (-1) = ⟨9, 4, 3, 1⟩ := by decide

/-! ## C48 -/

theorem C48_never_wrong (E : TSEnv) (K : Nat) (n : Int) (t : Int3) (h : ThreeSquaresReturns E K n t) :
    t.t0 ^ 2 + t.t1 ^ 2 + t.t2 ^ 2 = n ∧ t.t0 ≥ t.t1 ∧ t.t1 ≥ t.t2 ∧ t.t2 ≥ 0 := by
  obtain ⟨hn, s, hs, hm⟩ := h
  have := (ThreeSqL.inv_reach E K _ s hs).2
  rw [hm] at this
  obtain ⟨h1, h2, h3, h4⟩ := this
  rw [Int.toNat_of_nonneg hn] at h1
  exact ⟨h1, h2, h3, h4⟩

/-- `Verify` of three_square.go accepts exactly the right decompositions. -/
theorem C48_verify (target : Int) (t : Int3) :
    verifyThreeSquares target t = true ↔ t.t0 ^ 2 + t.t1 ^ 2 + t.t2 ^ 2 = target := by
  simp only [verifyThreeSquares, decide_eq_true_eq]
  constructor <;> intro h <;> rw [← h] <;> ring

/-! ## C49 -/

/-- `ThreeSquares(n)` can return from every state of every run. (Weaker than returning in every run.) -/
def C49_statement : Prop :=
  ∀ (E : TSEnv) (K n : Nat), 1 ≤ K → n % 4 = 1 → ∀ s, ThreeSq.Reach E K n s →
    ∃ s' t, Exec (ThreeSq.Step E K n) s s' ∧ s'.main = .ret t

/-- `ThreeSquares(1)` never returns. This is the number decomposed for a range proof with `x = a` or `x = b` and for an
argument of positivity for 0. -/
theorem C49_one_never (E : TSEnv) (K : Nat) (t : Int3) : ¬ ThreeSquaresReturns E K 1 t := by
  rintro ⟨-, s, hs, hm⟩
  have := ThreeSqL.never_returns E K 1 (fun _ => True) (fun _ _ => trivial) (fun _ _ _ _ _ => trivial)
    (fun c _ h0 h2 => by
      exfalso
      have hsq : Nat.sqrt 1 = 1 := by norm_num
      simp only [ThreeSq.halfX, ThreeSq.candP, ThreeSq.rtOf, hsq] at h0 h2
      have : c = 0 := by omega
      subst this
      norm_num at h2) s hs
  have := this.2
  rw [hm] at this
  exact this

theorem useless_of_coins (E : TSEnv) (p : Nat) (h : ∀ r, r < p / 2 → (2 * r) ^ ((p - 1) / 2) % p ≠ p - 1)
    (coins : List Nat) (hc : CoinsOK p coins) : isValidGaussianIntGCD (findTwoSquares E p coins) = false := by
  cases hg : findTwoSquares E p coins with
  | none => rfl
  | some g =>
    obtain ⟨r, hr, hu, -⟩ := findTwoSquaresLoop_some E p coins g hg
    exact absurd hu (h r (hc.2 r hr))

/-- `ThreeSquares(25)` never returns, though 25 is a sum of three squares: a number below 2^13 is not tested for
primality, and the search for 9, 21 and 25 never ends. A range proof for `x = 2` in `[0, 5]` decomposes 25. -/
theorem C49_25_never (E : TSEnv) (K : Nat) (t : Int3) : ¬ ThreeSquaresReturns E K 25 t := by
  rintro ⟨-, s, hs, hm⟩
  have := ThreeSqL.never_returns E K 25 (fun _ => True) (fun _ _ => trivial) (fun _ _ _ _ _ => trivial)
    (fun c _ h0 h2 hf => by
      have hsq : Nat.sqrt 25 = 5 := Nat.sqrt_eq 5
      have hc : c = 0 ∨ c = 1 ∨ c = 2 := by
        simp only [ThreeSq.halfX, ThreeSq.rtOf, hsq] at h0
        omega
      have hp : (ThreeSq.candP 25 c).toNat = 9 ∨ (ThreeSq.candP 25 c).toNat = 21 ∨ (ThreeSq.candP 25 c).toNat = 25 := by
        simp only [ThreeSq.halfX, ThreeSq.candP, ThreeSq.rtOf, hsq]
        rcases hc with rfl | rfl | rfl <;> decide
      rcases hp with h | h | h <;> rw [h] <;> intro coins hcoins <;>
        exact useless_of_coins E _ (by decide +kernel) coins hcoins) s hs
  have := this.2
  rw [hm] at this
  exact this

/-- On a machine with one CPU `ThreeSquares(4m² + 1)` never returns: the only goroutine gives up at its first candidate,
which is 1. -/
theorem C49_one_cpu_never (E : TSEnv) (m : Nat) (t : Int3) : ¬ ThreeSquaresReturns E 1 (4 * (m : Int) ^ 2 + 1) t := by
  rintro ⟨-, s, hs, hm⟩
  have hn : (4 * (m : Int) ^ 2 + 1).toNat = 2 * m * (2 * m) + 1 := by
    have : (4 * (m : Int) ^ 2 + 1) = ((2 * m * (2 * m) + 1 : Nat) : Int) := by push_cast; ring
    rw [this, Int.toNat_natCast]
  rw [hn] at hs
  have hsmall : ThreeSq.candP (2 * m * (2 * m) + 1) 0 = 1 := by
    have hrt : ThreeSq.rtOf (2 * m * (2 * m) + 1) = m := by
      unfold ThreeSq.rtOf
      rcases Nat.eq_zero_or_pos m with rfl | hm0
      · norm_num
      · rw [Nat.sqrt_add_eq _ (by omega)]; omega
    simp only [ThreeSq.candP, ThreeSq.halfX, hrt]
    push_cast
    ring
  have := ThreeSqL.never_returns E 1 _ (fun c => c = 0) (fun i hi => by omega)
    (fun c hc _ h2 => by subst hc; rw [hsmall] at h2; omega)
    (fun c hc _ h2 => by subst hc; rw [hsmall] at h2; omega) s hs
  have := this.2
  rw [hm] at this
  exact this

/-- A found result can be lost: with two CPUs there is a run of `ThreeSquares(5)` in which the goroutine that found
`5 = 0² + 2² + 1²` tried to send it before the caller was waiting, and the caller then waits forever. -/
theorem C49_lost_result (E : TSEnv) : ∃ s, ThreeSq.Reach E 2 5 s ∧ s.main = .recv ∧ ∀ s', ¬ ThreeSq.Step E 2 5 s s' := by
  have hsq : Nat.sqrt 5 = 2 := Nat.sqrt_add_eq 2 (a := 1) (by omega)
  have c0 : ThreeSq.candP 5 0 = 1 := by simp [ThreeSq.candP, ThreeSq.halfX, ThreeSq.rtOf, hsq]
  have c1 : ThreeSq.candP 5 1 = 5 := by simp [ThreeSq.candP, ThreeSq.halfX, ThreeSq.rtOf, hsq]
  have x0 : ThreeSq.halfX 5 0 = 1 := by simp [ThreeSq.halfX, ThreeSq.rtOf, hsq]
  have x1 : ThreeSq.halfX 5 1 = 0 := by simp [ThreeSq.halfX, ThreeSq.rtOf, hsq]
  have hf : ¬ ThreeSq.Filtered E 5 := by
    rintro ⟨h, -⟩
    revert h
    decide
  obtain ⟨coins, g, hc, hg, hv⟩ := exists_found E 5 (by norm_num) (by norm_num)
  -- the two goroutines are started and worker 1 finds a result
  let w : Nat → ThreeSq.Worker := Function.update (Function.update ThreeSq.init.workers 0 (.top 0)) 1 (.top 1)
  have r1 : ThreeSq.Reach E 2 5 { main := .spawn 2, workers := w } :=
    .tail (.tail (.refl _) (.spawn ThreeSq.init 0 rfl (by omega))) (.spawn _ 1 rfl (by omega))
  let s1 : ThreeSq.St := { main := .spawn 2, workers := w }
  let s2 := ThreeSq.setWorker s1 1 (.search (2 * ThreeSq.halfX 5 1) (ThreeSq.candP 5 1).toNat)
  let s3 := ThreeSq.setWorker s2 1 (.send (newInt3 (2 * ThreeSq.halfX 5 1) g.re g.im))
  let s4 := ThreeSq.setWorker s3 1 .exited
  let s5 := ThreeSq.setWorker s4 0 .exited
  have st1 : ThreeSq.Step E 2 5 s1 s2 := .search s1 1 1 (by simp [s1, w]) id (by rw [x1]; omega) (by rw [c1]; omega)
    (by rw [c1]; exact hf)
  have st2 : ThreeSq.Step E 2 5 s2 s3 := .found s2 1 (2 * ThreeSq.halfX 5 1) (ThreeSq.candP 5 1).toNat coins g
    (by simp [s2, ThreeSq.setWorker]) (by rw [c1]; exact hc)
    (by rw [c1]; exact hg) hv
  have st3 : ThreeSq.Step E 2 5 s3 s4 := .drop s3 1 (newInt3 (2 * ThreeSq.halfX 5 1) g.re g.im)
    (by simp [s3, ThreeSq.setWorker]) (by simp [s3, s2, s1, ThreeSq.setWorker])
  have st4 : ThreeSq.Step E 2 5 s4 s5 := .smallP s4 0 0 (by simp [s4, s3, s2, s1, w, ThreeSq.setWorker]) id
    (by rw [x0]; omega) (by rw [c0]; omega)
  refine ⟨{ s5 with main := .recv }, .tail (.tail (.tail (.tail (.tail r1 st1) st2) st3) st4) (.spawned s5 rfl), rfl, ?_⟩
  have hws : ∀ i, s5.workers i = .exited ∨ s5.workers i = .idle := by
    intro i
    simp only [s5, s4, s3, s2, s1, w, ThreeSq.setWorker, ThreeSq.init]
    by_cases h0 : i = 0
    · subst h0; left; simp
    · by_cases h1 : i = 1
      · subst h1; left; simp
      · right; simp [Function.update_of_ne h0, Function.update_of_ne h1]
  have no : ∀ i v, s5.workers i = v → v ≠ .exited → v ≠ .idle → False := by
    intro i v h h1 h2
    rcases hws i with h' | h' <;> rw [h'] at h
    · exact h1 h.symm
    · exact h2 h.symm
  intro s' hs
  cases hs with
  | spawn k hm' hk => cases hm'
  | spawned hm' => cases hm'
  | ret t hm' => cases hm'
  | ctxDone i cnt hw hc => exact no i _ hw (by simp) (by simp)
  | negX i cnt hw hc hx => exact no i _ hw (by simp) (by simp)
  | smallP i cnt hw hc hx hp => exact no i _ hw (by simp) (by simp)
  | filtered i cnt hw hc hx hp hf => exact no i _ hw (by simp) (by simp)
  | search i cnt hw hc hx hp hf => exact no i _ hw (by simp) (by simp)
  | again i x p coins hw hcoins hv => exact no i _ hw (by simp) (by simp)
  | found i x p coins g hw hcoins hg hv => exact no i _ hw (by simp) (by simp)
  | send i t hw hm' => exact no i _ hw (by simp) (by simp)
  | drop i t hw hm' => exact no i _ hw (by simp) (by simp)

theorem C49_violated : ¬ C49_statement := by
  intro h
  obtain ⟨s', t, h1, h2⟩ := h tsEnv 1 1 (by omega) (by norm_num) _ (.refl _)
  exact C49_one_never tsEnv 1 t ⟨by norm_num, s', h1, h2⟩

/-- The candidate number `c`: `n - (2 (√n / 2 - c))²`. -/
def candidate (n c : Nat) : Nat := n - (2 * (Nat.sqrt n / 2 - c)) ^ 2

theorem candidate_eq (n c : Nat) (hc : c ≤ Nat.sqrt n / 2) :
    0 ≤ ThreeSq.halfX n c ∧ ThreeSq.candP n c = candidate n c := by
  have h1 : ThreeSq.halfX n c = ((Nat.sqrt n / 2 - c : Nat) : Int) := by
    simp only [ThreeSq.halfX, ThreeSq.rtOf]; omega
  refine ⟨by rw [h1]; omega, ?_⟩
  have hle : (2 * (Nat.sqrt n / 2 - c)) ^ 2 ≤ n := by
    calc (2 * (Nat.sqrt n / 2 - c)) ^ 2 ≤ (Nat.sqrt n) ^ 2 := Nat.pow_le_pow_left (by omega) 2
      _ ≤ n := Nat.sqrt_le' n
  unfold candidate ThreeSq.candP
  rw [h1]
  push_cast [Nat.cast_sub hle]
  ring

/-- What does hold: if goroutine `i` meets a prime `p = 1 (mod 4)` as its first candidate that is small or passes the
primality test, then from every state in which the caller is waiting and goroutine `i` runs, the call can return. Missing
from `C49_statement`: other `n`, and states in which the goroutine has given up before the caller waits. -/
theorem C49_can_return_partial (E : TSEnv) (K n i j : Nat) (hle : i + j * K ≤ Nat.sqrt n / 2)
    (hskip : ∀ j' < j, 2 ^ 13 ≤ candidate n (i + j' * K) ∧ E.probablyPrime (candidate n (i + j' * K)) = false)
    (hp : (candidate n (i + j * K)).Prime) (h4 : candidate n (i + j * K) % 4 = 1)
    (hpp : candidate n (i + j * K) < 2 ^ 13 ∨ E.probablyPrime (candidate n (i + j * K)) = true) (s : ThreeSq.St)
    (h : ThreeSq.Reach E K n s) (hm : s.main = .recv) (h1 : s.workers i ≠ .idle) (h2 : s.workers i ≠ .exited) :
    ∃ s' t, Exec (ThreeSq.Step E K n) s s' ∧ s'.main = .ret t := by
  obtain ⟨hx, hc⟩ := candidate_eq n _ hle
  refine ThreeSqL.can_return E K n i j ?_ hx ?_ ?_ ?_ ?_ s h hm h1 h2
  · intro j' hj'
    have hle' : i + j' * K ≤ Nat.sqrt n / 2 :=
      Nat.le_trans (Nat.add_le_add_left (Nat.mul_le_mul_right _ (by omega)) _) hle
    obtain ⟨hx', hc'⟩ := candidate_eq n _ hle'
    obtain ⟨b1, b2⟩ := hskip j' hj'
    refine ⟨hx', by rw [hc']; omega, ?_, ?_⟩
    · rw [hc', Int.toNat_natCast]
      exact Nat.lt_size.2 b1
    · rw [hc', Int.toNat_natCast]; exact b2
  · rw [hc, Int.toNat_natCast]; exact hp.two_le
  · rw [hc, Int.toNat_natCast]; exact h4
  · rw [hc, Int.toNat_natCast]; exact exists_coin _ hp h4
  · rw [hc, Int.toNat_natCast]
    rintro ⟨f1, f2⟩
    rcases hpp with hpp | hpp
    · have : 2 ^ 13 ≤ candidate n (i + j * K) := Nat.lt_size.1 f1
      omega
    · rw [hpp] at f2; cases f2

/-- All goroutines started, none has moved. -/
theorem reach_started (E : TSEnv) (K n : Nat) :
    ThreeSq.Reach E K n { main := .recv, workers := fun k => if k < K then .top k else .idle } := by
  have key : ∀ k ≤ K, ThreeSq.Reach E K n { main := .spawn k, workers := fun i => if i < k then .top i else .idle } := by
    intro k
    induction k with
    | zero => intro _; exact .refl _
    | succ k ih =>
      intro hk
      have this := Exec.tail (ih (by omega)) (ThreeSq.Step.spawn _ k rfl (by omega))
      suffices e : (fun i => if i < k + 1 then ThreeSq.Worker.top i else .idle) =
          Function.update (fun i => if i < k then ThreeSq.Worker.top i else .idle) k (.top k) by
        rw [e]; exact this
      funext i
      by_cases hi : i = k
      · subst hi; simp
      · rw [Function.update_of_ne hi]
        by_cases h : i < k
        · rw [if_pos (by omega), if_pos h]
        · rw [if_neg (by omega), if_neg h]
  exact .tail (key K (Nat.le_refl _)) (.spawned _ rfl)

/-- Under the same conditions some run returns. -/
theorem C49_some_run_returns (E : TSEnv) (K n i j : Nat) (hi : i < K) (hle : i + j * K ≤ Nat.sqrt n / 2)
    (hskip : ∀ j' < j, 2 ^ 13 ≤ candidate n (i + j' * K) ∧ E.probablyPrime (candidate n (i + j' * K)) = false)
    (hp : (candidate n (i + j * K)).Prime) (h4 : candidate n (i + j * K) % 4 = 1)
    (hpp : candidate n (i + j * K) < 2 ^ 13 ∨ E.probablyPrime (candidate n (i + j * K)) = true) :
    ∃ t, ThreeSquaresReturns E K n t := by
  obtain ⟨s', t, h1, h2⟩ := C49_can_return_partial E K n i j hle hskip hp h4 hpp _ (reach_started E K n) rfl
    (by simp [hi]) (by simp [hi])
  exact ⟨t, by omega, s', by rw [Int.toNat_natCast]; exact ThreeSqL.exec_trans (reach_started E K n) h1, h2⟩

/-- With `K` CPUs there is a goroutine `i` and a round `j` such that: all candidates of the goroutine before have more than
13 bits and fail the primality test; candidate `p` of round `j` is at least 2 and has at most 13 bits or passes the test;
and there is an even `u` below `p` with `u^((p-1)/2) = -1 (mod p)`. -/
def Decomposable (E : TSEnv) (K n : Nat) : Prop :=
  ∃ i < K, ∃ j, i + j * K ≤ Nat.sqrt n / 2 ∧
    (∀ j' < j, 2 ^ 13 ≤ candidate n (i + j' * K) ∧ E.probablyPrime (candidate n (i + j' * K)) = false) ∧
    2 ≤ candidate n (i + j * K) ∧
    (candidate n (i + j * K) < 2 ^ 13 ∨ E.probablyPrime (candidate n (i + j * K)) = true) ∧
    ∃ r < candidate n (i + j * K) / 2,
      (2 * r) ^ ((candidate n (i + j * K) - 1) / 2) % candidate n (i + j * K) = candidate n (i + j * K) - 1

/-- The exact condition for `n = 1 (mod 4)`: some run of `ThreeSquares(n)` returns if and only if some goroutine gets to a
candidate with a usable random number. -/
theorem C49_returns_iff (E : TSEnv) (K n : Nat) (hn : n % 4 = 1) :
    (∃ t, ThreeSquaresReturns E K n t) ↔ Decomposable E K n := by
  have hfil : ∀ p, ThreeSq.Filtered E p ↔ 2 ^ 13 ≤ p ∧ E.probablyPrime p = false := fun p =>
    and_congr_left' Nat.lt_size
  have hmod : ∀ c, c ≤ Nat.sqrt n / 2 → candidate n c % 4 = 1 := by
    intro c hc
    have hle : (2 * (Nat.sqrt n / 2 - c)) ^ 2 ≤ n := by
      calc (2 * (Nat.sqrt n / 2 - c)) ^ 2 ≤ (Nat.sqrt n) ^ 2 := Nat.pow_le_pow_left (by omega) 2
        _ ≤ n := Nat.sqrt_le' n
    unfold candidate
    rw [mul_pow] at hle ⊢
    generalize (Nat.sqrt n / 2 - c) ^ 2 = y at *
    omega
  have hx : ∀ c, 0 ≤ ThreeSq.halfX n c ↔ c ≤ Nat.sqrt n / 2 := by
    intro c
    simp only [ThreeSq.halfX, ThreeSq.rtOf]; omega
  constructor
  · rintro ⟨t, -, s, hs, hm⟩
    rw [Int.toNat_natCast] at hs
    obtain ⟨i, hi, j, h1, h2, h3, h4, h5⟩ := ThreeSqL.finds_of_returns E K n s hs t hm
    have hle := (hx _).1 h1
    have hc := (candidate_eq n _ hle).2
    rw [hc, Int.toNat_natCast] at h3 h4 h5
    refine ⟨i, hi, j, hle, ?_, h3, ?_, h5⟩
    · intro j' hj'
      obtain ⟨b1, -, b3⟩ := h2 j' hj'
      rw [(candidate_eq n _ ((hx _).1 b1)).2, Int.toNat_natCast] at b3
      exact (hfil _).1 b3
    · rw [hfil, not_and_or, not_le] at h4
      simpa using h4
  · rintro ⟨i, hi, j, hle, hskip, h2, hpp, hr⟩
    obtain ⟨hx0, hc⟩ := candidate_eq n _ hle
    obtain ⟨s', t, h1, h2⟩ := ThreeSqL.can_return E K n i j (by
        intro j' hj'
        have hle' : i + j' * K ≤ Nat.sqrt n / 2 :=
          Nat.le_trans (Nat.add_le_add_left (Nat.mul_le_mul_right _ (by omega)) _) hle
        obtain ⟨hx', hc'⟩ := candidate_eq n _ hle'
        have b := hskip j' hj'
        refine ⟨hx', by rw [hc']; omega, ?_⟩
        rw [hc', Int.toNat_natCast]
        exact (hfil _).2 b) hx0 (by rw [hc, Int.toNat_natCast]; exact h2) (by rw [hc, Int.toNat_natCast]; exact hmod _ hle)
      (by rw [hc, Int.toNat_natCast]; exact hr)
      (by
        rw [hc, Int.toNat_natCast, hfil, not_and_or, not_le]
        simpa using hpp) _ (reach_started E K n) rfl (by simp [hi]) (by simp [hi])
    exact ⟨t, by omega, s', by rw [Int.toNat_natCast]; exact ThreeSqL.exec_trans (reach_started E K n) h1, h2⟩

/-- `ThreeSquares(41)` with two CPUs: goroutine 0 meets 41 - 36 = 5. -/
example : ∃ t, ThreeSquaresReturns tsEnv 2 (41 : Nat) t :=
  have hsq : Nat.sqrt 41 = 6 := Nat.sqrt_add_eq 6 (a := 5) (by omega)
  have hc : candidate 41 (0 + 0 * 2) = 5 := by simp [candidate, hsq]
  C49_some_run_returns tsEnv 2 41 0 0 (by omega) (by omega) (fun _ h => by omega)
    (by rw [hc]; norm_num) (by rw [hc]) (.inl (by rw [hc]; norm_num))

end Verif.Props
