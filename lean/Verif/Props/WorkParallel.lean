import Verif.Props.Work
import Verif.Props.Accumulator

/-!
# Property C115: work of the parallel provers

The sum of the sizes of all exponents in all goroutines.
-/

namespace Verif.Props
open Verif.Go Verif.Model Verif.Spec Verif.Lemmas

/-! ## The counting versions compute the same values, panics included -/

theorem handleSmallSetL_fst (base N : Nat) (set : List Nat) :
    (handleSmallSetL base N set).map Prod.fst = handleSmallSet base N set := by
  match set with
  | [] => rfl
  | [_] => rfl
  | [_, _] => rfl
  | [_, _, _] => rfl
  | [_, _, _, _] => rfl
  | _ :: _ :: _ :: _ :: _ :: _ => rfl

theorem res_map_bind {α β γ δ : Type} (f : γ → δ) (g : α → β) (x : Res α) (k : α → Res γ) (k' : β → Res δ)
    (h : ∀ a, (k a).map f = k' (g a)) : (x >>= k).map f = x.map g >>= k' := by
  cases x with
  | error e => rfl
  | ok a => exact h a

theorem proveMembershipL_fst (base N : Nat) (set : List Nat) :
    (proveMembershipL base N set).map Prod.fst = proveMembership base N set := by
  induction hn : set.length using Nat.strong_induction_on generalizing base set with
  | _ n ih =>
    unfold proveMembershipL proveMembership
    split
    · exact handleSmallSetL_fst base N set
    · rename_i h4
      have hs : ∀ a b, b - a < n → ∀ bs, (proveMembershipL bs N (slice set a b)).map Prod.fst = proveMembership bs N (slice set a b) :=
        fun a b hab bs => ih (slice set a b).length
          (by simp only [slice, List.length_take, List.length_drop]; omega) bs _ rfl
      simp only [← hs 0 (set.length / 4) (by omega), ← hs (set.length / 4) (set.length / 2) (by omega),
        ← hs (set.length / 2) (set.length * 3 / 4) (by omega), ← hs (set.length * 3 / 4) set.length (by omega)]
      refine res_map_bind _ _ _ _ _ fun p0 => res_map_bind _ _ _ _ _ fun p1 => res_map_bind _ _ _ _ _ fun p2 =>
        res_map_bind _ _ _ _ _ fun p3 => rfl

/-- C115: the versions that record the exponents give the results of the provers, for every set and also if they panic or do
not end within the given number of passes. -/
theorem C115_same (fuel base N : Nat) (set : List Nat) :
    (proveMembershipL base N set).map Prod.fst = proveMembership base N set ∧
    (proveMembershipIterL fuel base N set).map Prod.fst = proveMembershipIterFuel fuel base N set := by
  refine ⟨proveMembershipL_fst base N set, ?_⟩
  unfold proveMembershipIterL proveMembershipIterFuel
  split
  · rfl
  · rw [← iterLoopL_fst, Option.map_map, Option.map_map]
    rfl

/-! ## The parallel provers -/

theorem appendAllL_two (own : List Nat) (a b : List Nat × List Nat) :
    appendAllL own [a, b] = .ok (a.1 ++ b.1, own ++ a.2 ++ b.2) := rfl

theorem seq_bound (base N B : Nat) (set : List Nat) (h0 : set ≠ []) (h : ∀ x ∈ set, x.size ≤ B) (c : Nat)
    (hc : set.length ≤ 2 ^ c) : ∃ ps es, proveMembershipL base N set = .ok (ps, es) ∧ proveMembership base N set = .ok ps ∧
      2 * totalBits es ≤ 3 * set.length * B * (c + 1) := by
  have hk : set.length ≤ 4 ^ ((c + 1) / 2) := by
    refine hc.trans ?_
    rw [show 4 = 2 ^ 2 by rfl, ← pow_mul]
    exact Nat.pow_le_pow_right (by omega) (by omega)
  obtain ⟨ps, es, h1, h2, h3⟩ := proveMembershipL_spec base N B set h0 h _ hk
  refine ⟨ps, es, h1, h2, ?_⟩
  have : 3 * set.length * B * (2 * ((c + 1) / 2)) ≤ 3 * set.length * B * (c + 1) := Nat.mul_le_mul_left _ (by omega)
  have e : 3 * set.length * B * (2 * ((c + 1) / 2)) = 2 * (3 * set.length * B * ((c + 1) / 2)) := by ring
  omega

theorem small_eq (base N : Nat) (set : List Nat) (h4 : set.length ≤ 4) :
    handleSmallSetL base N set = proveMembershipL base N set ∧ handleSmallSet base N set = proveMembership base N set := by
  unfold proveMembershipL proveMembership
  rw [dif_pos h4, dif_pos h4]
  exact ⟨rfl, rfl⟩

theorem withChanL_bound (base N B : Nat) (set : List Nat) (limit : Int) (h0 : set ≠ []) (h : ∀ x ∈ set, x.size ≤ B) (c : Nat)
    (hc : set.length ≤ 2 ^ c) : ∃ ps es, (proveMembershipWithChanL base N set limit).eval = .ok (ps, es) ∧
      (proveMembershipWithChan base N set limit).eval = .ok ps ∧ 2 * totalBits es ≤ 3 * set.length * B * (c + 1) := by
  induction c generalizing base set limit with
  | zero =>
    have h1 : set.length ≤ 4 := by simp at hc; omega
    obtain ⟨ps, es, a1, a2, a3⟩ := seq_bound base N B set h0 h 0 hc
    unfold proveMembershipWithChanL proveMembershipWithChan
    rw [dif_pos h1, dif_pos h1, (small_eq base N set h1).1, (small_eq base N set h1).2, ite_self, ite_self]
    exact ⟨ps, es, a1, a2, a3⟩
  | succ c ih =>
    by_cases hb : limit ≤ 0 ∨ set.length ≤ 4
    · obtain ⟨ps, es, a1, a2, a3⟩ := seq_bound base N B set h0 h _ hc
      refine ⟨ps, es, ?_, ?_, a3⟩
      · unfold proveMembershipWithChanL
        split
        · exact a1
        · rw [dif_pos (by omega), (small_eq base N set (by omega)).1]
          exact a1
      · unfold proveMembershipWithChan
        split
        · exact a2
        · rw [dif_pos (by omega), (small_eq base N set (by omega)).2]
          exact a2
    · push Not at hb
      have hpow : 2 ^ (c + 1) = 2 * 2 ^ c := by ring
      have hq : ∀ a b, a < b → b ≤ set.length → b - a ≤ 2 ^ c → ∀ bs, ∃ ps es,
          (proveMembershipWithChanL bs N (slice set a b) (limit - 1)).eval = .ok (ps, es) ∧
          (proveMembershipWithChan bs N (slice set a b) (limit - 1)).eval = .ok ps ∧
          2 * totalBits es ≤ 3 * (b - a) * B * (c + 1) := by
        intro a b hab hb hle bs
        have hl := slice_length set a b hb
        obtain ⟨ps, es, e1, e2, e3⟩ := ih bs (slice set a b) (limit - 1) (by
          intro he
          rw [he] at hl
          simp at hl
          omega) (fun x hx => h x (slice_mem hx)) (by rw [hl]; exact hle)
        rw [hl] at e3
        exact ⟨ps, es, e1, e2, e3⟩
      have key : ∀ a b, a < b → b ≤ set.length → (setProductRecursiveFast (slice set a b)).size ≤ (b - a) * B := by
        intro a b hab hb
        rw [setProductRecursiveFast_eq]
        have hl := slice_length set a b hb
        have := size_prod_le (slice set a b) B (fun x hx => h x (slice_mem hx)) (by
          intro he
          rw [he] at hl
          simp at hl
          omega)
        rwa [hl] at this
      have k1 := key (set.length / 2) set.length (by omega) (Nat.le_refl _)
      have k2 := key 0 (set.length / 2) (by omega) (by omega)
      unfold proveMembershipWithChanL proveMembershipWithChan
      rw [if_neg (by omega), if_neg (by omega), dif_neg (by omega), dif_neg (by omega)]
      simp only
      generalize setProductRecursiveFast (slice set (set.length / 2) set.length) = A1 at *
      generalize setProductRecursiveFast (slice set 0 (set.length / 2)) = A2 at *
      obtain ⟨p0, l0, a0, b0, c0⟩ := hq 0 (set.length / 2) (by omega) (by omega) (by omega) (doubleExp base A1 A2 N).1
      obtain ⟨p1, l1, a1, b1, c1⟩ := hq (set.length / 2) set.length (by omega) (by omega) (by omega) (doubleExp base A1 A2 N).2
      rw [eval_fork2, eval_fork2, a0, a1, b0, b1]
      refine ⟨_, _, rfl, rfl, ?_⟩
      simp only [List.foldl, totalBits_append]
      have e0 : totalBits [A1, A2] = A1.size + A2.size := by simp [totalBits]
      have e1 : 3 * (set.length / 2 - 0) * B * (c + 1) + 3 * (set.length - set.length / 2) * B * (c + 1)
          = 3 * set.length * B * (c + 1) := by
        simp only [← Nat.add_mul]
        congr 2
        omega
      have e2 : 3 * set.length * B * (c + 1 + 1) = 3 * set.length * B * (c + 1) + 3 * set.length * B := by ring
      have e3 : (set.length - set.length / 2) * B + (set.length / 2 - 0) * B = set.length * B := by
        rw [← Nat.add_mul]
        congr 1
        omega
      have e4 : 3 * set.length * B = 3 * (set.length * B) := by ring
      omega

theorem parallelL_bound (base N B : Nat) (set : List Nat) (limit : Int) (h0 : set ≠ []) (h : ∀ x ∈ set, x.size ≤ B) (c : Nat)
    (hc : set.length ≤ 2 ^ c) : ∃ ps es, (proveMembershipParallelL base N set limit).eval = .ok (ps, es) ∧
      (proveMembershipParallel base N set limit).eval = .ok ps ∧ 2 * totalBits es ≤ 3 * set.length * B * (c + 1) := by
  by_cases hb : limit ≤ 0 ∨ set.length ≤ 4
  · obtain ⟨ps, es, a1, a2, a3⟩ := seq_bound base N B set h0 h _ hc
    refine ⟨ps, es, ?_, ?_, a3⟩
    · unfold proveMembershipParallelL
      split
      · exact a1
      · rw [if_pos (by omega), (small_eq base N set (by omega)).1]
        exact a1
    · unfold proveMembershipParallel
      split
      · exact a2
      · rw [if_pos (by omega), (small_eq base N set (by omega)).2]
        exact a2
  · push Not at hb
    obtain ⟨d, rfl⟩ : ∃ d, c = d + 2 := by
      refine ⟨c - 2, ?_⟩
      by_contra hd
      have : 2 ^ c ≤ 2 ^ 1 := Nat.pow_le_pow_right (by omega) (by omega)
      omega
    have hpow : 2 ^ (d + 2) = 4 * 2 ^ d := by ring
    have hq : ∀ a b, a < b → b ≤ set.length → b - a ≤ 2 ^ d → ∀ bs, ∃ ps es,
        (proveMembershipWithChanL bs N (slice set a b) (limit - 2)).eval = .ok (ps, es) ∧
        (proveMembershipWithChan bs N (slice set a b) (limit - 2)).eval = .ok ps ∧
        2 * totalBits es ≤ 3 * (b - a) * B * (d + 1) := by
      intro a b hab hb hle bs
      have hl := slice_length set a b hb
      obtain ⟨ps, es, e1, e2, e3⟩ := withChanL_bound bs N B (slice set a b) (limit - 2) (by
        intro he
        rw [he] at hl
        simp at hl
        omega) (fun x hx => h x (slice_mem hx)) d (by rw [hl]; exact hle)
      rw [hl] at e3
      exact ⟨ps, es, e1, e2, e3⟩
    have hbits := fourExponents_bits set B h (by omega)
    unfold proveMembershipParallelL proveMembershipParallel fourWorkers
    rw [if_neg (by omega), if_neg (by omega), if_neg (by omega), if_neg (by omega)]
    simp only
    generalize fourExponents 1 set = e at hbits ⊢
    obtain ⟨p0, l0, a0, b0, c0⟩ := hq 0 (set.length / 4) (by omega) (by omega) (by omega) (fourfoldExp base N e.1 e.2.1 e.2.2.1 e.2.2.2).1
    obtain ⟨p1, l1, a1, b1, c1⟩ := hq (set.length / 4) (set.length / 2) (by omega) (by omega) (by omega) (fourfoldExp base N e.1 e.2.1 e.2.2.1 e.2.2.2).2.1
    obtain ⟨p2, l2, a2, b2, c2⟩ := hq (set.length / 2) (set.length * 3 / 4) (by omega) (by omega) (by omega) (fourfoldExp base N e.1 e.2.1 e.2.2.1 e.2.2.2).2.2.1
    obtain ⟨p3, l3, a3, b3, c3⟩ := hq (set.length * 3 / 4) set.length (by omega) (by omega) (by omega) (fourfoldExp base N e.1 e.2.1 e.2.2.1 e.2.2.2).2.2.2
    rw [eval_fork_ok 4 _ _ [(p0, l0), (p1, l1), (p2, l2), (p3, l3)] rfl (by
        intro i
        match i with
        | 0 => exact a0
        | 1 => exact a1
        | 2 => exact a2
        | 3 => exact a3),
      eval_fork_ok 4 _ _ [p0, p1, p2, p3] rfl (by
        intro i
        match i with
        | 0 => exact b0
        | 1 => exact b1
        | 2 => exact b2
        | 3 => exact b3)]
    refine ⟨_, _, rfl, rfl, ?_⟩
    simp only [List.foldl, totalBits_append]
    have e1 : 3 * (set.length / 4 - 0) * B * (d + 1) + 3 * (set.length / 2 - set.length / 4) * B * (d + 1)
        + 3 * (set.length * 3 / 4 - set.length / 2) * B * (d + 1) + 3 * (set.length - set.length * 3 / 4) * B * (d + 1)
        = 3 * set.length * B * (d + 1) := by
      simp only [← Nat.add_mul]
      congr 2
      omega
    have e2 : 3 * set.length * B * (d + 2 + 1) = 3 * set.length * B * (d + 1) + 2 * (3 * set.length * B) := by ring
    omega

/-- C115 for the parallel prover: whatever the limit and the schedule, all goroutines together use exponents of at most
3/2 n B (log2 n + 1) bits, where the logarithm is rounded up. So the parallel prover does not do more work than the bound for
the sequential one, up to rounding. -/
theorem C115_parallel (base N B : Nat) (set : List Nat) (limit : Int) (h0 : set ≠ []) (h : ∀ x ∈ set, x.size ≤ B) :
    ∃ ps es, AlwaysGives (proveMembershipParallelL base N set limit) (.ok (ps, es)) ∧
      AlwaysGives (proveMembershipParallel base N set limit) (.ok ps) ∧
      2 * totalBits es ≤ 3 * set.length * B * (Nat.clog 2 set.length + 1) := by
  obtain ⟨ps, es, h1, h2, h3⟩ := parallelL_bound base N B set limit h0 h _ (Nat.le_pow_clog (by omega) _)
  refine ⟨ps, es, ?_, ?_, h3⟩
  · rw [← h1]
    exact alwaysGives_eval _
  · rw [← h2]
    exact alwaysGives_eval _

/-- Six elements of at most five bits and limit 3: at most 3 * 6 * 5 * (3 + 1) / 2 = 180 bits. -/
example : ∃ ps es, AlwaysGives (proveMembershipParallelL 2 35 [3, 5, 7, 11, 13, 17] 3) (.ok (ps, es)) ∧ totalBits es ≤ 180 := by
  obtain ⟨ps, es, h1, -, h3⟩ := C115_parallel 2 35 5 [3, 5, 7, 11, 13, 17] 3 (by simp) (by decide +kernel)
  have e : Nat.clog 2 6 = 3 := by decide +kernel
  refine ⟨ps, es, h1, ?_⟩
  simp only [List.length_cons, List.length_nil, Nat.zero_add, Nat.reduceAdd, e] at h3
  omega

end Verif.Props
