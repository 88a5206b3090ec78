import Verif.Model.Accumulator
import Verif.Spec.Accumulator
import Verif.Lemmas.ForkJoin
import Mathlib.Tactic.Ring
import Mathlib.Data.Nat.ModEq

/-! # Helper lemmas for the accumulator -/

namespace Verif.Lemmas
open Verif.Go Verif.Model Verif.Spec

section slices
variable {α : Type}

theorem slice_append_mid (l : List α) (a b c : Nat) (h1 : a ≤ b) (h2 : b ≤ c) :
    slice l a b ++ slice l b c = slice l a c := by
  unfold slice
  have h3 : c - a = (b - a) + (c - b) := by omega
  rw [h3, List.take_add, List.drop_drop]
  congr 3
  omega

theorem slice_full (l : List α) : slice l 0 l.length = l := by simp [slice]

theorem slice_length (l : List α) (a b : Nat) (h : b ≤ l.length) : (slice l a b).length = b - a := by
  simp [slice]; omega

theorem slice_halves (l : List α) : slice l 0 (l.length / 2) ++ slice l (l.length / 2) l.length = l := by
  rw [slice_append_mid _ _ _ _ (Nat.zero_le _) (by omega), slice_full]

theorem slice_quarters (l : List α) :
    (slice l 0 (l.length / 4) ++ slice l (l.length / 4) (l.length / 2)) ++
      (slice l (l.length / 2) (l.length * 3 / 4) ++ slice l (l.length * 3 / 4) l.length) = l := by
  rw [slice_append_mid _ _ _ _ (Nat.zero_le _) (by omega), slice_append_mid _ _ _ _ (by omega) (by omega),
    slice_halves]

end slices

section products
variable {α : Type} [CommMonoid α]

theorem foldl_mul_eq (l : List α) (a : α) : l.foldl (fun r v => r * v) a = a * l.prod := by
  induction l generalizing a with
  | nil => simp
  | cons x l ih => simp [ih, mul_assoc]

theorem setProduct_eq (l : List α) : setProduct l = l.prod := by
  simp [setProduct, foldl_mul_eq]

theorem setProduct2_eq (l : List α) : setProduct2 l = l.prod := by
  simp [setProduct2, foldl_mul_eq]

theorem setProductRecursive_eq (l : List α) : setProductRecursive l = l.prod := by
  induction hn : l.length using Nat.strong_induction_on generalizing l with
  | _ n ih =>
    unfold setProductRecursive
    split
    · simp [foldl_mul_eq]
    · rename_i h
      simp only
      rw [ih _ _ _ rfl, ih _ _ _ rfl, ← List.prod_append, slice_halves]
      · rw [slice_length _ _ _ (Nat.le_refl _)]; omega
      · rw [slice_length _ _ _ (by omega)]; omega

theorem setProductRecursiveFast_eq (l : List α) : setProductRecursiveFast l = l.prod := by
  induction hn : l.length using Nat.strong_induction_on generalizing l with
  | _ n ih =>
    unfold setProductRecursiveFast
    split
    · simp [foldl_mul_eq]
    · rename_i h
      simp only
      rw [ih _ _ _ rfl, ih _ _ _ rfl, ← List.prod_append, slice_halves]
      · rw [slice_length _ _ _ (Nat.le_refl _)]; omega
      · rw [slice_length _ _ _ (by omega)]; omega

theorem eval_fork2 {β : Type} (p q : Prog β) (k : List β → Res β) :
    (Prog.fork 2 (fun i => if i = 0 then p else q) k).eval
      = (do let a ← p.eval; let b ← q.eval; k [a, b]) := by
  cases hp : p.eval with
  | error e =>
    simp [Prog.eval, List.finRange_succ, hp, bind, Except.bind]
  | ok a =>
    cases hq : q.eval with
    | error e => simp [Prog.eval, List.finRange_succ, hp, hq, bind, Except.bind]
    | ok b => simp [Prog.eval, List.finRange_succ, hp, hq, bind, Except.bind, pure, Except.pure]

theorem setProductParallelWithChan_eval (l : List α) (limit : Int) :
    (setProductParallelWithChan l limit).eval = .ok l.prod := by
  induction hn : l.length using Nat.strong_induction_on generalizing l limit with
  | _ n ih =>
    unfold setProductParallelWithChan
    split
    · simp [Prog.eval, setProductRecursiveFast_eq]
    · split
      · simp [Prog.eval, setProductRecursiveFast_eq]
      · rw [eval_fork2, ih _ _ _ _ rfl, ih _ _ _ _ rfl]
        · simp only [bind, Except.bind, mulPair]
          rw [← List.prod_append, slice_halves]
        · rw [slice_length _ _ _ (Nat.le_refl _)]; omega
        · rw [slice_length _ _ _ (by omega)]; omega

theorem setProductParallel_eval (l : List α) (limit : Int) :
    (setProductParallel l limit).eval = .ok l.prod := by
  have : setProductParallel l limit = setProductParallelWithChan l limit := by
    conv_rhs => unfold setProductParallelWithChan
    unfold setProductParallel
    split
    · rfl
    · split <;> rfl
  rw [this, setProductParallelWithChan_eval]

end products

/-! ## Witnesses -/

theorem witnesses_length (b N : Nat) (xs : List Nat) : (witnesses b N xs).length = xs.length := by
  simp [witnesses]

theorem witnesses_getElem (b N : Nat) (xs : List Nat) (i : Nat) (h : i < (witnesses b N xs).length) :
    (witnesses b N xs)[i] = witness b N xs i := by
  simp [witnesses]

theorem pow_mod_pow (b m k N : Nat) : (b ^ m % N) ^ k % N = b ^ (m * k) % N := by
  rw [← Nat.pow_mod, pow_mul]

theorem witnesses_append (b N : Nat) (A B : List Nat) :
    witnesses b N (A ++ B) = witnesses (b ^ B.prod % N) N A ++ witnesses (b ^ A.prod % N) N B := by
  apply List.ext_getElem
  · simp [witnesses_length]
  · intro i h1 h2
    rw [witnesses_getElem]
    by_cases hi : i < A.length
    · rw [List.getElem_append_left (by rw [witnesses_length]; exact hi), witnesses_getElem]
      unfold witness allBut
      rw [pow_mod_pow, List.eraseIdx_append_of_lt_length hi, List.prod_append, Nat.mul_comm]
    · rw [List.getElem_append_right (by rw [witnesses_length]; omega), witnesses_getElem, witnesses_length]
      unfold witness allBut
      rw [pow_mod_pow, List.eraseIdx_append_of_length_le (by omega), List.prod_append]

theorem witnesses_append4 (b N : Nat) (A B C D : List Nat) :
    witnesses b N ((A ++ B) ++ (C ++ D)) =
      ((witnesses (b ^ ((C ++ D).prod * B.prod) % N) N A ++ witnesses (b ^ ((C ++ D).prod * A.prod) % N) N B)
        ++ witnesses (b ^ ((A ++ B).prod * D.prod) % N) N C) ++ witnesses (b ^ ((A ++ B).prod * C.prod) % N) N D := by
  rw [witnesses_append, witnesses_append _ _ A B, witnesses_append _ _ C D]
  simp only [pow_mod_pow, List.append_assoc]

theorem handleSmallSet_eq (base N : Nat) (set : List Nat) (h0 : 0 < set.length) (h4 : set.length ≤ 4)
    (hb : base % N = base ∨ 2 ≤ set.length) : handleSmallSet base N set = .ok (witnesses base N set) := by
  match set with
  | [x0] =>
    have hb : base % N = base := by simpa using hb
    simp [handleSmallSet, witnesses, witness, allBut, hb]
  | [x0, x1] => simp [handleSmallSet, witnesses, witness, allBut, List.range_succ, doubleExp, expMod]
  | [x0, x1, x2] =>
    simp [handleSmallSet, witnesses, witness, allBut, List.range_succ, doubleExp, expMod, accumulateNewPow]
  | [x0, x1, x2, x3] =>
    have e0 : x2 * x3 * x1 = x1 * (x2 * x3) := by ring
    have e1 : x2 * x3 * x0 = x0 * (x2 * x3) := by ring
    have e2 : x0 * x1 * x3 = x0 * (x1 * x3) := by ring
    have e3 : x0 * x1 * x2 = x0 * (x1 * x2) := by ring
    simp [handleSmallSet, witnesses, witness, allBut, List.range_succ, fourfoldExp, expMod, e0, e1, e2, e3]
  | _ :: _ :: _ :: _ :: _ :: _ => simp at h4

theorem fourExponents_eq (r : Nat) (set : List Nat) :
    let n := set.length
    let A := slice set 0 (n / 4)
    let B := slice set (n / 4) (n / 2)
    let C := slice set (n / 2) (n * 3 / 4)
    let D := slice set (n * 3 / 4) n
    fourExponents r set = ((C ++ D).prod * r * B.prod, (C ++ D).prod * r * A.prod,
      (A ++ B).prod * r * D.prod, (A ++ B).prod * r * C.prod) := by
  intro n A B C D
  have h1 : A ++ B = slice set 0 (n / 2) := slice_append_mid _ _ _ _ (Nat.zero_le _) (by omega)
  have h2 : C ++ D = slice set (n / 2) n := slice_append_mid _ _ _ _ (by omega) (by omega)
  simp only [fourExponents, setProductRecursiveFast_eq]
  rw [h1, h2]

/-- Reduced base (or at least two elements): the recursive prover returns the specified witnesses. -/
theorem proveMembership_eq (base N : Nat) (set : List Nat) (h0 : 0 < set.length)
    (hb : base % N = base ∨ 2 ≤ set.length) : proveMembership base N set = .ok (witnesses base N set) := by
  induction hn : set.length using Nat.strong_induction_on generalizing base set with
  | _ n ih =>
    unfold proveMembership
    split
    · rename_i h
      exact handleSmallSet_eq base N set h0 h hb
    · rename_i h
      have hA : (slice set 0 (set.length / 4)).length = set.length / 4 := by rw [slice_length _ _ _ (by omega)]; omega
      have hB := slice_length set (set.length / 4) (set.length / 2) (by omega)
      have hC := slice_length set (set.length / 2) (set.length * 3 / 4) (by omega)
      have hD := slice_length set (set.length * 3 / 4) set.length (by omega)
      simp only [fourExponents_eq, fourfoldExp, expMod, Nat.mul_one]
      rw [ih _ (by omega) _ _ (by omega) (.inl (Nat.mod_mod _ _)) rfl,
        ih _ (by omega) _ _ (by omega) (.inl (Nat.mod_mod _ _)) rfl,
        ih _ (by omega) _ _ (by omega) (.inl (Nat.mod_mod _ _)) rfl,
        ih _ (by omega) _ _ (by omega) (.inl (Nat.mod_mod _ _)) rfl]
      simp only [bind, Except.bind]
      rw [← witnesses_append4, slice_quarters]

theorem proveMembership_nil (base N : Nat) : (proveMembership base N []).panics = true := by
  simp [proveMembership, handleSmallSet, goPanic, Res.panics]

theorem randomized_eq (base r N : Nat) (set : List Nat) (h4 : 4 ≤ set.length) :
    proveMembershipSingleThreadWithRandomizer base r N set = .ok (witnesses (base ^ r) N set) := by
  have hA : (slice set 0 (set.length / 4)).length = set.length / 4 := by rw [slice_length _ _ _ (by omega)]; omega
  have hB := slice_length set (set.length / 4) (set.length / 2) (by omega)
  have hC := slice_length set (set.length / 2) (set.length * 3 / 4) (by omega)
  have hD := slice_length set (set.length * 3 / 4) set.length (by omega)
  unfold proveMembershipSingleThreadWithRandomizer
  simp only [fourExponents_eq, fourfoldExp, expMod]
  rw [proveMembership_eq _ _ _ (by omega) (.inl (Nat.mod_mod _ _)),
    proveMembership_eq _ _ _ (by omega) (.inl (Nat.mod_mod _ _)),
    proveMembership_eq _ _ _ (by omega) (.inl (Nat.mod_mod _ _)),
    proveMembership_eq _ _ _ (by omega) (.inl (Nat.mod_mod _ _))]
  simp only [bind, Except.bind]
  have key : ∀ a b : Nat, base ^ (a * r * b) = (base ^ r) ^ (a * b) := fun a b => by
    rw [← pow_mul]; congr 1; ring
  simp only [key]
  rw [← witnesses_append4, slice_quarters]

theorem randomized_small (base r N : Nat) (set : List Nat) (h4 : set.length < 4) :
    (proveMembershipSingleThreadWithRandomizer base r N set).panics = true := by
  have hA : slice set 0 (set.length / 4) = [] := by
    apply List.eq_nil_of_length_eq_zero
    rw [slice_length _ _ _ (by omega)]; omega
  unfold proveMembershipSingleThreadWithRandomizer
  simp only [hA]
  generalize (fourfoldExp base N _ _ _ _).1 = b
  have := proveMembership_nil b N
  cases hp : proveMembership b N [] with
  | ok v => rw [hp] at this; simp [Res.panics] at this
  | error e => simp [bind, Except.bind, Res.panics]

/-! ## Fork-join -/

theorem withChan_eval (base N : Nat) (set : List Nat) (limit : Int) (h0 : 0 < set.length)
    (hb : base % N = base ∨ 2 ≤ set.length) :
    (proveMembershipWithChan base N set limit).eval = .ok (witnesses base N set) := by
  induction hn : set.length using Nat.strong_induction_on generalizing base set limit with
  | _ n ih =>
    unfold proveMembershipWithChan
    split
    · rw [Prog.eval, proveMembership_eq _ _ _ h0 hb]
    · split
      · rename_i h; rw [Prog.eval, handleSmallSet_eq _ _ _ h0 h hb]
      · rename_i h
        have hA : (slice set 0 (set.length / 2)).length = set.length / 2 := by
          rw [slice_length _ _ _ (by omega)]; omega
        have hB := slice_length set (set.length / 2) set.length (by omega)
        simp only [setProductRecursiveFast_eq, doubleExp, expMod]
        rw [eval_fork2, ih _ (by omega) _ _ _ (by omega) (.inl (Nat.mod_mod _ _)) rfl,
          ih _ (by omega) _ _ _ (by omega) (.inl (Nat.mod_mod _ _)) rfl]
        simp only [bind, Except.bind, appendAll, List.foldl, List.nil_append]
        rw [← witnesses_append, slice_halves]

theorem withChan_eval_nil (base N : Nat) (limit : Int) :
    ∃ e, (proveMembershipWithChan base N [] limit).eval = .error e := by
  unfold proveMembershipWithChan
  split
  · rw [Prog.eval]
    simp [proveMembership, handleSmallSet, goPanic]
  · rw [dif_pos (by simp), Prog.eval]
    simp [handleSmallSet, goPanic]

theorem fourWorkers_eval (base N : Nat) (set : List Nat) (limit : Int) (h4 : 4 ≤ set.length) :
    (fourWorkers base N set limit).eval = .ok (witnesses base N set) := by
  have hA : (slice set 0 (set.length / 4)).length = set.length / 4 := by rw [slice_length _ _ _ (by omega)]; omega
  have hB := slice_length set (set.length / 4) (set.length / 2) (by omega)
  have hC := slice_length set (set.length / 2) (set.length * 3 / 4) (by omega)
  have hD := slice_length set (set.length * 3 / 4) set.length (by omega)
  unfold fourWorkers
  simp only [fourExponents_eq, fourfoldExp, expMod, Nat.mul_one]
  rw [eval_fork_ok 4 _ appendAll
    [witnesses _ N (slice set 0 (set.length / 4)), witnesses _ N (slice set (set.length / 4) (set.length / 2)),
      witnesses _ N (slice set (set.length / 2) (set.length * 3 / 4)),
      witnesses _ N (slice set (set.length * 3 / 4) set.length)] rfl]
  · simp only [appendAll, List.foldl, List.nil_append]
    rw [← witnesses_append4, slice_quarters]
  · intro i
    match i with
    | 0 => exact withChan_eval _ _ _ _ (by omega) (.inl (Nat.mod_mod _ _))
    | 1 => exact withChan_eval _ _ _ _ (by omega) (.inl (Nat.mod_mod _ _))
    | 2 => exact withChan_eval _ _ _ _ (by omega) (.inl (Nat.mod_mod _ _))
    | 3 => exact withChan_eval _ _ _ _ (by omega) (.inl (Nat.mod_mod _ _))

theorem fourWorkers_eval_small (base N : Nat) (set : List Nat) (limit : Int) (h4 : set.length < 4) :
    ∃ e, (fourWorkers base N set limit).eval = .error e := by
  have hA : slice set 0 (set.length / 4) = [] := by
    apply List.eq_nil_of_length_eq_zero
    rw [slice_length _ _ _ (by omega)]; omega
  unfold fourWorkers
  simp only [hA]
  obtain ⟨e, he⟩ := withChan_eval_nil (fourfoldExp base N (fourExponents 1 set).1 (fourExponents 1 set).2.1
    (fourExponents 1 set).2.2.1 (fourExponents 1 set).2.2.2).1 N limit
  exact eval_fork_error 4 _ appendAll 0 e he

theorem parallel_eval (base N : Nat) (set : List Nat) (limit : Int) (h0 : 0 < set.length)
    (hb : base % N = base ∨ 2 ≤ set.length) :
    (proveMembershipParallel base N set limit).eval = .ok (witnesses base N set) := by
  unfold proveMembershipParallel
  split
  · rw [Prog.eval, proveMembership_eq _ _ _ h0 hb]
  · split
    · rename_i h; rw [Prog.eval, handleSmallSet_eq _ _ _ h0 h hb]
    · exact fourWorkers_eval _ _ _ _ (by omega)

theorem parallelWithTable_eval (base N : Nat) (set : List Nat) (limit : Int) (h0 : 0 < set.length)
    (hb : base % N = base ∨ 2 ≤ set.length) :
    (proveMembershipParallelWithTable base N set limit).eval = .ok (witnesses base N set) := by
  unfold proveMembershipParallelWithTable
  split
  · rw [Prog.eval, proveMembership_eq _ _ _ h0 hb]
  · split
    · rename_i h; rw [Prog.eval, handleSmallSet_eq _ _ _ h0 h hb]
    · exact fourWorkers_eval _ _ _ _ (by omega)

end Verif.Lemmas
