import Verif.Lemmas.SharedMem
import Verif.Lemmas.Expected
import Verif.Model.ProveMem

/-!
# The provers on shared memory: every function returns new integers and writes no others
-/

namespace Verif.Lemmas
open Verif.Go Verif.Go.Mem Verif.Model Verif.Spec

/-- Between `m` and `m'` only new integers were taken and written; `out` are some of them, different ones, with values `vs`. -/
structure Fresh (m : Memory) (W : Set Nat) (m' : Memory) (W' : Set Nat) (out vs : List Nat) : Prop where
  ext : Extends m m'
  sub : W ⊆ W'
  mem : ∀ a ∈ out, a ∈ W'
  new : ∀ a ∈ out, m a = none
  nodup : out.Nodup
  vals : out.map m' = vs.map some

theorem vals_mono {m m' : Memory} (h : Extends m m') : ∀ {rs vs : List Nat}, rs.map m = vs.map some → rs.map m' = vs.map some
  | [], [], _ => rfl
  | [], _ :: _, e => by cases e
  | _ :: _, [], e => by cases e
  | r :: rs, v :: vs, e => by
    rw [List.map_cons, List.map_cons, List.cons.injEq] at e
    rw [List.map_cons, List.map_cons, h r v e.1, vals_mono h e.2]

theorem Fresh.nil (m : Memory) (W : Set Nat) : Fresh m W m W [] [] :=
  ⟨Extends.refl m, subset_rfl, by simp, by simp, List.nodup_nil, rfl⟩

theorem Fresh.append {m m' m'' : Memory} {W W' W'' : Set Nat} {o1 v1 o2 v2 : List Nat} (h : Fresh m W m' W' o1 v1)
    (h' : Fresh m' W' m'' W'' o2 v2) : Fresh m W m'' W'' (o1 ++ o2) (v1 ++ v2) := by
  have hin : ∀ a ∈ o1, m' a ≠ none := by
    intro a ha hn
    have h1 := List.mem_map_of_mem (f := m') ha
    rw [h.vals, hn] at h1
    simp at h1
  refine ⟨h.ext.trans h'.ext, h.sub.trans h'.sub, ?_, ?_, ?_, ?_⟩
  · intro a ha
    rcases List.mem_append.1 ha with ha | ha
    · exact h'.sub (h.mem a ha)
    · exact h'.mem a ha
  · intro a ha
    rcases List.mem_append.1 ha with ha | ha
    · exact h.new a ha
    · by_contra hne
      exact h.ext.ne_none hne (h'.new a ha)
  · refine List.Nodup.append h.nodup h'.nodup (fun a h1 h2 => hin a h1 (h'.new a h2))
  · rw [List.map_append, List.map_append, vals_mono h'.ext h.vals, h'.vals]

/-- Temporaries in front of the result can be forgotten. -/
theorem Fresh.right {m m' : Memory} {W W' : Set Nat} {o1 v1 o2 v2 : List Nat} (h : Fresh m W m' W' (o1 ++ o2) (v1 ++ v2))
    (hl : o1.length = v1.length) : Fresh m W m' W' o2 v2 := by
  refine ⟨h.ext, h.sub, fun a ha => h.mem a (List.mem_append_right _ ha), fun a ha => h.new a (List.mem_append_right _ ha),
    (List.nodup_append.1 h.nodup).2.1, ?_⟩
  have e := h.vals
  rw [List.map_append, List.map_append] at e
  exact (List.append_inj e (by simpa using hl)).2

theorem Fresh.mono {m m' m'' : Memory} {W W' : Set Nat} {out vs : List Nat} (h : Fresh m W m' W' out vs) (he : Extends m' m'') :
    Fresh m W m'' W' out vs :=
  ⟨h.ext.trans he, h.sub, h.mem, h.new, h.nodup, vals_mono he h.vals⟩

theorem Fresh.one {m m' : Memory} {W W' : Set Nat} {a v : Nat} (h : Fresh m W m' W' [a] [v]) : m' a = some v := by
  have e := h.vals
  simpa using e

/-- A new integer. -/
theorem fresh_alloc {m : Memory} {a : Nat} (h : m a = none) (W : Set Nat) (v : Nat) :
    Fresh m W (m.set a v) (insert a W) [a] [v] :=
  ⟨extends_set v h, Set.subset_insert _ _, by simp, by simpa using h, by simp, by simp [Memory.set]⟩

theorem ok_alloc {m : Memory} {W : Set Nat} {Q : Post} {rs : List Nat} {f : List Nat → Nat} {k : Nat → MProg} {v : Nat}
    (hr : ∀ r ∈ rs, m r ≠ none) (hv : f (m.vals rs) = v) (hk : ∀ a m' W', Fresh m W m' W' [a] [v] → Ok (k a) m' W' Q) :
    Ok (.alloc rs f k) m W Q := by
  refine ⟨hr, fun a ha => hk a _ _ ?_⟩
  rw [hv]
  exact fresh_alloc ha W v

theorem ok_mul {m : Memory} {W : Set Nat} {Q : Post} {x y u v : Nat} {k : Nat → MProg} (hx : m x = some u) (hy : m y = some v)
    (hk : ∀ a m' W', Fresh m W m' W' [a] [u * v] → Ok (k a) m' W' Q) : Ok (mulM x y k) m W Q :=
  ok_alloc (by simp [hx, hy]) (by simp [Memory.vals, hx, hy]) hk

theorem ok_copy {m : Memory} {W : Set Nat} {Q : Post} {x u : Nat} {k : Nat → MProg} (hx : m x = some u)
    (hk : ∀ a m' W', Fresh m W m' W' [a] [u] → Ok (k a) m' W' Q) : Ok (copyM x k) m W Q :=
  ok_alloc (by simp [hx]) (by simp [Memory.vals, hx]) hk

theorem ok_power {m : Memory} {W : Set Nat} {Q : Post} {base N e b n v : Nat} {k : Nat → MProg} (hb : m base = some b)
    (hN : m N = some n) (he : m e = some v) (hk : ∀ a m' W', Fresh m W m' W' [a] [expMod b v n] → Ok (k a) m' W' Q) :
    Ok (powerM base N e k) m W Q :=
  ok_alloc (by simp [hb, hN, he]) (by simp [Memory.vals, hb, hN, he]) hk

theorem ok_doubleExp {m : Memory} {W : Set Nat} {Q : Post} {base N e0 e1 b n v0 v1 : Nat} {k : Nat → Nat → MProg}
    (hb : m base = some b) (hN : m N = some n) (h0 : m e0 = some v0) (h1 : m e1 = some v1)
    (hk : ∀ a0 a1 m' W', Fresh m W m' W' [a0, a1] [expMod b v0 n, expMod b v1 n] → Ok (k a0 a1) m' W' Q) :
    Ok (doubleExpM base e0 e1 N k) m W Q := by
  refine ok_power hb hN h0 (fun a0 m1 W1 f0 => ?_)
  refine ok_power (f0.ext _ _ hb) (f0.ext _ _ hN) (f0.ext _ _ h1) (fun a1 m2 W2 f1 => ?_)
  exact hk _ _ _ _ (f0.append f1)

theorem ok_fourfoldExp {m : Memory} {W : Set Nat} {Q : Post} {base N e0 e1 e2 e3 b n v0 v1 v2 v3 : Nat}
    {k : Nat → Nat → Nat → Nat → MProg} (hb : m base = some b) (hN : m N = some n) (h0 : m e0 = some v0) (h1 : m e1 = some v1)
    (h2 : m e2 = some v2) (h3 : m e3 = some v3)
    (hk : ∀ a0 a1 a2 a3 m' W', Fresh m W m' W' [a0, a1, a2, a3] [expMod b v0 n, expMod b v1 n, expMod b v2 n, expMod b v3 n] →
      Ok (k a0 a1 a2 a3) m' W' Q) : Ok (fourfoldExpM base N e0 e1 e2 e3 k) m W Q := by
  refine ok_power hb hN h0 (fun a0 m1 W1 f0 => ?_)
  refine ok_power (f0.ext _ _ hb) (f0.ext _ _ hN) (f0.ext _ _ h1) (fun a1 m2 W2 f1 => ?_)
  have g1 := f0.append f1
  refine ok_power (g1.ext _ _ hb) (g1.ext _ _ hN) (g1.ext _ _ h2) (fun a2 m3 W3 f2 => ?_)
  have g2 := g1.append f2
  refine ok_power (g2.ext _ _ hb) (g2.ext _ _ hN) (g2.ext _ _ h3) (fun a3 m4 W4 f3 => ?_)
  exact hk _ _ _ _ _ _ (g2.append f3)

theorem ok_accumulateNewPow {m : Memory} {W : Set Nat} {Q : Post} {g power N b v n : Nat} {k : Nat → MProg} (hg : m g = some b)
    (hp : m power = some v) (hN : m N = some n) (hk : ∀ a m' W', Fresh m W m' W' [a] [expMod b v n] → Ok (k a) m' W' Q) :
    Ok (accumulateNewPowM g power N k) m W Q := by
  refine ok_copy hg (fun a m1 W1 f => ?_)
  have ha : m a = none := f.new a (by simp)
  refine ⟨f.mem a (by simp), by simp [f.ext _ _ hg, f.ext _ _ hp, f.ext _ _ hN], hk a _ _ ?_⟩
  refine ⟨?_, f.sub, f.mem, f.new, f.nodup, ?_⟩
  · intro c w hc
    unfold Memory.set
    rw [if_neg (fun e => by rw [e, ha] at hc; cases hc)]
    exact f.ext c w hc
  · simp [Memory.set, Memory.vals, f.ext _ _ hg, f.ext _ _ hp, f.ext _ _ hN]

theorem ok_productLoop {m0 : Memory} {W0 : Set Nat} {Q : Post} {ret : Nat} {k : MProg} (h0 : m0 ret = none) :
    ∀ (set xs : List Nat) (m : Memory) (W : Set Nat) (v : Nat), Fresh m0 W0 m W [ret] [v] → set.map m0 = xs.map some →
      (∀ m' W', Fresh m0 W0 m' W' [ret] [xs.foldl (fun ret v => ret * v) v] → Ok k m' W' Q) →
      Ok (productLoopM ret set k) m W Q
  | [], [], m, W, v, f, _, hk => hk m W f
  | [], _ :: _, _, _, _, _, e, _ => by cases e
  | _ :: _, [], _, _, _, _, e, _ => by cases e
  | s :: set, x :: xs, m, W, v, f, e, hk => by
    rw [List.map_cons, List.map_cons, List.cons.injEq] at e
    refine ok_mul f.one (f.ext _ _ e.1) (fun p m1 W1 g => ?_)
    refine ⟨g.sub (f.mem ret (by simp)), by simp [g.one], ?_⟩
    refine ok_productLoop h0 set xs _ _ (v * x) ?_ e.2 hk
    refine ⟨?_, f.sub.trans g.sub, fun a ha => g.sub (f.mem a ha), f.new, f.nodup, ?_⟩
    · intro c w hc
      unfold Memory.set
      rw [if_neg (fun e => by rw [e, h0] at hc; cases hc)]
      exact g.ext c w (f.ext c w hc)
    · simp [Memory.set, Memory.vals, g.one]

theorem ok_accumulate {m0 : Memory} {W0 : Set Nat} {Q : Post} {acc N n : Nat} {k : MProg} (h0 : m0 acc = none) (hN : m0 N = some n) :
    ∀ (set xs : List Nat) (m : Memory) (W : Set Nat) (v : Nat), Fresh m0 W0 m W [acc] [v] → set.map m0 = xs.map some →
      (∀ m' W', Fresh m0 W0 m' W' [acc] [accumulate v n xs] → Ok k m' W' Q) → Ok (accumulateM acc N set k) m W Q
  | [], [], m, W, v, f, _, hk => hk m W f
  | [], _ :: _, _, _, _, _, e, _ => by cases e
  | _ :: _, [], _, _, _, _, e, _ => by cases e
  | s :: set, x :: xs, m, W, v, f, e, hk => by
    rw [List.map_cons, List.map_cons, List.cons.injEq] at e
    refine ⟨f.mem acc (by simp), by simp [f.one, f.ext _ _ hN, f.ext _ _ e.1], ?_⟩
    refine ok_accumulate h0 hN set xs _ _ (expMod v x n) ?_ e.2 hk
    refine ⟨?_, f.sub, f.mem, f.new, f.nodup, ?_⟩
    · intro c w hc
      unfold Memory.set
      rw [if_neg (fun e => by rw [e, h0] at hc; cases hc)]
      exact f.ext c w hc
    · simp [Memory.set, Memory.vals, f.one, f.ext _ _ hN, f.ext _ _ e.1]

theorem ok_accumulateNew {m : Memory} {W : Set Nat} {Q : Post} {g N b n : Nat} {set xs : List Nat} {k : Nat → MProg}
    (hg : m g = some b) (hN : m N = some n) (hs : set.map m = xs.map some)
    (hk : ∀ a m' W', Fresh m W m' W' [a] [accumulateNew b n xs] → Ok (k a) m' W' Q) : Ok (accumulateNewM g N set k) m W Q :=
  ok_copy hg (fun a m1 W1 f => ok_accumulate (f.new a (by simp)) hN set xs m1 W1 b f hs (hk a))

theorem map_slice {α β : Type} (f : α → β) (l : List α) (a b : Nat) : (slice l a b).map f = slice (l.map f) a b := by
  simp [slice, List.map_take, List.map_drop]

theorem vals_slice {m : Memory} {set xs : List Nat} (h : set.map m = xs.map some) (a b : Nat) :
    (slice set a b).map m = (slice xs a b).map some := by
  rw [map_slice, map_slice, h]

theorem vals_length {m : Memory} {set xs : List Nat} (h : set.map m = xs.map some) : set.length = xs.length := by
  have e := congrArg List.length h
  simpa using e

theorem ok_setProduct {m : Memory} {W : Set Nat} {Q : Post} {set xs : List Nat} {k : Nat → MProg} (hs : set.map m = xs.map some)
    (hk : ∀ a m' W', Fresh m W m' W' [a] [setProductRecursiveFast xs] → Ok (k a) m' W' Q) :
    Ok (setProductRecursiveFastM set k) m W Q := by
  induction hn : set.length using Nat.strong_induction_on generalizing set xs m W k with
  | _ n ih =>
    have hl := vals_length hs
    rw [setProductRecursiveFastM]
    split
    · rename_i h
      refine ok_alloc (v := 1) (by simp) rfl (fun ret m1 W1 f => ?_)
      refine ok_productLoop (f.new ret (by simp)) set xs m1 W1 1 f hs (fun m2 W2 f2 => hk ret m2 W2 ?_)
      rw [setProductRecursiveFast, dif_pos (by omega)]
      exact f2
    · rename_i h
      refine ih _ ?_ (vals_slice hs _ _) (fun a1 m1 W1 f1 => ?_) rfl
      · rw [slice_length _ _ _ (by omega)]; omega
      refine ih _ ?_ (vals_mono f1.ext (vals_slice hs _ _)) (fun a2 m2 W2 f2 => ?_) rfl
      · rw [slice_length _ _ _ (by omega)]; omega
      refine ok_mul (f2.ext _ _ f1.one) f2.one (fun p m3 W3 f3 => ?_)
      refine ok_copy f3.one (fun ret m4 W4 f4 => hk ret m4 W4 ?_)
      rw [setProductRecursiveFast, dif_neg (by omega), ← hl]
      exact (((f1.append f2).append f3).append f4).right (o1 := [a1, a2, p]) (v1 := [_, _, _]) rfl

theorem vals_cons {m : Memory} {s x : Nat} {set xs : List Nat} (h : (s :: set).map m = (x :: xs).map some) :
    m s = some x ∧ set.map m = xs.map some := by
  rw [List.map_cons, List.map_cons, List.cons.injEq] at h
  exact h

theorem handleSmallSet_expected (b n : Nat) (xs : List Nat) (h : xs ≠ []) (h4 : xs.length ≤ 4) :
    handleSmallSet b n xs = .ok (expected b n xs) := by
  rw [handleSmallSet_of_le _ _ _ h4, proveMembership_expected _ _ _ h]

theorem ok_handleSmallSet {m : Memory} {W : Set Nat} {Q : Post} {base N b n : Nat} {set xs : List Nat} {k : List Nat → MProg}
    (hb : m base = some b) (hN : m N = some n) (hs : set.map m = xs.map some) (h0 : xs ≠ []) (h4 : xs.length ≤ 4)
    (hk : ∀ out m' W', Fresh m W m' W' out (expected b n xs) → Ok (k out) m' W' Q) : Ok (handleSmallSetM base N set k) m W Q := by
  have hv := handleSmallSet_expected b n xs h0 h4
  have hl := vals_length hs
  match set, xs, hl with
  | [s0, s1, s2, s3], [x0, x1, x2, x3], _ =>
    obtain ⟨e0, hs⟩ := vals_cons hs
    obtain ⟨e1, hs⟩ := vals_cons hs
    obtain ⟨e2, hs⟩ := vals_cons hs
    obtain ⟨e3, -⟩ := vals_cons hs
    injection hv with hv
    refine ok_mul e0 e1 (fun p m1 W1 f1 => ?_)
    refine ok_mul (f1.ext _ _ e2) (f1.ext _ _ e3) (fun q m2 W2 f2 => ?_)
    have g2 := f1.append f2
    refine ok_mul f2.one (g2.ext _ _ e1) (fun y0 m3 W3 f3 => ?_)
    have g3 := g2.append f3
    refine ok_mul (f3.ext _ _ f2.one) (g3.ext _ _ e0) (fun y1 m4 W4 f4 => ?_)
    have g4 := g3.append f4
    refine ok_mul ((f2.append (f3.append f4)).ext _ _ f1.one) (g4.ext _ _ e3) (fun y2 m5 W5 f5 => ?_)
    have g5 := g4.append f5
    refine ok_mul ((f2.append (f3.append (f4.append f5))).ext _ _ f1.one) (g5.ext _ _ e2) (fun y3 m6 W6 f6 => ?_)
    have g6 := g5.append f6
    refine ok_fourfoldExp (g6.ext _ _ hb) (g6.ext _ _ hN) ((f4.append (f5.append f6)).ext _ _ f3.one)
      ((f5.append f6).ext _ _ f4.one) (f6.ext _ _ f5.one) f6.one (fun a0 a1 a2 a3 m7 W7 f7 => hk _ _ _ ?_)
    rw [← hv]
    exact (g6.append f7).right (o1 := [p, q, y0, y1, y2, y3]) (v1 := [_, _, _, _, _, _]) rfl
  | [s0, s1, s2], [x0, x1, x2], _ =>
    obtain ⟨e0, hs⟩ := vals_cons hs
    obtain ⟨e1, hs⟩ := vals_cons hs
    obtain ⟨e2, -⟩ := vals_cons hs
    injection hv with hv
    refine ok_mul e1 e2 (fun y0 m1 W1 f1 => ?_)
    refine ok_mul (f1.ext _ _ e0) (f1.ext _ _ e2) (fun y1 m2 W2 f2 => ?_)
    have g2 := f1.append f2
    refine ok_mul (g2.ext _ _ e0) (g2.ext _ _ e1) (fun y2 m3 W3 f3 => ?_)
    have g3 := g2.append f3
    refine ok_doubleExp (g3.ext _ _ hb) (g3.ext _ _ hN) ((f2.append f3).ext _ _ f1.one) (f3.ext _ _ f2.one)
      (fun a0 a1 m4 W4 f4 => ?_)
    have g4 := g3.append f4
    refine ok_accumulateNewPow (g4.ext _ _ hb) (f4.ext _ _ f3.one) (g4.ext _ _ hN) (fun a2 m5 W5 f5 => hk _ _ _ ?_)
    rw [← hv]
    exact (g4.append f5).right (o1 := [y0, y1, y2]) (v1 := [_, _, _]) rfl
  | [s0, s1], [x0, x1], _ =>
    obtain ⟨e0, hs⟩ := vals_cons hs
    obtain ⟨e1, -⟩ := vals_cons hs
    injection hv with hv
    refine ok_doubleExp hb hN e1 e0 (fun a0 a1 m4 W4 f4 => hk _ _ _ ?_)
    rw [← hv]
    exact f4
  | [s0], [x0], _ =>
    injection hv with hv
    refine ok_copy hb (fun a m1 W1 f1 => hk _ _ _ ?_)
    rw [← hv]
    exact f1
  | [], [], _ => exact absurd rfl h0
  | _ :: _ :: _ :: _ :: _ :: _, xs, hl => simp only [List.length_cons] at hl; omega

theorem ok_scale {m : Memory} {W : Set Nat} {Q : Post} {r : Option Nat} {rv prod u : Nat} {k : Nat → MProg}
    (hr : r = none ∧ rv = 1 ∨ ∃ a, r = some a ∧ m a = some rv) (hp : m prod = some u)
    (hk : ∀ a m' W', Fresh m W m' W' [] [] → m' a = some (u * rv) → Ok (k a) m' W' Q) : Ok (scaleM r prod k) m W Q := by
  rcases hr with ⟨rfl, rfl⟩ | ⟨a, rfl, ha⟩
  · exact hk prod m W (.nil m W) (by rw [hp, Nat.mul_one])
  · refine ok_mul hp ha (fun p m' W' f => hk p m' W' ?_ f.one)
    exact Fresh.right (o1 := [p]) (v1 := [_]) f rfl

theorem ok_fourExponents {m : Memory} {W : Set Nat} {Q : Post} {r : Option Nat} {rv : Nat} {set xs : List Nat}
    {k : Nat → Nat → Nat → Nat → MProg} (hr : r = none ∧ rv = 1 ∨ ∃ a, r = some a ∧ m a = some rv) (hs : set.map m = xs.map some)
    (hk : ∀ e0 e1 e2 e3 m' W', Fresh m W m' W' [] [] → m' e0 = some (fourExponents rv xs).1 →
      m' e1 = some (fourExponents rv xs).2.1 → m' e2 = some (fourExponents rv xs).2.2.1 →
      m' e3 = some (fourExponents rv xs).2.2.2 → Ok (k e0 e1 e2 e3) m' W' Q) : Ok (fourExponentsM r set k) m W Q := by
  have hl := vals_length hs
  have drop : ∀ {m m' : Memory} {W W' : Set Nat} {a v : Nat}, Fresh m W m' W' [a] [v] → Fresh m W m' W' [] [] :=
    fun {_ _ _ _ a _} f => Fresh.right (o1 := [a]) (v1 := [_]) f rfl
  unfold fourExponentsM
  simp only [hl]
  refine ok_setProduct (vals_slice hs _ _) (fun l m1 W1 f1 => ?_)
  have g1 := drop f1
  refine ok_setProduct (vals_mono g1.ext (vals_slice hs _ _)) (fun rp m2 W2 f2 => ?_)
  have g2 := g1.append (drop f2)
  have hr2 : ∀ {m' : Memory}, Extends m m' → r = none ∧ rv = 1 ∨ ∃ a, r = some a ∧ m' a = some rv :=
    fun h => hr.imp id (fun ⟨a, h1, h2⟩ => ⟨a, h1, h _ _ h2⟩)
  refine ok_scale (hr2 g2.ext) (f2.ext _ _ f1.one) (fun l' m3 W3 f3 v3 => ?_)
  have g3 := g2.append f3
  refine ok_scale (hr2 g3.ext) (f3.ext _ _ f2.one) (fun r' m4 W4 f4 v4 => ?_)
  have g4 := g3.append f4
  refine ok_setProduct (vals_mono g4.ext (vals_slice hs _ _)) (fun ll m5 W5 f5 => ?_)
  have g5 := g4.append (drop f5)
  refine ok_setProduct (vals_mono g5.ext (vals_slice hs _ _)) (fun lr m6 W6 f6 => ?_)
  have g6 := g5.append (drop f6)
  refine ok_setProduct (vals_mono g6.ext (vals_slice hs _ _)) (fun rl m7 W7 f7 => ?_)
  have g7 := g6.append (drop f7)
  refine ok_setProduct (vals_mono g7.ext (vals_slice hs _ _)) (fun rr m8 W8 f8 => ?_)
  have g8 := g7.append (drop f8)
  have c78 := f7.ext.trans f8.ext
  have c68 := f6.ext.trans c78
  have c58 := f5.ext.trans c68
  have c48 := f4.ext.trans c58
  refine ok_mul (c48 _ _ v3) (c68 _ _ f5.one) (fun e0 m9 W9 f9 => ?_)
  refine ok_mul (f9.ext _ _ (c48 _ _ v3)) (f9.ext _ _ (c78 _ _ f6.one)) (fun e1 m10 W10 f10 => ?_)
  have d10 := f9.ext.trans f10.ext
  refine ok_mul (d10 _ _ (c58 _ _ v4)) (d10 _ _ (f8.ext _ _ f7.one)) (fun e2 m11 W11 f11 => ?_)
  have d11 := d10.trans f11.ext
  refine ok_mul (d11 _ _ (c58 _ _ v4)) (d11 _ _ f8.one) (fun e3 m12 W12 f12 => ?_)
  have g12 := (((g8.append (drop f9)).append (drop f10)).append (drop f11)).append (drop f12)
  exact hk _ _ _ _ _ _ g12 ((f10.ext.trans (f11.ext.trans f12.ext)) _ _ f9.one) ((f11.ext.trans f12.ext) _ _ f10.one)
    (f12.ext _ _ f11.one) f12.one

/-- The four parts, put together. -/
theorem expected_quarters (b n r : Nat) (xs : List Nat) :
    let e := fourExponents r xs
    ((expected (expMod b e.1 n) n (slice xs 0 (xs.length / 4)) ++
      expected (expMod b e.2.1 n) n (slice xs (xs.length / 4) (xs.length / 2))) ++
      expected (expMod b e.2.2.1 n) n (slice xs (xs.length / 2) (xs.length * 3 / 4))) ++
      expected (expMod b e.2.2.2 n) n (slice xs (xs.length * 3 / 4) xs.length) = witnesses (b ^ r) n xs := by
  intro e
  have key : ∀ u v : Nat, b ^ (u * r * v) = (b ^ r) ^ (u * v) := fun u v => by rw [← pow_mul]; congr 1; ring
  have hr : ∀ u : Nat, expMod b u n % n = expMod b u n := fun u => Nat.mod_mod _ _
  rw [expected_of_reduced _ _ _ (hr _), expected_of_reduced _ _ _ (hr _), expected_of_reduced _ _ _ (hr _),
    expected_of_reduced _ _ _ (hr _)]
  simp only [e, fourExponents_eq, expMod, key]
  rw [← witnesses_append4, slice_quarters]

theorem ok_quarters {m : Memory} {W : Set Nat} {Q : Post} {base N b n : Nat} {r : Option Nat} {rv : Nat} {set xs : List Nat}
    {k : Nat → Nat → Nat → Nat → MProg} (hb : m base = some b) (hN : m N = some n)
    (hr : r = none ∧ rv = 1 ∨ ∃ a, r = some a ∧ m a = some rv) (hs : set.map m = xs.map some)
    (hk : ∀ b0 b1 b2 b3 m' W', Fresh m W m' W' [] [] → m' b0 = some (expMod b (fourExponents rv xs).1 n) →
      m' b1 = some (expMod b (fourExponents rv xs).2.1 n) → m' b2 = some (expMod b (fourExponents rv xs).2.2.1 n) →
      m' b3 = some (expMod b (fourExponents rv xs).2.2.2 n) → Ok (k b0 b1 b2 b3) m' W' Q) :
    Ok (fourExponentsM r set fun e0 e1 e2 e3 => fourfoldExpM base N e0 e1 e2 e3 k) m W Q := by
  refine ok_fourExponents hr hs (fun e0 e1 e2 e3 m1 W1 f v0 v1 v2 v3 => ?_)
  refine ok_fourfoldExp (f.ext _ _ hb) (f.ext _ _ hN) v0 v1 v2 v3 (fun b0 b1 b2 b3 m2 W2 f2 => ?_)
  obtain ⟨w0, h⟩ := vals_cons f2.vals
  obtain ⟨w1, h⟩ := vals_cons h
  obtain ⟨w2, h⟩ := vals_cons h
  obtain ⟨w3, -⟩ := vals_cons h
  exact hk _ _ _ _ _ _ (f.append (Fresh.right (o1 := [b0, b1, b2, b3]) (v1 := [_, _, _, _]) f2 rfl)) w0 w1 w2 w3

theorem slice_ne_nil (xs : List Nat) (a b : Nat) (h : a < b) (hb : b ≤ xs.length) : slice xs a b ≠ [] := by
  intro e
  have h1 := slice_length xs a b hb
  rw [e] at h1
  simp at h1
  omega

theorem ok_proveMembership {m : Memory} {W : Set Nat} {Q : Post} {base N b n : Nat} {set xs : List Nat} {k : List Nat → MProg}
    (hb : m base = some b) (hN : m N = some n) (hs : set.map m = xs.map some) (h0 : xs ≠ [])
    (hk : ∀ out m' W', Fresh m W m' W' out (expected b n xs) → Ok (k out) m' W' Q) : Ok (proveMembershipM base N set k) m W Q := by
  induction hn : set.length using Nat.strong_induction_on generalizing set xs m W k base b with
  | _ l ih =>
    have hl := vals_length hs
    rw [proveMembershipM]
    split
    · rename_i h
      exact ok_handleSmallSet hb hN hs h0 (by omega) hk
    · rename_i h
      refine ok_quarters (rv := 1) hb hN (.inl ⟨rfl, rfl⟩) hs (fun b0 b1 b2 b3 m1 W1 f v0 v1 v2 v3 => ?_)
      simp only [hl]
      refine ih _ ?_ v0 (f.ext _ _ hN) (vals_mono f.ext (vals_slice hs _ _)) (slice_ne_nil _ _ _ (by omega) (by omega))
        (fun p0 m2 W2 f0 => ?_) rfl
      · rw [slice_length _ _ _ (by omega)]; omega
      have g0 := f.append f0
      refine ih _ ?_ (f0.ext _ _ v1) (g0.ext _ _ hN) (vals_mono g0.ext (vals_slice hs _ _))
        (slice_ne_nil _ _ _ (by omega) (by omega)) (fun p1 m3 W3 f1 => ?_) rfl
      · rw [slice_length _ _ _ (by omega)]; omega
      have g1 := g0.append f1
      have d1 := f0.ext.trans f1.ext
      refine ih _ ?_ (d1 _ _ v2) (g1.ext _ _ hN) (vals_mono g1.ext (vals_slice hs _ _))
        (slice_ne_nil _ _ _ (by omega) (by omega)) (fun p2 m4 W4 f2 => ?_) rfl
      · rw [slice_length _ _ _ (by omega)]; omega
      have g2 := g1.append f2
      have d2 := d1.trans f2.ext
      refine ih _ ?_ (d2 _ _ v3) (g2.ext _ _ hN) (vals_mono g2.ext (vals_slice hs _ _))
        (slice_ne_nil _ _ _ (by omega) (by omega)) (fun p3 m5 W5 f3 => hk _ _ _ ?_) rfl
      · rw [slice_length _ _ _ (by omega)]; omega
      have g3 := g2.append f3
      have e := expected_quarters b n 1 xs
      simp only [pow_one] at e
      rw [expected_of_two _ _ _ (by omega), ← e]
      exact g3

theorem ok_randomized {m : Memory} {W : Set Nat} {Q : Post} {base N r b n rv : Nat} {set xs : List Nat} {k : List Nat → MProg}
    (hb : m base = some b) (hN : m N = some n) (hr : m r = some rv) (hs : set.map m = xs.map some) (h4 : 4 ≤ xs.length)
    (hk : ∀ out m' W', Fresh m W m' W' out (witnesses (b ^ rv) n xs) → Ok (k out) m' W' Q) :
    Ok (proveMembershipSingleThreadWithRandomizerM base r N set k) m W Q := by
  have hl := vals_length hs
  unfold proveMembershipSingleThreadWithRandomizerM
  refine ok_quarters (rv := rv) hb hN (.inr ⟨r, rfl, hr⟩) hs (fun b0 b1 b2 b3 m1 W1 f v0 v1 v2 v3 => ?_)
  simp only [hl]
  refine ok_proveMembership v0 (f.ext _ _ hN) (vals_mono f.ext (vals_slice hs _ _)) (slice_ne_nil _ _ _ (by omega) (by omega))
    (fun p0 m2 W2 f0 => ?_)
  have g0 := f.append f0
  refine ok_proveMembership (f0.ext _ _ v1) (g0.ext _ _ hN) (vals_mono g0.ext (vals_slice hs _ _))
    (slice_ne_nil _ _ _ (by omega) (by omega)) (fun p1 m3 W3 f1 => ?_)
  have g1 := g0.append f1
  have d1 := f0.ext.trans f1.ext
  refine ok_proveMembership (d1 _ _ v2) (g1.ext _ _ hN) (vals_mono g1.ext (vals_slice hs _ _))
    (slice_ne_nil _ _ _ (by omega) (by omega)) (fun p2 m4 W4 f2 => ?_)
  have g2 := g1.append f2
  have d2 := d1.trans f2.ext
  refine ok_proveMembership (d2 _ _ v3) (g2.ext _ _ hN) (vals_mono g2.ext (vals_slice hs _ _))
    (slice_ne_nil _ _ _ (by omega) (by omega)) (fun p3 m5 W5 f3 => hk _ _ _ ?_)
  have g3 := g2.append f3
  rw [← expected_quarters b n rv xs]
  exact g3

theorem fresh_mono (m : Memory) (vs : List Nat) : Mono (fun m' W' out => Fresh m ∅ m' W' out vs) :=
  fun _ _ _ _ he h => h.mono he

/-- Results of different goroutines are different integers. -/
theorem fresh_join {m m' : Memory} {W : Set Nat} {W1 W2 : Set Nat} {o1 v1 o2 v2 : List Nat} (h1 : Fresh m W m' W1 o1 v1)
    (h2 : Fresh m ∅ m' W2 o2 v2) (hd : ∀ a ∈ o1, a ∉ W2) : Fresh m W m' (W1 ∪ W2) (o1 ++ o2) (v1 ++ v2) := by
  refine ⟨h1.ext, h1.sub.trans Set.subset_union_left, ?_, ?_, ?_, ?_⟩
  · intro a ha
    rcases List.mem_append.1 ha with ha | ha
    · exact .inl (h1.mem a ha)
    · exact .inr (h2.mem a ha)
  · intro a ha
    rcases List.mem_append.1 ha with ha | ha
    · exact h1.new a ha
    · exact h2.new a ha
  · exact List.Nodup.append h1.nodup h2.nodup (fun a ha hb => hd a ha (h2.mem a hb))
  · rw [List.map_append, List.map_append, h1.vals, h2.vals]

theorem Fresh.grow {m m' : Memory} {W W' W'' : Set Nat} {out vs : List Nat} (h : Fresh m W m' W' out vs) (hW : W ⊆ W'')
    (ho : ∀ a ∈ out, a ∈ W'') : Fresh m W m' W'' out vs :=
  ⟨h.ext, hW, ho, h.new, h.nodup, h.vals⟩

theorem ok_withChan {m : Memory} {W : Set Nat} {base N b n : Nat} {set xs : List Nat} {limit : Int}
    (hb : m base = some b) (hN : m N = some n) (hs : set.map m = xs.map some) (h0 : xs ≠ []) :
    Ok (proveMembershipWithChanM base N set limit) m W (fun m' W' out => Fresh m W m' W' out (expected b n xs)) := by
  induction hn : set.length using Nat.strong_induction_on generalizing set xs m W base b limit with
  | _ l ih =>
    have hl := vals_length hs
    rw [proveMembershipWithChanM]
    split
    · exact ok_proveMembership hb hN hs h0 (fun out m' W' f => f)
    split
    · rename_i h
      exact ok_handleSmallSet hb hN hs h0 (by omega) (fun out m' W' f => f)
    rename_i h
    simp only [hl]
    refine ok_setProduct (vals_slice hs _ _) (fun lp m1 W1 f1 => ?_)
    refine ok_setProduct (vals_mono f1.ext (vals_slice hs _ _)) (fun rp m2 W2 f2 => ?_)
    have g2 := f1.append f2
    refine ok_doubleExp (g2.ext _ _ hb) (g2.ext _ _ hN) (f2.ext _ _ f1.one) f2.one (fun b0 b1 m3 W3 f3 => ?_)
    have g3 := g2.append f3
    obtain ⟨w0, hw⟩ := vals_cons f3.vals
    obtain ⟨w1, -⟩ := vals_cons hw
    have hL := vals_mono g3.ext (vals_slice hs 0 (xs.length / 2))
    have hR := vals_mono g3.ext (vals_slice hs (xs.length / 2) xs.length)
    refine ⟨fun i m' W' out => Fresh m3 ∅ m' W' out (if i = 0
      then expected (expMod b (setProductRecursiveFast (slice xs (xs.length / 2) xs.length)) n) n (slice xs 0 (xs.length / 2))
      else expected (expMod b (setProductRecursiveFast (slice xs 0 (xs.length / 2))) n) n (slice xs (xs.length / 2) xs.length)),
      fun i => fresh_mono m3 _, fun i => ?_, fun m4 Ws outs he hnew hdis hq => ?_⟩
    · match i with
      | 0 =>
        exact ih _ (by rw [slice_length _ _ _ (by omega)]; omega) w0 (g3.ext _ _ hN) hL
          (slice_ne_nil _ _ _ (by omega) (by omega)) rfl
      | 1 =>
        exact ih _ (by rw [slice_length _ _ _ (by omega)]; omega) w1 (g3.ext _ _ hN) hR
          (slice_ne_nil _ _ _ (by omega) (by omega)) rfl
    · have q0 := hq 0
      have q1 := hq 1
      beta_reduce at q0 q1
      rw [if_pos rfl] at q0
      rw [if_neg (by decide)] at q1
      have hr : ∀ u : Nat, expMod b u n % n = expMod b u n := fun u => Nat.mod_mod _ _
      have hv : expected b n xs = expected (expMod b (setProductRecursiveFast (slice xs (xs.length / 2) xs.length)) n) n
          (slice xs 0 (xs.length / 2)) ++ expected (expMod b (setProductRecursiveFast (slice xs 0 (xs.length / 2))) n) n
          (slice xs (xs.length / 2) xs.length) := by
        rw [expected_of_two _ _ _ (by omega), expected_of_reduced _ _ _ (hr _), expected_of_reduced _ _ _ (hr _)]
        simp only [setProductRecursiveFast_eq, expMod]
        rw [← witnesses_append, slice_halves]
      have hj := fresh_join q0 q1 (fun a ha => hdis 0 1 a (by decide) (q0.mem a ha))
      have hj' : Fresh m3 ∅ m4 (W3 ∪ {a | ∃ i, a ∈ Ws i}) (outs 0 ++ outs 1) (expected b n xs) := by
        rw [hv]
        refine hj.grow (Set.empty_subset _) (fun a ha => .inr ?_)
        rcases hj.mem a ha with h | h
        · exact ⟨0, h⟩
        · exact ⟨1, h⟩
      show Fresh m W m4 (W3 ∪ {a | ∃ i, a ∈ Ws i}) (outs 0 ++ outs 1) (expected b n xs)
      refine ⟨g3.ext.trans hj'.ext, g3.sub.trans Set.subset_union_left, hj'.mem, fun a ha => ?_, hj'.nodup, hj'.vals⟩
      by_contra hne
      exact g3.ext.ne_none hne (hj'.new a ha)

theorem ok_fourWorkers {m : Memory} {W : Set Nat} {Q : Post} {base N b n : Nat} {set xs : List Nat} {limit : Int}
    {k : List Nat → MProg} (hb : m base = some b) (hN : m N = some n) (hs : set.map m = xs.map some) (h4 : 4 ≤ xs.length)
    (hk : ∀ out m' W', Fresh m W m' W' out (witnesses b n xs) → Ok (k out) m' W' Q) :
    Ok (fourWorkersM base N set limit k) m W Q := by
  have hl := vals_length hs
  unfold fourWorkersM
  refine ok_quarters (rv := 1) hb hN (.inl ⟨rfl, rfl⟩) hs (fun b0 b1 b2 b3 m1 W1 f v0 v1 v2 v3 => ?_)
  simp only [hl]
  have hv := fun i j => vals_mono f.ext (vals_slice hs i j)
  have hN1 := f.ext _ _ hN
  have e := expected_quarters b n 1 xs
  simp only [pow_one] at e
  refine ⟨fun i m' W' out => Fresh m1 ∅ m' W' out (match i with
      | 0 => expected (expMod b (fourExponents 1 xs).1 n) n (slice xs 0 (xs.length / 4))
      | 1 => expected (expMod b (fourExponents 1 xs).2.1 n) n (slice xs (xs.length / 4) (xs.length / 2))
      | 2 => expected (expMod b (fourExponents 1 xs).2.2.1 n) n (slice xs (xs.length / 2) (xs.length * 3 / 4))
      | 3 => expected (expMod b (fourExponents 1 xs).2.2.2 n) n (slice xs (xs.length * 3 / 4) xs.length)),
    fun i => fresh_mono m1 _, fun i => ?_, fun m4 Ws outs he hnew hdis hq => hk _ _ _ ?_⟩
  · match i with
    | 0 => exact ok_withChan v0 hN1 (hv _ _) (slice_ne_nil _ _ _ (by omega) (by omega))
    | 1 => exact ok_withChan v1 hN1 (hv _ _) (slice_ne_nil _ _ _ (by omega) (by omega))
    | 2 => exact ok_withChan v2 hN1 (hv _ _) (slice_ne_nil _ _ _ (by omega) (by omega))
    | 3 => exact ok_withChan v3 hN1 (hv _ _) (slice_ne_nil _ _ _ (by omega) (by omega))
  · have q0 := hq 0
    have q1 := hq 1
    have q2 := hq 2
    have q3 := hq 3
    simp only at q0 q1 q2 q3
    have j1 := fresh_join q0 q1 (fun a ha => hdis 0 1 a (by decide) (q0.mem a ha))
    have j2 := fresh_join j1 q2 (fun a ha => by
      rcases j1.mem a ha with h | h
      · exact hdis 0 2 a (by decide) h
      · exact hdis 1 2 a (by decide) h)
    have j3 := fresh_join j2 q3 (fun a ha => by
      rcases j2.mem a ha with (h | h) | h
      · exact hdis 0 3 a (by decide) h
      · exact hdis 1 3 a (by decide) h
      · exact hdis 2 3 a (by decide) h)
    rw [e] at j3
    refine ⟨f.ext.trans j3.ext, f.sub.trans Set.subset_union_left, fun a ha => .inr ?_, fun a ha => ?_, j3.nodup, j3.vals⟩
    · rcases j3.mem a ha with ((h | h) | h) | h
      · exact ⟨0, h⟩
      · exact ⟨1, h⟩
      · exact ⟨2, h⟩
      · exact ⟨3, h⟩
    · by_contra hne
      exact f.ext.ne_none hne (j3.new a ha)

theorem ok_parallel {m : Memory} {W : Set Nat} {Q : Post} {base N b n : Nat} {set xs : List Nat} {limit : Int}
    {k : List Nat → MProg} (hb : m base = some b) (hN : m N = some n) (hs : set.map m = xs.map some) (h0 : xs ≠ [])
    (hk : ∀ out m' W', Fresh m W m' W' out (expected b n xs) → Ok (k out) m' W' Q) :
    Ok (proveMembershipParallelM base N set limit k) m W Q := by
  have hl := vals_length hs
  unfold proveMembershipParallelM
  split
  · exact ok_proveMembership hb hN hs h0 hk
  split
  · exact ok_handleSmallSet hb hN hs h0 (by omega) hk
  · refine ok_fourWorkers hb hN hs (by omega) (fun out m' W' f => hk out m' W' ?_)
    rw [expected_of_two _ _ _ (by omega)]
    exact f

theorem ok_setProductParallel {m : Memory} {W : Set Nat} {set xs : List Nat} {limit : Int} (hs : set.map m = xs.map some) :
    Ok (setProductParallelM set limit) m W (fun m' W' out => Fresh m W m' W' out [xs.prod]) := by
  induction hn : set.length using Nat.strong_induction_on generalizing set xs m W limit with
  | _ l ih =>
    have hl := vals_length hs
    have hseq : Ok (setProductRecursiveFastM set fun ret => .ret [ret]) m W (fun m' W' out => Fresh m W m' W' out [xs.prod]) :=
      ok_setProduct hs (fun a m' W' f => by rw [setProductRecursiveFast_eq] at f; exact f)
    rw [setProductParallelM]
    split
    · exact hseq
    split
    · exact hseq
    rename_i h
    simp only [hl]
    refine ⟨fun i m' W' out => Fresh m ∅ m' W' out (if i = 0 then [(slice xs 0 (xs.length / 2)).prod]
      else [(slice xs (xs.length / 2) xs.length).prod]), fun i => fresh_mono m _, fun i => ?_,
      fun m4 Ws outs he hnew hdis hq => ?_⟩
    · match i with
      | 0 => exact ih _ (by rw [slice_length _ _ _ (by omega)]; omega) (vals_slice hs _ _) rfl
      | 1 => exact ih _ (by rw [slice_length _ _ _ (by omega)]; omega) (vals_slice hs _ _) rfl
    · have q0 := hq 0
      have q1 := hq 1
      beta_reduce at q0 q1
      rw [if_pos rfl] at q0
      rw [if_neg (by decide)] at q1
      have one : ∀ {o : List Nat} {v : Nat}, o.map m4 = [v].map some → ∃ a, o = [a] := fun {o v} e =>
        List.length_eq_one_iff.1 (by simpa using congrArg List.length e)
      obtain ⟨a0, o0⟩ := one q0.vals
      obtain ⟨a1, o1⟩ := one q1.vals
      rw [o0] at q0
      rw [o1] at q1
      unfold mulReceivedM
      rw [o0, o1]
      refine ok_mul q0.one q1.one (fun a m5 W5 f => ?_)
      have hp : (slice xs 0 (xs.length / 2)).prod * (slice xs (xs.length / 2) xs.length).prod = xs.prod := by
        rw [← List.prod_append, slice_halves]
      rw [hp] at f
      refine ⟨he.trans f.ext, fun c hc => f.sub (.inl hc), f.mem, fun c hc => ?_, f.nodup, f.vals⟩
      by_contra hne
      exact he.ne_none hne (f.new c hc)

/-- The accumulator from the first witness. -/
theorem ok_accFromProofs {m m0 : Memory} {W W0 : Set Nat} {N n b : Nat} {rep xs proofs : List Nat} (hN : m0 N = some n)
    (hs : rep.map m0 = xs.map some) (h0 : xs ≠ []) (f : Fresh m0 W0 m W proofs (expected b n xs)) :
    Ok (accFromProofsM N rep proofs) m W
      (fun m' W' out => Fresh m0 W0 m' W' out (accumulator b n xs :: expected b n xs)) := by
  have hx : 0 < xs.length := List.length_pos_iff.2 h0
  have he : 0 < (expected b n xs).length := by rw [expected_length]; exact hx
  have hv := expected_verifies b n xs 0 hx he
  have hlp := vals_length f.vals
  have hlr := vals_length hs
  obtain ⟨w, ws, hev⟩ := List.exists_cons_of_length_pos he
  obtain ⟨p, ps, rfl⟩ := List.exists_cons_of_length_pos (l := proofs) (by omega)
  obtain ⟨s, ss, rfl⟩ := List.exists_cons_of_length_pos (l := rep) (by omega)
  obtain ⟨x, xs, rfl⟩ := List.exists_cons_of_length_pos hx
  rw [hev] at f
  obtain ⟨w0, -⟩ := vals_cons f.vals
  obtain ⟨x0, -⟩ := vals_cons hs
  refine ok_accumulateNewPow w0 (f.ext _ _ x0) (f.ext _ _ hN) (fun a m' W' g => ?_)
  have hacc : expMod w x n = accumulator b n (x :: xs) := by
    have h1 : (expected b n (x :: xs))[0] = w := by simp [hev]
    rw [h1] at hv
    exact hv
  rw [hacc] at g
  have hj := f.append g
  refine ⟨hj.ext, hj.sub, fun c hc => hj.mem c ?_, fun c hc => hj.new c ?_, ?_, ?_⟩
  · rcases List.mem_cons.1 hc with h | h
    · exact List.mem_append_right _ (by simp [h])
    · exact List.mem_append_left _ h
  · rcases List.mem_cons.1 hc with h | h
    · exact List.mem_append_right _ (by simp [h])
    · exact List.mem_append_left _ h
  · exact (List.perm_append_comm.nodup_iff).1 hj.nodup
  · have e := vals_mono g.ext f.vals
    rw [← hev] at e
    show m' a :: (p :: ps).map m' = _
    rw [g.one, e, List.map_cons]

end Verif.Lemmas
