import Verif.Lemmas.ProveMem
import Verif.Lemmas.Iter
import Verif.Model.IterMem

/-!
# The iterative provers on shared memory
-/

namespace Verif.Lemmas
open Verif.Go Verif.Go.Mem Verif.Model Verif.Spec

/-- An integer of the list is replaced by two new ones. -/
theorem fresh_cut {m0 m m' : Memory} {W0 W W' : Set Nat} {o1 o2 v1 v2 : List Nat} {a v p q u w : Nat} (hl : o1.length = v1.length)
    (f : Fresh m0 W0 m W (o1 ++ a :: o2) (v1 ++ v :: v2)) (g : Fresh m W m' W' [p, q] [u, w]) :
    Fresh m0 W0 m' W' (o1 ++ p :: q :: o2) (v1 ++ u :: w :: v2) := by
  have hj := f.append g
  have hperm : ((a :: (o1 ++ p :: q :: o2))).Perm ((o1 ++ a :: o2) ++ [p, q]) := by
    refine List.perm_middle.symm.trans ?_
    rw [List.append_assoc]
    refine List.Perm.append_left _ (List.Perm.cons _ ?_)
    exact (List.perm_append_comm (l₁ := [p, q]) (l₂ := o2))
  refine ⟨hj.ext, hj.sub, fun c hc => hj.mem c (hperm.mem_iff.1 (List.mem_cons_of_mem _ hc)),
    fun c hc => hj.new c (hperm.mem_iff.1 (List.mem_cons_of_mem _ hc)), (List.nodup_cons.1 (hperm.nodup_iff.2 hj.nodup)).2, ?_⟩
  have e := vals_mono g.ext f.vals
  have e' := g.vals
  simp only [List.map_append, List.map_cons, List.map_nil] at e e' ⊢
  obtain ⟨e1, e2⟩ := List.append_inj e (by simpa using hl)
  rw [List.cons.injEq] at e2
  rw [e1, e2.2]
  simp only [List.cons.injEq, and_true] at e'
  rw [e'.1, e'.2]

/-- An integer of the list gets another value. -/
theorem fresh_update {m0 m m' : Memory} {W0 W : Set Nat} {o1 o2 v1 v2 : List Nat} {a v u : Nat} (hl : o1.length = v1.length)
    (f : Fresh m0 W0 m W (o1 ++ a :: o2) (v1 ++ v :: v2)) (h1 : ∀ c, c ≠ a → m' c = m c) (h2 : m' a = some u) :
    Fresh m0 W0 m' W (o1 ++ a :: o2) (v1 ++ u :: v2) := by
  have ha : m0 a = none := f.new a (by simp)
  have hn := List.nodup_cons.1 (List.nodup_middle.1 f.nodup)
  refine ⟨fun c w hc => ?_, f.sub, f.mem, f.new, f.nodup, ?_⟩
  · rw [h1 c (fun e => by rw [e, ha] at hc; cases hc)]
    exact f.ext c w hc
  · have e := f.vals
    simp only [List.map_append, List.map_cons] at e ⊢
    obtain ⟨e1, e2⟩ := List.append_inj e (by simpa using hl)
    rw [List.cons.injEq] at e2
    rw [← e1, ← e2.2, h2]
    have same : ∀ l : List Nat, a ∉ l → l.map m' = l.map m := fun l hl' =>
      List.map_congr_left fun c hc => h1 c (fun e => hl' (by rw [← e]; exact hc))
    rw [same o1 (fun h => hn.1 (List.mem_append_left _ h)), same o2 (fun h => hn.1 (List.mem_append_right _ h))]

/-- `accumulate` on an integer of one's own. -/
theorem ok_accumulateOwn {W : Set Nat} {Q : Post} {acc N n : Nat} {k : MProg} (hW : acc ∈ W) (hne : acc ≠ N) :
    ∀ (set xs : List Nat) (m : Memory) (v : Nat), acc ∉ set → m acc = some v → m N = some n → set.map m = xs.map some →
      (∀ m', (∀ c, c ≠ acc → m' c = m c) → m' acc = some (accumulate v n xs) → Ok k m' W Q) → Ok (accumulateM acc N set k) m W Q
  | [], [], m, v, _, hv, _, _, hk => hk m (fun _ _ => rfl) hv
  | [], _ :: _, _, _, _, _, _, e, _ => by cases e
  | _ :: _, [], _, _, _, _, _, e, _ => by cases e
  | s :: set, x :: xs, m, v, hs, hv, hN, e, hk => by
    obtain ⟨e1, e2⟩ := vals_cons e
    have hs2 : acc ∉ set := fun h => hs (List.mem_cons_of_mem _ h)
    have hset : ∀ c, c ≠ acc → (m.set acc (expMod v x n)) c = m c := fun c hc => by
      unfold Memory.set
      rw [if_neg hc]
    refine ⟨hW, by simp [hv, hN, e1], ?_⟩
    have hval : expMod ((m.vals [acc, N, s]).getD 0 0) ((m.vals [acc, N, s]).getD 2 0) ((m.vals [acc, N, s]).getD 1 0) =
        expMod v x n := by simp [Memory.vals, hv, hN, e1]
    show Ok (accumulateM acc N set k) (m.set acc (expMod ((m.vals [acc, N, s]).getD 0 0) ((m.vals [acc, N, s]).getD 2 0)
      ((m.vals [acc, N, s]).getD 1 0))) W Q
    rw [hval]
    refine ok_accumulateOwn hW hne set xs _ (expMod v x n) hs2 (by simp [Memory.set]) (by rw [hset N hne.symm, hN]) ?_
      (fun m' h1 h2 => hk m' (fun c hc => (h1 c hc).trans (hset c hc)) h2)
    rw [← e2]
    exact List.map_congr_left fun c hc => hset c (fun e => hs2 (by rw [← e]; exact hc))

/-- What a function for cuts has to do: replace the integer of the node by those of the two parts. -/
def CutRule (m0 : Memory) (W0 : Set Nat) (n : Nat) (xs : List Nat)
    (cut : ProofNode → (ProofNode → ProofNode → MProg) → MProg) : Prop :=
  ∀ (m : Memory) (W : Set Nat) (Q : Post) (o1 o2 v1 v2 : List Nat) (l r a v : Nat) (k : ProofNode → ProofNode → MProg),
    o1.length = v1.length → Fresh m0 W0 m W (o1 ++ a :: o2) (v1 ++ v :: v2) →
    (∀ p q m' W', Fresh m0 W0 m' W' (o1 ++ p :: q :: o2)
        (v1 ++ (insertNewProofNode ⟨l, r, v⟩ n xs).1.proof :: (insertNewProofNode ⟨l, r, v⟩ n xs).2.proof :: v2) →
      Ok (k ⟨l, l + (r - l) / 2, p⟩ ⟨l + (r - l) / 2, r, q⟩) m' W' Q) →
    Ok (cut ⟨l, r, a⟩ k) m W Q

theorem cut_inPlace {m0 : Memory} {W0 : Set Nat} {N n : Nat} {set xs : List Nat} (hN : m0 N = some n)
    (hs : set.map m0 = xs.map some) : CutRule m0 W0 n xs (insertNewProofNodeM N set) := by
  intro m W Q o1 o2 v1 v2 l r a v k hl f hk
  have ha : m0 a = none := f.new a (by simp)
  have hv : m a = some v := by
    have e := f.vals
    simp only [List.map_append, List.map_cons] at e
    have e2 := (List.append_inj e (by simpa using hl)).2
    rw [List.cons.injEq] at e2
    exact e2.1
  unfold insertNewProofNodeM
  refine ok_accumulateNew hv (f.ext _ _ hN) (vals_mono f.ext (vals_slice hs _ _)) (fun p m1 W1 g => ?_)
  have hin : a ∈ W1 := g.sub (f.mem a (by simp))
  refine ok_accumulateOwn hin (fun e => by rw [e, hN] at ha; cases ha) _ _ m1 v ?_ (g.ext _ _ hv) (g.ext _ _ (f.ext _ _ hN))
    (vals_mono g.ext (vals_mono f.ext (vals_slice hs _ _))) (fun m2 h1 h2 => hk a p m2 W1 ?_)
  · intro hmem
    have hmem' := List.mem_map_of_mem (f := m0) hmem
    rw [vals_slice hs, ha] at hmem'
    simp at hmem'
  · have hj := f.append g
    have h3 : Fresh m0 W0 m1 W1 (o1 ++ a :: p :: o2)
        (v1 ++ v :: (insertNewProofNode ⟨l, r, v⟩ n xs).2.proof :: v2) := by
      have hperm : (o1 ++ a :: p :: o2).Perm ((o1 ++ a :: o2) ++ [p]) := by
        rw [List.append_assoc]
        exact List.Perm.append_left _ (List.Perm.cons _ (List.perm_append_comm (l₁ := [p]) (l₂ := o2)))
      refine ⟨hj.ext, hj.sub, fun c hc => hj.mem c (hperm.mem_iff.1 hc), fun c hc => hj.new c (hperm.mem_iff.1 hc),
        hperm.nodup_iff.2 hj.nodup, ?_⟩
      have e := vals_mono g.ext f.vals
      have e' := g.one
      simp only [List.map_append, List.map_cons] at e ⊢
      obtain ⟨e1, e2⟩ := List.append_inj e (by simpa using hl)
      rw [List.cons.injEq] at e2
      rw [e1, e2.1, e2.2, e']
      rfl
    exact fresh_update hl h3 h1 h2

/-- Two goroutines, each with one result. -/
theorem ok_cutChan {m : Memory} {W : Set Nat} {Q : Post} {N n l r base v : Nat} {set xs : List Nat}
    {k : ProofNode → ProofNode → MProg} (hb : m base = some v) (hN : m N = some n) (hs : set.map m = xs.map some)
    (hk : ∀ p q m' W', Fresh m W m' W' [p, q]
        [(insertNewProofNode ⟨l, r, v⟩ n xs).1.proof, (insertNewProofNode ⟨l, r, v⟩ n xs).2.proof] →
      Ok (k ⟨l, l + (r - l) / 2, p⟩ ⟨l + (r - l) / 2, r, q⟩) m' W' Q) :
    Ok (insertNewProofNodeWithChanM N set ⟨l, r, base⟩ k) m W Q := by
  refine ⟨fun i m' W' out => Fresh m ∅ m' W' out (if i = 0 then [(insertNewProofNode ⟨l, r, v⟩ n xs).1.proof]
      else [(insertNewProofNode ⟨l, r, v⟩ n xs).2.proof]), fun i => fresh_mono m _, fun i => ?_,
    fun m4 Ws outs he hnew hdis hq => ?_⟩
  · match i with
    | 0 => exact ok_accumulateNew hb hN (vals_slice hs _ _) (fun p m' W' f => f)
    | 1 => exact ok_accumulateNew hb hN (vals_slice hs _ _) (fun p m' W' f => f)
  · have q0 := hq 0
    have q1 := hq 1
    beta_reduce at q0 q1
    rw [if_pos rfl] at q0
    rw [if_neg (by decide)] at q1
    have one : ∀ {o : List Nat} {v : Nat}, o.map m4 = [v].map some → ∃ a, o = [a] := fun {o v} e =>
      List.length_eq_one_iff.1 (by simpa using congrArg List.length e)
    obtain ⟨a0, o0⟩ := one q0.vals
    obtain ⟨a1, o1⟩ := one q1.vals
    rw [o0] at q0
    rw [o1] at q1
    have hj := fresh_join q0 q1 (fun a ha => hdis 0 1 a (by decide) (q0.mem a ha))
    unfold cutNodeM
    rw [o0, o1]
    refine hk a0 a1 m4 _ ⟨hj.ext, Set.subset_union_left, fun c hc => .inr ?_, hj.new, hj.nodup, hj.vals⟩
    rcases hj.mem c hc with h | h
    · exact ⟨0, h⟩
    · exact ⟨1, h⟩

theorem cut_chan {m0 : Memory} {W0 : Set Nat} {N n : Nat} {set xs : List Nat} (hN : m0 N = some n)
    (hs : set.map m0 = xs.map some) : CutRule m0 W0 n xs (insertNewProofNodeWithChanM N set) := by
  intro m W Q o1 o2 v1 v2 l r a v k hl f hk
  have hv : m a = some v := by
    have e := f.vals
    simp only [List.map_append, List.map_cons] at e
    have e2 := (List.append_inj e (by simpa using hl)).2
    rw [List.cons.injEq] at e2
    exact e2.1
  exact ok_cutChan hv (f.ext _ _ hN) (vals_mono f.ext hs) (fun p q m' W' g => hk p q m' W' (fresh_cut hl f g))

/-- The same ranges. -/
def SameRanges : List ProofNode → List ProofNode → Prop :=
  List.Forall₂ fun a b => a.left = b.left ∧ a.right = b.right

theorem ok_pass {m0 : Memory} {W0 : Set Nat} {n : Nat} {xs : List Nat} {Q : Post}
    {cut : ProofNode → (ProofNode → ProofNode → MProg) → MProg} (hc : CutRule m0 W0 n xs cut) :
    ∀ (nodes vnodes : List ProofNode) (m : Memory) (W : Set Nat) (o1 v1 : List Nat) (k : List ProofNode → Bool → MProg),
      o1.length = v1.length → SameRanges nodes vnodes →
      Fresh m0 W0 m W (o1 ++ nodes.map (·.proof)) (v1 ++ vnodes.map (·.proof)) →
      (∀ nodes' m' W', SameRanges nodes' (iterPass n xs vnodes).1 →
        Fresh m0 W0 m' W' (o1 ++ nodes'.map (·.proof)) (v1 ++ (iterPass n xs vnodes).1.map (·.proof)) →
        Ok (k nodes' (iterPass n xs vnodes).2) m' W' Q) →
      Ok (iterPassM cut nodes k) m W Q
  | _, _, m, W, o1, v1, k, _, .nil, f, hk => hk [] m W .nil f
  | _, _, m, W, o1, v1, k, hl, .cons (a := a) (b := b) (l₁ := rest) (l₂ := vrest) hab hr, f, hk => by
    rw [iterPassM]
    rw [iterPass] at hk
    by_cases hw : a.right - a.left ≤ 1
    · rw [if_pos hw]
      rw [if_pos (by rw [← hab.1, ← hab.2]; exact hw)] at hk
      refine ok_pass hc rest vrest m W (o1 ++ [a.proof]) (v1 ++ [b.proof]) _ (by simp [hl]) hr
        (by simpa using f) (fun nodes' m' W' h1 h2 => ?_)
      exact hk (a :: nodes') m' W' (.cons hab h1) (by simpa using h2)
    · rw [if_neg hw]
      rw [if_neg (by rw [← hab.1, ← hab.2]; exact hw)] at hk
      obtain ⟨al, ar, aa⟩ := a
      obtain ⟨bl, br, bv⟩ := b
      obtain ⟨rfl, rfl⟩ : al = bl ∧ ar = br := hab
      refine hc m W Q o1 _ v1 _ al ar aa bv _ hl f (fun p q m1 W1 g => ?_)
      refine ok_pass hc rest vrest m1 W1 (o1 ++ [p, q])
        (v1 ++ [(insertNewProofNode ⟨al, ar, bv⟩ n xs).1.proof, (insertNewProofNode ⟨al, ar, bv⟩ n xs).2.proof]) _ (by simp [hl]) hr
        (by simpa using g) (fun nodes' m' W' h1 h2 => ?_)
      exact hk (_ :: _ :: nodes') m' W' (.cons ⟨rfl, rfl⟩ (.cons ⟨rfl, rfl⟩ h1)) (by simpa using h2)

theorem ok_loop {m0 : Memory} {W0 : Set Nat} {n : Nat} {xs : List Nat} {Q : Post}
    {cut : ProofNode → (ProofNode → ProofNode → MProg) → MProg} (hc : CutRule m0 W0 n xs cut) {k : List ProofNode → MProg} :
    ∀ (fuel : Nat) (nodes vnodes : List ProofNode) (m : Memory) (W : Set Nat), (∀ v ∈ vnodes, NodeOk n xs v) →
      cutsLeft vnodes < fuel → SameRanges nodes vnodes → Fresh m0 W0 m W (nodes.map (·.proof)) (vnodes.map (·.proof)) →
      (∀ nodes' m' W', Fresh m0 W0 m' W' (nodes'.map (·.proof)) (nodeWitnesses n xs vnodes) → Ok (k nodes') m' W' Q) →
      Ok (iterLoopM cut fuel nodes k) m W Q
  | 0, _, _, _, _, _, h, _, _, _ => by omega
  | fuel + 1, nodes, vnodes, m, W, hok, hf, hr, f, hk => by
    obtain ⟨i1, i2, i3, i4, i5⟩ := iterPass_spec n xs vnodes hok
    rw [iterLoopM]
    refine ok_pass hc nodes vnodes m W [] [] _ rfl hr f (fun nodes' m' W' h1 h2 => ?_)
    by_cases hb : (iterPass n xs vnodes).2 = true
    · rw [hb, if_pos rfl]
      refine ok_loop hc fuel nodes' _ m' W' i2 (by have := i3 hb; omega) h1 h2 (fun n2 m2 W2 g => hk n2 m2 W2 ?_)
      rw [← i1]
      exact g
    · rw [if_neg hb]
      obtain ⟨e, hall⟩ := i5 (by simpa using hb)
      refine hk nodes' m' W' ?_
      rw [nodeWitnesses_done n xs vnodes hok hall, ← e]
      exact h2

theorem ok_iter {m : Memory} {W : Set Nat} {Q : Post} {base N b n : Nat} {set xs : List Nat} {k : List Nat → MProg}
    (hb : m base = some b) (hN : m N = some n) (hs : set.map m = xs.map some) (h2 : 2 ≤ xs.length)
    (hk : ∀ out m' W', Fresh m W m' W' out (witnesses b n xs) → Ok (k out) m' W' Q) : Ok (proveMembershipIterM base N set k) m W Q := by
  have hl := vals_length hs
  unfold proveMembershipIterM
  rw [if_neg (by omega), hl]
  refine ok_copy hb (fun copy m1 W1 f => ?_)
  refine ok_loop (cut_inPlace hN hs) xs.length _ [⟨0, xs.length, b⟩] m1 W1 ?_ (by simp [cutsLeft]; omega)
    (.cons ⟨rfl, rfl⟩ .nil) f (fun nodes' m' W' g => hk _ m' W' ?_)
  · intro v hv
    rw [List.mem_singleton.1 hv]
    exact ⟨by show 0 < xs.length; omega, Nat.le_refl _, .inr h2⟩
  · have e : nodeWitnesses n xs [⟨0, xs.length, b⟩] = witnesses b n xs := by simp [nodeWitnesses, slice_full]
    rw [← e]
    exact g

theorem ok_worker {m : Memory} {W : Set Nat} {Q : Post} {base N b n l r : Nat} {set xs : List Nat} {k : List Nat → MProg}
    (hb : m base = some b) (hN : m N = some n) (hs : set.map m = xs.map some) (h2 : l + 2 ≤ r) (hr : r ≤ xs.length)
    (hk : ∀ out m' W', Fresh m W m' W' out (witnesses b n (slice xs l r)) → Ok (k out) m' W' Q) :
    Ok (proveMembershipIterWorkerM base N set l r k) m W Q := by
  have hl := vals_length hs
  unfold proveMembershipIterWorkerM
  rw [if_neg (by omega), hl]
  have hok : NodeOk n xs ⟨l, r, b⟩ := ⟨by show l < r; omega, hr, .inr (by show 2 ≤ r - l; omega)⟩
  have hw : ¬ (⟨l, r, b⟩ : ProofNode).right - (⟨l, r, b⟩ : ProofNode).left ≤ 1 := by
    show ¬ r - l ≤ 1
    omega
  obtain ⟨fuel, hfuel⟩ : ∃ fuel, xs.length = fuel + 1 := ⟨xs.length - 1, by omega⟩
  rw [hfuel, iterLoopM, iterPassM, if_neg (by show ¬ r - l ≤ 1; omega)]
  refine ok_cutChan hb hN hs (fun p q m1 W1 f => ?_)
  rw [iterPassM, if_pos rfl]
  have hins := insert_ok n xs ⟨l, r, b⟩ hok hw
  refine ok_loop (cut_chan hN hs) fuel _
    [(insertNewProofNode ⟨l, r, b⟩ n xs).1, (insertNewProofNode ⟨l, r, b⟩ n xs).2] m1 W1 ?_ ?_
    (.cons ⟨rfl, rfl⟩ (.cons ⟨rfl, rfl⟩ .nil)) f (fun nodes' m' W' g => hk _ m' W' ?_)
  · intro v hv
    rcases List.mem_cons.1 hv with rfl | hv
    · exact hins.1
    · rw [List.mem_singleton.1 hv]
      exact hins.2
  · simp only [cutsLeft, insertNewProofNode, List.map_cons, List.map_nil, List.sum_cons, List.sum_nil]
    omega
  · have e := insert_witnesses n xs ⟨l, r, b⟩ hok hw
    have e' : nodeWitnesses n xs [⟨l, r, b⟩] = witnesses b n (slice xs l r) := by simp [nodeWitnesses]
    rw [← e', ← e]
    exact g

theorem ok_init {N n : Nat} {set xs : List Nat} : ∀ (d : Nat) {m : Memory} {W : Set Nat} {Q : Post} {base b l r : Nat},
    m base = some b → m N = some n → set.map m = xs.map some → l + 2 ^ (d + 1) ≤ r → r ≤ xs.length →
    (∀ out m' W', Fresh m W m' W' out (witnesses b n (slice xs l r)) → Q m' W' out) →
    Ok (initMembershipProofsM N set d base l r) m W Q
  | 0, m, W, Q, base, b, l, r, hb, hN, hs, h2, hr, hk => by
    rw [initMembershipProofsM]
    exact ok_worker hb hN hs h2 hr hk
  | d + 1, m, W, Q, base, b, l, r, hb, hN, hs, h2, hr, hk => by
    have hp : 1 ≤ 2 ^ d := Nat.one_le_two_pow
    have e1 : 2 ^ (d + 1) = 2 * 2 ^ d := by rw [Nat.pow_succ, Nat.mul_comm]
    have e2 : 2 ^ (d + 1 + 1) = 4 * 2 ^ d := by rw [Nat.pow_succ, e1]; omega
    rw [initMembershipProofsM]
    have hok : NodeOk n xs ⟨l, r, b⟩ := ⟨by show l < r; omega, hr, .inr (by show 2 ≤ r - l; omega)⟩
    have hw : ¬ (⟨l, r, b⟩ : ProofNode).right - (⟨l, r, b⟩ : ProofNode).left ≤ 1 := by
      show ¬ r - l ≤ 1
      omega
    refine ⟨fun i m' W' out => Fresh m ∅ m' W' out (if i = 0
        then witnesses (insertNewProofNode ⟨l, r, b⟩ n xs).2.proof n (slice xs (l + (r - l) / 2) r)
        else witnesses (insertNewProofNode ⟨l, r, b⟩ n xs).1.proof n (slice xs l (l + (r - l) / 2))), fun i => fresh_mono m _,
      fun i => ?_, fun m4 Ws outs he hnew hdis hq => ?_⟩
    · match i with
      | 0 =>
        refine ok_accumulateNew hb hN (vals_slice hs _ _) (fun p m1 W1 f => ?_)
        refine ok_init d f.one (f.ext _ _ hN) (vals_mono f.ext hs) (by omega) hr (fun out m' W' g => ?_)
        exact (f.append g).right (o1 := [p]) (v1 := [_]) rfl
      | 1 =>
        refine ok_accumulateNew hb hN (vals_slice hs _ _) (fun p m1 W1 f => ?_)
        refine ok_init d f.one (f.ext _ _ hN) (vals_mono f.ext hs) (by omega) (by omega) (fun out m' W' g => ?_)
        exact (f.append g).right (o1 := [p]) (v1 := [_]) rfl
    · have q0 := hq 0
      have q1 := hq 1
      beta_reduce at q0 q1
      rw [if_pos rfl] at q0
      rw [if_neg (by decide)] at q1
      have hj := fresh_join q1 q0 (fun a ha => hdis 1 0 a (by decide) (q1.mem a ha))
      have e := insert_witnesses n xs ⟨l, r, b⟩ hok hw
      simp only [nodeWitnesses, List.flatMap_cons, List.flatMap_nil, List.append_nil] at e
      refine hk _ m4 _ ?_
      rw [← e]
      refine ⟨hj.ext, Set.subset_union_left, fun c hc => .inr ?_, hj.new, hj.nodup, hj.vals⟩
      rcases hj.mem c hc with h | h
      · exact ⟨1, h⟩
      · exact ⟨0, h⟩

theorem ok_iterParallel {m : Memory} {W : Set Nat} {Q : Post} {base N b n w d : Nat} {set xs : List Nat} {k : List Nat → MProg}
    (hw : w = 2 ^ d) (hb : m base = some b) (hN : m N = some n) (hs : set.map m = xs.map some) (h2 : 2 ≤ xs.length)
    (hk : ∀ out m' W', Fresh m W m' W' out (witnesses b n xs) → Ok (k out) m' W' Q) :
    Ok (proveMembershipIterParallelM w d base N set k) m W Q := by
  have hl := vals_length hs
  have e1 : 2 ^ (d + 1) = 2 * 2 ^ d := by rw [Nat.pow_succ, Nat.mul_comm]
  unfold proveMembershipIterParallelM
  split
  · exact ok_iter hb hN hs h2 hk
  · refine ⟨fun _ m' W' out => Fresh m ∅ m' W' out (witnesses b n xs), fun i => fresh_mono m _, fun i => ?_,
      fun m4 Ws outs he hnew hdis hq => hk _ m4 _ ?_⟩
    · rw [hl]
      refine ok_init d hb hN hs (by omega) (Nat.le_refl _) (fun out m' W' f => ?_)
      rw [slice_full] at f
      exact f
    · have q := hq 0
      exact ⟨q.ext, Set.subset_union_left, fun c hc => .inr ⟨0, q.mem c hc⟩, q.new, q.nodup, q.vals⟩

/-- The results of goroutines, each of which returns its own new integers. -/
theorem fresh_flatMap {M m' : Memory} {c : Nat} {outs vals : Fin c → List Nat} {Ws : Fin c → Set Nat} {W : Set Nat}
    (he : Extends M m') (hd : ∀ i j a, i ≠ j → a ∈ Ws i → a ∉ Ws j) (hq : ∀ i, Fresh M ∅ m' (Ws i) (outs i) (vals i)) :
    Fresh M W m' (W ∪ {a | ∃ i, a ∈ Ws i}) ((List.finRange c).flatMap outs) ((List.finRange c).flatMap vals) := by
  have key : ∀ l : List (Fin c), l.Nodup → Fresh M ∅ m' {a | ∃ i ∈ l, a ∈ Ws i} (l.flatMap outs) (l.flatMap vals) := by
    intro l
    induction l with
    | nil => exact fun _ => ⟨he, Set.empty_subset _, by simp, by simp, List.nodup_nil, rfl⟩
    | cons i l ih =>
      intro hl
      obtain ⟨h1, h2⟩ := List.nodup_cons.1 hl
      have f := ih h2
      rw [List.flatMap_cons, List.flatMap_cons]
      refine ⟨he, Set.empty_subset _, fun a ha => ?_, fun a ha => ?_, ?_, ?_⟩
      · rcases List.mem_append.1 ha with h | h
        · exact ⟨i, List.mem_cons_self, (hq i).mem a h⟩
        · obtain ⟨j, hj, hw⟩ := f.mem a h
          exact ⟨j, List.mem_cons_of_mem _ hj, hw⟩
      · rcases List.mem_append.1 ha with h | h
        · exact (hq i).new a h
        · exact f.new a h
      · refine List.Nodup.append (hq i).nodup f.nodup (fun a ha hb => ?_)
        obtain ⟨j, hj, hw⟩ := f.mem a hb
        exact hd i j a (fun e => h1 (by rw [e]; exact hj)) ((hq i).mem a ha) hw
      · rw [List.map_append, List.map_append, (hq i).vals, f.vals]
  have h := key _ (List.nodup_finRange c)
  refine ⟨h.ext, Set.subset_union_left, fun a ha => ?_, h.new, h.nodup, h.vals⟩
  obtain ⟨i, -, hi⟩ := h.mem a ha
  exact .inr ⟨i, hi⟩

/-- Calls at the same time, each of which returns its own new integers. -/
theorem ok_calls {M : Memory} {c : Nat} {ps : Fin c → MProg} {vals : Fin c → List Nat}
    (h : ∀ i, Ok (ps i) M ∅ (fun m' W' out => Fresh M ∅ m' W' out (vals i))) :
    Ok (.fork c ps (fun outs => .ret ((List.finRange c).flatMap outs))) M ∅
      (fun m' W' out => Fresh M ∅ m' W' out ((List.finRange c).flatMap vals)) :=
  ⟨fun i m' W' out => Fresh M ∅ m' W' out (vals i), fun _ => fresh_mono M _, h, fun _ _ _ he _ hd hq => fresh_flatMap he hd hq⟩

end Verif.Lemmas
