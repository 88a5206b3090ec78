import Verif.Model.IterWorker
import Verif.Lemmas.Iter
import Verif.Lemmas.Exec
import Mathlib.Data.Prod.Lex
import Mathlib.Order.WellFounded

/-! # The invariant of the worker with its helper goroutine -/

namespace Verif.Lemmas.IterWorker
open Verif.Go Verif.Model Verif.Model.IterWorker Verif.Spec Verif.Lemmas

/-- The addresses of the linked list that starts at a pointer. -/
def Path (h : Nat → Node) : Option Nat → List Nat → Prop
  | o, [] => o = none
  | o, p :: l => o = some p ∧ Path h (h p).next l

theorem path_head (h : Nat → Node) (o : Option Nat) (l : List Nat) (hp : Path h o l) : o = l.head? := by
  cases l with
  | nil => exact hp
  | cons p l => exact hp.1

theorem path_congr (h h' : Nat → Node) (o : Option Nat) (l : List Nat) (hn : ∀ p ∈ l, (h' p).next = (h p).next)
    (hp : Path h o l) : Path h' o l := by
  induction l generalizing o with
  | nil => exact hp
  | cons p l ih =>
    refine ⟨hp.1, ?_⟩
    rw [hn p List.mem_cons_self]
    exact ih _ (fun q hq => hn q (List.mem_cons_of_mem _ hq)) hp.2

theorem path_next (h : Nat → Node) (o : Option Nat) (pre rest : List Nat) (p : Nat) (hp : Path h o (pre ++ p :: rest)) :
    (h p).next = rest.head? := by
  induction pre generalizing o with
  | nil => exact path_head _ _ _ hp.2
  | cons q pre ih => exact ih _ hp.2

theorem path_insert (h h' : Nat → Node) (o : Option Nat) (pre rest : List Nat) (p q : Nat)
    (hpre : ∀ x ∈ pre, (h' x).next = (h x).next) (hrest : ∀ x ∈ rest, (h' x).next = (h x).next)
    (h1 : (h' p).next = some q) (h2 : (h' q).next = (h p).next) (hp : Path h o (pre ++ p :: rest)) :
    Path h' o (pre ++ p :: q :: rest) := by
  induction pre generalizing o with
  | nil =>
    refine ⟨hp.1, h1, ?_⟩
    rw [h2]
    exact path_congr _ _ _ _ hrest hp.2
  | cons x pre ih =>
    refine ⟨hp.1, ?_⟩
    rw [hpre x List.mem_cons_self]
    exact ih _ (fun y hy => hpre y (List.mem_cons_of_mem _ hy)) hp.2

/-- The node without its pointer. -/
def nd (n : Node) : ProofNode := { left := n.left, right := n.right, proof := n.proof }

def nodes (h : Nat → Node) (ids : List Nat) : List ProofNode := ids.map fun p => nd (h p)

theorem nodes_congr (h h' : Nat → Node) (ids : List Nat) (hn : ∀ p ∈ ids, h' p = h p) : nodes h' ids = nodes h ids :=
  List.map_congr_left fun p hp => by rw [hn p hp]

/-- The nodes stand for the witnesses of the whole segment. -/
def Good (c : Call) (l : List ProofNode) : Prop :=
  (∀ n ∈ l, NodeOk c.N c.set n) ∧ nodeWitnesses c.N c.set l = witnesses c.base c.N (slice c.set c.left c.right)

def Small (l : List ProofNode) : Prop := ∀ n ∈ l, n.right - n.left ≤ 1

/-- The helper works on the right part of the node at `p`; `w` is the number of its remaining steps. -/
def Helping (c : Call) (s : State) (p l r w : Nat) : Prop :=
  (s.helper = .got (mid l r) r ∧ w = 2) ∨
  (s.helper = .sending (accumulateNew (s.heap p).proof c.N (slice c.set (mid l r) r)) ∧ w = 1)

def flag (s : State) : Nat := if s.finishFlag then 1 else 0

/-- While a node is cut: the list with the node as it was before. -/
structure Cutting (c : Call) (s : State) (pre rest : List Nat) (A p l r : Nat) (rest' : List Nat) : Prop where
  iter : s.iter = some p
  rest : rest = p :: rest'
  good : Good c (nodes s.heap pre ++ ⟨l, r, (s.heap p).proof⟩ :: nodes s.heap rest')
  wide : 1 < r - l
  rank : A = cutsLeft (nodes s.heap pre ++ ⟨l, r, (s.heap p).proof⟩ :: nodes s.heap rest') + flag s + 1

/-- The new node. -/
structure NewNode (c : Call) (s : State) (pre rest : List Nat) (p l r q : Nat) : Prop where
  fresh : q ∉ pre ++ rest
  old : q < s.free
  val : s.heap q = ⟨mid l r, r, accumulateNew (s.heap p).proof c.N (slice c.set l (mid l r)), (s.heap p).next⟩

/-- What holds at each program counter. -/
def AtPc (c : Call) (s : State) (pre rest : List Nat) (A B : Nat) : Prop :=
  match s.main with
  | .outer => s.helper = .select ∧ Good c (nodes s.heap (pre ++ rest)) ∧
      (s.finishFlag = false → Small (nodes s.heap (pre ++ rest))) ∧
      A = cutsLeft (nodes s.heap (pre ++ rest)) + flag s + 1 ∧ B = 0
  | .inner => s.helper = .select ∧ s.iter = rest.head? ∧ Good c (nodes s.heap (pre ++ rest)) ∧
      (s.finishFlag = false → Small (nodes s.heap pre)) ∧
      A = cutsLeft (nodes s.heap (pre ++ rest)) + flag s + 1 ∧ B = 10 * rest.length + 1
  | .send p l r => ∃ rest', Cutting c s pre rest A p l r rest' ∧ s.helper = .select ∧ B = 10 * rest'.length + 10
  | .compute p l r => ∃ rest' w, Cutting c s pre rest A p l r rest' ∧ Helping c s p l r w ∧ B = 10 * rest'.length + 5 + w
  | .shrink p l r q => ∃ rest' w, Cutting c s pre rest A p l r rest' ∧ Helping c s p l r w ∧ NewNode c s pre rest p l r q ∧
      B = 10 * rest'.length + 4 + w
  | .receive p l r q => ∃ rest' w, Cutting c s pre rest A p l r rest' ∧ Helping c s p l r w ∧
      NewNode c s pre rest p l r q ∧ (s.heap p).left = l ∧ (s.heap p).right = mid l r ∧ B = 10 * rest'.length + 3 + w
  | .received p l r q v => ∃ rest', Cutting c s pre rest A p l r rest' ∧ s.helper = .select ∧
      v = accumulateNew (s.heap p).proof c.N (slice c.set (mid l r) r) ∧
      NewNode c s pre rest p l r q ∧ (s.heap p).left = l ∧ (s.heap p).right = mid l r ∧ B = 10 * rest'.length + 2
  | .collect proofs => s.helper = .select ∧ s.iter = rest.head? ∧ Good c (nodes s.heap (pre ++ rest)) ∧
      Small (nodes s.heap (pre ++ rest)) ∧ proofs = (nodes s.heap pre).map (fun n => n.proof) ∧ A = 0 ∧
      B = rest.length + 2
  | .returned proofs => proofs = witnesses c.base c.N (slice c.set c.left c.right) ∧ A = 0 ∧
      (s.helper = .select ∧ B = 1 ∨ s.helper = .stopped ∧ B = 0)

structure Inv (c : Call) (s : State) (b : Nat × Nat) : Prop where
  running : s.crashed = false
  data : ∃ pre rest, Path s.heap (some 0) (pre ++ rest) ∧ (pre ++ rest).Nodup ∧ (∀ p ∈ pre ++ rest, p < s.free) ∧
    AtPc c s pre rest b.1 b.2

theorem inv_init (c : Call) (h : NodeOk c.N c.set ⟨c.left, c.right, c.base⟩) :
    Inv c (init c) (c.right - c.left - 1 + 2, 0) := by
  refine ⟨rfl, [], [0], ⟨rfl, rfl⟩, by simp, by simp [init], ?_⟩
  refine ⟨rfl, ⟨?_, ?_⟩, by simp [init], ?_, rfl⟩
  · intro n hn
    simp only [nodes, List.nil_append, List.map_cons, List.map_nil, List.mem_singleton] at hn
    subst hn
    exact h
  · simp [nodes, nodeWitnesses, nd, init, header]
  · simp [nodes, cutsLeft, nd, init, header, flag]

theorem nodeWitnesses_append (N : Nat) (set : List Nat) (a b : List ProofNode) :
    nodeWitnesses N set (a ++ b) = nodeWitnesses N set a ++ nodeWitnesses N set b := by
  simp [nodeWitnesses]

theorem cutsLeft_append (a b : List ProofNode) : cutsLeft (a ++ b) = cutsLeft a + cutsLeft b := by
  simp [cutsLeft]

theorem cut_good (c : Call) (a b : List ProofNode) (l r x : Nat) (hw : 1 < r - l) (h : Good c (a ++ ⟨l, r, x⟩ :: b)) :
    Good c (a ++ ⟨l, mid l r, accumulateNew x c.N (slice c.set (mid l r) r)⟩ ::
      ⟨mid l r, r, accumulateNew x c.N (slice c.set l (mid l r))⟩ :: b) ∧
    cutsLeft (a ++ ⟨l, mid l r, accumulateNew x c.N (slice c.set (mid l r) r)⟩ ::
      ⟨mid l r, r, accumulateNew x c.N (slice c.set l (mid l r))⟩ :: b) + 1 = cutsLeft (a ++ ⟨l, r, x⟩ :: b) ∧
    InRange c l (mid l r) ∧ InRange c (mid l r) r := by
  obtain ⟨h1, h2⟩ := h
  have hn := h1 ⟨l, r, x⟩ (by simp)
  have e1 := insert_witnesses c.N c.set ⟨l, r, x⟩ hn (by simp only; omega)
  obtain ⟨e2, e3⟩ := insert_ok c.N c.set ⟨l, r, x⟩ hn (by simp only; omega)
  obtain ⟨k1, k2, -⟩ := hn
  simp only at k1 k2
  have hm : l < mid l r ∧ mid l r < r := by unfold mid; omega
  refine ⟨⟨?_, ?_⟩, ?_, ⟨by omega, by omega⟩, by omega, by omega⟩
  · intro n hn
    simp only [List.mem_append, List.mem_cons] at hn
    rcases hn with hn | rfl | rfl | hn
    · exact h1 n (by simp [hn])
    · exact e2
    · exact e3
    · exact h1 n (by simp [hn])
  · rw [← h2]
    simp only [nodeWitnesses, List.flatMap_append, List.flatMap_cons, List.flatMap_nil, List.append_nil] at e1 ⊢
    rw [← e1, List.append_assoc]
    rfl
  · simp only [cutsLeft, List.map_append, List.map_cons, List.sum_append, List.sum_cons]
    omega

/-- The order of the ranks. -/
def Lt : Nat × Nat → Nat × Nat → Prop := Prod.Lex (· < ·) (· < ·)

theorem lt_wf : WellFounded Lt := (Prod.lex (measure id) (measure id)).wf

theorem lt_left {a b a' b' : Nat} (h : a' < a) : Lt (a', b') (a, b) := .left _ _ h
theorem lt_right {a b b' : Nat} (h : b' < b) : Lt (a, b') (a, b) := .right _ h
theorem lt_le {a b a' b' : Nat} (h : a' ≤ a) (h' : b' < b) : Lt (a', b') (a, b) := by
  rcases Nat.lt_or_eq_of_le h with h | rfl
  · exact .left _ _ h
  · exact .right _ h'

theorem inv_step (c : Call) (s s' : State) (b : Nat × Nat) (h : Inv c s b) (hs : Step c s s') :
    ∃ b', Lt b' b ∧ Inv c s' b' := by
  obtain ⟨hr, pre, rest, hpath, hnd, hb, hpc⟩ := h
  obtain ⟨A, B⟩ := b
  simp only at hpc
  cases hs with
  | outerGo _ hm hf =>
    rw [AtPc, hm] at hpc
    obtain ⟨h1, h2, -, h4, h5⟩ := hpc
    refine ⟨(cutsLeft (nodes s.heap (pre ++ rest)) + 1, 10 * (pre ++ rest).length + 1), lt_left ?_,
      hr, [], pre ++ rest, hpath, hnd, hb, h1, path_head _ _ _ hpath, h2, ?_, rfl, rfl⟩
    · rw [h4, flag, if_pos hf]; omega
    · intro _ n hn; cases hn
  | outerExit _ hm hf =>
    rw [AtPc, hm] at hpc
    obtain ⟨h1, h2, h3, h4, h5⟩ := hpc
    exact ⟨(0, (pre ++ rest).length + 2), lt_left (by omega),
      hr, [], pre ++ rest, hpath, hnd, hb, h1, path_head _ _ _ hpath, h2, h3 hf, rfl, rfl, rfl⟩
  | innerSkip p _ hm hi hw =>
    rw [AtPc, hm] at hpc
    obtain ⟨h1, h2, h3, h4, h5, h6⟩ := hpc
    cases rest with
    | nil => rw [hi] at h2; cases h2
    | cons p' rest =>
      rw [hi] at h2
      cases h2
      have e : pre ++ p :: rest = (pre ++ [p]) ++ rest := by simp
      refine ⟨(A, 10 * rest.length + 1), lt_right (by rw [h6, List.length_cons]; omega), hr, pre ++ [p], rest,
        e ▸ hpath, e ▸ hnd, e ▸ hb, ?_⟩
      rw [AtPc]
      simp only [hm]
      refine ⟨h1, path_next _ _ _ _ _ hpath, e ▸ h3, ?_, by rw [h5, e]; rfl, trivial⟩
      intro hf n hn
      simp only [nodes, List.map_append, List.map_cons, List.map_nil, List.mem_append, List.mem_singleton] at hn
      rcases hn with hn | rfl
      · exact h4 hf n hn
      · exact hw
  | innerCall p _ hm hi hw =>
    rw [AtPc, hm] at hpc
    obtain ⟨h1, h2, h3, h4, h5, h6⟩ := hpc
    cases rest with
    | nil => rw [hi] at h2; cases h2
    | cons p' rest =>
      rw [hi] at h2
      cases h2
      have e : nodes s.heap (pre ++ p :: rest) =
          nodes s.heap pre ++ ⟨(s.heap p).left, (s.heap p).right, (s.heap p).proof⟩ :: nodes s.heap rest := by
        simp [nodes, nd]
      exact ⟨(A, 10 * rest.length + 10), lt_right (by rw [h6, List.length_cons]; omega), hr, pre, p :: rest, hpath, hnd, hb,
        rest, ⟨hi, rfl, e ▸ h3, by omega, by rw [h5, e]; rfl⟩, h1, rfl⟩
  | innerEnd _ hm hi =>
    rw [AtPc, hm] at hpc
    obtain ⟨h1, h2, h3, h4, h5, h6⟩ := hpc
    have : rest = [] := by
      rw [hi] at h2
      exact (List.head?_eq_none_iff).1 h2.symm
    subst this
    refine ⟨(A, 0), lt_right (by omega), hr, pre, [], hpath, hnd, hb, h1, h3, ?_, h5, rfl⟩
    intro hf
    simpa using h4 hf
  | sendRange p l r _ hm hh =>
    rw [AtPc, hm] at hpc
    obtain ⟨rest', ⟨k1, k2, k3, k4, k5⟩, h2, h3⟩ := hpc
    exact ⟨(A, 10 * rest'.length + 5 + 2), lt_right (by omega), hr, pre, rest, hpath, hnd, hb, rest', 2,
      ⟨k1, k2, k3, k4, k5⟩, .inl ⟨rfl, rfl⟩, rfl⟩
  | newNode p l r _ hm hir =>
    rw [AtPc, hm] at hpc
    obtain ⟨rest', w, ⟨k1, k2, k3, k4, k5⟩, h2, h3⟩ := hpc
    subst k2
    have hfresh : ∀ x ∈ pre ++ p :: rest', x ≠ s.free := fun x hx => Nat.ne_of_lt (hb x hx)
    have hp : p ≠ s.free := hfresh p (by simp)
    have u : ∀ (n : Node), ∀ x ∈ pre ++ p :: rest', Function.update s.heap s.free n x = s.heap x :=
      fun n x hx => Function.update_of_ne (hfresh x hx) _ _
    refine ⟨(A, 10 * rest'.length + 4 + w), lt_right (by omega), hr, pre, p :: rest',
      path_congr _ _ _ _ (fun x hx => by simp only [u _ x hx]) hpath, hnd, fun x hx => Nat.lt_succ_of_lt (hb x hx), rest', w,
      ⟨k1, rfl, ?_, k4, ?_⟩, ?_, ⟨fun hx => hfresh _ hx rfl, Nat.lt_succ_self _, ?_⟩, rfl⟩
    · simp only [u _ p (by simp)]
      rw [nodes_congr _ _ pre (fun x hx => u _ x (by simp [hx])), nodes_congr _ _ rest' (fun x hx => u _ x (by simp [hx]))]
      exact k3
    · simp only [u _ p (by simp)]
      rw [nodes_congr _ _ pre (fun x hx => u _ x (by simp [hx])), nodes_congr _ _ rest' (fun x hx => u _ x (by simp [hx]))]
      exact k5
    · simp only [Helping, u _ p (by simp)]
      exact h2
    · simp only [u _ p (by simp), Function.update_self]
  | newNodePanic p l r _ hm hir =>
    rw [AtPc, hm] at hpc
    obtain ⟨rest', w, ⟨k1, k2, k3, k4, k5⟩, h2, h3⟩ := hpc
    exact absurd (cut_good c _ _ l r _ k4 k3).2.2.1 hir
  | shrink p l r q _ hm =>
    rw [AtPc, hm] at hpc
    obtain ⟨rest', w, ⟨k1, k2, k3, k4, k5⟩, h2, ⟨n1, n2, n3⟩, h3⟩ := hpc
    subst k2
    have hqp : q ≠ p := fun e => n1 (by simp [e])
    have hpre : ∀ x ∈ pre, x ≠ p := by
      rintro x hx rfl
      exact (List.nodup_append.1 hnd).2.2 x hx x (by simp) rfl
    have hrest : ∀ x ∈ rest', x ≠ p := by
      rintro x hx rfl
      exact (List.nodup_cons.1 (List.nodup_append.1 hnd).2.1).1 hx
    have u : ∀ (n : Node), ∀ x, x ≠ p → Function.update s.heap p n x = s.heap x :=
      fun n x hx => Function.update_of_ne hx _ _
    refine ⟨(A, 10 * rest'.length + 3 + w), lt_right (by omega), hr, pre, p :: rest',
      path_congr _ _ _ _ (fun x hx => ?_) hpath, hnd, hb, rest', w,
      ⟨k1, rfl, ?_, k4, ?_⟩, ?_, ⟨n1, n2, ?_⟩, ?_, ?_, rfl⟩
    · by_cases e : x = p
      · subst e; simp only [Function.update_self]
      · simp only [u _ x e]
    · simp only [Function.update_self]
      rw [nodes_congr _ _ pre (fun x hx => u _ x (hpre x hx)), nodes_congr _ _ rest' (fun x hx => u _ x (hrest x hx))]
      exact k3
    · simp only [Function.update_self]
      rw [nodes_congr _ _ pre (fun x hx => u _ x (hpre x hx)), nodes_congr _ _ rest' (fun x hx => u _ x (hrest x hx))]
      exact k5
    · simp only [Helping, Function.update_self]
      exact h2
    · simp only [Function.update_self, u _ q hqp]
      exact n3
    · simp only [Function.update_self]
    · simp only [Function.update_self]
  | sendProof p l r q v _ hm hh =>
    rw [AtPc, hm] at hpc
    obtain ⟨rest', w, ⟨k1, k2, k3, k4, k5⟩, h2, ⟨n1, n2, n3⟩, h3, h4, h5⟩ := hpc
    rcases h2 with ⟨h2, rfl⟩ | ⟨h2, rfl⟩
    · rw [hh] at h2; cases h2
    · rw [hh] at h2
      injection h2 with h2
      exact ⟨(A, 10 * rest'.length + 2), lt_right (by omega), hr, pre, rest, hpath, hnd, hb, rest',
        ⟨k1, k2, k3, k4, k5⟩, rfl, h2, ⟨n1, n2, n3⟩, h3, h4, rfl⟩
  | finish p l r q v _ hm =>
    rw [AtPc, hm] at hpc
    obtain ⟨rest', ⟨k1, k2, k3, k4, k5⟩, h2, hv, ⟨n1, n2, n3⟩, h3, h4, h5⟩ := hpc
    subst k2
    have hqp : q ≠ p := fun e => n1 (by simp [e])
    have hpre : ∀ x ∈ pre, x ≠ p := by
      rintro x hx rfl
      exact (List.nodup_append.1 hnd).2.2 x hx x (by simp) rfl
    have hrest : ∀ x ∈ rest', x ≠ p := by
      rintro x hx rfl
      exact (List.nodup_cons.1 (List.nodup_append.1 hnd).2.1).1 hx
    have u : ∀ (n : Node), ∀ x, x ≠ p → Function.update s.heap p n x = s.heap x :=
      fun n x hx => Function.update_of_ne hx _ _
    obtain ⟨g1, g2, -, -⟩ := cut_good c _ _ l r _ k4 k3
    have en : nodes (Function.update s.heap p { s.heap p with proof := v, next := some q }) ((pre ++ [p, q]) ++ rest') =
        nodes s.heap pre ++ ⟨l, mid l r, accumulateNew (s.heap p).proof c.N (slice c.set (mid l r) r)⟩ ::
          ⟨mid l r, r, accumulateNew (s.heap p).proof c.N (slice c.set l (mid l r))⟩ :: nodes s.heap rest' := by
      have e1 := nodes_congr _ _ pre
        (fun x hx => u { s.heap p with proof := v, next := some q } x (hpre x hx))
      have e2 := nodes_congr _ _ rest'
        (fun x hx => u { s.heap p with proof := v, next := some q } x (hrest x hx))
      simp only [nodes, List.map_append, List.map_cons, List.map_nil] at e1 e2 ⊢
      rw [e1, e2, u _ q hqp, Function.update_self, n3, ← hv]
      simp [nd, h3, h4]
    have hcount : cutsLeft (nodes (Function.update s.heap p { s.heap p with proof := v, next := some q })
        ((pre ++ [p, q]) ++ rest')) + 1 + 1 ≤ A := by rw [en, k5]; omega
    have eapp : pre ++ p :: q :: rest' = (pre ++ [p, q]) ++ rest' := by simp
    have hnd' : (pre ++ p :: q :: rest').Nodup := by
      rw [show pre ++ p :: q :: rest' = (pre ++ [p]) ++ q :: rest' by simp]
      rw [List.nodup_middle, List.nodup_cons]
      rw [show pre ++ [p] ++ rest' = pre ++ p :: rest' by simp]
      exact ⟨n1, hnd⟩
    refine ⟨(_, 10 * rest'.length + 1), lt_le hcount (by omega), hr, pre ++ [p, q], rest', ?_, eapp ▸ hnd', ?_,
      h2, ?_, ?_, ?_, rfl, rfl⟩
    · rw [← eapp]
      refine path_insert _ _ _ pre rest' p q (fun x hx => ?_) (fun x hx => ?_) ?_ ?_ hpath
      · simp only [u _ x (hpre x hx)]
      · simp only [u _ x (hrest x hx)]
      · simp only [Function.update_self]
      · simp only [u _ q hqp, n3]
    · intro x hx
      rw [← eapp] at hx
      simp only [List.mem_append, List.mem_cons] at hx
      rcases hx with hx | rfl | rfl | hx
      · exact hb x (by simp [hx])
      · exact hb x (by simp)
      · exact n2
      · exact hb x (by simp [hx])
    · simp only [n3]
      exact path_next _ _ _ _ _ hpath
    · simp only [en]
      exact g1
    · intro hf; cases hf
  | help l r p _ hh hi hir =>
    cases hm : s.main with
    | compute p' l' r' =>
      rw [AtPc, hm] at hpc
      obtain ⟨rest', w, ⟨k1, k2, k3, k4, k5⟩, h2, h3⟩ := hpc
      rcases h2 with ⟨h2, rfl⟩ | ⟨h2, rfl⟩
      · rw [hh] at h2
        cases h2
        rw [hi] at k1
        cases k1
        refine ⟨(A, 10 * rest'.length + 5 + 1), lt_right (by omega), hr, pre, rest, hpath, hnd, hb, ?_⟩
        rw [AtPc]
        simp only
        exact ⟨rest', 1, ⟨hi, k2, k3, k4, k5⟩, .inr ⟨rfl, rfl⟩, rfl⟩
      · rw [hh] at h2; cases h2
    | shrink p' l' r' q =>
      rw [AtPc, hm] at hpc
      obtain ⟨rest', w, ⟨k1, k2, k3, k4, k5⟩, h2, ⟨n1, n2, n3⟩, h3⟩ := hpc
      rcases h2 with ⟨h2, rfl⟩ | ⟨h2, rfl⟩
      · rw [hh] at h2
        cases h2
        rw [hi] at k1
        cases k1
        refine ⟨(A, 10 * rest'.length + 4 + 1), lt_right (by omega), hr, pre, rest, hpath, hnd, hb, ?_⟩
        rw [AtPc]
        simp only
        exact ⟨rest', 1, ⟨hi, k2, k3, k4, k5⟩, .inr ⟨rfl, rfl⟩, ⟨n1, n2, n3⟩, rfl⟩
      · rw [hh] at h2; cases h2
    | receive p' l' r' q =>
      rw [AtPc, hm] at hpc
      obtain ⟨rest', w, ⟨k1, k2, k3, k4, k5⟩, h2, ⟨n1, n2, n3⟩, h3, h4, h5⟩ := hpc
      rcases h2 with ⟨h2, rfl⟩ | ⟨h2, rfl⟩
      · rw [hh] at h2
        cases h2
        rw [hi] at k1
        cases k1
        refine ⟨(A, 10 * rest'.length + 3 + 1), lt_right (by omega), hr, pre, rest, hpath, hnd, hb, ?_⟩
        rw [AtPc]
        simp only
        exact ⟨rest', 1, ⟨hi, k2, k3, k4, k5⟩, .inr ⟨rfl, rfl⟩, ⟨n1, n2, n3⟩, h3, h4, rfl⟩
      · rw [hh] at h2; cases h2
    | outer => rw [AtPc, hm] at hpc; have := hpc.1; rw [hh] at this; cases this
    | inner => rw [AtPc, hm] at hpc; have := hpc.1; rw [hh] at this; cases this
    | collect => rw [AtPc, hm] at hpc; have := hpc.1; rw [hh] at this; cases this
    | send p l r => rw [AtPc, hm] at hpc; obtain ⟨_, _, h1, _⟩ := hpc; rw [hh] at h1; cases h1
    | received p l r q v => rw [AtPc, hm] at hpc; obtain ⟨_, _, h1, _⟩ := hpc; rw [hh] at h1; cases h1
    | returned ps =>
      rw [AtPc, hm] at hpc
      rcases hpc.2.2 with ⟨h1, -⟩ | ⟨h1, -⟩ <;> rw [hh] at h1 <;> cases h1
  | helpPanic l r _ hh hir =>
    exfalso
    cases hm : s.main with
    | compute p' l' r' =>
      rw [AtPc, hm] at hpc
      obtain ⟨rest', w, ⟨k1, k2, k3, k4, k5⟩, h2, h3⟩ := hpc
      rcases h2 with ⟨h2, rfl⟩ | ⟨h2, rfl⟩ <;> rw [hh] at h2 <;> cases h2
      exact hir (cut_good c _ _ _ _ _ k4 k3).2.2.2
    | shrink p' l' r' q =>
      rw [AtPc, hm] at hpc
      obtain ⟨rest', w, ⟨k1, k2, k3, k4, k5⟩, h2, -⟩ := hpc
      rcases h2 with ⟨h2, rfl⟩ | ⟨h2, rfl⟩ <;> rw [hh] at h2 <;> cases h2
      exact hir (cut_good c _ _ _ _ _ k4 k3).2.2.2
    | receive p' l' r' q =>
      rw [AtPc, hm] at hpc
      obtain ⟨rest', w, ⟨k1, k2, k3, k4, k5⟩, h2, -⟩ := hpc
      rcases h2 with ⟨h2, rfl⟩ | ⟨h2, rfl⟩ <;> rw [hh] at h2 <;> cases h2
      exact hir (cut_good c _ _ _ _ _ k4 k3).2.2.2
    | outer => rw [AtPc, hm] at hpc; have := hpc.1; rw [hh] at this; cases this
    | inner => rw [AtPc, hm] at hpc; have := hpc.1; rw [hh] at this; cases this
    | collect => rw [AtPc, hm] at hpc; have := hpc.1; rw [hh] at this; cases this
    | send p l r => rw [AtPc, hm] at hpc; obtain ⟨_, _, h1, _⟩ := hpc; rw [hh] at h1; cases h1
    | received p l r q v => rw [AtPc, hm] at hpc; obtain ⟨_, _, h1, _⟩ := hpc; rw [hh] at h1; cases h1
    | returned ps =>
      rw [AtPc, hm] at hpc
      rcases hpc.2.2 with ⟨h1, -⟩ | ⟨h1, -⟩ <;> rw [hh] at h1 <;> cases h1
  | helpNil l r _ hh hi =>
    exfalso
    cases hm : s.main with
    | compute p' l' r' =>
      rw [AtPc, hm] at hpc
      obtain ⟨rest', w, k, -⟩ := hpc
      have := k.iter; rw [hi] at this; cases this
    | shrink p' l' r' q =>
      rw [AtPc, hm] at hpc
      obtain ⟨rest', w, k, -⟩ := hpc
      have := k.iter; rw [hi] at this; cases this
    | receive p' l' r' q =>
      rw [AtPc, hm] at hpc
      obtain ⟨rest', w, k, -⟩ := hpc
      have := k.iter; rw [hi] at this; cases this
    | outer => rw [AtPc, hm] at hpc; have := hpc.1; rw [hh] at this; cases this
    | inner => rw [AtPc, hm] at hpc; have := hpc.1; rw [hh] at this; cases this
    | collect => rw [AtPc, hm] at hpc; have := hpc.1; rw [hh] at this; cases this
    | send p l r => rw [AtPc, hm] at hpc; obtain ⟨_, _, h1, _⟩ := hpc; rw [hh] at h1; cases h1
    | received p l r q v => rw [AtPc, hm] at hpc; obtain ⟨_, _, h1, _⟩ := hpc; rw [hh] at h1; cases h1
    | returned ps =>
      rw [AtPc, hm] at hpc
      rcases hpc.2.2 with ⟨h1, -⟩ | ⟨h1, -⟩ <;> rw [hh] at h1 <;> cases h1
  | collect proofs p _ hm hi =>
    rw [AtPc, hm] at hpc
    obtain ⟨h1, h2, h3, h4, h5, h6, h7⟩ := hpc
    cases rest with
    | nil => rw [hi] at h2; cases h2
    | cons p' rest =>
      rw [hi] at h2
      cases h2
      have e : pre ++ p :: rest = (pre ++ [p]) ++ rest := by simp
      exact ⟨(A, rest.length + 2), lt_right (by rw [h7, List.length_cons]; omega), hr, pre ++ [p], rest,
        e ▸ hpath, e ▸ hnd, e ▸ hb, h1, path_next _ _ _ _ _ hpath, e ▸ h3, e ▸ h4,
        by rw [h5]; simp [nodes, nd], h6, rfl⟩
  | collectEnd proofs _ hm hi =>
    rw [AtPc, hm] at hpc
    obtain ⟨h1, h2, h3, h4, h5, h6, h7⟩ := hpc
    have : rest = [] := by
      rw [hi] at h2
      exact (List.head?_eq_none_iff).1 h2.symm
    subst this
    rw [List.append_nil] at h3 h4
    refine ⟨(A, 1), lt_right (by omega), hr, pre, [], hpath, hnd, hb, ?_, h6, .inl ⟨h1, rfl⟩⟩
    rw [h5, ← nodeWitnesses_done c.N c.set _ h3.1 h4, h3.2]
  | stop proofs _ hm hh =>
    rw [AtPc, hm] at hpc
    obtain ⟨h1, h2, h3⟩ := hpc
    rcases h3 with ⟨-, h3⟩ | ⟨h3, -⟩
    · refine ⟨(A, 0), lt_right (by omega), hr, pre, rest, hpath, hnd, hb, ?_⟩
      rw [AtPc]
      simp only [hm]
      exact ⟨h1, h2, .inr ⟨trivial, trivial⟩⟩
    · rw [hh] at h3; cases h3

theorem inv_reach (c : Call) (h : NodeOk c.N c.set ⟨c.left, c.right, c.base⟩) (s : State) (hs : Reach c s) :
    ∃ b, Inv c s b := by
  induction hs with
  | refl => exact ⟨_, inv_init c h⟩
  | tail _ hstep ih =>
    obtain ⟨b, hb⟩ := ih
    obtain ⟨b', -, hb'⟩ := inv_step c _ _ b hb hstep
    exact ⟨b', hb'⟩

theorem progress (c : Call) (s : State) (b : Nat × Nat) (h : Inv c s b) :
    ((∃ ps, s.main = .returned ps) ∧ s.helper = .stopped) ∨ ∃ s', Step c s s' := by
  obtain ⟨hr, pre, rest, hpath, hnd, hb, hpc⟩ := h
  cases hm : s.main with
  | outer =>
    right
    cases hf : s.finishFlag with
    | true => exact ⟨_, .outerGo s hr hm hf⟩
    | false => exact ⟨_, .outerExit s hr hm hf⟩
  | inner =>
    right
    cases hi : s.iter with
    | none => exact ⟨_, .innerEnd s hr hm hi⟩
    | some p =>
      by_cases hw : (s.heap p).right - (s.heap p).left ≤ 1
      · exact ⟨_, .innerSkip s p hr hm hi hw⟩
      · exact ⟨_, .innerCall s p hr hm hi hw⟩
  | send p l r =>
    rw [AtPc, hm] at hpc
    obtain ⟨rest', -, h2, -⟩ := hpc
    exact .inr ⟨_, .sendRange s p l r hr hm h2⟩
  | compute p l r =>
    right
    by_cases hir : InRange c l (mid l r)
    · exact ⟨_, .newNode s p l r hr hm hir⟩
    · exact ⟨_, .newNodePanic s p l r hr hm hir⟩
  | shrink p l r q => exact .inr ⟨_, .shrink s p l r q hr hm⟩
  | receive p l r q =>
    rw [AtPc, hm] at hpc
    obtain ⟨rest', w, k, h2, -⟩ := hpc
    right
    rcases h2 with ⟨h2, -⟩ | ⟨h2, -⟩
    · exact ⟨_, .help s _ _ p hr h2 k.iter (cut_good c _ _ _ _ _ k.wide k.good).2.2.2⟩
    · exact ⟨_, .sendProof s p l r q _ hr hm h2⟩
  | received p l r q v => exact .inr ⟨_, .finish s p l r q v hr hm⟩
  | collect proofs =>
    right
    cases hi : s.iter with
    | none => exact ⟨_, .collectEnd s proofs hr hm hi⟩
    | some p => exact ⟨_, .collect s proofs p hr hm hi⟩
  | returned ps =>
    rw [AtPc, hm] at hpc
    rcases hpc.2.2 with ⟨h1, -⟩ | ⟨h1, -⟩
    · exact .inr ⟨_, .stop s ps hr hm h1⟩
    · exact .inl ⟨⟨ps, rfl⟩, h1⟩

theorem stops (c : Call) (h : NodeOk c.N c.set ⟨c.left, c.right, c.base⟩) : AlwaysStops (Step c) (init c) :=
  alwaysStops_of_rank (Step c) Lt lt_wf (Inv c) _ _ (inv_init c h) (fun a b a' hi hs => inv_step c a a' b hi hs)

theorem returned_eq (c : Call) (s : State) (b : Nat × Nat) (h : Inv c s b) (ps : List Nat) (hm : s.main = .returned ps) :
    ps = witnesses c.base c.N (slice c.set c.left c.right) := by
  obtain ⟨hr, pre, rest, hpath, hnd, hb, hpc⟩ := h
  rw [AtPc, hm] at hpc
  exact hpc.1

theorem returns_iff (c : Call) (h : NodeOk c.N c.set ⟨c.left, c.right, c.base⟩) (ps : List Nat) :
    Returns c ps ↔ ps = witnesses c.base c.N (slice c.set c.left c.right) := by
  constructor
  · rintro ⟨s, hs, hm⟩
    obtain ⟨b, hb⟩ := inv_reach c h s hs
    exact returned_eq c s b hb ps hm
  · rintro rfl
    obtain ⟨s, hs, ⟨ps, hps⟩, -⟩ := exists_done (Step c) (Reach c)
      (fun s => (∃ ps, s.main = .returned ps) ∧ s.helper = .stopped) (init c) (.refl _) (fun _ _ h hs => .tail h hs)
      (fun s hs => by obtain ⟨b, hb⟩ := inv_reach c h s hs; exact progress c s b hb) (stops c h)
    obtain ⟨b, hb⟩ := inv_reach c h s hs
    exact ⟨s, hs, by rw [hps, returned_eq c s b hb ps hps]⟩

/-- While the helper is about to read `iter` and the proof behind it, nobody changes them. -/
theorem no_race (c : Call) (s s' : State) (b : Nat × Nat) (h : Inv c s b) (l r : Nat) (hh : s.helper = .got l r)
    (hs : Step c s s') : s'.iter = s.iter ∧ ∃ p, s.iter = some p ∧ (s'.heap p).proof = (s.heap p).proof := by
  obtain ⟨hr, pre, rest, hpath, hnd, hb, hpc⟩ := h
  cases hs with
  | newNode p l r _ hm hir =>
    rw [AtPc, hm] at hpc
    obtain ⟨rest', w, k, -⟩ := hpc
    refine ⟨rfl, p, k.iter, ?_⟩
    have : p < s.free := hb p (by rw [k.rest]; simp)
    simp only [Function.update_of_ne (Nat.ne_of_lt this)]
  | shrink p l r q _ hm =>
    rw [AtPc, hm] at hpc
    obtain ⟨rest', w, k, -⟩ := hpc
    exact ⟨rfl, p, k.iter, by simp only [Function.update_self]⟩
  | help _ _ p _ _ hi _ => exact ⟨rfl, p, hi, rfl⟩
  | newNodePanic p l r _ hm hir =>
    rw [AtPc, hm] at hpc
    obtain ⟨rest', w, k, -⟩ := hpc
    exact absurd (cut_good c _ _ l r _ k.wide k.good).2.2.1 hir
  | helpPanic _ _ _ _ hir =>
    obtain ⟨_, _, hi⟩ := inv_step c s _ b ⟨hr, pre, rest, hpath, hnd, hb, hpc⟩ (.helpPanic s _ _ hr ‹_› hir)
    cases hi.running
  | helpNil _ _ _ _ hi0 =>
    obtain ⟨_, _, hi⟩ := inv_step c s _ b ⟨hr, pre, rest, hpath, hnd, hb, hpc⟩ (.helpNil s _ _ hr ‹_› hi0)
    cases hi.running
  | outerGo _ hm _ => rw [AtPc, hm] at hpc; have := hpc.1; rw [hh] at this; cases this
  | outerExit _ hm _ => rw [AtPc, hm] at hpc; have := hpc.1; rw [hh] at this; cases this
  | innerSkip p _ hm _ _ => rw [AtPc, hm] at hpc; have := hpc.1; rw [hh] at this; cases this
  | innerCall p _ hm _ _ => rw [AtPc, hm] at hpc; have := hpc.1; rw [hh] at this; cases this
  | innerEnd _ hm _ => rw [AtPc, hm] at hpc; have := hpc.1; rw [hh] at this; cases this
  | collect proofs p _ hm _ => rw [AtPc, hm] at hpc; have := hpc.1; rw [hh] at this; cases this
  | collectEnd proofs _ hm _ => rw [AtPc, hm] at hpc; have := hpc.1; rw [hh] at this; cases this
  | sendRange p l r _ _ hh' => rw [hh] at hh'; cases hh'
  | sendProof p l r q v _ _ hh' => rw [hh] at hh'; cases hh'
  | finish p l r q v _ hm => rw [AtPc, hm] at hpc; obtain ⟨_, _, h1, _⟩ := hpc; rw [hh] at h1; cases h1
  | stop proofs _ _ hh' => rw [hh] at hh'; cases hh'

end Verif.Lemmas.IterWorker
