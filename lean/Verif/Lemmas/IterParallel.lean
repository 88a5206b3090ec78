import Verif.Model.IterParallel
import Verif.Lemmas.Iter
import Verif.Lemmas.IterWorker
import Mathlib.Data.List.Count

/-! # Invariant of the parallel iterative prover -/

namespace Verif.Lemmas.IterParallel
open Verif.Go Verif.Model Verif.Model.IterParallel Verif.Spec Verif.Lemmas

/-- Start nodes produced below a call with `d` levels to go. -/
def leaves (N : Nat) (set : List Nat) : Nat → ProofNode → List ProofNode
  | 0, n => [n]
  | d + 1, n => leaves N set d (rightNode N set n) ++ leaves N set d (leftNode N set n)

theorem leaves_length (N : Nat) (set : List Nat) (d : Nat) (n : ProofNode) : (leaves N set d n).length = 2 ^ d := by
  induction d generalizing n with
  | zero => simp [leaves]
  | succ d ih => simp [leaves, ih, pow_succ]; omega

/-- A segment node carrying the right partial accumulator for the overall witnesses `W`. -/
def SegOk (N : Nat) (set W : List Nat) (n : ProofNode) : Prop :=
  n.right ≤ set.length ∧ witnesses n.proof N (slice set n.left n.right) = slice W n.left n.right

theorem seg_split (N : Nat) (set W : List Nat) (hW : W.length = set.length) (n : ProofNode) (h : SegOk N set W n)
    (hw : 2 ≤ n.right - n.left) : SegOk N set W (rightNode N set n) ∧ SegOk N set W (leftNode N set n) := by
  obtain ⟨h1, h2⟩ := h
  have hm1 : n.left ≤ mid n := by unfold mid; omega
  have hm2 : mid n ≤ n.right := by unfold mid; omega
  have hm3 : n.left < mid n := by unfold mid; omega
  have hm4 : mid n < n.right := by unfold mid; omega
  rw [← slice_append_mid set _ _ _ hm1 hm2, ← slice_append_mid W _ _ _ hm1 hm2, witnesses_append] at h2
  have hl : (witnesses (n.proof ^ (slice set (mid n) n.right).prod % N) N (slice set n.left (mid n))).length
      = (slice W n.left (mid n)).length := by
    rw [witnesses_length, slice_length _ _ _ (by omega), slice_length _ _ _ (by omega)]
  obtain ⟨e1, e2⟩ := List.append_inj h2 hl
  refine ⟨⟨h1, ?_⟩, ⟨by simp only [leftNode]; omega, ?_⟩⟩
  · simp only [rightNode, accumulateNew]
    rw [accumulate_eq _ _ _ (by rw [slice_length _ _ _ (by omega)]; omega)]
    exact e2
  · simp only [leftNode, accumulateNew]
    rw [accumulate_eq _ _ _ (by rw [slice_length _ _ _ (by omega)]; omega)]
    exact e1

theorem leaves_ok (N : Nat) (set W : List Nat) (hW : W.length = set.length) (d : Nat) (n : ProofNode)
    (h : SegOk N set W n) (hw : 2 ^ d * 2 ≤ n.right - n.left) :
    ∀ m ∈ leaves N set d n, SegOk N set W m ∧ 2 ≤ m.right - m.left := by
  induction d generalizing n with
  | zero => intro m hm; simp only [leaves, List.mem_singleton] at hm; subst hm; exact ⟨h, by simpa using hw⟩
  | succ d ih =>
    have hp : 1 ≤ 2 ^ d := Nat.one_le_two_pow
    rw [pow_succ] at hw
    obtain ⟨hr, hl⟩ := seg_split N set W hW n h (by omega)
    intro m hm
    simp only [leaves, List.mem_append] at hm
    rcases hm with hm | hm
    · exact ih _ hr (by simp only [rightNode, mid]; omega) m hm
    · exact ih _ hl (by simp only [leftNode, mid]; omega) m hm

/-- Does the segment contain position `i`? -/
def covers (i : Nat) (n : ProofNode) : Bool := decide (n.left ≤ i) && decide (i < n.right)

/-- Every position belongs to exactly one start node. -/
theorem leaves_cover (N : Nat) (set : List Nat) (d : Nat) (n : ProofNode) (i : Nat) (hn : n.left ≤ n.right) :
    (leaves N set d n).countP (covers i) = if n.left ≤ i ∧ i < n.right then 1 else 0 := by
  induction d generalizing n with
  | zero => simp [leaves, covers]
  | succ d ih =>
    have hm1 : n.left ≤ mid n := by unfold mid; omega
    have hm2 : mid n ≤ n.right := by unfold mid; omega
    rw [leaves, List.countP_append, ih _ (by simpa [rightNode] using hm2), ih _ (by simpa [leftNode] using hm1)]
    show (if mid n ≤ i ∧ i < n.right then 1 else 0) + (if n.left ≤ i ∧ i < mid n then 1 else 0)
      = if n.left ≤ i ∧ i < n.right then 1 else 0
    by_cases h1 : mid n ≤ i ∧ i < n.right
    · rw [if_pos h1, if_neg (by omega), if_pos (by omega)]
    · by_cases h2 : n.left ≤ i ∧ i < mid n
      · rw [if_neg h1, if_pos h2, if_pos (by omega)]
      · rw [if_neg h1, if_neg h2, if_neg (by omega)]

theorem iterLoop_mono (N : Nat) (set : List Nat) (f : Nat) (nodes out : List ProofNode)
    (h : iterLoop N set f nodes = some out) (k : Nat) : iterLoop N set (f + k) nodes = some out := by
  induction f generalizing nodes with
  | zero => simp [iterLoop] at h
  | succ f ih =>
    rw [Nat.succ_add_eq_add_succ, Nat.add_succ, iterLoop]
    rw [iterLoop] at h
    revert h
    split <;> intro h
    · exact ih _ h
    · exact h

theorem workerResult_iff (c : Call) (n : ProofNode) (hn : NodeOk c.N c.set n) (ps : List Nat) :
    WorkerResult c n ps ↔ ps = witnesses n.proof c.N (slice c.set n.left n.right) :=
  IterWorker.returns_iff ⟨c.N, c.set, n.proof, n.left, n.right⟩ hn ps

/-! ## The invariant -/

def rootNode (c : Call) : ProofNode := { left := 0, right := c.set.length, proof := c.base }

/-- All start nodes of the call. -/
def allLeaves (c : Call) : List ProofNode := leaves c.N c.set c.powerOfTwo (rootNode c)

def W (c : Call) : List Nat := witnesses c.base c.N c.set

def taskLeaves (c : Call) : Task → List ProofNode
  | .init n d => leaves c.N c.set (c.powerOfTwo - d) n
  | .rightHalf n d => leaves c.N c.set (c.powerOfTwo - d - 1) (rightNode c.N c.set n)
  | .leftHalf n d => leaves c.N c.set (c.powerOfTwo - d - 1) (leftNode c.N c.set n)

def TaskOk (c : Call) : Task → Prop
  | .init _ d => d ≤ c.powerOfTwo
  | .rightHalf _ d => d < c.powerOfTwo
  | .leftHalf _ d => d < c.powerOfTwo

/-- Result message of a start node. -/
def resOf (c : Call) (n : ProofNode) : Receiver :=
  ⟨n.left, n.right, witnesses n.proof c.N (slice c.set n.left n.right)⟩

/-- The collector's array: right length, and right at every position of a collected segment. -/
def ArrOk (c : Call) (collected : List ProofNode) (P : List (Option Nat)) : Prop :=
  P.length = c.set.length ∧
  (∀ i, i < c.set.length → ∀ m ∈ collected, covers i m = true → P[i]? = ((W c)[i]?).map some) ∧
  ∀ i, i < c.set.length → (∀ m ∈ collected, covers i m = false) → P[i]? = some none

/-- Phase dependent part. -/
def Phase (c : Call) (collected : List ProofNode) (s : State) : Prop :=
  match s.main, s.col with
  | .loop cnt, .notStarted => cnt = s.workers.length + s.recvQ.length ∧ collected = [] ∧ s.recvClosed = false ∧
      (s.nodeClosed = true ↔ cnt = c.numWorkers)
  | .wait, .running cnt P => cnt = collected.length ∧ cnt < c.numWorkers ∧ s.recvClosed = false ∧
      s.nodeClosed = true ∧ s.tasks = [] ∧ s.nodeQ = [] ∧ ArrOk c collected P
  | .wait, .sending P => s.tasks = [] ∧ s.nodeQ = [] ∧ s.workers = [] ∧ s.recvQ = [] ∧ ArrOk c collected P
  | .returned P, .finished => s.tasks = [] ∧ s.nodeQ = [] ∧ s.workers = [] ∧ s.recvQ = [] ∧ ArrOk c collected P
  | _, _ => False

structure Inv (c : Call) (s : State) (recvNodes collected : List ProofNode) : Prop where
  notCrashed : s.crashed = false
  tasksOk : ∀ t ∈ s.tasks, TaskOk c t
  recv : s.recvQ = recvNodes.map (resOf c)
  perm : ∀ a, (s.tasks.flatMap (taskLeaves c)).count a + s.nodeQ.count a + s.workers.count a + recvNodes.count a
    + collected.count a = (allLeaves c).count a
  total : (s.tasks.flatMap (taskLeaves c)).length + s.nodeQ.length + s.workers.length + recvNodes.length
    + collected.length = c.numWorkers
  phase : Phase c collected s

/-- Conditions under which the code takes the parallel branch, and the meaning of `powerOfTwo`. -/
structure CallOk (c : Call) : Prop where
  pow : c.numWorkers = 2 ^ c.powerOfTwo
  large : c.numWorkers * 2 < c.set.length

theorem W_length (c : Call) : (W c).length = c.set.length := witnesses_length _ _ _

theorem allLeaves_ok (c : Call) (hc : CallOk c) :
    ∀ m ∈ allLeaves c, SegOk c.N c.set (W c) m ∧ 2 ≤ m.right - m.left := by
  apply leaves_ok _ _ _ (W_length c)
  · refine ⟨Nat.le_refl _, ?_⟩
    show witnesses c.base c.N (slice c.set 0 c.set.length) = slice (W c) 0 c.set.length
    rw [slice_full, ← W_length c, slice_full]; rfl
  · have := hc.large; have := hc.pow; simp only [rootNode]; omega

theorem nodeOk_of_seg (c : Call) (m : ProofNode) (h : SegOk c.N c.set (W c) m ∧ 2 ≤ m.right - m.left) :
    NodeOk c.N c.set m := ⟨by omega, h.1.1, .inr h.2⟩

theorem taskLeaves_pos (c : Call) (t : Task) : 0 < (taskLeaves c t).length := by
  cases t <;> simp [taskLeaves, leaves_length]

theorem copyInto_length {α : Type} (dst : List (Option α)) (l r : Nat) (src : List α) (h : r ≤ dst.length)
    (hl : l ≤ r) : (copyInto dst l r src).length = dst.length := by
  simp [copyInto]; omega

theorem copyInto_get {α : Type} (dst : List (Option α)) (l r : Nat) (src : List α) (hr : r ≤ dst.length)
    (hl : l ≤ r) (hs : src.length = r - l) (i : Nat) :
    (copyInto dst l r src)[i]? = if l ≤ i ∧ i < r then (src[i - l]?).map some else dst[i]? := by
  simp only [copyInto, hs, Nat.min_self]
  rw [List.append_assoc]
  by_cases h1 : i < l
  · rw [List.getElem?_append_left (by simp; omega), if_neg (by omega), List.getElem?_take_of_lt h1]
  · rw [List.getElem?_append_right (by simp; omega)]
    have hlen : (List.take l dst).length = l := by simp; omega
    rw [hlen]
    by_cases h2 : i < r
    · rw [List.getElem?_append_left (by simp; omega), if_pos ⟨by omega, h2⟩, List.getElem?_map,
        List.getElem?_take_of_lt (by omega)]
    · rw [List.getElem?_append_right (by simp; omega), if_neg (by omega), List.getElem?_drop]
      congr 1
      simp; omega

theorem arrOk_copy (c : Call) (collected : List ProofNode) (P : List (Option Nat)) (h : ArrOk c collected P)
    (n : ProofNode) (hn : SegOk c.N c.set (W c) n) (hlr : n.left ≤ n.right) :
    ArrOk c (n :: collected) (copyInto P (resOf c n).left (resOf c n).right (resOf c n).proofs) := by
  obtain ⟨hlen, hget, hnone⟩ := h
  have hs : (resOf c n).proofs.length = (resOf c n).right - (resOf c n).left := by
    simp only [resOf, witnesses_length]; exact slice_length _ _ _ hn.1
  have hR : (resOf c n).right ≤ P.length := by rw [hlen]; exact hn.1
  have hL : (resOf c n).left ≤ (resOf c n).right := hlr
  refine ⟨by rw [copyInto_length _ _ _ _ hR hL, hlen], ?_, ?_⟩
  rotate_left
  · intro i hi hun
    rw [copyInto_get _ _ _ _ hR hL hs, if_neg, hnone i hi fun m hm => hun m (List.mem_cons_of_mem _ hm)]
    intro hin
    have := hun n List.mem_cons_self
    rw [show covers i n = true by simpa [covers, resOf] using hin] at this
    cases this
  intro i hi m hm hcov
  rw [copyInto_get _ _ _ _ hR hL hs]
  by_cases hin : (resOf c n).left ≤ i ∧ i < (resOf c n).right
  · rw [if_pos hin]
    simp only [resOf] at hin ⊢
    rw [hn.2]
    congr 1
    rw [slice, List.getElem?_take_of_lt (by omega), List.getElem?_drop]
    congr 1; omega
  · rw [if_neg hin]
    rcases List.mem_cons.1 hm with rfl | hm
    · exfalso; apply hin; simpa [covers, resOf] using hcov
    · exact hget i hi m hm hcov

theorem inv_init (c : Call) (hc : CallOk c) : Inv c (init c) [] [] where
  notCrashed := rfl
  tasksOk := by simp [init, TaskOk]
  recv := rfl
  perm := by intro a; simp [init, taskLeaves, allLeaves, rootNode]
  total := by simp [init, taskLeaves, leaves_length, hc.pow]
  phase := by
    simp only [init, Phase]
    refine ⟨rfl, trivial, trivial, ?_⟩
    constructor
    · intro h; cases h
    · intro h; have := hc.pow; have : 0 < 2 ^ c.powerOfTwo := Nat.two_pow_pos _; omega

theorem flatMap_nil_of_len (c : Call) (ts : List Task) (h : (ts.flatMap (taskLeaves c)).length = 0) : ts = [] := by
  cases ts with
  | nil => rfl
  | cons t ts =>
    have := taskLeaves_pos c t
    simp only [List.flatMap_cons, List.length_append] at h
    omega

theorem mem_allLeaves (c : Call) (s : State) (rn co : List ProofNode) (h : Inv c s rn co) (n : ProofNode)
    (hn : n ∈ s.workers ∨ n ∈ rn) : n ∈ allLeaves c := by
  have := h.perm n
  have h2 : 0 < (allLeaves c).count n := by
    rcases hn with hn | hn
    · have := List.count_pos_iff.2 hn; omega
    · have := List.count_pos_iff.2 hn; omega
  exact List.count_pos_iff.1 h2

theorem inv_step (c : Call) (hc : CallOk c) (s s' : State) (rn co : List ProofNode) (h : Inv c s rn co)
    (hs : Step c s s') : ∃ rn' co', Inv c s' rn' co' := by
  have hpos : 0 < c.numWorkers := by rw [hc.pow]; exact Nat.two_pow_pos _
  obtain ⟨hcr, htk, hrv, hperm, htot, hph⟩ := h
  have hrlen : s.recvQ.length = rn.length := by rw [hrv, List.length_map]
  cases hs with
  | initReturn l r n d _ ht hd =>
    exfalso
    have := htk (.init n d) (by rw [ht]; simp)
    simp only [TaskOk] at this; omega
  | initSend l r n d _ ht hd hcl hq =>
    subst hd
    refine ⟨rn, co, ?_⟩
    refine ⟨hcr, ?_, hrv, ?_, ?_, ?_⟩
    · intro t h'; apply htk; rw [ht]; simp only [List.mem_append, List.mem_cons] at h' ⊢; tauto
    · intro a
      have := hperm a
      rw [ht] at this
      simp only [List.flatMap_append, List.flatMap_cons, List.count_append, taskLeaves, Nat.sub_self, leaves] at this ⊢
      omega
    · rw [ht] at htot
      simp only [List.flatMap_append, List.flatMap_cons, List.length_append, taskLeaves, Nat.sub_self, leaves,
        List.length_singleton] at htot ⊢
      omega
    · revert hph
      simp only [Phase]
      split <;> simp_all
  | initSendClosed l r n d _ ht hd hcl =>
    exfalso
    subst hd
    rw [ht] at htot
    simp only [List.flatMap_append, List.flatMap_cons, List.length_append, taskLeaves, Nat.sub_self, leaves,
        List.length_singleton] at htot
    revert hph
    simp only [Phase]
    split <;> simp_all <;> intros <;> omega
  | initSplit l r n d _ ht hd =>
    refine ⟨rn, co, ?_⟩
    obtain ⟨e, he⟩ : ∃ e, c.powerOfTwo - d = e + 1 := ⟨c.powerOfTwo - d - 1, by omega⟩
    have he' : c.powerOfTwo - d - 1 = e := by omega
    refine ⟨hcr, ?_, hrv, ?_, ?_, ?_⟩
    · intro t h'
      simp only [List.mem_append, List.mem_cons] at h'
      rcases h' with h' | rfl | rfl | h'
      · apply htk; rw [ht]; simp [h']
      · exact hd
      · exact hd
      · apply htk; rw [ht]; simp [h']
    · intro a
      have := hperm a
      rw [ht] at this
      simp only [List.flatMap_append, List.flatMap_cons, List.count_append, taskLeaves, he, leaves] at this ⊢
      simp only [Nat.add_sub_cancel]
      omega
    · rw [ht] at htot
      simp only [List.flatMap_append, List.flatMap_cons, List.length_append, taskLeaves, he, leaves] at htot ⊢
      simp only [Nat.add_sub_cancel]
      omega
    · revert hph
      simp only [Phase]
      split <;> simp_all
  | rightHalf l r n d _ ht =>
    refine ⟨rn, co, ?_⟩
    have hd : d < c.powerOfTwo := htk (.rightHalf n d) (by rw [ht]; simp)
    refine ⟨hcr, ?_, hrv, ?_, ?_, ?_⟩
    · intro t h'
      simp only [List.mem_append, List.mem_cons] at h'
      rcases h' with h' | rfl | h'
      · apply htk; rw [ht]; simp [h']
      · exact hd
      · apply htk; rw [ht]; simp [h']
    · intro a
      have := hperm a
      rw [ht] at this
      simp only [List.flatMap_append, List.flatMap_cons, List.count_append, taskLeaves, ← Nat.sub_sub] at this ⊢
      omega
    · rw [ht] at htot
      simp only [List.flatMap_append, List.flatMap_cons, List.length_append, taskLeaves, ← Nat.sub_sub] at htot ⊢
      omega
    · revert hph
      simp only [Phase]
      split <;> simp_all
  | leftHalf l r n d _ ht =>
    refine ⟨rn, co, ?_⟩
    have hd : d < c.powerOfTwo := htk (.leftHalf n d) (by rw [ht]; simp)
    refine ⟨hcr, ?_, hrv, ?_, ?_, ?_⟩
    · intro t h'
      simp only [List.mem_append, List.mem_cons] at h'
      rcases h' with h' | rfl | h'
      · apply htk; rw [ht]; simp [h']
      · exact hd
      · apply htk; rw [ht]; simp [h']
    · intro a
      have := hperm a
      rw [ht] at this
      simp only [List.flatMap_append, List.flatMap_cons, List.count_append, taskLeaves, ← Nat.sub_sub] at this ⊢
      omega
    · rw [ht] at htot
      simp only [List.flatMap_append, List.flatMap_cons, List.length_append, taskLeaves, ← Nat.sub_sub] at htot ⊢
      omega
    · revert hph
      simp only [Phase]
      split <;> simp_all
  | mainRecv cnt n q _ hm hq hne =>
    refine ⟨rn, co, ?_⟩
    have hcol : s.col = .notStarted := by
      revert hph; simp only [Phase, hm]; split <;> simp_all
    simp only [Phase, hm, hcol] at hph
    obtain ⟨p1, p2, p3, p4⟩ := hph
    refine ⟨hcr, htk, hrv, ?_, ?_, ?_⟩
    · intro a; have := hperm a; rw [hq] at this
      simp only [List.count_cons, List.count_append, List.count_nil] at this ⊢; omega
    · rw [hq] at htot; simp only [List.length_cons, List.length_append, List.length_nil] at htot ⊢; omega
    · simp only [Phase, hcol]
      refine ⟨by simp; omega, p2, p3, ?_⟩
      rw [hq] at htot; simp only [List.length_cons] at htot
      constructor
      · intro h'; have := p4.1 h'; omega
      · intro h'; omega
  | mainRecvClose cnt n q _ hm hq hne hcl =>
    refine ⟨rn, co, ?_⟩
    have hcol : s.col = .notStarted := by
      revert hph; simp only [Phase, hm]; split <;> simp_all
    simp only [Phase, hm, hcol] at hph
    obtain ⟨p1, p2, p3, p4⟩ := hph
    refine ⟨hcr, htk, hrv, ?_, ?_, ?_⟩
    · intro a; have := hperm a; rw [hq] at this
      simp only [List.count_cons, List.count_append, List.count_nil] at this ⊢; omega
    · rw [hq] at htot; simp only [List.length_cons, List.length_append, List.length_nil] at htot ⊢; omega
    · simp only [Phase, hcol]
      exact ⟨by simp; omega, p2, p3, by simp [hne]⟩
  | mainRecvClosePanic cnt n q _ hm hq hne hcl =>
    exfalso
    have hcol : s.col = .notStarted := by
      revert hph; simp only [Phase, hm]; split <;> simp_all
    simp only [Phase, hm, hcol] at hph
    have := hph.2.2.2.1 hcl
    omega
  | mainLeave cnt _ hm hq hcl =>
    refine ⟨rn, co, ?_⟩
    have hcol : s.col = .notStarted := by
      revert hph; simp only [Phase, hm]; split <;> simp_all
    simp only [Phase, hm, hcol] at hph
    obtain ⟨p1, p2, p3, p4⟩ := hph
    refine ⟨hcr, htk, hrv, hperm, htot, ?_⟩
    have hcnt := p4.1 hcl
    have htasks : s.tasks = [] := by
      apply flatMap_nil_of_len c; rw [hq] at htot; subst p2; simp only [List.length_nil] at htot; omega
    subst p2
    simp only [Phase]
    exact ⟨rfl, hpos, p3, hcl, htasks, hq, by simp, by simp, fun i hi _ => by simp [hi]⟩
  | worker l r n ps _ hw hres hcl hq =>
    have hleaf : n ∈ allLeaves c := by
      have := hperm n
      have h3 : 0 < s.workers.count n := List.count_pos_iff.2 (by rw [hw]; simp)
      exact List.count_pos_iff.1 (by omega)
    have hps := (workerResult_iff c n (nodeOk_of_seg c n (allLeaves_ok c hc n hleaf)) ps).1 hres
    refine ⟨rn ++ [n], co, ?_⟩
    refine ⟨hcr, htk, ?_, ?_, ?_, ?_⟩
    · simp only [List.map_append, List.map_cons, List.map_nil, hrv, resOf, hps]
    · intro a; have := hperm a; rw [hw] at this
      simp only [List.count_cons, List.count_append, List.count_nil] at this ⊢; omega
    · rw [hw] at htot; simp only [List.length_cons, List.length_append, List.length_nil] at htot ⊢; omega
    · revert hph
      simp only [Phase]
      split <;> simp_all
      intros; omega
  | workerClosed l r n ps _ hw hres hcl =>
    exfalso
    revert hph
    simp only [Phase]
    split <;> simp_all
  | colRecv cnt P x q _ hcol hq hne =>
    have hm : s.main = .wait := by
      revert hph; simp only [Phase, hcol]; split <;> simp_all
    simp only [Phase, hm, hcol] at hph
    obtain ⟨p1, p2, p3, p4, p5, p6, p7⟩ := hph
    match rn, hrv with
    | [], hrv => rw [hq] at hrv; simp at hrv
    | n :: rn', hrv =>
      rw [hq] at hrv
      simp only [List.map_cons, List.cons.injEq] at hrv
      obtain ⟨rfl, hq'⟩ := hrv
      have hleaf : n ∈ allLeaves c := by
        have := hperm n
        simp only [List.count_cons_self] at this
        exact List.count_pos_iff.1 (by omega)
      have hseg := allLeaves_ok c hc n hleaf
      refine ⟨rn', n :: co, ?_⟩
      refine ⟨hcr, htk, hq', ?_, ?_, ?_⟩
      · intro a; have := hperm a
        simp only [List.count_cons] at this ⊢; omega
      · simp only [List.length_cons] at htot ⊢; omega
      · simp only [Phase, hm]
        simp only [List.length_cons] at htot ⊢
        exact ⟨by omega, by omega, p3, p4, p5, p6, arrOk_copy c co P p7 n hseg.1 (by omega)⟩
  | colRecvLast cnt P x q _ hcol hq hne hcl =>
    have hm : s.main = .wait := by
      revert hph; simp only [Phase, hcol]; split <;> simp_all
    simp only [Phase, hm, hcol] at hph
    obtain ⟨p1, p2, p3, p4, p5, p6, p7⟩ := hph
    match rn, hrv with
    | [], hrv => rw [hq] at hrv; simp at hrv
    | n :: rn', hrv =>
      rw [hq] at hrv
      simp only [List.map_cons, List.cons.injEq] at hrv
      obtain ⟨rfl, hq'⟩ := hrv
      have hleaf : n ∈ allLeaves c := by
        have := hperm n
        simp only [List.count_cons_self] at this
        exact List.count_pos_iff.1 (by omega)
      have hseg := allLeaves_ok c hc n hleaf
      refine ⟨rn', n :: co, ?_⟩
      refine ⟨hcr, htk, hq', ?_, ?_, ?_⟩
      · intro a; have := hperm a
        simp only [List.count_cons] at this ⊢; omega
      · simp only [List.length_cons] at htot ⊢; omega
      · simp only [Phase, hm]
        simp only [List.length_cons] at htot
        have hw : s.workers = [] := List.eq_nil_of_length_eq_zero (by omega)
        have hr : rn' = [] := List.eq_nil_of_length_eq_zero (by omega)
        subst hr
        exact ⟨p5, p6, hw, by simpa using hq', arrOk_copy c co P p7 n hseg.1 (by omega)⟩
  | colRecvLastPanic cnt P x q _ hcol hq hne hcl =>
    exfalso
    have hm : s.main = .wait := by
      revert hph; simp only [Phase, hcol]; split <;> simp_all
    simp only [Phase, hm, hcol] at hph
    rw [hph.2.2.1] at hcl; cases hcl
  | handOver P _ hm hcol =>
    simp only [Phase, hm, hcol] at hph
    refine ⟨rn, co, hcr, htk, hrv, hperm, htot, ?_⟩
    simp only [Phase]
    exact hph

theorem inv_reachable (c : Call) (hc : CallOk c) (s : State) (h : Reachable c s) : ∃ rn co, Inv c s rn co := by
  induction h with
  | init => exact ⟨[], [], inv_init c hc⟩
  | step _ hs ih =>
    obtain ⟨rn, co, hi⟩ := ih
    exact inv_step c hc _ _ rn co hi hs

/-- The array handed over is complete. -/
theorem returned_eq (c : Call) (s : State) (rn co : List ProofNode) (h : Inv c s rn co)
    (P : List (Option Nat)) (hm : s.main = .returned P) : P = (witnesses c.base c.N c.set).map some := by
  obtain ⟨hcr, htk, hrv, hperm, htot, hph⟩ := h
  have hcol : s.col = .finished := by
    revert hph; simp only [Phase, hm]; split <;> simp_all
  simp only [Phase, hm, hcol] at hph
  obtain ⟨t1, t2, t3, t4, hlen, harr, _⟩ := hph
  have hrn : rn = [] := by rw [t4] at hrv; simpa using hrv.symm
  have hco : ∀ a, co.count a = (allLeaves c).count a := by
    intro a; have := hperm a; rw [t1, t2, t3, hrn] at this; simpa using this
  have hW : (W c).length = c.set.length := W_length c
  apply List.ext_getElem?
  intro i
  by_cases hi : i < c.set.length
  · have hcov := leaves_cover c.N c.set c.powerOfTwo (rootNode c) i (Nat.zero_le _)
    rw [if_pos ⟨Nat.zero_le _, hi⟩] at hcov
    have : 0 < (allLeaves c).countP (covers i) := by rw [allLeaves, hcov]; exact Nat.one_pos
    obtain ⟨m, hm1, hm2⟩ := List.countP_pos_iff.1 this
    have hmco : m ∈ co := List.count_pos_iff.1 (by rw [hco]; exact List.count_pos_iff.2 hm1)
    rw [harr i hi m hmco hm2, List.getElem?_map]; rfl
  · rw [List.getElem?_eq_none (by omega), List.getElem?_eq_none (by simp [witnesses_length]; omega)]

theorem progress (c : Call) (hc : CallOk c) (s : State) (rn co : List ProofNode) (h : Inv c s rn co) :
    (∃ P, s.main = .returned P) ∨ ∃ s', Step c s s' := by
  have hpos : 0 < c.numWorkers := by rw [hc.pow]; exact Nat.two_pow_pos _
  have hmem := mem_allLeaves c s rn co h
  obtain ⟨hcr, htk, hrv, hperm, htot, hph⟩ := h
  have hrlen : s.recvQ.length = rn.length := by rw [hrv, List.length_map]
  -- a worker that has not sent can send
  have hworker : s.workers ≠ [] → s.recvClosed = false → ∃ s', Step c s s' := by
    intro hw hcl
    obtain ⟨n, r, hw'⟩ := List.exists_cons_of_ne_nil hw
    have hleaf := hmem n (.inl (by rw [hw']; simp))
    have hres := (workerResult_iff c n (nodeOk_of_seg c n (allLeaves_ok c hc n hleaf)) _).2 rfl
    refine ⟨_, .worker s [] r n _ hcr hw' hres hcl ?_⟩
    have : s.workers.length = r.length + 1 := by rw [hw']; rfl
    omega
  revert hph
  simp only [Phase]
  split
  · rename_i cnt hm hcol
    rintro ⟨p1, p2, p3, p4⟩
    right
    match htasks : s.tasks with
    | [] =>
      match hq : s.nodeQ with
      | [] =>
        subst p2
        rw [htasks, hq] at htot
        simp only [List.flatMap_nil, List.length_nil] at htot
        exact ⟨_, .mainLeave s cnt hcr hm hq (p4.2 (by omega))⟩
      | n :: q =>
        by_cases hlast : cnt + 1 = c.numWorkers
        · cases hcl : s.nodeClosed with
          | false => exact ⟨_, .mainRecvClose s cnt n q hcr hm hq hlast hcl⟩
          | true => exact ⟨_, .mainRecvClosePanic s cnt n q hcr hm hq hlast hcl⟩
        · exact ⟨_, .mainRecv s cnt n q hcr hm hq hlast⟩
    | .init n d :: r =>
      have hd : d ≤ c.powerOfTwo := htk (.init n d) (by rw [htasks]; simp)
      rcases Nat.lt_or_eq_of_le hd with hd | hd
      · exact ⟨_, .initSplit s [] r n d hcr htasks hd⟩
      · cases hcl : s.nodeClosed with
        | true => exact ⟨_, .initSendClosed s [] r n d hcr htasks hd hcl⟩
        | false =>
          refine ⟨_, .initSend s [] r n d hcr htasks hd hcl ?_⟩
          rw [htasks] at htot
          have := taskLeaves_pos c (.init n d)
          simp only [List.flatMap_cons, List.length_append] at htot
          omega
    | .rightHalf n d :: r => exact ⟨_, .rightHalf s [] r n d hcr htasks⟩
    | .leftHalf n d :: r => exact ⟨_, .leftHalf s [] r n d hcr htasks⟩
  · rename_i cnt P hm hcol
    rintro ⟨p1, p2, p3, p4, p5, p6, p7⟩
    right
    match hq : s.recvQ with
    | x :: q =>
      by_cases hlast : cnt + 1 = c.numWorkers
      · exact ⟨_, .colRecvLast s cnt P x q hcr hcol hq hlast p3⟩
      · exact ⟨_, .colRecv s cnt P x q hcr hcol hq hlast⟩
    | [] =>
      apply hworker _ p3
      intro hw
      rw [p5, p6, hw] at htot
      rw [hq] at hrlen
      simp only [List.flatMap_nil, List.length_nil] at htot hrlen
      omega
  · rename_i P hm hcol
    intro _
    exact .inr ⟨_, .handOver s P hcr hm hcol⟩
  · rename_i P hm hcol
    intro _
    exact .inl ⟨P, hm⟩
  · intro h; exact h.elim

/-! ## Termination -/

/-- Weight of a tree goroutine. -/
def taskWeight (c : Call) : Task → Nat
  | .init _ d => 7 * 4 ^ (c.powerOfTwo - d) + (if d > c.powerOfTwo then 1 else 0)
  | .rightHalf _ d => 7 * 4 ^ (c.powerOfTwo - d - 1) + 2
  | .leftHalf _ d => 7 * 4 ^ (c.powerOfTwo - d - 1) + 2

def mainWeight : MainSt → Nat
  | .loop _ => 3
  | .wait => 1
  | .returned _ => 0

/-- Upper bound on the number of remaining steps. -/
def weight (c : Call) (s : State) : Nat :=
  (s.tasks.map (taskWeight c)).sum + 3 * s.nodeQ.length + 2 * s.workers.length + s.recvQ.length + mainWeight s.main
    + (if s.crashed then 0 else 1)

theorem step_weight (c : Call) (s s' : State) (rn co : List ProofNode) (h : Inv c s rn co)
    (hs : Step c s s') : weight c s' < weight c s := by
  obtain ⟨hcr, htk, hrv, hperm, htot, hph⟩ := h
  cases hs with
  | initReturn l r n d _ ht hd =>
    simp only [weight, ht, List.map_append, List.map_cons, List.sum_append, List.sum_cons, taskWeight]
    have : 0 < 4 ^ (c.powerOfTwo - d) := Nat.pow_pos (by omega)
    omega
  | initSend l r n d _ ht hd hcl hq =>
    simp only [weight, ht, List.map_append, List.map_cons, List.sum_append, List.sum_cons, taskWeight,
      List.length_append, List.length_singleton]
    have : 0 < 4 ^ (c.powerOfTwo - d) := Nat.pow_pos (by omega)
    omega
  | initSendClosed => simp only [weight, hcr]; simp
  | initSplit l r n d _ ht hd =>
    simp only [weight, ht, List.map_append, List.map_cons, List.sum_append, List.sum_cons, taskWeight]
    obtain ⟨e, he⟩ : ∃ e, c.powerOfTwo - d = e + 1 := ⟨c.powerOfTwo - d - 1, by omega⟩
    have : 0 < 4 ^ e := Nat.pow_pos (by omega)
    simp only [he, Nat.add_sub_cancel, pow_succ]
    omega
  | rightHalf l r n d _ ht =>
    have hd : d < c.powerOfTwo := htk (.rightHalf n d) (by rw [ht]; simp)
    simp only [weight, ht, List.map_append, List.map_cons, List.sum_append, List.sum_cons, taskWeight, ← Nat.sub_sub]
    split <;> omega
  | leftHalf l r n d _ ht =>
    have hd : d < c.powerOfTwo := htk (.leftHalf n d) (by rw [ht]; simp)
    simp only [weight, ht, List.map_append, List.map_cons, List.sum_append, List.sum_cons, taskWeight, ← Nat.sub_sub]
    split <;> omega
  | mainRecv cnt n q _ hm hq hne => simp [weight, hq, hm, mainWeight]; omega
  | mainRecvClose cnt n q _ hm hq hne hcl => simp [weight, hq, hm, mainWeight]; omega
  | mainRecvClosePanic => simp only [weight, hcr]; simp
  | mainLeave cnt _ hm hq hcl => simp [weight, hq, hm, mainWeight]
  | worker l r n ps _ hw hres hcl hq => simp [weight, hw]; omega
  | workerClosed => simp only [weight, hcr]; simp
  | colRecv cnt P x q _ hcol hq hne => simp [weight, hq]
  | colRecvLast cnt P x q _ hcol hq hne hcl => simp [weight, hq]
  | colRecvLastPanic => simp only [weight, hcr]; simp
  | handOver P _ hm hcol => simp [weight, hm, mainWeight]

end Verif.Lemmas.IterParallel
