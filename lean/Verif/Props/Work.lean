import Mathlib.Data.Nat.Log
import Mathlib.Data.Nat.Size
import Mathlib.Tactic.Ring
import Verif.Model.Work
import Verif.Lemmas.Expected

/-!
# Property C115: the work of the membership provers

The comments of the code say that all proofs are computed "in time O(nlog(n))". Counted are the bits of the exponents, which is the
number of squarings of a modular exponentiation.
-/

namespace Verif.Props
open Verif.Go Verif.Model Verif.Lemmas Verif.Spec

/-- The total number of bits of a list of exponents. -/
def totalBits (es : List Nat) : Nat := (es.map Nat.size).sum

/-- C115: for a set of `n` representatives of at most `B` bits, `ProveMembership` uses exponents of at most `3 n B ⌈log₄ n⌉` bits
together, and `ProveMembershipIter` uses exactly `n ⌈log₂ n⌉ + n - 2^⌈log₂ n⌉` exponents, all of them elements of the set. -/
def C115_statement : Prop :=
  ∀ (base N B : Nat) (set : List Nat), set ≠ [] → (∀ x ∈ set, x.size ≤ B) →
    (∃ ps es, proveMembershipL base N set = .ok (ps, es) ∧ proveMembership base N set = .ok ps ∧
      totalBits es ≤ 3 * set.length * B * Nat.clog 4 set.length) ∧
    ∀ fuel, set.length ≤ fuel → ∃ ps es, proveMembershipIterL fuel base N set = some (ps, es) ∧
      proveMembershipIterFuel fuel base N set = some ps ∧
      es.length + 2 ^ Nat.clog 2 set.length = set.length * Nat.clog 2 set.length + set.length ∧
      (∀ e ∈ es, e ∈ set) ∧ totalBits es ≤ es.length * B

theorem size_mul_le (a b : Nat) : (a * b).size ≤ a.size + b.size := by
  rw [Nat.size_le, pow_add]
  exact Nat.mul_lt_mul'' (Nat.lt_size_self a) (Nat.lt_size_self b)

theorem size_prod_le (l : List Nat) (B : Nat) (h : ∀ x ∈ l, x.size ≤ B) (h0 : l ≠ []) : l.prod.size ≤ l.length * B := by
  induction l with
  | nil => exact absurd rfl h0
  | cons a t ih =>
    by_cases ht : t = []
    · subst ht
      simpa using h a (by simp)
    · have := ih (fun x hx => h x (List.mem_cons_of_mem _ hx)) ht
      have h1 := h a List.mem_cons_self
      have h2 := size_mul_le a t.prod
      rw [List.prod_cons, List.length_cons, Nat.succ_mul]
      omega

theorem totalBits_append (a b : List Nat) : totalBits (a ++ b) = totalBits a + totalBits b := by simp [totalBits]

theorem totalBits_le (l : List Nat) (B : Nat) (h : ∀ x ∈ l, x.size ≤ B) : totalBits l ≤ l.length * B := by
  induction l with
  | nil => simp [totalBits]
  | cons a t ih =>
    have := ih (fun x hx => h x (List.mem_cons_of_mem _ hx))
    have h1 := h a List.mem_cons_self
    simp only [totalBits, List.map_cons, List.sum_cons, List.length_cons, Nat.succ_mul] at *
    omega

theorem slice_mem {l : List Nat} {a b x : Nat} (h : x ∈ slice l a b) : x ∈ l := by
  unfold slice at h
  exact List.mem_of_mem_drop (List.mem_of_mem_take h)

theorem fourExponents_bits (set : List Nat) (B : Nat) (h : ∀ x ∈ set, x.size ≤ B) (h4 : 4 < set.length) :
    let e := fourExponents 1 set
    totalBits [e.1, e.2.1, e.2.2.1, e.2.2.2] ≤ 3 * set.length * B := by
  have key : ∀ a b, a < b → b ≤ set.length → (setProductRecursiveFast (slice set a b)).size ≤ (b - a) * B := by
    intro a b hab hb
    rw [setProductRecursiveFast_eq]
    have hl := slice_length set a b hb
    have := size_prod_le (slice set a b) B (fun x hx => h x (slice_mem hx)) (by
      intro he
      rw [he] at hl
      simp at hl
      omega)
    rwa [hl] at this
  have k1 := key (set.length / 2) set.length (by omega) (Nat.le_refl _)
  have k2 := key 0 (set.length / 2) (by omega) (by omega)
  have k3 := key (set.length / 4) (set.length / 2) (by omega) (by omega)
  have k4 := key 0 (set.length / 4) (by omega) (by omega)
  have k5 := key (set.length * 3 / 4) set.length (by omega) (Nat.le_refl _)
  have k6 := key (set.length / 2) (set.length * 3 / 4) (by omega) (by omega)
  simp only [fourExponents, mul_one, totalBits, List.map_cons, List.map_nil, List.sum_cons, List.sum_nil, add_zero]
  generalize setProductRecursiveFast (slice set (set.length / 2) set.length) = A1 at *
  generalize setProductRecursiveFast (slice set 0 (set.length / 2)) = A2 at *
  generalize setProductRecursiveFast (slice set (set.length / 4) (set.length / 2)) = A3 at *
  generalize setProductRecursiveFast (slice set 0 (set.length / 4)) = A4 at *
  generalize setProductRecursiveFast (slice set (set.length * 3 / 4) set.length) = A5 at *
  generalize setProductRecursiveFast (slice set (set.length / 2) (set.length * 3 / 4)) = A6 at *
  have m1 := size_mul_le A1 A3
  have m2 := size_mul_le A1 A4
  have m3 := size_mul_le A2 A5
  have m4 := size_mul_le A2 A6
  have e1 : (set.length - set.length / 2) * B + (set.length / 2 - set.length / 4) * B + ((set.length - set.length / 2) * B + (set.length / 4 - 0) * B)
      + ((set.length / 2 - 0) * B + (set.length - set.length * 3 / 4) * B + ((set.length / 2 - 0) * B + (set.length * 3 / 4 - set.length / 2) * B))
      = 3 * set.length * B := by
    simp only [← Nat.add_mul]
    congr 1
    omega
  omega

theorem proveMembershipL_spec (base N B : Nat) (set : List Nat) (h0 : set ≠ []) (h : ∀ x ∈ set, x.size ≤ B) (k : Nat) (hk : set.length ≤ 4 ^ k) :
    ∃ ps es, proveMembershipL base N set = .ok (ps, es) ∧ proveMembership base N set = .ok ps ∧
      totalBits es ≤ 3 * set.length * B * k := by
  induction k generalizing base set with
  | zero =>
    have h1 : set.length = 1 := by
      have := List.length_pos_iff.2 h0
      omega
    obtain ⟨x, rfl⟩ := List.length_eq_one_iff.1 h1
    refine ⟨[base], [], ?_, ?_, by simp [totalBits]⟩
    · unfold proveMembershipL
      rfl
    · unfold proveMembership
      rfl
  | succ k ih =>
    by_cases h4 : set.length ≤ 4
    · unfold proveMembershipL proveMembership
      rw [dif_pos h4, dif_pos h4]
      have hB := h
      match set, h0, h4, h with
      | [x0], _, _, _ => exact ⟨_, _, rfl, rfl, by simp [totalBits]⟩
      | [x0, x1], _, _, h =>
        refine ⟨_, _, rfl, rfl, ?_⟩
        have a0 := h x0 (by simp)
        have a1 := h x1 (by simp)
        simp only [totalBits, List.map_cons, List.map_nil, List.sum_cons, List.sum_nil, List.length_cons, List.length_nil]
        nlinarith
      | [x0, x1, x2], _, _, h =>
        refine ⟨_, _, rfl, rfl, ?_⟩
        have a0 := h x0 (by simp)
        have a1 := h x1 (by simp)
        have a2 := h x2 (by simp)
        have m0 := size_mul_le x1 x2
        have m1 := size_mul_le x0 x2
        have m2 := size_mul_le x0 x1
        simp only [totalBits, List.map_cons, List.map_nil, List.sum_cons, List.sum_nil, List.length_cons, List.length_nil]
        nlinarith
      | [x0, x1, x2, x3], _, _, h =>
        refine ⟨_, _, rfl, rfl, ?_⟩
        have a0 := h x0 (by simp)
        have a1 := h x1 (by simp)
        have a2 := h x2 (by simp)
        have a3 := h x3 (by simp)
        have m0 := size_mul_le x0 x1
        have m1 := size_mul_le x2 x3
        have m2 := size_mul_le (x2 * x3) x1
        have m3 := size_mul_le (x2 * x3) x0
        have m4 := size_mul_le (x0 * x1) x3
        have m5 := size_mul_le (x0 * x1) x2
        simp only [totalBits, List.map_cons, List.map_nil, List.sum_cons, List.sum_nil, List.length_cons, List.length_nil]
        nlinarith
    · have hn : 4 < set.length := by omega
      have hpow : 4 ^ (k + 1) = 4 * 4 ^ k := by ring
      have hq : ∀ a b, a < b → b ≤ set.length → b - a ≤ 4 ^ k → ∀ bs, ∃ ps es, proveMembershipL bs N (slice set a b) = .ok (ps, es) ∧
          proveMembership bs N (slice set a b) = .ok ps ∧ totalBits es ≤ 3 * (b - a) * B * k := by
        intro a b hab hb hle bs
        have hl := slice_length set a b hb
        obtain ⟨ps, es, e1, e2, e3⟩ := ih bs (slice set a b) (by
          intro he
          rw [he] at hl
          simp at hl
          omega) (fun x hx => h x (slice_mem hx)) (by rw [hl]; exact hle)
        rw [hl] at e3
        exact ⟨ps, es, e1, e2, e3⟩
      have hbits := fourExponents_bits set B h hn
      unfold proveMembershipL proveMembership
      rw [dif_neg h4, dif_neg h4]
      simp only
      generalize fourExponents 1 set = e at hbits ⊢
      obtain ⟨p0, l0, a0, b0, c0⟩ := hq 0 (set.length / 4) (by omega) (by omega) (by omega) (fourfoldExp base N e.1 e.2.1 e.2.2.1 e.2.2.2).1
      obtain ⟨p1, l1, a1, b1, c1⟩ := hq (set.length / 4) (set.length / 2) (by omega) (by omega) (by omega) (fourfoldExp base N e.1 e.2.1 e.2.2.1 e.2.2.2).2.1
      obtain ⟨p2, l2, a2, b2, c2⟩ := hq (set.length / 2) (set.length * 3 / 4) (by omega) (by omega) (by omega) (fourfoldExp base N e.1 e.2.1 e.2.2.1 e.2.2.2).2.2.1
      obtain ⟨p3, l3, a3, b3, c3⟩ := hq (set.length * 3 / 4) set.length (by omega) (by omega) (by omega) (fourfoldExp base N e.1 e.2.1 e.2.2.1 e.2.2.2).2.2.2
      rw [a0, a1, a2, a3, b0, b1, b2, b3]
      refine ⟨_, _, rfl, rfl, ?_⟩
      simp only [totalBits_append]
      have e1 : 3 * (set.length / 4 - 0) * B * k + 3 * (set.length / 2 - set.length / 4) * B * k
          + 3 * (set.length * 3 / 4 - set.length / 2) * B * k + 3 * (set.length - set.length * 3 / 4) * B * k = 3 * set.length * B * k := by
        simp only [← Nat.add_mul]
        congr 2
        omega
      have e2 : 3 * set.length * B * (k + 1) = 3 * set.length * B * k + 3 * set.length * B := by ring
      omega

theorem accumulateL_aux (N : Nat) (set : List Nat) (g : Nat) (l : List Nat) :
    set.foldl (fun s v => (expMod s.1 v N, s.2 ++ [v])) (g, l) = (accumulate g N set, l ++ set) := by
  induction set generalizing g l with
  | nil => simp [accumulate]
  | cons a t ih =>
    rw [List.foldl_cons, ih]
    simp [accumulate]

theorem accumulateL_eq (g N : Nat) (set : List Nat) : accumulateL g N set = (accumulate g N set, set) := by
  rw [accumulateL, accumulateL_aux, List.nil_append]

theorem iterPassL_fst (N : Nat) (set : List Nat) (nodes : List ProofNode) :
    ((iterPassL N set nodes).1, (iterPassL N set nodes).2.1) = iterPass N set nodes := by
  induction nodes with
  | nil => rfl
  | cons n t ih =>
    rw [iterPassL, iterPass]
    have e1 : (iterPassL N set t).1 = (iterPass N set t).1 := congrArg Prod.fst ih
    have e2 : (iterPassL N set t).2.1 = (iterPass N set t).2 := congrArg Prod.snd ih
    split
    · simp only [e1, e2]
    · simp only [e1, insertNewProofNodeL, insertNewProofNode, accumulateNewL, accumulateNew, accumulateL_eq]

theorem iterLoopL_fst (N : Nat) (set : List Nat) (fuel : Nat) (nodes : List ProofNode) :
    (iterLoopL N set fuel nodes).map Prod.fst = iterLoop N set fuel nodes := by
  induction fuel generalizing nodes with
  | zero => rfl
  | succ f ih =>
    have h := iterPassL_fst N set nodes
    have e1 : (iterPassL N set nodes).1 = (iterPass N set nodes).1 := congrArg Prod.fst h
    have e2 : (iterPassL N set nodes).2.1 = (iterPass N set nodes).2 := congrArg Prod.snd h
    rw [iterLoopL, iterLoop, e1, e2]
    split
    · rw [Option.map_map, ← ih]
      rfl
    · rfl

/-- The exponentiations that the cuts of a node of `n` elements still need. -/
def cutCost (n : Nat) : Nat := if _h : n ≤ 1 then 0 else n + cutCost (n / 2) + cutCost (n - n / 2)
termination_by n

theorem cutCost_closed (k n : Nat) (h1 : 2 ^ k ≤ 2 * n) (h2 : n ≤ 2 ^ k) : cutCost n + 2 ^ k = n * k + n := by
  induction k generalizing n with
  | zero =>
    have : n = 1 := by omega
    subst this
    unfold cutCost
    simp
  | succ k ih =>
    have hp : 2 ^ (k + 1) = 2 * 2 ^ k := by ring
    have hpos : 0 < 2 ^ k := Nat.pow_pos (by omega)
    by_cases hn : n ≤ 1
    · have : n = 1 := by omega
      subst this
      have hk : k = 0 := by
        by_contra hk
        have : 2 ≤ 2 ^ k := Nat.le_self_pow hk 2
        omega
      subst hk
      unfold cutCost
      simp
    · by_cases hk : k = 0
      · subst hk
        have : n = 2 := by omega
        subst this
        rw [cutCost, cutCost]
        simp
      · obtain ⟨j, rfl⟩ := Nat.exists_eq_succ_of_ne_zero hk
        have hq : 2 ^ (j + 1) = 2 * 2 ^ j := by ring
        have a := ih (n / 2) (by simp only [Nat.succ_eq_add_one] at *; omega) (by omega)
        have b := ih (n - n / 2) (by omega) (by omega)
        rw [cutCost, dif_neg hn]
        have hs : n / 2 * (j.succ) + (n - n / 2) * j.succ = n * j.succ := by
          rw [← Nat.add_mul]
          congr 1
          omega
        have ht : n * (j.succ + 1) = n * j.succ + n := by ring
        omega

def nodesCost (nodes : List ProofNode) : Nat := (nodes.map (fun n => cutCost (n.right - n.left))).sum

theorem iterPassL_cost (N : Nat) (set : List Nat) (nodes : List ProofNode) (h : ∀ n ∈ nodes, NodeOk N set n) :
    (iterPassL N set nodes).2.2.length + nodesCost (iterPassL N set nodes).1 = nodesCost nodes ∧
    (∀ e ∈ (iterPassL N set nodes).2.2, e ∈ set) := by
  induction nodes with
  | nil => simp [iterPassL, nodesCost]
  | cons n t ih =>
    obtain ⟨i1, i2⟩ := ih (fun m hm => h m (List.mem_cons_of_mem _ hm))
    have hn := h n List.mem_cons_self
    rw [iterPassL]
    split
    · refine ⟨?_, i2⟩
      simp only [nodesCost, List.map_cons, List.sum_cons] at *
      omega
    · rename_i hc
      simp only [insertNewProofNodeL, accumulateNewL, accumulateL_eq]
      constructor
      · have hl1 := slice_length set n.left (n.left + (n.right - n.left) / 2) (by have := hn.2.1; omega)
        have hl2 := slice_length set (n.left + (n.right - n.left) / 2) n.right hn.2.1
        have e : cutCost (n.right - n.left) = (n.right - n.left) + cutCost ((n.right - n.left) / 2)
            + cutCost (n.right - n.left - (n.right - n.left) / 2) := by
          rw [cutCost, dif_neg hc]
        simp only [nodesCost, List.map_cons, List.sum_cons, List.length_append, hl1, hl2] at *
        rw [show n.left + (n.right - n.left) / 2 - n.left = (n.right - n.left) / 2 by omega,
          show n.right - (n.left + (n.right - n.left) / 2) = n.right - n.left - (n.right - n.left) / 2 by omega]
        omega
      · intro e he
        rw [List.mem_append, List.mem_append] at he
        rcases he with (he | he) | he
        · exact slice_mem he
        · exact slice_mem he
        · exact i2 e he

theorem iterLoopL_cost (N : Nat) (set : List Nat) (fuel : Nat) (nodes : List ProofNode) (h : ∀ n ∈ nodes, NodeOk N set n)
    (out : List ProofNode) (es : List Nat) (ho : iterLoopL N set fuel nodes = some (out, es)) :
    es.length = nodesCost nodes ∧ ∀ e ∈ es, e ∈ set := by
  induction fuel generalizing nodes out es with
  | zero => simp [iterLoopL] at ho
  | succ f ih =>
    obtain ⟨c1, c2⟩ := iterPassL_cost N set nodes h
    have hf := iterPassL_fst N set nodes
    have e1 : (iterPassL N set nodes).1 = (iterPass N set nodes).1 := congrArg Prod.fst hf
    have e2 : (iterPassL N set nodes).2.1 = (iterPass N set nodes).2 := congrArg Prod.snd hf
    obtain ⟨i1, i2, i3, i4, i5⟩ := iterPass_spec N set nodes h
    rw [iterLoopL] at ho
    split at ho
    · rw [Option.map_eq_some_iff] at ho
      obtain ⟨⟨o, l⟩, ho, hs⟩ := ho
      obtain ⟨d1, d2⟩ := ih _ (by rw [e1]; exact i2) o l ho
      simp only [Prod.mk.injEq] at hs
      obtain ⟨rfl, rfl⟩ := hs
      refine ⟨by rw [List.length_append]; omega, ?_⟩
      intro e he
      rcases List.mem_append.1 he with he | he
      · exact c2 e he
      · exact d2 e he
    · rename_i hb
      simp only [Option.some.injEq, Prod.mk.injEq] at ho
      obtain ⟨_, rfl⟩ := ho
      rw [e2] at hb
      obtain ⟨j1, j2⟩ := i5 (by simpa using hb)
      have hz : nodesCost (iterPassL N set nodes).1 = 0 := by
        rw [e1, j1]
        unfold nodesCost
        rw [List.sum_eq_zero]
        intro x hx
        obtain ⟨n, hn, rfl⟩ := List.mem_map.1 hx
        rw [cutCost, dif_pos (by have := j2 n hn; omega)]
      exact ⟨by omega, c2⟩

/-- C115: proved in full. -/
theorem C115_holds : C115_statement := by
  intro base N B set h0 hB
  refine ⟨proveMembershipL_spec base N B set h0 hB _ (Nat.le_pow_clog (by omega) _), ?_⟩
  intro fuel hf
  have hlen : 0 < set.length := List.length_pos_iff.2 h0
  by_cases h1 : set.length = 1
  · obtain ⟨x, rfl⟩ := List.length_eq_one_iff.1 h1
    obtain ⟨f, rfl⟩ := Nat.exists_eq_succ_of_ne_zero (n := fuel) (by simp at hf; omega)
    exact ⟨[base], [], rfl, rfl, by simp, by simp, by simp [totalBits]⟩
  have hi := iter_eq base N set fuel hf (.inr (by omega))
  have hi2 := hi
  unfold proveMembershipIterFuel at hi2
  rw [if_neg (by omega), ← iterLoopL_fst, Option.map_map, Option.map_eq_some_iff] at hi2
  obtain ⟨⟨out, es⟩, ho, hw⟩ := hi2
  have hnode : ∀ n ∈ [({ left := 0, right := set.length, proof := base } : ProofNode)], NodeOk N set n := by
    intro n hn
    rw [List.mem_singleton] at hn
    subst hn
    exact ⟨hlen, Nat.le_refl _, .inr (by simp only; omega)⟩
  obtain ⟨c1, c2⟩ := iterLoopL_cost N set fuel _ hnode out es ho
  refine ⟨_, es, ?_, hi, ?_, c2, totalBits_le es B (fun x hx => hB x (c2 x hx))⟩
  · unfold proveMembershipIterL
    rw [if_neg (by omega), ho, ← hw]
    rfl
  · rw [c1]
    simp only [nodesCost, List.map_cons, List.map_nil, List.sum_cons, List.sum_nil, Nat.sub_zero, Nat.add_zero]
    refine cutCost_closed _ _ ?_ (Nat.le_pow_clog (by omega) _)
    · have := Nat.pow_pred_clog_lt_self (b := 2) (x := set.length) (by omega) (by omega)
      have hc : 0 < Nat.clog 2 set.length := Nat.clog_pos (by omega) (by omega)
      obtain ⟨j, hj⟩ := Nat.exists_eq_succ_of_ne_zero (Nat.pos_iff_ne_zero.1 hc)
      rw [hj] at this ⊢
      simp only [Nat.pred_succ, Nat.succ_eq_add_one, pow_succ] at *
      omega

/-! ## The bound is reached -/

theorem size_prod_ge (l : List Nat) (b : Nat) (h : ∀ x ∈ l, 2 ^ b ≤ x) : l.length * b ≤ l.prod.size := by
  have hp : 2 ^ (l.length * b) ≤ l.prod := by
    induction l with
    | nil => simp
    | cons a t ih =>
      rw [List.prod_cons, List.length_cons, Nat.succ_mul, Nat.add_comm, pow_add]
      exact Nat.mul_le_mul (h a List.mem_cons_self) (ih (fun x hx => h x (List.mem_cons_of_mem _ hx)))
  exact Nat.le_of_lt (Nat.lt_size.2 hp)

theorem size_mul_prod_ge (l m : List Nat) (b : Nat) (hl : ∀ x ∈ l, 2 ^ b ≤ x) (hm : ∀ x ∈ m, 2 ^ b ≤ x) :
    (l.length + m.length) * b ≤ (l.prod * m.prod).size := by
  have := size_prod_ge (l ++ m) b (by
    intro x hx
    rcases List.mem_append.1 hx with hx | hx
    · exact hl x hx
    · exact hm x hx)
  rwa [List.prod_append, List.length_append] at this

theorem fourExponents_bits_ge (set : List Nat) (b : Nat) (h : ∀ x ∈ set, 2 ^ b ≤ x) :
    let e := fourExponents 1 set
    3 * set.length * b ≤ totalBits [e.1, e.2.1, e.2.2.1, e.2.2.2] := by
  have key : ∀ a c a' c', c ≤ set.length → c' ≤ set.length →
      (c - a + (c' - a')) * b ≤ (setProductRecursiveFast (slice set a c) * setProductRecursiveFast (slice set a' c')).size := by
    intro a c a' c' hc hc'
    rw [setProductRecursiveFast_eq, setProductRecursiveFast_eq]
    have := size_mul_prod_ge (slice set a c) (slice set a' c') b (fun x hx => h x (slice_mem hx)) (fun x hx => h x (slice_mem hx))
    rwa [slice_length set a c hc, slice_length set a' c' hc'] at this
  have k1 := key (set.length / 2) set.length (set.length / 4) (set.length / 2) (Nat.le_refl _) (by omega)
  have k2 := key (set.length / 2) set.length 0 (set.length / 4) (Nat.le_refl _) (by omega)
  have k3 := key 0 (set.length / 2) (set.length * 3 / 4) set.length (by omega) (Nat.le_refl _)
  have k4 := key 0 (set.length / 2) (set.length / 2) (set.length * 3 / 4) (by omega) (by omega)
  simp only [fourExponents, mul_one, totalBits, List.map_cons, List.map_nil, List.sum_cons, List.sum_nil, add_zero]
  have e1 : (set.length - set.length / 2 + (set.length / 2 - set.length / 4)) * b + (set.length - set.length / 2 + (set.length / 4 - 0)) * b
      + ((set.length / 2 - 0 + (set.length - set.length * 3 / 4)) * b + (set.length / 2 - 0 + (set.length * 3 / 4 - set.length / 2)) * b)
      = 3 * set.length * b := by
    simp only [← Nat.add_mul]
    congr 1
    omega
  omega

/-- C115, the bound is the right one: for `4^k` representatives of at least `b + 1` bits, `ProveMembership` uses exponents of at least
`3 n b k` bits together. -/
theorem C115_reached (base N b k : Nat) (set : List Nat) (hk : set.length = 4 ^ k) (h : ∀ x ∈ set, 2 ^ b ≤ x) :
    ∃ ps es, proveMembershipL base N set = .ok (ps, es) ∧ 3 * set.length * b * k ≤ totalBits es := by
  induction k generalizing base set with
  | zero =>
    obtain ⟨x, rfl⟩ := List.length_eq_one_iff.1 hk
    refine ⟨[base], [], ?_, by simp⟩
    unfold proveMembershipL
    rfl
  | succ k ih =>
    have hpow : 4 ^ (k + 1) = 4 * 4 ^ k := by ring
    have hpos : 0 < 4 ^ k := Nat.pow_pos (by omega)
    by_cases h4 : set.length ≤ 4
    · have hk0 : k = 0 := by
        by_contra hk0
        have : 4 ≤ 4 ^ k := Nat.le_self_pow hk0 4
        omega
      subst hk0
      unfold proveMembershipL
      rw [dif_pos h4]
      match set, hk, h with
      | [x0, x1, x2, x3], _, h =>
        refine ⟨_, _, rfl, ?_⟩
        have a0 := h x0 (by simp)
        have a1 := h x1 (by simp)
        have a2 := h x2 (by simp)
        have a3 := h x3 (by simp)
        have c0 := size_prod_ge [x2, x3, x1] b (by simp [a1, a2, a3])
        have c1 := size_prod_ge [x2, x3, x0] b (by simp [a0, a2, a3])
        have c2 := size_prod_ge [x0, x1, x3] b (by simp [a0, a1, a3])
        have c3 := size_prod_ge [x0, x1, x2] b (by simp [a0, a1, a2])
        simp only [List.prod_cons, List.prod_nil, mul_one, List.length_cons, List.length_nil, ← mul_assoc] at c0 c1 c2 c3
        simp only [totalBits, List.map_cons, List.map_nil, List.sum_cons, List.sum_nil, List.length_cons, List.length_nil]
        omega
    · have hq : ∀ a c, c ≤ set.length → c - a = 4 ^ k → ∀ bs, ∃ ps es, proveMembershipL bs N (slice set a c) = .ok (ps, es) ∧
          3 * 4 ^ k * b * k ≤ totalBits es := by
        intro a c hc hle bs
        have hl := slice_length set a c hc
        obtain ⟨ps, es, e1, e3⟩ := ih bs (slice set a c) (by rw [hl, hle]) (fun x hx => h x (slice_mem hx))
        rw [hl, hle] at e3
        exact ⟨ps, es, e1, e3⟩
      have hbits := fourExponents_bits_ge set b h
      unfold proveMembershipL
      rw [dif_neg h4]
      simp only
      generalize fourExponents 1 set = e at hbits ⊢
      obtain ⟨p0, l0, a0, c0⟩ := hq 0 (set.length / 4) (by omega) (by omega) (fourfoldExp base N e.1 e.2.1 e.2.2.1 e.2.2.2).1
      obtain ⟨p1, l1, a1, c1⟩ := hq (set.length / 4) (set.length / 2) (by omega) (by omega) (fourfoldExp base N e.1 e.2.1 e.2.2.1 e.2.2.2).2.1
      obtain ⟨p2, l2, a2, c2⟩ := hq (set.length / 2) (set.length * 3 / 4) (by omega) (by omega) (fourfoldExp base N e.1 e.2.1 e.2.2.1 e.2.2.2).2.2.1
      obtain ⟨p3, l3, a3, c3⟩ := hq (set.length * 3 / 4) set.length (by omega) (by omega) (fourfoldExp base N e.1 e.2.1 e.2.2.1 e.2.2.2).2.2.2
      rw [a0, a1, a2, a3]
      refine ⟨_, _, rfl, ?_⟩
      simp only [totalBits_append]
      have e2 : 3 * set.length * b * (k + 1) = 3 * set.length * b + 4 * (3 * 4 ^ k * b * k) := by
        rw [hk, hpow]
        ring
      simp only at hbits
      omega

/-- C115, compared with computing each witness by itself from the other elements (`n (n - 1)` exponentiations): the iterative prover
never needs more, and for three or more elements it needs less. -/
theorem C115_naive (base N : Nat) (set : List Nat) (h0 : set ≠ []) :
    ∃ ps es, proveMembershipIterL set.length base N set = some (ps, es) ∧ es.length ≤ set.length * (set.length - 1) ∧
      (3 ≤ set.length → es.length < set.length * (set.length - 1)) := by
  obtain ⟨B, hB⟩ : ∃ B, ∀ x ∈ set, x.size ≤ B :=
    ⟨(set.map Nat.size).sum, fun x hx => List.single_le_sum (by simp) _ (List.mem_map_of_mem hx)⟩
  obtain ⟨ps, es, e1, _, e3, _⟩ := (C115_holds base N B set h0 hB).2 set.length (Nat.le_refl _)
  have hlen : 0 < set.length := List.length_pos_iff.2 h0
  have hp := Nat.le_pow_clog (b := 2) (by omega) set.length
  refine ⟨ps, es, e1, ?_⟩
  obtain ⟨m, hm⟩ := Nat.exists_eq_succ_of_ne_zero (n := set.length) (by omega)
  have hc : Nat.clog 2 set.length ≤ m := by
    rw [hm]
    exact Nat.clog_le_of_le_pow (Nat.succ_le_of_lt Nat.lt_two_pow_self)
  rw [hm] at e3 hp hc ⊢
  simp only [Nat.succ_eq_add_one, Nat.add_sub_cancel] at e3 hp hc ⊢
  have hmul := Nat.mul_le_mul_left (m + 1) hc
  refine ⟨by omega, ?_⟩
  intro h3
  by_cases he : Nat.clog 2 (m + 1) = m
  · rw [he] at e3 hp
    have : m + 1 < 2 ^ m := by
      clear e3 hp hc hmul he e1 hB hm hlen
      obtain ⟨j, rfl⟩ : ∃ j, m = j + 2 := ⟨m - 2, by omega⟩
      induction j with
      | zero => decide
      | succ j ih =>
        have := ih (by omega)
        rw [show j + 1 + 2 = (j + 2) + 1 by ring, pow_succ]
        omega
    omega
  · have := Nat.mul_le_mul_left (m + 1) (show Nat.clog 2 (m + 1) + 1 ≤ m by omega)
    rw [Nat.mul_add] at this
    omega

/-- A set of five: six exponents of the divide-and-conquer prover and twelve exponentiations of the iterative one. -/
example : proveMembershipL 2 35 [3, 5, 7, 11, 13] = .ok ([2, 8, 22, 22, 8], [1001 * 5, 1001 * 3, 15 * 143, 15 * 7, 13, 11]) ∧
    (proveMembershipIterL 5 2 35 [3, 5, 7, 11, 13]).map (fun r => (r.1, r.2.length)) = some ([2, 8, 22, 22, 8], 12) := by
  constructor
  · simp [proveMembershipL, handleSmallSetL, fourExponents, slice, setProductRecursiveFast]
    decide +kernel
  · decide +kernel

end Verif.Props
