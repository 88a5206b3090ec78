import Verif.Lemmas.Accumulator

/-! # Helper lemmas for the iterative prover -/

namespace Verif.Lemmas
open Verif.Go Verif.Model Verif.Spec

theorem accumulate_mod (g N : Nat) (set : List Nat) : accumulate g N set % N = g ^ set.prod % N := by
  induction set generalizing g with
  | nil => simp [accumulate]
  | cons x l ih =>
    have : accumulate g N (x :: l) = accumulate (expMod g x N) N l := rfl
    rw [this, ih, expMod, pow_mod_pow, List.prod_cons]

theorem accumulate_eq (g N : Nat) (set : List Nat) (h : 0 < set.length) :
    accumulate g N set = g ^ set.prod % N := by
  rw [← accumulate_mod]
  symm
  suffices ∀ (l : List Nat) (g : Nat), g % N = g → accumulate g N l % N = accumulate g N l by
    match set with
    | x :: l => exact this l _ (Nat.mod_mod _ _)
  intro l
  induction l with
  | nil => intro g hg; exact hg
  | cons x l ih => intro g _; exact ih _ (Nat.mod_mod _ _)

/-- What a list of nodes stands for: the witnesses of all its segments. -/
def nodeWitnesses (N : Nat) (set : List Nat) (nodes : List ProofNode) : List Nat :=
  nodes.flatMap (fun n => witnesses n.proof N (slice set n.left n.right))

/-- A node is well formed: non-empty segment inside the set; reduced proof unless it will still be cut. -/
def NodeOk (N : Nat) (set : List Nat) (n : ProofNode) : Prop :=
  n.left < n.right ∧ n.right ≤ set.length ∧ (n.proof % N = n.proof ∨ 2 ≤ n.right - n.left)

theorem insert_witnesses (N : Nat) (set : List Nat) (n : ProofNode) (h : NodeOk N set n)
    (hw : ¬ n.right - n.left ≤ 1) :
    nodeWitnesses N set [(insertNewProofNode n N set).1, (insertNewProofNode n N set).2]
      = nodeWitnesses N set [n] := by
  obtain ⟨h1, h2, _⟩ := h
  simp only [nodeWitnesses, List.flatMap_cons, List.flatMap_nil, List.append_nil, insertNewProofNode]
  rw [← slice_append_mid set n.left (n.left + (n.right - n.left) / 2) n.right (by omega) (by omega),
    witnesses_append, accumulateNew, accumulate_eq, accumulate_eq]
  · rw [slice_length _ _ _ (by omega)]; omega
  · rw [slice_length _ _ _ (by omega)]; omega

theorem insert_ok (N : Nat) (set : List Nat) (n : ProofNode) (h : NodeOk N set n)
    (hw : ¬ n.right - n.left ≤ 1) :
    NodeOk N set (insertNewProofNode n N set).1 ∧ NodeOk N set (insertNewProofNode n N set).2 := by
  obtain ⟨h1, h2, _⟩ := h
  simp only [NodeOk, insertNewProofNode, accumulateNew]
  refine ⟨⟨by omega, by omega, .inl ?_⟩, ⟨by omega, by omega, .inl ?_⟩⟩
  · rw [accumulate_eq _ _ _ (by rw [slice_length _ _ _ (by omega)]; omega), Nat.mod_mod]
  · rw [accumulate_eq _ _ _ (by rw [slice_length _ _ _ (by omega)]; omega), Nat.mod_mod]

/-- Sum of the numbers of cuts still needed. -/
def cutsLeft (nodes : List ProofNode) : Nat := (nodes.map (fun n => n.right - n.left - 1)).sum

theorem iterPass_spec (N : Nat) (set : List Nat) (nodes : List ProofNode) (h : ∀ n ∈ nodes, NodeOk N set n) :
    nodeWitnesses N set (iterPass N set nodes).1 = nodeWitnesses N set nodes ∧
    (∀ n ∈ (iterPass N set nodes).1, NodeOk N set n) ∧
    ((iterPass N set nodes).2 = true → cutsLeft (iterPass N set nodes).1 < cutsLeft nodes) ∧
    cutsLeft (iterPass N set nodes).1 ≤ cutsLeft nodes ∧
    ((iterPass N set nodes).2 = false → (iterPass N set nodes).1 = nodes ∧
      ∀ n ∈ nodes, n.right - n.left ≤ 1) := by
  induction nodes with
  | nil => simp [iterPass, nodeWitnesses]
  | cons n rest ih =>
    obtain ⟨i1, i2, i3, i4, i5⟩ := ih (fun m hm => h m (List.mem_cons_of_mem _ hm))
    have hn := h n List.mem_cons_self
    rw [iterPass]
    by_cases hw : n.right - n.left ≤ 1
    · rw [if_pos hw]
      refine ⟨?_, ?_, ?_, ?_, ?_⟩
      · simp only [nodeWitnesses, List.flatMap_cons] at i1 ⊢; rw [i1]
      · intro m hm
        rcases List.mem_cons.1 hm with rfl | hm
        · exact hn
        · exact i2 m hm
      · intro hf; have := i3 hf; simp only [cutsLeft, List.map_cons, List.sum_cons] at this ⊢; omega
      · simp only [cutsLeft, List.map_cons, List.sum_cons] at i4 ⊢; omega
      · intro hf
        obtain ⟨e, hall⟩ := i5 hf
        refine ⟨by simp only [e], ?_⟩
        intro m hm
        rcases List.mem_cons.1 hm with rfl | hm
        · exact hw
        · exact hall m hm
    · rw [if_neg hw]
      have hins := insert_witnesses N set n hn hw
      have hok := insert_ok N set n hn hw
      refine ⟨?_, ?_, ?_, ?_, ?_⟩
      · simp only [nodeWitnesses, List.flatMap_cons, List.flatMap_nil, List.append_nil] at i1 hins ⊢
        rw [i1, ← hins, List.append_assoc]
      · intro m hm
        simp only [List.mem_cons] at hm
        rcases hm with rfl | rfl | hm
        · exact hok.1
        · exact hok.2
        · exact i2 m hm
      · intro _
        simp only [cutsLeft, List.map_cons, List.sum_cons, insertNewProofNode] at i4 ⊢; omega
      · simp only [cutsLeft, List.map_cons, List.sum_cons, insertNewProofNode] at i4 ⊢; omega
      · intro hf; cases hf

theorem nodeWitnesses_done (N : Nat) (set : List Nat) (nodes : List ProofNode) (h : ∀ n ∈ nodes, NodeOk N set n)
    (hd : ∀ n ∈ nodes, n.right - n.left ≤ 1) : nodeWitnesses N set nodes = nodes.map (fun n => n.proof) := by
  induction nodes with
  | nil => simp [nodeWitnesses]
  | cons n rest ih =>
    have ih' := ih (fun m hm => h m (List.mem_cons_of_mem _ hm)) (fun m hm => hd m (List.mem_cons_of_mem _ hm))
    obtain ⟨h1, h2, h3⟩ := h n List.mem_cons_self
    have h4 := hd n List.mem_cons_self
    have hp : n.proof % N = n.proof := by rcases h3 with h3 | h3 <;> omega
    have hlen := slice_length set n.left n.right h2
    simp only [nodeWitnesses, List.flatMap_cons, List.map_cons] at ih' ⊢
    rw [ih']
    obtain ⟨x, hx⟩ : ∃ x, slice set n.left n.right = [x] := List.length_eq_one_iff.1 (by omega)
    rw [hx]
    simp [witnesses, witness, allBut, hp]

theorem iterLoop_spec (N : Nat) (set : List Nat) (fuel : Nat) (nodes : List ProofNode)
    (h : ∀ n ∈ nodes, NodeOk N set n) (hf : cutsLeft nodes < fuel) :
    ∃ out, iterLoop N set fuel nodes = some out ∧ out.map (fun n => n.proof) = nodeWitnesses N set nodes := by
  induction fuel generalizing nodes with
  | zero => omega
  | succ fuel ih =>
    obtain ⟨i1, i2, i3, i4, i5⟩ := iterPass_spec N set nodes h
    rw [iterLoop]
    by_cases hb : (iterPass N set nodes).2 = true
    · simp only [hb, if_true]
      obtain ⟨out, ho, hw⟩ := ih _ i2 (by have := i3 hb; omega)
      exact ⟨out, ho, by rw [hw, i1]⟩
    · simp only [hb, if_false]
      obtain ⟨e, hall⟩ := i5 (by simpa using hb)
      refine ⟨_, rfl, ?_⟩
      rw [e, nodeWitnesses_done N set nodes h hall]

theorem iter_eq (base N : Nat) (set : List Nat) (fuel : Nat) (hfuel : set.length ≤ fuel)
    (hb : base % N = base ∨ 2 ≤ set.length) :
    proveMembershipIterFuel fuel base N set = some (witnesses base N set) := by
  unfold proveMembershipIterFuel
  split
  · rename_i h
    have : set = [] := List.eq_nil_of_length_eq_zero (by omega)
    subst this
    simp [witnesses]
  · rename_i h
    obtain ⟨out, ho, hw⟩ := iterLoop_spec N set fuel [{ left := 0, right := set.length, proof := base }]
      (by intro n hn; simp only [List.mem_singleton] at hn; subst hn
          refine ⟨by simp only; omega, Nat.le_refl _, ?_⟩
          simpa using hb)
      (by simp [cutsLeft]; omega)
    rw [ho, Option.map_some, hw]
    simp [nodeWitnesses, slice_full]

end Verif.Lemmas
