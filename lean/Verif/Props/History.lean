import Verif.Props.Ledger

/-!
# Property C126: a record hash fixes the history of its user

Every inserted record contains the hash of the record it replaces (zkmultiswap/circuit.go:79, "Check HashChain").
-/

namespace Verif.Props
open Verif.Go Verif.Model Verif.Lemmas Verif.Spec

/-- A history, youngest record first: every record contains the hash of the one it replaced, belongs to the same user and is
younger. -/
def Linked (E : Env) (l : List Record) : Prop :=
  l.IsChain fun r s => r.chain = s.digest E ∧ r.id = s.id ∧ s.epoch < r.epoch

/-- `l` is a history of the record `r` that begins in the ledger `R0` and goes on with records from `I`. -/
structure HistoryOf (E : Env) (R0 I : Multiset Record) (r : Record) (l : List Record) : Prop where
  head : l.head? = some r
  linked : Linked E l
  first : ∃ r0 ∈ R0, l.getLast? = some r0
  later : ∀ s ∈ l.dropLast, s ∈ I

/-- Two histories with the same last hash: the longer one continues the shorter one into the past. -/
theorem C126_prefix (E : Env) (U : Set Record) (hU : Set.InjOn (Record.digest E) U) (r r' : Record) (l l' : List Record)
    (hl : Linked E (r :: l)) (hl' : Linked E (r' :: l')) (hr : ∀ s ∈ r :: l, s ∈ U) (hr' : ∀ s ∈ r' :: l', s ∈ U)
    (h : r.digest E = r'.digest E) : (r :: l) <+: (r' :: l') ∨ (r' :: l') <+: (r :: l) := by
  induction l generalizing r r' l' with
  | nil =>
    obtain rfl := hU (hr r (by simp)) (hr' r' (by simp)) h
    exact Or.inl (by simp)
  | cons s l ih =>
    obtain rfl := hU (hr r (by simp)) (hr' r' (by simp)) h
    cases l' with
    | nil => exact Or.inr (by simp)
    | cons s' l' =>
      have a := (List.isChain_cons_cons.1 hl)
      have b := (List.isChain_cons_cons.1 hl')
      have hs : s.digest E = s'.digest E := a.1.1.symm.trans b.1.1
      rcases ih s s' l' a.2 b.2 (fun x hx => hr x (List.mem_cons_of_mem _ hx)) (fun x hx => hr' x (List.mem_cons_of_mem _ hx)) hs
        with h | h
      · exact Or.inl (List.cons_prefix_cons.2 ⟨rfl, h⟩)
      · exact Or.inr (List.cons_prefix_cons.2 ⟨rfl, h⟩)

/-- C126: after any number of accepted updates every record of the ledger has a history that begins in the first ledger. -/
theorem C126_history (E : Env) (R0 : Multiset Record) (U : Set Record)
    (hU : Set.InjOn (Record.digest E) U) (hR0 : ∀ r ∈ R0, r ∈ U) (cs : List Circuit) (S : Multiset Nat)
    (h : Updates E (circuitAccepts E) (R0.map (Record.digest E)) cs S)
    (hr : ∀ r ∈ allRemoved cs, r ∈ U) (hi : ∀ r ∈ allInserted E cs, r ∈ U) :
    ∀ d ∈ S, ∃ r l, r.digest E = d ∧ HistoryOf E R0 (allInserted E cs) r l := by
  induction h with
  | start =>
    intro d hd
    obtain ⟨r, hr, rfl⟩ := Multiset.mem_map.1 hd
    exact ⟨r, [r], rfl, rfl, List.isChain_singleton _, ⟨r, hr, rfl⟩, by simp⟩
  | @update cs T c hT hc hle ih =>
    have a1 : allRemoved (cs ++ [c]) = allRemoved cs + removedRecords c := by simp [allRemoved]
    have a2 : allInserted E (cs ++ [c]) = allInserted E cs + insertedRecords E c := by simp [allInserted]
    rw [a1] at hr
    rw [a2] at hi ⊢
    have ih := ih (fun r h => hr r (Multiset.mem_add.2 (Or.inl h))) (fun r h => hi r (Multiset.mem_add.2 (Or.inl h)))
    intro d hd
    rcases Multiset.mem_add.1 hd with hd | hd
    · obtain ⟨r, l, e1, e2⟩ := ih d (Multiset.mem_of_le tsub_le_self hd)
      exact ⟨r, l, e1, e2.head, e2.linked, e2.first, fun s hs => Multiset.mem_add.2 (Or.inl (e2.later s hs))⟩
    · obtain ⟨r, hrI, rfl⟩ := Multiset.mem_map.1 hd
      have hrI' := hrI
      rw [insertedRecords, Multiset.mem_map] at hrI'
      obtain ⟨i, hi1, rfl⟩ := hrI'
      have hs := (Lemmas.accepts_iff E c).1 hc
      have hmem : (⟨col c.userID i, col c.originalBalances i, col c.originalUpdEpoch i, col c.originalHashes i⟩ : Record) ∈
          removedRecords c := Multiset.mem_map_of_mem _ hi1
      generalize hold : (⟨col c.userID i, col c.originalBalances i, col c.originalUpdEpoch i, col c.originalHashes i⟩ :
        Record) = old at hmem
      obtain ⟨r, l, e1, e2⟩ := ih _ (Multiset.mem_of_le hle (Multiset.mem_map_of_mem _ hmem))
      have hrU : r ∈ U := by
        have hh := e2.head
        by_cases hl : r ∈ l.dropLast
        · exact hi r (Multiset.mem_add.2 (Or.inl (e2.later r hl)))
        · obtain ⟨r0, hr0, hlast⟩ := e2.first
          have : r ∈ l := List.mem_of_mem_head? hh
          rw [← List.dropLast_append_getLast? r0 hlast, List.mem_append] at this
          rcases this with h | h
          · exact absurd h hl
          · rw [List.mem_singleton.1 h]
            exact hR0 r0 hr0
      obtain rfl : r = old := hU hrU (hr _ (Multiset.mem_add.2 (Or.inr hmem))) e1
      obtain ⟨t, rfl⟩ : ∃ t, l = r :: t := by
        cases l with
        | nil => simpa using e2.head
        | cons x t => exact ⟨t, by simpa using e2.head⟩
      refine ⟨_, ⟨col c.userID i, col c.updatedBalances i, c.currentEpochNum, oldRecord E c i⟩ :: r :: t, rfl, rfl, ?_, ?_, ?_⟩
      · refine List.isChain_cons_cons.2 ⟨⟨?_, ?_, ?_⟩, e2.linked⟩
        · rw [← hold]; rfl
        · rw [← hold]
        · rw [← hold]; exact (hs.users i (Multiset.mem_range.1 hi1)).2.1
      · obtain ⟨r0, hr0, hlast⟩ := e2.first
        exact ⟨r0, hr0, by rw [List.getLast?_cons_cons]; exact hlast⟩
      · intro s hs
        rw [List.dropLast_cons_cons, List.mem_cons] at hs
        rcases hs with rfl | hs
        · exact Multiset.mem_add.2 (Or.inr hrI)
        · exact Multiset.mem_add.2 (Or.inl (e2.later s hs))

/-- C126: if the first records contain no record hashes, the history of a hash is unique: a user who knows the hash of their
record cannot be shown two different histories. -/
theorem C126_unique (E : Env) (U : Set Record) (hU : Set.InjOn (Record.digest E) U) (R0 R0' I I' : Multiset Record)
    (h0 : ∀ r ∈ R0, r ∈ U ∧ ∀ s ∈ U, r.chain ≠ s.digest E) (h0' : ∀ r ∈ R0', r ∈ U ∧ ∀ s ∈ U, r.chain ≠ s.digest E)
    (hI : ∀ r ∈ I, r ∈ U) (hI' : ∀ r ∈ I', r ∈ U) (r r' : Record) (l l' : List Record) (h : HistoryOf E R0 I r l)
    (h' : HistoryOf E R0' I' r' l') (hd : r.digest E = r'.digest E) : l = l' := by
  have mem : ∀ (A B : Multiset Record) (x : Record) (k : List Record), (∀ r ∈ A, r ∈ U ∧ ∀ s ∈ U, r.chain ≠ s.digest E) →
      (∀ r ∈ B, r ∈ U) → HistoryOf E A B x k → (∀ s ∈ k, s ∈ U) ∧ ∃ t, k = x :: t := by
    intro A B x k hA hB hk
    obtain ⟨r0, hr0, hlast⟩ := hk.first
    refine ⟨fun s hs => ?_, ?_⟩
    · rw [← List.dropLast_append_getLast? r0 hlast, List.mem_append, List.mem_singleton] at hs
      rcases hs with h | rfl
      · exact hB s (hk.later s h)
      · exact (hA s hr0).1
    · have := hk.head
      cases k with
      | nil => simp at this
      | cons y t => exact ⟨t, by simpa using this⟩
  -- a history that begins in a first record has no proper continuation
  have ends : ∀ (A B : Multiset Record) (x : Record) (k m : List Record),
      (∀ r ∈ A, r ∈ U ∧ ∀ s ∈ U, r.chain ≠ s.digest E) → HistoryOf E A B x k → Linked E m → (∀ s ∈ m, s ∈ U) → k <+: m → k = m := by
    intro A B x k m hA hk hm hmU hp
    obtain ⟨z, rfl⟩ := hp
    cases z with
    | nil => rw [List.append_nil]
    | cons y z =>
      exfalso
      obtain ⟨r0, hr0, hlast⟩ := hk.first
      rw [← List.dropLast_append_getLast? r0 hlast, List.append_assoc] at hm
      have hc := (List.isChain_append.1 hm).2.1
      exact (hA r0 hr0).2 y (hmU y (by simp)) (List.isChain_cons_cons.1 hc).1.1
  obtain ⟨m1, t, rfl⟩ := mem R0 I r l h0 hI h
  obtain ⟨m2, t', rfl⟩ := mem R0' I' r' l' h0' hI' h'
  rcases C126_prefix E U hU r r' t t' h.linked h'.linked m1 m2 hd with hp | hp
  · exact ends R0 I r _ _ h0 h h'.linked m2 hp
  · exact (ends R0' I' r' _ _ h0' h' h.linked m1 hp).symm

/-- The history of the second user in the example of C123, and the hypotheses of `C126_unique` for its ledger. -/
example : HistoryOf sumEnv threeRecords (allInserted sumEnv [goodCircuit, nextCircuit]) ⟨2, 6, 21, 54⟩
      [⟨2, 6, 21, 54⟩, ⟨2, 9, 20, 23⟩, ⟨2, 7, 10, 4⟩] ∧
    ∀ r ∈ threeRecords, ∀ s ∈ threeRecords + allInserted sumEnv [goodCircuit, nextCircuit], r.chain ≠ s.digest sumEnv := by
  refine ⟨⟨rfl, ?_, ⟨⟨2, 7, 10, 4⟩, by decide +kernel, rfl⟩, by decide +kernel⟩, by decide +kernel⟩
  refine List.isChain_cons_cons.2 ⟨by decide +kernel, List.isChain_cons_cons.2 ⟨by decide +kernel, List.isChain_singleton _⟩⟩

end Verif.Props
