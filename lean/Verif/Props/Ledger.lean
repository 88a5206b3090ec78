import Verif.Props.MultiSwap
import Verif.Spec.Ledger
import Mathlib.Data.Multiset.UnionInter
import Mathlib.Algebra.Order.Group.Multiset

/-!
# Properties C123 and C124: no record is spent twice; the sums of an update

A ledger starts with one record per user and is changed by accepted updates. As long as Poseidon has no collision among the
records, every record is removed at most once, no removed record comes back, every user keeps exactly one record, and the
total changes by the changes of the updates. The sums in the circuit are tied to nothing, so the total is not checked.
-/

namespace Verif.Props
open Verif.Go Verif.Model Verif.Lemmas Verif.Spec

/-- The circuit accepts. -/
def circuitAccepts (E : Env) (c : Circuit) : Prop := define E c = .ok true

/-- What holds after every update: `R` are the current records, `P` the removed ones. -/
structure LedgerInv (R P : Multiset Record) : Prop where
  ids : (R.map Record.id).Nodup
  past : P.Nodup
  older : ∀ p ∈ P, ∃ r ∈ R, r.id = p.id ∧ p.epoch < r.epoch

theorem same_id {R : Multiset Record} (h : (R.map Record.id).Nodup) {r s : Record} (hr : r ∈ R) (hs : s ∈ R)
    (he : r.id = s.id) : r = s := Multiset.inj_on_of_nodup_map h r hr s hs he

theorem removed_ids (E : Env) (c : Circuit) :
    (insertedRecords E c).map Record.id = (removedRecords c).map Record.id := by
  rw [insertedRecords, removedRecords, Multiset.map_map, Multiset.map_map]
  rfl

/-- Every removed record is replaced by a younger one of the same user. -/
theorem replaced (E : Env) (c : Circuit) (h : circuitAccepts E c) : ∀ p ∈ removedRecords c,
    ∃ r ∈ insertedRecords E c, r.id = p.id ∧ p.epoch < r.epoch := by
  intro p hp
  rw [removedRecords, Multiset.mem_map] at hp
  obtain ⟨i, hi, rfl⟩ := hp
  have s := (Lemmas.accepts_iff E c).1 h
  exact ⟨_, Multiset.mem_map_of_mem _ hi, rfl, (s.users i (Multiset.mem_range.1 hi)).2.1⟩

theorem ledger_step (E : Env) (c : Circuit) (h : circuitAccepts E c) (R P : Multiset Record) (inv : LedgerInv R P)
    (hle : removedRecords c ≤ R) :
    LedgerInv (R - removedRecords c + insertedRecords E c) (P + removedRecords c) ∧
    (R - removedRecords c + insertedRecords E c).map Record.id = R.map Record.id := by
  have hids : (R - removedRecords c + insertedRecords E c).map Record.id = R.map Record.id := by
    rw [Multiset.map_add, removed_ids, ← Multiset.map_add, Multiset.sub_add_cancel hle]
  have hR : R.Nodup := Multiset.Nodup.of_map _ inv.ids
  refine ⟨⟨hids ▸ inv.ids, ?_, ?_⟩, hids⟩
  · rw [Multiset.nodup_add]
    refine ⟨inv.past, Multiset.nodup_of_le hle hR, ?_⟩
    rw [Multiset.disjoint_left]
    intro p hp hd
    obtain ⟨r, hr, hid, hlt⟩ := inv.older p hp
    rw [same_id inv.ids hr (Multiset.mem_of_le hle hd) hid] at hlt
    exact absurd hlt (lt_irrefl _)
  · intro p hp
    rw [Multiset.mem_add] at hp
    rcases hp with hp | hp
    · obtain ⟨r, hr, hid, hlt⟩ := inv.older p hp
      by_cases hd : r ∈ removedRecords c
      · obtain ⟨r', hr', hid', hlt'⟩ := replaced E c h r hd
        exact ⟨r', Multiset.mem_add.2 (Or.inr hr'), hid'.trans hid, hlt.trans hlt'⟩
      · exact ⟨r, Multiset.mem_add.2 (Or.inl (Multiset.mem_sub_of_nodup hR |>.2 ⟨hr, hd⟩)), hid, hlt⟩
    · obtain ⟨r', hr', hid', hlt'⟩ := replaced E c h p hp
      exact ⟨r', Multiset.mem_add.2 (Or.inr hr'), hid', hlt'⟩

/-- A function without collisions on `U` maps only sub-multisets to sub-multisets. -/
theorem le_of_map_le {α β : Type} [DecidableEq α] [DecidableEq β] (f : α → β) (U : Set α) (hf : Set.InjOn f U) (D R : Multiset α)
    (hD : ∀ d ∈ D, d ∈ U) (hR : ∀ r ∈ R, r ∈ U) (h : D.map f ≤ R.map f) : D ≤ R := by
  rw [Multiset.le_iff_count]
  intro a
  by_cases ha : a ∈ D
  · have e1 : Multiset.count (f a) (D.map f) = Multiset.count a D :=
      Multiset.count_map_eq_count f D (fun x hx y hy => hf (hD x hx) (hD y hy)) a ha
    have h1 := Multiset.le_iff_count.1 h (f a)
    have hm : f a ∈ R.map f := Multiset.mem_of_le h (Multiset.mem_map_of_mem f ha)
    obtain ⟨b, hb, hfb⟩ := Multiset.mem_map.1 hm
    have hab : b = a := hf (hR b hb) (hD a ha) hfb
    subst hab
    have e2 : Multiset.count (f b) (R.map f) = Multiset.count b R :=
      Multiset.count_map_eq_count f R (fun x hx y hy => hf (hR x hx) (hR y hy)) b hb
    omega
  · rw [Multiset.count_eq_zero.2 ha]
    exact Nat.zero_le _

theorem total_add (R S : Multiset Record) : totalBalance (R + S) = totalBalance R + totalBalance S := by
  rw [totalBalance, Multiset.map_add, Multiset.sum_add]
  rfl

theorem total_change (E : Env) (c : Circuit) : totalBalance (insertedRecords E c) =
    totalBalance (removedRecords c) + balanceChange c.originalBalances c.updatedBalances c.userID.length := by
  have key : ∀ (n : Nat) (f : Nat → Int), ((Multiset.range n).map f).sum = ∑ i ∈ Finset.range n, f i := fun _ _ => rfl
  rw [totalBalance, totalBalance, insertedRecords, removedRecords, Multiset.map_map, Multiset.map_map, key, key, balanceChange,
    ← Finset.sum_add_distrib]
  refine Finset.sum_congr rfl fun i _ => ?_
  simp only [Function.comp_apply]
  omega

/-- All that holds for the ledger, by induction over the updates. -/
theorem ledger_all (E : Env) (R0 : Multiset Record) (h0 : (R0.map Record.id).Nodup) (U : Set Record)
    (hU : Set.InjOn (Record.digest E) U) (hR0 : ∀ r ∈ R0, r ∈ U) (cs : List Circuit) (S : Multiset Nat)
    (h : Updates E (circuitAccepts E) (R0.map (Record.digest E)) cs S)
    (hr : ∀ r ∈ allRemoved cs, r ∈ U) (hi : ∀ r ∈ allInserted E cs, r ∈ U) :
    ∃ R : Multiset Record, S = R.map (Record.digest E) ∧ R.map Record.id = R0.map Record.id ∧
      R + allRemoved cs = R0 + allInserted E cs ∧
      totalBalance R = totalBalance R0 +
        (cs.map fun c => balanceChange c.originalBalances c.updatedBalances c.userID.length).sum ∧
      LedgerInv R (allRemoved cs) := by
  induction h with
  | start =>
    refine ⟨R0, rfl, rfl, by simp [allRemoved, allInserted], by simp, ⟨h0, by simp [allRemoved], by simp [allRemoved]⟩⟩
  | @update cs T c hT hc hle ih =>
    have a1 : allRemoved (cs ++ [c]) = allRemoved cs + removedRecords c := by simp [allRemoved]
    have a2 : allInserted E (cs ++ [c]) = allInserted E cs + insertedRecords E c := by simp [allInserted]
    rw [a1] at hr ⊢
    rw [a2] at hi ⊢
    obtain ⟨R, rfl, hid, hcons, htot, inv⟩ := ih (fun r h => hr r (Multiset.mem_add.2 (Or.inl h)))
      (fun r h => hi r (Multiset.mem_add.2 (Or.inl h)))
    have hRU : ∀ r ∈ R, r ∈ U := by
      intro r h
      have : r ∈ R0 + allInserted E cs := hcons ▸ Multiset.mem_add.2 (Or.inl h)
      rcases Multiset.mem_add.1 this with h | h
      · exact hR0 r h
      · exact hi r (Multiset.mem_add.2 (Or.inl h))
    have hle' := le_of_map_le (Record.digest E) U hU (removedRecords c) R
      (fun r h => hr r (Multiset.mem_add.2 (Or.inr h))) hRU hle
    obtain ⟨inv', hid'⟩ := ledger_step E c hc R _ inv hle'
    obtain ⟨K, rfl⟩ := Multiset.le_iff_exists_add.1 hle'
    rw [add_tsub_cancel_left] at inv' hid'
    refine ⟨K + insertedRecords E c, ?_, hid'.trans hid, ?_, ?_, inv'⟩
    · rw [Multiset.map_add, Multiset.map_add, add_tsub_cancel_left]
    · rw [← add_assoc R0, ← hcons]
      ac_rfl
    · rw [total_add] at htot
      rw [total_add, total_change E c, List.map_append, List.sum_append, List.map_singleton, List.sum_singleton]
      omega

/-- C123: the ledger after any number of accepted updates. `R0` are the first records, `U` is a set of records without
collision that contains all that occur. The ledger consists of the hashes of one record per user, the inserted records are
those that were removed or are still there, and the total balance is the first one plus all changes. -/
theorem C123_ledger (E : Env) (R0 : Multiset Record) (h0 : (R0.map Record.id).Nodup) (U : Set Record)
    (hU : Set.InjOn (Record.digest E) U) (hR0 : ∀ r ∈ R0, r ∈ U) (cs : List Circuit) (S : Multiset Nat)
    (h : Updates E (circuitAccepts E) (R0.map (Record.digest E)) cs S)
    (hr : ∀ r ∈ allRemoved cs, r ∈ U) (hi : ∀ r ∈ allInserted E cs, r ∈ U) :
    ∃ R : Multiset Record, S = R.map (Record.digest E) ∧ R.map Record.id = R0.map Record.id ∧
      R + allRemoved cs = R0 + allInserted E cs ∧
      totalBalance R = totalBalance R0 +
        (cs.map fun c => balanceChange c.originalBalances c.updatedBalances c.userID.length).sum := by
  obtain ⟨R, h1, h2, h3, h4, -⟩ := ledger_all E R0 h0 U hU hR0 cs S h hr hi
  exact ⟨R, h1, h2, h3, h4⟩

/-- C123: every record is removed at most once, and a removed record is not in the ledger: its hash occurs neither twice among
the removed hashes nor among those of the ledger. -/
theorem C123_once (E : Env) (R0 : Multiset Record) (h0 : (R0.map Record.id).Nodup) (U : Set Record)
    (hU : Set.InjOn (Record.digest E) U) (hR0 : ∀ r ∈ R0, r ∈ U) (cs : List Circuit) (S : Multiset Nat)
    (h : Updates E (circuitAccepts E) (R0.map (Record.digest E)) cs S)
    (hr : ∀ r ∈ allRemoved cs, r ∈ U) (hi : ∀ r ∈ allInserted E cs, r ∈ U) :
    (S + (allRemoved cs).map (Record.digest E)).Nodup := by
  obtain ⟨R, rfl, -, hcons, -, inv⟩ := ledger_all E R0 h0 U hU hR0 cs S h hr hi
  rw [← Multiset.map_add]
  have hn : (R + allRemoved cs).Nodup := by
    rw [Multiset.nodup_add]
    refine ⟨Multiset.Nodup.of_map _ inv.ids, inv.past, ?_⟩
    rw [Multiset.disjoint_left]
    intro p hp hd
    obtain ⟨r, hr, hid, hlt⟩ := inv.older p hd
    rw [same_id inv.ids hr hp hid] at hlt
    exact absurd hlt (lt_irrefl _)
  refine Multiset.Nodup.map_on (fun x hx y hy hxy => hU ?_ ?_ hxy) hn
  · rw [hcons, Multiset.mem_add] at hx
    exact hx.elim (hR0 x) (hi x)
  · rw [hcons, Multiset.mem_add] at hy
    exact hy.elim (hR0 y) (hi y)

/-- The update after `goodCircuit`: in epoch 21 the balance of the second user goes from 9 to 6. -/
def nextCircuit : Circuit :=
  { goodCircuit with
    remainderR1 := 171, remainderR2 := 400, currentEpochNum := 21, originalSum := 10002, updatedSum := 9999
    originalBalances := [5, 9], originalHashes := [19, 23], originalUpdEpoch := [20, 20], updatedBalances := [5, 6] }

/-- The records of two users and of a third one that is not updated. -/
def threeRecords : Multiset Record := {⟨1, 5, 10, 3⟩, ⟨2, 7, 10, 4⟩, ⟨3, 11, 9, 100⟩}

/-- Two accepted updates, one after the other, without a collision. -/
example : ∃ S, (threeRecords.map Record.id).Nodup ∧
    Updates sumEnv (circuitAccepts sumEnv) (threeRecords.map (Record.digest sumEnv)) [goodCircuit, nextCircuit] S ∧
    Set.InjOn (Record.digest sumEnv) {r | r ∈ threeRecords + allInserted sumEnv [goodCircuit, nextCircuit]} ∧
    (∀ r ∈ allRemoved [goodCircuit, nextCircuit], r ∈ threeRecords + allInserted sumEnv [goodCircuit, nextCircuit]) ∧
    S = {72, 83, 123} := by
  refine ⟨_, by decide +kernel, .update nextCircuit (.update goodCircuit .start ?_ ?_) ?_ ?_, ?_, ?_, ?_⟩
  · exact (by decide +kernel : define sumEnv goodCircuit = .ok true)
  · decide +kernel
  · exact (by decide +kernel : define sumEnv nextCircuit = .ok true)
  · decide +kernel
  · have : ∀ r ∈ threeRecords + allInserted sumEnv [goodCircuit, nextCircuit],
        ∀ t ∈ threeRecords + allInserted sumEnv [goodCircuit, nextCircuit],
        Record.digest sumEnv r = Record.digest sumEnv t → r = t := by decide +kernel
    exact fun r hr t ht => this r hr t ht
  · decide +kernel
  · decide +kernel

/-! ## C124 -/

/-- C124: the sums of an accepted update are the total balances of the ledger before and after it. -/
def C124_statement : Prop := ∀ (E : Env) (R : Multiset Record) (c : Circuit), circuitAccepts E c → removedRecords c ≤ R →
  (c.originalSum : Int) = totalBalance R ∧ (c.updatedSum : Int) = totalBalance (R - removedRecords c + insertedRecords E c)

/-- C124: an accepted update stays accepted for all sums of 32 bits with the same difference. The sums are secret inputs, so
the public inputs stay the same. -/
theorem C124_any_sums (E : Env) (c : Circuit) (h : circuitAccepts E c) (s u : Nat) (hs : s < 2 ^ 32) (hu : u < 2 ^ 32)
    (hd : (u : Int) - s = c.updatedSum - c.originalSum) :
    circuitAccepts E { c with originalSum := s, updatedSum := u } := by
  have t := (Lemmas.accepts_iff E c).1 h
  refine (Lemmas.accepts_iff E _).2 ⟨t.lens, t.rand1, t.rand2, t.delta1, t.delta2, t.rem1, t.rem2, t.epoch, hs, hu, t.ids, t.users,
    t.r1, t.r2, ?_⟩
  have h1 := sumEnd_modEq c
  have h2 := sumEnd_modEq { c with originalSum := s, updatedSum := u }
  rw [t.sum] at h1
  have h3 : (sumEnd { c with originalSum := s, updatedSum := u } : Int) ≡ u [ZMOD frOrder] := by
    refine h2.trans ?_
    have h4 := h1.symm.add_right ((s : Int) - c.originalSum)
    have e1 : (c.updatedSum : Int) + (s - c.originalSum) = u := by omega
    rw [e1] at h4
    refine Eq.trans (congrArg (fun x : Int => x % (frOrder : Int)) ?_) h4
    change (s : Int) + ((userAt c 0).ub - (userAt c 0).ob) +
      ((List.range c.userID.length).map (fun i => ((userAt c i).ub : Int) - (userAt c i).ob)).sum = _
    ring
  have h5 := sumEnd_lt { c with originalSum := s, updatedSum := u }
  have h6 : u < frOrder := hu.trans (by decide +kernel)
  exact Nat.ModEq.eq_of_lt_of_lt (Int.natCast_modEq_iff.1 h3) h5 h6

/-- The sums of `goodCircuit` are 10000 and 10002, those of its two users 12 and 14. -/
theorem C124_violated : ¬ C124_statement := by
  intro h
  have := (h sumEnv (removedRecords goodCircuit) goodCircuit
    (by decide +kernel : define sumEnv goodCircuit = .ok true) le_rfl).1
  revert this
  decide +kernel

/-- C124, what holds: if the first balance does not change, the difference of the sums is the change of the total; in every
case the total changes by less than 2^33. Missing from the full statement: the sums themselves. -/
theorem C124_difference_partial (E : Env) (R : Multiset Record) (c : Circuit) (hn : c.userID.length < 2 ^ 63)
    (h : circuitAccepts E c) (hR : removedRecords c ≤ R) :
    (col c.updatedBalances 0 = col c.originalBalances 0 →
      totalBalance (R - removedRecords c + insertedRecords E c) - totalBalance R = c.updatedSum - c.originalSum) ∧
    |totalBalance (R - removedRecords c + insertedRecords E c) - totalBalance R| < 2 ^ 33 := by
  obtain ⟨K, rfl⟩ := Multiset.le_iff_exists_add.1 hR
  have e := C60_first_counts_twice_partial E c hn h
  have s := (Lemmas.accepts_iff E c).1 h
  have u0 := s.users 0 s.lens.2.2.2.2
  have hs := s.osum
  have hu := s.usum
  rw [add_tsub_cancel_left, total_add, total_add, total_change E c]
  change (c.originalBalances.getD 0 0 < 2 ^ 32 ∧ _ ∧ c.updatedBalances.getD 0 0 < 2 ^ 32) at u0
  rw [col, col] at e ⊢
  constructor
  · intro h0
    omega
  · rw [abs_lt]
    constructor <;> omega

/-- The epoch of `goodCircuit` moves the total of its two users by 2, as the two sums do. -/
example : totalBalance (removedRecords goodCircuit - removedRecords goodCircuit + insertedRecords sumEnv goodCircuit) -
    totalBalance (removedRecords goodCircuit) = 2 :=
  ((C124_difference_partial sumEnv _ goodCircuit (by decide +kernel) (by decide +kernel : define sumEnv goodCircuit = .ok true)
    le_rfl).1 (by decide +kernel)).trans (by decide +kernel)

end Verif.Props
