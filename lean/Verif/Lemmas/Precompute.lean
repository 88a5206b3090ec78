import Verif.Model.Precompute
import Verif.Lemmas.BigInt
import Verif.Lemmas.Bytes
import Verif.Lemmas.Exec
import Mathlib.Algebra.BigOperators.Group.List.Basic

/-! # Lemmas about the precomputation tables -/

namespace Verif.Lemmas
open Verif.Go Verif.Model

variable {N : Nat} [NeZero N]

theorem accumulateInt_eq (b e : Int) (he : 0 ≤ e) :
    accumulateInt b e N = (((b : ZMod N) ^ e.natAbs).val : Int) := by
  unfold accumulateInt
  rw [bigExp_nonneg b e he]; rfl

theorem accumulateInt_cast (b e : Int) (he : 0 ≤ e) : ((accumulateInt b e N : Int) : ZMod N) = (b : ZMod N) ^ e.natAbs := by
  rw [accumulateInt_eq b e he, val_cast]

theorem bigExp_two (d : Nat) : (bigExp 2 d 0).getD 0 = 2 ^ d := by
  unfold bigExp
  by_cases h : d = 0
  · subst h; simp
  · simp only [if_true, Option.getD_some, Int.natAbs_natCast]
    rw [if_neg (by omega)]

/-- Every entry is the `2^step`-th power of the previous one. -/
def Chain (N : Nat) (step : Nat) : ZMod N → List Int → Prop
  | _, [] => True
  | G, b :: bs => (b : ZMod N) = G ∧ Chain N step (G ^ 2 ^ step) bs

theorem genPreTableLoop_chain (step k : Nat) (b : Int) (m : Nat) :
    Chain N step ((b : ZMod N) ^ 2 ^ step) (genPreTableLoop N step k b m).1 ∧
    (genPreTableLoop N step k b m).1.length = k ∧ (genPreTableLoop N step k b m).2.length = k ∧
    ∀ j, j < k → (genPreTableLoop N step k b m).2[j]? = some (m + (j + 1) * step) := by
  induction k generalizing b m with
  | zero => exact ⟨trivial, rfl, rfl, by omega⟩
  | succ k ih =>
    simp only [genPreTableLoop]
    have hb : ((accumulateInt b ((bigExp 2 step 0).getD 0) N : Int) : ZMod N) = (b : ZMod N) ^ 2 ^ step := by
      rw [bigExp_two, accumulateInt_cast _ _ (by positivity)]
      rw [Int.natAbs_pow]; rfl
    obtain ⟨h1, h2, h3, h4⟩ := ih (accumulateInt b ((bigExp 2 step 0).getD 0) N) (m + step)
    refine ⟨⟨hb, ?_⟩, by simp [h2], by simp [h3], ?_⟩
    · rw [hb] at h1; exact h1
    · intro j hj
      cases j with
      | zero => simp
      | succ j =>
        rw [List.getElem?_cons_succ, h4 j (by omega)]
        congr 1; ring

theorem genPreTable_ok (base bitLen tableSize : Int) (h1 : 0 < tableSize) (h2 : tableSize < bitLen) :
    ∃ t step, genPreTable base N bitLen tableSize = .ok t ∧ Chain N step (base : ZMod N) t.base ∧
      t.base.length = tableSize.toNat ∧ t.n.length = tableSize.toNat ∧
      ∀ j, j < tableSize.toNat → t.n[j]? = some (j * step) := by
  unfold genPreTable
  rw [if_neg (by omega), if_neg (by omega), if_neg (by omega)]
  obtain ⟨c1, c2, c3, c4⟩ := genPreTableLoop_chain (N := N) (bitLen / tableSize).toNat (tableSize.toNat - 1) base 0
  refine ⟨_, (bitLen / tableSize).toNat, rfl, ⟨rfl, c1⟩, ?_, ?_, ?_⟩
  · simp [c2]; omega
  · simp [c3]; omega
  · intro j hj
    cases j with
    | zero => simp
    | succ j =>
      simp only
      rw [List.getElem?_cons_succ, c4 j (by omega)]
      congr 1; ring

/-- The residue of a part. -/
def partVal (N : Nat) (p : Int × Int) : ZMod N := (p.1 : ZMod N) ^ p.2.natAbs

theorem splitLoop_prod (n : List Nat) (step : Nat) (hn : ∀ j, j < n.length → n[j]? = some (j * step)) :
    ∀ (k i : Nat) (x : Int) (G : ZMod N) (bs : List Int), 0 ≤ x → i + k < n.length → k < bs.length →
      Chain N step G bs →
      ((bs.zip (splitLoop n k i x)).map (partVal N)).prod = G ^ x.natAbs ∧
      (bs.zip (splitLoop n k i x)).length = k + 1 ∧ ∀ p ∈ bs.zip (splitLoop n k i x), 0 ≤ p.2 := by
  intro k
  induction k with
  | zero =>
    intro i x G bs hx hi hb hc
    cases bs with
    | nil => simp at hb
    | cons b bs =>
      simp only [splitLoop, List.zip_cons_cons, List.zip_nil_right, List.map_cons, List.map_nil, List.prod_cons,
        List.prod_nil, mul_one, List.length_singleton, List.mem_singleton]
      refine ⟨?_, trivial, ?_⟩
      · unfold partVal; rw [hc.1]
      · rintro p rfl; exact hx
  | succ k ih =>
    intro i x G bs hx hi hb hc
    cases bs with
    | nil => simp at hb
    | cons b bs =>
      have hd : n.getD (i + 1) 0 - n.getD i 0 = step := by
        rw [List.getD_eq_getElem?_getD, List.getD_eq_getElem?_getD, hn _ (by omega), hn _ (by omega)]
        simp only [Option.getD_some]
        rw [Nat.add_mul, Nat.one_mul, Nat.add_sub_cancel_left]
      simp only [splitLoop, hd, bigExp_two]
      have hp : (0 : Int) < 2 ^ step := by positivity
      have hx2 : 0 ≤ x / 2 ^ step := Int.ediv_nonneg hx hp.le
      have hx1 : 0 ≤ x % 2 ^ step := Int.emod_nonneg _ hp.ne'
      obtain ⟨i1, i2, i3⟩ := ih (i + 1) (x / 2 ^ step) (G ^ 2 ^ step) bs hx2 (by omega) (by simpa using hb) hc.2
      rw [List.zip_cons_cons, List.map_cons, List.prod_cons, i1, List.length_cons, i2]
      refine ⟨?_, rfl, ?_⟩
      · unfold partVal
        rw [hc.1, ← pow_mul, ← pow_add]
        congr 1
        have h3 := Int.emod_add_mul_ediv x (2 ^ step)
        have e1 : ((x % 2 ^ step).natAbs : Int) = x % 2 ^ step := Int.natAbs_of_nonneg hx1
        have e2 : ((x / 2 ^ step).natAbs : Int) = x / 2 ^ step := Int.natAbs_of_nonneg hx2
        have : (((x % 2 ^ step).natAbs + 2 ^ step * (x / 2 ^ step).natAbs : Nat) : Int) = (x.natAbs : Int) := by
          push_cast
          rw [abs_of_nonneg hx1, abs_of_nonneg hx2, abs_of_nonneg hx]
          exact h3
        exact_mod_cast this
      · intro p hp
        rw [List.mem_cons] at hp
        rcases hp with rfl | hp
        · exact hx1
        · exact i3 p hp

theorem findCounter_lt (n : List Nat) (len : Nat) (h : 0 < n.length) : findCounter n len < n.length := by
  unfold findCounter
  have := List.findIdx_le_length (xs := n) (p := fun v => decide (v ≥ len))
  simp only
  split <;> omega

/-- What is needed about the parts of `x`. -/
structure PartsOk (N : Nat) (base : Int) (x : Int) (parts : List (Int × Int)) : Prop where
  ne : parts ≠ []
  nonneg : ∀ p ∈ parts, 0 ≤ p.2
  prod : (parts.map (partVal N)).prod = (base : ZMod N) ^ x.natAbs

theorem tableParts_ok (base bitLen tableSize : Int) (h1 : 0 < tableSize) (h2 : tableSize < bitLen) :
    ∃ t, genPreTable base N bitLen tableSize = .ok t ∧
      (∀ x, 1 ≤ x → ∃ parts, tableParts t x = .ok parts ∧ PartsOk N base x parts) ∧
      ∀ x, x < 1 → (tableParts t x).panics = true := by
  obtain ⟨t, step, ht, hc, hl1, hl2, hn⟩ := genPreTable_ok (N := N) base bitLen tableSize h1 h2
  refine ⟨t, ht, ?_, ?_⟩
  · intro x hx
    unfold tableParts
    rw [if_neg (by rw [hl1, hl2]; simp), if_neg (by omega), if_neg (by omega)]
    have hlt := findCounter_lt t.n x.natAbs.size (by omega)
    obtain ⟨a, b, c⟩ := splitLoop_prod (N := N) t.n step (by rw [hl2]; exact hn) (findCounter t.n x.natAbs.size) 0 x
      (base : ZMod N) t.base (by omega) (by omega) (by omega) hc
    refine ⟨_, rfl, ?_, c, a⟩
    intro h
    rw [h] at b
    simp at b
  · intro x hx
    unfold tableParts
    rw [if_neg (by rw [hl1, hl2]; simp), if_neg (by omega), if_pos (by omega)]
    rfl

theorem foldl_parts (ps : List (Int × Int)) (hps : ∀ p ∈ ps, 0 ≤ p.2) (a : Int) (ha : 0 ≤ a ∧ a < N) :
    ps.foldl (fun prod q => prod * accumulateInt q.1 q.2 N % N) a =
      (((a : ZMod N) * (ps.map (partVal N)).prod).val : Int) := by
  induction ps generalizing a with
  | nil => simp only [List.foldl_nil, List.map_nil, List.prod_nil, mul_one]; exact eq_val_of_cast ha.1 ha.2 rfl
  | cons p ps ih =>
    rw [List.foldl_cons, ih (fun q hq => hps q (List.mem_cons_of_mem _ hq))]
    · congr 2
      rw [emod_eq_val, val_cast]
      push_cast
      rw [accumulateInt_cast _ _ (hps p List.mem_cons_self), List.map_cons, List.prod_cons, mul_assoc]
      rfl
    · exact ⟨Int.emod_nonneg _ (by have := natN_pos (N := N); omega), Int.emod_lt_of_pos _ natN_pos⟩

theorem pow_emod_eq (b : Int) (k : Nat) : b ^ k % (N : Int) = (((b : ZMod N) ^ k).val : Int) := by
  rw [emod_eq_val]; push_cast; rfl

theorem computeFromTable_of_parts (t : PreTable) (base x : Int) (parts : List (Int × Int))
    (h : tableParts t x = .ok parts) (hp : PartsOk N base x parts) :
    computeFromTable t x N = .ok (base ^ x.natAbs % N) := by
  unfold computeFromTable
  rw [h]
  cases parts with
  | nil => exact absurd rfl hp.ne
  | cons p ps =>
    simp only [bind, Except.bind]
    congr 1
    have h0 := accumulateInt_eq (N := N) p.1 p.2 (hp.nonneg p List.mem_cons_self)
    have hr : 0 ≤ 1 * accumulateInt p.1 p.2 N ∧ 1 * accumulateInt p.1 p.2 (N : Int) < N := by
      rw [one_mul, h0]
      exact ⟨by positivity, val_lt_int _⟩
    rw [foldl_parts ps (fun q hq => hp.nonneg q (List.mem_cons_of_mem _ hq)) _ hr, pow_emod_eq, ← hp.prod]
    rw [one_mul, accumulateInt_cast _ _ (hp.nonneg p List.mem_cons_self), List.map_cons, List.prod_cons]
    rfl

/-! ## Parallel version -/

namespace TableParallel
open Verif.Model.TableParallel

theorem value_cast (p : Int × Int) (hp : 0 ≤ p.2) : ((value N p : Int) : ZMod N) = partVal N p := by
  have h := accumulateInt_cast (N := N) p.1 p.2 hp
  unfold accumulateInt at h
  unfold value partVal
  rw [bigExp_nonneg p.1 p.2 hp] at h ⊢
  exact h

/-- Invariant. `T` is the result. -/
structure Inv (N : Nat) (T : ZMod N) (total : Nat) (s : State) : Prop where
  notCrashed : s.crashed = false
  nonneg : ∀ p ∈ s.pending, 0 ≤ p.2
  loop : ∀ i prod, s.main = .loop i prod → s.closed = false ∧ i + s.queue.length + s.pending.length = total ∧ i < total ∧
    (prod : ZMod N) * (s.queue.map (fun v : Int => (v : ZMod N))).prod * (s.pending.map (partVal N)).prod = T
  ret : ∀ prod, s.main = .returned prod → s.pending = [] ∧ s.queue = [] ∧ prod = (T.val : Int)

theorem inv_init (parts : List (Int × Int)) (hne : parts ≠ []) (hnn : ∀ p ∈ parts, 0 ≤ p.2) :
    Inv N (parts.map (partVal N)).prod parts.length (init parts) where
  notCrashed := rfl
  nonneg := hnn
  loop := by
    intro i prod h
    injection h with h1 h2
    subst h1; subst h2
    refine ⟨rfl, by simp [init], List.length_pos_iff.2 hne, by simp [init]⟩
  ret := by intro prod h; cases h

theorem inv_step (T : ZMod N) (total : Nat) (s s' : State) (hI : Inv N T total s) (h : Step N total s s') :
    Inv N T total s' := by
  cases h with
  | send l r p hc hp hcl hq =>
    refine ⟨hc, ?_, ?_, ?_⟩
    · intro q hq'; apply hI.nonneg; rw [hp]
      simp only [List.mem_append, List.mem_cons] at hq' ⊢; tauto
    · intro i prod hm
      obtain ⟨a1, a2, a3, a4⟩ := hI.loop i prod hm
      rw [hp] at a2 a4
      have hpn := hI.nonneg p (by rw [hp]; simp)
      refine ⟨a1, by simp at a2 ⊢; omega, a3, ?_⟩
      simp only [List.map_append, List.map_cons, List.prod_append, List.prod_cons, List.map_nil, List.prod_nil, mul_one,
        value_cast p hpn] at a4 ⊢
      rw [← a4]; ring
    · intro prod hm
      have := (hI.ret prod hm).1
      rw [hp] at this; simp at this
  | hand l r p i prod hc hp hcl hq hm hlast =>
    obtain ⟨a1, a2, a3, a4⟩ := hI.loop i prod hm
    have hpn := hI.nonneg p (by rw [hp]; simp)
    refine ⟨hc, ?_, ?_, ?_⟩
    · intro q hq'; apply hI.nonneg; rw [hp]
      simp only [List.mem_append, List.mem_cons] at hq' ⊢; tauto
    · intro i' prod' hm'
      injection hm' with e1 e2
      subst e1; subst e2
      rw [hp, hq] at a2 a4
      refine ⟨a1, by simp [hq] at a2 ⊢; omega, by omega, ?_⟩
      simp only [List.map_append, List.map_cons, List.prod_append, List.prod_cons, List.map_nil, List.prod_nil, mul_one,
        hq] at a4 ⊢
      rw [emod_eq_val, val_cast]
      push_cast
      rw [value_cast p hpn, ← a4]; ring
    · intro prod' hm'; cases hm'
  | handLast l r p i prod hc hp hcl hq hm hlast =>
    obtain ⟨a1, a2, a3, a4⟩ := hI.loop i prod hm
    have hpn := hI.nonneg p (by rw [hp]; simp)
    rw [hp, hq] at a2 a4
    have hlr : l = [] ∧ r = [] := by
      simp at a2
      constructor <;> apply List.eq_nil_of_length_eq_zero <;> omega
    obtain ⟨rfl, rfl⟩ := hlr
    refine ⟨hc, by simp, ?_, ?_⟩
    · intro i' prod' hm'; cases hm'
    · intro prod' hm'
      injection hm' with e1
      subst e1
      refine ⟨rfl, hq, ?_⟩
      rw [emod_eq_val]
      congr 2
      simp at a4
      push_cast
      rw [value_cast p hpn, a4]
  | sendClosed l r p hc hp hcl =>
    exfalso
    cases hm : s.main with
    | loop i prod => rw [(hI.loop i prod hm).1] at hcl; cases hcl
    | returned prod => have := (hI.ret prod hm).1; rw [hp] at this; simp at this
  | recv i prod v q hc hq hm hlast =>
    obtain ⟨a1, a2, a3, a4⟩ := hI.loop i prod hm
    refine ⟨hc, hI.nonneg, ?_, ?_⟩
    · intro i' prod' hm'
      injection hm' with e1 e2
      subst e1; subst e2
      rw [hq] at a2 a4
      refine ⟨a1, by simp at a2 ⊢; omega, by omega, ?_⟩
      rw [emod_eq_val, val_cast]
      simp only [List.map_cons, List.prod_cons] at a4
      push_cast
      rw [← a4]; ring
    · intro prod' hm'; cases hm'
  | recvLast i prod v q hc hq hm hlast hcl =>
    obtain ⟨a1, a2, a3, a4⟩ := hI.loop i prod hm
    rw [hq] at a2 a4
    have hlr : q = [] ∧ s.pending = [] := by
      simp at a2
      constructor <;> apply List.eq_nil_of_length_eq_zero <;> omega
    refine ⟨hc, hI.nonneg, ?_, ?_⟩
    · intro i' prod' hm'; cases hm'
    · intro prod' hm'
      injection hm' with e1
      subst e1
      refine ⟨hlr.2, hlr.1, ?_⟩
      rw [hlr.1, hlr.2] at a4
      rw [emod_eq_val]
      congr 2
      simp at a4
      push_cast
      rw [a4]
  | rangeEnd i prod hc hq hcl hm =>
    exfalso
    rw [(hI.loop i prod hm).1] at hcl; cases hcl

theorem inv_exec (T : ZMod N) (total : Nat) (s s' : State) (hI : Inv N T total s) (h : Exec (Step N total) s s') :
    Inv N T total s' := by
  induction h with
  | refl => exact hI
  | tail _ hs ih => exact inv_step T total _ _ ih hs

theorem progress (T : ZMod N) (total : Nat) (s : State) (hI : Inv N T total s) :
    (∃ prod, s.main = .returned prod) ∨ ∃ s', Step N total s s' := by
  cases hm : s.main with
  | returned prod => exact .inl ⟨prod, rfl⟩
  | loop i prod =>
    right
    obtain ⟨a1, a2, a3, a4⟩ := hI.loop i prod hm
    cases hq : s.queue with
    | cons v q =>
      by_cases hl : i + 1 = total
      · exact ⟨_, .recvLast s i prod v q hI.notCrashed hq hm hl a1⟩
      · exact ⟨_, .recv s i prod v q hI.notCrashed hq hm hl⟩
    | nil =>
      cases hp : s.pending with
      | nil => rw [hq, hp] at a2; simp at a2; omega
      | cons p r =>
        by_cases hl : i + 1 = total
        · exact ⟨_, .handLast s [] r p i prod hI.notCrashed hp a1 hq hm hl⟩
        · exact ⟨_, .hand s [] r p i prod hI.notCrashed hp a1 hq hm hl⟩

def weight (s : State) : Nat :=
  2 * s.pending.length + s.queue.length + (if s.crashed then 0 else 1) +
    (match s.main with | .loop _ _ => 1 | .returned _ => 0)

theorem step_weight (M : Int) (total : Nat) (s s' : State) (h : Step M total s s') : weight s' < weight s := by
  cases h <;> simp_all [weight] <;> omega

end TableParallel

/-! ## The byte-chunk table -/

theorem newTableLoop_get (opt : Nat) (k : Nat) (b : Int) :
    (newTableLoop N opt k b).length = k ∧
    ∀ j, j < k → ∃ v, (newTableLoop N opt k b)[j]? = some v ∧ (v : ZMod N) = (b : ZMod N) ^ opt ^ (j + 1) := by
  induction k generalizing b with
  | zero => exact ⟨rfl, by omega⟩
  | succ k ih =>
    simp only [newTableLoop]
    have hb : (((bigExp b opt N).getD 0 : Int) : ZMod N) = (b : ZMod N) ^ opt := by
      rw [bigExp_nonneg b _ (by positivity)]
      simp
    obtain ⟨h1, h2⟩ := ih ((bigExp b opt N).getD 0)
    refine ⟨by simp [h1], ?_⟩
    intro j hj
    cases j with
    | zero => exact ⟨_, rfl, by rw [hb]; simp⟩
    | succ j =>
      obtain ⟨v, hv, hv'⟩ := h2 j (by omega)
      refine ⟨v, by rw [List.getElem?_cons_succ, hv], ?_⟩
      rw [hv', hb, ← pow_mul]
      congr 1
      ring

/-- What is needed about a byte-chunk table. -/
structure TableOk (N : Nat) (g : Int) (t : Table) : Prop where
  modulus : t.n = N
  chunk : 0 < t.byteChunkSize
  entry : ∀ (j : Nat) (b : Int), t.table[j]? = some b → ((b : Int) : ZMod N) = (g : ZMod N) ^ 256 ^ (t.byteChunkSize * j)

theorem newTable_ok (g ub : Int) (m c : Nat) (t : Table) (h : newTable g N ub m c = .ok t) :
    TableOk N g t ∧ t.byteChunkSize = c ∧ t.table.length = ub.natAbs.size * m / (c * 8) := by
  unfold newTable at h
  simp only at h
  split at h
  · cases h
  split at h
  · cases h
  injection h with h
  subst h
  obtain ⟨h1, h2⟩ := newTableLoop_get (N := N) (2 ^ (c * 8)) (ub.natAbs.size * m / (c * 8) - 1) g
  refine ⟨⟨rfl, by simp; omega, ?_⟩, rfl, by simp only [List.length_cons]; push_cast at h1; rw [h1]; exact Nat.sub_add_cancel (Nat.pos_of_ne_zero ‹_›)⟩
  intro j b hb
  cases j with
  | zero =>
    simp only [List.getElem?_cons_zero, Option.some.injEq] at hb
    subst hb
    simp
  | succ j =>
    simp only [List.getElem?_cons_succ] at hb
    have hj : j < ub.natAbs.size * m / (c * 8) - 1 := by
      have := List.getElem?_eq_some_iff.1 hb
      obtain ⟨this, _⟩ := this
      push_cast at h1
      rw [h1] at this
      exact this
    obtain ⟨v, hv, hv'⟩ := h2 j hj
    push_cast at hv
    rw [hb] at hv
    injection hv with hv
    rw [hv, hv']
    congr 1
    show (2 ^ (c * 8)) ^ (j + 1) = 256 ^ (c * (j + 1))
    rw [← pow_mul, show (256 : Nat) = 2 ^ 8 by norm_num, ← pow_mul]
    congr 1
    ring

/-- The residue of an input. -/
def inputVal (N : Nat) (t : Table) (xb : Bytes) (i : Input) : ZMod N := (((chunkValue t xb i).getD 0 : Int) : ZMod N)

theorem inputs_pos (c len i : Nat) (hc : 0 < c) (hi : 0 < i) : inputs c len i =
    { left := i - c, right := i, tableIdx := (len - i) / c } :: inputs c len (i - c) := by
  rw [inputs, dif_pos ⟨hi, hc⟩]

theorem inputs_zero (c len : Nat) : inputs c len 0 = [] := by
  rw [inputs, dif_neg (by omega)]

theorem inputs_length (c len i : Nat) (hc : 0 < c) : (inputs c len i).length = (i + c - 1) / c := by
  induction i using Nat.strong_induction_on with
  | _ i ih =>
    by_cases hi : i = 0
    · subst hi
      rw [inputs_zero, List.length_nil, Nat.div_eq_of_lt (by omega)]
    · rw [inputs_pos c len i hc (by omega), List.length_cons, ih _ (by omega)]
      by_cases h : c ≤ i
      · rw [show i + c - 1 = (i - c + c - 1) + c by omega, Nat.add_div_right _ hc]
      · rw [show i - c = 0 by omega, Nat.div_eq_of_lt (by omega : 0 + c - 1 < c),
          show i + c - 1 = (i - 1) + c by omega, Nat.add_div_right _ hc, Nat.div_eq_of_lt (by omega)]

theorem inputs_mem (c len i : Nat) (hc : 0 < c) (hi : i ≤ len) (j : Nat) (hj : len - i = c * j) (inp : Input)
    (h : inp ∈ inputs c len i) :
    inp.left ≤ inp.right ∧ inp.right ≤ len ∧ inp.tableIdx < j + (i + c - 1) / c := by
  induction i using Nat.strong_induction_on generalizing j with
  | _ i ih =>
    by_cases h0 : i = 0
    · subst h0; rw [inputs_zero] at h; cases h
    · have hpos : 0 < (i + c - 1) / c := Nat.div_pos (by omega) hc
      rw [inputs_pos c len i hc (by omega), List.mem_cons] at h
      rcases h with rfl | h
      · refine ⟨by simp, by simpa using hi, ?_⟩
        simp only
        rw [hj, Nat.mul_div_cancel_left _ hc]
        omega
      · by_cases hci : c ≤ i
        · obtain ⟨a, b, d⟩ := ih (i - c) (by omega) (by omega) (j + 1) (by rw [Nat.mul_add]; omega) h
          refine ⟨a, b, ?_⟩
          rw [show i + c - 1 = (i - c + c - 1) + c by omega, Nat.add_div_right _ hc]
          omega
        · rw [show i - c = 0 by omega, inputs_zero] at h; cases h

/-- The last index that occurs. -/
theorem inputs_last (c len i : Nat) (hc : 0 < c) (hi : i ≤ len) (hi0 : 0 < i) (j : Nat) (hj : len - i = c * j) :
    ∃ inp ∈ inputs c len i, inp.tableIdx + 1 = j + (i + c - 1) / c := by
  induction i using Nat.strong_induction_on generalizing j with
  | _ i ih =>
    rw [inputs_pos c len i hc hi0]
    by_cases hci : c < i
    · obtain ⟨inp, h1, h2⟩ := ih (i - c) (by omega) (by omega) (by omega) (j + 1) (by rw [Nat.mul_add]; omega)
      refine ⟨inp, List.mem_cons_of_mem _ h1, ?_⟩
      rw [h2, show i + c - 1 = (i - c + c - 1) + c by omega, Nat.add_div_right _ hc]
      omega
    · refine ⟨_, List.mem_cons_self, ?_⟩
      simp only
      rw [hj, Nat.mul_div_cancel_left _ hc, show i + c - 1 = (i - 1) + c by omega, Nat.add_div_right _ hc,
        Nat.div_eq_of_lt (by omega)]

theorem inputs_prod (g : Int) (t : Table) (ht : TableOk N g t) (xb : Bytes) (i : Nat) (hi : i ≤ xb.length) (j : Nat)
    (hj : xb.length - i = t.byteChunkSize * j)
    (hfit : ∀ inp ∈ inputs t.byteChunkSize xb.length i, inp.tableIdx < t.table.length) :
    ((inputs t.byteChunkSize xb.length i).map (inputVal N t xb)).prod =
      (g : ZMod N) ^ (256 ^ (t.byteChunkSize * j) * setBytes (xb.take i)) := by
  induction i using Nat.strong_induction_on generalizing j with
  | _ i ih =>
    by_cases h0 : i = 0
    · subst h0; rw [inputs_zero]; simp [setBytes]
    · have hc := ht.chunk
      rw [inputs_pos _ _ i hc (by omega)] at hfit ⊢
      have hj' : (xb.length - i) / t.byteChunkSize = j := by rw [hj, Nat.mul_div_cancel_left _ hc]
      rw [hj'] at hfit ⊢
      have hjl : j < t.table.length := hfit _ List.mem_cons_self
      have hent := ht.entry j t.table[j] (List.getElem?_eq_getElem hjl)
      have hv : inputVal N t xb { left := i - t.byteChunkSize, right := i, tableIdx := j } =
          (g : ZMod N) ^ (256 ^ (t.byteChunkSize * j) * setBytes (slice xb (i - t.byteChunkSize) i)) := by
        unfold inputVal chunkValue
        rw [if_pos ⟨by simp, hi⟩]
        simp only [List.getElem?_eq_getElem hjl, Option.map_some, Option.getD_some]
        rw [ht.modulus, bigExp_nonneg _ _ (by positivity), Option.getD_some, val_cast, hent, ← pow_mul, Int.natAbs_natCast]
      rw [List.map_cons, List.prod_cons, hv]
      have hsplit : xb.take i = xb.take (i - t.byteChunkSize) ++ slice xb (i - t.byteChunkSize) i := by
        unfold slice
        rw [← List.take_append_drop (i - t.byteChunkSize) (xb.take i), List.take_take, List.drop_take,
          Nat.min_eq_left (by omega)]
      by_cases hci : t.byteChunkSize ≤ i
      · have hl : (slice xb (i - t.byteChunkSize) i).length = t.byteChunkSize := by
          unfold slice; simp; omega
        rw [ih (i - t.byteChunkSize) (by omega) (by omega) (j + 1) (by rw [Nat.mul_add]; omega)
          (fun inp h => hfit inp (List.mem_cons_of_mem _ h)), ← pow_add]
        congr 1
        conv_rhs => rw [hsplit, setBytes_append', hl]
        rw [Nat.mul_add, pow_add, Nat.mul_one]
        ring
      · rw [show i - t.byteChunkSize = 0 by omega, inputs_zero] at *
        simp only [List.map_nil, List.prod_nil, mul_one]
        rw [hsplit]; simp

namespace TableCompute
open Verif.Model.TableCompute

def gotOf : Worker → Option Input
  | .got i => some i
  | _ => none

def sendingOf : Worker → Option Int
  | .sending v => some v
  | _ => none

theorem got_idle : gotOf .idle = none := rfl
theorem got_got (i : Input) : gotOf (.got i) = some i := rfl
theorem got_sending (v : Int) : gotOf (.sending v) = none := rfl
theorem got_stopped : gotOf .stopped = none := rfl
theorem sending_idle : sendingOf .idle = none := rfl
theorem sending_got (i : Input) : sendingOf (.got i) = none := rfl
theorem sending_sending (v : Int) : sendingOf (.sending v) = some v := rfl
theorem sending_stopped : sendingOf .stopped = none := rfl

def mainInputs : MainSt → List Input
  | .dispatch l => l
  | .returned _ => []

/-- Inputs not yet computed. -/
def inputsLeft (s : State) : List Input := mainInputs s.main ++ s.inQ ++ s.workers.filterMap gotOf

/-- Values not yet multiplied. -/
def valuesLeft (s : State) : List Int := s.workers.filterMap sendingOf ++ s.outQ

/-- Product of what is outstanding. -/
def prodLeft (N : Nat) (t : Table) (xb : Bytes) (s : State) : ZMod N :=
  ((inputsLeft s).map (inputVal N t xb)).prod * ((valuesLeft s).map (fun v : Int => (v : ZMod N))).prod

def outstanding (s : State) : Nat := (inputsLeft s).length + (valuesLeft s).length

/-- Bookkeeping that holds for every table. -/
structure Book (k : Nat) (s : State) : Prop where
  len : s.workers.length = k
  running : ∀ cnt res, s.col = .running cnt res → cnt = outstanding s ∧ (∃ l, s.main = .dispatch l) ∧
    Worker.stopped ∉ s.workers
  sending : ∀ res, s.col = .sending res → outstanding s = 0 ∧ (∃ l, s.main = .dispatch l)
  finished : s.col = .finished → ∃ res, s.main = .returned res
  ret : ∀ res, s.main = .returned res → s.col = .finished ∧ outstanding s = 0

theorem outstanding_eq (s : State) : outstanding s = (mainInputs s.main).length + s.inQ.length +
    (s.workers.filterMap gotOf).length + (s.workers.filterMap sendingOf).length + s.outQ.length := by
  simp [outstanding, inputsLeft, valuesLeft]; omega

theorem counter0_eq (t : Table) (xb : Bytes) (hc : 0 < t.byteChunkSize) :
    counter0 t xb = (xb.length + t.byteChunkSize - 1) / t.byteChunkSize := by
  unfold counter0
  have h := Nat.div_add_mod xb.length t.byteChunkSize
  generalize xb.length / t.byteChunkSize = q at *
  have hm := Nat.mod_lt xb.length hc
  generalize xb.length % t.byteChunkSize = r at *
  by_cases hr : r = 0
  · rw [if_neg (by omega), ← h, hr, Nat.add_zero, Nat.add_sub_assoc (by omega), Nat.mul_add_div hc,
      Nat.div_eq_of_lt (by omega), Nat.add_zero]
  · rw [if_pos hr, ← h, show t.byteChunkSize * q + r + t.byteChunkSize - 1 =
      t.byteChunkSize * q + ((r - 1) + t.byteChunkSize) by omega, Nat.mul_add_div hc, Nat.add_div_right _ hc,
      Nat.div_eq_of_lt (by omega)]

theorem filterMap_replicate {β : Type} (f : Worker → Option β) (h : f .idle = none) (k : Nat) :
    (List.replicate k Worker.idle).filterMap f = [] := by
  rw [List.filterMap_eq_nil_iff]
  intro a ha
  rw [List.eq_of_mem_replicate ha, h]

theorem book_init (t : Table) (xb : Bytes) (k : Nat) (hc : 0 < t.byteChunkSize) : Book k (init t xb k) where
  len := by simp [init]
  running := by
    intro cnt res h
    injection h with h1 h2
    refine ⟨?_, ⟨_, rfl⟩, ?_⟩
    · rw [← h1, outstanding_eq, counter0_eq t xb hc]
      simp [init, mainInputs, filterMap_replicate _ got_idle, filterMap_replicate _ sending_idle, inputs_length _ _ _ hc]
    · intro h; have := List.eq_of_mem_replicate h; cases this
  sending := by intro res h; cases h
  finished := by intro h; cases h
  ret := by intro res h; cases h

theorem book_step (t : Table) (xb : Bytes) (k : Nat) (s s' : State) (hB : Book k s) (h : Step t xb k s s') :
    Book k s' := by
  have ho := outstanding_eq s
  cases h with
  | dispatch i rest hc hm hq =>
    have e : outstanding { s with main := .dispatch rest, inQ := s.inQ ++ [i] } = outstanding s := by
      rw [outstanding_eq, ho, hm]; simp [mainInputs]; omega
    refine ⟨hB.len, ?_, ?_, ?_, by rintro res ⟨⟩⟩
    · intro cnt res h; have := hB.running cnt res h; exact ⟨by rw [e]; exact this.1, ⟨_, rfl⟩, this.2.2⟩
    · intro res h; exact ⟨by rw [e]; exact (hB.sending res h).1, ⟨_, rfl⟩⟩
    · intro h; obtain ⟨res, hr⟩ := hB.finished h; rw [hm] at hr; cases hr
  | take l r i q hc hw hq =>
    have e : outstanding { s with workers := l ++ .got i :: r, inQ := q } = outstanding s := by
      rw [outstanding_eq, ho, hw, hq]; simp [List.filterMap_cons, got_idle, got_got, got_sending, got_stopped,
        sending_idle, sending_got, sending_sending, sending_stopped]; omega
    refine ⟨by have := hB.len; rw [hw] at this; simpa using this, ?_, ?_, hB.finished, ?_⟩
    · intro cnt res h
      obtain ⟨a, b, c⟩ := hB.running cnt res h
      refine ⟨by rw [e]; exact a, b, ?_⟩
      rw [hw] at c; simp at c ⊢; exact c
    · intro res h; rw [e]; exact hB.sending res h
    · intro res h; rw [e]; exact hB.ret res h
  | compute l r i v hc hw hv =>
    have e : outstanding { s with workers := l ++ .sending v :: r } = outstanding s := by
      rw [outstanding_eq, ho, hw]; simp [List.filterMap_cons, got_idle, got_got, got_sending, got_stopped,
        sending_idle, sending_got, sending_sending, sending_stopped]; omega
    refine ⟨by have := hB.len; rw [hw] at this; simpa using this, ?_, ?_, hB.finished, ?_⟩
    · intro cnt res h
      obtain ⟨a, b, c⟩ := hB.running cnt res h
      refine ⟨by rw [e]; exact a, b, ?_⟩
      rw [hw] at c; simp at c ⊢; exact c
    · intro res h; rw [e]; exact hB.sending res h
    · intro res h; rw [e]; exact hB.ret res h
  | computePanic l r i hc hw hv => exact ⟨hB.len, hB.running, hB.sending, hB.finished, hB.ret⟩
  | put l r v hc hw hq =>
    have e : outstanding { s with workers := l ++ .idle :: r, outQ := s.outQ ++ [v] } = outstanding s := by
      rw [outstanding_eq, ho, hw]; simp [List.filterMap_cons, got_idle, got_got, got_sending, got_stopped,
        sending_idle, sending_got, sending_sending, sending_stopped]; omega
    refine ⟨by have := hB.len; rw [hw] at this; simpa using this, ?_, ?_, hB.finished, ?_⟩
    · intro cnt res h
      obtain ⟨a, b, c⟩ := hB.running cnt res h
      refine ⟨by rw [e]; exact a, b, ?_⟩
      rw [hw] at c; simp at c ⊢; exact c
    · intro res h; rw [e]; exact hB.sending res h
    · intro res h; rw [e]; exact hB.ret res h
  | collect cnt res v q hc hcol hq hne =>
    obtain ⟨a, b, c⟩ := hB.running cnt res hcol
    have e : outstanding { s with col := .running (cnt - 1) (res * v % t.n), outQ := q } + 1 = outstanding s := by
      rw [outstanding_eq, ho, hq]; simp; omega
    refine ⟨hB.len, ?_, ?_, ?_, ?_⟩
    · intro cnt' res' h
      injection h with h1 h2
      exact ⟨by omega, b, c⟩
    · intro res h; cases h
    · intro h; cases h
    · intro res' h; obtain ⟨l, hl⟩ := b; rw [hl] at h; cases h
  | collectLast cnt res v q hc hcol hq hne =>
    obtain ⟨a, b, c⟩ := hB.running cnt res hcol
    have e : outstanding { s with col := .sending (res * v % t.n), outQ := q } + 1 = outstanding s := by
      rw [outstanding_eq, ho, hq]; simp; omega
    refine ⟨hB.len, ?_, ?_, ?_, ?_⟩
    · intro cnt res h; cases h
    · intro res' h
      exact ⟨by omega, b⟩
    · intro h; cases h
    · intro res' h; obtain ⟨l, hl⟩ := b; rw [hl] at h; cases h
  | handOver res hc hm hcol =>
    obtain ⟨a, b⟩ := hB.sending res hcol
    refine ⟨hB.len, by rintro _ _ ⟨⟩, by rintro _ ⟨⟩, fun _ => ⟨_, rfl⟩, ?_⟩
    intro res' h
    refine ⟨rfl, ?_⟩
    rw [outstanding_eq] at a ⊢
    rw [hm] at a
    simpa [mainInputs] using a
  | stop l r res hc hw hm =>
    have hf := (hB.ret res hm).1
    have e : outstanding { s with workers := l ++ .stopped :: r } = outstanding s := by
      rw [outstanding_eq, ho, hw]; simp [List.filterMap_cons, got_idle, got_got, got_sending, got_stopped,
        sending_idle, sending_got, sending_sending, sending_stopped]
    refine ⟨by have := hB.len; rw [hw] at this; simpa using this, ?_, ?_, hB.finished, ?_⟩
    · intro cnt res h; simp only at h; rw [hf] at h; cases h
    · intro res h; simp only at h; rw [hf] at h; cases h
    · intro res h; rw [e]; exact hB.ret res h

/-- Invariant when `x` fits; `T` is the result. -/
structure Inv (N : Nat) (t : Table) (xb : Bytes) (T : ZMod N) (s : State) : Prop where
  notCrashed : s.crashed = false
  good : ∀ i ∈ inputsLeft s, (chunkValue t xb i).isSome = true
  running : ∀ cnt res, s.col = .running cnt res → (res : ZMod N) * prodLeft N t xb s = T
  sending : ∀ res, s.col = .sending res → res = (T.val : Int)
  ret : ∀ res, s.main = .returned res → res = (T.val : Int)

theorem prodLeft_eq (t : Table) (xb : Bytes) (s : State) : prodLeft N t xb s =
    ((mainInputs s.main).map (inputVal N t xb)).prod * (s.inQ.map (inputVal N t xb)).prod *
    ((s.workers.filterMap gotOf).map (inputVal N t xb)).prod *
    (((s.workers.filterMap sendingOf).map (fun v : Int => (v : ZMod N))).prod *
    (s.outQ.map (fun v : Int => (v : ZMod N))).prod) := by
  simp only [prodLeft, inputsLeft, valuesLeft, List.map_append, List.prod_append]

theorem inv_step (t : Table) (xb : Bytes) (k : Nat) (T : ZMod N) (htn : t.n = N) (s s' : State) (hB : Book k s)
    (hI : Inv N t xb T s) (h : Step t xb k s s') : Inv N t xb T s' := by
  have ho := prodLeft_eq (N := N) t xb s
  cases h with
  | dispatch i rest hc hm hq =>
    have e : prodLeft N t xb { s with main := .dispatch rest, inQ := s.inQ ++ [i] } = prodLeft N t xb s := by
      rw [prodLeft_eq, ho, hm]; simp [mainInputs]; ring
    refine ⟨hc, ?_, ?_, hI.sending, by rintro res ⟨⟩⟩
    · intro j hj; apply hI.good
      simp only [inputsLeft, hm, mainInputs, List.mem_append, List.mem_cons, List.not_mem_nil, or_false] at hj ⊢
      tauto
    · intro cnt res h; rw [e]; exact hI.running cnt res h
  | take l r i q hc hw hq =>
    have e : prodLeft N t xb { s with workers := l ++ .got i :: r, inQ := q } = prodLeft N t xb s := by
      rw [prodLeft_eq, ho, hw, hq]; simp [List.filterMap_cons, got_idle, got_got, got_sending, got_stopped,
        sending_idle, sending_got, sending_sending, sending_stopped]; ring
    refine ⟨hc, ?_, ?_, hI.sending, hI.ret⟩
    · intro j hj; apply hI.good
      simp only [inputsLeft, hw, hq, List.mem_append, List.filterMap_append, List.filterMap_cons, got_idle, got_got, got_sending, got_stopped, List.mem_cons] at hj ⊢
      tauto
    · intro cnt res h; rw [e]; exact hI.running cnt res h
  | compute l r i v hc hw hv =>
    have e : prodLeft N t xb { s with workers := l ++ .sending v :: r } = prodLeft N t xb s := by
      have : inputVal N t xb i = (v : ZMod N) := by unfold inputVal; rw [hv]; rfl
      rw [prodLeft_eq, ho, hw]; simp [List.filterMap_cons, got_idle, got_got, got_sending, got_stopped,
        sending_idle, sending_got, sending_sending, sending_stopped, this]; ring
    refine ⟨hc, ?_, ?_, hI.sending, hI.ret⟩
    · intro j hj; apply hI.good
      simp only [inputsLeft, hw, List.mem_append, List.filterMap_append, List.filterMap_cons, got_idle, got_got, got_sending, got_stopped, List.mem_cons] at hj ⊢
      tauto
    · intro cnt res h; rw [e]; exact hI.running cnt res h
  | computePanic l r i hc hw hv =>
    exfalso
    have := hI.good i (by simp [inputsLeft, hw, got_got])
    rw [hv] at this; cases this
  | put l r v hc hw hq =>
    have e : prodLeft N t xb { s with workers := l ++ .idle :: r, outQ := s.outQ ++ [v] } = prodLeft N t xb s := by
      rw [prodLeft_eq, ho, hw]; simp [List.filterMap_cons, got_idle, got_got, got_sending, got_stopped,
        sending_idle, sending_got, sending_sending, sending_stopped]; ring
    refine ⟨hc, ?_, ?_, hI.sending, hI.ret⟩
    · intro j hj; apply hI.good
      simp only [inputsLeft, hw, List.mem_append, List.filterMap_append, List.filterMap_cons, got_idle, got_got, got_sending, got_stopped] at hj ⊢
      tauto
    · intro cnt res h; rw [e]; exact hI.running cnt res h
  | collect cnt res v q hc hcol hq hne =>
    have e : (v : ZMod N) * prodLeft N t xb { s with col := .running (cnt - 1) (res * v % t.n), outQ := q } =
        prodLeft N t xb s := by
      rw [prodLeft_eq, ho, hq]; simp; ring
    refine ⟨hc, hI.good, ?_, by rintro _ ⟨⟩, hI.ret⟩
    intro cnt' res' h
    injection h with h1 h2
    subst h2
    have := hI.running cnt res hcol
    rw [← e] at this
    rw [htn, emod_eq_val, val_cast]
    rw [htn] at this
    push_cast
    rw [mul_assoc]
    exact this
  | collectLast cnt res v q hc hcol hq hne =>
    have e : (v : ZMod N) * prodLeft N t xb { s with col := .sending (res * v % t.n), outQ := q } =
        prodLeft N t xb s := by
      rw [prodLeft_eq, ho, hq]; simp; ring
    have hB' := book_step t xb k _ _ hB (.collectLast s cnt res v q hc hcol hq hne)
    have h0 := (hB'.sending _ rfl).1
    have h1 : prodLeft N t xb { s with col := .sending (res * v % t.n), outQ := q } = 1 := by
      unfold prodLeft
      unfold outstanding at h0
      rw [List.eq_nil_of_length_eq_zero (Nat.eq_zero_of_add_eq_zero_right h0),
        List.eq_nil_of_length_eq_zero (Nat.eq_zero_of_add_eq_zero_left h0)]
      simp
    refine ⟨hc, hI.good, by rintro _ _ ⟨⟩, ?_, hI.ret⟩
    intro res' h
    injection h with h2
    subst h2
    have := hI.running cnt res hcol
    rw [← e, h1, mul_one] at this
    rw [htn, emod_eq_val]
    push_cast
    rw [this]
  | handOver res hc hm hcol =>
    refine ⟨hc, ?_, by rintro _ _ ⟨⟩, by rintro _ ⟨⟩, ?_⟩
    · intro j hj; apply hI.good
      simp only [inputsLeft, hm, mainInputs] at hj ⊢
      exact hj
    · intro res' h
      injection h with h
      subst h
      exact hI.sending res hcol
  | stop l r res hc hw hm =>
    have hf := (hB.ret res hm).1
    refine ⟨hc, ?_, ?_, ?_, hI.ret⟩
    · intro j hj; apply hI.good
      simp only [inputsLeft, hw, List.mem_append, List.filterMap_append, List.filterMap_cons, got_idle, got_got, got_sending, got_stopped] at hj ⊢
      tauto
    · intro cnt res h; simp only at h; rw [hf] at h; cases h
    · intro res h; simp only at h; rw [hf] at h; cases h

theorem exec_book (t : Table) (xb : Bytes) (k : Nat) (s s' : State) (hB : Book k s) (h : Exec (Step t xb k) s s') :
    Book k s' := by
  induction h with
  | refl => exact hB
  | tail _ hs ih => exact book_step t xb k _ _ ih hs

theorem exec_inv (t : Table) (xb : Bytes) (k : Nat) (T : ZMod N) (htn : t.n = N) (s s' : State) (hB : Book k s)
    (hI : Inv N t xb T s) (h : Exec (Step t xb k) s s') : Inv N t xb T s' := by
  induction h with
  | refl => exact hI
  | tail he hs ih => exact inv_step t xb k T htn _ _ (exec_book t xb k _ _ hB he) ih hs

theorem chunkValue_isSome (t : Table) (xb : Bytes) (i : Input) :
    (chunkValue t xb i).isSome = true ↔ (i.left ≤ i.right ∧ i.right ≤ xb.length) ∧ i.tableIdx < t.table.length := by
  unfold chunkValue
  split
  · rename_i h
    simp [h]
  · rename_i h
    simp only [Option.isSome_none, Bool.false_eq_true, false_iff, not_and]
    tauto

theorem inv_init (g : Int) (t : Table) (ht : TableOk N g t) (xb : Bytes) (k : Nat)
    (hfit : (xb.length + t.byteChunkSize - 1) / t.byteChunkSize ≤ t.table.length) :
    Inv N t xb ((g : ZMod N) ^ setBytes xb) (init t xb k) where
  notCrashed := rfl
  good := by
    intro i hi
    rw [chunkValue_isSome]
    have : i ∈ inputs t.byteChunkSize xb.length xb.length := by
      simpa [inputsLeft, init, mainInputs, filterMap_replicate _ got_idle] using hi
    obtain ⟨a, b, c⟩ := inputs_mem _ _ _ ht.chunk (Nat.le_refl _) 0 (by simp) i this
    exact ⟨⟨a, b⟩, by omega⟩
  running := by
    intro cnt res h
    injection h with h1 h2
    subst h2
    have e : prodLeft N t xb (init t xb k) = ((inputs t.byteChunkSize xb.length xb.length).map (inputVal N t xb)).prod := by
      rw [prodLeft_eq]
      simp [init, mainInputs, filterMap_replicate _ got_idle, filterMap_replicate _ sending_idle]
    rw [e, inputs_prod g t ht xb xb.length (Nat.le_refl _) 0 (by simp)]
    · simp
    · intro i hi
      have := inputs_mem _ _ _ ht.chunk (Nat.le_refl _) 0 (by simp) i hi
      omega
  sending := by intro res h; cases h
  ret := by intro res h; cases h

/-- Everything a worker can be doing. -/
theorem worker_cases (ws : List Worker) (hs : Worker.stopped ∉ ws) (hne : ws ≠ []) :
    (∃ l r i, ws = l ++ .got i :: r) ∨ (∃ l r v, ws = l ++ .sending v :: r) ∨
    ((∃ l r, ws = l ++ .idle :: r) ∧ ws.filterMap gotOf = [] ∧ ws.filterMap sendingOf = []) := by
  by_cases h1 : ∃ i, Worker.got i ∈ ws
  · obtain ⟨i, hi⟩ := h1
    obtain ⟨l, r, h⟩ := List.append_of_mem hi
    exact .inl ⟨l, r, i, h⟩
  · by_cases h2 : ∃ v, Worker.sending v ∈ ws
    · obtain ⟨i, hi⟩ := h2
      obtain ⟨l, r, h⟩ := List.append_of_mem hi
      exact .inr (.inl ⟨l, r, i, h⟩)
    · refine .inr (.inr ⟨?_, ?_, ?_⟩)
      · cases ws with
        | nil => exact absurd rfl hne
        | cons w ws =>
          cases w with
          | idle => exact ⟨[], ws, rfl⟩
          | got i => exact absurd ⟨i, List.mem_cons_self⟩ h1
          | sending v => exact absurd ⟨v, List.mem_cons_self⟩ h2
          | stopped => exact absurd List.mem_cons_self hs
      · rw [List.filterMap_eq_nil_iff]
        intro a ha
        cases a with
        | got i => exact absurd ⟨i, ha⟩ h1
        | _ => rfl
      · rw [List.filterMap_eq_nil_iff]
        intro a ha
        cases a with
        | sending i => exact absurd ⟨i, ha⟩ h2
        | _ => rfl

/-- As long as something is outstanding a step is possible. -/
theorem progress (t : Table) (xb : Bytes) (k : Nat) (hk : 1 ≤ k) (s : State) (hB : Book k s) (hc : s.crashed = false)
    (hpos : ∀ cnt res, s.col = .running cnt res → 0 < outstanding s) :
    (∃ res, s.main = .returned res) ∨ ∃ s', Step t xb k s s' := by
  cases hcol : s.col with
  | finished => exact .inl (hB.finished hcol)
  | sending res =>
    obtain ⟨a, l, hl⟩ := hB.sending res hcol
    right
    cases l with
    | nil => exact ⟨_, .handOver s res hc hl hcol⟩
    | cons i l => rw [outstanding_eq, hl] at a; simp [mainInputs] at a
  | running cnt res =>
    right
    obtain ⟨a, ⟨l, hl⟩, hst⟩ := hB.running cnt res hcol
    have hp := hpos cnt res hcol
    cases hq : s.outQ with
    | cons v q =>
      by_cases h1 : cnt - 1 = 0
      · exact ⟨_, .collectLast s cnt res v q hc hcol hq h1⟩
      · exact ⟨_, .collect s cnt res v q hc hcol hq h1⟩
    | nil =>
      rcases worker_cases s.workers hst (by intro h; have := hB.len; rw [h] at this; simp at this; omega) with
        ⟨l', r, i, hw⟩ | ⟨l', r, v, hw⟩ | ⟨⟨l', r, hw⟩, hg, hs⟩
      · cases hv : chunkValue t xb i with
        | some v => exact ⟨_, .compute s l' r i v hc hw hv⟩
        | none => exact ⟨_, .computePanic s l' r i hc hw hv⟩
      · exact ⟨_, .put s l' r v hc hw (by rw [hq]; simp; omega)⟩
      · cases hin : s.inQ with
        | cons i q => exact ⟨_, .take s l' r i q hc hw hin⟩
        | nil =>
          cases l with
          | nil => rw [outstanding_eq, hl, hg, hs, hq, hin] at hp; simp [mainInputs] at hp
          | cons i l => exact ⟨_, .dispatch s i l hc hl (by rw [hin]; simp; omega)⟩

/-- `collect` leaves something outstanding. -/
theorem pos_step (t : Table) (xb : Bytes) (k : Nat) (s s' : State) (hB : Book k s) (h : Step t xb k s s')
    (hpos : ∀ cnt res, s.col = .running cnt res → cnt ≠ 0) : ∀ cnt res, s'.col = .running cnt res → cnt ≠ 0 := by
  cases h with
  | collect cnt res v q hc hcol hq hne => intro cnt' res' h; injection h with h1 h2; omega
  | collectLast => intro _ _ h; cases h
  | handOver => intro _ _ h; cases h
  | _ => exact hpos

theorem exec_pos (t : Table) (xb : Bytes) (k : Nat) (s s' : State) (hB : Book k s) (h : Exec (Step t xb k) s s')
    (hpos : ∀ cnt res, s.col = .running cnt res → cnt ≠ 0) : ∀ cnt res, s'.col = .running cnt res → cnt ≠ 0 := by
  induction h with
  | refl => exact hpos
  | tail he hs ih => exact pos_step t xb k _ _ (exec_book t xb k _ _ hB he) hs ih

def wWeight : Worker → Nat
  | .idle => 1
  | .got _ => 7
  | .sending _ => 5
  | .stopped => 0

def weight (s : State) : Nat :=
  10 * (mainInputs s.main).length + 8 * s.inQ.length + (s.workers.map wWeight).sum + 3 * s.outQ.length +
    (match s.col with | .running _ _ => 2 | .sending _ => 1 | .finished => 0) + (if s.crashed then 0 else 1)

theorem step_weight (t : Table) (xb : Bytes) (k : Nat) (s s' : State) (h : Step t xb k s s') : weight s' < weight s := by
  cases h with
  | dispatch i rest hc hm hq => simp [weight, hm, mainInputs]; omega
  | take l r i q hc hw hq => simp [weight, hw, hq, wWeight]; omega
  | compute l r i v hc hw hv => simp [weight, hw, wWeight]
  | computePanic l r i hc hw hv => simp [weight, hc]
  | put l r v hc hw hq => simp [weight, hw, wWeight]; omega
  | collect cnt res v q hc hcol hq hne => simp [weight, hcol, hq]
  | collectLast cnt res v q hc hcol hq hne => simp [weight, hcol, hq]
  | handOver res hc hm hcol => simp [weight, hm, hcol, mainInputs]
  | stop l r res hc hw hm => simp [weight, hw, wWeight]

/-- An input that cannot be computed stays. -/
theorem bad_step (t : Table) (xb : Bytes) (k : Nat) (s s' : State) (hB : Book k s) (h : Step t xb k s s') (i : Input)
    (hi : chunkValue t xb i = none) (hmem : i ∈ inputsLeft s) : i ∈ inputsLeft s' := by
  cases h with
  | dispatch j rest hc hm hq =>
    simp only [inputsLeft, hm, mainInputs, List.mem_append, List.mem_cons, List.not_mem_nil, or_false] at hmem ⊢
    tauto
  | take l r j q hc hw hq =>
    simp only [inputsLeft, hw, hq, List.mem_append, List.filterMap_append, List.filterMap_cons, got_idle, got_got, got_sending, got_stopped, List.mem_cons] at hmem ⊢
    tauto
  | compute l r j v hc hw hv =>
    have hne : i ≠ j := by rintro rfl; rw [hi] at hv; cases hv
    simp only [inputsLeft, hw, List.mem_append, List.filterMap_append, List.filterMap_cons, got_idle, got_got, got_sending, got_stopped, List.mem_cons] at hmem ⊢
    tauto
  | put l r v hc hw hq =>
    simp only [inputsLeft, hw, List.mem_append, List.filterMap_append, List.filterMap_cons, got_idle, got_got, got_sending, got_stopped] at hmem ⊢
    tauto
  | handOver res hc hm hcol =>
    simp only [inputsLeft, hm, mainInputs] at hmem ⊢
    exact hmem
  | stop l r res hc hw hm =>
    simp only [inputsLeft, hw, List.mem_append, List.filterMap_append, List.filterMap_cons, got_idle, got_got, got_sending, got_stopped] at hmem ⊢
    tauto
  | _ => exact hmem

theorem exec_bad (t : Table) (xb : Bytes) (k : Nat) (s s' : State) (hB : Book k s) (h : Exec (Step t xb k) s s') (i : Input)
    (hi : chunkValue t xb i = none) (hmem : i ∈ inputsLeft s) : i ∈ inputsLeft s' := by
  induction h with
  | refl => exact hmem
  | tail he hs ih => exact bad_step t xb k _ _ (exec_book t xb k _ _ hB he) hs i hi ih

end TableCompute

end Verif.Lemmas
