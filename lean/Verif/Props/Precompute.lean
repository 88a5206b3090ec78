import Verif.Lemmas.Precompute
import Mathlib.Tactic.NormNum

/-!
# Properties of the precomputation tables (C30 - C34)
-/

namespace Verif.Props
open Verif.Go Verif.Model Verif.Lemmas

theorem neZero_of_pos {N : Nat} (h : 1 ≤ (N : Int)) : NeZero N := ⟨by omega⟩

/-! ## C30 -/

theorem C30_computeFromTable (base N bitLen tableSize x : Int) (hN : 1 ≤ N) (h1 : 0 < tableSize)
    (h2 : tableSize < bitLen) (hx : 1 ≤ x) :
    ∃ t, genPreTable base N bitLen tableSize = .ok t ∧ computeFromTable t x N = .ok (base ^ x.toNat % N) := by
  obtain ⟨n, rfl⟩ : ∃ n : Nat, N = n := ⟨N.toNat, by omega⟩
  have := neZero_of_pos hN
  obtain ⟨t, ht, hp, -⟩ := tableParts_ok (N := n) base bitLen tableSize h1 h2
  obtain ⟨parts, h3, h4⟩ := hp x hx
  refine ⟨t, ht, ?_⟩
  rw [computeFromTable_of_parts t base x parts h3 h4, show x.natAbs = x.toNat by omega]

/-- `x ≤ 0` panics. -/
theorem C30_nonpositive_panics (base N bitLen tableSize x : Int) (hN : 1 ≤ N) (h1 : 0 < tableSize)
    (h2 : tableSize < bitLen) (hx : x ≤ 0) :
    ∃ t, genPreTable base N bitLen tableSize = .ok t ∧ (computeFromTable t x N).panics = true := by
  obtain ⟨n, rfl⟩ : ∃ n : Nat, N = n := ⟨N.toNat, by omega⟩
  have := neZero_of_pos hN
  obtain ⟨t, ht, -, hp⟩ := tableParts_ok (N := n) base bitLen tableSize h1 h2
  refine ⟨t, ht, ?_⟩
  have := hp x (by omega)
  unfold computeFromTable
  cases h : tableParts t x with
  | error e => rfl
  | ok v => rw [h] at this; cases this

/-- Table sizes that are refused. -/
theorem C30_bad_sizes_panic (base N bitLen tableSize : Int) :
    (genPreTable base N bitLen tableSize).panics = true ↔ bitLen ≤ tableSize ∨ tableSize ≤ 0 := by
  unfold genPreTable
  by_cases h1 : bitLen ≤ tableSize
  · rw [if_pos h1]; simp [h1, Res.panics, goPanic]
  · rw [if_neg h1]
    by_cases h2 : tableSize < 0
    · rw [if_pos h2]; simp [h2.le, Res.panics, goPanic]
    · rw [if_neg h2]
      by_cases h3 : tableSize = 0
      · rw [if_pos h3]; simp [h3, Res.panics, goPanic]
      · rw [if_neg h3]
        simp only [Res.panics, Bool.false_eq_true, false_iff]
        omega

/-- A table for 6 bits with 3 entries, and an exponent longer than 6 bits. -/
example : (0 : Int) < 3 ∧ (3 : Int) < 6 ∧ (1 : Int) ≤ 1000 ∧
    genPreTable 3 35 6 3 = .ok ⟨[3, 11, 11], [0, 2, 4]⟩ ∧
    computeFromTable ⟨[3, 11, 11], [0, 2, 4]⟩ 1000 35 = .ok (3 ^ 1000 % 35) := by decide +kernel

/-! ## C31 -/

/-- All schedules of `ComputeFromTableParallel`: no send on the closed channel, no deadlock, the right result, and every
execution ends. -/
theorem C31_parallel_all_schedules (base N bitLen tableSize x : Int) (hN : 1 ≤ N) (h1 : 0 < tableSize)
    (h2 : tableSize < bitLen) (hx : 1 ≤ x) :
    ∃ t parts, genPreTable base N bitLen tableSize = .ok t ∧ tableParts t x = .ok parts ∧
      (∀ s, Exec (TableParallel.Step N parts.length) (TableParallel.init parts) s →
        s.crashed = false ∧
        ((∃ v, s.main = .returned v) ∨ ∃ s', TableParallel.Step N parts.length s s') ∧
        ∀ v, s.main = .returned v → v = base ^ x.toNat % N) ∧
      AlwaysStops (TableParallel.Step N parts.length) (TableParallel.init parts) := by
  obtain ⟨n, rfl⟩ : ∃ n : Nat, N = n := ⟨N.toNat, by omega⟩
  have := neZero_of_pos hN
  obtain ⟨t, ht, hp, -⟩ := tableParts_ok (N := n) base bitLen tableSize h1 h2
  obtain ⟨parts, h3, h4⟩ := hp x hx
  refine ⟨t, parts, ht, h3, ?_, ?_⟩
  · intro s hs
    have hI := TableParallel.inv_exec _ _ _ s (TableParallel.inv_init (N := n) parts h4.ne h4.nonneg) hs
    refine ⟨hI.notCrashed, TableParallel.progress _ _ s hI, ?_⟩
    intro v hv
    rw [(hI.ret v hv).2.2, h4.prod, pow_emod_eq, show x.natAbs = x.toNat by omega]
  · exact alwaysStops_of_measure _ (fun _ => True) TableParallel.weight _ trivial (fun _ _ _ _ => trivial)
      (fun a b _ h => TableParallel.step_weight _ _ a b h)

/-- When the function returns every goroutine has delivered its value. -/
theorem C31_no_goroutine_left (base N bitLen tableSize x : Int) (hN : 1 ≤ N) (h1 : 0 < tableSize)
    (h2 : tableSize < bitLen) (hx : 1 ≤ x) (t : PreTable) (parts : List (Int × Int))
    (ht : genPreTable base N bitLen tableSize = .ok t) (hp : tableParts t x = .ok parts) (s : TableParallel.State)
    (hs : Exec (TableParallel.Step N parts.length) (TableParallel.init parts) s) (v : Int)
    (hv : s.main = .returned v) : s.pending = [] ∧ s.queue = [] := by
  obtain ⟨n, rfl⟩ : ∃ n : Nat, N = n := ⟨N.toNat, by omega⟩
  have := neZero_of_pos hN
  obtain ⟨t', ht', hp', -⟩ := tableParts_ok (N := n) base bitLen tableSize h1 h2
  rw [ht] at ht'
  injection ht' with ht'
  subst ht'
  obtain ⟨parts', h3, h4⟩ := hp' x hx
  rw [hp] at h3
  injection h3 with h3
  subst h3
  have hI := TableParallel.inv_exec _ _ _ s (TableParallel.inv_init (N := n) parts h4.ne h4.nonneg) hs
  exact ⟨(hI.ret v hv).1, (hI.ret v hv).2.1⟩

/-- Three goroutines run for this input. -/
example : tableParts ⟨[3, 11, 11], [0, 2, 4]⟩ 1000 = .ok [(3, 0), (11, 2), (11, 62)] := by decide +kernel

/-! ## C32 -/

/-- `x` fits in the table: it has no more byte chunks than the table has entries. -/
def Fits (t : Table) (x : Int) : Prop := ((x.natAbs.size + 7) / 8) ≤ t.byteChunkSize * t.table.length

theorem fits_chunks (t : Table) (hc : 0 < t.byteChunkSize) (x : Int) :
    Fits t x ↔ ((natBytes x.natAbs).length + t.byteChunkSize - 1) / t.byteChunkSize ≤ t.table.length := by
  unfold Fits
  rw [natBytes_length]
  generalize (x.natAbs.size + 7) / 8 = b
  rw [← Nat.lt_succ_iff (m := (b + t.byteChunkSize - 1) / t.byteChunkSize), Nat.div_lt_iff_lt_mul hc, Nat.succ_mul,
    Nat.mul_comm t.byteChunkSize]
  omega

/-- All schedules of `Compute(x, k)` for a table made by `NewTable`: no crash, no deadlock, the right result, and every
execution ends. -/
theorem C32_compute_all_schedules (g n ub : Int) (m c : Nat) (t : Table) (hn : 1 ≤ n)
    (ht : newTable g n ub m c = .ok t) (x : Int) (hx : x ≠ 0) (hfit : Fits t x) (k : Nat) (hk : 1 ≤ k) :
    (∀ s, Exec (TableCompute.Step t (natBytes x.natAbs) k) (TableCompute.init t (natBytes x.natAbs) k) s →
      s.crashed = false ∧
      ((∃ v, s.main = .returned v) ∨ ∃ s', TableCompute.Step t (natBytes x.natAbs) k s s') ∧
      ∀ v, s.main = .returned v → v = g ^ x.natAbs % n) ∧
    AlwaysStops (TableCompute.Step t (natBytes x.natAbs) k) (TableCompute.init t (natBytes x.natAbs) k) := by
  obtain ⟨N, rfl⟩ : ∃ N : Nat, n = N := ⟨n.toNat, by omega⟩
  have := neZero_of_pos hn
  obtain ⟨hok, hcs, hlen⟩ := newTable_ok (N := N) g ub m c t ht
  have hc := hok.chunk
  have hb := TableCompute.book_init t (natBytes x.natAbs) k hc
  refine ⟨?_, ?_⟩
  · intro s hs
    have hB := TableCompute.exec_book _ _ _ _ s hb hs
    have hI := TableCompute.exec_inv t _ k _ hok.modulus _ s hb
      (TableCompute.inv_init g t hok (natBytes x.natAbs) k ((fits_chunks t hc x).1 hfit)) hs
    refine ⟨hI.notCrashed, ?_, ?_⟩
    · apply TableCompute.progress t _ k hk s hB hI.notCrashed
      intro cnt res hcol
      have := TableCompute.exec_pos t _ k _ s hb hs (by
        intro cnt res h
        injection h with h1 h2
        rw [← h1, TableCompute.counter0_eq _ _ hc]
        have hbl : 0 < (natBytes x.natAbs).length := by
          rw [natBytes_length]
          have : 0 < x.natAbs.size := Nat.size_pos.2 (by omega)
          omega
        have := Nat.div_pos (by omega : t.byteChunkSize ≤ (natBytes x.natAbs).length + t.byteChunkSize - 1) hc
        exact_mod_cast this.ne') cnt res hcol
      have h2 := (hB.running cnt res hcol).1
      omega
    · intro v hv
      rw [hI.ret v hv, setBytes_natBytes, pow_emod_eq]
  · exact alwaysStops_of_measure _ (fun _ => True) TableCompute.weight _ trivial (fun _ _ _ _ => trivial)
      (fun a b _ h => TableCompute.step_weight _ _ _ a b h)

/-- A table for four 16-bit elements in one-byte chunks; 65535 takes two chunks. -/
example : newTable 3 35 65535 4 1 = .ok ⟨35, 1, [3, 11, 11, 11, 11, 11, 11, 11]⟩ ∧
    Fits ⟨35, 1, [3, 11, 11, 11, 11, 11, 11, 11]⟩ 65535 ∧
    inputs 1 2 2 = [⟨1, 2, 0⟩, ⟨0, 1, 1⟩] := by
  refine ⟨by decide +kernel, by unfold Fits; decide +kernel, by simp [inputs]⟩

/-! ## C33 -/

/-- A table for `m` elements up to `ub` handles the product of any `m` such elements: no run crashes. -/
def C33_statement : Prop :=
  ∀ (g n ub : Int) (m c : Nat) (t : Table), 1 ≤ n → newTable g n ub m c = .ok t →
    ∀ l : List Int, l.length = m → (∀ e ∈ l, 1 ≤ e ∧ e ≤ ub) → ∀ k : Nat, 1 ≤ k →
      ∀ s, Exec (TableCompute.Step t (natBytes l.prod.natAbs) k) (TableCompute.init t (natBytes l.prod.natAbs) k) s →
        s.crashed = false

/-- A number that does not fit is never computed: no run returns, some run reaches the crash, and every run ends. -/
theorem C33_not_fits (g n ub : Int) (m c : Nat) (t : Table) (hn : 1 ≤ n)
    (ht : newTable g n ub m c = .ok t) (x : Int) (hfit : ¬ Fits t x) (k : Nat) (hk : 1 ≤ k) :
    (∀ s, Exec (TableCompute.Step t (natBytes x.natAbs) k) (TableCompute.init t (natBytes x.natAbs) k) s →
      (∀ v, s.main ≠ .returned v) ∧ (s.crashed = true ∨ ∃ s', TableCompute.Step t (natBytes x.natAbs) k s s')) ∧
    AlwaysStops (TableCompute.Step t (natBytes x.natAbs) k) (TableCompute.init t (natBytes x.natAbs) k) := by
  obtain ⟨N, rfl⟩ : ∃ N : Nat, n = N := ⟨n.toNat, by omega⟩
  have := neZero_of_pos hn
  obtain ⟨hok, hcs, hlen⟩ := newTable_ok (N := N) g ub m c t ht
  have hc := hok.chunk
  have hb := TableCompute.book_init t (natBytes x.natAbs) k hc
  rw [fits_chunks t hc] at hfit
  have hlpos : 0 < (natBytes x.natAbs).length := by
    by_contra h
    apply hfit
    rw [show (natBytes x.natAbs).length = 0 by omega, Nat.div_eq_of_lt (by omega)]
    omega
  obtain ⟨i, hi, hidx⟩ := inputs_last t.byteChunkSize (natBytes x.natAbs).length (natBytes x.natAbs).length hc
    (Nat.le_refl _) hlpos 0 (by simp)
  have hbad : chunkValue t (natBytes x.natAbs) i = none := by
    cases h : chunkValue t (natBytes x.natAbs) i with
    | none => rfl
    | some v =>
      have := (TableCompute.chunkValue_isSome t _ i).1 (by rw [h]; rfl)
      omega
  have hmem0 : i ∈ TableCompute.inputsLeft (TableCompute.init t (natBytes x.natAbs) k) := by
    simp [TableCompute.inputsLeft, TableCompute.init, TableCompute.mainInputs, hi]
  refine ⟨?_, ?_⟩
  · intro s hs
    have hB := TableCompute.exec_book _ _ _ _ s hb hs
    have hmem := TableCompute.exec_bad t _ k _ s hb hs i hbad hmem0
    have hpos : 0 < TableCompute.outstanding s := by
      unfold TableCompute.outstanding
      have := List.length_pos_of_mem hmem
      omega
    have hnr : ∀ v, s.main ≠ .returned v := by
      intro v hv
      have := (hB.ret v hv).2
      omega
    refine ⟨hnr, ?_⟩
    cases hcr : s.crashed with
    | true => exact .inl rfl
    | false =>
      right
      rcases TableCompute.progress t _ k hk s hB hcr (fun _ _ _ => hpos) with ⟨v, hv⟩ | h
      · exact absurd hv (hnr v)
      · exact h
  · exact alwaysStops_of_measure _ (fun _ => True) TableCompute.weight _ trivial (fun _ _ _ _ => trivial)
      (fun a b _ h => TableCompute.step_weight _ _ _ a b h)

/-- A run that can always go on and always ends reaches an end state. -/
theorem reaches_end {σ : Type} (step : σ → σ → Prop) (w : σ → Nat) (hw : ∀ a b, step a b → w b < w a) (p : σ → Prop)
    (s0 : σ) (h : ∀ s, Exec step s0 s → p s ∨ ∃ s', step s s') : ∃ s, Exec step s0 s ∧ p s := by
  have key : ∀ n s, w s ≤ n → Exec step s0 s → ∃ s, Exec step s0 s ∧ p s := by
    intro n
    induction n with
    | zero =>
      intro s hs he
      rcases h s he with hp | ⟨s', hs'⟩
      · exact ⟨s, he, hp⟩
      · have := hw _ _ hs'; omega
    | succ n ih =>
      intro s hs he
      rcases h s he with hp | ⟨s', hs'⟩
      · exact ⟨s, he, hp⟩
      · exact ih s' (by have := hw _ _ hs'; omega) (.tail he hs')
  exact key _ s0 (Nat.le_refl _) (.refl _)

/-- Three elements up to 15 in one-byte chunks: 12 bits are rounded down to one chunk, and 15³ = 3375 needs two. -/
theorem C33_violated : ¬ C33_statement := by
  intro h
  have ht : newTable 2 35 15 3 1 = .ok ⟨35, 1, [2]⟩ := by decide +kernel
  have h1 := h 2 35 15 3 1 _ (by norm_num) ht [15, 15, 15] rfl (by decide) 1 (by norm_num)
  have hx : ([15, 15, 15] : List Int).prod = 3375 := by decide
  rw [hx] at h1
  obtain ⟨h2, -⟩ := C33_not_fits 2 35 15 3 1 _ (by norm_num) ht 3375 (by unfold Fits; decide +kernel) 1 (by norm_num)
  obtain ⟨s, hs, hc⟩ := reaches_end _ TableCompute.weight (fun a b h => TableCompute.step_weight _ _ _ a b h)
    (fun s => s.crashed = true) _ (fun s hs => (h2 s hs).2)
  have hc' : s.crashed = true := hc
  rw [h1 s hs] at hc'
  cases hc'

theorem prod_lt_two_pow (l : List Int) (ub : Int) (hne : l ≠ []) (h : ∀ e ∈ l, 1 ≤ e ∧ e ≤ ub) :
    1 ≤ l.prod ∧ l.prod < 2 ^ (ub.natAbs.size * l.length) := by
  induction l with
  | nil => exact absurd rfl hne
  | cons a l ih =>
    have ha := h a List.mem_cons_self
    have hub : a < 2 ^ ub.natAbs.size := by
      have := Nat.lt_size_self ub.natAbs
      have h2 : (ub.natAbs : Int) < 2 ^ ub.natAbs.size := by exact_mod_cast this
      omega
    rw [List.prod_cons, List.length_cons, Nat.mul_add, Nat.mul_one, pow_add]
    by_cases hl : l = []
    · subst hl; simp; exact ⟨ha.1, hub⟩
    · obtain ⟨i1, i2⟩ := ih hl (fun e he => h e (List.mem_cons_of_mem _ he))
      refine ⟨one_le_mul_of_one_le_of_one_le ha.1 i1, ?_⟩
      rw [mul_comm]
      exact mul_lt_mul'' i2 hub (by omega) (by omega)

/-- When the total bit length is a multiple of the chunk length, the product fits and is computed. Missing from
`C33_statement`: the other lengths. -/
theorem C33_capacity_partial (g n ub : Int) (m c : Nat) (t : Table) (hn : 1 ≤ n) (ht : newTable g n ub m c = .ok t)
    (hdiv : c * 8 ∣ ub.natAbs.size * m) (l : List Int) (hl : l.length = m) (he : ∀ e ∈ l, 1 ≤ e ∧ e ≤ ub) (k : Nat)
    (hk : 1 ≤ k) (s : TableCompute.State)
    (hs : Exec (TableCompute.Step t (natBytes l.prod.natAbs) k) (TableCompute.init t (natBytes l.prod.natAbs) k) s) :
    s.crashed = false ∧ ∀ v, s.main = .returned v → v = g ^ l.prod.toNat % n := by
  have hN := hn
  obtain ⟨N, rfl⟩ : ∃ N : Nat, n = N := ⟨n.toNat, by omega⟩
  have := neZero_of_pos hN
  obtain ⟨hok, hcs, hlen⟩ := newTable_ok (N := N) g ub m c t ht
  have hne : l ≠ [] := by
    rintro rfl
    simp at hl
    subst hl
    unfold newTable at ht
    simp only [Nat.mul_zero, Nat.zero_div, if_true] at ht
    split at ht <;> cases ht
  obtain ⟨p1, p2⟩ := prod_lt_two_pow l ub hne he
  have hfit : Fits t l.prod := by
    unfold Fits
    rw [hcs, hlen]
    have hsz : l.prod.natAbs.size ≤ ub.natAbs.size * m := by
      rw [Nat.size_le, ← hl]
      zify
      rw [abs_of_pos (by omega)]
      exact p2
    obtain ⟨d, hd⟩ := hdiv
    have hcpos : 0 < c * 8 := by have := hok.chunk; omega
    rw [hd, Nat.mul_div_cancel_left _ hcpos]
    rw [hd, Nat.mul_assoc, Nat.mul_left_comm] at hsz
    omega
  obtain ⟨h1, -⟩ := C32_compute_all_schedules g N ub m c t hn ht l.prod (by omega) hfit k hk
  obtain ⟨a, -, b⟩ := h1 s hs
  refine ⟨a, fun v hv => ?_⟩
  rw [b v hv, show l.prod.natAbs = l.prod.toNat by omega]

example : newTable 2 35 255 3 1 = .ok ⟨35, 1, [2, 16, 16]⟩ ∧ 1 * 8 ∣ (255 : Int).natAbs.size * 3 ∧
    (∀ e ∈ ([255, 254, 253] : List Int), 1 ≤ e ∧ e ≤ 255) := by decide +kernel

/-! ## C34 -/

/-- `Compute(x, k)` returns: as long as it has not returned (or crashed) some goroutine can move. -/
def C34_statement : Prop :=
  ∀ (g n ub : Int) (m c : Nat) (t : Table), 1 ≤ n → newTable g n ub m c = .ok t → ∀ x : Int, Fits t x →
    ∀ k : Nat, 1 ≤ k →
      ∀ s, Exec (TableCompute.Step t (natBytes x.natAbs) k) (TableCompute.init t (natBytes x.natAbs) k) s →
        (∃ v, s.main = .returned v) ∨ ∃ s', TableCompute.Step t (natBytes x.natAbs) k s s'

/-- `x = 0` has no bytes, so nothing is dispatched and the caller waits forever, for every table and every `k`. -/
theorem C34_zero_never_returns (g n ub : Int) (m c : Nat) (t : Table) (hn : 1 ≤ n)
    (ht : newTable g n ub m c = .ok t) (k : Nat) (s : TableCompute.State)
    (hs : Exec (TableCompute.Step t (natBytes (0 : Int).natAbs) k) (TableCompute.init t (natBytes (0 : Int).natAbs) k) s) :
    s = TableCompute.init t (natBytes (0 : Int).natAbs) k ∧ (∀ v, s.main ≠ .returned v) ∧
    ∀ s', ¬ TableCompute.Step t (natBytes (0 : Int).natAbs) k s s' := by
  have hb : natBytes (0 : Int).natAbs = [] := rfl
  rw [hb] at hs ⊢
  have hstuck : ∀ s', ¬ TableCompute.Step t [] k (TableCompute.init t [] k) s' := by
    intro s' h
    have hin : inputs t.byteChunkSize 0 0 = [] := by rw [inputs, dif_neg (by omega)]
    have hw : ∀ w, w ∈ (TableCompute.init t [] k).workers → w = TableCompute.Worker.idle := by
      intro w hw; exact List.eq_of_mem_replicate hw
    cases h with
    | dispatch i rest hc hm hq => simp [TableCompute.init, hin] at hm
    | take l r i q hc hw' hq => simp [TableCompute.init] at hq
    | compute l r i v hc hw' hv => have := hw (.got i) (by rw [hw']; simp); cases this
    | computePanic l r i hc hw' hv => have := hw (.got i) (by rw [hw']; simp); cases this
    | put l r v hc hw' hq => have := hw (.sending v) (by rw [hw']; simp); cases this
    | collect cnt res v q hc hcol hq hne => simp [TableCompute.init] at hq
    | collectLast cnt res v q hc hcol hq hne => simp [TableCompute.init] at hq
    | handOver res hc hm hcol => simp [TableCompute.init] at hcol
    | stop l r res hc hw' hm => simp [TableCompute.init] at hm
  have heq : s = TableCompute.init t [] k := by
    induction hs with
    | refl => rfl
    | tail _ h ih => rw [ih] at h; exact absurd h (hstuck _)
  refine ⟨heq, ?_, ?_⟩
  · rw [heq]; intro v h; cases h
  · rw [heq]; exact hstuck

theorem C34_violated : ¬ C34_statement := by
  intro h
  have ht : newTable 2 35 255 3 1 = .ok ⟨35, 1, [2, 16, 16]⟩ := by decide +kernel
  obtain ⟨-, h1, h2⟩ := C34_zero_never_returns 2 35 255 3 1 _ (by norm_num) ht 1 _ (.refl _)
  rcases h 2 35 255 3 1 _ (by norm_num) ht 0 (by unfold Fits; decide +kernel) 1 (by norm_num) _ (.refl _) with ⟨v, hv⟩ | ⟨s', hs'⟩
  · exact h1 v hv
  · exact h2 s' hs'

/-- Every other number that fits is computed: every run ends, and only with the result. Missing from `C34_statement`:
`x = 0`. -/
theorem C34_returns_partial (g n ub : Int) (m c : Nat) (t : Table) (hn : 1 ≤ n)
    (ht : newTable g n ub m c = .ok t) (x : Int) (hx : x ≠ 0) (hfit : Fits t x) (k : Nat) (hk : 1 ≤ k) :
    (∃ s, Exec (TableCompute.Step t (natBytes x.natAbs) k) (TableCompute.init t (natBytes x.natAbs) k) s ∧
      s.main = .returned (g ^ x.natAbs % n)) ∧
    (∀ s, Exec (TableCompute.Step t (natBytes x.natAbs) k) (TableCompute.init t (natBytes x.natAbs) k) s →
      (∃ v, s.main = .returned v) ∨ ∃ s', TableCompute.Step t (natBytes x.natAbs) k s s') ∧
    AlwaysStops (TableCompute.Step t (natBytes x.natAbs) k) (TableCompute.init t (natBytes x.natAbs) k) := by
  obtain ⟨h1, h2⟩ := C32_compute_all_schedules g n ub m c t hn ht x hx hfit k hk
  refine ⟨?_, fun s hs => (h1 s hs).2.1, h2⟩
  obtain ⟨s, hs, v, hv⟩ := reaches_end _ TableCompute.weight (fun a b h => TableCompute.step_weight _ _ _ a b h)
    (fun s => ∃ v, s.main = .returned v) _ (fun s hs => (h1 s hs).2.1)
  exact ⟨s, hs, by rw [hv, (h1 s hs).2.2 v hv]⟩

end Verif.Props
