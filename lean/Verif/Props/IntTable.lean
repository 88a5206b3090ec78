import Verif.Model.IntTable
import Verif.Props.Precompute

/-! # Machine integers in the byte-chunk table (C134) -/

namespace Verif.Props
open Verif.Go Verif.Model Verif.Lemmas

/-- Whenever `NewTable` returns, the table has the declared number of entries. -/
def C134_statement : Prop :=
  ∀ (maxLen : Nat) (g n ub : Int) (m : Nat) (c : Int) (t : Table64), m < 2 ^ 64 → -2 ^ 63 ≤ c → c < 2 ^ 63 →
    newTable64 maxLen g n ub m c = .ok t → (t.table.length : Int) = ub.natAbs.size * m / (c * 8)

theorem wrap64_small (x : Int) (h0 : 0 ≤ x) (h1 : x < 2 ^ 63) : wrap64 x = x := by
  unfold wrap64
  exact Int.bmod_eq_of_le (by omega) (by omega)

theorem wrap64_range (x : Int) : -2 ^ 63 ≤ wrap64 x ∧ wrap64 x < 2 ^ 63 := by
  unfold wrap64
  have h1 := Int.le_bmod (x := x) (m := 2 ^ 64) (by norm_num)
  have h2 := Int.bmod_lt (x := x) (m := 2 ^ 64) (by norm_num)
  constructor <;> omega

theorem wrap64_mul_wrap (a b : Int) : wrap64 (a * wrap64 b) = wrap64 (a * b) := by
  unfold wrap64
  rw [Int.mul_bmod_bmod]

theorem wrap64_dvd (x : Int) : (2 : Int) ^ 64 ∣ x - wrap64 x := by
  unfold wrap64
  have := Int.bmod_emod (x := x) (m := 2 ^ 64)
  have h2 : (x - x.bmod (2 ^ 64)) % ((2 ^ 64 : Nat) : Int) = 0 := by
    rw [Int.sub_emod, this, sub_self, Int.zero_emod]
  have h3 := Int.dvd_of_emod_eq_zero h2
  push_cast at h3
  exact h3

theorem newTableLoop_length (n opt : Int) (k : Nat) (b : Int) : (newTableLoop n opt k b).length = k := by
  induction k generalizing b with
  | zero => rfl
  | succ k ih => simp [newTableLoop, ih]

/-- For a chunk size whose bit count is an `int`: the table that is returned is the one of the model with unbounded numbers for
a smaller number `M` of bits, which is the declared number of bits modulo 2^64. -/
theorem newTable64_ok (maxLen : Nat) (g n ub : Int) (m : Nat) (c : Int) (hc0 : 0 < c) (hc : c * 8 < 2 ^ 63) (t : Table64) :
    newTable64 maxLen g n ub m c = .ok t ↔
      let M := wrap64 (ub.natAbs.size * m)
      1 ≤ M / (c * 8) ∧ M / (c * 8) ≤ maxLen ∧ t.n = n ∧ t.byteChunkSize = c ∧
      t.table = g :: newTableLoop n (2 ^ (c.toNat * 8)) ((M / (c * 8)).toNat - 1) g := by
  have hd : wrap64 (c * 8) = c * 8 := wrap64_small _ (by omega) hc
  obtain ⟨r1, r2⟩ := wrap64_range (ub.natAbs.size * m)
  have hdN : (c * 8).toNat = c.toNat * 8 := by omega
  unfold newTable64
  simp only [wrap64_mul_wrap, hd, hdN]
  generalize wrap64 (ub.natAbs.size * m) = M at *
  rw [if_neg (by omega)]
  by_cases hM : 0 ≤ M
  · have hq : M.tdiv (c * 8) = M / (c * 8) := Int.tdiv_eq_ediv_of_nonneg hM
    have q0 : 0 ≤ M / (c * 8) := Int.ediv_nonneg hM (by omega)
    have q1 : M / (c * 8) ≤ M := Int.ediv_le_self _ hM
    rw [hq, wrap64_small _ q0 (by omega)]
    by_cases h1 : (maxLen : Int) < M / (c * 8)
    · rw [if_pos (.inr h1)]
      refine ⟨fun h => (by cases h), fun h => (by omega)⟩
    · rw [if_neg (by omega)]
      by_cases h2 : M / (c * 8) = 0
      · rw [if_pos h2]
        refine ⟨fun h => (by cases h), fun h => (by omega)⟩
      · rw [if_neg h2, if_neg (by omega)]
        constructor
        · intro h
          injection h with h
          subst h
          exact ⟨by omega, by omega, rfl, rfl, rfl⟩
        · rintro ⟨-, -, h3, h4, h5⟩
          congr 1
          cases t
          simp only at h3 h4 h5
          subst h3 h4 h5
          rfl
  · have hneg : M / (c * 8) < 0 := Int.ediv_neg_of_neg_of_pos (by omega) (by omega)
    have ht : wrap64 (M.tdiv (c * 8)) ≤ 0 := by
      have h1 : M.tdiv (c * 8) = -((-M) / (c * 8)) := by
        rw [← Int.tdiv_eq_ediv_of_nonneg (by omega : 0 ≤ -M), Int.neg_tdiv, neg_neg]
      have h2 : 0 ≤ (-M) / (c * 8) := Int.ediv_nonneg (by omega) (by omega)
      have h3 : (-M) / (c * 8) < 2 ^ 63 := Int.ediv_lt_of_lt_mul (by omega) (by nlinarith)
      rw [h1]
      unfold wrap64
      rw [Int.bmod_eq_of_le (by omega) (by omega)]
      omega
    refine ⟨fun h => ?_, fun h => (by omega)⟩
    split at h
    · cases h
    · rw [if_pos (by omega)] at h
      cases h

/-- Without overflow: `NewTable` gives the table of `Model/Precompute`, whose properties are C32, C33 and C34, or panics because it is
too large for the memory. Missing from `C134_statement`: the inputs with overflow. -/
theorem C134_no_overflow_partial (maxLen : Nat) (g n ub : Int) (m : Nat) (c : Int) (hc0 : 0 < c) (hc : c * 8 < 2 ^ 63)
    (hm : ub.natAbs.size * m < 2 ^ 63) (t : Table64) :
    newTable64 maxLen g n ub m c = .ok t ↔
      newTable g n ub m c.toNat = .ok t.toTable ∧ t.byteChunkSize = c ∧ t.table.length ≤ maxLen := by
  obtain ⟨c, rfl⟩ : ∃ c' : Nat, c = c' := ⟨c.toNat, by omega⟩
  rw [newTable64_ok maxLen g n ub m c hc0 hc]
  simp only [Int.toNat_natCast]
  have hw : wrap64 (ub.natAbs.size * m) = ((ub.natAbs.size * m : Nat) : Int) := by
    rw [wrap64_small _ (by positivity) (by exact_mod_cast hm)]; push_cast; rfl
  rw [hw]
  generalize hM : ub.natAbs.size * m = M at *
  have hq : (M : Int) / (c * 8) = ((M / (c * 8) : Nat) : Int) := by push_cast; rfl
  have hnt : newTable g n ub m c = if M / (c * 8) = 0 then goPanic "index out of range"
      else .ok { n := n, byteChunkSize := c, table := g :: newTableLoop n (2 ^ (c * 8)) (M / (c * 8) - 1) g } := by
    unfold newTable
    simp only
    rw [if_neg (by omega), hM]
  rw [hq, hnt]
  generalize M / (c * 8) = q at *
  by_cases hq0 : q = 0
  · rw [if_pos hq0]
    exact ⟨fun h => by omega, fun h => by cases h.1⟩
  · rw [if_neg hq0]
    have hlen : (g :: newTableLoop n (2 ^ (c * 8)) (q - 1) g).length = q := by
      rw [List.length_cons, newTableLoop_length]; omega
    constructor
    · rintro ⟨-, h2, h3, h4, h5⟩
      rw [Int.toNat_natCast] at h5
      refine ⟨?_, h4, by rw [h5, hlen]; exact_mod_cast h2⟩
      rw [Table64.toTable, h3, h4, h5, Int.toNat_natCast]
    · rintro ⟨h1, h2, h3⟩
      injection h1 with h1
      have e1 : n = t.n := congrArg Table.n h1
      have e3 : g :: newTableLoop n (2 ^ (c * 8)) (q - 1) g = t.table := congrArg Table.table h1
      rw [← e3, hlen] at h3
      exact ⟨by omega, by exact_mod_cast h3, e1.symm, h2, by rw [Int.toNat_natCast]; exact e3.symm⟩

/-- With overflow of the number of bits (and a chunk size whose bit count is an `int`): `NewTable` panics or gives a table with too few
entries. -/
theorem C134_overflow_partial (maxLen : Nat) (g n ub : Int) (m : Nat) (c : Int) (hc0 : 0 < c) (hc : c * 8 < 2 ^ 63)
    (hm : 2 ^ 63 ≤ ub.natAbs.size * m) (t : Table64) (h : newTable64 maxLen g n ub m c = .ok t) :
    (t.table.length : Int) < ub.natAbs.size * m / (c * 8) := by
  obtain ⟨h1, h2, -, -, h5⟩ := (newTable64_ok maxLen g n ub m c hc0 hc t).1 h
  obtain ⟨-, r2⟩ := wrap64_range (ub.natAbs.size * m)
  obtain ⟨k, hk⟩ := wrap64_dvd (ub.natAbs.size * m)
  have hm' : (2 : Int) ^ 63 ≤ ub.natAbs.size * m := by exact_mod_cast hm
  rw [h5, List.length_cons, newTableLoop_length]
  generalize wrap64 (ub.natAbs.size * m) = W at *
  generalize (ub.natAbs.size : Int) * m = M at *
  have hk1 : 1 ≤ k := by omega
  have hle : W + 1 * (c * 8) ≤ M := by omega
  have := Int.ediv_le_ediv (by omega : 0 < c * 8) hle
  rw [Int.add_mul_ediv_right _ _ (by omega)] at this
  omega

/-- Chunk sizes that are zero or negative, down to -2^60, always give a panic. -/
theorem C134_chunk_nonpos (maxLen : Nat) (g n ub : Int) (m : Nat) (c : Int) (hc0 : c ≤ 0) (hc : -2 ^ 60 ≤ c) (t : Table64) :
    newTable64 maxLen g n ub m c ≠ .ok t := by
  have hd : wrap64 (c * 8) = c * 8 := by
    unfold wrap64
    exact Int.bmod_eq_of_le (by omega) (by omega)
  unfold newTable64
  simp only [hd]
  intro h
  split at h
  · cases h
  split at h
  · cases h
  split at h
  · cases h
  · rw [if_pos (by omega)] at h
    cases h

/-- A chunk size of 2^61 + 1 bytes counts as 8 bits where the table is made: two entries for 16 bits. -/
theorem C134_chunk_overflow : newTable64 2 3 35 65535 1 (2 ^ 61 + 1) = .ok ⟨35, 2 ^ 61 + 1, [3, 11]⟩ := by decide +kernel

/-- A table for 2^60 + 1 elements of 16 bits in one-byte chunks has two entries: the number of bits, 2^64 + 16, wraps to 16. -/
theorem C134_small_table (maxLen : Nat) (hm : 2 ≤ maxLen) :
    newTable64 maxLen 3 35 65535 (2 ^ 60 + 1) 1 = .ok ⟨35, 1, [3, 11]⟩ := by
  rw [newTable64_ok maxLen 3 35 65535 (2 ^ 60 + 1) 1 (by norm_num) (by norm_num)]
  have hs : (65535 : Int).natAbs.size = 16 := by decide +kernel
  have hw : wrap64 (16 * ((2 ^ 60 + 1 : Nat) : Int)) = 16 := by decide +kernel
  simp only [hs]
  rw [show ((16 : Nat) : Int) = 16 from rfl, hw]
  refine ⟨by norm_num, ?_, trivial, trivial, by decide +kernel⟩
  have : (16 : Int) / (1 * 8) = 2 := by norm_num
  rw [this]
  exact_mod_cast hm

theorem C134_violated : ¬ C134_statement := by
  intro h
  have := h 2 3 35 65535 (2 ^ 60 + 1) 1 _ (by norm_num) (by norm_num) (by norm_num) (C134_small_table 2 (by norm_num))
  have hs : (65535 : Int).natAbs.size = 16 := by decide +kernel
  rw [hs] at this
  norm_num at this

/-- With this table the product of two of the elements is never computed. -/
theorem C134_two_elements (k : Nat) (hk : 1 ≤ k) (s : TableCompute.State)
    (hs : Exec (TableCompute.Step (Table64.toTable ⟨35, 1, [3, 11]⟩) (natBytes (65535 * 65535 : Int).natAbs) k)
      (TableCompute.init (Table64.toTable ⟨35, 1, [3, 11]⟩) (natBytes (65535 * 65535 : Int).natAbs) k) s) (v : Int) :
    s.main ≠ .returned v := by
  have ht : newTable 3 35 65535 1 1 = .ok (Table64.toTable ⟨35, 1, [3, 11]⟩) := by decide +kernel
  exact ((C33_not_fits 3 35 65535 1 1 _ (by norm_num) ht (65535 * 65535) (by unfold Fits; decide +kernel) k hk).1 s hs).1 v

/-- A table without overflow. -/
example : newTable64 8 3 35 65535 4 1 = .ok ⟨35, 1, [3, 11, 11, 11, 11, 11, 11, 11]⟩ ∧ (1 : Int) * 8 < 2 ^ 63 ∧
    (65535 : Int).natAbs.size * 4 < 2 ^ 63 := by decide +kernel

/-! ## Compute with an `int` number of goroutines -/

/-- With no goroutine nothing can happen. -/
theorem compute_zero_stuck (t : Table) (xb : Bytes) (s : TableCompute.State)
    (hs : Exec (TableCompute.Step t xb 0) (TableCompute.init t xb 0) s) : s = TableCompute.init t xb 0 := by
  induction hs with
  | refl => rfl
  | tail _ h ih =>
    subst ih
    exfalso
    cases h with
    | dispatch i rest hc hm hq => simp [TableCompute.init] at hq
    | take l r i q hc hw' hq => simp [TableCompute.init] at hq
    | compute l r i v hc hw' hv => simp [TableCompute.init] at hw'
    | computePanic l r i hc hw' hv => simp [TableCompute.init] at hw'
    | put l r v hc hw' hq => simp [TableCompute.init] at hw'
    | collect cnt res v q hc hcol hq hne => simp [TableCompute.init] at hq
    | collectLast cnt res v q hc hcol hq hne => simp [TableCompute.init] at hq
    | handOver res hc hm hcol => simp [TableCompute.init] at hcol
    | stop l r res hc hw' hm => simp [TableCompute.init] at hm

/-- When `Compute` returns, for every `int` number of goroutines (on a machine whose greatest channel size is below 2^61): exactly for
at least one goroutine, channels that fit into the memory, and a number other than 0 that fits into the table; and then only
with the power. -/
theorem C134_compute_returns_iff (maxLen : Nat) (hmax : maxLen < 2 ^ 61) (g n ub : Int) (m c : Nat) (t : Table) (hn : 1 ≤ n)
    (ht : newTable g n ub m c = .ok t) (x k v : Int) :
    ComputeReturns maxLen t x k v ↔ 1 ≤ k ∧ k * 4 ≤ maxLen ∧ x ≠ 0 ∧ Fits t x ∧ v = g ^ x.natAbs % n := by
  have hmax' : (maxLen : Int) < 2 ^ 61 := by exact_mod_cast hmax
  constructor
  · rintro ⟨⟨-, a2⟩, ⟨b1, b2⟩, s, hs, hv⟩
    rw [wrap64_small _ (by omega) (by omega)] at a2
    have hk : 1 ≤ k := by
      by_contra hk
      have hk0 : k.toNat = 0 := by omega
      rw [hk0] at hs
      rw [compute_zero_stuck t _ s hs] at hv
      cases hv
    have hx : x ≠ 0 := by
      rintro rfl
      exact (C34_zero_never_returns g n ub m c t hn ht k.toNat s hs).2.1 v hv
    have hf : Fits t x := by
      by_contra hf
      exact ((C33_not_fits g n ub m c t hn ht x hf k.toNat (by omega)).1 s hs).1 v hv
    exact ⟨hk, a2, hx, hf, ((C32_compute_all_schedules g n ub m c t hn ht x hx hf k.toNat (by omega)).1 s hs).2.2 v hv⟩
  · rintro ⟨hk, h4, hx, hf, rfl⟩
    refine ⟨?_, ⟨by omega, by omega⟩, (C34_returns_partial g n ub m c t hn ht x hx hf k.toNat (by omega)).1⟩
    rw [wrap64_small _ (by omega) (by omega)]
    exact ⟨by omega, h4⟩

/-- Two goroutines and room for eight numbers in a channel. -/
example (v : Int) : ComputeReturns 8 ⟨35, 1, [2, 16, 16]⟩ 300 2 v ↔ v = 2 ^ 300 % 35 := by
  have ht : newTable 2 35 255 3 1 = .ok ⟨35, 1, [2, 16, 16]⟩ := by decide +kernel
  rw [C134_compute_returns_iff 8 (by norm_num) 2 35 255 3 1 _ (by norm_num) ht]
  have hf : Fits ⟨35, 1, [2, 16, 16]⟩ 300 := by unfold Fits; decide +kernel
  constructor
  · rintro ⟨-, -, -, -, h⟩; exact h
  · intro h; exact ⟨by norm_num, by norm_num, by norm_num, hf, h⟩

/-! ## GenPreTable -/

/-- The offsets that `GenPreTable` adds up stay below its argument `bitLen`, so there is no overflow there. -/
theorem C134_preTable (base N bitLen tableSize : Int) (t : PreTable) (h : genPreTable base N bitLen tableSize = .ok t) (v : Nat)
    (hv : v ∈ t.n) : (v : Int) < bitLen := by
  unfold genPreTable at h
  split at h
  · cases h
  split at h
  · cases h
  split at h
  · cases h
  simp only at h
  injection h with h
  subst h
  obtain ⟨ts, rfl⟩ : ∃ ts : Nat, tableSize = ts := ⟨tableSize.toNat, by omega⟩
  obtain ⟨bl, rfl⟩ : ∃ bl : Nat, bitLen = bl := ⟨bitLen.toNat, by omega⟩
  rw [show (bl : Int) / ts = ((bl / ts : Nat) : Int) by push_cast; rfl, Int.toNat_natCast, Int.toNat_natCast] at hv
  have hts : 1 ≤ ts := by omega
  have key : ∀ k b m0, ∀ v ∈ (genPreTableLoop N (bl / ts) k b m0).2, v ≤ m0 + k * (bl / ts) := by
    intro k
    induction k with
    | zero => intro b m0 v hv; simp [genPreTableLoop] at hv
    | succ k ih =>
      intro b m0 v hv
      simp only [genPreTableLoop, List.mem_cons] at hv
      rcases hv with rfl | hv
      · nlinarith [Nat.zero_le (k * (bl / ts))]
      · have := ih _ _ v hv
        nlinarith
  rcases List.mem_cons.1 hv with rfl | hv
  · omega
  · have h1 := key _ _ _ v hv
    have h2 : ts * (bl / ts) ≤ bl := Nat.mul_div_le bl ts
    have h3 : 0 < bl / ts := Nat.div_pos (by omega) (by omega)
    obtain ⟨d, rfl⟩ : ∃ d, ts = d + 1 := ⟨ts - 1, by omega⟩
    simp only [Nat.add_sub_cancel] at h1
    generalize bl / (d + 1) = q at *
    have : v < bl := by nlinarith
    exact_mod_cast this

example : genPreTable 3 35 7 3 = .ok ⟨[3, 11, 11], [0, 2, 4]⟩ := by decide +kernel

end Verif.Props
