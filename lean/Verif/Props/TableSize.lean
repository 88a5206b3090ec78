import Verif.Model.TableSize
import Verif.Props.ManualBench

/-! # Property C142: the size of the precomputation table that is printed; C131 for sizes that are not positive -/

namespace Verif.Props
open Verif.Go Verif.Model Verif.Lemmas Verif.Spec

/-- Number of bytes of a number. -/
def numBytes (x : Nat) : Nat := (Nat.size x + 7) / 8

/-- Number of bytes of all numbers in a table. -/
def tableBytes (table : List (List Nat)) : Nat := (table.map fun row => (row.map numBytes).sum).sum

/-- A table of `rows` rows with the powers of `G` modulo `N`: column `j` of row `i` has the exponent `2^(64 i + j)`. -/
def PowerTable (G N rows : Nat) (table : List (List Nat)) : Prop :=
  table.length = rows ∧
    ∀ i (h : i < table.length), table[i].length = 64 ∧ ∀ j (hj : j < table[i].length), table[i][j] = G ^ 2 ^ (64 * i + j) % N

/-- "The table size = ... Totally ... bytes": if the library makes a table of powers with the length it is asked for, the
numbers in the table take no more bytes than are printed. -/
def C142_statement : Prop :=
  ∀ (newTable : Nat → Nat → Nat → List (List Nat)), (∀ G N rows, PowerTable G N rows (newTable G N rows)) →
    ∀ setSize, tableBytes (newTable builtinSetup.G builtinSetup.N (preComputeDIWords setSize)) ≤
      (testPreComputeTableSize newTable setSize).bytes

theorem numBytes_le {x b : Nat} (h : x < 2 ^ (8 * b)) : numBytes x ≤ b := by
  have := Nat.size_le.2 h
  unfold numBytes
  omega

theorem le_numBytes {x b : Nat} (h : 2 ^ (8 * b) ≤ x) : b + 1 ≤ numBytes x := by
  have := Nat.lt_size.2 h
  unfold numBytes
  omega

theorem sum_map_le {α : Type} (f : α → Nat) (c : Nat) (l : List α) (h : ∀ a ∈ l, f a ≤ c) : (l.map f).sum ≤ l.length * c := by
  induction l with
  | nil => simp
  | cons a l ih =>
    rw [List.map_cons, List.sum_cons, List.length_cons, Nat.succ_mul]
    have := h a List.mem_cons_self
    have := ih fun b hb => h b (List.mem_cons_of_mem _ hb)
    omega

theorem le_sum_map {α : Type} (f : α → Nat) (c : Nat) (l : List α) (h : ∀ a ∈ l, c ≤ f a) : l.length * c ≤ (l.map f).sum := by
  induction l with
  | nil => simp
  | cons a l ih =>
    rw [List.map_cons, List.sum_cons, List.length_cons, Nat.succ_mul]
    have := h a List.mem_cons_self
    have := ih fun b hb => h b (List.mem_cons_of_mem _ hb)
    omega

theorem printedSize_bytes (n : Nat) : (printedSize n).bytes = n * 512 := by
  show n * 64 * 64 / 8 = n * 512
  omega

/-- For a table of rows of 64 numbers: numbers of at most `b` bytes take at most `b` eighths of what is printed, so the printed
number is enough for numbers of 64 bits, and 32 times the printed number is enough for 2048 bits. Numbers of more than 64 bits
always take more than is printed. -/
theorem C142_bounds_partial (table : List (List Nat)) (hcol : ∀ row ∈ table, row.length = 64) :
    (∀ b, (∀ row ∈ table, ∀ x ∈ row, x < 2 ^ (8 * b)) → tableBytes table * 8 ≤ b * (printedSize table.length).bytes) ∧
    (∀ b, (∀ row ∈ table, ∀ x ∈ row, 2 ^ (8 * b) ≤ x) →
      (b + 1) * (printedSize table.length).bytes ≤ tableBytes table * 8) := by
  constructor
  · intro b hb
    have := sum_map_le (fun row => (row.map numBytes).sum) (64 * b) table (fun row hr => by
      have := sum_map_le numBytes b row (fun x hx => numBytes_le (hb row hr x hx))
      rwa [hcol row hr] at this)
    rw [printedSize_bytes]
    unfold tableBytes
    calc _ ≤ table.length * (64 * b) * 8 := Nat.mul_le_mul_right _ this
      _ = _ := by ring
  · intro b hb
    have := le_sum_map (fun row => (row.map numBytes).sum) (64 * (b + 1)) table (fun row hr => by
      have := le_sum_map numBytes (b + 1) row (fun x hx => le_numBytes (hb row hr x hx))
      rwa [hcol row hr] at this)
    rw [printedSize_bytes]
    unfold tableBytes
    calc _ = table.length * (64 * (b + 1)) * 8 := by ring
      _ ≤ _ := Nat.mul_le_mul_right _ this

/-- The number of `x`, `x^2`, `x^4`, ... modulo `N` that are at least `B`, among the first `n`. -/
def countLarge (N B : Nat) : Nat → Nat → Nat
  | 0, _ => 0
  | n + 1, x => (if B ≤ x then 1 else 0) + countLarge N B n (x * x % N)

theorem countLarge_le (G N b n : Nat) (k : Nat) :
    (b + 1) * countLarge N (2 ^ (8 * b)) n (G ^ 2 ^ k % N) ≤
      ((List.range n).map fun j => numBytes (G ^ 2 ^ (k + j) % N)).sum := by
  induction n generalizing k with
  | zero => simp [countLarge]
  | succ n ih =>
    have hsq : G ^ 2 ^ k % N * (G ^ 2 ^ k % N) % N = G ^ 2 ^ (k + 1) % N := by
      rw [← Nat.mul_mod, ← pow_add, ← two_mul, pow_succ' 2 k]
    have h := ih (k + 1)
    rw [List.range_succ_eq_map, List.map_cons, List.sum_cons, List.map_map, countLarge, hsq, Nat.mul_add]
    have he : ((fun j => numBytes (G ^ 2 ^ (k + j) % N)) ∘ Nat.succ) = fun j => numBytes (G ^ 2 ^ (k + 1 + j) % N) := by
      funext j
      simp only [Function.comp_apply, Nat.succ_eq_add_one]
      rw [show k + (j + 1) = k + 1 + j by omega]
    rw [he]
    refine Nat.add_le_add ?_ h
    split
    · rename_i hB
      rw [Nat.mul_one]
      exact le_numBytes hB
    · simp

theorem tableBytes_power (G N rows : Nat) (table : List (List Nat)) (h : PowerTable G N rows table) :
    tableBytes table = ((List.range (64 * rows)).map fun k => numBytes (G ^ 2 ^ k % N)).sum := by
  have ht : table = (List.range rows).map fun i => (List.range 64).map fun j => G ^ 2 ^ (64 * i + j) % N := by
    apply List.ext_getElem
    · simp [h.1]
    · intro i h1 h2
      obtain ⟨hl, hx⟩ := h.2 i h1
      rw [List.getElem_map, List.getElem_range]
      apply List.ext_getElem
      · simp [hl]
      · intro j h3 h4
        rw [List.getElem_map, List.getElem_range, hx j h3]
  rw [ht]
  clear ht h
  induction rows with
  | zero => rfl
  | succ r ih =>
    unfold tableBytes at ih ⊢
    rw [List.range_succ (n := r), List.map_append, List.map_append, List.sum_append, ih, Nat.mul_succ, List.range_add, List.map_append,
      List.sum_append]
    simp [List.map_map, Function.comp_def]

theorem countLarge_builtin : 1984 ≤ countLarge n2048 (2 ^ (8 * 255)) 2048 (g2048 % n2048) := by decide +kernel

/-- Already the table for one element takes more than 31 times the bytes that are printed. -/
theorem C142_one (table : List (List Nat)) (h : PowerTable builtinSetup.G builtinSetup.N (preComputeDIWords 1) table) :
    31 * (printedSize table.length).bytes ≤ tableBytes table := by
  rw [tableBytes_power _ _ _ _ h, h.1, printedSize_bytes]
  have h1 := countLarge_le builtinSetup.G builtinSetup.N 255 2048 0
  have h2 : 1984 ≤ countLarge builtinSetup.N (2 ^ (8 * 255)) 2048 (builtinSetup.G ^ 2 ^ 0 % builtinSetup.N) := by
    rw [pow_zero, pow_one]
    exact countLarge_builtin
  simp only [Nat.zero_add] at h1
  generalize countLarge builtinSetup.N (2 ^ (8 * 255)) 2048 (builtinSetup.G ^ 2 ^ 0 % builtinSetup.N) = c at h1 h2
  show 31 * (1 * 2048 / 64 * 512) ≤ _
  have h3 : 64 * preComputeDIWords 1 = 2048 := rfl
  rw [h3]
  omega

/-- A library as in the statement. -/
def powerTable (G N rows : Nat) : List (List Nat) :=
  (List.range rows).map fun i => (List.range 64).map fun j => G ^ 2 ^ (64 * i + j) % N

theorem powerTable_length (G N rows : Nat) : (powerTable G N rows).length = rows :=
  (List.length_map _).trans List.length_range

theorem powerTable_getElem (G N rows i : Nat) (h : i < (powerTable G N rows).length) :
    (powerTable G N rows)[i] = (List.range 64).map fun j => G ^ 2 ^ (64 * i + j) % N := by
  unfold powerTable at h ⊢
  rw [List.getElem_map, List.getElem_range]

theorem powerTable_ok (G N rows : Nat) : PowerTable G N rows (powerTable G N rows) := by
  refine ⟨powerTable_length G N rows, fun i h => ?_⟩
  refine ⟨?_, fun j hj => ?_⟩
  · rw [powerTable_getElem, List.length_map, List.length_range]
  · have := powerTable_getElem G N rows i h
    generalize (powerTable G N rows)[i] = row at this hj
    subst this
    rw [List.getElem_map, List.getElem_range]

theorem C142_violated : ¬ C142_statement := by
  intro h
  have h1 := h powerTable powerTable_ok 1
  have h2 := C142_one _ (powerTable_ok builtinSetup.G builtinSetup.N (preComputeDIWords 1))
  have h3 : (testPreComputeTableSize powerTable 1).bytes =
    (printedSize (powerTable builtinSetup.G builtinSetup.N (preComputeDIWords 1)).length).bytes := rfl
  rw [h3] at h1
  have h4 : (powerTable builtinSetup.G builtinSetup.N (preComputeDIWords 1)).length = 32 := (powerTable_ok _ _ _).1
  rw [h4, printedSize_bytes] at h1 h2
  omega

/-- What is printed for the six sizes of the code: 512 bytes for each word of the exponents. -/
theorem C142_wrapper (newTable : Nat → Nat → Nat → List (List Nat)) (h : ∀ G N rows, PowerTable G N rows (newTable G N rows)) :
    testDifferentPrecomputationTableSize newTable = [1024, 4096, 16384, 65536, 262144, 1048576].map fun n =>
      { rows := 32 * n, columns := 64, elementSize := 64, bytes := 2 ^ 14 * n } := by
  unfold testDifferentPrecomputationTableSize
  refine List.map_congr_left fun n _ => ?_
  show printedSize (newTable builtinSetup.G builtinSetup.N (preComputeDIWords n)).length = _
  rw [(h _ _ _).1]
  have h1 : preComputeDIWords n = 32 * n := by
    unfold preComputeDIWords
    omega
  rw [h1]
  have h2 := printedSize_bytes (32 * n)
  show (⟨32 * n, 64, 64, (printedSize (32 * n)).bytes⟩ : PrintedSize) = _
  rw [h2, show 32 * n * 512 = 2 ^ 14 * n by omega]

/-- A table of two rows modulo 1000 meets the hypotheses: its numbers have at most two bytes. -/
example : (∀ row ∈ powerTable 7 1000 2, row.length = 64) ∧ (∀ row ∈ powerTable 7 1000 2, ∀ x ∈ row, x < 2 ^ (8 * 2)) ∧
    tableBytes (powerTable 7 1000 2) * 8 ≤ 2 * (printedSize 2).bytes := by
  have h1 : ∀ row ∈ powerTable 7 1000 2, row.length = 64 := by
    intro row hr
    obtain ⟨i, -, rfl⟩ := List.mem_map.1 hr
    simp
  have h2 : ∀ row ∈ powerTable 7 1000 2, ∀ x ∈ row, x < 2 ^ (8 * 2) := by
    intro row hr x hx
    obtain ⟨i, -, rfl⟩ := List.mem_map.1 hr
    obtain ⟨j, -, rfl⟩ := List.mem_map.1 hx
    exact lt_of_lt_of_le (Nat.mod_lt _ (by norm_num)) (by norm_num)
  have h3 := (C142_bounds_partial _ h1).1 2 h2
  have h4 : (powerTable 7 1000 2).length = 2 := (powerTable_ok _ _ _).1
  rw [h4] at h3
  exact ⟨h1, h2, h3⟩

/-! ## C131 for all sizes of type `int` -/

/-- The statement of C131 for all sizes, also those that are not positive. -/
def C131_int_statement : Prop :=
  ∀ (E : Env) (fuel G N : Nat) (r1 : Nat → Nat) (makeTable : Int → Res Unit) (n : Int) (v : List PreComputeRun),
    testDifferentGroupingSizeInt E fuel G N r1 makeTable n = Run.ok v → usersServed v = 262144

/-- For a size that is not negative this is `testDifferentGroupingSize`, if the table can be made. -/
theorem groupingInt_nat (E : Env) (fuel G N : Nat) (r1 : Nat → Nat) (makeTable : Int → Res Unit) (n : Nat)
    (v : List PreComputeRun) : testDifferentGroupingSizeInt E fuel G N r1 makeTable n = Run.ok v ↔
      makeTable (preComputeDIWords n) = .ok () ∧ testDifferentGroupingSize E fuel G N r1 n = Run.ok v := by
  have hw : ((n : Int) * 2048).tdiv 64 = (preComputeDIWords n : Int) := by
    rw [preComputeDIWords, Int.tdiv_eq_ediv_of_nonneg (by omega)]
    push_cast
    rfl
  unfold testDifferentGroupingSizeInt testDifferentGroupingSize
  by_cases h0 : n = 0
  · subst h0
    simp only [run_bind_ok_iff, liftRes_ok_iff, groupingRepeat, if_true, Nat.cast_zero]
    constructor
    · intro h
      cases h
    · rintro ⟨-, k, hk, -⟩
      cases hk
  · have h1 : ¬ (n : Int) = 0 := by omega
    have hd : (Int.tdiv 262144 (n : Int)).toNat = 262144 / n := by
      rw [Int.tdiv_eq_ediv_of_nonneg (by omega), show (262144 : Int) / (n : Int) = ((262144 / n : Nat) : Int) by push_cast; rfl,
        Int.toNat_natCast]
    dsimp only
    rw [if_neg h1, hw, hd, Int.toNat_natCast, groupingRepeat, if_neg h0]
    simp only [run_bind_ok_iff, liftRes_ok_iff, genBenchSetInt_ok]
    constructor
    · rintro ⟨⟨⟩, hm, h⟩
      refine ⟨hm, _, rfl, ?_⟩
      exact h
    · rintro ⟨hm, k, hk, h⟩
      cases hk
      exact ⟨(), hm, h⟩

/-- For all sizes, a run that returns serves `262144 / n * n` users for a positive size and none for a negative size. -/
theorem C131_int_partial (E : Env) (fuel G N : Nat) (r1 : Nat → Nat) (makeTable : Int → Res Unit) (n : Int)
    (v : List PreComputeRun) (h : testDifferentGroupingSizeInt E fuel G N r1 makeTable n = Run.ok v) :
    n ≠ 0 ∧ (n < 0 → v = []) ∧ (0 < n → (usersServed v : Int) = 262144 / n * n) ∧
    (usersServed v = 262144 ↔ 0 < n ∧ n ∣ 262144) := by
  rcases lt_or_ge n 0 with hn | hn
  · have hr : (Int.tdiv 262144 n).toNat = 0 := by
      obtain ⟨m, rfl⟩ : ∃ m : Int, n = -m := ⟨-n, by omega⟩
      rw [Int.tdiv_neg, Int.tdiv_eq_ediv_of_nonneg (by omega)]
      have : 0 ≤ 262144 / m := Int.ediv_nonneg (by omega) (by omega)
      omega
    unfold testDifferentGroupingSizeInt at h
    dsimp only at h
    rw [if_neg (by omega), hr] at h
    simp only [run_bind_ok_iff, liftRes_ok_iff, List.range_zero, List.mapM_nil] at h
    obtain ⟨⟨⟩, -, h⟩ := h
    have hv : v = [] := (run_ok_inj h).symm
    subst hv
    refine ⟨by omega, fun _ => rfl, fun h => by omega, ?_⟩
    simp [usersServed]
    omega
  · obtain ⟨m, rfl⟩ := Int.eq_ofNat_of_zero_le hn
    obtain ⟨-, h⟩ := (groupingInt_nat _ _ _ _ _ _ _ _).1 h
    have h4 := ((grouping_ok_iff _ _ _ _ _ _ _).1 h).1
    have hu := usersServed_grouping _ _ _ _ _ _ _ h
    have hd := (C131_users_partial _ _ _ _ _ _ _ h).2.1
    refine ⟨by omega, fun h => by omega, fun _ => ?_, ?_⟩
    · rw [hu]
      push_cast
      rfl
    · rw [hd]
      constructor
      · intro hm
        exact ⟨by omega, by exact_mod_cast hm⟩
      · rintro ⟨-, hm⟩
        exact_mod_cast hm

theorem C131_int_violated : ¬ C131_int_statement := by
  intro h
  obtain ⟨v, hv⟩ := (C131_returns_iff pokeEnv 0 2 35 (fun _ => 3) 5).2 (by omega)
  have h1 := h pokeEnv 0 2 35 (fun _ => 3) (fun _ => .ok ()) (5 : Nat) v ((groupingInt_nat _ _ _ _ _ _ _ _).2 ⟨rfl, hv⟩)
  rw [usersServed_grouping _ _ _ _ _ _ _ hv] at h1
  omega

/-- Size -7 returns when the table can be made, and serves nobody. -/
example (E : Env) : testDifferentGroupingSizeInt E 0 4 35 (fun i => i + 1) (fun _ => .ok ()) (-7) = Run.ok [] := rfl

end Verif.Props
