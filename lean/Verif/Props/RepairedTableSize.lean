import Verif.Props.ManualBench
import Verif.Props.TableSize

/-! # Repairs of C130 and C142: the first product, and the size of the numbers in the table -/

namespace Verif.Props
open Verif.Go Verif.Model Verif.Lemmas Verif.Spec

/-- experiments/finaltests.go:211-224 `TestPreComputeTableSize` with a change: a number of the table is counted with the bytes of the
modulus in place of 64 bits. Not in the repository. -/
def testPreComputeTableSizeModulus (G N : Nat) (newTable : Nat → Nat → Nat → List (List Nat)) (setSize : Nat) : PrintedSize :=
  let table := newTable G N (preComputeDIWords setSize)
  { rows := table.length, columns := 64, elementSize := (Nat.size N + 7) / 8 * 8,
    bytes := table.length * 64 * ((Nat.size N + 7) / 8) }

/-- Whatever the modulus, the numbers in the table take no more bytes than the changed program prints. -/
theorem C142_repaired_partial (newTable : Nat → Nat → Nat → List (List Nat))
    (ht : ∀ G N rows, PowerTable G N rows (newTable G N rows)) (G N : Nat) (hN : 0 < N) (setSize : Nat) :
    tableBytes (newTable G N (preComputeDIWords setSize)) ≤ (testPreComputeTableSizeModulus G N newTable setSize).bytes := by
  have h := ht G N (preComputeDIWords setSize)
  show _ ≤ (newTable G N (preComputeDIWords setSize)).length * 64 * ((Nat.size N + 7) / 8)
  rw [tableBytes_power _ _ _ _ h, h.1]
  have h1 := sum_map_le (fun k => numBytes (G ^ 2 ^ k % N)) ((Nat.size N + 7) / 8) (List.range (64 * preComputeDIWords setSize))
    (fun k _ => by
      have h2 : Nat.size (G ^ 2 ^ k % N) ≤ Nat.size N := Nat.size_le_size (Nat.mod_lt _ hN).le
      show (Nat.size (G ^ 2 ^ k % N) + 7) / 8 ≤ _
      omega)
  rw [List.length_range] at h1
  rw [Nat.mul_comm (preComputeDIWords setSize) 64]
  exact h1

/-- The other numbers that the changed program prints: the table has the printed rows and columns, every number fits into the printed
size of an element, and the bytes are the product of the three divided by 8. -/
theorem C142_repaired_parts_partial (newTable : Nat → Nat → Nat → List (List Nat))
    (ht : ∀ G N rows, PowerTable G N rows (newTable G N rows)) (G N : Nat) (hN : 0 < N) (setSize : Nat) :
    (testPreComputeTableSizeModulus G N newTable setSize).rows = setSize * 2048 / 64 ∧
    (∀ i (h : i < (newTable G N (preComputeDIWords setSize)).length),
      (newTable G N (preComputeDIWords setSize))[i].length = (testPreComputeTableSizeModulus G N newTable setSize).columns ∧
      ∀ j (hj : j < (newTable G N (preComputeDIWords setSize))[i].length),
        (newTable G N (preComputeDIWords setSize))[i][j] < 2 ^ (testPreComputeTableSizeModulus G N newTable setSize).elementSize) ∧
    (testPreComputeTableSizeModulus G N newTable setSize).bytes * 8 =
      (testPreComputeTableSizeModulus G N newTable setSize).rows * (testPreComputeTableSizeModulus G N newTable setSize).columns *
        (testPreComputeTableSizeModulus G N newTable setSize).elementSize := by
  obtain ⟨h1, h2⟩ := ht G N (preComputeDIWords setSize)
  refine ⟨h1, fun i h => ⟨(h2 i h).1, fun j hj => ?_⟩, Nat.mul_assoc _ _ _⟩
  rw [(h2 i h).2 j hj]
  refine (Nat.mod_lt _ hN).trans_le ?_
  show N ≤ 2 ^ ((Nat.size N + 7) / 8 * 8)
  exact (Nat.lt_size_self N).le.trans (Nat.pow_le_pow_right (by omega) (by omega))

theorem size_n2048 : Nat.size builtinSetup.N = 2048 := by
  have h : Nat.size n2048 = 2048 := by
    apply le_antisymm
    · exact Nat.size_le.2 (by decide +kernel)
    · exact Nat.lt_size.2 (by decide +kernel)
  exact h

/-- For the numbers of the repository the printed size is 32 times that of the repository, and for one element it is at most 32/31 of
the bytes in the table. -/
theorem C142_repaired_tight_partial (newTable : Nat → Nat → Nat → List (List Nat))
    (ht : ∀ G N rows, PowerTable G N rows (newTable G N rows)) (setSize : Nat) :
    (testPreComputeTableSizeModulus builtinSetup.G builtinSetup.N newTable setSize).bytes =
      32 * (testPreComputeTableSize newTable setSize).bytes ∧
    31 * (testPreComputeTableSizeModulus builtinSetup.G builtinSetup.N newTable 1).bytes ≤
      32 * tableBytes (newTable builtinSetup.G builtinSetup.N (preComputeDIWords 1)) := by
  have key : ∀ n, (testPreComputeTableSizeModulus builtinSetup.G builtinSetup.N newTable n).bytes =
      32 * (printedSize (newTable builtinSetup.G builtinSetup.N (preComputeDIWords n)).length).bytes := by
    intro n
    rw [printedSize_bytes]
    unfold testPreComputeTableSizeModulus
    rw [size_n2048]
    dsimp only
    omega
  refine ⟨key setSize, ?_⟩
  have h2 := C142_one _ (ht builtinSetup.G builtinSetup.N (preComputeDIWords 1))
  rw [key 1]
  omega

/-- The table of one element modulo 1000: 2048 numbers of at most two bytes. -/
example : tableBytes (powerTable 3 1000 (preComputeDIWords 1)) ≤ 4096 :=
  (C142_repaired_partial powerTable powerTable_ok 3 1000 (by omega) 1).trans (by
    show (powerTable 3 1000 (preComputeDIWords 1)).length * 64 * ((Nat.size 1000 + 7) / 8) ≤ 4096
    rw [powerTable_length]
    decide +kernel)

/-- experiments/integers.go:48-68 `TestProduct` with lines 52 and 54 not commented out. Not in the repository. -/
def experimentProductBoth (E : Env) (fuel setSize : Nat) : Run (List Nat) := do
  let rep ← genRepresentatives E fuel (genBenchSet setSize) diHashFromPoseidon
  let prod := setProduct2 rep
  let first := Nat.size prod
  let prod := setProductRecursive rep
  Run.ok [first, Nat.size prod]

/-- C130 as a whole with the changed program: every printed length is the length of the product. -/
theorem C130_repaired_partial (E : Env) (fuel n : Nat) (printed : List Nat)
    (h : experimentProductBoth E fuel n = Run.ok printed ∨ (∃ temp, experimentProduct2 E fuel n = Run.ok (printed, temp)) ∨
      experimentProduct3 E fuel n = Run.ok printed) : ∀ l ∈ printed, l = (benchProduct E n).size := by
  have h1 : experimentProductBoth E fuel n = Run.ok [(benchProduct E n).size, (benchProduct E n).size] := by
    unfold experimentProductBoth
    simp only [genBench_reps, run_ok_bind, setProductRecursive_eq, setProduct2_eq]
    rfl
  obtain ⟨h3, -, h2, -⟩ := C130_lengths_partial E fuel n
  have h4 : printed = [(benchProduct E n).size, (benchProduct E n).size] := by
    rcases h with h | ⟨t, h⟩ | h
    · exact (run_ok_inj (h1.symm.trans h)).symm
    · exact (h2 _ h).1
    · exact (run_ok_inj (h3.symm.trans h)).symm
  rw [h4]
  intro l hl
  simpa using hl

/-- The changed program always ends. -/
theorem C130_repaired_ends_partial (E : Env) (fuel n : Nat) : ∃ printed, experimentProductBoth E fuel n = Run.ok printed ∧
    printed.length = 2 := by
  unfold experimentProductBoth
  simp only [genBench_reps, run_ok_bind]
  exact ⟨_, rfl, rfl⟩

/-- The program of the repository has 1000000 elements. -/
example (E : Env) : ∃ printed, experimentProductBoth E 0 1000000 = Run.ok printed ∧
    ∀ l ∈ printed, l = (benchProduct E 1000000).size := by
  obtain ⟨p, hp, -⟩ := C130_repaired_ends_partial E 0 1000000
  exact ⟨p, hp, C130_repaired_partial E 0 1000000 p (.inl hp)⟩

end Verif.Props
