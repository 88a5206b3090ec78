import Verif.Model.MerkleSwap
import Verif.Lemmas.MultiSwap
import Verif.Props.MultiSwap
import Mathlib.Logic.Function.Iterate

/-! # Property C69: the Merkle swap circuit -/

namespace Verif.Props
open Verif.Go Verif.Model Verif.Lemmas

/-- The hash at the root of a path of 28 levels above the leaf `x` whose sibling is `x` at every level. -/
def pathHash (E : Env) (x : Nat) : Nat := (fun h => E.poseidon [x, h])^[28] (E.poseidon [x, x])

theorem foldl_const {α β : Type} (f : α → α) (l : List β) (a : α) : l.foldl (fun h _ => f h) a = f^[l.length] a := by
  induction l generalizing a with
  | nil => rfl
  | cons x l ih => rw [List.foldl_cons, ih, List.length_cons, Function.iterate_succ_apply]

theorem merkle_output_eq (E : Env) (h : UInt32) : MerkleSwap.output E h = pathHash E h.toNat := by
  rw [MerkleSwap.output, foldl_const (fun x => E.poseidon [elementFromUint32 h, x]), elementFromUint32_eq, pathHash]
  rfl

theorem merkle_checkOne_eq (E : Env) (c : MerkleSwap.Circuit) (i : Nat) (h : i < c.testInputs.length)
    (h' : i < c.testOutputs.length) :
    MerkleSwap.checkOne E c i = .ok (decide (pathHash E c.testInputs[i] = c.testOutputs[i])) := by
  rw [MerkleSwap.checkOne, index_ok _ i 0 h, index_ok _ i 0 h']
  simp only [except_bind_ok, foldl_const (fun x => E.poseidon [c.testInputs.getD i 0, x])]
  simp [h, h', pathHash, MerkleSwap.treeDepth]

/-- C69: with as many outputs as inputs the circuit is satisfied exactly if every output is the root hash of its input. -/
theorem C69_accepts_iff (E : Env) (c : MerkleSwap.Circuit) (hl : c.testInputs.length = c.testOutputs.length) :
    MerkleSwap.define E c = .ok true ↔ c.testOutputs = c.testInputs.map (pathHash E) := by
  rw [MerkleSwap.define, mapM_ok (g := fun i => decide (pathHash E (c.testInputs.getD i 0) = c.testOutputs.getD i 0))]
  · simp only [except_bind_ok, Except.ok.injEq, List.all_map, List.all_eq_true, List.mem_range, Function.comp, id,
      decide_eq_true_eq]
    constructor
    · intro h
      apply List.ext_getElem
      · simp [hl]
      · intro i h1 h2
        have h3 : i < c.testInputs.length := by simpa using h2
        have := h i h3
        simp only [List.getD_eq_getElem?_getD, List.getElem?_eq_getElem h3, List.getElem?_eq_getElem h1,
          Option.getD_some] at this
        simp [this]
    · intro h i hi
      rw [h]
      simp [hi]
  · intro i hi
    have hi := List.mem_range.1 hi
    rw [merkle_checkOne_eq E c i hi (by omega)]
    simp [hi, show i < c.testOutputs.length by omega]

/-- C69: the assignment made by the code satisfies the circuit, for every size. -/
theorem C69_own_assignment (E : Env) (size : UInt32) : MerkleSwap.define E (MerkleSwap.assignCircuit E size) = .ok true := by
  rw [C69_accepts_iff _ _ (by simp [MerkleSwap.assignCircuit])]
  simp only [MerkleSwap.assignCircuit, List.map_map]
  apply List.map_congr_left
  intro i _
  simp [merkle_output_eq, elementFromUint32_eq]

/-- C69: the inputs fix the outputs. -/
theorem C69_outputs_fixed (E : Env) (c c' : MerkleSwap.Circuit) (hl : c.testInputs.length = c.testOutputs.length)
    (hl' : c'.testInputs.length = c'.testOutputs.length) (hi : MerkleSwap.publicVector c = MerkleSwap.publicVector c')
    (h : MerkleSwap.define E c = .ok true) (h' : MerkleSwap.define E c' = .ok true) : c = c' := by
  have e := (C69_accepts_iff E c hl).1 h
  have e' := (C69_accepts_iff E c' hl').1 h'
  cases c; cases c'
  simp only [MerkleSwap.publicVector] at hi e e' ⊢
  subst hi
  rw [e, e']

/-- C69: the public inputs of the assignment are 0, 1, ..., size - 1, and its outputs are the root hashes. -/
theorem C69_assignment (E : Env) (size : UInt32) :
    MerkleSwap.publicVector (MerkleSwap.assignCircuit E size) = List.range size.toNat ∧
    (MerkleSwap.assignCircuit E size).testOutputs = (List.range size.toNat).map (pathHash E) := by
  have hs : ∀ i ∈ List.range size.toNat, (UInt32.ofNat i).toNat = i := by
    intro i hi
    have := List.mem_range.1 hi
    have := size.toNat_lt
    rw [UInt32.toNat_ofNat']
    omega
  have e : (MerkleSwap.assignCircuit E size).testInputs = List.range size.toNat := by
    simp only [MerkleSwap.assignCircuit, List.map_map]
    conv_rhs => rw [← List.map_id (List.range size.toNat)]
    apply List.map_congr_left
    intro i hi
    simp [elementFromUint32_eq, hs i hi]
  refine ⟨e, ?_⟩
  rw [(C69_accepts_iff E _ (by simp [MerkleSwap.assignCircuit])).1 (C69_own_assignment E size), e]

/-- An accepted assignment and one with a wrong output. -/
example : MerkleSwap.define sumEnv ⟨[0, 1, 5], [0, 30, 150]⟩ = .ok true ∧
    MerkleSwap.assignCircuit sumEnv 2 = ⟨[0, 1], [0, 30]⟩ ∧
    MerkleSwap.define sumEnv ⟨[0, 1, 5], [0, 30, 151]⟩ = .ok false ∧
    (MerkleSwap.define sumEnv ⟨[0, 1, 5], [0, 30]⟩).panics = true := by decide +kernel

end Verif.Props
