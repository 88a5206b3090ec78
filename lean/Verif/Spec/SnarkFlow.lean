import Verif.Model.SnarkFlow

/-!
# What is assumed about Groth16

`Complete` and `IgnoresErrors` describe the library. `Binding` is the ideal form of its security (it holds in gnark except
with negligible probability) and is used only for claims that something is rejected.
-/

namespace Verif.Spec
open Verif.Go Verif.Model Verif.Model.SnarkFlow

/-- The assignment has the lengths the constraint system was compiled for; systems without any constraint are left out. -/
def Fits : System → Assignment → Prop
  | .multi n, .multi c => c.userID.length = n ∧ c.originalBalances.length = n ∧ c.originalHashes.length = n ∧
      c.originalUpdEpoch.length = n ∧ c.updatedBalances.length = n
  | .merkle n, .merkle c => n ≠ 0 ∧ c.testInputs.length = n ∧ c.testOutputs.length = n
  | _, _ => False

/-- All constraints hold. -/
def Satisfied (E : Env) : Assignment → Prop
  | .multi c => define E c = .ok true
  | .merkle c => MerkleSwap.define E c = .ok true

instance (E : Env) (a : Assignment) : Decidable (Satisfied E a) := by
  cases a <;> (unfold Satisfied; infer_instance)

/-- The public part of an assignment. -/
def publicOf : Assignment → List Nat
  | .multi c => publicVector c
  | .merkle c => MerkleSwap.publicVector c

/-- Proofs for satisfied assignments are accepted with the verifying key of the same setup. -/
def Complete (E : Env) (S : Snark) : Prop :=
  ∀ sys coin a k, Fits sys a → Satisfied E a →
    ∃ p, S.prove sys (S.setup sys coin).1 a k = some p ∧ S.verify (S.setup sys coin).2 (publicOf a) p = true

/-- `backend.IgnoreSolverError()`: a proof is returned for every assignment of the right size. -/
def IgnoresErrors (S : Snark) : Prop :=
  ∀ sys coin a k, Fits sys a → ∃ p, S.prove sys (S.setup sys coin).1 a k = some p

/-- A proof made by `prove` is accepted only with the key of the same setup, for the public values it was made for, and if
the constraints hold. -/
def Binding (E : Env) (S : Snark) : Prop :=
  ∀ sys coin a k p sys' coin' v, S.prove sys (S.setup sys coin).1 a k = some p →
    S.verify (S.setup sys' coin').2 v p = true → sys' = sys ∧ coin' = coin ∧ v = publicOf a ∧ Satisfied E a

/-! ## Files -/

/-- The three files of one setup. -/
def KeyAt {S : Snark} (d : Disk S) (base : Bytes) (sys : System) (coin : S.Coin) : Prop :=
  d (ccsName base) = some (.ccs sys) ∧ d (pkName base) = some (.pk (S.setup sys coin).1) ∧
    d (vkName base) = some (.vk (S.setup sys coin).2)

/-- Either none of the three files or those of one setup. -/
def KeyGroup {S : Snark} (d : Disk S) (base : Bytes) (sys : System) : Prop :=
  (d (ccsName base) = none ∧ d (pkName base) = none ∧ d (vkName base) = none) ∨ ∃ coin, KeyAt d base sys coin

/-- All key files belong together. -/
def KeysOk {S : Snark} (d : Disk S) : Prop := ∀ n, KeyGroup d (keyFile n) (.multi n) ∧ KeyGroup d (merkleKeyFile n) (.merkle n)

/-- Disks that arise from an empty directory by calls of the functions that write files. -/
inductive Reach {S : Snark} (E : Env) : Disk S → Prop
  | empty : Reach E (fun _ => none)
  | setup {d d' : Disk S} (n : UInt32) (coin : S.Coin) : Reach E d → setupZkMultiswap E n coin d = .ok d' → Reach E d'
  | test {d d' : Disk S} {b : Bool} (fuel : Nat) (G N accMid : Int) (coin coin' : S.Coin) (n : UInt32) : Reach E d →
      testMultiSwap E fuel G N accMid coin coin' n d = Run.ok (d', b) → Reach E d'
  | output {d d' : Disk S} (coin : S.Coin) (n : UInt32) : Reach E d → outputContract E coin n d = .ok d' → Reach E d'
  | output2 {d d' : Disk S} {o : Outcome S} (fuel : Nat) (G N accMid : Int) (coin coin2 coin' : S.Coin) (n : UInt32) :
      Reach E d → outputContract2 E fuel G N accMid coin coin2 coin' n d = Run.ok (d', o) → Reach E d'
  | basic {d d' : Disk S} {o : Outcome S} (fuel : Nat) (G N : Int) (n : UInt32) (r : BasicCoins S) :
      Reach E d → basicProcess E fuel G N n r d = Run.ok (d', o) → Reach E d'
  | merkleSetup {d d' : Disk S} (n : UInt32) (coin : S.Coin) : Reach E d → merkleSetup E n coin d = .ok d' → Reach E d'
  | merkleTest {d d' : Disk S} {b : Bool} (coin coin' : S.Coin) (n : UInt32) : Reach E d →
      testMerkleMultiSwap E coin coin' n d = .ok (d', b) → Reach E d'

/-! ## An instance -/

/-- Groth16 with ideal security: a proof is the record of how it was made. -/
def idealSnark (E : Env) : Snark where
  Coin := Nat
  PK := System × Nat
  VK := System × Nat
  Proof := (System × Nat) × Assignment
  setup := fun sys coin => ((sys, coin), (sys, coin))
  prove := fun _ pk a _ => some (pk, a)
  verify := fun vk v p => decide (vk = p.1 ∧ v = publicOf p.2 ∧ Satisfied E p.2)

theorem idealSnark_complete (E : Env) : Complete E (idealSnark E) := by
  intro sys coin a k _ hs
  refine ⟨((sys, coin), a), rfl, ?_⟩
  simp [idealSnark, hs]

theorem idealSnark_ignores (E : Env) : IgnoresErrors (idealSnark E) := fun sys coin a _ _ => ⟨((sys, coin), a), rfl⟩

theorem idealSnark_binding (E : Env) : Binding E (idealSnark E) := by
  intro sys (coin : Nat) a k p sys' (coin' : Nat) v hp hv
  have hp' : p = ((sys, coin), a) := by
    have : some ((sys, coin), a) = some p := hp
    injection this with h
    exact h.symm
  subst hp'
  obtain ⟨h1, h2, h3⟩ : (sys', coin') = (sys, coin) ∧ v = publicOf a ∧ Satisfied E a := of_decide_eq_true hv
  injection h1 with h4 h5
  exact ⟨h4, h5, h2, h3⟩

end Verif.Spec
