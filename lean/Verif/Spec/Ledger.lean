import Verif.Spec.MultiSwap
import Mathlib.Algebra.BigOperators.Group.Multiset.Basic

/-!
# A ledger that is updated by MultiSwap

The accumulator stands for a multiset of record hashes. An update removes the old records of some users and inserts the new ones
(`Poseidon(UserID, Balance, UpdEpoch, Hash)`, zkmultiswap/circuit.go:73-79).
-/

namespace Verif.Spec
open Verif.Model

/-- The record of one user: the four inputs of the hash at zkmultiswap/circuit.go:73. -/
structure Record where
  id : Nat
  balance : Nat
  epoch : Nat
  chain : Nat
  deriving DecidableEq

/-- What the accumulator holds for a record. -/
def Record.digest (E : Env) (r : Record) : Nat := E.poseidon [r.id, r.balance, r.epoch, r.chain]

/-- The records removed by an update. -/
def removedRecords (c : Circuit) : Multiset Record :=
  (Multiset.range c.userID.length).map fun i =>
    ⟨col c.userID i, col c.originalBalances i, col c.originalUpdEpoch i, col c.originalHashes i⟩

/-- The records inserted by an update. -/
def insertedRecords (E : Env) (c : Circuit) : Multiset Record :=
  (Multiset.range c.userID.length).map fun i =>
    ⟨col c.userID i, col c.updatedBalances i, c.currentEpochNum, oldRecord E c i⟩

/-- `cs` leads from the ledger `S` to the ledger `T`: every update is accepted, removes hashes that are in the ledger and
inserts its new hashes. Nothing is asked of the epochs of different updates. -/
inductive Updates (E : Env) (accepted : Circuit → Prop) (S : Multiset Nat) : List Circuit → Multiset Nat → Prop
  | start : Updates E accepted S [] S
  | update {cs : List Circuit} {T : Multiset Nat} (c : Circuit) : Updates E accepted S cs T → accepted c →
      (removedRecords c).map (Record.digest E) ≤ T →
      Updates E accepted S (cs ++ [c])
        (T - (removedRecords c).map (Record.digest E) + (insertedRecords E c).map (Record.digest E))

/-- All records removed by a list of updates. -/
def allRemoved (cs : List Circuit) : Multiset Record := (cs.map removedRecords).sum

/-- All records inserted by a list of updates. -/
def allInserted (E : Env) (cs : List Circuit) : Multiset Record := (cs.map (insertedRecords E)).sum

/-- Sum of all balances. -/
def totalBalance (R : Multiset Record) : Int := (R.map fun r => (r.balance : Int)).sum

end Verif.Spec
