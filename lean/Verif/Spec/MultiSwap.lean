import Verif.Model.MultiSwap
import Mathlib.Algebra.BigOperators.Group.Finset.Basic
import Mathlib.Algebra.BigOperators.Intervals

/-!
# What MultiSwap is meant to prove

Only the data types of the model are used, none of its functions except the abstract Poseidon.
-/

namespace Verif.Spec
open Verif.Model

/-- Entry `i` of a column (0 outside). -/
def col {α : Type} [Zero α] (l : List α) (i : Nat) : α := l.getD i 0

/-- All values are canonical field elements. -/
structure Canonical (c : Circuit) : Prop where
  pub : c.challengeL1 < frOrder ∧ c.challengeL2 < frOrder ∧ c.remainderR1 < frOrder ∧ c.remainderR2 < frOrder ∧
    c.currentEpochNum < frOrder ∧ c.deltaModL1 < frOrder ∧ c.deltaModL2 < frOrder
  priv : c.randomizer1 < frOrder ∧ c.randomizer2 < frOrder ∧ c.originalSum < frOrder ∧ c.updatedSum < frOrder
  lists : ∀ l ∈ [c.userID, c.originalBalances, c.originalHashes, c.originalUpdEpoch, c.updatedBalances],
    ∀ v ∈ l, v < frOrder

/-- Hash of the record of user `i` before the update. -/
def oldRecord (E : Env) (c : Circuit) (i : Nat) : Nat :=
  E.poseidon [col c.userID i, col c.originalBalances i, col c.originalUpdEpoch i, col c.originalHashes i]

/-- Hash of the record of user `i` after the update, chained to the old record. -/
def newRecord (E : Env) (c : Circuit) (i : Nat) : Nat :=
  E.poseidon [col c.userID i, col c.updatedBalances i, c.currentEpochNum, oldRecord E c i]

/-- The blinding factor of a randomizer: a product of eight hashes. -/
def blinding (E : Env) (randomizer : Nat) : Nat := ∏ i ∈ Finset.range 8, E.poseidon [randomizer, i]

/-- Total change of the balances. -/
def balanceChange (old new : List Nat) (n : Nat) : Int := ∑ i ∈ Finset.range n, (((col new i : Nat) : Int) - (col old i : Nat))

/-- Record hash before the update, for an update set. -/
def oldHash (E : Env) (u : UpdateSet32) (i : Nat) : Nat :=
  E.poseidon [(col u.userID i).toNat, (col u.originalBalances i).toNat, (col u.originalUpdEpoch i).toNat,
    (col u.originalHashes i % (frOrder : Int)).toNat]

/-- Record hash after the update, for an update set. -/
def newHash (E : Env) (u : UpdateSet32) (i : Nat) : Nat :=
  E.poseidon [(col u.userID i).toNat, (col u.updatedBalances i).toNat, u.currentEpochNum.toNat, oldHash E u i]

/-- An update set whose entries are what an honest prover computes: challenges are positive field elements, the
remainders are those of the products of the real representatives `hash + 2^1023` and of the blinding factor, the deltas
are `2^1023` reduced, the ids are sorted, the epochs are in the past and the sum is updated by the change of the
balances. -/
structure HonestUpdate (E : Env) (u : UpdateSet32) : Prop where
  size : 2 ≤ u.userID.length
  lens : u.originalBalances.length = u.userID.length ∧ u.originalHashes.length = u.userID.length ∧
    u.originalUpdEpoch.length = u.userID.length ∧ u.updatedBalances.length = u.userID.length
  challenge1 : 0 < u.challengeL1 ∧ u.challengeL1 < frOrder
  challenge2 : 0 < u.challengeL2 ∧ u.challengeL2 < frOrder
  remainder1 : u.remainderR1 =
    ((∏ i ∈ Finset.range u.userID.length, ((oldHash E u i + 2 ^ 1023 : Nat) : Int)) *
      (blinding E u.randomizer1.toNat : Int)) % u.challengeL1
  remainder2 : u.remainderR2 =
    ((∏ i ∈ Finset.range u.userID.length, ((newHash E u i + 2 ^ 1023 : Nat) : Int)) *
      (blinding E u.randomizer2.toNat : Int)) % u.challengeL2
  delta1 : u.deltaModL1 = 2 ^ 1023 % u.challengeL1
  delta2 : u.deltaModL2 = 2 ^ 1023 % u.challengeL2
  randomizer1 : 0 ≤ u.randomizer1 ∧ u.randomizer1 < 2 ^ 32
  randomizer2 : 0 ≤ u.randomizer2 ∧ u.randomizer2 < 2 ^ 32
  ids : u.userID.Pairwise (· < ·)
  epochs : ∀ e ∈ u.originalUpdEpoch, e < u.currentEpochNum
  sum : (u.updatedSum.toNat : Int) = u.originalSum.toNat +
    ∑ i ∈ Finset.range u.userID.length,
      (((col u.updatedBalances i).toNat : Int) - (col u.originalBalances i).toNat)

end Verif.Spec
