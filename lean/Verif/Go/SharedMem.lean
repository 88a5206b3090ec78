import Mathlib.Logic.Function.Basic
import Mathlib.Data.Set.Insert

/-!
# Goroutines that share integers in memory

A program works on integers (`big.Int`) at addresses. It can take a new integer, write one, start goroutines and wait for what
they return (addresses). All goroutines work on the same memory, in any interleaving; one step is one operation on integers.
Receiving the results of the goroutines touches no integers, so it is one step here (see `Go/ForkJoin` for the channels).
-/

namespace Verif.Go.Mem

/-- The integers in use and their values. -/
abbrev Memory := Nat → Option Nat

/-- Write `v` at address `a`. -/
def Memory.set (M : Memory) (a v : Nat) : Memory := fun b => if b = a then some v else M b

/-- The values at some addresses. -/
def Memory.vals (M : Memory) (rs : List Nat) : List Nat := rs.map (fun r => (M r).getD 0)

/-- Program of a goroutine. -/
inductive MProg where
  /-- return addresses -/
  | ret (out : List Nat)
  /-- panic -/
  | panic
  /-- a new integer, with a value made from those at `reads` -/
  | alloc (reads : List Nat) (f : List Nat → Nat) (k : Nat → MProg)
  /-- write a value made from those at `reads` to the integer `a` -/
  | store (a : Nat) (reads : List Nat) (f : List Nat → Nat) (k : MProg)
  /-- start `n` goroutines and wait for their results -/
  | fork (n : Nat) (ps : Fin n → MProg) (k : (Fin n → List Nat) → MProg)

/-- A goroutine with the goroutines it has started. -/
inductive Threads where
  | run (p : MProg)
  | wait (n : Nat) (ts : Fin n → Threads) (k : (Fin n → List Nat) → MProg)

/-- One operation of one goroutine. A new integer gets any address that is not in use. -/
inductive MStep : Memory → Threads → Memory → Threads → Prop
  | alloc (M : Memory) (rs : List Nat) (f : List Nat → Nat) (k : Nat → MProg) (a : Nat) : M a = none →
      MStep M (.run (.alloc rs f k)) (M.set a (f (M.vals rs))) (.run (k a))
  | store (M : Memory) (a : Nat) (rs : List Nat) (f : List Nat → Nat) (k : MProg) :
      MStep M (.run (.store a rs f k)) (M.set a (f (M.vals rs))) (.run k)
  | fork (M : Memory) (n : Nat) (ps : Fin n → MProg) (k : (Fin n → List Nat) → MProg) :
      MStep M (.run (.fork n ps k)) M (.wait n (fun i => .run (ps i)) k)
  | child (M M' : Memory) (n : Nat) (ts : Fin n → Threads) (k : (Fin n → List Nat) → MProg) (i : Fin n) (t : Threads) :
      MStep M (ts i) M' t → MStep M (.wait n ts k) M' (.wait n (Function.update ts i t) k)
  | join (M : Memory) (n : Nat) (ts : Fin n → Threads) (k : (Fin n → List Nat) → MProg) (outs : Fin n → List Nat) :
      (∀ i, ts i = .run (.ret (outs i))) → MStep M (.wait n ts k) M (.run (k outs))

/-- Finite executions. -/
inductive MSteps : Memory → Threads → Memory → Threads → Prop
  | refl (M : Memory) (t : Threads) : MSteps M t M t
  | tail {M M' M'' : Memory} {t t' t'' : Threads} : MSteps M t M' t' → MStep M' t' M'' t'' → MSteps M t M'' t''

/-- The next operation of some goroutine reads (`false`) or writes (`true`) the integer `a`. -/
inductive Accesses : Threads → Nat → Bool → Prop
  | allocRead (rs : List Nat) (f : List Nat → Nat) (k : Nat → MProg) (r : Nat) : r ∈ rs → Accesses (.run (.alloc rs f k)) r false
  | storeRead (a : Nat) (rs : List Nat) (f : List Nat → Nat) (k : MProg) (r : Nat) : r ∈ rs →
      Accesses (.run (.store a rs f k)) r false
  | write (a : Nat) (rs : List Nat) (f : List Nat → Nat) (k : MProg) : Accesses (.run (.store a rs f k)) a true
  | child (n : Nat) (ts : Fin n → Threads) (k : (Fin n → List Nat) → MProg) (i : Fin n) (a : Nat) (wr : Bool) :
      Accesses (ts i) a wr → Accesses (.wait n ts k) a wr

/-- Data race: two goroutines are about to access the same integer, and one of them writes. -/
inductive Race : Threads → Prop
  | here (n : Nat) (ts : Fin n → Threads) (k : (Fin n → List Nat) → MProg) (i j : Fin n) (a : Nat) (wr : Bool) :
      i ≠ j → Accesses (ts i) a true → Accesses (ts j) a wr → Race (.wait n ts k)
  | child (n : Nat) (ts : Fin n → Threads) (k : (Fin n → List Nat) → MProg) (i : Fin n) : Race (ts i) → Race (.wait n ts k)

/-- Some goroutine is about to panic. -/
inductive Crashes : Threads → Prop
  | run : Crashes (.run .panic)
  | child (n : Nat) (ts : Fin n → Threads) (k : (Fin n → List Nat) → MProg) (i : Fin n) : Crashes (ts i) → Crashes (.wait n ts k)

/-- There are always addresses left. -/
def Unbounded (M : Memory) : Prop := ∀ n, ∃ a, n ≤ a ∧ M a = none

end Verif.Go.Mem
