import Verif.Go.Bytes

/-!
# Memory of string slices (for fiat-shamir/transcript.go)

Go slices of strings with their backing arrays: a caller that holds slices and the transcripts made from them.
`append` writes in place when the capacity allows it and otherwise copies to a new array, whose capacity is chosen by
the runtime (an arbitrary surplus here).
-/

namespace Verif.Model.SliceHeap
open Verif.Go

/-- Slice header. A nil slice has capacity 0. -/
structure Slice where
  arr : Nat
  off : Nat
  len : Nat
  cap : Nat
deriving DecidableEq, Repr

/-- Backing arrays. -/
abbrev Heap := List (List Bytes)

/-- The elements of a slice. -/
def contents (h : Heap) (s : Slice) : List Bytes := ((h.getD s.arr []).drop s.off).take s.len

/-- Overwrite the elements from index `i` on. -/
def overwrite (a : List Bytes) (i : Nat) (vs : List Bytes) : List Bytes := a.take i ++ vs ++ a.drop (i + vs.length)

/-- Write `vs` into an array, from index `i` on. -/
def store (h : Heap) (arr i : Nat) (vs : List Bytes) : Heap := h.set arr (overwrite (h.getD arr []) i vs)

/-- `append(s, vs...)`; `extra` is the surplus capacity of a new array. -/
def goAppend (h : Heap) (s : Slice) (vs : List Bytes) (extra : Nat) : Heap × Slice :=
  if s.len + vs.length ≤ s.cap then
    (store h s.arr (s.off + s.len) vs, { s with len := s.len + vs.length })
  else
    (h ++ [contents h s ++ vs ++ List.replicate extra []],
      { arr := h.length, off := 0, len := s.len + vs.length, cap := s.len + vs.length + extra })

/-- The nil slice. -/
def nilSlice : Slice := { arr := 0, off := 0, len := 0, cap := 0 }

/-- Memory, the slices held by the caller, and the `info` fields of the transcripts. -/
structure State where
  heap : Heap
  callers : List Slice
  infos : List Slice
deriving DecidableEq, Repr

/-- One action of the program. -/
inductive Act where
  /-- the caller makes a slice with contents `vs` and surplus capacity -/
  | make (vs : List Bytes) (extra : Nat)
  /-- the caller writes element `i` of its slice `j` -/
  | write (j i : Nat) (v : Bytes)
  /-- the caller takes `s[lo:hi]` of its slice `j` (`hi` up to the capacity) -/
  | reslice (j lo hi : Nat)
  /-- the caller appends to its slice `j` and keeps the result -/
  | append (j : Nat) (vs : List Bytes) (extra : Nat)
  /-- fiat-shamir/transcript.go:45-51: `InitTranscript` of the caller's slice `j` -/
  | init (j extra : Nat)
  /-- fiat-shamir/transcript.go:54-56: `Append` on transcript `t` (also used by the challenge methods) -/
  | tAppend (t : Nat) (v : Bytes) (extra : Nat)
  /-- fiat-shamir/transcript.go:59-61: `AppendSlice` of the caller's slice `j` on transcript `t` -/
  | tAppendSlice (t j extra : Nat)
deriving DecidableEq, Repr

/-- Effect of an action; actions on slices that do not exist or with wrong indices (Go panics) do nothing. -/
def act (s : State) : Act → State
  | .make vs extra =>
    { s with heap := s.heap ++ [vs ++ List.replicate extra []],
             callers := s.callers ++ [{ arr := s.heap.length, off := 0, len := vs.length, cap := vs.length + extra }] }
  | .write j i v =>
    match s.callers[j]? with
    | none => s
    | some c => if i < c.len then { s with heap := store s.heap c.arr (c.off + i) [v] } else s
  | .reslice j lo hi =>
    match s.callers[j]? with
    | none => s
    | some c =>
      if lo ≤ hi ∧ hi ≤ c.cap then
        { s with callers := s.callers ++ [{ arr := c.arr, off := c.off + lo, len := hi - lo, cap := c.cap - lo }] }
      else s
  | .append j vs extra =>
    match s.callers[j]? with
    | none => s
    | some c => let r := goAppend s.heap c vs extra; { s with heap := r.1, callers := s.callers ++ [r.2] }
  | .init j extra =>
    match s.callers[j]? with
    | none => s
    | some c => let r := goAppend s.heap nilSlice (contents s.heap c) extra; { s with heap := r.1, infos := s.infos ++ [r.2] }
  | .tAppend t v extra =>
    match s.infos[t]? with
    | none => s
    | some i => let r := goAppend s.heap i [v] extra; { s with heap := r.1, infos := s.infos.set t r.2 }
  | .tAppendSlice t j extra =>
    match s.infos[t]?, s.callers[j]? with
    | some i, some c => let r := goAppend s.heap i (contents s.heap c) extra; { s with heap := r.1, infos := s.infos.set t r.2 }
    | _, _ => s

/-- Start: no memory. -/
def start : State := { heap := [], callers := [], infos := [] }

/-- The state after a list of actions. -/
def run (l : List Act) : State := l.foldl act start

end Verif.Model.SliceHeap
