import Verif.Model.RepoTests
import Verif.Go.Exec

/-!
# accumulator/benchmark_test.go: the benchmarks of the provers and of HashToPrime

`rounds` is `b.N`. The results, which the benchmarks drop, are returned in a list.
-/

namespace Verif.Model
open Verif.Go

/-- accumulator/accumulator_test.go:10 `testString`. -/
def benchString : Bytes := ascii "2021HKUST"

/-- accumulator/benchmark_test.go:11-17 `BenchmarkHashToPrime`. -/
def benchHashToPrime (E : Env) (fuel rounds : Nat) : Run (List Nat) :=
  (List.range rounds).mapM (fun _ => liftLoop (hashToPrime E fuel benchString))

/-- accumulator/benchmark_test.go:19-27 `BenchmarkAccAndProve`: the representatives are computed in every round. -/
def benchAccAndProve (E : Env) (fuel rounds : Nat) : Run (List (Nat × List Nat)) :=
  let set := genBenchSet 1000
  (List.range rounds).mapM (fun _ => accAndProve E fuel set hashToPrimeFromSha256 builtinSetup)

/-- accumulator/benchmark_test.go:29-38 `BenchmarkProveMembership`. -/
def benchProveMembership (E : Env) (fuel rounds : Nat) : Run (List (List Nat)) := do
  let rep ← genRepresentatives E fuel (genBenchSet 1000) hashToPrimeFromSha256
  (List.range rounds).mapM (fun _ => liftRes (proveMembership builtinSetup.G builtinSetup.N rep))

/-- accumulator/benchmark_test.go:40-49 `BenchmarkProveMembershipIter`. -/
def benchProveMembershipIter (E : Env) (fuel rounds : Nat) : Run (List (List Nat)) := do
  let rep ← genRepresentatives E fuel (genBenchSet 1000) hashToPrimeFromSha256
  (List.range rounds).mapM (fun _ => liftLoop (proveMembershipIterFuel fuel builtinSetup.G builtinSetup.N rep))

/-- accumulator/benchmark_test.go:51-60 `BenchmarkProveMembershipParallel`: possible results over all schedules. -/
def BenchProveParallel (E : Env) (rounds : Nat) (out : List (List Nat)) : Prop :=
  ∃ fuel rep, genRepresentatives E fuel (genBenchSet 1000) hashToPrimeFromSha256 = Run.ok rep ∧ out.length = rounds ∧
    ∀ ps ∈ out, Steps (.run (proveMembershipParallel builtinSetup.G builtinSetup.N rep 8)) (.send ps)

/-- Whether a round of `BenchmarkProveMembershipParallel` can panic. -/
def BenchProveParallelCrash (E : Env) : Prop :=
  ∃ fuel rep, genRepresentatives E fuel (genBenchSet 1000) hashToPrimeFromSha256 = Run.ok rep ∧
    Steps (.run (proveMembershipParallel builtinSetup.G builtinSetup.N rep 8)) .crash

/-- accumulator/benchmark_test.go:62-70 `BenchmarkAccumulateNew256bits`. -/
def benchAccumulateNew (E : Env) (fuel rounds : Nat) : Run (List Nat) := do
  let prime256bits ← liftLoop (hashToPrime E fuel benchString)
  (List.range rounds).mapM (fun _ => Run.ok (accumulateNewPow builtinSetup.G prime256bits builtinSetup.N))

end Verif.Model
