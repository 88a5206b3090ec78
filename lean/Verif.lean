import Verif.Props.Accumulator
import Verif.Props.Representatives
import Verif.Props.Setup
import Verif.Props.MulExp
import Verif.Props.Precompute
import Verif.Props.Transcript
import Verif.Props.Poke
import Verif.Props.ThreeSquares
import Verif.Props.RangeProof
import Verif.Props.Pool
import Verif.Props.MultiSwap
import Verif.Props.Solidity
import Verif.Props.MerkleSwap
import Verif.Props.Experiments
import Verif.Props.Soundness
import Verif.Props.Binding
import Verif.Props.IterWorker
import Verif.Props.Contract
import Verif.Props.SnarkFlow
import Verif.Props.Security
import Verif.Props.UniversalHash
import Verif.Props.Malleability
import Verif.Props.Goroutines
import Verif.Props.Benchmarks
import Verif.Props.Overflow
import Verif.Props.Hiding
import Verif.Props.HidingAcc
import Verif.Props.HidingPoke
import Verif.Model.RepoTests
import Verif.Props.RepoTests
import Verif.Props.RepoTestsMore
import Verif.Lemmas.Blind
import Verif.Props.HidingCommit
import Verif.Props.Generators
import Verif.Props.NilFields
import Verif.Model.GenerateG
import Verif.Props.GenerateG
import Verif.Model.IntGroups
import Verif.Props.IntGroups
import Verif.Model.IterWords
import Verif.Props.IterWords
import Verif.Model.Work
import Verif.Props.Work
import Verif.Model.SharedVerifier
import Verif.Props.SharedVerifier
import Verif.Model.SharedProver
import Verif.Props.SharedProver
import Verif.Props.Division
import Verif.Props.SolidityGroups
import Verif.Props.Negation
import Verif.Props.Extraction
import Verif.Props.WorkParallel
import Verif.Props.SwapLink
import Verif.Spec.Ledger
import Verif.Props.Ledger
import Verif.Props.Blinding
import Verif.Props.History
import Verif.Props.Fractional
import Verif.Props.PublicInputs
import Verif.Props.VerifierPanics
import Verif.Model.ManualBench
import Verif.Props.ManualBench
import Verif.Model.RandomSource
import Verif.Props.RandomSource
import Verif.Props.Lifecycle
import Verif.Model.IntTable
import Verif.Props.IntTable
import Verif.Props.Update
import Verif.Model.Printing
import Verif.Props.Printing
import Verif.Model.ProveBench
import Verif.Props.ProveBench
import Verif.Model.SharedTarget
import Verif.Props.SharedTarget
import Verif.Props.PseudoRandom
import Verif.Model.Interrupted
import Verif.Spec.Interrupted
import Verif.Props.Interrupted
import Verif.Props.Exact
import Verif.Props.WorkUsed
import Verif.Model.FileErrors
import Verif.Props.FileErrors
import Verif.Model.TableSize
import Verif.Props.TableSize
import Verif.Props.PokeReturned
import Verif.Spec.Text
import Verif.Model.SetupRun
import Verif.Lemmas.SetupPrimes
import Verif.Props.SetupRun
import Verif.Props.SetupErrors
import Verif.Props.BuiltinSetup
import Verif.Props.TableCover
import Verif.Model.PooledVerify
import Verif.Props.PooledVerify
import Verif.Model.EvmMachine
import Verif.Model.Keccak
import Verif.Model.VerifierCode
import Verif.Lemmas.EvmSymbolic
import Verif.Lemmas.VerifierTree
import Verif.Lemmas.VerifierRuns
import Verif.Props.Bytecode
import Verif.Props.Deploy
import Verif.Props.NegativePower
import Verif.Props.WrittenOnce
import Verif.Props.ProveMem
import Verif.Props.PairingCode
import Verif.Props.IterMem
import Verif.Props.TableMem
import Verif.Props.GasUse
import Verif.Props.Interop
import Verif.Model.GoGenerate
import Verif.Props.GoGenerate
import Verif.Props.GasMemory
import Verif.Props.RepairedCircuit
import Verif.Model.BindingMethods
import Verif.Props.BindingMethods
import Verif.Props.RepairedChallenge
import Verif.Props.RepairedSmall
import Verif.Props.RepairedChecks
import Verif.Props.RepairedMore
import Verif.Props.RepairedOutput
import Verif.Props.TagsMore
import Verif.Props.RepairedEncoding
import Verif.Props.RepairedSwap
import Verif.Props.RepairedTable64
import Verif.Props.RepairedSwapFlow
import Verif.Props.RepairedBases
import Verif.Props.RepairedShared
import Verif.Props.RepairedInterop
import Verif.Props.RepairedSetupText
import Verif.Props.RepairedRepoTests
import Verif.Props.RepairedClose
import Verif.Props.RepairedGenerate
import Verif.Props.RepairedTableSize
import Verif.Props.RepairedResidue
import Verif.Props.RepairedExport
import Verif.Props.RepairedMembershipTable
