import Verif.Model.Transcript

/-! # zkmultiswap/common.go: the transcript of MultiSwap -/

namespace Verif.Model
open Verif.Go

/-- zkmultiswap/common.go:95-99 `SetupTranscript`. The accumulators are parameters that the body does not use. -/
def setupTranscript (G N : Int) (_accOld _accMid _accNew : Int) (currentEpochNum : UInt32) : Transcript :=
  (initTranscript [intString G, intString N] lenMax252).append (itoa currentEpochNum.toNat)

end Verif.Model
