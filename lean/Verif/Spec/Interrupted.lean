import Verif.Model.Interrupted
import Verif.Spec.SnarkFlow

/-! # What interrupted runs leave behind -/

namespace Verif.Spec
open Verif.Go Verif.Model Verif.Model.SnarkFlow

variable {S : Snark}

/-- Every file is written once. -/
def WritesAll (order : List Part) : Prop := order.Perm [.ccs, .pk, .vk]

/-- Directories that runs leave behind in an initially empty directory; each run may be stopped at any moment. -/
inductive Left (σ : SetupProg S) (E : Env) : Disk S → Prop
  | empty : Left σ E (fun _ => none)
  | setup {d d' : Disk S} (n : UInt32) (coin : S.Coin) : Left σ E d → d' ∈ setupVisits σ E n coin d → Left σ E d'
  | test {d d' : Disk S} (n : UInt32) (coin : S.Coin) : Left σ E d → d' ∈ ensureVisits σ E n coin d → Left σ E d'
  | output {d d' : Disk S} (n : UInt32) (coin : S.Coin) : Left σ E d → d' ∈ outputVisits σ E n coin d → Left σ E d'
  | output2 {d d' : Disk S} (n : UInt32) (coin coin2 : S.Coin) : Left σ E d → d' ∈ output2Visits σ E n coin coin2 d →
      Left σ E d'
  | merkleSetup {d d' : Disk S} (n : UInt32) (coin : S.Coin) : Left σ E d → d' ∈ merkleSetupVisits σ E n coin d →
      Left σ E d'
  | merkleTest {d d' : Disk S} (n : UInt32) (coin : S.Coin) : Left σ E d → d' ∈ merkleTestVisits σ E n coin d →
      Left σ E d'

/-- The same from a directory `d` on, without the functions that set up size `m` whether or not it was set up before. -/
inductive Later (σ : SetupProg S) (E : Env) (m : UInt32) (d : Disk S) : Disk S → Prop
  | refl : Later σ E m d d
  | setup {d1 d2 : Disk S} (n : UInt32) (coin : S.Coin) : n ≠ m → Later σ E m d d1 → d2 ∈ setupVisits σ E n coin d1 →
      Later σ E m d d2
  | test {d1 d2 : Disk S} (n : UInt32) (coin : S.Coin) : Later σ E m d d1 → d2 ∈ ensureVisits σ E n coin d1 →
      Later σ E m d d2
  | output {d1 d2 : Disk S} (n : UInt32) (coin : S.Coin) : Later σ E m d d1 → d2 ∈ outputVisits σ E n coin d1 →
      Later σ E m d d2
  | output2 {d1 d2 : Disk S} (n : UInt32) (coin coin2 : S.Coin) : n ≠ m → Later σ E m d d1 →
      d2 ∈ output2Visits σ E n coin coin2 d1 → Later σ E m d d2
  | merkleSetup {d1 d2 : Disk S} (n : UInt32) (coin : S.Coin) : Later σ E m d d1 →
      d2 ∈ merkleSetupVisits σ E n coin d1 → Later σ E m d d2
  | merkleTest {d1 d2 : Disk S} (n : UInt32) (coin : S.Coin) : Later σ E m d d1 → d2 ∈ merkleTestVisits σ E n coin d1 →
      Later σ E m d d2

/-- The file that is looked for is there, and the three files of one setup are not. -/
def Damaged (d : Disk S) (n : Nat) : Prop :=
  d (ccsName (keyFile n)) ≠ none ∧ ∀ c, ¬ KeyAt d (keyFile n) (.multi n) c

end Verif.Spec
