import Verif.Spec.Power

/-! # Specification of integer commitments -/

namespace Verif.Spec

/-- `c` is the commitment `g^x h^r mod N`. -/
def IsCommit (N g h x r c : Int) : Prop :=
  ∃ gx hr, IsPower N g x gx ∧ IsPower N h r hr ∧ c = gx * hr % N

end Verif.Spec
