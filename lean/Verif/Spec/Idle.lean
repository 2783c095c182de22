import Verif.Spec.Session
import Verif.Spec.Loss

/-! Specification for C112: samples in which a feature is zero. -/

namespace Verif.Spec

/-- If the call trains on a sample, the feature `j` of the sample is zero. -/
def UserCall.Without (j : Nat) : UserCall → Prop
  | .step x _ => vec x j = 0
  | _ => True

end Verif.Spec
