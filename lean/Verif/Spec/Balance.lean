import Verif.Spec.Api
import Verif.Spec.FullProg
import Verif.Spec.GeneralProg

/-!
# Calls that only use the range chip

The calls that assign a range checked value and do nothing else. Every other call that uses rows of the range chip also
uses rows of the base chip.
-/

namespace Verif
variable {n : ℕ}

/-- A call that assigns one range checked value. -/
def Call.isBare : Call n → Bool
  | .assign_common _ | .assign_nonleading_limb _ _ | .assign_w_ceil_leading_limb _ _ | .assign_d_leading_limb _ _ => true
  | _ => false

/-- A call that assigns one range checked value. -/
def XInstr.isBare : XInstr → Bool
  | .native (.small _) => true
  | _ => false

/-- A call that assigns one range checked value. -/
def GInstr.isBare : GInstr → Bool
  | .native (.small _) => true
  | _ => false

end Verif
