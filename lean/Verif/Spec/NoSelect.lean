import Verif.Spec.Api

/-!
# Calls that use the select chip
-/

namespace Verif
variable {n : ℕ}

/-- The calls of a curve context that go through its `select_chip` (`src/circuit/ecc_chip.rs:223-371, 734-850`). -/
def Call.AsksSelectChip : Call n → Bool
  | .assign_cache_integer .. => true
  | .assign_selected_integer .. => true
  | .msm_with_select_native .. => true
  | .msm_with_select_general .. => true
  | .assign_cache_point .. => true
  | .assign_selected_point .. => true
  | .assign_cache_point_non_zero .. => true
  | .assign_selected_point_non_zero .. => true
  | _ => false

/-- The calls that use the select chip, on a context with (`has`) or without it: values, integers and points that are
cached or selected, and multi-scalar multiplication if there is a select chip. -/
def Call.UsesSelect (has : Bool) : Call n → Bool
  | .assign_cache_value .. => true
  | .assign_selected_value .. => true
  | .assign_cache_integer .. => true
  | .assign_selected_integer .. => true
  | .msm_with_select_native .. => true
  | .msm_with_select_general .. => true
  | .assign_cache_point .. => true
  | .assign_selected_point .. => true
  | .assign_cache_point_non_zero .. => true
  | .assign_selected_point_non_zero .. => true
  | .msm_native .. => has
  | .msm_general .. => has
  | _ => false

end Verif
