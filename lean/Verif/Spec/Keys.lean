import Verif.Spec.Api

/-!
# Keys of cached values

A row of the select chip with `is_lookup = 0` is a cached value, stored under the key in its other fixed column
(`assign_cache_value`, `src/context.rs:749-767`). Unassigned fixed cells are 0 in the circuit.
-/

namespace Verif
variable {n : ℕ}

/-- Row `r` of the select chip holds a cached value with key `k`. -/
def RecordsInner.KeyRow (s : RecordsInner n) (r : ℕ) (k : ZMod n) : Prop :=
  (s.select_fix_record r 1).getD 0 = 0 ∧ s.select_fix_record r 0 = some k

/-- No two cached values are stored under one key. -/
def RecordsInner.KeysDistinct (s : RecordsInner n) : Prop := ∀ r r' k, s.KeyRow r k → s.KeyRow r' k → r = r'

/-- The calls that let the client choose the key of a cached value. -/
def Call.ChoosesKey : Call n → Bool
  | .assign_cache_value .. => true
  | .assign_cache_integer .. => true
  | .assign_cache_point .. => true
  | .assign_cache_point_non_zero .. => true
  | _ => false

/-- Whether the call is a multi-scalar multiplication that uses the select chip if there is one. -/
def Call.IsMsm : Call n → Bool
  | .msm_native .. => true
  | .msm_general .. => true
  | .msm_with_select_native .. => true
  | .msm_with_select_general .. => true
  | _ => false

end Verif
