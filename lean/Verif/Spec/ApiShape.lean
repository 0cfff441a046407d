import Verif.Spec.TowerShape
import Verif.Spec.Api

/-! # The shape of a store of objects -/

namespace Verif
variable {n : ℕ}

/-- Corresponding objects have the same shape; the msm prefix state is the same. -/
structure StoreShape (st : Prop) (σ σ' : Store n) : Prop where
  v : sh st σ.v σ'.v
  i : sh st σ.i σ'.i
  p : sh st σ.p σ'.p
  c : sh st σ.c σ'.c
  z : sh st σ.z σ'.z
  f2 : sh st σ.f2 σ'.f2
  f6 : sh st σ.f6 σ'.f6
  f12 : sh st σ.f12 σ'.f12
  g2 : sh st σ.g2 σ'.g2
  lines : sh st σ.lines σ'.lines
  pre : σ.msm_prefix = σ'.msm_prefix
instance : Shaped (Store n) := ⟨StoreShape⟩

end Verif
