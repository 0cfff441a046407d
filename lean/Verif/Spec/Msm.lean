import Mathlib.Data.ZMod.Basic

/-!
# What a multi-scalar multiplication computes
-/

namespace Verif

/-- The sum of `xᵢ • Pᵢ`, the scalars taken as their canonical representatives. (Surplus points or scalars of the longer
list are ignored, as `zip` does.) -/
def msmSum {r : ℕ} {G : Type} [AddCommGroup G] (xs : List (ZMod r)) (Ps : List G) : G :=
  (List.zipWith (fun (x : ZMod r) P => x.val • P) xs Ps).sum

/-- The sum of `kᵢ • Pᵢ` for natural numbers `kᵢ`. -/
def natSum {G : Type} [AddCommGroup G] (ks : List ℕ) (Ps : List G) : G :=
  (List.zipWith (fun (k : ℕ) P => k • P) ks Ps).sum

end Verif
