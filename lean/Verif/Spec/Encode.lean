import Verif.Spec.Curve

/-!
# The encoding of a point as three field elements
-/

namespace Verif

/-- The triple for the coordinates `X`, `Y`: the low 324 bits of both, cut into 216, 108 + 108 and 216 bits. -/
def encTriple (n X Y : ℕ) : List (ZMod n) :=
  [((X % 2 ^ 216 : ℕ) : ZMod n), ((X / 2 ^ 216 % 2 ^ 108 + 2 ^ 108 * (Y % 2 ^ 108) : ℕ) : ZMod n),
    ((Y / 2 ^ 108 % 2 ^ 216 : ℕ) : ZMod n)]

end Verif
