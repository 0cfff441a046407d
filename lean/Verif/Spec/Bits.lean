import Verif.Spec.Integer

/-!
# What a list of bits stands for
-/

namespace Verif
variable {n : ℕ}

/-- The number a little-endian list of digit cells stands for. -/
def binVal (f : AssignedValue n → ZMod n) : List (AssignedValue n) → ℕ
  | [] => 0
  | b :: bs => (f b).val + 2 * binVal f bs

/-- `res` is a list of windows of `ws` bits each, the most significant window first and each window least significant
bit first, that together are the binary expansion of `k`. -/
structure Windows (f : AssignedValue n → ZMod n) (ws : ℕ) (res : List (List (AssignedValue n))) (k : ℕ) : Prop where
  len : ∀ win ∈ res, win.length = ws
  bit : ∀ win ∈ res, ∀ b ∈ win, f b = 0 ∨ f b = 1
  value : binVal f res.reverse.flatten = k

end Verif
