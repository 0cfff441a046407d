import Verif.Spec.Circuit

/-!
# Cached and selected values

The select chip is one lookup: a row asks whether its pair (value, key) occurs among the pairs of the rows whose
`is_lookup` is 0. The rows the library means to be asked about are those written by `assign_cache_value`. Rows that were
never written also have `is_lookup = 0`; their key is 0. So a row with `is_lookup = 0` is a cached value if its key is not
0, and if its key is 0 it is recognised by the copy constraint on its value cell.
-/

namespace Verif.Circuit
variable {n : ℕ} (c : Circuit n) (w : Advice n)

/-- Row `t` of the select chip is a cached value. -/
def CacheRow (t : ℕ) : Prop :=
  t < c.usable ∧ c.selFix t 1 = 0 ∧ (c.selFix t 0 ≠ 0 ∨ ∃ x, ((⟨.select, 0, t⟩, x) : Cell × Cell) ∈ c.copies)

/-- No two cached values have the same key, other than 0. -/
def KeysUnique : Prop :=
  ∀ t t', c.CacheRow t → c.CacheRow t' → c.selFix t 0 = c.selFix t' 0 → c.selFix t 0 ≠ 0 → t = t'

/-- At most one value is cached under the key 0. -/
def ZeroKeyUnique : Prop := ∀ t t', c.CacheRow t → c.CacheRow t' → c.selFix t 0 = 0 → c.selFix t' 0 = 0 → t = t'

/-- The constraint the select chip lacks: what a selecting row finds is a cached value. -/
def LookupsCached : Prop := ∀ r < c.usable, c.selFix r 1 = 1 → ∃ t, c.CacheRow t ∧
  w ⟨.select, 0, r⟩ = w ⟨.select, 0, t⟩ ∧ w ⟨.select, 1, r⟩ * 2 ^ 128 + c.selFix r 0 = c.selFix t 0

/-- A cached value with key `key` equals `x`. -/
def Cached (key x : ZMod n) : Prop := ∃ t, c.CacheRow t ∧ c.selFix t 0 = key ∧ w ⟨.select, 0, t⟩ = x

variable {c w}

theorem KeysUnique.cached (h : c.KeysUnique) {key x y : ZMod n} (h0 : key ≠ 0 ∨ c.ZeroKeyUnique)
    (hx : c.Cached w key x) (hy : c.Cached w key y) : x = y := by
  obtain ⟨t, h1, h2, rfl⟩ := hx
  obtain ⟨t', h1', h2', rfl⟩ := hy
  by_cases hk : key = 0
  · rcases h0 with h0 | h0
    · exact absurd hk h0
    · rw [h0 t t' h1 h1' (h2.trans hk) (h2'.trans hk)]
  · rw [h t t' h1 h1' (h2.trans h2'.symm) (by rwa [h2])]

end Verif.Circuit
