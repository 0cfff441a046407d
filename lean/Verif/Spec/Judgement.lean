import Verif.Spec.Circuit

/-!
# Judgements about operations

What it means for an operation to be sound and complete, for every context it may be run in and every way
the circuit may go on afterwards.

* `S c m P`: soundness. Whatever happens after `m`, in every circuit `c` containing the constraints
  recorded up to the end of `m`, the result satisfies `P` (`P` speaks about one satisfying advice assignment
  of `c`, fixed outside).
* `C c h H m P Q`: completeness. `m` does not panic, its result satisfies `P`, and, provided the values handed
  to `m` are recorded faithfully (`H`), the rows and copy constraints added by `m` hold under the honest
  assignment `h`, and `Q` holds of the result.
-/

namespace Verif

variable {n : ℕ} {α β : Type}

/-- `t` extends `s`: rows already written are untouched, copy constraints are only appended. -/
structure Grows (s t : Context n) : Prop where
  baseOff : s.base_offset ≤ t.base_offset
  rangeOff : s.range_offset ≤ t.range_offset
  selOff : s.select_offset ≤ t.select_offset
  baseFix : ∀ r k, r < s.base_offset →
    t.records.inner.base_fix_record r k = s.records.inner.base_fix_record r k
  baseAdv : ∀ r k, r < s.base_offset →
    t.records.inner.base_adv_record r k = s.records.inner.base_adv_record r k
  rangeFix : ∀ r k, r < s.range_offset →
    t.records.inner.range_fix_record r k = s.records.inner.range_fix_record r k
  rangeAdv : ∀ r k, r < s.range_offset →
    t.records.inner.range_adv_record r k = s.records.inner.range_adv_record r k
  selFix : ∀ r k, r < s.select_offset →
    t.records.inner.select_fix_record r k = s.records.inner.select_fix_record r k
  selAdv : ∀ r k, r < s.select_offset →
    t.records.inner.select_adv_record r k = s.records.inner.select_adv_record r k
  perms : ∃ extra, t.records.permutations = s.records.permutations ++ extra

/-- The assignment `h` carries every value recorded in `s`, and 0 in the cells left unassigned below the
offsets. -/
structure Agrees (s : Context n) (h : Advice n) : Prop where
  base : ∀ r k, r < s.base_offset → h ⟨.base, k, r⟩ = (s.records.inner.base_adv_record r k).getD 0
  range : ∀ r k, r < s.range_offset → h ⟨.range, k, r⟩ = (s.records.inner.range_adv_record r k).getD 0
  select : ∀ r k, r < s.select_offset → h ⟨.select, k, r⟩ = (s.records.inner.select_adv_record r k).getD 0

/-- Soundness logic. -/
def S (c : Circuit n) (m : M n α) (P : α → Prop) : Prop :=
  ∀ s a t, s.Fresh → m s = .ok (a, t) → t.Fresh ∧ Grows s t ∧ (t.Embeds c → P a)

/-- The rows and copy constraints added between `s` and `t` hold in the circuit `c` under `h`. -/
structure NewOk (c : Circuit n) (h : Advice n) (s t : Context n) : Prop where
  base : ∀ r, s.base_offset ≤ r → r < t.base_offset → c.baseGate h r = 0
  range : ∀ r, s.range_offset ≤ r → r < t.range_offset → c.RangeRow h r
  select : ∀ r, s.select_offset ≤ r → r < t.select_offset → c.SelectRow h r
  copies : ∃ extra, t.records.permutations = s.records.permutations ++ extra ∧
    ∀ p ∈ extra, h p.1 = h p.2

/-- Completeness logic. -/
def C (c : Circuit n) (h : Advice n) (H : Prop) (m : M n α) (P : α → Prop) (Q : α → Prop) : Prop :=
  ∀ s : Context n, s.Fresh → ∃ a t, m s = .ok (a, t) ∧ t.Fresh ∧ Grows s t ∧ P a ∧
    (H → t.Embeds c → Agrees t h → NewOk c h s t ∧ Q a)

/-- The value is recorded faithfully in the honest assignment. -/
def Ok (h : Advice n) (a : AssignedValue n) : Prop := h a.cell = a.val

/-- `m` is sound for `P`: in every circuit that contains what `m` recorded (from whatever context, and whatever
is recorded later), every satisfying advice assignment `w` has `P w result`. -/
def Sound (m : M n α) (P : Advice n → α → Prop) : Prop :=
  ∀ (c : Circuit n) (w : Advice n), c.Sat w → S c m (P w)

/-- `m` is complete: it does not panic and its result satisfies `P`; and whenever the inputs are recorded
faithfully (`H`), all constraints recorded by `m` hold of the recorded witness and `Q` holds of the result. -/
def Complete (m : M n α) (H : Advice n → Prop) (P : α → Prop) (Q : Advice n → α → Prop) : Prop :=
  ∀ (c : Circuit n) (h : Advice n), C c h (H h) m P (Q h)

/-- The program `m`, run on an empty context, does not panic; its result satisfies `P`; and the recorded
witness satisfies the recorded circuit whenever the circuit fits into the usable rows. -/
def Accepted (m : M n α) (P : α → Prop) : Prop :=
  ∃ a t, m (Context.new n) = .ok (a, t) ∧ P a ∧ ∀ usable, t.Fits usable → (t.circuit usable).Sat t.honest

end Verif
