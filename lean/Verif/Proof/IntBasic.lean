import Mathlib.Algebra.BigOperators.Fin
import Mathlib.Algebra.BigOperators.Ring.Finset
import Verif.Proof.Base
import Verif.Proof.MulAdd
import Verif.Proof.Range
import Verif.Proof.RangeInfo
import Verif.Spec.Integer

/-!
# Integer chip: basic lemmas
-/

namespace Verif
variable {n : ℕ} {c : Circuit n} {w h : Advice n} {H : Prop} {α : Type}

theorem S.mapM_range {k : ℕ} {f : ℕ → M n α} {P : ℕ → α → Prop} (hf : ∀ i < k, S c (f i) (P i)) :
    S c ((List.range k).mapM f) (fun rs => rs.length = k ∧ ∀ i < k, ∃ x, rs[i]? = some x ∧ P i x) := by
  refine (S.mapM (P := P) fun i hi => hf i (List.mem_range.1 hi)).mono fun rs hrs => ?_
  have hl := hrs.length_eq
  rw [List.length_range] at hl
  refine ⟨hl.symm, fun i hi => ⟨rs[i], List.getElem?_eq_getElem _, ?_⟩⟩
  have := (List.forall₂_iff_get.1 hrs).2 i (by simpa using hi) (by omega)
  simpa using this

theorem C.mapM_range {k : ℕ} {f : ℕ → M n α} {P Q : ℕ → α → Prop}
    (hf : ∀ i < k, C c h H (f i) (P i) (Q i)) :
    C c h H ((List.range k).mapM f)
      (fun rs => rs.length = k ∧ ∀ i < k, ∃ x, rs[i]? = some x ∧ P i x)
      (fun rs => ∀ i x, rs[i]? = some x → Q i x) := by
  have key : ∀ {P : ℕ → α → Prop} {rs : List α}, List.Forall₂ P (List.range k) rs →
      rs.length = k ∧ ∀ i < k, ∃ x, rs[i]? = some x ∧ P i x := by
    intro P rs hrs
    have hl := hrs.length_eq
    rw [List.length_range] at hl
    refine ⟨hl.symm, fun i hi => ⟨rs[i], List.getElem?_eq_getElem _, ?_⟩⟩
    have := (List.forall₂_iff_get.1 hrs).2 i (by simpa using hi) (by omega)
    simpa using this
  refine (C.mapM (P := P) (Q := Q) fun i hi => hf i (List.mem_range.1 hi)).mono
    (fun rs hrs => key hrs) (fun rs _ _ hrs i x hx => ?_)
  obtain ⟨h1, h2⟩ := key hrs
  have hi : i < k := by
    rw [← h1]; exact (List.getElem?_eq_some_iff.1 hx).1
  obtain ⟨y, hy, hq⟩ := h2 i hi
  rw [hx] at hy
  cases hy
  exact hq

/-! ## Values -/

theorem limbAt_some {f : AssignedValue n → ZMod n} {l : List (AssignedValue n)} {i : ℕ}
    {x : AssignedValue n} (hx : l[i]? = some x) : limbAt f l i = (f x).val := by simp [limbAt, hx]

theorem limbAt_none {f : AssignedValue n → ZMod n} {l : List (AssignedValue n)} {i : ℕ}
    (hx : l.length ≤ i) : limbAt f l i = 0 := by simp [limbAt, List.getElem?_eq_none hx]

theorem limbAt_cast [NeZero n] {f : AssignedValue n → ZMod n} {l : List (AssignedValue n)} {i : ℕ}
    {x : AssignedValue n} (hx : l[i]? = some x) : (limbAt f l i : ZMod n) = f x := by
  rw [limbAt_some hx, ZMod.natCast_zmod_val]

theorem VL_congr {f g : AssignedValue n → ZMod n} {l : List (AssignedValue n)}
    (h : ∀ x ∈ l, f x = g x) : VL f l = VL g l := by
  refine Finset.sum_congr rfl fun i hi => ?_
  rw [limbAt_some (List.getElem?_eq_getElem (Finset.mem_range.1 hi)),
    limbAt_some (List.getElem?_eq_getElem (Finset.mem_range.1 hi)), h _ (List.getElem_mem _)]

theorem value_eq_sum : ∀ l : List ℕ,
    RangeInfo.value l = ∑ i ∈ Finset.range l.length, l.getD i 0 * 2 ^ (108 * i)
  | [] => by simp [RangeInfo.value]
  | x :: l => by
    have e : ∑ i ∈ Finset.range l.length, (x :: l).getD (i + 1) 0 * 2 ^ (108 * (i + 1))
        = 2 ^ 108 * ∑ i ∈ Finset.range l.length, l.getD i 0 * 2 ^ (108 * i) := by
      rw [Finset.mul_sum]
      refine Finset.sum_congr rfl fun i _ => ?_
      rw [List.getD_cons_succ, Nat.mul_succ, pow_add]
      generalize 2 ^ (108 * i) = q
      ring
    rw [RangeInfo.value, value_eq_sum l, List.length_cons, Finset.sum_range_succ', e,
      List.getD_cons_zero, Nat.mul_zero, pow_zero, mul_one, add_comm]

/-- A sum of limbs, each below `2 ^ 108`, with a top limb below `2 ^ b`. -/
theorem sum_limbs_lt {x : ℕ → ℕ} {k b : ℕ} (h : ∀ i < k, x i < 2 ^ 108) (ht : x k < 2 ^ b) :
    ∑ i ∈ Finset.range (k + 1), x i * 2 ^ (108 * i) < 2 ^ (108 * k + b) := by
  have key : ∀ k, (∀ i < k, x i < 2 ^ 108) → ∑ i ∈ Finset.range k, x i * 2 ^ (108 * i) < 2 ^ (108 * k) := by
    intro k
    induction k with
    | zero => simp
    | succ k ih =>
      intro h
      rw [Finset.sum_range_succ, Nat.mul_succ, pow_add]
      have h1 := ih fun i hi => h i (by omega)
      have h2 : x k + 1 ≤ 2 ^ 108 := h k (by omega)
      have h3 : (x k + 1) * 2 ^ (108 * k) ≤ 2 ^ 108 * 2 ^ (108 * k) := Nat.mul_le_mul_right _ h2
      rw [add_mul, one_mul] at h3
      rw [mul_comm (2 ^ (108 * k)) (2 ^ 108)]
      omega
  rw [Finset.sum_range_succ, pow_add]
  have h1 := key k h
  have h3 : (x k + 1) * 2 ^ (108 * k) ≤ 2 ^ b * 2 ^ (108 * k) := Nat.mul_le_mul_right _ ht
  rw [add_mul, one_mul] at h3
  rw [mul_comm (2 ^ (108 * k)) (2 ^ b)]
  omega

/-- Splitting a number into limbs. -/
theorem sum_limbOf (x : ℕ) : ∀ k, x % 2 ^ (108 * k) =
    ∑ i ∈ Finset.range k, RangeInfo.limbOf 108 i x * 2 ^ (108 * i)
  | 0 => by simp [Nat.mod_one]
  | k + 1 => by
    rw [Finset.sum_range_succ, ← sum_limbOf x k, Nat.mul_succ, pow_add, Nat.mod_mul]
    unfold RangeInfo.limbOf
    rw [mul_comm k 108]; ring

theorem limbOf_lt (i x : ℕ) : RangeInfo.limbOf 108 i x < 2 ^ 108 := Nat.mod_lt _ (by norm_num)

theorem limbOf_top {i b x : ℕ} (h : x < 2 ^ (108 * i + b)) : RangeInfo.limbOf 108 i x < 2 ^ b := by
  unfold RangeInfo.limbOf
  refine (Nat.mod_le _ _).trans_lt ?_
  rw [Nat.div_lt_iff_lt_mul (by positivity), ← pow_add]
  convert h using 2; ring

section
variable {info : RangeInfo n} {wm : ℕ}

theorem RangeInfo.Valid.n_gt (hv : info.Valid wm) : 2 ^ 233 < n := by
  have := hv.n_big
  norm_num at this ⊢
  omega

theorem RangeInfo.Valid.neZero (hv : info.Valid wm) : NeZero n := ⟨by have := hv.n_gt; omega⟩

/-- The top limb has `w_ceil_bits % 108` bits. -/
theorem RangeInfo.Valid.wcb (hv : info.Valid wm) :
    info.w_ceil_bits = 108 * (info.limbs - 1) + info.w_ceil_bits % 108 := by
  have h1 := hv.limbs_eq
  have h2 := hv.lead_ge
  omega

theorem RangeInfo.Valid.limbs_succ (hv : info.Valid wm) : info.limbs = (info.limbs - 1) + 1 := by
  have := hv.limbs_ge; omega

theorem coeff_get (hv : info.Valid wm) {i : ℕ} (hi : i < info.limbs) :
    info.limb_coeffs[i]? = some ((2 ^ (108 * i) : ℕ) : ZMod n) := by
  rw [hv.coeffs]; simp [hi, mul_comm]

theorem w_limb_get (hv : info.Valid wm) {i : ℕ} (hi : i < info.limbs) :
    info.w_modulus_limbs_le[i]? = some ((RangeInfo.limbOf 108 i wm : ℕ) : ZMod n) := by
  rw [hv.w_limbs, hv.w_limbs_bn]; simp [hi]

theorem w_limb_bn_get (hv : info.Valid wm) {i : ℕ} (hi : i < info.limbs) :
    info.w_modulus_limbs_le_bn[i]? = some (RangeInfo.limbOf 108 i wm) := by
  rw [hv.w_limbs_bn]; simp [hi]

theorem sum_zip_coeffs (hv : info.Valid wm) (f : AssignedValue n → ZMod n) {l : List (AssignedValue n)}
    (hl : l.length = info.limbs) :
    ((l.zip info.limb_coeffs).map fun e => f e.1 * e.2).sum = (VL f l : ZMod n) := by
  have := hv.neZero
  have key : ∀ (l : List (AssignedValue n)) (m : List (ZMod n)) (k : ℕ),
      (∀ i (hi : i < l.length), m[i]? = some ((2 ^ (108 * (k + i)) : ℕ) : ZMod n)) →
      ((l.zip m).map fun e => f e.1 * e.2).sum
        = ∑ i ∈ Finset.range l.length, (limbAt f l i : ZMod n) * 2 ^ (108 * (k + i)) := by
    intro l
    induction l with
    | nil => simp
    | cons x l ih =>
      intro m k hm
      obtain ⟨y, m, rfl⟩ : ∃ y m', m = y :: m' := by
        cases m with
        | nil => simpa using hm 0 (by simp)
        | cons y m => exact ⟨y, m, rfl⟩
      have h0 := hm 0 (by simp)
      simp only [List.getElem?_cons_zero, Option.some.injEq] at h0
      rw [List.zip_cons_cons, List.map_cons, List.sum_cons, ih m (k + 1) fun i hi => ?_, List.length_cons,
        Finset.sum_range_succ', add_comm]
      · congr 1
        · refine Finset.sum_congr rfl fun i _ => ?_
          simp [limbAt, add_assoc, add_comm 1]
        · simp [limbAt, h0]
      · have := hm (i + 1) (by simpa using hi)
        rw [List.getElem?_cons_succ] at this
        rw [this, add_assoc, add_comm 1]
  rw [key l info.limb_coeffs 0 fun i hi => by rw [coeff_get hv (by omega), zero_add], VL]
  push_cast
  simp

theorem S_native_of (hv : info.Valid wm) (hw : c.Sat w) (l : List (AssignedValue n)) :
    S c (native_of info l) (fun r => l.length = info.limbs → cv w r = (VL (cv w) l : ZMod n)) := by
  refine (S_sum hw _ _).mono fun r hr hl => ?_
  show w r.cell = _
  rw [hr, ← sum_zip_coeffs hv _ hl]
  simp [sumW, cv]

theorem C_native_of (hv : info.Valid wm) {l : List (AssignedValue n)} (hl : l.length = info.limbs)
    (hok : H → ∀ x ∈ l, Ok h x) :
    C c h H (native_of info l) (fun r => r.val = (VL AssignedValue.val l : ZMod n)) (fun r => Ok h r) := by
  have hne : l.zip info.limb_coeffs ≠ [] := by
    have h3 := hv.limbs_ge
    intro e
    have := congrArg List.length e
    simp [hv.coeffs, hl] at this
    omega
  refine (C_sum (l.zip info.limb_coeffs) none hne ?_).mono (fun r hr => ?_) (fun _ _ _ q => q)
  · intro hH e he
    exact hok hH _ (List.of_mem_zip he).1
  · rw [hr, ← sum_zip_coeffs hv _ hl]
    simp [sumVal]

theorem limbAt_eq {f : AssignedValue n → ZMod n} {l : List (AssignedValue n)} {i y : ℕ} (hy : y < n)
    (h : ∃ x, l[i]? = some x ∧ f x = (y : ZMod n)) : limbAt f l i = y := by
  obtain ⟨x, hx, hf⟩ := h
  rw [limbAt_some hx, hf, ZMod.val_natCast_of_lt hy]

theorem VL_eq {f : AssignedValue n → ZMod n} {l : List (AssignedValue n)} {k : ℕ} {y : ℕ → ℕ}
    (hl : l.length = k) (hy : ∀ i < k, y i < n)
    (h : ∀ i < k, ∃ x, l[i]? = some x ∧ f x = (y i : ZMod n)) :
    VL f l = ∑ i ∈ Finset.range k, y i * 2 ^ (108 * i) := by
  rw [VL, hl]
  exact Finset.sum_congr rfl fun i hi => by
    rw [limbAt_eq (hy i (Finset.mem_range.1 hi)) (h i (Finset.mem_range.1 hi))]

theorem V_eq_sum {f : AssignedValue n → ZMod n} {a : AssignedInteger n} {k : ℕ}
    (hl : a.limbs_le.length = k) :
    V f a = ∑ i ∈ Finset.range k, limbAt f a.limbs_le i * 2 ^ (108 * i) := by rw [V, VL, hl]

/-- The leading limb is bounded through the value. -/
theorem WF.lead (hv : info.Valid wm) {f : AssignedValue n → ZMod n} {a : AssignedInteger n}
    (ha : WF info f a) :
    limbAt f a.limbs_le (info.limbs - 1) < a.times * 2 ^ (info.w_ceil_bits % 108) := by
  obtain ⟨k, hk⟩ : ∃ k, info.limbs = k + 1 := ⟨_, hv.limbs_succ⟩
  have h1 := ha.val
  rw [V_eq_sum (ha.len.trans hk), Finset.sum_range_succ] at h1
  have e := hv.wcb
  rw [hk, Nat.add_sub_cancel] at e ⊢
  have h2 : limbAt f a.limbs_le k * 2 ^ (108 * k) < a.times * 2 ^ info.w_ceil_bits :=
    lt_of_le_of_lt (Nat.le_add_left _ _) h1
  have h3 : limbAt f a.limbs_le k * 2 ^ (108 * k)
      < (a.times * 2 ^ (info.w_ceil_bits % 108)) * 2 ^ (108 * k) := by
    calc _ < _ := h2
      _ = _ := by conv_lhs => rw [e, pow_add]
                  ring
  exact lt_of_mul_lt_mul_right h3 (Nat.zero_le _)

theorem WF.limb_get {f : AssignedValue n → ZMod n} {a : AssignedInteger n} (ha : WF info f a) {i : ℕ}
    (hi : i < info.limbs) : ∃ x, a.limbs_le[i]? = some x ∧ limbAt f a.limbs_le i = (f x).val := by
  have : i < a.limbs_le.length := by rw [ha.len]; exact hi
  exact ⟨a.limbs_le[i], List.getElem?_eq_getElem this, limbAt_some (List.getElem?_eq_getElem this)⟩

/-- With faithful recording, the recorded values and the assignment agree. -/
theorem OkI.V_eq {a : AssignedInteger n} (ha : OkI h a) : V (cv h) a = V AssignedValue.val a :=
  VL_congr fun x hx => ha.limb x hx

/-! ## `get_w_bn` -/

theorem C_index_limb {α β : Type} {l : List α} {k : ℕ} (hl : l.length = k) {i : ℕ} (hi : i < k) {f : α → M n β} {P Q : β → Prop}
    (hf : ∀ x, l[i]? = some x → C c h H (f x) P Q) : C c h H (index l i >>= f) P Q := by
  have : i < l.length := by omega
  exact C.bind_index (List.getElem?_eq_getElem this) (hf _ (List.getElem?_eq_getElem this))

theorem foldr_limbs (f : AssignedValue n → ZMod n) : ∀ l : List (AssignedValue n),
    l.foldr (fun l res => res * 2 ^ 108 + (f l).val) 0 = VL f l
  | [] => by simp [VL]
  | x :: l => by
    rw [List.foldr_cons, foldr_limbs f l, VL, VL, List.length_cons, Finset.sum_range_succ', Finset.sum_mul]
    have e : ∀ i, limbAt f (x :: l) (i + 1) * 2 ^ (108 * (i + 1))
        = limbAt f l i * 2 ^ (108 * i) * 2 ^ 108 := by
      intro i
      rw [Nat.mul_succ, pow_add, ← mul_assoc]; simp only [limbAt, List.getElem?_cons_succ]
    simp only [e]
    rw [Nat.mul_zero, pow_zero, mul_one]
    rfl

/-- `get_w_bn` does not touch the circuit. -/
theorem S_get_w_bn (hv : info.Valid wm) (a : AssignedInteger n) :
    S c (get_w_bn info a) (fun r => a.limbs_le.length = info.limbs → r = V AssignedValue.val a) := by
  unfold get_w_bn
  refine S.bind (S.mapM_range (P := fun i x => a.limbs_le[i]? = some x) fun i _ => S.index) fun ls => ?_
  refine S.pure ?_
  rintro ⟨h1, h2⟩ hl
  have : ls = a.limbs_le := by
    apply List.ext_getElem?
    intro i
    by_cases hi : i < info.limbs
    · obtain ⟨x, e1, e2⟩ := h2 i hi
      rw [e1, e2]
    · rw [List.getElem?_eq_none (by omega), List.getElem?_eq_none (by omega)]
  subst this
  rw [hv.limb_bits]; exact foldr_limbs _ _

theorem C_get_w_bn (hv : info.Valid wm) {a : AssignedInteger n} (hl : a.limbs_le.length = info.limbs) :
    C c h H (get_w_bn info a) (fun r => r = V AssignedValue.val a) (fun _ => True) := by
  unfold get_w_bn
  refine C.bind (C.mapM_range (P := fun i x => a.limbs_le[i]? = some x) (Q := fun _ _ => True)
    fun i hi => ?_) fun ls hls => ?_
  · have : i < a.limbs_le.length := by omega
    exact (C.index (List.getElem?_eq_getElem this)).mono
      (fun x hx => by subst hx; exact List.getElem?_eq_getElem this) fun _ _ _ _ => trivial
  · refine C.pure ?_ fun _ => trivial
    obtain ⟨h1, h2⟩ := hls
    have : ls = a.limbs_le := by
      apply List.ext_getElem?
      intro i
      by_cases hi : i < info.limbs
      · obtain ⟨x, e1, e2⟩ := h2 i hi
        rw [e1, e2]
      · rw [List.getElem?_eq_none (by omega), List.getElem?_eq_none (by omega)]
    subst this
    rw [hv.limb_bits]; exact foldr_limbs _ _

theorem S_div_rem (a b : ℕ) :
    S c (div_rem a b : M n (ℕ × ℕ)) (fun r => b ≠ 0 ∧ r = (a / b, a % b)) := by
  unfold div_rem; split
  · exact S.panic
  · exact S.pure ⟨‹_›, rfl⟩

theorem S_usub (a b : ℕ) : S c (usub a b : M n ℕ) (fun r => b ≤ a ∧ r = a - b) := by
  unfold usub; split
  · exact S.pure ⟨‹_›, rfl⟩
  · exact S.panic

theorem C_bind_div_rem {β : Type} {a b : ℕ} (hb : b ≠ 0) {f : ℕ × ℕ → M n β} {P Q : β → Prop}
    (hf : C c h H (f (a / b, a % b)) P Q) : C c h H (div_rem a b >>= f) P Q := by
  unfold div_rem; rw [if_neg hb]; exact hf

theorem C_bind_usub {β : Type} {a b : ℕ} (hb : b ≤ a) {f : ℕ → M n β} {P Q : β → Prop}
    (hf : C c h H (f (a - b)) P Q) : C c h H (usub a b >>= f) P Q := by
  unfold usub; rw [if_pos hb]; exact hf

/-! ## `assign_w` and `assign_d` -/

theorem limbs_append {k : ℕ} (hk : 1 ≤ k) {ls : List (AssignedValue n)} {x : AssignedValue n}
    {P : ℕ → AssignedValue n → Prop} (hl : ls.length = k - 1)
    (h : ∀ i < k - 1, ∃ y, ls[i]? = some y ∧ P i y) (hx : P (k - 1) x) :
    (ls ++ [x]).length = k ∧ ∀ i < k, ∃ y, (ls ++ [x])[i]? = some y ∧ P i y := by
  refine ⟨by simp [hl]; omega, fun i hi => ?_⟩
  by_cases h1 : i < k - 1
  · obtain ⟨y, hy, hp⟩ := h i h1
    exact ⟨y, by rw [List.getElem?_append_left (by omega)]; exact hy, hp⟩
  · obtain rfl : i = k - 1 := by omega
    exact ⟨x, by rw [List.getElem?_append_right (by omega), hl]; simp, hx⟩

theorem S_nonleading [Fact n.Prime] (hv : info.Valid wm) (hw : c.Sat w) (bn : ℕ) :
    S c (assign_nonleading_limb info bn) (fun r => ∃ x : ℕ, x < 2 ^ 108 ∧ w r.cell = x) := by
  have := S_assign_range (by have := hv.n_gt; omega) hw
    (decompose_bn n bn RANGE_VALUE_DECOMPOSE info.common_range_mask) info.limb_bits
  unfold assign_nonleading_limb
  rwa [hv.limb_bits] at this ⊢

theorem C_nonleading (hv : info.Valid wm) {bn : ℕ} (hb : bn < 2 ^ 108) :
    C c h H (assign_nonleading_limb info bn) (fun r => r.val = (bn : ZMod n)) (fun r => Ok h r) := by
  unfold assign_nonleading_limb
  rw [hv.limb_bits, hv.mask]
  exact C_assign_range (.inr ⟨by norm_num, by norm_num⟩) (by norm_num) (by norm_num) hb

theorem S_lead [Fact n.Prime] (hv : info.Valid wm) (hw : c.Sat w) (bn : ℕ) :
    S c (assign_w_ceil_leading_limb info bn)
      (fun r => ∃ x : ℕ, x < 2 ^ (info.w_ceil_bits % 108) ∧ w r.cell = x) := by
  have := S_assign_range (by have := hv.n_gt; omega) hw
    (decompose_bn n bn info.w_ceil_leading_decompose info.common_range_mask)
    (info.w_ceil_bits % info.limb_bits)
  unfold assign_w_ceil_leading_limb
  rwa [hv.limb_bits] at this ⊢

theorem C_lead (hv : info.Valid wm) {bn : ℕ} (hb : bn < 2 ^ (info.w_ceil_bits % 108)) :
    C c h H (assign_w_ceil_leading_limb info bn) (fun r => r.val = (bn : ZMod n)) (fun r => Ok h r) := by
  unfold assign_w_ceil_leading_limb
  rw [hv.limb_bits, hv.mask]
  exact C_assign_range (.inr ⟨hv.lead_ge, by omega⟩) hv.lead_dec hv.dec_ge.1 hb

theorem S_d_lead [Fact n.Prime] (hv : info.Valid wm) (hw : c.Sat w) (bn : ℕ) :
    S c (assign_d_leading_limb info bn)
      (fun r => ∃ x : ℕ, x < 2 ^ (info.d_bits % 108) ∧ w r.cell = x) := by
  have := S_assign_range (by have := hv.n_gt; omega) hw
    (decompose_bn n bn info.d_leading_decompose info.common_range_mask)
    (info.d_bits % info.limb_bits)
  unfold assign_d_leading_limb
  rwa [hv.limb_bits] at this ⊢

/-- `assign_d_leading_limb` is complete unless `d_bits` is a multiple of 108 (see
`Verif.Props.IntegerFindings` for that case). -/
theorem C_d_lead (hv : info.Valid wm) (hd : info.d_bits % 108 ≠ 0) {bn : ℕ}
    (hb : bn < 2 ^ (info.d_bits % 108)) :
    C c h H (assign_d_leading_limb info bn) (fun r => r.val = (bn : ZMod n)) (fun r => Ok h r) := by
  unfold assign_d_leading_limb
  rw [hv.limb_bits, hv.mask]
  have h1 := hv.d_lead
  have h2 := hv.d_dec
  rw [if_neg hd] at h1 h2
  exact C_assign_range (.inr ⟨h1, by omega⟩) h2 hv.dec_ge.2 hb

/-- `d_bits` fits the limbs. -/
theorem RangeInfo.Valid.d_bits_le (hv : info.Valid wm) :
    108 * (info.limbs - 1) + info.d_bits % 108 ≤ info.d_bits ∧
    (info.d_bits % 108 ≠ 0 → 108 * (info.limbs - 1) + info.d_bits % 108 = info.d_bits) := by
  have h1 := hv.wcb
  have h2 := hv.d_bits
  have h3 := hv.d_lead
  split at h3 <;> omega

theorem lt_n_of_lt_limb (hv : info.Valid wm) {x b : ℕ} (hb : b ≤ 108) (hx : x < 2 ^ b) : x < n := by
  have h1 := hv.n_gt
  have h2 : (2 : ℕ) ^ b ≤ 2 ^ 233 := Nat.pow_le_pow_right (by norm_num) (by omega)
  omega

theorem S_assign_w [Fact n.Prime] (hv : info.Valid wm) (hw : c.Sat w) (x : ℕ) :
    S c (assign_w info x) (fun a => WF info (cv w) a ∧ a.times = 1) := by
  unfold assign_w
  refine S.bind (S.mapM_range fun i _ => S_nonleading hv hw _) fun ls => ?_
  refine S.bind (S_lead hv hw _) fun lead => ?_
  refine S.bind (S_native_of hv hw _) fun nat => ?_
  refine S.pure ?_
  intro h3 h2 h1
  refine ⟨?_, rfl⟩
  have hk : 1 ≤ info.limbs := by have := hv.limbs_ge; omega
  obtain ⟨hl, hall⟩ := limbs_append hk h1.1
    (P := fun i r => ∃ x : ℕ, x < 2 ^ (if i = info.limbs - 1 then info.w_ceil_bits % 108 else 108)
      ∧ w r.cell = x) (fun i hi => by
        obtain ⟨y, hy, hp⟩ := h1.2 i hi
        rw [if_neg (by omega)]
        exact ⟨y, hy, hp⟩) (by rw [if_pos rfl]; exact h2)
  choose! y hy z hz1 hz2 using hall
  have hzn : ∀ i < info.limbs, z i < n := fun i hi => by
    have := hz1 i hi
    split at this
    · exact lt_n_of_lt_limb hv (by omega) this
    · exact lt_n_of_lt_limb hv le_rfl this
  have hall' : ∀ i < info.limbs, ∃ x, (ls ++ [lead])[i]? = some x ∧ cv w x = (z i : ZMod n) :=
    fun i hi => ⟨_, hy i hi, hz2 i hi⟩
  refine ⟨hl, le_rfl, by norm_num, fun i => ?_, ?_, h3 hl⟩
  · show limbAt _ (ls ++ [lead]) i < _
    by_cases hi : i < info.limbs
    · rw [limbAt_eq (hzn i hi) (hall' i hi), one_mul]
      have := hz1 i hi
      split at this
      · exact this.trans_le (Nat.pow_le_pow_right (by norm_num) (by omega))
      · exact this
    · rw [limbAt_none (by omega)]; positivity
  · show VL _ (ls ++ [lead]) < _
    rw [VL_eq hl hzn hall', one_mul, hv.limbs_succ]
    conv_rhs => rw [hv.wcb]
    refine sum_limbs_lt (fun i hi => ?_) ?_
    · have := hz1 i (by omega)
      rwa [if_neg (by omega)] at this
    · have := hz1 (info.limbs - 1) (by omega)
      rwa [if_pos rfl] at this

/-- Not only canonical values can be recorded. -/
theorem C_assign_w_wf (hv : info.Valid wm) {x : ℕ} (hx : x < 2 ^ info.w_ceil_bits) :
    C c h H (assign_w info x)
      (fun a => WF info AssignedValue.val a ∧ a.times = 1 ∧ V AssignedValue.val a = x ∧
        ∀ i < info.limbs, limbAt AssignedValue.val a.limbs_le i = RangeInfo.limbOf 108 i x)
      (fun a => OkI h a) := by
  unfold assign_w
  rw [hv.limb_bits]
  have hxw : x < 2 ^ (108 * (info.limbs - 1) + info.w_ceil_bits % 108) := by
    rw [← hv.wcb]; exact hx
  refine C.bind (C.mapM_range fun i _ => C_nonleading hv (limbOf_lt _ _)) fun ls hls => ?_
  refine C.bind (C_lead hv (limbOf_top hxw)) fun lead hlead => ?_
  have hk : 1 ≤ info.limbs := by have := hv.limbs_ge; omega
  obtain ⟨hl, hall⟩ := limbs_append hk hls.1
    (P := fun i r => r.val = (RangeInfo.limbOf 108 i x : ZMod n)) hls.2 hlead
  have hzn : ∀ i < info.limbs, RangeInfo.limbOf 108 i x < n := fun i _ =>
    lt_n_of_lt_limb hv le_rfl (limbOf_lt _ _)
  have hok : ∀ ls : List (AssignedValue n), (∀ (i : ℕ) x, ls[i]? = some x → Ok h x) → ∀ y, Ok h y →
      ∀ x ∈ ls ++ [y], Ok h x := by
    intro ls h1 y h2 x hx
    rcases List.mem_append.1 hx with hx | hx
    · obtain ⟨i, hi⟩ := List.mem_iff_getElem?.1 hx
      exact h1 i x hi
    · rw [List.mem_singleton.1 hx]; exact h2
  refine C.bind (C_native_of hv hl fun hH => hok _ hH.1.2 _ hH.2) fun nat hnat => ?_
  refine C.pure ?_ fun hH => ⟨hok _ hH.1.1.2 _ hH.1.2, hH.2⟩
  have hV : VL AssignedValue.val (ls ++ [lead]) = x := by
    rw [VL_eq hl hzn hall, ← sum_limbOf, Nat.mod_eq_of_lt]
    exact hxw.trans_le (Nat.pow_le_pow_right (by norm_num) (by have := hv.limbs_succ; omega))
  refine ⟨⟨hl, le_rfl, by norm_num, fun i => ?_, ?_, hnat⟩, rfl, hV, fun i hi => ?_⟩
  · show limbAt _ (ls ++ [lead]) i < _
    by_cases hi : i < info.limbs
    · rw [limbAt_eq (hzn i hi) (hall i hi), one_mul]; exact limbOf_lt _ _
    · rw [limbAt_none (by omega)]; positivity
  · show VL _ (ls ++ [lead]) < _
    rw [hV, one_mul]; exact hx
  · exact limbAt_eq (hzn i hi) (hall i hi)

theorem C_assign_w (hv : info.Valid wm) {x : ℕ} (hx : x < wm) :
    C c h H (assign_w info x)
      (fun a => Honest wm info a ∧ a.times = 1 ∧ V AssignedValue.val a = x ∧
        ∀ i < info.limbs, limbAt AssignedValue.val a.limbs_le i = RangeInfo.limbOf 108 i x)
      (fun a => OkI h a) :=
  (C_assign_w_wf hv (hx.trans_le hv.w_hi)).mono (fun _ ⟨h1, h2, h3, h4⟩ => ⟨⟨h1, fun _ => by rw [h3]; exact hx⟩, h2, h3, h4⟩)
    fun _ _ _ q => q

theorem S_assign_d_exact [Fact n.Prime] (hv : info.Valid wm) (hw : c.Sat w) (x : ℕ) :
    S c (assign_d info x) (fun d => d.1.length = info.limbs ∧ (∀ i, limbAt (cv w) d.1 i < 2 ^ 108) ∧
      VL (cv w) d.1 < 2 ^ (108 * (info.limbs - 1) + info.d_bits % 108) ∧ cv w d.2 = (VL (cv w) d.1 : ZMod n)) := by
  unfold assign_d
  refine S.bind (S.mapM_range fun i _ => S_nonleading hv hw _) fun ls => ?_
  refine S.bind (S_d_lead hv hw _) fun lead => ?_
  refine S.bind (S_native_of hv hw _) fun nat => ?_
  refine S.pure ?_
  intro h3 h2 h1
  have hk : 1 ≤ info.limbs := by have := hv.limbs_ge; omega
  obtain ⟨hl, hall⟩ := limbs_append hk h1.1
    (P := fun i r => ∃ x : ℕ, x < 2 ^ (if i = info.limbs - 1 then info.d_bits % 108 else 108)
      ∧ w r.cell = x) (fun i hi => by
        obtain ⟨y, hy, hp⟩ := h1.2 i hi
        rw [if_neg (by omega)]
        exact ⟨y, hy, hp⟩) (by rw [if_pos rfl]; exact h2)
  choose! y hy z hz1 hz2 using hall
  have hzn : ∀ i < info.limbs, z i < n := fun i hi => by
    have := hz1 i hi
    split at this
    · exact lt_n_of_lt_limb hv (by omega) this
    · exact lt_n_of_lt_limb hv le_rfl this
  have hall' : ∀ i < info.limbs, ∃ x, (ls ++ [lead])[i]? = some x ∧ cv w x = (z i : ZMod n) :=
    fun i hi => ⟨_, hy i hi, hz2 i hi⟩
  refine ⟨hl, fun i => ?_, ?_, h3 hl⟩
  · show limbAt _ (ls ++ [lead]) i < _
    by_cases hi : i < info.limbs
    · rw [limbAt_eq (hzn i hi) (hall' i hi)]
      have := hz1 i hi
      split at this
      · exact this.trans_le (Nat.pow_le_pow_right (by norm_num) (by omega))
      · exact this
    · rw [limbAt_none (by omega)]; positivity
  · show VL _ (ls ++ [lead]) < _
    rw [VL_eq hl hzn hall', hv.limbs_succ]
    refine sum_limbs_lt (b := info.d_bits % 108) (fun i hi => ?_) ?_
    · have := hz1 i (by omega)
      rwa [if_neg (by omega)] at this
    · have := hz1 (info.limbs - 1) (by omega)
      rwa [if_pos rfl] at this

theorem S_assign_d [Fact n.Prime] (hv : info.Valid wm) (hw : c.Sat w) (x : ℕ) :
    S c (assign_d info x) (fun d => d.1.length = info.limbs ∧ (∀ i, limbAt (cv w) d.1 i < 2 ^ 108) ∧
      VL (cv w) d.1 < 2 ^ info.d_bits ∧ cv w d.2 = (VL (cv w) d.1 : ZMod n)) :=
  (S_assign_d_exact hv hw x).mono fun _ hd =>
    ⟨hd.1, hd.2.1, hd.2.2.1.trans_le (Nat.pow_le_pow_right (by norm_num) hv.d_bits_le.1), hd.2.2.2⟩

theorem C_assign_d (hv : info.Valid wm) (hd : info.d_bits % 108 ≠ 0) {x : ℕ} (hx : x < 2 ^ info.d_bits) :
    C c h H (assign_d info x)
      (fun d => d.1.length = info.limbs ∧ VL AssignedValue.val d.1 = x ∧ d.2.val = (x : ZMod n) ∧
        ∀ i < info.limbs, limbAt AssignedValue.val d.1 i = RangeInfo.limbOf 108 i x)
      (fun d => (∀ y ∈ d.1, Ok h y) ∧ Ok h d.2) := by
  unfold assign_d
  rw [hv.limb_bits]
  have hxw : x < 2 ^ (108 * (info.limbs - 1) + info.d_bits % 108) := by
    rw [hv.d_bits_le.2 hd]; exact hx
  refine C.bind (C.mapM_range fun i _ => C_nonleading hv (limbOf_lt _ _)) fun ls hls => ?_
  refine C.bind (C_d_lead hv hd (limbOf_top hxw)) fun lead hlead => ?_
  have hk : 1 ≤ info.limbs := by have := hv.limbs_ge; omega
  obtain ⟨hl, hall⟩ := limbs_append hk hls.1
    (P := fun i r => r.val = (RangeInfo.limbOf 108 i x : ZMod n)) hls.2 hlead
  have hzn : ∀ i < info.limbs, RangeInfo.limbOf 108 i x < n := fun i _ =>
    lt_n_of_lt_limb hv le_rfl (limbOf_lt _ _)
  have hok : ∀ ls : List (AssignedValue n), (∀ (i : ℕ) x, ls[i]? = some x → Ok h x) → ∀ y, Ok h y →
      ∀ x ∈ ls ++ [y], Ok h x := by
    intro ls h1 y h2 x hx
    rcases List.mem_append.1 hx with hx | hx
    · obtain ⟨i, hi⟩ := List.mem_iff_getElem?.1 hx
      exact h1 i x hi
    · rw [List.mem_singleton.1 hx]; exact h2
  refine C.bind (C_native_of hv hl fun hH => hok _ hH.1.2 _ hH.2) fun nat hnat => ?_
  refine C.pure ?_ fun hH => ⟨hok _ hH.1.1.2 _ hH.1.2, hH.2⟩
  have hV : VL AssignedValue.val (ls ++ [lead]) = x := by
    rw [VL_eq hl hzn hall, ← sum_limbOf, Nat.mod_eq_of_lt]
    exact hxw.trans_le (Nat.pow_le_pow_right (by norm_num) (by have := hv.limbs_succ; omega))
  refine ⟨hl, hV, ?_, fun i hi => limbAt_eq (hzn i hi) (hall i hi)⟩
  rw [hnat, hV]

end

end Verif
