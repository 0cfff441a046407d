import Mathlib.Tactic.LinearCombination
import Mathlib.Tactic.Ring
import Verif.Proof.Row

/-!
# Base chip: soundness and completeness of every operation
-/

namespace Verif

variable {n : ℕ} {c : Circuit n} {w h : Advice n} {H : Prop}

/-- Value of a linear combination under an assignment. -/
def sumW (w : Advice n) (elems : List (AssignedValue n × ZMod n)) : ZMod n :=
  (elems.map fun e => w e.1.cell * e.2).sum

@[simp] theorem sumW_nil : sumW w [] = 0 := rfl
@[simp] theorem sumW_cons (a : AssignedValue n × ZMod n) (l) :
    sumW w (a :: l) = w a.1.cell * a.2 + sumW w l := by simp [sumW]
@[simp] theorem sumVal_nil : sumVal ([] : List (AssignedValue n × ZMod n)) = 0 := rfl
@[simp] theorem sumVal_cons (a : AssignedValue n × ZMod n) (l) :
    sumVal (a :: l) = a.1.val * a.2 + sumVal l := by simp [sumVal]

theorem sumW_append (l l') : sumW w (l ++ l') = sumW w l + sumW w l' := by simp [sumW]
theorem sumVal_append (l l' : List (AssignedValue n × ZMod n)) :
    sumVal (l ++ l') = sumVal l + sumVal l' := by simp [sumVal]

/-- simp set unfolding a concrete row. -/
macro "row_simp" : tactic => `(tactic|
  simp [gateEq, rowFixL, rowFix, rowAdvL, rowAdv, ValueSchema.value])
macro "row_simp_at" h:ident : tactic => `(tactic|
  simp [gateEq, rowFixL, rowFix, rowAdvL, rowAdv, ValueSchema.value] at $h:ident)


theorem S_sum_one_line (hw : c.Sat w) (elems : List (AssignedValue n × ZMod n))
    (constant : Option (ZMod n)) :
    S c (sum_with_constant_in_one_line elems constant)
      (fun r => w r.cell = constant.getD 0 + sumW w elems) := by
  unfold sum_with_constant_in_one_line
  refine S.bind_rassert fun hlen => ?_
  replace hlen : elems.length < 5 := by simpa using hlen
  by_cases he : elems = []
  · subst he; exact S.bind_panic
  rw [if_neg (by simpa using he)]
  refine S.bind (S_one_line_with_last hw (by simp; omega)) fun cells => S.pure ?_
  rintro ⟨r, rfl, f, -⟩
  have hg := f.gate
  have hk : ∀ k (hk : k < elems.length), w ⟨.base, k, r⟩ = w (elems[k]).1.cell := fun k hk =>
    f.copy k (elems[k]).1 (elems[k]).2 (by simp [hk])
  rcases elems with _ | ⟨a, _ | ⟨b, _ | ⟨d, _ | ⟨e, _ | ⟨_, _⟩⟩⟩⟩⟩
  · exact absurd rfl he
  · have h0 := hk 0 (by simp)
    row_simp_at hg
    simp only [List.getElem_cons_zero] at h0
    simp only [sumW_cons, sumW_nil]
    linear_combination -hg + a.2 * h0
  · have h0 := hk 0 (by simp)
    have h1 := hk 1 (by simp)
    row_simp_at hg
    simp only [List.getElem_cons_zero, List.getElem_cons_succ] at h0 h1
    simp only [sumW_cons, sumW_nil]
    linear_combination -hg + a.2 * h0 + b.2 * h1
  · have h0 := hk 0 (by simp)
    have h1 := hk 1 (by simp)
    have h2 := hk 2 (by simp)
    row_simp_at hg
    simp only [List.getElem_cons_zero, List.getElem_cons_succ] at h0 h1 h2
    simp only [sumW_cons, sumW_nil]
    linear_combination -hg + a.2 * h0 + b.2 * h1 + d.2 * h2
  · have h0 := hk 0 (by simp)
    have h1 := hk 1 (by simp)
    have h2 := hk 2 (by simp)
    have h3 := hk 3 (by simp)
    row_simp_at hg
    simp only [List.getElem_cons_zero, List.getElem_cons_succ] at h0 h1 h2 h3
    simp only [sumW_cons, sumW_nil]
    linear_combination -hg + a.2 * h0 + b.2 * h1 + d.2 * h2 + e.2 * h3
  · simp at hlen; omega

theorem S_sum_chunks (hw : c.Sat w) : ∀ (elems : List (AssignedValue n × ZMod n)) (acc : AssignedValue n),
    S c (sum_chunks acc elems) (fun r => w r.cell = w acc.cell + sumW w elems)
  | [], acc => by rw [sum_chunks]; exact S.pure (by simp)
  | [a], acc => by
    rw [sum_chunks]
    exact (S_sum_one_line hw _ _).mono fun r hr => by rw [hr]; simp; ring
  | [a, b], acc => by
    rw [sum_chunks]
    exact (S_sum_one_line hw _ _).mono fun r hr => by rw [hr]; simp; ring
  | a :: b :: d :: rest, acc => by
    rw [sum_chunks]
    refine S.bind (S_sum_one_line hw _ _) fun acc' => ?_
    refine (S_sum_chunks hw rest acc').mono fun r hr ha => ?_
    rw [hr, ha]; simp; ring

theorem S_sum (hw : c.Sat w) (elems : List (AssignedValue n × ZMod n)) (constant : Option (ZMod n)) :
    S c (sum_with_constant elems constant)
      (fun r => w r.cell = constant.getD 0 + sumW w elems) := by
  unfold sum_with_constant
  split
  · exact S_sum_one_line hw _ _
  · refine S.bind (S_sum_one_line hw _ _) fun acc => ?_
    refine (S_sum_chunks hw _ acc).mono fun r hr ha => ?_
    rw [hr, ha]
    conv_rhs => rw [← List.take_append_drop (VAR_COLUMNS - 1) elems, sumW_append]
    ring

/-! ### Completeness of sums -/

theorem C_sum_one_line (elems : List (AssignedValue n × ZMod n)) (constant : Option (ZMod n))
    (hlen : elems.length ≤ 4) (hne : elems ≠ []) (hok : H → ∀ e ∈ elems, Ok h e.1) :
    C c h H (sum_with_constant_in_one_line elems constant)
      (fun r => r.val = constant.getD 0 + sumVal elems) (fun r => Ok h r) := by
  unfold sum_with_constant_in_one_line
  refine C.bind_rassert (by simp only [decide_eq_true_eq]; show _ < 5; omega) ?_
  rw [if_neg (by simpa using hne)]
  have hsum : constant.elim (sumVal elems) (fun x => x + sumVal elems)
      = constant.getD 0 + sumVal elems := by cases constant <;> simp
  refine C.bind (C_one_line_with_last ?_ ?_ ?_ (by simpa using hlen)) fun cells hc =>
    C.pure ?_ fun hH => hH.2.2
  · rw [hsum]
    match elems, hlen, hne with
    | [a], _, _ => row_simp
    | [a, b], _, _ => row_simp; ring
    | [a, b, d], _, _ => row_simp; ring
    | [a, b, d, e], _, _ => row_simp; ring
    | _ :: _ :: _ :: _ :: _ :: _, hlen, _ => simp at hlen; omega
  · intro hH k v y hk
    simp only [List.getElem?_map, Option.map_eq_some_iff] at hk
    obtain ⟨e, he, hev⟩ := hk
    simp only [Prod.mk.injEq, ValueSchema.assigned.injEq] at hev
    rw [← hev.1]
    exact hok hH e (List.mem_of_getElem? he)
  · intro _ v hv; simp at hv
  · obtain ⟨r, rfl⟩ := hc
    exact hsum

theorem C_sum_chunks : ∀ (elems : List (AssignedValue n × ZMod n)) (acc : AssignedValue n) (H : Prop),
    (H → ∀ e ∈ elems, Ok h e.1) → (H → Ok h acc) →
    C c h H (sum_chunks acc elems) (fun r => r.val = acc.val + sumVal elems) (fun r => Ok h r)
  | [], acc, H, _, ha => by rw [sum_chunks]; exact C.pure (by simp) ha
  | [a], acc, H, hok, ha => by
    rw [sum_chunks]
    refine (C_sum_one_line _ _ (by simp) (by simp) ?_).mono (fun r hr => by rw [hr]; simp; ring)
      fun _ _ _ hq => hq
    intro hH e he
    simp only [List.mem_cons, List.not_mem_nil, or_false] at he
    rcases he with rfl | rfl
    · exact hok hH _ (by simp)
    · exact ha hH
  | [a, b], acc, H, hok, ha => by
    rw [sum_chunks]
    refine (C_sum_one_line _ _ (by simp) (by simp) ?_).mono (fun r hr => by rw [hr]; simp; ring)
      fun _ _ _ hq => hq
    intro hH e he
    simp only [List.mem_cons, List.not_mem_nil, or_false] at he
    rcases he with rfl | rfl | rfl
    · exact hok hH _ (by simp)
    · exact hok hH _ (by simp)
    · exact ha hH
  | a :: b :: d :: rest, acc, H, hok, ha => by
    rw [sum_chunks]
    refine C.bind (C_sum_one_line _ _ (by simp) (by simp) ?_) fun acc' ha' => ?_
    · intro hH e he
      simp only [List.mem_cons, List.not_mem_nil, or_false] at he
      rcases he with rfl | rfl | rfl | rfl
      · exact hok hH _ (by simp)
      · exact hok hH _ (by simp)
      · exact hok hH _ (by simp)
      · exact ha hH
    · refine (C_sum_chunks rest acc' _ (fun hH e he => hok hH.1 e (by simp [he])) fun hH => hH.2).mono
        (fun r hr => ?_) fun _ _ _ hq => hq
      rw [hr, ha']; simp; ring

theorem C_sum (elems : List (AssignedValue n × ZMod n)) (constant : Option (ZMod n))
    (hne : elems ≠ []) (hok : H → ∀ e ∈ elems, Ok h e.1) :
    C c h H (sum_with_constant elems constant)
      (fun r => r.val = constant.getD 0 + sumVal elems) (fun r => Ok h r) := by
  unfold sum_with_constant
  split
  · rename_i hl
    change elems.length < 5 at hl
    exact C_sum_one_line _ _ (by omega) hne hok
  · rename_i hl
    simp only [not_lt] at hl
    refine C.bind (C_sum_one_line _ _ (by simp) ?_ ?_) fun acc ha => ?_
    · intro h0
      have := congrArg List.length h0
      simp at this
      exact hne this
    · exact fun hH e he => hok hH e (List.mem_of_mem_take he)
    · refine (C_sum_chunks _ acc _ (fun hH e he => hok hH.1 e (List.mem_of_mem_drop he))
        fun hH => hH.2).mono (fun r hr => ?_) fun _ _ _ hq => hq
      rw [hr, ha]
      conv_rhs => rw [← List.take_append_drop (VAR_COLUMNS - 1) elems, sumVal_append]
      ring

/-! ### Simple sums -/

theorem S_add (hw : c.Sat w) (a b : AssignedValue n) :
    S c (add a b) (fun r => w r.cell = w a.cell + w b.cell) :=
  (S_sum hw _ _).mono fun r hr => by rw [hr]; simp

theorem C_add {a b : AssignedValue n} (hok : H → Ok h a ∧ Ok h b) :
    C c h H (add a b) (fun r => r.val = a.val + b.val) (fun r => Ok h r) :=
  (C_sum _ _ (by simp) (fun hH e he => by
    simp only [List.mem_cons, List.not_mem_nil, or_false] at he
    rcases he with rfl | rfl
    exacts [(hok hH).1, (hok hH).2])).mono (fun r hr => by rw [hr]; simp) fun _ _ _ hq => hq

theorem S_add_constant (hw : c.Sat w) (a : AssignedValue n) (k : ZMod n) :
    S c (add_constant a k) (fun r => w r.cell = w a.cell + k) :=
  (S_sum hw _ _).mono fun r hr => by rw [hr]; simp [add_comm]

theorem C_add_constant {a : AssignedValue n} {k : ZMod n} (hok : H → Ok h a) :
    C c h H (add_constant a k) (fun r => r.val = a.val + k) (fun r => Ok h r) :=
  (C_sum _ _ (by simp) (fun hH e he => by
    simp only [List.mem_cons, List.not_mem_nil, or_false] at he
    rcases he with rfl
    exact hok hH)).mono (fun r hr => by rw [hr]; simp [add_comm]) fun _ _ _ hq => hq

theorem S_sub (hw : c.Sat w) (a b : AssignedValue n) :
    S c (sub a b) (fun r => w r.cell = w a.cell - w b.cell) :=
  (S_sum hw _ _).mono fun r hr => by rw [hr]; simp [sub_eq_add_neg]

theorem C_sub {a b : AssignedValue n} (hok : H → Ok h a ∧ Ok h b) :
    C c h H (sub a b) (fun r => r.val = a.val - b.val) (fun r => Ok h r) :=
  (C_sum _ _ (by simp) (fun hH e he => by
    simp only [List.mem_cons, List.not_mem_nil, or_false] at he
    rcases he with rfl | rfl
    exacts [(hok hH).1, (hok hH).2])).mono (fun r hr => by rw [hr]; simp [sub_eq_add_neg])
    fun _ _ _ hq => hq

theorem S_not (hw : c.Sat w) (a : AssignedValue n) :
    S c (not a) (fun r => w r.cell = 1 - w a.cell) :=
  (S_sum hw _ _).mono fun r hr => by rw [hr]; simp [sub_eq_add_neg]

theorem C_not {a : AssignedValue n} (hok : H → Ok h a) :
    C c h H (not a) (fun r => r.val = 1 - a.val) (fun r => Ok h r) :=
  (C_sum _ _ (by simp) (fun hH e he => by
    simp only [List.mem_cons, List.not_mem_nil, or_false] at he
    rcases he with rfl
    exact hok hH)).mono (fun r hr => by rw [hr]; simp [sub_eq_add_neg]) fun _ _ _ hq => hq

/-! ### One-row operations -/

/-- Side conditions "all assigned values of the row are recorded faithfully" for concrete rows. -/
macro "row_ok" hok:ident : tactic => `(tactic|
  (intro hH k v y hk
   have hok' := $hok hH
   rcases k with _ | _ | _ | _ | _ | k <;> simp at hk
   all_goals (have hv := hk.1; subst hv)
   all_goals (first | exact hok' | exact hok'.1 | exact hok'.2 | exact hok'.2.1 | exact hok'.2.2)))

theorem S_mul (hw : c.Sat w) (a b : AssignedValue n) :
    S c (mul a b) (fun r => w r.cell = w a.cell * w b.cell) := by
  unfold mul
  refine S.bind (S_one_line_with_last hw) fun cells => S.pure ?_
  rintro ⟨r, rfl, f, -⟩
  have hg := f.gate
  have h0 := f.copy 0 a 0 rfl
  have h1 := f.copy 1 b 0 rfl
  row_simp_at hg
  show w ⟨.base, 4, r⟩ = _
  rw [← h0, ← h1]
  linear_combination -hg

theorem C_mul {a b : AssignedValue n} (hok : H → Ok h a ∧ Ok h b) :
    C c h H (mul a b) (fun r => r.val = a.val * b.val) (fun r => Ok h r) := by
  unfold mul
  refine C.bind (C_one_line_with_last ?_ ?_ (fun _ v hv => by simp at hv)) fun cells hc =>
    C.pure ?_ fun hH => hH.2.2
  · row_simp
  · row_ok hok
  · obtain ⟨r, rfl⟩ := hc; rfl

theorem S_mul_add_constant (hw : c.Sat w) (a b : AssignedValue n) (k : ZMod n) :
    S c (mul_add_constant a b k) (fun r => w r.cell = w a.cell * w b.cell + k) := by
  unfold mul_add_constant
  refine S.bind (S_one_line_with_last hw) fun cells => S.pure ?_
  rintro ⟨r, rfl, f, -⟩
  have hg := f.gate
  have h0 := f.copy 0 a 0 rfl
  have h1 := f.copy 1 b 0 rfl
  row_simp_at hg
  show w ⟨.base, 4, r⟩ = _
  rw [← h0, ← h1]
  linear_combination -hg

theorem C_mul_add_constant {a b : AssignedValue n} {k : ZMod n} (hok : H → Ok h a ∧ Ok h b) :
    C c h H (mul_add_constant a b k) (fun r => r.val = a.val * b.val + k) (fun r => Ok h r) := by
  unfold mul_add_constant
  refine C.bind (C_one_line_with_last ?_ ?_ (fun _ v hv => by simp at hv)) fun cells hc =>
    C.pure ?_ fun hH => hH.2.2
  · row_simp; try ring
  · row_ok hok
  · obtain ⟨r, rfl⟩ := hc; rfl

theorem S_mul_add (hw : c.Sat w) (a b : AssignedValue n) (k : ZMod n) (d : AssignedValue n) (l : ZMod n) :
    S c (mul_add a b k d l) (fun r => w r.cell = w a.cell * w b.cell * k + w d.cell * l) := by
  unfold mul_add
  refine S.bind (S_one_line_with_last hw) fun cells => S.pure ?_
  rintro ⟨r, rfl, f, -⟩
  have hg := f.gate
  have h0 := f.copy 0 a 0 rfl
  have h1 := f.copy 1 b 0 rfl
  have h2 := f.copy 2 d l rfl
  row_simp_at hg
  show w ⟨.base, 4, r⟩ = _
  rw [← h0, ← h1, ← h2]
  linear_combination -hg

theorem C_mul_add {a b d : AssignedValue n} {k l : ZMod n} (hok : H → Ok h a ∧ Ok h b ∧ Ok h d) :
    C c h H (mul_add a b k d l) (fun r => r.val = a.val * b.val * k + d.val * l) (fun r => Ok h r) := by
  unfold mul_add
  refine C.bind (C_one_line_with_last ?_ ?_ (fun _ v hv => by simp at hv)) fun cells hc =>
    C.pure ?_ fun hH => hH.2.2
  · row_simp; try ring
  · row_ok hok
  · obtain ⟨r, rfl⟩ := hc; rfl

theorem S_invert_unsafe (hw : c.Sat w) (a : AssignedValue n) :
    S c (invert_unsafe a) (fun r => w a.cell * w r.cell = 1) := by
  unfold invert_unsafe
  refine S.bind_unwrap fun b _ => S.bind (S_one_line hw) fun cells => ?_
  refine S.index.mono ?_
  rintro x hx ⟨r, rfl, f⟩
  simp [lineCells] at hx
  subst hx
  have hg := f.gate
  have h0 := f.copy 0 a 0 rfl
  row_simp_at hg
  rw [← h0]
  linear_combination hg

theorem C_invert_unsafe [Fact n.Prime] {a : AssignedValue n} (ha : a.val ≠ 0) (hok : H → Ok h a) :
    C c h H (invert_unsafe a) (fun r => r.val = a.val⁻¹) (fun r => Ok h r) := by
  unfold invert_unsafe
  refine C.bind_unwrap (a := a.val⁻¹) (by simp [invert?, ha]) ?_
  refine C.bind (C_one_line ?_ ?_) fun cells hc => ?_
  · row_simp; rw [mul_inv_cancel₀ ha]; ring
  · row_ok hok
  · obtain ⟨r, rfl⟩ := hc
    refine (C.index (a := ⟨⟨.base, 1, r⟩, a.val⁻¹⟩) rfl).mono (fun x hx => by rw [hx]) ?_
    intro x hH hx _
    exact hH.2 1 x (by rw [hx]; rfl)

theorem S_invert (hw : c.Sat w) (a : AssignedValue n) :
    S c (invert a) (fun r => w a.cell * w r.1.cell = 0 ∧ w a.cell * w r.2.cell + w r.1.cell = 1) := by
  unfold invert
  refine S.bind (S_one_line hw) fun cells => ?_
  refine S.bind_index fun d hd => ?_
  refine S.bind (S_one_line_with_last hw) fun cells' => ?_
  refine S.bind_index fun e he => S.pure ?_
  rintro ⟨r', rfl, f', hl⟩ ⟨r, rfl, f⟩
  simp [lineCells] at hd he
  subst hd he
  have hg := f.gate
  have h0 := f.copy 0 a 0 rfl
  have hg' := f'.gate
  have h0' := f'.copy 0 a 0 rfl
  have hl' := hl _ rfl
  row_simp_at hg
  row_simp_at hg'
  simp only at hl' ⊢
  rw [h0'] at hg'
  rw [h0] at hg
  constructor
  · rw [hl']; linear_combination hg
  · linear_combination hg'

theorem C_invert [Fact n.Prime] {a : AssignedValue n} (hok : H → Ok h a) :
    C c h H (invert a) (fun r => r.1.val = (if a.val = 0 then 1 else 0) ∧ r.2.val = a.val⁻¹)
      (fun r => Ok h r.1 ∧ Ok h r.2) := by
  unfold invert
  have hinv : (invert? a.val).getD 0 = a.val⁻¹ := by
    unfold invert?; split
    · simp_all
    · simp
  rw [hinv]
  refine C.bind (C_one_line ?_ ?_) fun cells hc => ?_
  · row_simp
    by_cases ha : a.val = 0
    · simp [ha]
    · simp [mul_inv_cancel₀ ha]
  · row_ok hok
  obtain ⟨r, rfl⟩ := hc
  refine C.bind_index (a := ⟨⟨.base, 1, r⟩, 1 - a.val * a.val⁻¹⟩) rfl ?_
  refine C.bind (C_one_line_with_last ?_ ?_ ?_) fun cells hc => ?_
  · row_simp; ring
  · intro hH k v y hk
    rcases k with _ | _ | _ | k <;> simp at hk
    obtain ⟨rfl, -⟩ := hk
    exact hok hH.1
  · intro hH v hv
    simp at hv
    subst hv
    exact hH.2 1 _ rfl
  obtain ⟨r', rfl⟩ := hc
  refine C.bind_index (a := ⟨⟨.base, 1, r'⟩, a.val⁻¹⟩) rfl ?_
  refine C.pure ⟨?_, rfl⟩ fun hH => ⟨hH.2.2, hH.2.1 1 _ rfl⟩
  show 1 - a.val * a.val⁻¹ = _
  split
  · simp [*]
  · rw [mul_inv_cancel₀ ‹_›]; simp

theorem S_is_zero [Fact n.Prime] (hw : c.Sat w) (a : AssignedValue n) :
    S c (is_zero a) (fun r => w r.cell = if w a.cell = 0 then 1 else 0) := by
  unfold is_zero
  refine S.bind (S_invert hw a) fun r => S.pure ?_
  rintro ⟨h1, h2⟩
  split
  · simp_all
  · rcases mul_eq_zero.1 h1 with h | h
    · contradiction
    · exact h

theorem C_is_zero [Fact n.Prime] {a : AssignedValue n} (hok : H → Ok h a) :
    C c h H (is_zero a) (fun r => r.val = if a.val = 0 then 1 else 0) (fun r => Ok h r) := by
  unfold is_zero
  exact C.bind (C_invert hok) fun r hr => C.pure hr.1 fun hH => hH.2.1

theorem S_div_unsafe (hw : c.Sat w) (a b : AssignedValue n) :
    S c (div_unsafe a b) (fun r => w b.cell * w r.cell = w a.cell) := by
  unfold div_unsafe
  refine S.bind_unwrap fun i _ => S.bind (S_one_line_with_last hw) fun cells => ?_
  refine S.index.mono ?_
  rintro x hx ⟨r, rfl, f, hl⟩
  simp [lineCells] at hx
  subst hx
  have hg := f.gate
  have h0 := f.copy 0 b 0 rfl
  have hl' := hl _ rfl
  row_simp_at hg
  rw [← h0, ← hl']
  linear_combination hg

theorem C_div_unsafe [Fact n.Prime] {a b : AssignedValue n} (hb : b.val ≠ 0) (hok : H → Ok h b ∧ Ok h a) :
    C c h H (div_unsafe a b) (fun r => r.val = a.val / b.val) (fun r => Ok h r) := by
  unfold div_unsafe
  refine C.bind_unwrap (a := b.val⁻¹) (by simp [invert?, hb]) ?_
  refine C.bind (C_one_line_with_last ?_ ?_ ?_) fun cells hc => ?_
  · row_simp; rw [← mul_assoc, mul_inv_cancel₀ hb]; ring
  · row_ok hok
  · intro hH v hv
    simp at hv
    subst hv
    exact (hok hH).2
  · obtain ⟨r, rfl⟩ := hc
    refine (C.index (a := ⟨⟨.base, 1, r⟩, b.val⁻¹ * a.val⟩) rfl).mono
      (fun x hx => by rw [hx]; simp [div_eq_mul_inv, mul_comm]) ?_
    intro x hH hx _
    exact hH.2.1 1 x (by rw [hx]; rfl)

theorem S_assign_constant (hw : c.Sat w) (v : ZMod n) :
    S c (assign_constant v) (fun r => w r.cell = v) := by
  unfold assign_constant one_line_add
  refine S.bind (S_one_line hw) fun cells => ?_
  refine S.index.mono ?_
  rintro x hx ⟨r, rfl, f⟩
  simp [lineCells] at hx
  subst hx
  have hg := f.gate
  row_simp_at hg
  linear_combination -hg

theorem C_assign_constant {v : ZMod n} :
    C c h H (assign_constant v) (fun r => r.val = v) (fun r => Ok h r) := by
  unfold assign_constant one_line_add
  refine C.bind (C_one_line ?_ ?_) fun cells hc => ?_
  · row_simp
  · intro hH k v y hk
    rcases k with _ | _ | k <;> simp at hk
  · obtain ⟨r, rfl⟩ := hc
    refine (C.index (a := ⟨⟨.base, 0, r⟩, v⟩) rfl).mono (fun x hx => by rw [hx]) ?_
    intro x hH hx _
    exact hH.2 0 x (by rw [hx]; rfl)

theorem S_assign (hw : c.Sat w) (v : ZMod n) : S c (assign v) (fun _ => True) := by
  unfold assign one_line_add
  refine S.bind (S_one_line hw) fun cells => ?_
  exact S.index.mono fun _ _ _ => trivial

theorem C_assign {v : ZMod n} : C c h H (assign v) (fun r => r.val = v) (fun r => Ok h r) := by
  unfold assign one_line_add
  refine C.bind (C_one_line ?_ ?_) fun cells hc => ?_
  · row_simp
  · intro hH k v y hk
    rcases k with _ | _ | k <;> simp at hk
  · obtain ⟨r, rfl⟩ := hc
    refine (C.index (a := ⟨⟨.base, 0, r⟩, v⟩) rfl).mono (fun x hx => by rw [hx]) ?_
    intro x hH hx _
    exact hH.2 0 x (by rw [hx]; rfl)

/-- What `assign_bit` really guarantees: `x * (1 - x') = 0` for a second, unconstrained cell `x'` of the
same row. -/
theorem S_assign_bit (hw : c.Sat w) (v : ZMod n) :
    S c (assign_bit v) (fun r => ∃ row, r.cell = ⟨.base, 0, row⟩ ∧ row < c.usable ∧
      (∀ k, c.baseFix row k = (rowFix [pairU v 1, pairU v 0] none [-1] none k).getD 0) ∧
      w ⟨.base, 0, row⟩ * (1 - w ⟨.base, 1, row⟩) = 0) := by
  unfold assign_bit
  refine S.bind (S_one_line hw) fun cells => ?_
  refine S.index.mono ?_
  rintro x hx ⟨r, rfl, f⟩
  simp [lineCells] at hx
  subst hx
  have hg := f.gate
  row_simp_at hg
  exact ⟨r, rfl, f.usable, f.fixed, by linear_combination hg⟩

theorem C_assign_bit {v : ZMod n} (hv : v = 0 ∨ v = 1) :
    C c h H (assign_bit v) (fun r => r.val = v) (fun r => Ok h r) := by
  unfold assign_bit
  refine C.bind (C_one_line ?_ ?_) fun cells hc => ?_
  · rcases hv with rfl | rfl <;> row_simp
  · intro hH k v y hk
    rcases k with _ | _ | _ | k <;> simp at hk
  · obtain ⟨r, rfl⟩ := hc
    refine (C.index (a := ⟨⟨.base, 0, r⟩, v⟩) rfl).mono (fun x hx => by rw [hx]) ?_
    intro x hH hx _
    exact hH.2 0 x (by rw [hx]; rfl)

theorem S_assert_equal (hw : c.Sat w) (a b : AssignedValue n) :
    S c (assert_equal a b) (fun _ => w a.cell = w b.cell) := by
  unfold assert_equal one_line_add
  refine S.bind (S_one_line hw) fun cells => S.pure ?_
  rintro ⟨r, rfl, f⟩
  have hg := f.gate
  have h0 := f.copy 0 a (-1) rfl
  have h1 := f.copy 1 b 1 rfl
  row_simp_at hg
  rw [← h0, ← h1]
  linear_combination -hg

theorem C_assert_equal {a b : AssignedValue n} (hab : a.val = b.val) (hok : H → Ok h a ∧ Ok h b) :
    C c h H (assert_equal a b) (fun _ => True) (fun _ => True) := by
  unfold assert_equal one_line_add
  refine C.bind (C_one_line ?_ ?_) fun cells hc => C.pure trivial fun _ => trivial
  · row_simp; rw [hab]; ring
  · row_ok hok

theorem S_assert_constant (hw : c.Sat w) (a : AssignedValue n) (b : ZMod n) :
    S c (assert_constant a b) (fun _ => w a.cell = b) := by
  unfold assert_constant one_line_add
  refine S.bind_rassert fun _ => S.bind (S_one_line hw) fun cells => S.pure ?_
  rintro ⟨r, rfl, f⟩
  have hg := f.gate
  have h0 := f.copy 0 a (-1) rfl
  row_simp_at hg
  rw [← h0]
  linear_combination -hg

theorem C_assert_constant {a : AssignedValue n} {b : ZMod n} (hab : a.val = b) (hok : H → Ok h a) :
    C c h H (assert_constant a b) (fun _ => True) (fun _ => True) := by
  unfold assert_constant one_line_add
  refine C.bind_rassert (by simpa using hab) ?_
  refine C.bind (C_one_line ?_ ?_) fun cells hc => C.pure trivial fun _ => trivial
  · row_simp; rw [hab]; ring
  · row_ok hok

theorem S_assert_bit [Fact n.Prime] (hw : c.Sat w) (a : AssignedValue n) :
    S c (assert_bit a) (fun _ => w a.cell = 0 ∨ w a.cell = 1) := by
  unfold assert_bit
  refine S.bind (S_one_line hw) fun cells => S.pure ?_
  rintro ⟨r, rfl, f⟩
  have hg := f.gate
  have h0 := f.copy 0 a 1 rfl
  have h1 := f.copy 1 a 0 rfl
  row_simp_at hg
  rw [h0, h1] at hg
  have : w a.cell * (1 - w a.cell) = 0 := by linear_combination hg
  rcases mul_eq_zero.1 this with h | h
  · exact Or.inl h
  · exact Or.inr (by linear_combination -h)

theorem C_assert_bit {a : AssignedValue n} (ha : a.val = 0 ∨ a.val = 1) (hok : H → Ok h a) :
    C c h H (assert_bit a) (fun _ => True) (fun _ => True) := by
  unfold assert_bit
  refine C.bind (C_one_line ?_ ?_) fun cells hc => C.pure trivial fun _ => trivial
  · rcases ha with ha | ha <;> row_simp <;> rw [ha] <;> ring
  · row_ok hok

theorem S_and (hw : c.Sat w) (a b : AssignedValue n) :
    S c (and a b) (fun r => w r.cell = w a.cell * w b.cell) := S_mul hw a b

theorem C_and {a b : AssignedValue n} (hok : H → Ok h a ∧ Ok h b) :
    C c h H (and a b) (fun r => r.val = a.val * b.val) (fun r => Ok h r) := C_mul hok

theorem S_not_and (hw : c.Sat w) (a b : AssignedValue n) :
    S c (not_and a b) (fun r => w r.cell = (1 - w a.cell) * w b.cell) := by
  unfold not_and
  refine S.bind (S_one_line_with_last hw) fun cells => S.pure ?_
  rintro ⟨r, rfl, f, -⟩
  have hg := f.gate
  have h0 := f.copy 0 a 0 rfl
  have h1 := f.copy 1 b 1 rfl
  row_simp_at hg
  show w ⟨.base, 4, r⟩ = _
  rw [← h0, ← h1]
  linear_combination -hg

theorem C_not_and {a b : AssignedValue n} (hok : H → Ok h a ∧ Ok h b) :
    C c h H (not_and a b) (fun r => r.val = (1 - a.val) * b.val) (fun r => Ok h r) := by
  unfold not_and
  refine C.bind (C_one_line_with_last ?_ ?_ (fun _ v hv => by simp at hv)) fun cells hc =>
    C.pure ?_ fun hH => hH.2.2
  · row_simp; try ring
  · row_ok hok
  · obtain ⟨r, rfl⟩ := hc; simp [ValueSchema.value]; ring

theorem S_or (hw : c.Sat w) (a b : AssignedValue n) :
    S c (or a b) (fun r => w r.cell = w a.cell + w b.cell - w a.cell * w b.cell) := by
  unfold or
  refine S.bind (S_one_line_with_last hw) fun cells => S.pure ?_
  rintro ⟨r, rfl, f, -⟩
  have hg := f.gate
  have h0 := f.copy 0 a 1 rfl
  have h1 := f.copy 1 b 1 rfl
  row_simp_at hg
  show w ⟨.base, 4, r⟩ = _
  rw [← h0, ← h1]
  linear_combination -hg

theorem C_or {a b : AssignedValue n} (hok : H → Ok h a ∧ Ok h b) :
    C c h H (or a b) (fun r => r.val = a.val + b.val - a.val * b.val) (fun r => Ok h r) := by
  unfold or
  refine C.bind (C_one_line_with_last ?_ ?_ (fun _ v hv => by simp at hv)) fun cells hc =>
    C.pure ?_ fun hH => hH.2.2
  · row_simp; try ring
  · row_ok hok
  · obtain ⟨r, rfl⟩ := hc; rfl

theorem S_xor (hw : c.Sat w) (a b : AssignedValue n) :
    S c (xor a b) (fun r => w r.cell = w a.cell + w b.cell - 2 * w a.cell * w b.cell) := by
  unfold xor
  refine S.bind (S_one_line_with_last hw) fun cells => S.pure ?_
  rintro ⟨r, rfl, f, -⟩
  have hg := f.gate
  have h0 := f.copy 0 a 1 rfl
  have h1 := f.copy 1 b 1 rfl
  row_simp_at hg
  show w ⟨.base, 4, r⟩ = _
  rw [← h0, ← h1]
  linear_combination -hg

theorem C_xor {a b : AssignedValue n} (hok : H → Ok h a ∧ Ok h b) :
    C c h H (xor a b) (fun r => r.val = a.val + b.val - 2 * a.val * b.val) (fun r => Ok h r) := by
  unfold xor
  refine C.bind (C_one_line_with_last ?_ ?_ (fun _ v hv => by simp at hv)) fun cells hc =>
    C.pure ?_ fun hH => hH.2.2
  · row_simp; try ring
  · row_ok hok
  · obtain ⟨r, rfl⟩ := hc; simp [ValueSchema.value]; ring

theorem S_xnor (hw : c.Sat w) (a b : AssignedValue n) :
    S c (xnor a b) (fun r => w r.cell = 1 - w a.cell - w b.cell + 2 * w a.cell * w b.cell) := by
  unfold xnor
  refine S.bind (S_one_line_with_last hw) fun cells => S.pure ?_
  rintro ⟨r, rfl, f, -⟩
  have hg := f.gate
  have h0 := f.copy 0 a (-1) rfl
  have h1 := f.copy 1 b (-1) rfl
  row_simp_at hg
  show w ⟨.base, 4, r⟩ = _
  rw [← h0, ← h1]
  linear_combination -hg

theorem C_xnor {a b : AssignedValue n} (hok : H → Ok h a ∧ Ok h b) :
    C c h H (xnor a b) (fun r => r.val = 1 - a.val - b.val + 2 * a.val * b.val) (fun r => Ok h r) := by
  unfold xnor
  refine C.bind (C_one_line_with_last ?_ ?_ (fun _ v hv => by simp at hv)) fun cells hc =>
    C.pure ?_ fun hH => hH.2.2
  · row_simp; try ring
  · row_ok hok
  · obtain ⟨r, rfl⟩ := hc; simp [ValueSchema.value]; ring

theorem S_bisec (hw : c.Sat w) (d a b : AssignedValue n) :
    S c (bisec d a b) (fun r => w r.cell = w d.cell * w a.cell + (1 - w d.cell) * w b.cell) := by
  unfold bisec
  refine S.bind (S_one_line_with_last hw) fun cells => S.pure ?_
  rintro ⟨r, rfl, f, -⟩
  have hg := f.gate
  have h0 := f.copy 0 d 0 rfl
  have h1 := f.copy 1 a 0 rfl
  have h2 := f.copy 2 d 0 rfl
  have h3 := f.copy 3 b 1 rfl
  row_simp_at hg
  show w ⟨.base, 4, r⟩ = _
  rw [h0, h1, h2, h3] at hg
  linear_combination -hg

theorem C_bisec {d a b : AssignedValue n} (hok : H → Ok h d ∧ Ok h a ∧ Ok h b) :
    C c h H (bisec d a b) (fun r => r.val = d.val * a.val + (1 - d.val) * b.val) (fun r => Ok h r) := by
  unfold bisec
  refine C.bind (C_one_line_with_last ?_ ?_ (fun _ v hv => by simp at hv)) fun cells hc =>
    C.pure ?_ fun hH => hH.2.2
  · row_simp; try ring
  · row_ok hok
  · obtain ⟨r, rfl⟩ := hc; rfl

theorem S_assert_true (hw : c.Sat w) (a : AssignedValue n) :
    S c (assert_true a) (fun _ => w a.cell = 1) :=
  S.bind_rassert fun _ => S_assert_constant hw a 1

theorem C_assert_true {a : AssignedValue n} (ha : a.val = 1) (hok : H → Ok h a) :
    C c h H (assert_true a) (fun _ => True) (fun _ => True) :=
  C.bind_rassert (by simpa using ha) (C_assert_constant ha hok)

theorem S_assert_false (hw : c.Sat w) (a : AssignedValue n) :
    S c (assert_false a) (fun _ => w a.cell = 0) :=
  S.bind_rassert fun _ => S_assert_constant hw a 0

theorem C_assert_false {a : AssignedValue n} (ha : a.val = 0) (hok : H → Ok h a) :
    C c h H (assert_false a) (fun _ => True) (fun _ => True) :=
  C.bind_rassert (by simpa using ha) (C_assert_constant ha hok)

theorem S_try_assert_false (hw : c.Sat w) (a : AssignedValue n) :
    S c (try_assert_false a) (fun b => w a.cell = 0 ∧ b = decide (a.val = 0)) := by
  unfold try_assert_false
  exact S.bind (S_assert_constant hw a 0) fun _ => S.pure fun h => ⟨h, rfl⟩

theorem C_try_assert_false {a : AssignedValue n} (ha : a.val = 0) (hok : H → Ok h a) :
    C c h H (try_assert_false a) (fun b => b = true) (fun _ => True) := by
  unfold try_assert_false
  exact C.bind (C_assert_constant ha hok) fun _ _ => C.pure (by simpa using ha) fun _ => trivial

end Verif
