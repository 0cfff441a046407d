import Verif.Proof.Rel

/-!
# Every operation of the chips describes the same circuit for all witnesses
-/

namespace Verif
variable {n : ℕ} {α β γ : Type} {st : Prop}

/-! ## Shapes of arguments -/

/-- A term of a linear combination: its coefficient is part of the circuit. -/
structure ElemShape (st : Prop) (p p' : AssignedValue n × ZMod n) : Prop where
  val : sh st p.1 p'.1
  coeff : p.2 = p'.2

structure TermShape (st : Prop) (l l' : MulTerm n) : Prop where
  a : sh st l.a l'.a
  b : sh st l.b l'.b
  c : sh st l.c l'.c
  coeff : l.c_coeff = l'.c_coeff
instance : Shaped (MulTerm n) := ⟨TermShape⟩

theorem elem_mk {a a' : AssignedValue n} (k : ZMod n) (h : sh st a a') : ElemShape st (a, k) (a', k) := ⟨h, rfl⟩
theorem arg_A {a a' : AssignedValue n} (k : ZMod n) (h : sh st a a') : ArgShape st (pairA a k) (pairA a' k) :=
  ⟨.assigned h, rfl⟩
theorem arg_U (a a' k : ZMod n) : ArgShape st (pairU a k) (pairU a' k) := ⟨.unassigned _ _, rfl⟩

theorem sh_nil [Shaped α] : sh st ([] : List α) [] := .nil
theorem sh_cons [Shaped α] {a a' : α} {l l' : List α} (h : sh st a a') (hl : sh st l l') :
    sh st (a :: l) (a' :: l') := .cons h hl
theorem sh_append [Shaped α] {l l' r r' : List α} (h : sh st l l') (h' : sh st r r') : sh st (l ++ r) (l' ++ r') :=
  List.rel_append h h'
theorem sh_pair [Shaped α] [Shaped β] {a a' : α} {b b' : β} (h : sh st a a') (h' : sh st b b') :
    sh st (a, b) (a', b') := ⟨h, h'⟩
theorem sh_left [Shaped α] [Shaped β] {a a' : α} {b b' : β} (h : sh st (a, b) (a', b')) : sh st a a' := h.1
theorem sh_right [Shaped α] [Shaped β] {a a' : α} {b b' : β} (h : sh st (a, b) (a', b')) : sh st b b' := h.2
theorem sh_fst [Shaped α] [Shaped β] {x x' : α × β} (h : sh st x x') : sh st x.1 x'.1 := h.1
theorem sh_snd [Shaped α] [Shaped β] {x x' : α × β} (h : sh st x x') : sh st x.2 x'.2 := h.2
theorem sh_unit (a b : Unit) : sh st a b := trivial
theorem sh_ok [Shaped α] {a a' : α} (h : sh st a a') :
    sh st (.ok a : Except UnsafeError α) (.ok a') := ⟨a, a', rfl, rfl, h⟩

theorem sh_int {l l' : List (AssignedValue n)} {v v' : AssignedValue n} {k k' : ℕ} (h1 : sh st l l') (h2 : sh st v v')
    (h3 : k = k') : sh st (⟨l, v, k⟩ : AssignedInteger n) ⟨l', v', k'⟩ := ⟨h1, h2, h3⟩
theorem sh_limbs {a a' : AssignedInteger n} (h : sh st a a') : sh st a.limbs_le a'.limbs_le := IntShape.limbs h
theorem sh_native {a a' : AssignedInteger n} (h : sh st a a') : sh st a.native a'.native := IntShape.native h
theorem sh_times {a a' : AssignedInteger n} (h : sh st a a') : a.times = a'.times := IntShape.times h
theorem sh_max {a a' b b' : AssignedInteger n} (h : sh st a a') (h' : sh st b b') :
    max a.times b.times = max a'.times b'.times := by rw [sh_times h, sh_times h']
theorem sh_add_times {a a' b b' : AssignedInteger n} (h : sh st a a') (h' : sh st b b') :
    a.times + b.times = a'.times + b'.times := by rw [sh_times h, sh_times h']

theorem sh_add_succ {a a' b b' : AssignedInteger n} (h : sh st a a') (h' : sh st b b') :
    a.times + b.times + 1 = a'.times + b'.times + 1 := by rw [sh_times h, sh_times h']
theorem sh_succ {a a' : AssignedInteger n} (h : sh st a a') : a.times + 1 = a'.times + 1 := by rw [sh_times h]
theorem sh_mul_times {a a' : AssignedInteger n} (b : ℕ) (h : sh st a a') : a.times * b = a'.times * b := by
  rw [sh_times h]
theorem elems_zip {l l' : List (AssignedValue n)} (c : List (ZMod n)) (h : sh st l l') :
    List.Forall₂ (ElemShape st) (l.zip c) (l'.zip c) := by
  induction h generalizing c with
  | nil => exact .nil
  | cons ha _ ih =>
    cases c with
    | nil => exact .nil
    | cons k c => exact .cons ⟨ha, rfl⟩ (ih c)
theorem elems_map {l l' : List (AssignedValue n)} (k : ZMod n) (h : sh st l l') :
    List.Forall₂ (ElemShape st) (l.map fun v => (v, k)) (l'.map fun v => (v, k)) := by
  induction h with
  | nil => exact .nil
  | cons ha _ ih => exact .cons ⟨ha, rfl⟩ ih

theorem sh_term {a a' b b' c c' : AssignedValue n} (k : ZMod n) (h1 : sh st a a') (h2 : sh st b b') (h3 : sh st c c') :
    sh st (⟨a, b, c, k⟩ : MulTerm n) ⟨a', b', c', k⟩ := ⟨h1, h2, h3, rfl⟩

theorem sh_curv {v v' : AssignedInteger n} {z z' : AssignedValue n} (h : sh st v v') (h' : sh st z z') :
    sh st (⟨v, z⟩ : AssignedCurvature n) ⟨v', z'⟩ := ⟨h, h'⟩
theorem sh_cv {a a' : AssignedCurvature n} (h : sh st a a') : sh st a.v a'.v := CurvShape.v h
theorem sh_cz {a a' : AssignedCurvature n} (h : sh st a a') : sh st a.z a'.z := CurvShape.z h
theorem sh_point {x x' y y' : AssignedInteger n} {z z' : AssignedValue n} (h : sh st x x') (h' : sh st y y')
    (h'' : sh st z z') : sh st (⟨x, y, z⟩ : AssignedPoint n) ⟨x', y', z'⟩ := ⟨h, h', h''⟩
theorem sh_px {a a' : AssignedPoint n} (h : sh st a a') : sh st a.x a'.x := PointShape.x h
theorem sh_py {a a' : AssignedPoint n} (h : sh st a a') : sh st a.y a'.y := PointShape.y h
theorem sh_pz {a a' : AssignedPoint n} (h : sh st a a') : sh st a.z a'.z := PointShape.z h
theorem sh_nz {x x' y y' : AssignedInteger n} (h : sh st x x') (h' : sh st y y') :
    sh st (⟨x, y⟩ : AssignedNonZeroPoint n) ⟨x', y'⟩ := ⟨h, h'⟩
theorem sh_nx {a a' : AssignedNonZeroPoint n} (h : sh st a a') : sh st a.x a'.x := NZShape.x h
theorem sh_ny {a a' : AssignedNonZeroPoint n} (h : sh st a a') : sh st a.y a'.y := NZShape.y h
theorem sh_pc {x x' y y' : AssignedInteger n} {z z' : AssignedValue n} {c c' : AssignedCurvature n} (h : sh st x x')
    (h' : sh st y y') (h'' : sh st z z') (hc : sh st c c') :
    sh st (⟨x, y, z, c⟩ : AssignedPointWithCurvature n) ⟨x', y', z', c'⟩ := ⟨h, h', h'', hc⟩
theorem sh_pcx {a a' : AssignedPointWithCurvature n} (h : sh st a a') : sh st a.x a'.x := PointCShape.x h
theorem sh_pcy {a a' : AssignedPointWithCurvature n} (h : sh st a a') : sh st a.y a'.y := PointCShape.y h
theorem sh_pcz {a a' : AssignedPointWithCurvature n} (h : sh st a a') : sh st a.z a'.z := PointCShape.z h
theorem sh_pcc {a a' : AssignedPointWithCurvature n} (h : sh st a a') : sh st a.curvature a'.curvature :=
  PointCShape.curvature h
theorem sh_to_point {a a' : AssignedPointWithCurvature n} (h : sh st a a') : sh st a.to_point a'.to_point :=
  ⟨sh_pcx h, sh_pcy h, sh_pcz h⟩

theorem Runs2.bindP {m m' : M n (α × γ)} {k k' : α × γ → M n β} {R : α × γ → α × γ → Prop} {R' : β → β → Prop}
    (h : Runs2 st m m' R) (hk : ∀ a b a' b', R (a, b) (a', b') → Runs2 st (k (a, b)) (k' (a', b')) R') :
    Runs2 st (m >>= k) (m' >>= k') R' := h.bind fun x x' hx => hk x.1 x.2 x'.1 x'.2 hx

theorem Runs2.bindS [Shaped α] [Shaped γ] {m m' : M n (α × γ)} {k k' : α × γ → M n β} {R' : β → β → Prop}
    (h : Runs2 st m m' (sh st))
    (hk : ∀ a b a' b', sh st a a' → sh st b b' → Runs2 st (k (a, b)) (k' (a', b')) R') :
    Runs2 st (m >>= k) (m' >>= k') R' := h.bind fun x x' hx => hk x.1 x.2 x'.1 x'.2 hx.1 hx.2

theorem Runs2.ite {p : Prop} [Decidable p] {m m' k k' : M n α} {R : α → α → Prop} (h : Runs2 st m m' R)
    (h' : Runs2 st k k' R) : Runs2 st (if p then m else k) (if p then m' else k') R := by
  split
  · exact h
  · exact h'

/-- Close a goal about shapes of arguments. -/
macro "shape" : tactic => `(tactic|
  repeat' first
    | with_reducible assumption
    | with_reducible rfl
    | with_reducible exact trivial
    | with_reducible exact arg_U _ _ _
    | with_reducible exact sh_unit _ _
    | with_reducible exact sh_nil
    | with_reducible exact List.Forall₂.nil
    | with_reducible apply List.Forall₂.cons
    | with_reducible apply arg_A
    | with_reducible apply elem_mk
    | with_reducible apply sh_cons
    | with_reducible apply sh_append
    | with_reducible apply sh_ok
    | (with_reducible apply sh_limbs)
    | (with_reducible apply sh_native)
    | (with_reducible apply sh_cv)
    | (with_reducible apply sh_cz)
    | (with_reducible apply sh_px)
    | (with_reducible apply sh_py)
    | (with_reducible apply sh_pz)
    | (with_reducible apply sh_nx)
    | (with_reducible apply sh_ny)
    | (with_reducible apply sh_pcx)
    | (with_reducible apply sh_pcy)
    | (with_reducible apply sh_pcz)
    | (with_reducible apply sh_pcc)
    | (with_reducible apply sh_to_point)
    | (with_reducible apply sh_left; with_reducible assumption)
    | (with_reducible apply sh_right; with_reducible assumption)
    | (with_reducible apply sh_fst; with_reducible assumption)
    | (with_reducible apply sh_snd; with_reducible assumption)
    | with_reducible apply sh_pair
    | with_reducible apply sh_int
    | with_reducible apply sh_term
    | with_reducible apply sh_curv
    | with_reducible apply sh_point
    | with_reducible apply sh_nz
    | with_reducible apply sh_pc
    | with_reducible apply elems_zip
    | with_reducible apply elems_map
    | (with_reducible apply sh_add_times <;> with_reducible assumption)
    | (with_reducible apply sh_add_succ <;> with_reducible assumption)
    | (with_reducible apply sh_succ; with_reducible assumption)
    | (with_reducible apply sh_mul_times; with_reducible assumption)
    | (with_reducible apply sh_max <;> with_reducible assumption)
    | (with_reducible apply sh_times; with_reducible assumption))

/-- Decompose a goal about two runs along binds, case distinctions and known lemmas. -/
macro "rel" : tactic => `(tactic|
  repeat' first
    | (with_reducible intro h; subst h)
    | with_reducible intro _
    | with_reducible assumption
    | with_reducible apply Runs2.pure
    | with_reducible exact Runs2.panic (p' := .assertion)
    | with_reducible exact Runs2.panic'
    | (with_reducible apply Runs2.bindS)
    | (with_reducible apply Runs2.bindP)
    | with_reducible apply Runs2.bind
    | with_reducible apply rel_tryB
    | with_reducible exact rel_index_eq _ _
    | with_reducible exact rel_index_any (α := ℕ) _ _ _ _
    | with_reducible exact rel_unwrap_eq _
    | with_reducible apply rel_mapM_same
    | head_lemma rel
    | with_reducible apply rel_mapM
    | with_reducible apply Runs2.ite
    | (shape; done)
    | dsimp only)

theorem rel_one_line_add {l l' : List (ValueSchema n × ZMod n)} (hl : List.Forall₂ (ArgShape st) l l')
    (constant : Option (ZMod n)) : Runs2 st (one_line_add l constant) (one_line_add l' constant) (sh st) := by
  unfold one_line_add; rel

theorem rel_sum_with_constant_in_one_line {elems elems' : List (AssignedValue n × ZMod n)}
    (h_elems : List.Forall₂ (ElemShape st) elems elems') (constant : Option (ZMod n)) :
    Runs2 st (sum_with_constant_in_one_line elems constant) (sum_with_constant_in_one_line elems' constant) (sh st) := by
  unfold sum_with_constant_in_one_line
  have h : List.Forall₂ (ArgShape st) (elems.map fun e => pairA e.1 e.2) (elems'.map fun e => pairA e.1 e.2) := by
    induction h_elems with
    | nil => exact .nil
    | cons h _ ih => exact .cons ⟨.assigned h.val, h.coeff⟩ ih
  refine (rel_rassert _ _).bind fun _ _ _ => ?_
  cases h_elems with
  | nil => exact Runs2.panic (p' := .assertion)
  | cons ha ht =>
    simp only [List.isEmpty_cons, Bool.false_eq_true, if_false]
    rel

theorem rel_sum_chunks {l l' : List (AssignedValue n × ZMod n)} (h : List.Forall₂ (ElemShape st) l l')
    {acc acc' : AssignedValue n} (h_acc : sh st acc acc') : Runs2 st (sum_chunks acc l) (sum_chunks acc' l') (sh st) := by
  induction hl : l.length using Nat.strong_induction_on generalizing l l' acc acc' with
  | _ k ih =>
    rcases h with _ | ⟨h1, _ | ⟨h2, _ | ⟨h3, h⟩⟩⟩
    · unfold sum_chunks; exact Runs2.pure h_acc
    · unfold sum_chunks
      exact rel_sum_with_constant_in_one_line (.cons h1 (.cons (elem_mk 1 h_acc) .nil)) _
    · unfold sum_chunks
      exact rel_sum_with_constant_in_one_line (.cons h1 (.cons h2 (.cons (elem_mk 1 h_acc) .nil))) _
    · unfold sum_chunks
      refine (rel_sum_with_constant_in_one_line (.cons h1 (.cons h2 (.cons h3 (.cons (elem_mk 1 h_acc) .nil)))) _).bind
        fun acc acc' ha => ih _ ?_ h ha rfl
      subst hl
      simp only [List.length_cons]
      omega

theorem rel_sum_with_constant {elems elems' : List (AssignedValue n × ZMod n)}
    (h : List.Forall₂ (ElemShape st) elems elems') (constant : Option (ZMod n)) :
    Runs2 st (sum_with_constant elems constant) (sum_with_constant elems' constant) (sh st) := by
  unfold sum_with_constant
  rw [h.length_eq]
  exact Runs2.ite (rel_sum_with_constant_in_one_line h _)
    ((rel_sum_with_constant_in_one_line (List.forall₂_take _ h) _).bind fun _ _ ha =>
      rel_sum_chunks (List.forall₂_drop _ h) ha)

theorem rel_add {a a' : AssignedValue n} (h_a : sh st a a') {b b' : AssignedValue n} (h_b : sh st b b') :
    Runs2 st (add a b) (add a' b') (sh st) := by
  unfold add; rel

theorem rel_add_constant {a a' : AssignedValue n} (h_a : sh st a a') (c : ZMod n) :
    Runs2 st (add_constant a c) (add_constant a' c) (sh st) := by
  unfold add_constant; rel

theorem rel_sub {a a' : AssignedValue n} (h_a : sh st a a') {b b' : AssignedValue n} (h_b : sh st b b') :
    Runs2 st (sub a b) (sub a' b') (sh st) := by
  unfold sub; rel

theorem rel_mul {a a' : AssignedValue n} (h_a : sh st a a') {b b' : AssignedValue n} (h_b : sh st b b') :
    Runs2 st (mul a b) (mul a' b') (sh st) := by
  unfold mul; rel

theorem rel_mul_add_constant {a a' : AssignedValue n} (h_a : sh st a a') {b b' : AssignedValue n} (h_b : sh st b b') (c : ZMod n) :
    Runs2 st (mul_add_constant a b c) (mul_add_constant a' b' c) (sh st) := by
  unfold mul_add_constant; rel

theorem rel_mul_add {a a' : AssignedValue n} (h_a : sh st a a') {b b' : AssignedValue n} (h_b : sh st b b') (ab_coeff : ZMod n) {c c' : AssignedValue n} (h_c : sh st c c') (c_coeff : ZMod n) :
    Runs2 st (mul_add a b ab_coeff c c_coeff) (mul_add a' b' ab_coeff c' c_coeff) (sh st) := by
  unfold mul_add; rel

theorem rel_mul_add_lines {l l' : List (MulTerm n)} (h : sh st l l') (first : Bool) (t t' : ZMod n) :
    Runs2 st (mul_add_lines first t l) (mul_add_lines first t' l') (fun _ _ => True) := by
  induction h generalizing first t t' with
  | nil => unfold mul_add_lines; exact Runs2.pure trivial
  | cons ha _ ih =>
    unfold mul_add_lines
    rw [TermShape.coeff ha]
    refine (rel_one_line_with_last (.cons (arg_A _ (TermShape.a ha)) (.cons (arg_A _ (TermShape.b ha))
      (.cons (arg_A _ (TermShape.c ha)) .nil))) ?_ _ _ _).bind fun _ _ _ => ih _ _ _
    cases first <;> exact arg_U _ _ _

theorem rel_mul_add_with_next_line {ls ls' : List (MulTerm n)} (h : sh st ls ls') :
    Runs2 st (mul_add_with_next_line ls) (mul_add_with_next_line ls') (sh st) := by
  unfold mul_add_with_next_line
  refine (rel_rassert _ _).bind fun _ _ _ => ?_
  rcases h with _ | ⟨ha, _ | ⟨hb, h⟩⟩
  · refine (rel_mul_add_lines sh_nil true 0 0).bind ?_
    rel
  · dsimp only
    rw [TermShape.coeff ha]
    exact rel_mul_add (TermShape.a ha) (TermShape.b ha) _ (TermShape.c ha) _
  · refine (rel_mul_add_lines (sh_cons ha (sh_cons hb h)) true 0 0).bind ?_
    rel

theorem rel_invert_unsafe {a a' : AssignedValue n} (h_a : sh st a a') :
    Runs2 st (invert_unsafe a) (invert_unsafe a') (sh st) := by
  unfold invert_unsafe; rel

theorem rel_invert {a a' : AssignedValue n} (h_a : sh st a a') :
    Runs2 st (invert a) (invert a') (sh st) := by
  unfold invert; rel

theorem rel_is_zero {a a' : AssignedValue n} (h_a : sh st a a') :
    Runs2 st (is_zero a) (is_zero a') (sh st) := by
  unfold is_zero; rel

theorem rel_div_unsafe {a a' : AssignedValue n} (h_a : sh st a a') {b b' : AssignedValue n} (h_b : sh st b b') :
    Runs2 st (div_unsafe a b) (div_unsafe a' b') (sh st) := by
  unfold div_unsafe; rel

theorem rel_assign_constant (v : ZMod n) :
    Runs2 (n := n) st (assign_constant v) (assign_constant v) (sh st) := by
  unfold assign_constant; rel

theorem rel_assign (v v' : ZMod n) :
    Runs2 (n := n) st (assign v) (assign v') (sh st) := by
  unfold assign; rel

theorem rel_assign_bit (a a' : ZMod n) :
    Runs2 (n := n) st (assign_bit a) (assign_bit a') (sh st) := by
  unfold assign_bit; rel

theorem rel_assert_equal {a a' : AssignedValue n} (h_a : sh st a a') {b b' : AssignedValue n} (h_b : sh st b b') :
    Runs2 st (assert_equal a b) (assert_equal a' b') (sh st) := by
  unfold assert_equal; rel

theorem rel_assert_constant {a a' : AssignedValue n} (h_a : sh st a a') (b : ZMod n) :
    Runs2 st (assert_constant a b) (assert_constant a' b) (sh st) := by
  unfold assert_constant; rel

theorem rel_assert_bit {a a' : AssignedValue n} (h_a : sh st a a') :
    Runs2 st (assert_bit a) (assert_bit a') (sh st) := by
  unfold assert_bit; rel

theorem rel_and {a a' : AssignedCondition n} (h_a : sh st a a') {b b' : AssignedCondition n} (h_b : sh st b b') :
    Runs2 st (and a b) (and a' b') (sh st) := by
  unfold and; rel

theorem rel_not {a a' : AssignedCondition n} (h_a : sh st a a') :
    Runs2 st (not a) (not a') (sh st) := by
  unfold not; rel

theorem rel_not_and {a a' : AssignedCondition n} (h_a : sh st a a') {b b' : AssignedCondition n} (h_b : sh st b b') :
    Runs2 st (not_and a b) (not_and a' b') (sh st) := by
  unfold not_and; rel

theorem rel_or {a a' : AssignedCondition n} (h_a : sh st a a') {b b' : AssignedCondition n} (h_b : sh st b b') :
    Runs2 st (or a b) (or a' b') (sh st) := by
  unfold or; rel

theorem rel_xor {a a' : AssignedCondition n} (h_a : sh st a a') {b b' : AssignedCondition n} (h_b : sh st b b') :
    Runs2 st (xor a b) (xor a' b') (sh st) := by
  unfold xor; rel

theorem rel_xnor {a a' : AssignedCondition n} (h_a : sh st a a') {b b' : AssignedCondition n} (h_b : sh st b b') :
    Runs2 st (xnor a b) (xnor a' b') (sh st) := by
  unfold xnor; rel

theorem rel_bisec {cond cond' : AssignedCondition n} (h_cond : sh st cond cond') {a a' : AssignedValue n} (h_a : sh st a a') {b b' : AssignedValue n} (h_b : sh st b b') :
    Runs2 st (bisec cond a b) (bisec cond' a' b') (sh st) := by
  unfold bisec; rel

theorem rel_bisec_cond {cond cond' : AssignedCondition n} (h_cond : sh st cond cond') {a a' : AssignedCondition n} (h_a : sh st a a') {b b' : AssignedCondition n} (h_b : sh st b b') :
    Runs2 st (bisec_cond cond a b) (bisec_cond cond' a' b') (sh st) := by
  unfold bisec_cond; rel

theorem rel_assert_true {a a' : AssignedCondition n} (h_a : sh st a a') :
    Runs2 st (assert_true a) (assert_true a') (sh st) := by
  unfold assert_true; rel

theorem rel_assert_false {a a' : AssignedCondition n} (h_a : sh st a a') :
    Runs2 st (assert_false a) (assert_false a') (sh st) := by
  unfold assert_false; rel

theorem rel_try_assert_false {a a' : AssignedCondition n} (h_a : sh st a a') :
    Runs2 st (try_assert_false a) (try_assert_false a') (fun b b' => b = true ∧ b' = true) := by
  intro s s' r t r' t' hs e e'
  unfold try_assert_false at e e'
  obtain ⟨_, u, e1, e2⟩ := run_bind_ok.1 e
  obtain ⟨_, u', e1', e2'⟩ := run_bind_ok.1 e'
  obtain ⟨h1, h2, _⟩ := rel_assert_constant h_a 0 _ _ _ _ _ _ hs e1 e1'
  cases e2
  cases e2'
  refine ⟨h1, h2, ?_, ?_⟩
  · unfold assert_constant at e1
    obtain ⟨_, v, e3, -⟩ := run_bind_ok.1 e1
    unfold rassert at e3
    by_cases hh : a.val = 0
    · simp [hh]
    · rw [decide_eq_false hh] at e3
      cases e3
  · unfold assert_constant at e1'
    obtain ⟨_, v, e3, -⟩ := run_bind_ok.1 e1'
    unfold rassert at e3
    by_cases hh : a'.val = 0
    · simp [hh]
    · rw [decide_eq_false hh] at e3
      cases e3

theorem rel_assign_nonleading_limb (info : RangeInfo n) (bn bn' : ℕ) :
    Runs2 (n := n) st (assign_nonleading_limb info bn) (assign_nonleading_limb info bn') (sh st) := by
  unfold assign_nonleading_limb; rel

theorem rel_assign_w_ceil_leading_limb (info : RangeInfo n) (bn bn' : ℕ) :
    Runs2 (n := n) st (assign_w_ceil_leading_limb info bn) (assign_w_ceil_leading_limb info bn') (sh st) := by
  unfold assign_w_ceil_leading_limb; rel

theorem rel_assign_d_leading_limb (info : RangeInfo n) (bn bn' : ℕ) :
    Runs2 (n := n) st (assign_d_leading_limb info bn) (assign_d_leading_limb info bn') (sh st) := by
  unfold assign_d_leading_limb; rel

theorem rel_div_rem (a a' b b' : ℕ) :
    Runs2 (n := n) st (div_rem a b) (div_rem a' b') (fun _ _ => True) := by
  unfold div_rem
  split
  · exact Runs2.panic (p' := .assertion)
  · split
    · exact Runs2.panic'
    · exact Runs2.pure trivial

theorem rel_usub (a a' b b' : ℕ) :
    Runs2 (n := n) st (usub a b) (usub a' b') (fun _ _ => True) := by
  unfold usub
  split
  · split
    · exact Runs2.pure trivial
    · exact Runs2.panic'
  · exact Runs2.panic (p' := .assertion)

theorem rel_get_w_bn (info : RangeInfo n) {a a' : AssignedInteger n} (h_a : sh st a a') :
    Runs2 (n := n) st (get_w_bn info a) (get_w_bn info a') (fun _ _ => True) := by
  unfold get_w_bn; rel

theorem rel_get_w (info : RangeInfo n) {a a' : AssignedInteger n} (h_a : sh st a a') :
    Runs2 (n := n) st (get_w info a) (get_w info a') (fun _ _ => True) := by
  unfold get_w; rel

theorem rel_native_of (info : RangeInfo n) {limbs limbs' : List (AssignedValue n)} (h_limbs : sh st limbs limbs') :
    Runs2 st (native_of info limbs) (native_of info limbs') (sh st) := by
  unfold native_of; rel

theorem rel_assign_w (info : RangeInfo n) (w w' : ℕ) :
    Runs2 (n := n) st (assign_w info w) (assign_w info w') (sh st) := by
  unfold assign_w; rel

theorem rel_assign_d (info : RangeInfo n) (d d' : ℕ) :
    Runs2 (n := n) st (assign_d info d) (assign_d info d') (sh st) := by
  unfold assign_d; rel

theorem rel_mul_column (info : RangeInfo n) {a a' : AssignedInteger n} (h_a : sh st a a') {b b' : AssignedInteger n} (h_b : sh st b b') {d d' : List (AssignedValue n)} (h_d : sh st d d') (pos : ℕ) :
    Runs2 st (mul_column info a b d pos) (mul_column info a' b' d' pos) (sh st) := by
  unfold mul_column; rel

theorem rel_mul_carry (info : RangeInfo n) {u u' : AssignedValue n} (h_u : sh st u u') :
    Runs2 st (mul_carry info u) (mul_carry info u') (sh st) := by
  unfold mul_carry; rel

theorem rel_mul_carries (info : RangeInfo n) (borrow : ZMod n) {columns columns' : List (AssignedValue n)} (h_columns : sh st columns columns') {rem rem' : AssignedInteger n} (h_rem : sh st rem rem') {v v' : AssignedValue n × AssignedValue n} (h_v : sh st v v') (x0 : List ℕ) :
    Runs2 st (mul_carries info borrow columns rem v x0) (mul_carries info borrow columns' rem' v' x0) (sh st) := by
  induction x0 generalizing v v' with
  | nil => unfold mul_carries; exact Runs2.pure h_v
  | cons i is ih =>
    unfold mul_carries
    rel
    exact ih (by shape)

theorem rel_add_constraints_for_mul_equation_on_limbs (info : RangeInfo n) {a a' : AssignedInteger n} (h_a : sh st a a') {b b' : AssignedInteger n} (h_b : sh st b b') {d d' : List (AssignedValue n)} (h_d : sh st d d') {rem rem' : AssignedInteger n} (h_rem : sh st rem rem') :
    Runs2 st (add_constraints_for_mul_equation_on_limbs info a b d rem) (add_constraints_for_mul_equation_on_limbs info a' b' d' rem') (sh st) := by
  unfold add_constraints_for_mul_equation_on_limbs; rel

theorem rel_add_constraints_for_mul_equation_on_native (info : RangeInfo n) {a a' : AssignedInteger n} (h_a : sh st a a') {b b' : AssignedInteger n} (h_b : sh st b b') {d_native d_native' : AssignedValue n} (h_d_native : sh st d_native d_native') {rem rem' : AssignedInteger n} (h_rem : sh st rem rem') :
    Runs2 st (add_constraints_for_mul_equation_on_native info a b d_native rem) (add_constraints_for_mul_equation_on_native info a' b' d_native' rem') (sh st) := by
  unfold add_constraints_for_mul_equation_on_native; rel

theorem rel_reduce_limbs (info : RangeInfo n) {a a' : AssignedInteger n} (h_a : sh st a a')
    {assigned_rem assigned_rem' : AssignedInteger n} (h_assigned_rem : sh st assigned_rem assigned_rem')
    {assigned_d assigned_d' : AssignedValue n} (h_assigned_d : sh st assigned_d assigned_d') (d d' : ℕ) (rem rem' : ℕ)
    {last_v last_v' : Option (AssignedValue n)} (h_last_v : Option.Rel (sh st) last_v last_v') (x0 : List ℕ) :
    Runs2 st (reduce_limbs info a assigned_rem assigned_d d rem last_v x0)
      (reduce_limbs info a' assigned_rem' assigned_d' d' rem' last_v' x0) (sh st) := by
  induction x0 generalizing last_v last_v' with
  | nil => unfold reduce_limbs; exact Runs2.pure trivial
  | cons i is ih =>
    unfold reduce_limbs
    cases h_last_v with
    | none =>
      rel
      exact ih (.some (by assumption))
    | some h =>
      rel
      exact ih (.some (by assumption))

theorem rel_reduce (info : RangeInfo n) {a a' : AssignedInteger n} (h_a : sh st a a') :
    Runs2 st (reduce info a) (reduce info a') (sh st) := by
  unfold reduce
  rw [sh_times h_a]
  rel
  exact .none

theorem rel_conditionally_reduce (info : RangeInfo n) {a a' : AssignedInteger n} (h_a : sh st a a') :
    Runs2 st (conditionally_reduce info a) (conditionally_reduce info a') (sh st) := by
  unfold conditionally_reduce
  rw [sh_times h_a]
  rel

theorem rel_int_add (info : RangeInfo n) {a a' : AssignedInteger n} (h_a : sh st a a') {b b' : AssignedInteger n} (h_b : sh st b b') :
    Runs2 st (int_add info a b) (int_add info a' b') (sh st) := by
  unfold int_add; rel

theorem rel_int_sub (info : RangeInfo n) {a a' : AssignedInteger n} (h_a : sh st a a') {b b' : AssignedInteger n} (h_b : sh st b b') :
    Runs2 st (int_sub info a b) (int_sub info a' b') (sh st) := by
  unfold int_sub
  rw [sh_times h_b]
  rel
  exact sh_int ‹_› ‹_› (by rw [sh_times h_a])

theorem rel_int_neg (info : RangeInfo n) {a a' : AssignedInteger n} (h_a : sh st a a') :
    Runs2 st (int_neg info a) (int_neg info a') (sh st) := by
  unfold int_neg
  rw [sh_times h_a]
  rel

theorem rel_int_mul (info : RangeInfo n) {a a' : AssignedInteger n} (h_a : sh st a a') {b b' : AssignedInteger n} (h_b : sh st b b') :
    Runs2 st (int_mul info a b) (int_mul info a' b') (sh st) := by
  unfold int_mul; rel

theorem rel_is_pure_zero {a a' : AssignedInteger n} (h_a : sh st a a') :
    Runs2 st (is_pure_zero a) (is_pure_zero a') (sh st) := by
  unfold is_pure_zero; rel

theorem rel_is_pure_w_limbs (info : RangeInfo n) {a a' : AssignedInteger n} (h_a : sh st a a') {is_eq is_eq' : AssignedCondition n} (h_is_eq : sh st is_eq is_eq') (x0 : List ℕ) :
    Runs2 st (is_pure_w_limbs info a is_eq x0) (is_pure_w_limbs info a' is_eq' x0) (sh st) := by
  induction x0 generalizing is_eq is_eq' with
  | nil => unfold is_pure_w_limbs; exact Runs2.pure h_is_eq
  | cons i is ih =>
    unfold is_pure_w_limbs
    rel
    exact ih (by shape)

theorem rel_is_pure_w_modulus (info : RangeInfo n) {a a' : AssignedInteger n} (h_a : sh st a a') :
    Runs2 st (is_pure_w_modulus info a) (is_pure_w_modulus info a') (sh st) := by
  unfold is_pure_w_modulus; rel

theorem rel_is_int_zero (info : RangeInfo n) {a a' : AssignedInteger n} (h_a : sh st a a') :
    Runs2 st (is_int_zero info a) (is_int_zero info a') (sh st) := by
  unfold is_int_zero; rel

theorem rel_is_int_equal (info : RangeInfo n) {a a' : AssignedInteger n} (h_a : sh st a a') {b b' : AssignedInteger n} (h_b : sh st b b') :
    Runs2 st (is_int_equal info a b) (is_int_equal info a' b') (sh st) := by
  unfold is_int_equal; rel

set_option maxHeartbeats 2000000 in
theorem rel_int_div (info : RangeInfo n) {a a' : AssignedInteger n} (h_a : sh st a a') {b b' : AssignedInteger n} (h_b : sh st b b') :
    Runs2 st (int_div info a b) (int_div info a' b') (sh st) := by
  unfold int_div; rel

theorem rel_assign_int_constant (info : RangeInfo n) (w : ℕ) :
    Runs2 (n := n) st (assign_int_constant info w) (assign_int_constant info w) (sh st) := by
  unfold assign_int_constant
  refine (rel_mapM_same _ fun _ => rel_assign_constant _).bind fun l l' hl => ?_
  exact (rel_assign_constant _).bind fun v v' hv => Runs2.pure (sh_int hl hv rfl)

theorem rel_int_unsafe_invert (info : RangeInfo n) {x x' : AssignedInteger n} (h_x : sh st x x') :
    Runs2 st (int_unsafe_invert info x) (int_unsafe_invert info x') (sh st) := by
  unfold int_unsafe_invert
  refine (rel_assign_int_constant info 1).bind fun one one' h => ?_
  refine (rel_int_div info h h_x).bind ?_
  rintro ⟨c, v⟩ ⟨c', v'⟩ hcv
  exact (rel_assert_false (sh_left hcv)).bind fun _ _ _ => Runs2.pure (sh_right hcv)

theorem rel_assert_int_equal (info : RangeInfo n) {a a' : AssignedInteger n} (h_a : sh st a a') {b b' : AssignedInteger n} (h_b : sh st b b') :
    Runs2 st (assert_int_equal info a b) (assert_int_equal info a' b') (sh st) := by
  unfold assert_int_equal; rel

theorem rel_int_square (info : RangeInfo n) {a a' : AssignedInteger n} (h_a : sh st a a') :
    Runs2 st (int_square info a) (int_square info a') (sh st) := by
  unfold int_square; rel

theorem rel_int_mul_small_constant (info : RangeInfo n) {a a' : AssignedInteger n} (h_a : sh st a a') (b : ℕ) :
    Runs2 st (int_mul_small_constant info a b) (int_mul_small_constant info a' b) (sh st) := by
  unfold int_mul_small_constant
  rw [sh_times h_a]
  rel

theorem rel_bisec_int (info : RangeInfo n) {cond cond' : AssignedCondition n} (h_cond : sh st cond cond') {a a' : AssignedInteger n} (h_a : sh st a a') {b b' : AssignedInteger n} (h_b : sh st b b') :
    Runs2 st (bisec_int info cond a b) (bisec_int info cond' a' b') (sh st) := by
  unfold bisec_int; rel

end Verif
