import Verif.Props.Integer
import Verif.Props.Base
import Verif.Proof.EccMath

/-!
# ECC chip, soundness
-/

namespace Verif
variable {n wm : ℕ} {info : RangeInfo n} {b : ZMod wm}

theorem Rep.of_wf {w : Advice n} {a : AssignedInteger n} (h : WF info (cv w) a) :
    Rep wm info w a (V (cv w) a : ZMod wm) := ⟨h, rfl⟩

/-- When `try_assert_false` returns, it returns `true`: the run-time assertion inside it panics otherwise. -/
theorem S_try_assert_false' {c : Circuit n} {w : Advice n} (hw : c.Sat w) (a : AssignedValue n) :
    S c (try_assert_false a) (fun r => w a.cell = 0 ∧ r = true) := by
  unfold try_assert_false assert_constant
  rw [bind_assoc]
  refine S.bind_rassert fun ha => ?_
  have ha : a.val = 0 := by simpa using ha
  have := S_assert_constant hw a 0
  unfold assert_constant at this
  rw [show decide (a.val = 0) = true by simpa using ha] at this
  refine S.bind this fun _ => S.pure fun h => ⟨h, by simpa using ha⟩

theorem BG_sound [Fact n.Prime] (h : RangeInfo.new wm n 18 6 = .ok info) {c : Circuit n} {w : Advice n}
    (hw : c.Sat w) (cond : AssignedCondition n) (a b : AssignedInteger n) :
    S c (bisec_int info cond a b) (fun r => BG (Rep wm info w) (cv w cond) a b r) :=
  (C17_bisec_int_sound h cond a b c w hw).mono fun _ hr x y ha hb => ⟨(hr x y ha hb).1, (hr x y ha hb).2.1⟩

section
variable [Fact n.Prime] (h : RangeInfo.new wm n 18 6 = .ok info) {c : Circuit n} {w : Advice n} (hw : c.Sat w)
include h hw

theorem S_lambda_nz (l : AssignedInteger n) (a b : AssignedNonZeroPoint n) :
    S c (lambda_to_point_non_zero info l a b) (fun r => ∀ x₁ y₁ x₂ : ZMod wm, Rep wm info w a.x x₁ →
      Rep wm info w a.y y₁ → Rep wm info w b.x x₂ → ∀ lv, Rep wm info w l lv →
      Rep wm info w r.x (lv ^ 2 - x₁ - x₂) ∧ Rep wm info w r.y ((x₁ - (lv ^ 2 - x₁ - x₂)) * lv - y₁)) := by
  unfold lambda_to_point_non_zero
  refine S.bind (C14_square_sound h l c w hw) fun l2 => S.bind (C12_sub_sound h _ _ c w hw) fun t =>
    S.bind (C12_sub_sound h _ _ c w hw) fun cx => S.bind (C12_sub_sound h _ _ c w hw) fun u =>
    S.bind (C14_mul_sound h _ _ c w hw) fun v => S.bind (C12_sub_sound h _ _ c w hw) fun cy => S.pure ?_
  intro hcy hv hu hcx ht hl2 x₁ y₁ x₂ h₁ h₁' h₂ lv hl
  have e1 := (ht _ _ (hl2 _ hl).1 h₁).1
  have e2 := (hcx _ _ e1 h₂).1
  have e3 := (hu _ _ h₁ e2).1
  have e4 := (hv _ _ e3 hl).1
  exact ⟨e2, (hcy _ _ e4 h₁').1⟩

theorem S_lambda (l : AssignedCurvature n) (a b : AssignedPoint n) :
    S c (lambda_to_point info l a b) (fun r => r.z = l.z ∧ ∀ x₁ y₁ x₂ : ZMod wm, Rep wm info w a.x x₁ →
      Rep wm info w a.y y₁ → Rep wm info w b.x x₂ → ∀ lv, Rep wm info w l.v lv →
      Rep wm info w r.x (lv ^ 2 - x₁ - x₂) ∧ Rep wm info w r.y ((x₁ - (lv ^ 2 - x₁ - x₂)) * lv - y₁)) :=
  S.bind (S_lambda_nz h hw _ _ _) fun _ => S.pure fun hp => ⟨rfl, hp⟩

theorem S_bisec_point (cond : AssignedCondition n) (a b : AssignedPoint n) :
    S c (bisec_point info cond a b) (fun r => BG (Rep wm info w) (cv w cond) a.x b.x r.x ∧
      BG (Rep wm info w) (cv w cond) a.y b.y r.y ∧
      cv w r.z = cv w cond * cv w a.z + (1 - cv w cond) * cv w b.z) :=
  S.bind (BG_sound h hw cond _ _) fun _ => S.bind (BG_sound h hw cond _ _) fun _ =>
    S.bind (S_bisec hw cond _ _) fun _ => S.pure fun h3 h2 h1 => ⟨h1, h2, h3⟩

theorem S_bisec_curvature (cond : AssignedCondition n) (a b : AssignedCurvature n) :
    S c (bisec_curvature info cond a b) (fun r => BG (Rep wm info w) (cv w cond) a.v b.v r.v ∧
      cv w r.z = cv w cond * cv w a.z + (1 - cv w cond) * cv w b.z) :=
  S.bind (BG_sound h hw cond _ _) fun _ => S.bind (S_bisec hw cond _ _) fun _ => S.pure fun h2 h1 => ⟨h1, h2⟩

variable [Fact wm.Prime]

theorem S_ecc_add (hb : GoodCurve b) (a : AssignedPointWithCurvature n) (q : AssignedPoint n) :
    S c (ecc_add info a q) (fun r => ∀ P Q : Pt b, KRep info w a P → PRep info w q Q → PRep info w r (P + Q)) := by
  unfold ecc_add
  refine S.bind (C12_sub_sound h a.x q.x c w hw) fun dx => S.bind (C12_sub_sound h a.y q.y c w hw) fun dy =>
    S.bind (C15_div_sound h dy dx c w hw) fun ⟨xeq, tan⟩ => S.bind (C16_is_int_zero_sound h dy c w hw) fun yeq =>
    S.bind (S_and hw xeq yeq) fun eq => S.bind (S_bisec_curvature h hw eq _ _) fun lam =>
    S.bind (S_lambda h hw lam _ _) fun p => S.bind (S_bisec_point h hw a.z q p) fun r =>
    (S_bisec_point h hw q.z a.to_point r).mono ?_
  rintro r' ⟨bx', by', bz'⟩ ⟨bx, by'', bz⟩ ⟨hlz, hp⟩ ⟨hlv, hlz'⟩ heq hyeq hdiv hdy hdx P Q
    ⟨⟨x₁, y₁, hx₁, hy₁, hP⟩, ⟨k, hk⟩, hkz, hT⟩ ⟨x₂, y₂, hx₂, hy₂, hQ⟩
  obtain ⟨d1, d2, d3, -⟩ := hdiv _ _ (hdy _ _ hy₁ hy₂).1 (hdx _ _ hx₁ hx₂).1
  rw [hlz] at bz
  exact add_math (R := Rep wm info w) (f := cv w) hb zero_ne_one hx₁ hy₁ hx₂ hy₂ hP hQ hk hkz hT ⟨d1, d2⟩
    (Rep.of_wf d3) (hyeq _ (hdy _ _ hy₁ hy₂).1) heq hlv hlz' (hp x₁ y₁ x₂ hx₁ hy₁ hx₂) bx by'' bz bx' by' bz'

theorem S_ecc_double (hb : GoodCurve b) (order : ℕ) (a : AssignedPointWithCurvature n) :
    S c (ecc_double info order a) (fun r => ∀ P : Pt b, KRep info w a P → PRep info w r (P + P)) := by
  unfold ecc_double
  refine S.bind_rassert fun _ => S.bind (S_lambda h hw a.curvature a.to_point a.to_point) fun p =>
    S.bind (S_bisec hw a.z a.z p.z) fun z => S.pure ?_
  rintro hz ⟨hpz, hp⟩ P ⟨⟨x, y, hx, hy, hP⟩, ⟨k, hk⟩, -, hT⟩
  rw [hpz] at hz
  exact double_math (R := Rep wm info w) (f := cv w) hb hP hk hT (hp x y x hx hy hx) hz

theorem S_ecc_neg' (a : AssignedPoint n) : S c (ecc_neg info a) (fun r => r.x = a.x ∧ r.z = a.z ∧
    ∀ y : ZMod wm, Rep wm info w a.y y → Rep wm info w r.y (-y)) :=
  S.bind (C12_neg_sound h a.y c w hw) fun _ => S.pure fun hy => ⟨rfl, rfl, fun _ h => (hy _ h).1⟩

theorem S_ecc_neg (a : AssignedPoint n) : S c (ecc_neg info a) (fun r => ∀ P : Pt b,
    PRep info w a P → PRep info w r (-P)) :=
  (S_ecc_neg' h hw a).mono fun r ⟨h1, h2, h3⟩ P ⟨x, y, hx, hy, hP⟩ =>
    ⟨x, -y, h1 ▸ hx, h3 _ hy, by
      rw [h2]
      rcases hP with ⟨hz, rfl⟩ | ⟨hz, hP⟩
      exacts [.inl ⟨hz, neg_zero⟩, .inr ⟨hz, hP.neg⟩]⟩

theorem S_ecc_assert_equal (p q : AssignedPoint n) : S c (ecc_assert_equal info p q) (fun _ => ∀ P Q : Pt b,
    PRep info w p P → PRep info w q Q → P = Q) := by
  unfold ecc_assert_equal
  refine S.bind (C16_is_int_equal_sound h p.x q.x c w hw) fun ex =>
    S.bind (C16_is_int_equal_sound h p.y q.y c w hw) fun ey => S.bind (S_xnor hw p.z q.z) fun ez =>
    S.bind (S_and hw ex ey) fun exy => S.bind (S_and hw exy ez) fun exyz => S.bind (S_and hw p.z q.z) fun both =>
    S.bind (S_or hw exyz both) fun r => (S_assert_true hw r).mono ?_
  rintro - hr1 hr hboth hxyz hxy hz hy hx P Q ⟨x₁, y₁, hx₁, hy₁, hP⟩ ⟨x₂, y₂, hx₂, hy₂, hQ⟩
  exact (assert_equal_math (f := cv w) zero_ne_one hP hQ (hx _ _ hx₁ hx₂) (hy _ _ hy₁ hy₂) hz hxy hxyz hboth hr).1
    hr1

theorem S_assign_identity : S c (assign_identity info) (fun r => KRep info w r (0 : Pt b) ∧
    r.x.times = 1 ∧ r.y.times = 1) := by
  unfold assign_identity
  refine S.bind (C17_constant_sound h 0 (Fact.out : wm.Prime).pos c w hw) fun zero =>
    S.bind (S_assign_constant hw 1) fun one => S.pure ?_
  rintro h1 ⟨h0, ht, -⟩
  exact ⟨⟨⟨_, _, h0, h0, .inl ⟨h1, rfl⟩⟩, ⟨_, h0⟩, .inr h1, fun x y hxy => absurd rfl hxy.ne_zero⟩, ht, ht⟩

theorem S_ecc_reduce (a : AssignedPoint n) : S c (ecc_reduce info a) (fun r => ∀ P : Pt b,
    PRep info w a P → PRep info w r P) := by
  unfold ecc_reduce
  refine S.bind (C13_reduce_sound h a.x c w hw) fun x => S.bind (C13_reduce_sound h a.y c w hw) fun y =>
    S.bind (S_assign_identity (b := b) h hw) fun i => (S_bisec_point h hw a.z i.to_point ⟨x, y, a.z⟩).mono ?_
  rintro r ⟨bx, by', bz⟩ ⟨⟨⟨u, v, hu, hv, hi⟩, -⟩, -⟩ hy hx P ⟨x₁, y₁, hx₁, hy₁, hP⟩
  have key := PG.bisec (R := Rep wm info w) (f := cv w) (p := i.to_point) (q := ⟨x, y, a.z⟩) (r := r) hu hv
    (hx _ hx₁).1 (hy _ hy₁).1 bx by' bz P
  rcases hP with ⟨hz, rfl⟩ | ⟨hz, hP⟩
  · exact key.1 hz ⟨u, v, hu, hv, hi⟩
  · exact key.2 hz ⟨x₁, y₁, (hx _ hx₁).1, (hy _ hy₁).1, .inr ⟨hz, hP⟩⟩

theorem S_tangent_slope (hb2 : (2 : ZMod wm) ≠ 0) (x y : AssignedInteger n) :
    S c (tangent_slope info x y) (fun r => ∀ u v : ZMod wm, Rep wm info w x u → Rep wm info w y v →
      TangentRep info w ⟨r.2, r.1⟩ u v ∧ (w r.1.cell = 0 ∨ w r.1.cell = 1) ∧ WF info (cv w) r.2 ∧ r.2.times = 1) := by
  unfold tangent_slope
  refine S.bind (C14_square_sound h x c w hw) fun x2 =>
    S.bind (C12_small_mul_sound h x2 3 (by norm_num) c w hw) fun nu =>
    S.bind (C12_small_mul_sound h y 2 (by norm_num) c w hw) fun de => (C15_div_sound h nu de c w hw).mono ?_
  rintro ⟨z, v⟩ hdiv hde hnu hx2 p q hp hq
  obtain ⟨d1, d2, d3, d4⟩ := hdiv _ _ (hnu _ (hx2 _ hp).1).1 (hde _ hq).1
  have e : (p ^ 2 * ((3 : ℕ) : ZMod wm)) / (q * ((2 : ℕ) : ZMod wm)) = 3 * p ^ 2 / (2 * q) := by
    push_cast
    rw [mul_comm (p ^ 2), mul_comm q]
  rw [e] at d2
  have hne : q ≠ 0 → q * ((2 : ℕ) : ZMod wm) ≠ 0 := fun h => mul_ne_zero h (by exact_mod_cast hb2)
  refine ⟨⟨fun h0 => d1 (by rw [h0, zero_mul]), fun h0 => d2 (hne h0)⟩, ?_, d3, d4⟩
  by_cases h0 : q = 0
  exacts [.inr (d1 (by rw [h0, zero_mul])), .inl (d2 (hne h0)).1]

theorem S_to_point_with_curvature (hb : GoodCurve b) (a : AssignedPoint n) :
    S c (to_point_with_curvature info a) (fun r => r.to_point = a ∧ ∀ P : Pt b,
      PRep info w a P → KRep info w r P) := by
  unfold to_point_with_curvature
  refine S.bind (S_tangent_slope h hw hb.two_ne a.x a.y) fun ⟨z, v⟩ => S.pure ?_
  rintro ht
  refine ⟨rfl, fun P hP => ⟨hP, ?_⟩⟩
  obtain ⟨x, y, hx, hy, hP⟩ := hP
  obtain ⟨t1, t2, t3, -⟩ := ht _ _ hx hy
  refine ⟨⟨_, Rep.of_wf t3⟩, t2, fun x' y' hxy => ?_⟩
  rcases hP with ⟨-, rfl⟩ | ⟨-, hP⟩
  · exact absurd rfl hxy.ne_zero
  · obtain ⟨rfl, rfl⟩ := hP.unique hxy
    exact t1

theorem S_ecc_reduce_with_curvature (hb : GoodCurve b) (a : AssignedPoint n) :
    S c (ecc_reduce_with_curvature info a) (fun r => ∀ P : Pt b, PRep info w a P → KRep info w r P) := by
  unfold ecc_reduce_with_curvature
  refine S.bind (S_ecc_reduce (b := b) h hw a) fun a' => S.bind (S_tangent_slope h hw hb.two_ne a'.x a'.y) fun ⟨z, v⟩ =>
    S.bind (C13_reduce_sound h v c w hw) fun v' => S.pure ?_
  intro hv' ht hr P hP
  have hP := hr P hP
  refine ⟨hP, ?_⟩
  obtain ⟨x, y, hx, hy, hP⟩ := hP
  obtain ⟨t1, t2, t3, -⟩ := ht _ _ hx hy
  refine ⟨⟨_, (hv' _ (Rep.of_wf t3)).1⟩, t2, fun x' y' hxy => ?_⟩
  rcases hP with ⟨-, rfl⟩ | ⟨-, hP⟩
  · exact absurd rfl hxy.ne_zero
  · obtain ⟨rfl, rfl⟩ := hP.unique hxy
    exact ⟨t1.1, fun h0 => ⟨(t1.2 h0).1, (hv' _ (t1.2 h0).2).1⟩⟩

/-! ### Assignment -/

theorem S_assign_constant_point (cc : Option (ℕ × ℕ)) (P : Pt b) (hc : ConstCoords cc P) :
    S c (assign_constant_point info cc) (fun r => PRep info w r P) := by
  unfold assign_constant_point
  have hlt : cc.elim 0 Prod.fst < wm ∧ cc.elim 0 Prod.snd < wm := by
    rcases hc with ⟨rfl, -⟩ | ⟨x, y, rfl, hx, hy, -⟩
    exacts [⟨(Fact.out : wm.Prime).pos, (Fact.out : wm.Prime).pos⟩, ⟨hx, hy⟩]
  refine S.bind (C17_constant_sound h _ hlt.1 c w hw) fun x => S.bind (C17_constant_sound h _ hlt.2 c w hw) fun y =>
    S.bind (S_assign_constant hw _) fun z => S.pure ?_
  intro hz hy hx
  refine ⟨_, _, hx.1, hy.1, ?_⟩
  rcases hc with ⟨rfl, rfl⟩ | ⟨x, y, rfl, -, -, hP⟩
  exacts [.inl ⟨by simpa using hz, rfl⟩, .inr ⟨by simpa using hz, hP⟩]

theorem S_assign_point' (bb : ℕ) (hbb : bb < wm) (cc : Option (ℕ × ℕ)) :
    S c (assign_point info bb cc) (fun r => ∃ x y : ZMod wm, Rep wm info w r.x x ∧ Rep wm info w r.y y ∧
      (w r.z.cell = 1 ∨ y ^ 2 = x ^ 3 + bb) ∧ (c.BitRowsConsistent w → w r.z.cell = 0 ∨ w r.z.cell = 1)) := by
  unfold assign_point
  refine S.bind (C11_assign_w_sound h _ c w hw) fun x => S.bind (C11_assign_w_sound h _ c w hw) fun y =>
    S.bind (P := fun z => c.BitRowsConsistent w → w z.cell = 0 ∨ w z.cell = 1)
      (S.imp (fun hb => C06_partial _ c w hw hb) (S_assign_bit hw _).trivial_of)
      fun z => S.bind (C17_constant_sound h bb hbb c w hw) fun bv =>
    S.bind (C14_square_sound h y c w hw) fun y2 => S.bind (C14_square_sound h x c w hw) fun x2 =>
    S.bind (C14_mul_sound h x2 x c w hw) fun x3 => S.bind (C12_add_sound h x3 bv c w hw) fun right =>
    S.bind (C16_is_int_equal_sound h y2 right c w hw) fun eq => S.bind (S_or hw eq z) fun r =>
    S.bind (S_assert_true hw r) fun _ => S.pure ?_
  intro hr hor heq hright hx3 hx2 hy2 hbv hz hy hx
  have rx := Rep.of_wf (wm := wm) hx.1
  have ry := Rep.of_wf (wm := wm) hy.1
  have := heq _ _ (hy2 _ ry).1 (hright _ _ (hx3 _ _ (hx2 _ rx).1 rx).1 hbv.1).1
  refine ⟨_, _, rx, ry, ?_, hz⟩
  by_cases e : (V (cv w) y : ZMod wm) ^ 2 = (V (cv w) x : ZMod wm) ^ 2 * (V (cv w) x : ZMod wm) + bb
  · right
    rw [e]; ring
  · left
    rw [hor, this.2 e] at hr
    linear_combination hr

theorem S_assign_point (hb : GoodCurve b) (hbits : c.BitRowsConsistent w) (bb : ℕ) (hbb : bb < wm)
    (hbe : (bb : ZMod wm) = b) (cc : Option (ℕ × ℕ)) :
    S c (assign_point info bb cc) (fun r => ∃ P : Pt b, PRep info w r P) :=
  (S_assign_point' h hw bb hbb cc).mono fun r ⟨x, y, hx, hy, hc, hz⟩ => by
    rcases hz hbits with hz | hz
    · rcases hc with hc | hc
      · rw [hz] at hc
        exact absurd hc zero_ne_one
      · obtain ⟨P, hP⟩ := HasCoords.of_eqn hb (hbe ▸ hc)
        exact ⟨P, x, y, hx, hy, .inr ⟨hz, hP⟩⟩
    · exact ⟨0, x, y, hx, hy, .inl ⟨hz, rfl⟩⟩

theorem S_assign_non_zero_point (hb : GoodCurve b) (bb : ℕ) (hbb : bb < wm) (hbe : (bb : ZMod wm) = b)
    (cc : Option (ℕ × ℕ)) :
    S c (assign_non_zero_point info bb cc) (fun r => (∃ P : Pt b, NRep info w r P) ∧ r.x.times = 1 ∧
      r.y.times = 1) := by
  unfold assign_non_zero_point
  refine S.bind_unwrap fun ⟨cx, cy⟩ _ => S.bind (C11_assign_w_sound h _ c w hw) fun x =>
    S.bind (C11_assign_w_sound h _ c w hw) fun y => S.bind (C17_constant_sound h bb hbb c w hw) fun bv =>
    S.bind (C14_square_sound h y c w hw) fun y2 => S.bind (C14_square_sound h x c w hw) fun x2 =>
    S.bind (C14_mul_sound h x2 x c w hw) fun x3 => S.bind (C12_add_sound h x3 bv c w hw) fun right =>
    S.bind (C16_assert_int_equal_sound h y2 right c w hw) fun _ => S.pure ?_
  intro heq hright hx3 hx2 hy2 hbv hy hx
  have rx := Rep.of_wf (wm := wm) hx.1
  have ry := Rep.of_wf (wm := wm) hy.1
  have e := heq _ _ (hy2 _ ry).1 (hright _ _ (hx3 _ _ (hx2 _ rx).1 rx).1 hbv.1).1
  obtain ⟨P, hP⟩ := HasCoords.of_eqn hb (x := (V (cv w) x : ZMod wm)) (y := (V (cv w) y : ZMod wm)) (by
      rw [e, hbe]; ring)
  exact ⟨⟨P, _, _, rx, ry, hP⟩, hx.2.1, hy.2.1⟩

/-! ### Affine points -/

theorem S_ecc_add_unsafe (a q : AssignedNonZeroPoint n) :
    S c (ecc_add_unsafe info a q) (fun r => ∀ P Q : Pt b, NRep info w a P → NRep info w q Q →
      P ≠ Q ∧ P ≠ -Q ∧ ∃ p, r = .ok p ∧ NRep info w p (P + Q)) := by
  unfold ecc_add_unsafe
  refine S.bind (C12_sub_sound h a.x q.x c w hw) fun dx => S.bind (C12_sub_sound h a.y q.y c w hw) fun dy =>
    S.bind (C15_div_sound h dy dx c w hw) fun ⟨xeq, tan⟩ => S.bind (S_try_assert_false' hw xeq) fun succeed =>
    S.bind (S_lambda_nz h hw tan a q) fun p => S.pure ?_
  rintro hp ⟨hz, hs⟩ hdiv hdy hdx P Q ⟨x₁, y₁, hx₁, hy₁, hP⟩ ⟨x₂, y₂, hx₂, hy₂, hQ⟩
  obtain ⟨d1, d2, d3, -⟩ := hdiv _ _ (hdy _ _ hy₁ hy₂).1 (hdx _ _ hx₁ hx₂).1
  have hne : x₁ ≠ x₂ := by
    intro e
    rw [d1 (sub_eq_zero.2 e)] at hz
    exact one_ne_zero hz
  refine ⟨?_, ?_, p, by simp [hs], ?_⟩
  · rintro rfl
    exact hne (hP.unique hQ).1
  · rintro rfl
    exact hne (hP.unique hQ.neg).1
  · obtain ⟨-, d2⟩ := d2 (sub_ne_zero.2 hne)
    obtain ⟨p1, p2⟩ := hp _ _ _ hx₁ hy₁ hx₂ _ d2
    exact ⟨_, _, p1, p2, hP.add hQ hne rfl⟩

theorem S_ecc_double_unsafe (hb : GoodCurve b) (a : AssignedNonZeroPoint n) :
    S c (ecc_double_unsafe info a) (fun r => ∀ P : Pt b, NRep info w a P →
      P + P ≠ 0 ∧ ∃ p, r = .ok p ∧ NRep info w p (P + P)) := by
  unfold ecc_double_unsafe
  refine S.bind (S_tangent_slope h hw hb.two_ne a.x a.y) fun ⟨z, v⟩ => S.bind (S_try_assert_false' hw z) fun succeed =>
    S.bind (S_lambda_nz h hw v a a) fun p => S.pure ?_
  rintro hp ⟨hz, hs⟩ ht P ⟨x, y, hx, hy, hP⟩
  obtain ⟨⟨t1, t2⟩, -⟩ := ht _ _ hx hy
  have hy0 : y ≠ 0 := by
    intro e
    have := t1 e
    rw [show w _ = 0 from hz] at this
    exact zero_ne_one this
  obtain ⟨p1, p2⟩ := hp _ _ _ hx hy hx _ (t2 hy0).2
  have hd := hP.double hb hy0 rfl
  exact ⟨hd.ne_zero, p, by simp [hs], _, _, p1, p2, hd⟩

end

end Verif
