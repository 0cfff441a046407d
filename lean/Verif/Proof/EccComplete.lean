import Verif.Proof.Ecc

/-!
# ECC chip, completeness
-/

namespace Verif
variable {n wm : ℕ} {info : RangeInfo n} {b : ZMod wm} {c : Circuit n} {h : Advice n} {H : Prop}

theorem ite_pair {α : Type} {p : Prop} [Decidable p] {x y : α} {A : α → Prop} (hA : A (if p then x else y)) :
    (p → A x) ∧ (¬ p → A y) :=
  ⟨fun hp => by rwa [if_pos hp] at hA, fun hp => by rwa [if_neg hp] at hA⟩

theorem BG_complete (hi : RangeInfo.new wm n 18 6 = .ok info) [Fact n.Prime] {cond : AssignedCondition n}
    {a b : AssignedInteger n} {x y : ZMod wm} (ha : HRep wm info a x) (hb : HRep wm info b y)
    (hc : cond.val = 1 ∨ cond.val = 0) (hok : H → Ok h cond ∧ OkI h a ∧ OkI h b) :
    C c h H (bisec_int info cond a b) (fun r => BG (HRep wm info) cond.val a b r ∧ r.times = max a.times b.times)
      (OkI h) := by
  refine ((C17_bisec_int_complete hi cond a b x y ha hb hc c h).weaken hok).mono ?_ fun _ _ _ q => q
  rintro r ⟨hr, ht⟩
  refine ⟨fun x' y' ha' hb' => ?_, ht⟩
  rw [← ha.eq, ← hb.eq] at hr
  rw [← ha'.eq, ← hb'.eq]
  obtain ⟨h1, h2⟩ := ite_pair hr
  exact ⟨h1, fun h0 => h2 (by rw [h0]; exact zero_ne_one)⟩

section
variable [Fact n.Prime] (hi : RangeInfo.new wm n 18 6 = .ok info)
include hi

theorem C_bisec_point {cond : AssignedCondition n} {p q : AssignedPoint n} {x y x' y' : ZMod wm}
    (hx : HRep wm info p.x x) (hy : HRep wm info p.y y) (hx' : HRep wm info q.x x') (hy' : HRep wm info q.y y')
    (hc : cond.val = 1 ∨ cond.val = 0) (hok : H → Ok h cond ∧ OkP h p ∧ OkP h q) :
    C c h H (bisec_point info cond p q) (fun r => BG (HRep wm info) cond.val p.x q.x r.x ∧
      BG (HRep wm info) cond.val p.y q.y r.y ∧ r.z.val = cond.val * p.z.val + (1 - cond.val) * q.z.val ∧
      r.x.times = max p.x.times q.x.times ∧ r.y.times = max p.y.times q.y.times) (OkP h) := by
  unfold bisec_point
  refine C.bind (BG_complete hi hx hx' hc fun hH => ⟨(hok hH).1, (hok hH).2.1.x, (hok hH).2.2.x⟩) fun rx h1 =>
    C.bind (BG_complete hi hy hy' hc fun hH => ⟨(hok hH.1).1, (hok hH.1).2.1.y, (hok hH.1).2.2.y⟩) fun ry h2 =>
    C.bind (C_bisec fun hH => ⟨(hok hH.1.1).1, (hok hH.1.1).2.1.z, (hok hH.1.1).2.2.z⟩) fun rz h3 =>
    C.pure ⟨h1.1, h2.1, h3, h1.2, h2.2⟩ fun hH => ⟨hH.1.1.2, hH.1.2, hH.2⟩

theorem C_bisec_curvature {cond : AssignedCondition n} {p q : AssignedCurvature n} {x x' : ZMod wm}
    (hx : HRep wm info p.v x) (hx' : HRep wm info q.v x')
    (hc : cond.val = 1 ∨ cond.val = 0) (hok : H → Ok h cond ∧ (OkI h p.v ∧ Ok h p.z) ∧ OkI h q.v ∧ Ok h q.z) :
    C c h H (bisec_curvature info cond p q) (fun r => BG (HRep wm info) cond.val p.v q.v r.v ∧
      r.z.val = cond.val * p.z.val + (1 - cond.val) * q.z.val ∧
      r.v.times = max p.v.times q.v.times) (fun r => OkI h r.v ∧ Ok h r.z) := by
  unfold bisec_curvature
  refine C.bind (BG_complete hi hx hx' hc fun hH => ⟨(hok hH).1, (hok hH).2.1.1, (hok hH).2.2.1⟩) fun rx h1 =>
    C.bind (C_bisec fun hH => ⟨(hok hH.1).1, (hok hH.1).2.1.2, (hok hH.1).2.2.2⟩) fun rz h3 =>
    C.pure ⟨h1.1, h3, h1.2⟩ fun hH => ⟨hH.1.2, hH.2⟩

variable (hd : info.d_bits % 108 ≠ 0)
include hd

theorem C_lambda_nz {l : AssignedInteger n} {a q : AssignedNonZeroPoint n} {lv x₁ y₁ x₂ : ZMod wm}
    (hl : HRep wm info l lv) (hx : HRep wm info a.x x₁) (hy : HRep wm info a.y y₁) (hx' : HRep wm info q.x x₂)
    (tx : a.x.times ≤ 16) (ty : a.y.times ≤ 16) (tq : q.x.times ≤ 16)
    (hok : H → OkI h l ∧ OkN h a ∧ OkI h q.x) :
    C c h H (lambda_to_point_non_zero info l a q) (fun r => HRep wm info r.x (lv ^ 2 - x₁ - x₂) ∧
      HRep wm info r.y ((x₁ - (lv ^ 2 - x₁ - x₂)) * lv - y₁) ∧ r.x.times ≤ 16 ∧ r.y.times ≤ 16) (OkN h) := by
  unfold lambda_to_point_non_zero
  refine C.bind ((C14_square_complete hi hd l _ hl c h).weaken fun hH => (hok hH).1) fun l2 h1 =>
    C.bind ((C12_sub_complete hi l2 a.x _ _ h1.1 hx (by omega) c h).weaken fun hH => ⟨hH.2, (hok hH.1).2.1.x⟩)
      fun t h2 =>
    C.bind ((C12_sub_complete hi t q.x _ _ h2.1 hx' (by omega) c h).weaken fun hH => ⟨hH.2, (hok hH.1.1).2.2⟩)
      fun cx h3 =>
    C.bind ((C12_sub_complete hi a.x cx _ _ hx h3.1 (by omega) c h).weaken fun hH =>
      ⟨(hok hH.1.1.1).2.1.x, hH.2⟩) fun u h4 =>
    C.bind ((C14_mul_complete hi hd u l _ _ h4.1 hl c h).weaken fun hH => ⟨hH.2, (hok hH.1.1.1.1).1⟩) fun v h5 =>
    C.bind ((C12_sub_complete hi v a.y _ _ h5.1 hy (by omega) c h).weaken fun hH =>
      ⟨hH.2, (hok hH.1.1.1.1.1).2.1.y⟩) fun cy h6 =>
    C.pure ⟨h3.1, h6.1, h3.2, h6.2⟩ fun hH => ⟨hH.1.1.1.2, hH.2⟩

theorem C_lambda {l : AssignedCurvature n} {a q : AssignedPoint n} {lv x₁ y₁ x₂ : ZMod wm}
    (hl : HRep wm info l.v lv) (hx : HRep wm info a.x x₁) (hy : HRep wm info a.y y₁) (hx' : HRep wm info q.x x₂)
    (tx : a.x.times ≤ 16) (ty : a.y.times ≤ 16) (tq : q.x.times ≤ 16)
    (hok : H → (OkI h l.v ∧ Ok h l.z) ∧ OkP h a ∧ OkI h q.x) :
    C c h H (lambda_to_point info l a q) (fun r => r.z = l.z ∧ HRep wm info r.x (lv ^ 2 - x₁ - x₂) ∧
      HRep wm info r.y ((x₁ - (lv ^ 2 - x₁ - x₂)) * lv - y₁) ∧ r.x.times ≤ 16 ∧ r.y.times ≤ 16) (OkP h) :=
  C.bind (C_lambda_nz hi hd (a := ⟨a.x, a.y⟩) (q := ⟨q.x, q.y⟩) hl hx hy hx' tx ty tq fun hH =>
    ⟨(hok hH).1.1, ⟨(hok hH).2.1.x, (hok hH).2.1.y⟩, (hok hH).2.2⟩) fun _ hp =>
    C.pure ⟨rfl, hp⟩ fun hH => ⟨hH.2.x, hH.2.y, (hok hH.1).1.2⟩

variable [Fact wm.Prime]

theorem C_ecc_add (hb : GoodCurve b) {a : AssignedPointWithCurvature n} {q : AssignedPoint n} {P Q : Pt b}
    (hP : HKRep info a P) (hQ : HPRep info q Q) (hok : H → OkK h a ∧ OkP h q) :
    C c h H (ecc_add info a q) (fun r => HPRep info r (P + Q)) (OkP h) := by
  obtain ⟨⟨⟨x₁, y₁, hx₁, hy₁, hP⟩, tx₁, ty₁⟩, ⟨k, hk⟩, tk, hkz, hT⟩ := hP
  obtain ⟨⟨x₂, y₂, hx₂, hy₂, hQ⟩, tx₂, ty₂⟩ := hQ
  replace tx₁ : a.x.times ≤ 16 := tx₁
  replace ty₁ : a.y.times ≤ 16 := ty₁
  replace hx₁ : HRep wm info a.x x₁ := hx₁
  replace hy₁ : HRep wm info a.y y₁ := hy₁
  unfold ecc_add
  refine C.bind ((C12_sub_complete hi a.x q.x _ _ hx₁ hx₂ (by omega) c h).weaken fun hH =>
      ⟨(hok hH).1.x, (hok hH).2.x⟩) fun dx hdx =>
    C.bind ((C12_sub_complete hi a.y q.y _ _ hy₁ hy₂ (by omega) c h).weaken fun hH =>
      ⟨(hok hH.1).1.y, (hok hH.1).2.y⟩) fun dy hdy =>
    C.bind ((C15_div_complete hi hd dy dx _ _ hdy.1 hdx.1 c h).weaken fun hH => ⟨hH.2, hH.1.2⟩)
      fun ⟨xeq, tan⟩ hdiv =>
    C.bind ((C16_is_int_zero_complete hi dy _ hdy.1 c h).weaken fun hH => hH.1.2) fun yeq hyeq =>
    C.bind (C_and fun hH => ⟨hH.1.2.1, hH.2⟩) fun eq heq => ?_
  obtain ⟨hdz, hdv, hdt⟩ := hdiv
  replace hdz : xeq.val = _ := hdz
  have hxeq : (x₁ - x₂ = 0 → xeq.val = 1) ∧ (x₁ - x₂ ≠ 0 → xeq.val = 0 ∧
      HRep wm info tan ((y₁ - y₂) / (x₁ - x₂))) :=
    ⟨fun e => by rw [hdz, if_pos e], fun e => ⟨by rw [hdz, if_neg e], hdv⟩⟩
  have hyeq' : (y₁ - y₂ = 0 → yeq.val = 1) ∧ (y₁ - y₂ ≠ 0 → yeq.val = 0) :=
    ⟨fun e => by rw [hyeq, if_pos e], fun e => by rw [hyeq, if_neg e]⟩
  have heb : eq.val = 1 ∨ eq.val = 0 := by
    rw [heq, hdz, hyeq]
    split <;> split <;> simp
  refine C.bind (C_bisec_curvature hi (q := ⟨tan, xeq⟩) hk hdv heb fun hH =>
    ⟨hH.2, ⟨(hok hH.1.1.1.1.1).1.v, (hok hH.1.1.1.1.1).1.cz⟩, hH.1.1.2.2, hH.1.1.2.1⟩) fun lam hlam => ?_
  obtain ⟨hlv, hlz, hlt⟩ := hlam
  replace hdt : tan.times = 1 := hdt
  have hl : ∃ l, HRep wm info lam.v l := by
    rcases heb with h | h
    exacts [⟨k, (hlv _ _ hk hdv).1 h⟩, ⟨_, (hlv _ _ hk hdv).2 h⟩]
  obtain ⟨l, hl⟩ := hl
  refine C.bind (C_lambda hi hd (a := a.to_point) (q := q) hl hx₁ hy₁ hx₂ tx₁ ty₁ tx₂ fun hH => ⟨hH.2,
    ⟨(hok hH.1.1.1.1.1.1).1.x, (hok hH.1.1.1.1.1.1).1.y, (hok hH.1.1.1.1.1.1).1.z⟩, (hok hH.1.1.1.1.1.1).2.x⟩)
    fun p hp => ?_
  obtain ⟨hpz, hpx, hpy, tpx, tpy⟩ := hp
  have haz : a.z.val = 1 ∨ a.z.val = 0 := by rcases hP with h | h; exacts [.inl h.1, .inr h.1]
  have hqz : q.z.val = 1 ∨ q.z.val = 0 := by rcases hQ with h | h; exacts [.inl h.1, .inr h.1]
  refine C.bind (C_bisec_point hi (p := q) (q := p) hx₂ hy₂ hpx hpy haz fun hH =>
    ⟨(hok hH.1.1.1.1.1.1.1).1.z, (hok hH.1.1.1.1.1.1.1).2, hH.2⟩) fun r hr => ?_
  obtain ⟨bx, by', bz, rtx, rty⟩ := hr
  have hr : ∃ u v, HRep wm info r.x u ∧ HRep wm info r.y v := by
    rcases haz with h | h
    exacts [⟨_, _, (bx _ _ hx₂ hpx).1 h, (by' _ _ hy₂ hpy).1 h⟩, ⟨_, _, (bx _ _ hx₂ hpx).2 h, (by' _ _ hy₂ hpy).2 h⟩]
  obtain ⟨u, v, hu, hv⟩ := hr
  refine (C_bisec_point hi (p := a.to_point) (q := r) hx₁ hy₁ hu hv hqz fun hH =>
    ⟨(hok hH.1.1.1.1.1.1.1.1).2.z, ⟨(hok hH.1.1.1.1.1.1.1.1).1.x, (hok hH.1.1.1.1.1.1.1.1).1.y,
      (hok hH.1.1.1.1.1.1.1.1).1.z⟩, hH.2⟩).mono ?_ fun _ _ _ q => q
  rintro r' ⟨bx', by'', bz', rtx', rty'⟩
  rw [hpz] at bz
  refine ⟨add_math (R := HRep wm info) (f := AssignedValue.val) hb zero_ne_one hx₁ hy₁ hx₂ hy₂ hP hQ hk hkz hT hxeq
    hdv hyeq' heq hlv hlz (px := p.x) (py := p.y) ?_ bx by' bz bx' by'' bz', ?_, ?_⟩
  · intro l' hl'
    have : l' = l := by rw [← hl'.eq, ← hl.eq]
    subst this
    exact ⟨hpx, hpy⟩
  · rw [rtx', rtx]
    show max a.x.times _ ≤ 16
    omega
  · rw [rty', rty]
    show max a.y.times _ ≤ 16
    omega

theorem C_ecc_double (hb : GoodCurve b) {order : ℕ} (ho : order % 2 = 1) {a : AssignedPointWithCurvature n}
    {P : Pt b} (hP : HKRep info a P) (hok : H → OkK h a) :
    C c h H (ecc_double info order a) (fun r => HPRep info r (P + P)) (OkP h) := by
  obtain ⟨⟨⟨x, y, hx, hy, hP⟩, tx, ty⟩, ⟨k, hk⟩, tk, hkz, hT⟩ := hP
  unfold ecc_double
  have okp : OkK h a → OkP h a.to_point := fun k => ⟨k.x, k.y, k.z⟩
  refine C.bind_rassert (by simp; omega) (C.bind (C_lambda hi hd hk hx hy hx tx ty tx fun hH =>
    ⟨⟨(hok hH).v, (hok hH).cz⟩, okp (hok hH), (hok hH).x⟩) fun p hp =>
    C.bind (C_bisec fun hH => ⟨(hok hH.1).z, (hok hH.1).z, hH.2.z⟩) fun z hz =>
    C.pure ⟨?_, hp.2.2.2.1, hp.2.2.2.2⟩ fun hH => ⟨hH.1.2.x, hH.1.2.y, hH.2⟩)
  obtain ⟨hpz, hpx, hpy, -⟩ := hp
  rw [hpz] at hz
  refine double_math (R := HRep wm info) (f := AssignedValue.val) hb hP hk hT (r := ⟨p.x, p.y, z⟩) ?_ hz
  intro l' hl'
  have : l' = k := by rw [← hl'.eq, ← hk.eq]
  subst this
  exact ⟨hpx, hpy⟩

omit hd in
theorem C_ecc_neg {a : AssignedPoint n} {P : Pt b} (hP : HPRep info a P) (hok : H → OkP h a) :
    C c h H (ecc_neg info a) (fun r => HPRep info r (-P)) (OkP h) := by
  obtain ⟨⟨x, y, hx, hy, hP⟩, tx, ty⟩ := hP
  unfold ecc_neg
  refine C.bind ((C12_neg_complete hi a.y y hy (by omega) c h).weaken fun hH => (hok hH).y) fun y' hy' =>
    C.pure ⟨⟨x, -y, hx, hy'.1, ?_⟩, tx, hy'.2⟩ fun hH => ⟨(hok hH.1).x, hH.2, (hok hH.1).z⟩
  rcases hP with ⟨hz, rfl⟩ | ⟨hz, hP⟩
  exacts [.inl ⟨hz, neg_zero⟩, .inr ⟨hz, hP.neg⟩]

omit hd in
theorem C_ecc_assert_equal {p q : AssignedPoint n} {P : Pt b} (hP : HPRep info p P) (hQ : HPRep info q P)
    (hok : H → OkP h p ∧ OkP h q) : C c h H (ecc_assert_equal info p q) (fun _ => True) (fun _ => True) := by
  obtain ⟨⟨x₁, y₁, hx₁, hy₁, hP⟩, tx₁, ty₁⟩ := hP
  obtain ⟨⟨x₂, y₂, hx₂, hy₂, hQ⟩, tx₂, ty₂⟩ := hQ
  unfold ecc_assert_equal
  refine C.bind ((C16_is_int_equal_complete hi _ _ _ _ hx₁ hx₂ (by omega) c h).weaken fun hH =>
      ⟨(hok hH).1.x, (hok hH).2.x⟩) fun ex hx =>
    C.bind ((C16_is_int_equal_complete hi _ _ _ _ hy₁ hy₂ (by omega) c h).weaken fun hH =>
      ⟨(hok hH.1).1.y, (hok hH.1).2.y⟩) fun ey hy =>
    C.bind (C_xnor fun hH => ⟨(hok hH.1.1).1.z, (hok hH.1.1).2.z⟩) fun ez hz =>
    C.bind (C_and fun hH => ⟨hH.1.1.2, hH.1.2⟩) fun exy hxy =>
    C.bind (C_and fun hH => ⟨hH.2, hH.1.2⟩) fun exyz hxyz =>
    C.bind (C_and fun hH => ⟨(hok hH.1.1.1.1.1).1.z, (hok hH.1.1.1.1.1).2.z⟩) fun both hboth =>
    C.bind (C_or fun hH => ⟨hH.1.2, hH.2⟩) fun r hr => C_assert_true ?_ fun hH => hH.2
  exact (assert_equal_math (f := AssignedValue.val) zero_ne_one hP hQ
    ⟨fun e => by rw [hx, if_pos e], fun e => by rw [hx, if_neg e]⟩
    ⟨fun e => by rw [hy, if_pos e], fun e => by rw [hy, if_neg e]⟩ hz hxy hxyz hboth hr).2 rfl

omit hd in
theorem C_assign_identity : C c h H (assign_identity info) (fun r => HKRep info r (0 : Pt b) ∧
    r.x.times = 1 ∧ r.y.times = 1) (OkK h) := by
  unfold assign_identity
  refine C.bind ((C17_constant_complete hi 0 (Fact.out : wm.Prime).pos c h).weaken fun _ => trivial) fun zero h0 =>
    C.bind C_assign_constant fun one h1 => C.pure ⟨⟨⟨⟨_, _, h0.1, h0.1, .inl ⟨h1, rfl⟩⟩, ?_, ?_⟩, ⟨_, h0.1⟩, ?_,
      .inr h1, fun x y hxy => absurd rfl hxy.ne_zero⟩, h0.2, h0.2⟩ fun hH => ⟨hH.1.2, hH.1.2, hH.2, hH.1.2, hH.2⟩
  all_goals
    have := h0.2
    show zero.times ≤ 16
    omega

omit hd in
theorem C_ecc_reduce {a : AssignedPoint n} {P : Pt b} (hP : HPRep info a P) (hok : H → OkP h a) :
    C c h H (ecc_reduce info a) (fun r => HPRep info r P ∧ r.x.times = 1 ∧ r.y.times = 1) (OkP h) := by
  obtain ⟨⟨x₁, y₁, hx₁, hy₁, hP⟩, -, -⟩ := hP
  unfold ecc_reduce
  refine C.bind ((C13_reduce_complete hi a.x _ hx₁ c h).weaken fun hH => (hok hH).x) fun x hx =>
    C.bind ((C13_reduce_complete hi a.y _ hy₁ c h).weaken fun hH => (hok hH.1).y) fun y hy =>
    C.bind (C_assign_identity (b := b) hi) fun i ⟨hi', ti, ti'⟩ => ?_
  obtain ⟨⟨⟨u, v, hu, hv, hiz⟩, -⟩, -⟩ := hi'
  have haz : a.z.val = 1 ∨ a.z.val = 0 := by rcases hP with h | h; exacts [.inl h.1, .inr h.1]
  refine (C_bisec_point hi (p := i.to_point) (q := ⟨x, y, a.z⟩) hu hv hx.1 hy.1 haz fun hH =>
    ⟨(hok hH.1.1.1).z, ⟨hH.2.x, hH.2.y, hH.2.z⟩, ⟨hH.1.1.2, hH.1.2, (hok hH.1.1.1).z⟩⟩).mono ?_ fun _ _ _ q => q
  rintro r ⟨bx, by', bz, rtx, rty⟩
  have e1 : r.x.times = 1 := by
    rw [rtx]; show max i.x.times x.times = 1; rw [ti, hx.2.1]; rfl
  have e2 : r.y.times = 1 := by
    rw [rty]; show max i.y.times y.times = 1; rw [ti', hy.2.1]; rfl
  refine ⟨⟨?_, by omega, by omega⟩, e1, e2⟩
  have key := PG.bisec (R := HRep wm info) (f := AssignedValue.val) (p := i.to_point) (q := ⟨x, y, a.z⟩) (r := r)
    hu hv hx.1 hy.1 bx by' bz P
  rcases hP with ⟨hz, rfl⟩ | ⟨hz, hP⟩
  · exact key.1 hz ⟨u, v, hu, hv, hiz⟩
  · exact key.2 hz ⟨x₁, y₁, hx.1, hy.1, .inr ⟨hz, hP⟩⟩

theorem C_tangent_slope (hb2 : (2 : ZMod wm) ≠ 0) {x y : AssignedInteger n} {u v : ZMod wm}
    (hx : HRep wm info x u) (hy : HRep wm info y v) (hok : H → OkI h x ∧ OkI h y) :
    C c h H (tangent_slope info x y) (fun r => HTangentRep info ⟨r.2, r.1⟩ u v ∧ (r.1.val = 0 ∨ r.1.val = 1) ∧
      (∃ l : ZMod wm, HRep wm info r.2 l) ∧ r.2.times = 1) (fun r => Ok h r.1 ∧ OkI h r.2) := by
  unfold tangent_slope
  refine C.bind ((C14_square_complete hi hd x _ hx c h).weaken fun hH => (hok hH).1) fun x2 h1 =>
    C.bind ((C12_small_mul_complete hi x2 3 (by norm_num) (by norm_num) _ h1.1 c h).weaken fun hH => hH.2)
      fun nu h2 =>
    C.bind ((C12_small_mul_complete hi y 2 (by norm_num) (by norm_num) _ hy c h).weaken fun hH => (hok hH.1.1).2)
      fun de h3 =>
    ((C15_div_complete hi hd nu de _ _ h2.1 h3.1 c h).weaken fun hH => ⟨hH.1.2, hH.2⟩).mono ?_ fun _ _ _ q => q
  rintro ⟨z, l⟩ ⟨hz, hl, ht⟩
  have e : (u ^ 2 * ((3 : ℕ) : ZMod wm)) / (v * ((2 : ℕ) : ZMod wm)) = 3 * u ^ 2 / (2 * v) := by
    push_cast
    rw [mul_comm (u ^ 2), mul_comm v]
  have hne : v ≠ 0 → v * ((2 : ℕ) : ZMod wm) ≠ 0 := fun h => mul_ne_zero h (by exact_mod_cast hb2)
  refine ⟨⟨fun h0 => ?_, fun h0 => ⟨?_, ?_⟩⟩, ?_, ⟨_, hl⟩, ht⟩
  · rw [hz, if_pos (by rw [h0, zero_mul])]
  · rw [hz, if_neg (hne h0)]
  · rw [← e]; exact hl
  · rw [hz]
    split <;> simp

theorem C_to_point_with_curvature (hb : GoodCurve b) {a : AssignedPoint n} {P : Pt b} (hP : HPRep info a P)
    (hok : H → OkP h a) :
    C c h H (to_point_with_curvature info a) (fun r => HKRep info r P ∧ r.to_point = a) (OkK h) := by
  have hP' := hP
  obtain ⟨⟨x, y, hx, hy, hP⟩, tx, ty⟩ := hP
  unfold to_point_with_curvature
  refine C.bind (C_tangent_slope hi hd hb.two_ne hx hy fun hH => ⟨(hok hH).x, (hok hH).y⟩)
    fun ⟨z, v⟩ ⟨t1, t2, t3, t4⟩ => C.pure ⟨⟨hP', t3, ?_, t2, fun x' y' hxy => ?_⟩, rfl⟩ fun hH =>
      ⟨(hok hH.1).x, (hok hH.1).y, (hok hH.1).z, hH.2.2, hH.2.1⟩
  · show v.times ≤ 16
    have : v.times = 1 := t4
    omega
  · rcases hP with ⟨-, rfl⟩ | ⟨-, hP⟩
    · exact absurd rfl hxy.ne_zero
    · obtain ⟨rfl, rfl⟩ := hP.unique hxy
      exact t1

theorem C_ecc_reduce_with_curvature (hb : GoodCurve b) {a : AssignedPoint n} {P : Pt b} (hP : HPRep info a P)
    (hok : H → OkP h a) :
    C c h H (ecc_reduce_with_curvature info a) (fun r => HKRep info r P ∧ r.x.times = 1 ∧ r.y.times = 1 ∧
      r.curvature.v.times = 1) (OkK h) := by
  unfold ecc_reduce_with_curvature
  refine C.bind (C_ecc_reduce hi hP hok) fun a' ⟨hP', t, t'⟩ => ?_
  have hP'' := hP'
  obtain ⟨⟨x, y, hx, hy, hP⟩, tx, ty⟩ := hP'
  refine C.bind (C_tangent_slope hi hd hb.two_ne hx hy fun hH => ⟨hH.2.x, hH.2.y⟩)
    fun ⟨z, v⟩ ⟨t1, t2, ⟨l, hl⟩, t4⟩ =>
    C.bind ((C13_reduce_complete hi v _ hl c h).weaken fun hH => hH.2.2) fun v' hv' =>
    C.pure ⟨⟨hP'', ⟨_, hv'.1⟩, ?_, t2, fun x' y' hxy => ?_⟩, t, t', hv'.2.1⟩ fun hH =>
      ⟨hH.1.1.2.x, hH.1.1.2.y, hH.1.1.2.z, hH.2, hH.1.2.1⟩
  · show v'.times ≤ 16
    have : v'.times = 1 := hv'.2.1
    omega
  · rcases hP with ⟨-, rfl⟩ | ⟨-, hP⟩
    · exact absurd rfl hxy.ne_zero
    · obtain ⟨rfl, rfl⟩ := hP.unique hxy
      refine ⟨t1.1, fun h0 => ⟨(t1.2 h0).1, ?_⟩⟩
      have : l = 3 * x ^ 2 / (2 * y) := by rw [← hl.eq]; exact (t1.2 h0).2.eq
      rw [← this]
      exact hv'.1

/-! ### Assignment -/

omit hd in
theorem C_assign_constant_point {cc : Option (ℕ × ℕ)} {P : Pt b} (hc : ConstCoords cc P) :
    C c h H (assign_constant_point info cc) (fun r => HPRep info r P) (OkP h) := by
  unfold assign_constant_point
  have hlt : cc.elim 0 Prod.fst < wm ∧ cc.elim 0 Prod.snd < wm := by
    rcases hc with ⟨rfl, -⟩ | ⟨x, y, rfl, hx, hy, -⟩
    exacts [⟨(Fact.out : wm.Prime).pos, (Fact.out : wm.Prime).pos⟩, ⟨hx, hy⟩]
  refine C.bind ((C17_constant_complete hi _ hlt.1 c h).weaken fun _ => trivial) fun x hx =>
    C.bind ((C17_constant_complete hi _ hlt.2 c h).weaken fun _ => trivial) fun y hy =>
    C.bind C_assign_constant fun z hz => C.pure ⟨⟨_, _, hx.1, hy.1, ?_⟩, ?_, ?_⟩ fun hH => ⟨hH.1.1.2, hH.1.2, hH.2⟩
  · rcases hc with ⟨rfl, rfl⟩ | ⟨x, y, rfl, -, -, hP⟩
    exacts [.inl ⟨by simpa using hz, rfl⟩, .inr ⟨by simpa using hz, hP⟩]
  · show x.times ≤ 16
    have := hx.2
    omega
  · show y.times ≤ 16
    have := hy.2
    omega

theorem C_assign_point {bb : ℕ} (hbb : bb < wm) (hbe : (bb : ZMod wm) = b) {cc : Option (ℕ × ℕ)} {P : Pt b}
    (hc : ConstCoords cc P) :
    C c h H (assign_point info bb cc) (fun r => HPRep info r P ∧ r.x.times = 1 ∧ r.y.times = 1) (OkP h) := by
  unfold assign_point
  have hlt : cc.elim 0 Prod.fst < wm ∧ cc.elim 0 Prod.snd < wm := by
    rcases hc with ⟨rfl, -⟩ | ⟨x, y, rfl, hx, hy, -⟩
    exacts [⟨(Fact.out : wm.Prime).pos, (Fact.out : wm.Prime).pos⟩, ⟨hx, hy⟩]
  refine C.bind ((C11_assign_w_complete hi _ hlt.1 c h).weaken fun _ => trivial) fun x hx =>
    C.bind ((C11_assign_w_complete hi _ hlt.2 c h).weaken fun _ => trivial) fun y hy =>
    C.bind (C_assign_bit (by split <;> simp)) fun z hz =>
    C.bind ((C17_constant_complete hi bb hbb c h).weaken fun _ => trivial) fun bv hbv =>
    C.bind ((C14_square_complete hi hd y _ hy.1 c h).weaken fun hH => hH.1.1.2) fun y2 hy2 =>
    C.bind ((C14_square_complete hi hd x _ hx.1 c h).weaken fun hH => hH.1.1.1.1.2) fun x2 hx2 =>
    C.bind ((C14_mul_complete hi hd x2 x _ _ hx2.1 hx.1 c h).weaken fun hH => ⟨hH.2, hH.1.1.1.1.1.2⟩) fun x3 hx3 =>
    C.bind ((C12_add_complete hi x3 bv _ _ hx3.1 hbv.1 (by omega) c h).weaken fun hH => ⟨hH.2, hH.1.1.1.2⟩)
      fun right hright =>
    C.bind ((C16_is_int_equal_complete hi y2 right _ _ hy2.1 hright.1 (by omega) c h).weaken fun hH =>
      ⟨hH.1.1.1.2, hH.2⟩) fun eq heq =>
    C.bind (C_or fun hH => ⟨hH.2, hH.1.1.1.1.1.1.2⟩) fun r hr =>
    C.bind (C_assert_true ?_ fun hH => hH.2) fun _ _ =>
    C.pure ⟨⟨⟨_, _, hx.1, hy.1, ?_⟩, ?_, ?_⟩, hx.2.1, hy.2.1⟩ fun hH =>
      ⟨hH.1.1.1.1.1.1.1.1.1.1.2, hH.1.1.1.1.1.1.1.1.1.2, hH.1.1.1.1.1.1.1.1.2⟩
  · rw [hr, hz, heq]
    rcases hc with ⟨rfl, rfl⟩ | ⟨x, y, rfl, -, -, hP⟩
    · simp
    · have := hP.eqn
      rw [if_pos (by show (y : ZMod wm) ^ 2 = (x : ZMod wm) ^ 2 * x + bb; rw [this, hbe]; ring)]
      simp
  · rcases hc with ⟨rfl, rfl⟩ | ⟨x, y, rfl, -, -, hP⟩
    exacts [.inl ⟨by simpa using hz, rfl⟩, .inr ⟨by simpa using hz, hP⟩]
  · show x.times ≤ 16
    have := hx.2.1
    omega
  · show y.times ≤ 16
    have := hy.2.1
    omega

theorem C_assign_non_zero_point {bb : ℕ} (hbb : bb < wm) (hbe : (bb : ZMod wm) = b) {cx cy : ℕ} {P : Pt b}
    (hcx : cx < wm) (hcy : cy < wm) (hP : HasCoords P (cx : ZMod wm) (cy : ZMod wm)) :
    C c h H (assign_non_zero_point info bb (some (cx, cy))) (fun r => HNRep info r P ∧ r.x.times = 1 ∧
      r.y.times = 1) (OkN h) := by
  unfold assign_non_zero_point
  refine C.bind_unwrap rfl (C.bind ((C11_assign_w_complete hi _ hcx c h).weaken fun _ => trivial) fun x hx =>
    C.bind ((C11_assign_w_complete hi _ hcy c h).weaken fun _ => trivial) fun y hy =>
    C.bind ((C17_constant_complete hi bb hbb c h).weaken fun _ => trivial) fun bv hbv =>
    C.bind ((C14_square_complete hi hd y _ hy.1 c h).weaken fun hH => hH.1.2) fun y2 hy2 =>
    C.bind ((C14_square_complete hi hd x _ hx.1 c h).weaken fun hH => hH.1.1.1.2) fun x2 hx2 =>
    C.bind ((C14_mul_complete hi hd x2 x _ _ hx2.1 hx.1 c h).weaken fun hH => ⟨hH.2, hH.1.1.1.1.2⟩) fun x3 hx3 =>
    C.bind ((C12_add_complete hi x3 bv _ _ hx3.1 hbv.1 (by omega) c h).weaken fun hH => ⟨hH.2, hH.1.1.1.2⟩)
      fun right hright => ?_)
  have e : (cx : ZMod wm) ^ 2 * cx + bb = (cy : ZMod wm) ^ 2 := by
    rw [hP.eqn, hbe]; ring
  have hright' := hright.1
  rw [e] at hright'
  refine C.bind ((C16_assert_int_equal_complete hi y2 right _ hy2.1 hright' (by omega) c h).weaken fun hH =>
      ⟨hH.1.1.1.2, hH.2⟩) fun _ _ =>
    C.pure ⟨⟨⟨_, _, hx.1, hy.1, hP⟩, ?_, ?_⟩, hx.2.1, hy.2.1⟩ fun hH =>
      ⟨hH.1.1.1.1.1.1.1.2, hH.1.1.1.1.1.1.2⟩
  · show x.times ≤ 16
    have := hx.2.1
    omega
  · show y.times ≤ 16
    have := hy.2.1
    omega

/-! ### Affine points -/

theorem C_ecc_add_unsafe {a q : AssignedNonZeroPoint n} {P Q : Pt b} (hP : HNRep info a P) (hQ : HNRep info q Q)
    (hne : P ≠ Q) (hne' : P ≠ -Q) (hok : H → OkN h a ∧ OkN h q) :
    C c h H (ecc_add_unsafe info a q) (fun r => ∃ p, r = .ok p ∧ HNRep info p (P + Q))
      (fun r => ∀ p, r = .ok p → OkN h p) := by
  obtain ⟨⟨x₁, y₁, hx₁, hy₁, hP⟩, tx₁, ty₁⟩ := hP
  obtain ⟨⟨x₂, y₂, hx₂, hy₂, hQ⟩, tx₂, ty₂⟩ := hQ
  have hx : x₁ ≠ x₂ := by
    rintro rfl
    by_cases hy : y₁ = y₂
    · subst hy
      exact hne (hP.inj hQ)
    · exact hne' (eq_neg_of_add_eq_zero_left (hP.opposite hQ hy))
  unfold ecc_add_unsafe
  refine C.bind ((C12_sub_complete hi a.x q.x _ _ hx₁ hx₂ (by omega) c h).weaken fun hH =>
      ⟨(hok hH).1.x, (hok hH).2.x⟩) fun dx hdx =>
    C.bind ((C12_sub_complete hi a.y q.y _ _ hy₁ hy₂ (by omega) c h).weaken fun hH =>
      ⟨(hok hH.1).1.y, (hok hH.1).2.y⟩) fun dy hdy =>
    C.bind ((C15_div_complete hi hd dy dx _ _ hdy.1 hdx.1 c h).weaken fun hH => ⟨hH.2, hH.1.2⟩)
      fun ⟨xeq, tan⟩ ⟨hdz, hdv, hdt⟩ => ?_
  rw [if_neg (sub_ne_zero.2 hx)] at hdz
  refine C.bind (C_try_assert_false hdz fun hH => hH.2.1) fun s hs =>
    C.bind (C_lambda_nz hi hd hdv hx₁ hy₁ hx₂ tx₁ ty₁ tx₂ fun hH =>
      ⟨hH.1.2.2, (hok hH.1.1.1.1).1, (hok hH.1.1.1.1).2.x⟩) fun p hp =>
    C.pure ⟨p, by simp [hs], ⟨_, _, hp.1, hp.2.1, hP.add hQ hx rfl⟩, hp.2.2⟩ fun hH p' hp' => ?_
  simp only [hs, if_true, Except.ok.injEq] at hp'
  exact hp' ▸ hH.2

theorem C_ecc_double_unsafe (hb : GoodCurve b) {a : AssignedNonZeroPoint n} {P : Pt b} (hP : HNRep info a P)
    (hne : P + P ≠ 0) (hok : H → OkN h a) :
    C c h H (ecc_double_unsafe info a) (fun r => ∃ p, r = .ok p ∧ HNRep info p (P + P))
      (fun r => ∀ p, r = .ok p → OkN h p) := by
  obtain ⟨⟨x, y, hx, hy, hP⟩, tx, ty⟩ := hP
  have hy0 : y ≠ 0 := by
    rintro rfl
    exact hne hP.double_zero
  unfold ecc_double_unsafe
  refine C.bind (C_tangent_slope hi hd hb.two_ne hx hy fun hH => ⟨(hok hH).x, (hok hH).y⟩)
    fun ⟨z, v⟩ ⟨t1, t2, t3, t4⟩ => ?_
  obtain ⟨hz, hv⟩ := t1.2 hy0
  refine C.bind (C_try_assert_false hz fun hH => hH.2.1) fun s hs =>
    C.bind (C_lambda_nz hi hd hv hx hy hx tx ty tx fun hH =>
      ⟨hH.1.2.2, hok hH.1.1, (hok hH.1.1).x⟩) fun p hp =>
    C.pure ⟨p, by simp [hs], ⟨_, _, hp.1, hp.2.1, hP.double hb hy0 rfl⟩, hp.2.2⟩ fun hH p' hp' => ?_
  simp only [hs, if_true, Except.ok.injEq] at hp'
  exact hp' ▸ hH.2

end

end Verif
