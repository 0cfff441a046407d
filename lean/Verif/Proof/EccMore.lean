import Verif.Props.Ecc
import Verif.Proof.MsmComplete

/-!
# Selection of points with curvature, equality of affine points
-/

namespace Verif
variable {n wm : ℕ} {info : RangeInfo n} {b : ZMod wm}

section
variable [Fact n.Prime] (h : RangeInfo.new wm n 18 6 = .ok info) {c : Circuit n} {w : Advice n} (hw : c.Sat w)
include h hw

theorem S_bisec_kc [Fact wm.Prime] (cond : AssignedCondition n) (p q : AssignedPointWithCurvature n) :
    S c (bisec_point_with_curvature info cond p q) (fun r => ∀ P Q : Pt b, KRep info w p P → KRep info w q Q →
      (w cond.cell = 1 → KRep info w r P) ∧ (w cond.cell = 0 → KRep info w r Q)) := by
  unfold bisec_point_with_curvature
  refine S.bind (BG_sound h hw cond _ _) fun rx => S.bind (BG_sound h hw cond _ _) fun ry =>
    S.bind (S_bisec hw cond _ _) fun rz => S.bind (S_bisec_curvature h hw cond _ _) fun rc => S.pure ?_
  rintro ⟨hv, hcz⟩ hz hy hx P Q ⟨⟨x, y, px, py, hP⟩, ⟨v, pv⟩, pz, hT⟩ ⟨⟨x', y', qx, qy, hQ⟩, ⟨v', qv⟩, qz, hT'⟩
  simp only [cv] at hcz hz
  constructor
  · intro hc
    rw [hc] at hz hcz
    have ez : w rz.cell = w p.z.cell := by rw [show w rz.cell = _ from hz]; ring
    have ecz : w rc.z.cell = w p.curvature.z.cell := by rw [hcz]; ring
    refine ⟨⟨x, y, (hx _ _ px qx).1 hc, (hy _ _ py qy).1 hc, ?_⟩, ⟨v, (hv _ _ pv qv).1 hc⟩, ?_, fun x1 y1 h1 => ?_⟩
    · show (w rz.cell = 1 ∧ _) ∨ (w rz.cell = 0 ∧ _)
      rw [ez]; exact hP
    · show w rc.z.cell = 0 ∨ w rc.z.cell = 1
      rw [ecz]; exact pz
    · have := hT x1 y1 h1
      refine ⟨fun e => ecz.trans (this.1 e), fun e => ⟨ecz.trans (this.2 e).1, ?_⟩⟩
      exact (hv _ _ (this.2 e).2 qv).1 hc
  · intro hc
    rw [hc] at hz hcz
    have ez : w rz.cell = w q.z.cell := by rw [show w rz.cell = _ from hz]; ring
    have ecz : w rc.z.cell = w q.curvature.z.cell := by rw [hcz]; ring
    refine ⟨⟨x', y', (hx _ _ px qx).2 hc, (hy _ _ py qy).2 hc, ?_⟩, ⟨v', (hv _ _ pv qv).2 hc⟩, ?_, fun x1 y1 h1 => ?_⟩
    · show (w rz.cell = 1 ∧ _) ∨ (w rz.cell = 0 ∧ _)
      rw [ez]; exact hQ
    · show w rc.z.cell = 0 ∨ w rc.z.cell = 1
      rw [ecz]; exact qz
    · have := hT' x1 y1 h1
      refine ⟨fun e => ecz.trans (this.1 e), fun e => ⟨ecz.trans (this.2 e).1, ?_⟩⟩
      exact (hv _ _ pv (this.2 e).2).2 hc
end

section
variable [Fact n.Prime] (hi : RangeInfo.new wm n 18 6 = .ok info) {c : Circuit n} {h : Advice n} {H : Prop}
include hi

theorem C_bisec_kc [Fact wm.Prime] {cond : AssignedCondition n} {p q : AssignedPointWithCurvature n} {P Q : Pt b}
    (hP : HKRep info p P) (hQ : HKRep info q Q) (hc : cond.val = 1 ∨ cond.val = 0)
    (hok : H → Ok h cond ∧ OkK h p ∧ OkK h q) :
    C c h H (bisec_point_with_curvature info cond p q)
      (fun r => HKRep info r (if cond.val = 1 then P else Q)) (OkK h) := by
  obtain ⟨⟨⟨x, y, px, py, hP⟩, tx, ty⟩, ⟨v, pv⟩, tv, pz, hT⟩ := hP
  obtain ⟨⟨⟨x', y', qx, qy, hQ⟩, tx', ty'⟩, ⟨v', qv⟩, tv', qz, hT'⟩ := hQ
  replace tx : p.x.times ≤ 16 := tx
  replace ty : p.y.times ≤ 16 := ty
  replace tx' : q.x.times ≤ 16 := tx'
  replace ty' : q.y.times ≤ 16 := ty'
  unfold bisec_point_with_curvature
  refine C.bind (BG_complete hi px qx hc fun hH => ⟨(hok hH).1, (hok hH).2.1.x, (hok hH).2.2.x⟩) fun rx h1 =>
    C.bind (BG_complete hi py qy hc fun hH => ⟨(hok hH.1).1, (hok hH.1).2.1.y, (hok hH.1).2.2.y⟩) fun ry h2 =>
    C.bind (C_bisec fun hH => ⟨(hok hH.1.1).1, (hok hH.1.1).2.1.z, (hok hH.1.1).2.2.z⟩) fun rz h3 =>
    C.bind (C_bisec_curvature hi pv qv hc fun hH => ⟨(hok hH.1.1.1).1, ⟨(hok hH.1.1.1).2.1.v, (hok hH.1.1.1).2.1.cz⟩,
      (hok hH.1.1.1).2.2.v, (hok hH.1.1.1).2.2.cz⟩) fun rc h4 =>
    C.pure ?_ fun hH => ⟨hH.1.1.1.2, hH.1.1.2, hH.1.2, hH.2.1, hH.2.2⟩
  obtain ⟨hx, t1⟩ := h1
  obtain ⟨hy, t2⟩ := h2
  obtain ⟨hv, hcz, t4⟩ := h4
  rcases hc with hc | hc
  · rw [if_pos hc]
    rw [hc] at h3 hcz
    have ez : rz.val = p.z.val := by rw [h3]; ring
    have ecz : rc.z.val = p.curvature.z.val := by rw [hcz]; ring
    refine ⟨⟨⟨x, y, (hx _ _ px qx).1 hc, (hy _ _ py qy).1 hc, ?_⟩, ?_, ?_⟩, ⟨v, (hv _ _ pv qv).1 hc⟩, ?_, ?_,
      fun x1 y1 e1 => ?_⟩
    · show (rz.val = 1 ∧ _) ∨ (rz.val = 0 ∧ _)
      rw [ez]; exact hP
    · show rx.times ≤ 16
      omega
    · show ry.times ≤ 16
      omega
    · show rc.v.times ≤ 16
      omega
    · show rc.z.val = 0 ∨ rc.z.val = 1
      rw [ecz]; exact pz
    · have := hT x1 y1 e1
      exact ⟨fun e => ecz.trans (this.1 e), fun e => ⟨ecz.trans (this.2 e).1, (hv _ _ (this.2 e).2 qv).1 hc⟩⟩
  · rw [if_neg (by rw [hc]; exact zero_ne_one)]
    rw [hc] at h3 hcz
    have ez : rz.val = q.z.val := by rw [h3]; ring
    have ecz : rc.z.val = q.curvature.z.val := by rw [hcz]; ring
    refine ⟨⟨⟨x', y', (hx _ _ px qx).2 hc, (hy _ _ py qy).2 hc, ?_⟩, ?_, ?_⟩, ⟨v', (hv _ _ pv qv).2 hc⟩, ?_, ?_,
      fun x1 y1 e1 => ?_⟩
    · show (rz.val = 1 ∧ _) ∨ (rz.val = 0 ∧ _)
      rw [ez]; exact hQ
    · show rx.times ≤ 16
      omega
    · show ry.times ≤ 16
      omega
    · show rc.v.times ≤ 16
      omega
    · show rc.z.val = 0 ∨ rc.z.val = 1
      rw [ecz]; exact qz
    · have := hT' x1 y1 e1
      exact ⟨fun e => ecz.trans (this.1 e), fun e => ⟨ecz.trans (this.2 e).1, (hv _ _ pv (this.2 e).2).2 hc⟩⟩

theorem C_assert_equal_nz [Fact wm.Prime] {p q : AssignedNonZeroPoint n} {P : Pt b} (hP : HNRep info p P)
    (hQ : HNRep info q P) (hok : H → OkN h p ∧ OkN h q) :
    C c h H (ecc_assert_equal_non_zero info p q) (fun _ => True) (fun _ => True) := by
  obtain ⟨⟨x, y, px, py, hP⟩, tx, ty⟩ := hP
  obtain ⟨⟨x', y', qx, qy, hQ⟩, tx', ty'⟩ := hQ
  obtain ⟨rfl, rfl⟩ := hP.unique hQ
  exact C.bind ((C16_assert_int_equal_complete hi _ _ _ px qx (by omega) c h).weaken fun hH =>
    ⟨(hok hH).1.x, (hok hH).2.x⟩) fun _ _ => (C16_assert_int_equal_complete hi _ _ _ py qy (by omega) c h).weaken
    fun hH => ⟨(hok hH.1).1.y, (hok hH.1).2.y⟩
end

end Verif
