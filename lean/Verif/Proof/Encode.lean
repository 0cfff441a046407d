import Verif.Spec.Encode
import Verif.Proof.EccComplete
import Verif.Proof.Forge
import Verif.Props.ScalarForge

/-!
# The encoding of points
-/

namespace Verif
variable {n wm : ℕ} {info : RangeInfo n} {b : ZMod wm}

theorem limbOf_sum {d : ℕ → ℕ} : ∀ {k : ℕ}, (∀ i < k, d i < 2 ^ 108) → ∀ j < k,
    RangeInfo.limbOf 108 j (∑ i ∈ Finset.range k, d i * 2 ^ (108 * i)) = d j
  | 0, _, j, hj => by omega
  | k + 1, hd, j, hj => by
    have hA : ∀ m, m ≤ k → ∑ i ∈ Finset.range m, d i * 2 ^ (108 * i) < 2 ^ (108 * m) := by
      intro m
      induction m with
      | zero => intro _; simp
      | succ m ih =>
        intro hm
        have h1 := ih (by omega)
        have h2 := hd m (by omega)
        rw [Finset.sum_range_succ, Nat.mul_succ, pow_add]
        nlinarith [Nat.pos_of_ne_zero (pow_ne_zero (108 * m) (two_ne_zero (α := ℕ)))]
    rw [Finset.sum_range_succ]
    by_cases hjk : j < k
    · have ih := limbOf_sum (k := k) (fun i hi => hd i (by omega)) j hjk
      unfold RangeInfo.limbOf at ih ⊢
      have e : d k * 2 ^ (108 * k) = 2 ^ (j * 108) * (2 ^ 108 * (d k * 2 ^ (108 * (k - j - 1)))) := by
        rw [show 108 * k = j * 108 + (108 + 108 * (k - j - 1)) by omega, pow_add, pow_add]; ring
      rw [e, Nat.add_mul_div_left _ _ (by positivity), Nat.add_mul_mod_self_left, ih]
    · obtain rfl : j = k := by omega
      unfold RangeInfo.limbOf
      rw [mul_comm j 108, Nat.add_mul_div_right _ _ (by positivity), Nat.div_eq_of_lt (hA j le_rfl), zero_add,
        Nat.mod_eq_of_lt (hd j (by omega))]

theorem WF.limb_of (hv : info.Valid wm) {f : AssignedValue n → ZMod n} {a : AssignedInteger n} (h : WF info f a)
    (ht : a.times = 1) {i : ℕ} {x : AssignedValue n} (hx : a.limbs_le[i]? = some x) :
    f x = ((RangeInfo.limbOf 108 i (V f a) : ℕ) : ZMod n) := by
  have hne := hv.neZero
  have hi := (List.getElem?_eq_some_iff.1 hx).1
  have hl := fun i => h.limb i
  rw [ht, one_mul] at hl
  rw [V, VL, limbOf_sum (fun i _ => hl i) i hi, limbAt_cast hx]

theorem enc0 (X : ℕ) : X % 2 ^ 216 = RangeInfo.limbOf 108 0 X + RangeInfo.limbOf 108 1 X * 2 ^ 108 := by
  unfold RangeInfo.limbOf; omega
theorem enc1' (X Y : ℕ) : X / 2 ^ 216 % 2 ^ 108 + 2 ^ 108 * (Y % 2 ^ 108) =
    RangeInfo.limbOf 108 2 X + RangeInfo.limbOf 108 0 Y * 2 ^ 108 := by
  unfold RangeInfo.limbOf; omega
theorem enc2' (Y : ℕ) : Y / 2 ^ 108 % 2 ^ 216 = RangeInfo.limbOf 108 1 Y + RangeInfo.limbOf 108 2 Y * 2 ^ 108 := by
  unfold RangeInfo.limbOf; omega

/-- The three sums are the triple of the values of the coordinates. -/
theorem triple_eq (hv : info.Valid wm) {f : AssignedValue n → ZMod n} {a a' : AssignedInteger n} (h : WF info f a)
    (ht : a.times = 1) (h' : WF info f a') (ht' : a'.times = 1) {x0 x1 x2 y0 y1 y2 : AssignedValue n}
    (e0 : a.limbs_le[0]? = some x0) (e1 : a.limbs_le[1]? = some x1) (e2 : a.limbs_le[2]? = some x2)
    (k0 : a'.limbs_le[0]? = some y0) (k1 : a'.limbs_le[1]? = some y1) (k2 : a'.limbs_le[2]? = some y2) :
    encTriple n (V f a) (V f a') = [f x0 + ((2 ^ 108 : ℕ) : ZMod n) * f x1, f x2 + ((2 ^ 108 : ℕ) : ZMod n) * f y0,
      f y1 + ((2 ^ 108 : ℕ) : ZMod n) * f y2] := by
  rw [encTriple, enc0, enc1', enc2', h.limb_of hv ht e0, h.limb_of hv ht e1, h.limb_of hv ht e2, h'.limb_of hv ht' k0,
    h'.limb_of hv ht' k1, h'.limb_of hv ht' k2]
  simp only [Nat.cast_add, Nat.cast_mul, mul_comm]

/-- The triple determines the low 324 bits of both coordinates. -/
theorem encTriple_inj (hn : 2 ^ 216 ≤ n) {X Y X' Y' : ℕ} (h : encTriple n X Y = encTriple n X' Y') :
    X % 2 ^ 324 = X' % 2 ^ 324 ∧ Y % 2 ^ 324 = Y' % 2 ^ 324 := by
  have key : ∀ u v : ℕ, u < 2 ^ 216 → v < 2 ^ 216 → (u : ZMod n) = v → u = v := by
    intro u v hu hv e
    have := congrArg ZMod.val e
    rwa [ZMod.val_natCast_of_lt (by omega), ZMod.val_natCast_of_lt (by omega)] at this
  simp only [encTriple, List.cons.injEq, and_true] at h
  obtain ⟨h0, h1, h2⟩ := h
  have h0 := key _ _ (by omega) (by omega) h0
  have h1 := key _ _ (by omega) (by omega) h1
  have h2 := key _ _ (by omega) (by omega) h2
  constructor <;> omega

/-! ## Soundness -/

theorem S_bisec_V [Fact n.Prime] (hv : info.Valid wm) {c : Circuit n} {w : Advice n} (hw : c.Sat w)
    (cond : AssignedCondition n) (a b : AssignedPoint n) :
    S c (bisec_point info cond a b) (fun r => WF info (cv w) a.x → WF info (cv w) b.x → WF info (cv w) a.y →
      WF info (cv w) b.y →
      r.x.times = max a.x.times b.x.times ∧ r.y.times = max a.y.times b.y.times ∧
      (cv w cond = 1 → WF info (cv w) r.x ∧ V (cv w) r.x = V (cv w) a.x ∧ WF info (cv w) r.y ∧
        V (cv w) r.y = V (cv w) a.y) ∧
      (cv w cond = 0 → WF info (cv w) r.x ∧ V (cv w) r.x = V (cv w) b.x ∧ WF info (cv w) r.y ∧
        V (cv w) r.y = V (cv w) b.y)) := by
  unfold bisec_point
  refine S.bind (S_bisec_int hv hw cond _ _) fun x => S.bind (S_bisec_int hv hw cond _ _) fun y =>
    S.bind (S_bisec hw cond _ _) fun _ => S.pure ?_
  intro _ hy hx h1 h2 h3 h4
  obtain ⟨t1, p1, q1⟩ := hx h1 h2
  obtain ⟨t2, p2, q2⟩ := hy h3 h4
  exact ⟨t1, t2, fun h => ⟨(p1 h).1, (p1 h).2, (p2 h).1, (p2 h).2⟩, fun h => ⟨(q1 h).1, (q1 h).2, (q2 h).1, (q2 h).2⟩⟩

/-- `ecc_reduce`: reduced representatives of the coordinates, or zeros for the identity. -/
theorem S_ecc_reduce_V [Fact n.Prime] (hv : info.Valid wm) {c : Circuit n} {w : Advice n} (hw : c.Sat w)
    (a : AssignedPoint n) :
    S c (ecc_reduce info a) (fun r => WF info (cv w) a.x → WF info (cv w) a.y → (cv w a.z = 1 ∨ cv w a.z = 0) →
      WF info (cv w) r.x ∧ WF info (cv w) r.y ∧ r.x.times = 1 ∧ r.y.times = 1 ∧
      (cv w a.z = 1 → V (cv w) r.x = 0 ∧ V (cv w) r.y = 0) ∧
      (cv w a.z = 0 → (V (cv w) r.x : ZMod wm) = V (cv w) a.x ∧ (V (cv w) r.y : ZMod wm) = V (cv w) a.y)) := by
  unfold ecc_reduce assign_identity
  refine S.bind (S_reduce hv hw a.x) fun x => S.bind (S_reduce hv hw a.y) fun y =>
    S.bind (P := fun i => WF info (cv w) i.x ∧ i.x.times = 1 ∧ V (cv w) i.x = 0 ∧ WF info (cv w) i.y ∧
      i.y.times = 1 ∧ V (cv w) i.y = 0)
      (S.bind (S_assign_int_constant hv hw 0) fun zero => S.bind (S_assign_constant hw 1) fun one => S.pure ?_) fun i =>
    (S_bisec_V hv hw a.z i.to_point ⟨x, y, a.z⟩).mono ?_
  · intro _ h0
    obtain ⟨h1, h2, h3⟩ := h0 hv.w_pos
    exact ⟨h1, h2, h3, h1, h2, h3⟩
  · rintro r hr ⟨i1, i2, i3, i4, i5, i6⟩ hy hx wx wy hz
    obtain ⟨x1, x2, x3⟩ := hx wx
    obtain ⟨y1, y2, y3⟩ := hy wy
    obtain ⟨t1, t2, p, q⟩ := hr i1 x1 i4 y1
    have t1' : r.x.times = 1 := by
      rw [t1]; show max i.x.times x.times = 1; rw [i2, x2]; rfl
    have t2' : r.y.times = 1 := by
      rw [t2]; show max i.y.times y.times = 1; rw [i5, y2]; rfl
    have h10 : (1 : ZMod n) ≠ 0 := one_ne_zero
    refine ⟨?_, ?_, t1', t2', fun h => ⟨(p h).2.1.trans i3, (p h).2.2.2.trans i6⟩, fun h => ?_⟩
    · rcases hz with h | h
      exacts [(p h).1, (q h).1]
    · rcases hz with h | h
      exacts [(p h).2.2.1, (q h).2.2.1]
    · exact ⟨by rw [(q h).2.1]; exact x3, by rw [(q h).2.2.2]; exact y3⟩

theorem S_ecc_encode [Fact n.Prime] (hv : info.Valid wm) {c : Circuit n} {w : Advice n} (hw : c.Sat w)
    (p : AssignedPoint n) :
    S c (ecc_encode info p) (fun r => ∀ P : Pt b, PRep info w p P → ∃ X Y, X < 2 ^ info.w_ceil_bits ∧
      Y < 2 ^ info.w_ceil_bits ∧ r.map (cv w) = encTriple n X Y ∧
      ((P = 0 ∧ X = 0 ∧ Y = 0) ∨ HasCoords P (X : ZMod wm) (Y : ZMod wm))) := by
  unfold ecc_encode
  refine S.bind (S_ecc_reduce_V hv hw p) fun q => ?_
  dsimp only
  refine S.bind_index fun x0 hx0 => S.bind_index fun x1 hx1 => S.bind (S_sum hw _ _) fun s0 =>
    S.bind_index fun x2 hx2 => S.bind_index fun y0 hy0 => S.bind (S_sum hw _ _) fun s1 =>
    S.bind_index fun y1 hy1 => S.bind_index fun y2 hy2 => S.bind (S_sum hw _ _) fun s2 => S.pure ?_
  rintro e2 e1 e0 hq P ⟨x, y, hx, hy, hP⟩
  have hz : cv w p.z = 1 ∨ cv w p.z = 0 := by rcases hP with h | h; exacts [.inl h.1, .inr h.1]
  obtain ⟨w1, w2, t1, t2, p1, p2⟩ := hq hx.wf hy.wf hz
  refine ⟨V (cv w) q.x, V (cv w) q.y, by simpa [t1] using w1.val, by simpa [t2] using w2.val, ?_, ?_⟩
  · rw [triple_eq hv w1 t1 w2 t2 hx0 hx1 hx2 hy0 hy1 hy2]
    simp only [List.map_cons, List.map_nil, cv, e0, e1, e2, hv.limb_bits, sumW_cons, sumW_nil, Option.getD_none]
    simp only [zero_add, add_zero, mul_one, mul_comm]
  · rcases hP with ⟨hz, rfl⟩ | ⟨hz, hP⟩
    · exact .inl ⟨rfl, p1 hz⟩
    · right
      rw [(p2 hz).1, (p2 hz).2, hx.eq, hy.eq]
      exact hP

/-! ## Honest and dishonest witnesses -/

/-- `X` is the value of the recorded integer after `reduce`: the canonical representative for an honestly recorded
integer, its own value for a reduced one, canonical or not. -/
def Reduced (wm : ℕ) (info : RangeInfo n) (a : AssignedInteger n) (X : ℕ) : Prop :=
  (Honest wm info a ∧ X = V AssignedValue.val a % wm) ∨ (WF info AssignedValue.val a ∧ a.times = 1 ∧ X = V AssignedValue.val a)

variable {c : Circuit n} {h : Advice n} {H : Prop}

theorem C_reduce_V (hv : info.Valid wm) {a : AssignedInteger n} {X : ℕ} (ha : Reduced wm info a X) (hok : H → OkI h a) :
    C c h H (reduce info a) (fun r => WF info AssignedValue.val r ∧ r.times = 1 ∧ V AssignedValue.val r = X) (OkI h) := by
  rcases ha with ⟨ha, rfl⟩ | ⟨ha, ht, rfl⟩
  · exact (C_reduce hv ha hok).mono (fun r hr => ⟨hr.1.wf, hr.2.1, hr.2.2⟩) fun _ _ _ q => q
  · unfold reduce
    rw [if_pos ht]
    exact C.pure ⟨ha, ht, rfl⟩ hok

theorem C_ecc_reduce_V (hv : info.Valid wm) {a : AssignedPoint n} {X Y : ℕ} (hx : Reduced wm info a.x X)
    (hy : Reduced wm info a.y Y) (hz : a.z.val = 1 ∨ a.z.val = 0) (hok : H → OkP h a) :
    C c h H (ecc_reduce info a) (fun r => WF info AssignedValue.val r.x ∧ WF info AssignedValue.val r.y ∧
      r.x.times = 1 ∧ r.y.times = 1 ∧ V AssignedValue.val r.x = (if a.z.val = 1 then 0 else X) ∧
      V AssignedValue.val r.y = (if a.z.val = 1 then 0 else Y)) (OkP h) := by
  unfold ecc_reduce assign_identity
  refine C.bind (C_reduce_V hv hx fun hH => (hok hH).x) fun x ⟨x1, x2, x3⟩ =>
    C.bind (C_reduce_V hv hy fun hH => (hok hH.1).y) fun y ⟨y1, y2, y3⟩ =>
    C.bind (P := fun i => WF info AssignedValue.val i.x ∧ i.x.times = 1 ∧ V AssignedValue.val i.x = 0 ∧
      WF info AssignedValue.val i.y ∧ i.y.times = 1 ∧ V AssignedValue.val i.y = 0) (Q := fun i => OkP h i.to_point)
      (C.bind (C_assign_int_constant hv hv.w_pos) fun zero hz => C.bind C_assign_constant fun one _ =>
        C.pure ⟨hz.1.wf, hz.2.1, hz.2.2, hz.1.wf, hz.2.1, hz.2.2⟩ fun hH => ⟨hH.1.2, hH.1.2, hH.2⟩) fun i
      ⟨i1, i2, i3, i4, i5, i6⟩ => ?_
  unfold bisec_point
  refine C.bind (C_bisec_int_wf hv (a := i.to_point.x) i1 x1 hz fun hH => ⟨(hok hH.1.1.1).z, hH.2.x, hH.1.1.2⟩) fun rx
      ⟨r1, r2, r3⟩ =>
    C.bind (C_bisec_int_wf hv (a := i.to_point.y) i4 y1 hz fun hH => ⟨(hok hH.1.1.1.1).z, hH.1.2.y, hH.1.1.2⟩) fun ry
      ⟨s1, s2, s3⟩ =>
    C.bind (C_bisec fun hH => ⟨(hok hH.1.1.1.1.1).z, hH.1.1.2.z, (hok hH.1.1.1.1.1).z⟩) fun rz _ =>
    C.pure ⟨r1, s1, ?_, ?_, ?_, ?_⟩ fun hH => ⟨hH.1.1.2, hH.1.2, hH.2⟩
  · show rx.times = 1
    rw [r2]; show max i.x.times x.times = 1; rw [i2, x2]; rfl
  · show ry.times = 1
    rw [s2]; show max i.y.times y.times = 1; rw [i5, y2]; rfl
  · show V AssignedValue.val rx = _
    rw [r3, x3]; exact if_congr Iff.rfl i3 rfl
  · show V AssignedValue.val ry = _
    rw [s3, y3]; exact if_congr Iff.rfl i6 rfl

theorem C_ecc_encode (hv : info.Valid wm) {a : AssignedPoint n} {X Y : ℕ} (hx : Reduced wm info a.x X)
    (hy : Reduced wm info a.y Y) (hz : a.z.val = 1 ∨ a.z.val = 0) (hok : H → OkP h a) :
    C c h H (ecc_encode info a) (fun r => r.map AssignedValue.val =
      encTriple n (if a.z.val = 1 then 0 else X) (if a.z.val = 1 then 0 else Y)) (fun r => ∀ x ∈ r, Ok h x) := by
  unfold ecc_encode
  refine C.bind (C_ecc_reduce_V hv hx hy hz hok) fun q ⟨w1, w2, t1, t2, v1, v2⟩ => ?_
  have hl := hv.limbs_ge
  dsimp only
  have two : ∀ {H : Prop} {a b : AssignedValue n} {k : ZMod n}, (H → Ok h a ∧ Ok h b) →
      H → ∀ e ∈ [(a, (1 : ZMod n)), (b, k)], Ok h e.1 := by
    intro H a b k hab hH e he
    simp only [List.mem_cons, List.not_mem_nil, or_false] at he
    rcases he with rfl | rfl
    exacts [(hab hH).1, (hab hH).2]
  refine C_index_limb w1.len (i := 0) (by omega) fun x0 hx0 => C_index_limb w1.len (i := 1) (by omega) fun x1 hx1 => ?_
  refine C.bind (C_sum _ _ (by simp) (two fun hH => ⟨hH.2.x.limb _ (List.mem_of_getElem? hx0),
    hH.2.x.limb _ (List.mem_of_getElem? hx1)⟩)) fun s0 h0 => ?_
  refine C_index_limb w1.len (i := 2) (by omega) fun x2 hx2 => C_index_limb w2.len (i := 0) (by omega) fun y0 hy0 => ?_
  refine C.bind (C_sum _ _ (by simp) (two fun hH => ⟨hH.1.2.x.limb _ (List.mem_of_getElem? hx2),
    hH.1.2.y.limb _ (List.mem_of_getElem? hy0)⟩)) fun s1 h1 => ?_
  refine C_index_limb w2.len (i := 1) (by omega) fun y1 hy1 => C_index_limb w2.len (i := 2) (by omega) fun y2 hy2 => ?_
  refine C.bind (C_sum _ _ (by simp) (two fun hH => ⟨hH.1.1.2.y.limb _ (List.mem_of_getElem? hy1),
    hH.1.1.2.y.limb _ (List.mem_of_getElem? hy2)⟩)) fun s2 h2 => C.pure ?_ fun hH x hx => ?_
  · rw [← v1, ← v2, triple_eq hv w1 t1 w2 t2 hx0 hx1 hx2 hy0 hy1 hy2]
    simp only [List.map_cons, List.map_nil, h0, h1, h2, hv.limb_bits, sumVal_cons, sumVal_nil, Option.getD_none]
    simp only [zero_add, add_zero, mul_one, mul_comm]
  · simp only [List.mem_cons, List.not_mem_nil, or_false] at hx
    rcases hx with rfl | rfl | rfl
    exacts [hH.1.1.2, hH.1.2, hH.2]

/-- The honest witness. -/
theorem HRep.reduced {a : AssignedInteger n} {x : ZMod wm} (ha : HRep wm info a x) :
    Reduced wm info a x.val := .inl ⟨ha.honest, by rw [← ha.eq, ZMod.val_natCast]⟩

/-- `assign_point` with coordinates that need not be canonical. -/
theorem C_assign_point_wf [Fact n.Prime] [Fact wm.Prime] (hi : RangeInfo.new wm n 18 6 = .ok info)
    (hd : info.d_bits % 108 ≠ 0) {bb : ℕ} (hbb : bb < wm) {X Y : ℕ} (hX : X < 2 ^ info.w_ceil_bits)
    (hY : Y < 2 ^ info.w_ceil_bits) (he : (Y : ZMod wm) ^ 2 = (X : ZMod wm) ^ 3 + bb) :
    C c h H (assign_point info bb (some (X, Y))) (fun r => WF info AssignedValue.val r.x ∧ r.x.times = 1 ∧
      V AssignedValue.val r.x = X ∧ WF info AssignedValue.val r.y ∧ r.y.times = 1 ∧ V AssignedValue.val r.y = Y ∧
      r.z.val = 0) (OkP h) := by
  have hv := RangeInfo.new_valid hi
  unfold assign_point int_square
  have cm : ∀ a : ℕ, ((a % wm : ℕ) : ZMod wm) = a := fun a => ZMod.natCast_mod a wm
  refine C.bind (C_assign_w_wf hv hX) fun x ⟨x1, x2, x3, _⟩ =>
    C.bind (C_assign_w_wf hv hY) fun y ⟨y1, y2, y3, _⟩ =>
    C.bind (C_assign_bit (by split <;> simp)) fun z hz =>
    C.bind ((C17_constant_complete hi bb hbb c h).weaken fun _ => trivial) fun bv hbv =>
    C.bind (C_int_mul_wf hv hd y1 y1 fun hH => ⟨hH.1.1.2, hH.1.1.2⟩) fun y2' hy2 =>
    C.bind (C_int_mul_wf hv hd x1 x1 fun hH => ⟨hH.1.1.1.1.2, hH.1.1.1.1.2⟩) fun x2' hx2 =>
    C.bind (C_int_mul_wf hv hd hx2.1.wf x1 fun hH => ⟨hH.2, hH.1.1.1.1.1.2⟩) fun x3' hx3 =>
    C.bind ((C12_add_complete hi x3' bv _ _ ⟨hx3.1, rfl⟩ hbv.1 (by omega) c h).weaken fun hH => ⟨hH.2, hH.1.1.1.2⟩)
      fun right hright =>
    C.bind ((C16_is_int_equal_complete hi y2' right _ _ ⟨hy2.1, rfl⟩ hright.1 (by omega) c h).weaken fun hH =>
      ⟨hH.1.1.1.2, hH.2⟩) fun eq heq =>
    C.bind (C_or fun hH => ⟨hH.2, hH.1.1.1.1.1.1.2⟩) fun r hr =>
    C.bind (C_assert_true ?_ fun hH => hH.2) fun _ _ =>
    C.pure ⟨x1, x2, x3, y1, y2, y3, by simpa using hz⟩ fun hH =>
      ⟨hH.1.1.1.1.1.1.1.1.1.1.2, hH.1.1.1.1.1.1.1.1.1.2, hH.1.1.1.1.1.1.1.1.2⟩
  rw [hr, hz, heq, if_pos (by
    rw [hy2.2.2, hx3.2.2, hx2.2.2, cm, cm]
    push_cast [cm]
    rw [x3, y3]
    simp only [Option.elim]
    linear_combination he)]
  simp

end Verif
