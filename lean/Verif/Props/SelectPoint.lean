import Verif.Proof.SelectComplete
import Verif.Proof.Keys
import Verif.Props.Select

/-!
# C30: a selected point with curvature is the cached one

`assign_cache_point` stores a point with its curvature in the select chip (three integers and two flags, each value
under its own key), `assign_selected_point` reads one back. No code of the library calls
them; they are part of its interface.
-/

namespace Verif
variable {n wm : ℕ} [Fact wm.Prime] {b : ZMod wm} {c : Circuit n} {info : RangeInfo n} {w h : Advice n} {H : Prop}

/-- The point with curvature `p` is cached as candidate `k` of group `g`. -/
def CachedPointC (c : Circuit n) (info : RangeInfo n) (w : Advice n) (g k : ℕ) (p : AssignedPointWithCurvature n) :
    Prop :=
  CachedInt c info w p.x k g 0 ∧ CachedInt c info w p.y k g (info.limbs + 1) ∧
    c.Cached w (encode_offset n g k (2 * (info.limbs + 1))) (w p.z.cell) ∧
    CachedInt c info w p.curvature.v k g (2 * (info.limbs + 1) + 1) ∧
    c.Cached w (encode_offset n g k (3 * (info.limbs + 1) + 1)) (w p.curvature.z.cell)

omit [Fact wm.Prime] in
theorem S_assign_cache_point_c (hw : c.Sat w) (p : AssignedPointWithCurvature n) (g k : ℕ) :
    S c (assign_cache_point info p g k) (fun _ => CachedPointC c info w g k p) :=
  S.bind (S_assign_cache_integer hw _ _ _ _) fun _ => S.bind (S_assign_cache_integer hw _ _ _ _) fun _ =>
    S.bind (S_assign_cache_value hw _ _ _ _) fun _ => S.bind (S_assign_cache_integer hw _ _ _ _) fun _ =>
      (S_assign_cache_value hw _ _ _ _).mono fun _ h5 h4 h3 h2 h1 => ⟨h1, h2, h3, h4, h5⟩

theorem S_assign_selected_point_c (hw : c.Sat w) (hu : c.KeysUnique) (q : AssignedPointWithCurvature n)
    (sel : AssignedValue n) (g : ℕ) :
    S c (assign_selected_point info q sel g) (fun r => ∀ (k : ℕ) (p : AssignedPointWithCurvature n) (P : Pt b),
      w sel.cell = k → CachedPointC c info w g k p →
      (∀ off < 3 * (info.limbs + 1) + 2, c.Bound w (encode_offset n g k off)) → KRep info w p P → KRep info w r P) := by
  refine S.bind (S_assign_selected_integer hw _ _ _ _) fun x => S.bind (S_assign_selected_integer hw _ _ _ _) fun y =>
    S.bind (S_assign_selected_value hw _ _ _ _) fun z => S.bind (S_assign_selected_integer hw _ _ _ _) fun v =>
      S.bind (S_assign_selected_value hw _ _ _ _) fun cz => S.pure fun h5 h4 h3 h2 h1 k p P hk hc hb hP => ?_
  obtain ⟨c1, c2, c3, c4, c5⟩ := hc
  have hk : cv w sel = (k : ZMod n) := hk
  rw [hk] at h1 h2 h3 h4 h5
  have ez : w z.cell = w p.z.cell := hu.cached (hb _ (by omega)).zero
    (h3 _ (encode_select n g k _).symm (hb _ (by omega))) c3
  have ecz : w cz.cell = w p.curvature.z.cell := hu.cached (hb _ (by omega)).zero
    (h5 _ (encode_select n g k _).symm (hb _ (by omega))) c5
  have ev : ∀ t : ZMod wm, Rep wm info w p.curvature.v t → Rep wm info w v t := fun t ht =>
    h4.rep hu c4 (fun j hj => hb _ (by omega)) ht
  obtain ⟨⟨px, py, hx, hy, hz⟩, ⟨t, ht⟩, hcz, hT⟩ := hP
  refine ⟨⟨px, py, h1.rep hu c1 (fun j hj => hb _ (by omega)) hx, h2.rep hu c2 (fun j hj => hb _ (by omega)) hy, ?_⟩,
    ⟨t, ev t ht⟩, ?_, fun X Y hXY => ⟨fun h0 => ?_, fun h0 => ⟨?_, ev _ ((hT X Y hXY).2 h0).2⟩⟩⟩
  · show (w z.cell = 1 ∧ _) ∨ (w z.cell = 0 ∧ _)
    rw [ez]; exact hz
  · show w cz.cell = 0 ∨ w cz.cell = 1
    rw [ecz]; exact hcz
  · show w cz.cell = 1
    rw [ecz]; exact (hT X Y hXY).1 h0
  · show w cz.cell = 0
    rw [ecz]; exact ((hT X Y hXY).2 h0).1

/-- What remains of C30 for points with curvature. Full statement: in every satisfying assignment in which the selector
holds `k`, the selected point (of group `g`) stands for what the point cached under `(g, k)` stands for, tangent
included. Missing, as in `C30_partial`: for the key 0, that lookups are answered by cached values (in `Bound`). The
point `q` handed to `assign_selected_point` only provides the recorded values, and is arbitrary. -/
theorem C30_point_with_curvature_partial (p q : AssignedPointWithCurvature n) (sel : AssignedValue n) (g k : ℕ)
    (hw : c.Sat w) (hu : c.KeysUnique) :
    S c (do assign_cache_point info p g k; assign_selected_point info q sel g) (fun r => ∀ P : Pt b,
      w sel.cell = k → (∀ off < 3 * (info.limbs + 1) + 2, encode_offset n g k off ≠ 0 ∨ (c.LookupsCached w ∧ c.ZeroKeyUnique)) →
      KRep info w p P → KRep info w r P) :=
  S.bind (S_assign_cache_point_c hw p g k) fun _ => (S_assign_selected_point_c hw hu q sel g).mono
    fun _ h1 h2 P hk hb hP => h1 k p P hk h2 hb hP

omit [Fact wm.Prime] in
/-- C30: the same for affine points. -/
theorem C30_point_non_zero_partial (p q : AssignedNonZeroPoint n) (sel : AssignedValue n) (g k : ℕ)
    (hw : c.Sat w) (hu : c.KeysUnique) :
    S c (do assign_cache_point_non_zero info p g k; assign_selected_point_non_zero info q sel g) (fun r => ∀ P : Pt b,
      w sel.cell = k → (∀ off < 2 * (info.limbs + 1), encode_offset n g k off ≠ 0 ∨ (c.LookupsCached w ∧ c.ZeroKeyUnique)) →
      NRep info w p P → NRep info w r P) := by
  refine S.bind (S_assign_cache_point hw p g k) fun _ => S.bind (S_assign_selected_integer hw _ _ _ _) fun x =>
    S.bind (S_assign_selected_integer hw _ _ _ _) fun y => S.pure fun h2 h1 hc P hk hb hP => ?_
  have hk : cv w sel = (k : ZMod n) := hk
  rw [hk] at h1 h2
  obtain ⟨px, py, hx, hy, hP⟩ := hP
  exact ⟨px, py, h1.rep hu hc.1 (fun j hj => hb _ (by omega)) hx, h2.rep hu hc.2 (fun j hj => hb _ (by omega)) hy, hP⟩

/-! ## Completeness -/

theorem C_assign_cache_point_c {p : AssignedPointWithCurvature n} {P : Pt b} (g k : ℕ) (hp : HKRep info p P)
    (tx : p.x.times = 1) (ty : p.y.times = 1) (tv : p.curvature.v.times = 1) (hok : H → OkK h p) :
    C c h H (assign_cache_point info p g k) (fun _ => True) (fun _ => CachedPointC c info h g k p) := by
  obtain ⟨⟨⟨x, y, hx, hy, -⟩, -⟩, ⟨v, hv⟩, -⟩ := hp
  exact C.bind (C_assign_cache_integer _ _ _ tx hx.honest.wf.len fun hH => (hok hH).x) fun _ _ =>
    C.bind (C_assign_cache_integer _ _ _ ty hy.honest.wf.len fun hH => (hok hH.1).y) fun _ _ =>
    C.bind (C_assign_cache_value _ _ _ fun hH => (hok hH.1.1).z) fun _ _ =>
    C.bind (C_assign_cache_integer _ _ _ tv hv.honest.wf.len fun hH => (hok hH.1.1.1).v) fun _ _ =>
    (C_assign_cache_value _ _ _ fun hH => (hok hH.1.1.1.1).cz).mono (fun _ h => h)
      fun _ hH _ hq => ⟨hH.1.1.1.2, hH.1.1.2, hH.1.2, hH.2, hq⟩

theorem C_assign_selected_point_c {p : AssignedPointWithCurvature n} {P : Pt b} {sel : AssignedValue n} {k g' : ℕ} (g : ℕ)
    (hp : HKRep info p P) (tx : p.x.times = 1) (ty : p.y.times = 1) (tv : p.curvature.v.times = 1)
    (hk : ∀ off, sel.val * 2 ^ 128 + encode_offset n g 0 off = encode_offset n g' k off)
    (hok : H → Ok h sel ∧ OkK h p ∧ CachedPointC c info h g' k p) :
    C c h H (assign_selected_point info p sel g) (fun r => HKRep info r P) (OkK h) := by
  obtain ⟨⟨⟨x, y, hx, hy, hz⟩, -⟩, ⟨v, hv⟩, -, hcz, hT⟩ := hp
  refine C.bind (C_assign_selected_integer' _ _ hx tx hk fun hH => ⟨(hok hH).1, (hok hH).2.1.x, (hok hH).2.2.1⟩)
    fun rx h1 => C.bind (C_assign_selected_integer' _ _ hy ty hk fun hH =>
      ⟨(hok hH.1).1, (hok hH.1).2.1.y, (hok hH.1).2.2.2.1⟩) fun ry h2 =>
    C.bind (C_assign_selected_value _ _ fun hH => ?_) fun rz h3 =>
    C.bind (C_assign_selected_integer' _ _ hv tv hk fun hH => ⟨(hok hH.1.1.1).1, (hok hH.1.1.1).2.1.v,
      (hok hH.1.1.1).2.2.2.2.2.1⟩) fun rv h4 =>
    C.bind (C_assign_selected_value _ _ fun hH => ?_) fun rcz h5 =>
    C.pure ⟨⟨⟨x, y, h1.1, h2.1, ?_⟩, ?_, ?_⟩, ⟨v, h4.1⟩, ?_, ?_, fun X Y hXY => ⟨fun h0 => ?_, fun h0 => ⟨?_, ?_⟩⟩⟩
      fun hH => ⟨hH.1.1.1.1.2, hH.1.1.1.2, hH.1.1.2, hH.1.2, hH.2⟩
  · obtain ⟨k1, k2, k3⟩ := hok hH.1.1
    refine ⟨k1, ?_⟩
    rw [hk, ← show h p.z.cell = p.z.val from k2.z]
    exact k3.2.2.1
  · obtain ⟨k1, k2, k3⟩ := hok hH.1.1.1.1
    refine ⟨k1, ?_⟩
    rw [hk, ← show h p.curvature.z.cell = p.curvature.z.val from k2.cz]
    exact k3.2.2.2.2
  · show (rz.val = 1 ∧ _) ∨ (rz.val = 0 ∧ _)
    rw [h3]; exact hz
  · show rx.times ≤ 16
    have := h1.2
    omega
  · show ry.times ≤ 16
    have := h2.2
    omega
  · show rv.times ≤ 16
    have := h4.2
    omega
  · show rcz.val = 0 ∨ rcz.val = 1
    rw [h5]; exact hcz
  · show rcz.val = 1
    rw [h5]; exact (hT X Y hXY).1 h0
  · show rcz.val = 0
    rw [h5]; exact ((hT X Y hXY).2 h0).1
  · have e : v = 3 * X ^ 2 / (2 * Y) := hv.eq.symm.trans ((hT X Y hXY).2 h0).2.eq
    exact e ▸ h4.1

/-- C30, completeness: caching a point with curvature whose integers are reduced and reading it back with a selector
that holds `k` never panics, is accepted, and records the cached point. -/
theorem C30_point_with_curvature_complete {p : AssignedPointWithCurvature n} {P : Pt b} {sel : AssignedValue n} {k : ℕ}
    (g : ℕ) (hp : HKRep info p P) (tx : p.x.times = 1) (ty : p.y.times = 1) (tv : p.curvature.v.times = 1)
    (hk : sel.val = (k : ZMod n)) (hok : H → Ok h sel ∧ OkK h p) :
    C c h H (do assign_cache_point info p g k; assign_selected_point info p sel g) (fun r => HKRep info r P) (OkK h) :=
  C.bind (C_assign_cache_point_c g k hp tx ty tv fun hH => (hok hH).2) fun _ _ =>
    C_assign_selected_point_c g hp tx ty tv (fun _ => by rw [hk, encode_select]) fun hH => ⟨(hok hH.1).1, (hok hH.1).2, hH.2⟩

end Verif
