import Verif.Proof.IntReduce

/-!
# Integer chip: limb-wise operations (addition, subtraction, negation, small multiples, selection, constants)
-/

namespace Verif
variable {n : ℕ} {c : Circuit n} {w h : Advice n} {H : Prop} {info : RangeInfo n} {wm : ℕ}

/-- Well-formedness of an integer built limb by limb. -/
theorem wf_of_limbs (hv : info.Valid wm) {f : AssignedValue n → ZMod n} {l : List (AssignedValue n)}
    {nat : AssignedValue n} {t : ℕ} {y : ℕ → ℕ} (hl : l.length = info.limbs)
    (hall : ∀ i < info.limbs, ∃ x, l[i]? = some x ∧ f x = (y i : ZMod n))
    (hy : ∀ i < info.limbs, y i < t * 2 ^ 108)
    (hsum : ∑ i ∈ Finset.range info.limbs, y i * 2 ^ (108 * i) < t * 2 ^ info.w_ceil_bits)
    (ht : 1 ≤ t) (ht' : t < 64) (hnat : f nat = (VL f l : ZMod n)) :
    WF info f ⟨l, nat, t⟩ ∧ V f ⟨l, nat, t⟩ = ∑ i ∈ Finset.range info.limbs, y i * 2 ^ (108 * i) := by
  have hn := hv.n_gt
  have hyn : ∀ i < info.limbs, y i < n := fun i hi => by
    have h1 := hy i hi
    have h2 : t * 2 ^ 108 ≤ 63 * 2 ^ 108 := Nat.mul_le_mul_right _ (by omega)
    have h3 : 63 * 2 ^ 108 ≤ 2 ^ 233 := by norm_num
    omega
  have hV : VL f l = ∑ i ∈ Finset.range info.limbs, y i * 2 ^ (108 * i) := VL_eq hl hyn hall
  refine ⟨⟨hl, ht, ht', fun i => ?_, ?_, hnat⟩, hV⟩
  · show limbAt f l i < t * 2 ^ 108
    by_cases hi : i < info.limbs
    · rw [limbAt_eq (hyn i hi) (hall i hi)]; exact hy i hi
    · rw [limbAt_none (by omega)]; positivity
  · show VL f l < t * 2 ^ info.w_ceil_bits
    rw [hV]; exact hsum

theorem WF.cast_limb (hv : info.Valid wm) {f : AssignedValue n → ZMod n} {a : AssignedInteger n} {i : ℕ}
    {x : AssignedValue n} (hx : a.limbs_le[i]? = some x) : f x = (limbAt f a.limbs_le i : ZMod n) := by
  have := hv.neZero
  exact (limbAt_cast hx).symm

/-! ## Conditional reduction -/

theorem S_reduce' [Fact n.Prime] (hv : info.Valid wm) (hw : c.Sat w) (a : AssignedInteger n) :
    S c (reduce info a) (fun r => (a.times < 64 → WF info (cv w) a) → WF info (cv w) r ∧ r.times = 1 ∧
      (V (cv w) r : ZMod wm) = V (cv w) a) := by
  by_cases ht : a.times < 64
  · exact (S_reduce hv hw a).mono fun r hr ha => hr (ha ht)
  · unfold reduce
    rw [if_neg (by omega)]
    refine S.bind_rassert fun h' => ?_
    rw [hv.overflow_limit] at h'
    simp at h'
    omega

theorem S_conditionally_reduce [Fact n.Prime] (hv : info.Valid wm) (hw : c.Sat w) (a : AssignedInteger n) :
    S c (conditionally_reduce info a) (fun r => (a.times < 64 → WF info (cv w) a) →
      WF info (cv w) r ∧ r.times ≤ 16 ∧ (V (cv w) r : ZMod wm) = V (cv w) a) := by
  unfold conditionally_reduce
  rw [hv.overflow_bits]
  split
  · exact (S_reduce' hv hw a).mono fun r hr ha => by
      obtain ⟨h1, h2, h3⟩ := hr ha
      exact ⟨h1, by omega, h3⟩
  · rename_i ht
    simp only [Nat.reduceSub, Nat.reducePow, gt_iff_lt, not_lt] at ht
    exact S.pure fun ha => ⟨ha (by omega), ht, rfl⟩

theorem C_conditionally_reduce (hv : info.Valid wm) {a : AssignedInteger n} (ha : Honest wm info a)
    (hok : H → OkI h a) :
    C c h H (conditionally_reduce info a) (fun r => Honest wm info r ∧ r.times ≤ 16 ∧
      (V AssignedValue.val r : ZMod wm) = V AssignedValue.val a) (fun r => OkI h r) := by
  unfold conditionally_reduce
  rw [hv.overflow_bits]
  split
  · exact (C_reduce hv ha hok).mono (fun r hr => ⟨hr.1, by omega, by rw [hr.2.2, ZMod.natCast_mod]⟩)
      fun _ _ _ q => q
  · rename_i ht
    simp only [Nat.reduceSub, Nat.reducePow, gt_iff_lt, not_lt] at ht
    exact C.pure ⟨ha, ht, rfl⟩ hok

/-- The postcondition shared by the limb-wise operations. -/
def Good (wm : ℕ) (info : RangeInfo n) (f : AssignedValue n → ZMod n) (r : AssignedInteger n) (v : ZMod wm) :
    Prop := WF info f r ∧ r.times ≤ 16 ∧ (V f r : ZMod wm) = v

/-- Finish a limb-wise operation. -/
theorem S_finish [Fact n.Prime] (hv : info.Valid wm) (hw : c.Sat w) (limbs : List (AssignedValue n)) (t : ℕ) :
    S c (do let native ← native_of info limbs
            conditionally_reduce info ⟨limbs, native, t⟩)
      (fun r => ∀ (y : ℕ → ℕ), limbs.length = info.limbs →
        (∀ i < info.limbs, ∃ x, limbs[i]? = some x ∧ cv w x = (y i : ZMod n)) → 1 ≤ t →
        (t < 64 → ∀ i < info.limbs, y i < t * 2 ^ 108) →
        (t < 64 → ∑ i ∈ Finset.range info.limbs, y i * 2 ^ (108 * i) < t * 2 ^ info.w_ceil_bits) →
        (∀ i < info.limbs, y i < n) →
        Good wm info (cv w) r ((∑ i ∈ Finset.range info.limbs, y i * 2 ^ (108 * i) : ℕ) : ZMod wm)) := by
  refine S.bind (S_native_of hv hw _) fun nat => ?_
  refine (S_conditionally_reduce hv hw _).mono fun r hr hnat y hl hall ht hy hsum hyn => ?_
  have := hr fun ht' => (wf_of_limbs hv hl hall (hy ht') (hsum ht') ht ht' (hnat hl)).1
  refine ⟨this.1, this.2.1, ?_⟩
  rw [this.2.2, V, VL_eq hl hyn hall]

theorem C_finish (hv : info.Valid wm) {limbs : List (AssignedValue n)} {t : ℕ} {y : ℕ → ℕ}
    (hl : limbs.length = info.limbs)
    (hall : ∀ i < info.limbs, ∃ x, limbs[i]? = some x ∧ x.val = (y i : ZMod n)) (ht : 1 ≤ t) (ht' : t < 64)
    (hy : ∀ i < info.limbs, y i < t * 2 ^ 108)
    (hsum : ∑ i ∈ Finset.range info.limbs, y i * 2 ^ (108 * i) < t * 2 ^ info.w_ceil_bits)
    (hcanon : t = 1 → ∑ i ∈ Finset.range info.limbs, y i * 2 ^ (108 * i) < wm)
    (hok : H → ∀ (i : ℕ) x, limbs[i]? = some x → Ok h x) :
    C c h H (do let native ← native_of info limbs
                conditionally_reduce info ⟨limbs, native, t⟩)
      (fun r => Honest wm info r ∧ r.times ≤ 16 ∧ (V AssignedValue.val r : ZMod wm) =
        ((∑ i ∈ Finset.range info.limbs, y i * 2 ^ (108 * i) : ℕ) : ZMod wm)) (fun r => OkI h r) := by
  have hok' : H → ∀ x ∈ limbs, Ok h x := fun hH x hx => by
    obtain ⟨i, hi⟩ := List.mem_iff_getElem?.1 hx
    exact hok hH i x hi
  refine C.bind (C_native_of hv hl hok') fun nat hnat => ?_
  obtain ⟨h1, h2⟩ := wf_of_limbs hv (f := AssignedValue.val) hl hall hy hsum ht ht' hnat
  refine (C_conditionally_reduce hv ⟨h1, fun h0 => ?_⟩ fun hH => ⟨hok' hH.1, hH.2⟩).mono (fun r hr => ?_)
    fun _ _ _ q => q
  · rw [h2]; exact hcanon h0
  · rw [← h2]; exact hr

theorem bound_n (hv : info.Valid wm) {y : ℕ} (h : y < 2 ^ 120) : y < n := by
  have := hv.n_gt
  norm_num at this h ⊢
  omega

/-! ## Addition -/

theorem add_sum {f : AssignedValue n → ZMod n} {a b : AssignedInteger n} (ha : WF info f a)
    (hb : WF info f b) :
    ∑ i ∈ Finset.range info.limbs, (limbAt f a.limbs_le i + limbAt f b.limbs_le i) * 2 ^ (108 * i)
      = V f a + V f b := by
  rw [V_eq_sum ha.len, V_eq_sum hb.len, ← Finset.sum_add_distrib]
  exact Finset.sum_congr rfl fun i _ => by ring

theorem S_int_add [Fact n.Prime] (hv : info.Valid wm) (hw : c.Sat w) (a b : AssignedInteger n) :
    S c (int_add info a b) (fun r => WF info (cv w) a → WF info (cv w) b →
      Good wm info (cv w) r ((V (cv w) a : ZMod wm) + V (cv w) b)) := by
  unfold int_add
  refine S.bind (S.mapM_range (P := fun i x => cv w x = ((limbAt (cv w) a.limbs_le i
    + limbAt (cv w) b.limbs_le i : ℕ) : ZMod n)) fun i _ => ?_) fun limbs => ?_
  · refine S.bind_index fun ai hai => S.bind_index fun bi hbi => ?_
    refine (S_add hw ai bi).mono fun r hr => ?_
    push_cast
    rw [← WF.cast_limb hv hai, ← WF.cast_limb hv hbi]
    exact hr
  · refine S.bind_fits_u64 fun _ => (S_finish hv hw limbs _).mono fun r hr hl ha hb => ?_
    have hs := add_sum ha hb
    have := hr (fun i => limbAt (cv w) a.limbs_le i + limbAt (cv w) b.limbs_le i) hl.1 hl.2
      (by have := ha.times_pos; omega)
      (fun _ i _ => by rw [Nat.add_mul]; exact Nat.add_lt_add (ha.limb i) (hb.limb i))
      (fun _ => by rw [hs, Nat.add_mul]; exact Nat.add_lt_add ha.val hb.val)
      (fun i _ => bound_n hv (by
        have h1 := ha.limb i
        have h2 := hb.limb i
        have h3 : a.times * 2 ^ 108 ≤ 63 * 2 ^ 108 := Nat.mul_le_mul_right _ (by have := ha.times_lt; omega)
        have h4 : b.times * 2 ^ 108 ≤ 63 * 2 ^ 108 := Nat.mul_le_mul_right _ (by have := hb.times_lt; omega)
        norm_num at *
        omega))
    rw [hs] at this
    push_cast at this
    exact this

theorem C_int_add (hv : info.Valid wm) {a b : AssignedInteger n} (ha : Honest wm info a)
    (hb : Honest wm info b) (ht : a.times + b.times < 64) (hok : H → OkI h a ∧ OkI h b) :
    C c h H (int_add info a b) (fun r => Honest wm info r ∧ r.times ≤ 16 ∧ (V AssignedValue.val r : ZMod wm)
      = (V AssignedValue.val a : ZMod wm) + V AssignedValue.val b) (fun r => OkI h r) := by
  unfold int_add
  refine C.bind (C.mapM_range (P := fun i x => x.val = ((limbAt AssignedValue.val a.limbs_le i
    + limbAt AssignedValue.val b.limbs_le i : ℕ) : ZMod n)) (Q := fun _ x => Ok h x) fun i hi => ?_)
    fun limbs hl => ?_
  · refine C_index_limb ha.wf.len hi fun ai hai => C_index_limb hb.wf.len hi fun bi hbi => ?_
    refine (C_add fun hH => ⟨(hok hH).1.limb _ (List.mem_of_getElem? hai),
      (hok hH).2.limb _ (List.mem_of_getElem? hbi)⟩).mono (fun r hr => ?_) fun _ _ _ q => q
    push_cast
    rw [← WF.cast_limb hv hai, ← WF.cast_limb hv hbi]
    exact hr
  · have hs := add_sum ha.wf hb.wf
    have h1 := ha.wf.times_pos
    have h2 := hb.wf.times_pos
    refine C.bind_fits_u64 (lt_u64 (by omega)) ?_
    refine (C_finish hv hl.1 hl.2 (by omega) ht
      (fun i _ => by rw [Nat.add_mul]; exact Nat.add_lt_add (ha.wf.limb i) (hb.wf.limb i))
      (by rw [hs, Nat.add_mul]; exact Nat.add_lt_add ha.wf.val hb.wf.val)
      (fun h0 => by omega) fun hH => hH.2).mono (fun r hr => ?_) fun _ _ _ q => q
    rw [hs] at hr
    push_cast at hr
    exact hr

/-! ## Subtraction and negation -/

/-- The multiple of the modulus added before subtracting. -/
theorem table_get (hv : info.Valid wm) {t : ℕ} (ht : 1 ≤ t) (ht' : t < 64) : ∃ u : ℕ → ℕ,
    (∃ us, info.w_modulus_of_ceil_times[t]? = some (some us) ∧ us.length = info.limbs ∧
      ∀ i < info.limbs, us[i]? = some (u i : ZMod n)) ∧
    (∀ i < info.limbs - 1, 2 ^ 108 * t ≤ u i) ∧
    2 ^ (info.w_ceil_bits % 108) * t ≤ u (info.limbs - 1) ∧
    (∀ i < info.limbs, u i < (t + 1) * 2 ^ 108) ∧
    wm ∣ ∑ i ∈ Finset.range info.limbs, u i * 2 ^ (108 * i) ∧
    ∑ i ∈ Finset.range info.limbs, u i * 2 ^ (108 * i) < (t + 1) * 2 ^ info.w_ceil_bits := by
  obtain ⟨us, h1, h2, h3, h4, h5, -, h7⟩ := hv.table t ht ht'
  have hk := hv.limbs_ge
  have hget : ∀ i < info.limbs, us[i]? = some (us.getD i 0) := fun i hi => by
    rw [List.getD_eq_getElem?_getD, List.getElem?_eq_getElem (by omega)]; rfl
  have hlead := h4 _ (hget (info.limbs - 1) (by omega))
  refine ⟨fun i => us.getD i 0, ⟨_, h1, by simpa using h2, fun i hi => by
      rw [List.getElem?_map, hget i hi]; rfl⟩,
    fun i hi => (h3 i _ (hget i (by omega)) hi).1, hlead.1, fun i hi => ?_, ?_, ?_⟩
  · by_cases hi' : i < info.limbs - 1
    · rw [mul_comm]; exact (h3 i _ (hget i hi) hi').2
    · obtain rfl : i = info.limbs - 1 := by omega
      refine hlead.2.trans_le ?_
      rw [mul_comm]
      exact Nat.mul_le_mul_left _ (Nat.pow_le_pow_right (by norm_num) (by omega))
  · rw [value_eq_sum, h2] at h5; exact h5
  · rw [value_eq_sum, h2] at h7; rw [mul_comm (t + 1)]; exact h7

theorem table_ge (hv : info.Valid wm) {f : AssignedValue n → ZMod n} {b : AssignedInteger n}
    (hb : WF info f b) {u : ℕ → ℕ} (h1 : ∀ i < info.limbs - 1, 2 ^ 108 * b.times ≤ u i)
    (h2 : 2 ^ (info.w_ceil_bits % 108) * b.times ≤ u (info.limbs - 1)) {i : ℕ} (hi : i < info.limbs) :
    limbAt f b.limbs_le i ≤ u i := by
  by_cases hi' : i < info.limbs - 1
  · have := hb.limb i
    have := h1 i hi'
    rw [mul_comm] at this
    omega
  · obtain rfl : i = info.limbs - 1 := by omega
    have := hb.lead hv
    rw [mul_comm] at h2
    omega

/-- Subtraction with the table entry, summed up. -/
theorem sub_sum {k : ℕ} {u a b : ℕ → ℕ} (h : ∀ i < k, b i ≤ u i) :
    ∑ i ∈ Finset.range k, (u i + a i - b i) * 2 ^ (108 * i) + ∑ i ∈ Finset.range k, b i * 2 ^ (108 * i)
      = ∑ i ∈ Finset.range k, u i * 2 ^ (108 * i) + ∑ i ∈ Finset.range k, a i * 2 ^ (108 * i) := by
  rw [← Finset.sum_add_distrib, ← Finset.sum_add_distrib]
  refine Finset.sum_congr rfl fun i hi => ?_
  have := h i (Finset.mem_range.1 hi)
  rw [← Nat.add_mul, ← Nat.add_mul]
  congr 1
  omega

theorem sub_cast {x u a b : ℕ} (h : x + b = u + a) (hu : wm ∣ u) :
    (x : ZMod wm) = (a : ZMod wm) - b := by
  have h1 := congrArg (Nat.cast : ℕ → ZMod wm) h
  push_cast at h1
  rw [(ZMod.natCast_eq_zero_iff u wm).2 hu] at h1
  linear_combination h1

theorem S_int_sub [Fact n.Prime] (hv : info.Valid wm) (hw : c.Sat w) (a b : AssignedInteger n) :
    S c (int_sub info a b) (fun r => WF info (cv w) a → WF info (cv w) b →
      Good wm info (cv w) r ((V (cv w) a : ZMod wm) - V (cv w) b)) := by
  unfold int_sub
  refine S.bind_index fun o ho => S.bind_unwrap fun us hus => ?_
  subst hus
  refine S.bind (S.mapM_range (P := fun i x => ∀ ui, us[i]? = some ui → cv w x = ui +
    (limbAt (cv w) a.limbs_le i : ZMod n) - (limbAt (cv w) b.limbs_le i : ZMod n)) fun i _ => ?_) fun limbs => ?_
  · refine S.bind_index fun ai hai => S.bind_index fun bi hbi => S.bind_index fun ui hui => ?_
    refine (S_sum hw _ _).mono fun r hr ui' hui' => ?_
    rw [hui] at hui'
    cases hui'
    rw [← WF.cast_limb hv hai, ← WF.cast_limb hv hbi]
    show w r.cell = _
    rw [hr]
    simp [cv]; ring
  · refine S.bind_fits_u64 fun _ => S.bind_fits_u64 fun _ => (S_finish hv hw limbs _).mono fun r hr hl ha hb => ?_
    obtain ⟨u, ⟨us', g1, g2, g3⟩, g4, g5, g6, g7, g8⟩ := table_get hv hb.times_pos hb.times_lt
    rw [ho] at g1
    cases g1
    have hge := fun i (hi : i < info.limbs) => table_ge hv hb g4 g5 hi
    have hs := sub_sum (a := limbAt (cv w) a.limbs_le) hge
    rw [← V_eq_sum ha.len, ← V_eq_sum hb.len] at hs
    have := hr (fun i => u i + limbAt (cv w) a.limbs_le i - limbAt (cv w) b.limbs_le i) hl.1
      (fun i hi => by
        obtain ⟨x, hx, hx'⟩ := hl.2 i hi
        refine ⟨x, hx, ?_⟩
        rw [hx' _ (g3 i hi), Nat.cast_sub (by have := hge i hi; omega)]
        push_cast; ring)
      (by omega)
      (fun _ i hi => by
        have h1 := ha.limb i
        have h2 := g6 i hi
        have : (a.times + b.times + 1) * 2 ^ 108 = a.times * 2 ^ 108 + (b.times + 1) * 2 ^ 108 := by ring
        omega)
      (fun _ => by
        have h1 := ha.val
        have : (a.times + b.times + 1) * 2 ^ info.w_ceil_bits
          = a.times * 2 ^ info.w_ceil_bits + (b.times + 1) * 2 ^ info.w_ceil_bits := by ring
        omega)
      (fun i hi => bound_n hv (by
        have h1 := ha.limb i
        have h2 := g6 i hi
        have h3 : a.times * 2 ^ 108 ≤ 63 * 2 ^ 108 := Nat.mul_le_mul_right _ (by have := ha.times_lt; omega)
        have h4 : (b.times + 1) * 2 ^ 108 ≤ 64 * 2 ^ 108 :=
          Nat.mul_le_mul_right _ (by have := hb.times_lt; omega)
        norm_num at *
        omega))
    rw [sub_cast hs g7] at this
    exact this

theorem C_int_sub (hv : info.Valid wm) {a b : AssignedInteger n} (ha : Honest wm info a)
    (hb : Honest wm info b) (ht : a.times + b.times + 1 < 64) (hok : H → OkI h a ∧ OkI h b) :
    C c h H (int_sub info a b) (fun r => Honest wm info r ∧ r.times ≤ 16 ∧ (V AssignedValue.val r : ZMod wm)
      = (V AssignedValue.val a : ZMod wm) - V AssignedValue.val b) (fun r => OkI h r) := by
  unfold int_sub
  obtain ⟨u, ⟨us, g1, g2, g3⟩, g4, g5, g6, g7, g8⟩ := table_get hv hb.wf.times_pos hb.wf.times_lt
  refine C.bind_index g1 (C.bind_unwrap rfl ?_)
  have hge := fun i (hi : i < info.limbs) => table_ge hv hb.wf g4 g5 hi
  have hs := sub_sum (a := limbAt AssignedValue.val a.limbs_le) hge
  rw [← V_eq_sum ha.wf.len, ← V_eq_sum hb.wf.len] at hs
  refine C.bind (C.mapM_range (P := fun i x => x.val = ((u i + limbAt AssignedValue.val a.limbs_le i
    - limbAt AssignedValue.val b.limbs_le i : ℕ) : ZMod n)) (Q := fun _ x => Ok h x) fun i hi => ?_)
    fun limbs hl => ?_
  · refine C_index_limb ha.wf.len hi fun ai hai => C_index_limb hb.wf.len hi fun bi hbi => ?_
    refine C.bind_index (g3 i hi) ?_
    refine (C_sum _ _ (by simp) fun hH e he => ?_).mono (fun r hr => ?_) fun _ _ _ q => q
    · simp only [List.mem_cons, List.not_mem_nil, or_false] at he
      rcases he with rfl | rfl
      · exact (hok hH).1.limb _ (List.mem_of_getElem? hai)
      · exact (hok hH).2.limb _ (List.mem_of_getElem? hbi)
    · rw [Nat.cast_sub (by have := hge i hi; omega)]
      push_cast
      rw [← WF.cast_limb hv hai, ← WF.cast_limb hv hbi, hr]
      simp; ring
  · have h1 := ha.wf.times_pos
    have h2 := hb.wf.times_pos
    refine C.bind_fits_u64 (lt_u64 (by omega)) (C.bind_fits_u64 (lt_u64 (by omega)) ?_)
    refine (C_finish hv hl.1 hl.2 (by omega) ht
      (fun i hi => by
        have h1 := ha.wf.limb i
        have h2 := g6 i hi
        have : (a.times + b.times + 1) * 2 ^ 108 = a.times * 2 ^ 108 + (b.times + 1) * 2 ^ 108 := by ring
        omega)
      (by
        have h1 := ha.wf.val
        have : (a.times + b.times + 1) * 2 ^ info.w_ceil_bits
          = a.times * 2 ^ info.w_ceil_bits + (b.times + 1) * 2 ^ info.w_ceil_bits := by ring
        omega)
      (fun h0 => by omega) fun hH => hH.2).mono (fun r hr => ?_) fun _ _ _ q => q
    rw [sub_cast hs g7] at hr
    exact hr

theorem S_int_neg [Fact n.Prime] (hv : info.Valid wm) (hw : c.Sat w) (b : AssignedInteger n) :
    S c (int_neg info b) (fun r => WF info (cv w) b →
      Good wm info (cv w) r (-(V (cv w) b : ZMod wm))) := by
  unfold int_neg
  refine S.bind_index fun o ho => S.bind_unwrap fun us hus => ?_
  subst hus
  refine S.bind (S.mapM_range (P := fun i x => ∀ ui, us[i]? = some ui → cv w x = ui
    - (limbAt (cv w) b.limbs_le i : ZMod n)) fun i _ => ?_) fun limbs => ?_
  · refine S.bind_index fun bi hbi => S.bind_index fun ui hui => ?_
    refine (S_sum hw _ _).mono fun r hr ui' hui' => ?_
    rw [hui] at hui'
    cases hui'
    rw [← WF.cast_limb hv hbi]
    show w r.cell = _
    rw [hr]
    simp [cv]; ring
  · refine S.bind_fits_u64 fun _ => (S_finish hv hw limbs _).mono fun r hr hl hb => ?_
    obtain ⟨u, ⟨us', g1, g2, g3⟩, g4, g5, g6, g7, g8⟩ := table_get hv hb.times_pos hb.times_lt
    rw [ho] at g1
    cases g1
    have hge := fun i (hi : i < info.limbs) => table_ge hv hb g4 g5 hi
    have hs := sub_sum (a := fun _ => 0) hge
    rw [← V_eq_sum hb.len] at hs
    have := hr (fun i => u i + 0 - limbAt (cv w) b.limbs_le i) hl.1
      (fun i hi => by
        obtain ⟨x, hx, hx'⟩ := hl.2 i hi
        refine ⟨x, hx, ?_⟩
        rw [hx' _ (g3 i hi), Nat.cast_sub (by have := hge i hi; omega)]
        push_cast; ring)
      (by omega)
      (fun _ i hi => by
        have h2 := g6 i hi
        omega)
      (fun _ => by simp only [zero_mul, Finset.sum_const_zero] at hs; omega)
      (fun i hi => bound_n hv (by
        have h2 := g6 i hi
        have h4 : (b.times + 1) * 2 ^ 108 ≤ 64 * 2 ^ 108 :=
          Nat.mul_le_mul_right _ (by have := hb.times_lt; omega)
        norm_num at *
        omega))
    rw [sub_cast hs g7] at this
    simpa using this

theorem C_int_neg (hv : info.Valid wm) {b : AssignedInteger n}
    (hb : Honest wm info b) (ht : b.times + 1 < 64) (hok : H → OkI h b) :
    C c h H (int_neg info b) (fun r => Honest wm info r ∧ r.times ≤ 16 ∧ (V AssignedValue.val r : ZMod wm)
      = -(V AssignedValue.val b : ZMod wm)) (fun r => OkI h r) := by
  unfold int_neg
  obtain ⟨u, ⟨us, g1, g2, g3⟩, g4, g5, g6, g7, g8⟩ := table_get hv hb.wf.times_pos hb.wf.times_lt
  refine C.bind_index g1 (C.bind_unwrap rfl ?_)
  have hge := fun i (hi : i < info.limbs) => table_ge hv hb.wf g4 g5 hi
  have hs := sub_sum (a := fun _ => 0) hge
  rw [← V_eq_sum hb.wf.len] at hs
  refine C.bind (C.mapM_range (P := fun i x => x.val = ((u i + 0
    - limbAt AssignedValue.val b.limbs_le i : ℕ) : ZMod n)) (Q := fun _ x => Ok h x) fun i hi => ?_)
    fun limbs hl => ?_
  · refine C_index_limb hb.wf.len hi fun bi hbi => ?_
    refine C.bind_index (g3 i hi) ?_
    refine (C_sum _ _ (by simp) fun hH e he => ?_).mono (fun r hr => ?_) fun _ _ _ q => q
    · simp only [List.mem_cons, List.not_mem_nil, or_false] at he
      rcases he with rfl
      exact (hok hH).limb _ (List.mem_of_getElem? hbi)
    · rw [Nat.cast_sub (by have := hge i hi; omega)]
      push_cast
      rw [← WF.cast_limb hv hbi, hr]
      simp; ring
  · have h2 := hb.wf.times_pos
    refine C.bind_fits_u64 (lt_u64 (by omega)) ?_
    refine (C_finish hv hl.1 hl.2 (by omega) ht
      (fun i hi => by
        have h2 := g6 i hi
        omega)
      (by simp only [zero_mul, Finset.sum_const_zero] at hs; omega)
      (fun h0 => by omega) fun hH => hH.2).mono (fun r hr => ?_) fun _ _ _ q => q
    rw [sub_cast hs g7] at hr
    simpa using hr

/-! ## Small multiples -/

theorem mul_sum {f : AssignedValue n → ZMod n} {a : AssignedInteger n} (ha : WF info f a) (k : ℕ) :
    ∑ i ∈ Finset.range info.limbs, (limbAt f a.limbs_le i * k) * 2 ^ (108 * i) = V f a * k := by
  rw [V_eq_sum ha.len, Finset.sum_mul]
  exact Finset.sum_congr rfl fun i _ => by ring

theorem S_int_mul_small_constant [Fact n.Prime] (hv : info.Valid wm) (hw : c.Sat w) (a : AssignedInteger n)
    (b : ℕ) :
    S c (int_mul_small_constant info a b) (fun r => WF info (cv w) a → 1 ≤ b →
      Good wm info (cv w) r ((V (cv w) a : ZMod wm) * b)) := by
  unfold int_mul_small_constant
  refine S.bind_rassert fun hb => S.bind_fits_u64 fun _ => ?_
  rw [hv.overflow_bits] at hb
  simp only [Nat.reduceSub, Nat.reducePow, decide_eq_true_eq] at hb
  refine S.bind (P := fun a' => WF info (cv w) a → WF info (cv w) a' ∧
    (V (cv w) a' : ZMod wm) = V (cv w) a) ?_ fun a' => ?_
  · refine S.ite (fun _ => (S_reduce hv hw a).mono fun r hr ha => ⟨(hr ha).1, (hr ha).2.2⟩)
      fun _ => S.pure fun ha => ⟨ha, rfl⟩
  refine S.bind (S.mapM_range (P := fun i x => cv w x = ((limbAt (cv w) a'.limbs_le i * b : ℕ) : ZMod n))
    fun i _ => ?_) fun limbs => ?_
  · refine S.bind_index fun ai hai => ?_
    refine (S_sum hw _ _).mono fun r hr => ?_
    push_cast
    rw [← WF.cast_limb hv hai]
    show w r.cell = _
    rw [hr]; simp [cv]
  · refine S.bind_fits_u64 fun _ => (S_finish hv hw limbs _).mono fun r hr hl ha' ha h1 => ?_
    obtain ⟨ha1, ha2⟩ := ha' ha
    have hs := mul_sum ha1 b
    have := hr (fun i => limbAt (cv w) a'.limbs_le i * b) hl.1 hl.2
      (Nat.mul_pos ha1.times_pos h1)
      (fun _ i _ => by
        rw [Nat.mul_right_comm]
        exact Nat.mul_lt_mul_of_pos_right (ha1.limb i) h1)
      (fun _ => by
        rw [hs, Nat.mul_right_comm]
        exact Nat.mul_lt_mul_of_pos_right ha1.val h1)
      (fun i _ => bound_n hv (by
        have h1 := ha1.limb i
        have h3 : a'.times * 2 ^ 108 ≤ 63 * 2 ^ 108 := Nat.mul_le_mul_right _ (by have := ha1.times_lt; omega)
        have h5 : limbAt (cv w) a'.limbs_le i * b ≤ (63 * 2 ^ 108) * 15 := Nat.mul_le_mul (by omega) (by omega)
        norm_num at *
        omega))
    rw [hs] at this
    push_cast at this
    rw [ha2] at this
    exact this

theorem C_int_mul_small_constant (hv : info.Valid wm) {a : AssignedInteger n} {b : ℕ}
    (ha : Honest wm info a) (hb : 1 ≤ b) (hb' : b < 16) (hok : H → OkI h a) :
    C c h H (int_mul_small_constant info a b) (fun r => Honest wm info r ∧ r.times ≤ 16 ∧
      (V AssignedValue.val r : ZMod wm) = (V AssignedValue.val a : ZMod wm) * b) (fun r => OkI h r) := by
  unfold int_mul_small_constant
  rw [hv.overflow_bits, hv.overflow_limit]
  refine C.bind_rassert (by simpa using hb') ?_
  refine C.bind_fits_u64 (lt_u64 (Nat.lt_of_le_of_lt (Nat.mul_le_mul_left _ hb'.le) (by have := ha.wf.times_lt; omega))) ?_
  refine C.bind (P := fun a' => Honest wm info a' ∧ a'.times * b < 64 ∧
    (V AssignedValue.val a' : ZMod wm) = V AssignedValue.val a) (Q := fun a' => OkI h a') ?_ fun a' ha' => ?_
  · split
    · refine (C_reduce hv ha hok).mono (fun r hr => ⟨hr.1, ?_, ?_⟩) fun _ _ _ q => q
      · rw [hr.2.1]; omega
      · rw [hr.2.2, ZMod.natCast_mod]
    · exact C.pure ⟨ha, by omega, rfl⟩ hok
  obtain ⟨ha1, ha2, ha3⟩ := ha'
  refine C.bind (C.mapM_range (P := fun i x => x.val = ((limbAt AssignedValue.val a'.limbs_le i * b : ℕ) : ZMod n))
    (Q := fun _ x => Ok h x) fun i hi => ?_) fun limbs hl => ?_
  · refine C_index_limb ha1.wf.len hi fun ai hai => ?_
    refine (C_sum _ _ (by simp) fun hH e he => ?_).mono (fun r hr => ?_) fun _ _ _ q => q
    · simp only [List.mem_cons, List.not_mem_nil, or_false] at he
      rcases he with rfl
      exact hH.2.limb _ (List.mem_of_getElem? hai)
    · push_cast
      rw [← WF.cast_limb hv hai, hr]
      simp
  · have hs := mul_sum ha1.wf b
    refine C.bind_fits_u64 (lt_u64 (by omega)) ?_
    refine (C_finish hv hl.1 hl.2 (Nat.mul_pos ha1.wf.times_pos hb) ha2
      (fun i _ => by
        rw [Nat.mul_right_comm]
        exact Nat.mul_lt_mul_of_pos_right (ha1.wf.limb i) hb)
      (by
        rw [hs, Nat.mul_right_comm]
        exact Nat.mul_lt_mul_of_pos_right ha1.wf.val hb)
      (fun h0 => by
        have h1 := Nat.eq_one_of_mul_eq_one_right h0
        have h2 := Nat.eq_one_of_mul_eq_one_left h0
        rw [hs, h2, Nat.mul_one]
        exact ha1.canon h1) fun hH => hH.2).mono (fun r hr => ?_) fun _ _ _ q => q
    rw [hs] at hr
    push_cast at hr
    rw [ha3] at hr
    exact hr

/-! ## Selection -/

/-- An integer with the same limb values (and a counter that promises less). -/
theorem WF.of_eq {f g : AssignedValue n → ZMod n} {a r : AssignedInteger n} (ha : WF info f a)
    (hl : r.limbs_le.length = info.limbs)
    (hall : ∀ i < info.limbs, limbAt g r.limbs_le i = limbAt f a.limbs_le i)
    (hnat : g r.native = f a.native) (ht : a.times ≤ r.times) (ht' : r.times < 64) :
    WF info g r ∧ V g r = V f a := by
  have hV : V g r = V f a := by
    rw [V_eq_sum hl, V_eq_sum ha.len]
    exact Finset.sum_congr rfl fun i hi => by rw [hall i (Finset.mem_range.1 hi)]
  refine ⟨⟨hl, ha.times_pos.trans ht, ht', fun i => ?_, ?_, ?_⟩, hV⟩
  · by_cases hi : i < info.limbs
    · rw [hall i hi]; exact (ha.limb i).trans_le (Nat.mul_le_mul_right _ ht)
    · rw [limbAt_none (by omega)]
      have := ha.times_pos
      exact Nat.mul_pos (by omega) (by positivity)
  · rw [hV]; exact ha.val.trans_le (Nat.mul_le_mul_right _ ht)
  · rw [hV, hnat, ha.native]

theorem limbAt_cast_lt [NeZero n] {f : AssignedValue n → ZMod n} {l : List (AssignedValue n)} {i : ℕ} :
    limbAt f l i < n := by
  unfold limbAt
  cases l[i]? with
  | none => exact Nat.pos_of_ne_zero (NeZero.ne n)
  | some x => exact ZMod.val_lt _

theorem S_bisec_int [Fact n.Prime] (hv : info.Valid wm) (hw : c.Sat w) (cond : AssignedValue n)
    (a b : AssignedInteger n) :
    S c (bisec_int info cond a b) (fun r => WF info (cv w) a → WF info (cv w) b →
      r.times = max a.times b.times ∧
      (cv w cond = 1 → WF info (cv w) r ∧ V (cv w) r = V (cv w) a) ∧
      (cv w cond = 0 → WF info (cv w) r ∧ V (cv w) r = V (cv w) b)) := by
  unfold bisec_int
  refine S.bind (S.mapM_range (P := fun i x => cv w x = cv w cond * (limbAt (cv w) a.limbs_le i : ZMod n)
    + (1 - cv w cond) * (limbAt (cv w) b.limbs_le i : ZMod n)) fun i _ => ?_) fun limbs => ?_
  · refine S.bind_index fun ai hai => S.bind_index fun bi hbi => ?_
    refine (S_bisec hw cond ai bi).mono fun r hr => ?_
    rw [← WF.cast_limb hv hai, ← WF.cast_limb hv hbi]
    show w r.cell = _
    rw [hr]; simp [cv]
  refine S.bind (S_bisec hw _ _ _) fun nat => S.pure ?_
  intro hnat hl ha hb
  have hne := hv.neZero
  have h1 := ha.times_lt
  have h2 := hb.times_lt
  refine ⟨rfl, fun hc => ?_, fun hc => ?_⟩
  · refine WF.of_eq ha hl.1 (fun i hi => ?_) ?_ (le_max_left _ _) (max_lt h1 h2)
    · refine limbAt_eq limbAt_cast_lt ?_
      obtain ⟨x, hx, e⟩ := hl.2 i hi
      exact ⟨x, hx, by rw [e, hc]; ring⟩
    · show w nat.cell = _
      rw [hnat]
      change w cond.cell = 1 at hc
      rw [hc]; simp [cv]
  · refine WF.of_eq hb hl.1 (fun i hi => ?_) ?_ (le_max_right _ _) (max_lt h1 h2)
    · refine limbAt_eq limbAt_cast_lt ?_
      obtain ⟨x, hx, e⟩ := hl.2 i hi
      exact ⟨x, hx, by rw [e, hc]; ring⟩
    · show w nat.cell = _
      rw [hnat]
      change w cond.cell = 0 at hc
      rw [hc]; simp [cv]

theorem C_bisec_int_wf (hv : info.Valid wm) {cond : AssignedValue n} {a b : AssignedInteger n}
    (ha : WF info AssignedValue.val a) (hb : WF info AssignedValue.val b) (hc : cond.val = 1 ∨ cond.val = 0)
    (hok : H → Ok h cond ∧ OkI h a ∧ OkI h b) :
    C c h H (bisec_int info cond a b) (fun r => WF info AssignedValue.val r ∧ r.times = max a.times b.times ∧
      V AssignedValue.val r = if cond.val = 1 then V AssignedValue.val a else V AssignedValue.val b)
      (fun r => OkI h r) := by
  have hne := hv.neZero
  have h1' : (1 : ZMod n) ≠ 0 := by
    have := hv.n_gt
    have : Fact (1 < n) := ⟨by omega⟩
    exact one_ne_zero
  unfold bisec_int
  refine C.bind (C.mapM_range (P := fun i x => x.val = cond.val * (limbAt AssignedValue.val a.limbs_le i : ZMod n)
    + (1 - cond.val) * (limbAt AssignedValue.val b.limbs_le i : ZMod n)) (Q := fun _ x => Ok h x) fun i hi => ?_)
    fun limbs hl => ?_
  · refine C_index_limb ha.len hi fun ai hai => C_index_limb hb.len hi fun bi hbi => ?_
    refine (C_bisec fun hH => ⟨(hok hH).1, (hok hH).2.1.limb _ (List.mem_of_getElem? hai),
      (hok hH).2.2.limb _ (List.mem_of_getElem? hbi)⟩).mono (fun r hr => ?_) fun _ _ _ q => q
    rw [← WF.cast_limb hv hai, ← WF.cast_limb hv hbi, hr]
  refine C.bind (C_bisec fun hH => ⟨(hok hH.1).1, (hok hH.1).2.1.native, (hok hH.1).2.2.native⟩)
    fun nat hnat => ?_
  have t1 := ha.times_lt
  have t2 := hb.times_lt
  refine C.pure ?_ fun hH => ⟨fun x hx => ?_, hH.2⟩
  · rcases hc with hc | hc
    · obtain ⟨k1, k2⟩ := WF.of_eq (r := ⟨limbs, nat, max a.times b.times⟩) (g := AssignedValue.val)
        ha hl.1 (fun i hi => by
          refine limbAt_eq limbAt_cast_lt ?_
          obtain ⟨x, hx, e⟩ := hl.2 i hi
          exact ⟨x, hx, by rw [e, hc]; ring⟩) (by
          show nat.val = _
          rw [hnat, hc]; ring) (le_max_left _ _) (max_lt t1 t2)
      exact ⟨k1, rfl, by rw [if_pos hc]; exact k2⟩
    · obtain ⟨k1, k2⟩ := WF.of_eq (r := ⟨limbs, nat, max a.times b.times⟩) (g := AssignedValue.val)
        hb hl.1 (fun i hi => by
          refine limbAt_eq limbAt_cast_lt ?_
          obtain ⟨x, hx, e⟩ := hl.2 i hi
          exact ⟨x, hx, by rw [e, hc]; ring⟩) (by
          show nat.val = _
          rw [hnat, hc]; ring) (le_max_right _ _) (max_lt t1 t2)
      exact ⟨k1, rfl, by rw [if_neg (by rw [hc]; exact h1'.symm)]; exact k2⟩
  · obtain ⟨i, hi⟩ := List.mem_iff_getElem?.1 hx
    exact hH.1.2 i x hi

theorem C_bisec_int (hv : info.Valid wm) {cond : AssignedValue n} {a b : AssignedInteger n}
    (ha : Honest wm info a) (hb : Honest wm info b) (hc : cond.val = 1 ∨ cond.val = 0)
    (hok : H → Ok h cond ∧ OkI h a ∧ OkI h b) :
    C c h H (bisec_int info cond a b) (fun r => Honest wm info r ∧ r.times = max a.times b.times ∧
      V AssignedValue.val r = if cond.val = 1 then V AssignedValue.val a else V AssignedValue.val b)
      (fun r => OkI h r) := by
  refine (C_bisec_int_wf hv ha.wf hb.wf hc hok).mono (fun r ⟨h1, h2, h3⟩ => ⟨⟨h1, fun h0 => ?_⟩, h2, h3⟩) fun _ _ _ q => q
  have t1 := ha.wf.times_pos
  have t2 := hb.wf.times_pos
  rw [h3]
  split
  · exact ha.canon (by omega)
  · exact hb.canon (by omega)

/-! ## Constants and reading values -/

theorem const_limbs (hv : info.Valid wm) {x : ℕ} (hx : x < wm) :
    x = ∑ i ∈ Finset.range info.limbs, RangeInfo.limbOf 108 i x * 2 ^ (108 * i) := by
  rw [← sum_limbOf, Nat.mod_eq_of_lt]
  have h1 := hx.trans_le hv.w_hi
  have h2 := hv.wcb
  have h3 := hv.limbs_succ
  exact h1.trans_le (Nat.pow_le_pow_right (by norm_num) (by omega))

theorem const_wf (hv : info.Valid wm) {f : AssignedValue n → ZMod n} {x : ℕ} (hx : x < wm)
    {l : List (AssignedValue n)} {nat : AssignedValue n}
    (hl : List.Forall₂ (fun k r => f r = k) (info.bn_to_limb_le_n x) l)
    (hnat : f nat = ((x % info.n_modulus : ℕ) : ZMod n)) :
    WF info f ⟨l, nat, 1⟩ ∧ V f ⟨l, nat, 1⟩ = x := by
  have hb : (info.bn_to_limb_le_n x).length = info.limbs := by
    simp [RangeInfo.bn_to_limb_le_n, RangeInfo.bn_to_limb_le]
  have hlen : l.length = info.limbs := by rw [← hl.length_eq, hb]
  have hall : ∀ i < info.limbs, ∃ y, l[i]? = some y ∧ f y = (RangeInfo.limbOf 108 i x : ZMod n) := by
    intro i hi
    refine ⟨l[i], List.getElem?_eq_getElem _, ?_⟩
    have := (List.forall₂_iff_get.1 hl).2 i (by omega) (by omega)
    simp only [List.get_eq_getElem] at this
    rw [this]
    simp [RangeInfo.bn_to_limb_le_n, RangeInfo.bn_to_limb_le, hv.limb_bits]
  have hs := const_limbs hv hx
  have hVL : VL f l = x := by
    rw [VL_eq hlen (fun i _ => lt_n_of_lt_limb hv le_rfl (limbOf_lt i x)) hall, ← hs]
  obtain ⟨k1, k2⟩ := wf_of_limbs (t := 1) (nat := nat) hv hlen hall
    (fun i _ => by rw [one_mul]; exact limbOf_lt i x)
    (by rw [← hs, one_mul]; exact hx.trans_le hv.w_hi) le_rfl (by norm_num)
    (by rw [hnat, hVL, hv.n_modulus, ZMod.natCast_mod])
  exact ⟨k1, by rw [k2, ← hs]⟩

theorem S_assign_int_constant [Fact n.Prime] (hv : info.Valid wm) (hw : c.Sat w) (x : ℕ) :
    S c (assign_int_constant info x) (fun r => x < wm →
      WF info (cv w) r ∧ r.times = 1 ∧ V (cv w) r = x) := by
  unfold assign_int_constant
  refine S.bind (S.mapM (P := fun k r => cv w r = k) fun k _ => S_assign_constant hw k) fun l => ?_
  refine S.bind (S_assign_constant hw _) fun nat => S.pure ?_
  intro hnat hl hx
  obtain ⟨h1, h2⟩ := const_wf hv (f := cv w) hx hl hnat
  exact ⟨h1, rfl, h2⟩

theorem C_assign_int_constant (hv : info.Valid wm) {x : ℕ} (hx : x < wm) :
    C c h H (assign_int_constant info x) (fun r => Honest wm info r ∧ r.times = 1 ∧
      V AssignedValue.val r = x) (fun r => OkI h r) := by
  unfold assign_int_constant
  refine C.bind (C.mapM (P := fun k r => r.val = k) (Q := fun _ r => Ok h r) fun k _ => C_assign_constant)
    fun l hl => ?_
  refine C.bind C_assign_constant fun nat hnat => C.pure ?_ fun hH => ⟨fun y hy => ?_, hH.2⟩
  · obtain ⟨h1, h2⟩ := const_wf hv (f := AssignedValue.val) hx hl hnat
    exact ⟨⟨h1, fun _ => by rw [h2]; exact hx⟩, rfl, h2⟩
  · obtain ⟨i, hi⟩ := List.mem_iff_getElem.1 hy
    obtain ⟨hi, rfl⟩ := hi
    have hf := hH.1.2
    exact (List.forall₂_iff_get.1 hf).2 i (by rw [hf.length_eq]; exact hi) hi

theorem C_get_w (hv : info.Valid wm) {a : AssignedInteger n} (ha : a.limbs_le.length = info.limbs) :
    C c h H (get_w info a) (fun r => r = V AssignedValue.val a % wm) (fun _ => True) := by
  unfold get_w
  refine C.bind (C_get_w_bn hv ha) ?_
  rintro _ rfl
  exact C.pure (by rw [hv.w_modulus]) fun _ => trivial

end Verif
