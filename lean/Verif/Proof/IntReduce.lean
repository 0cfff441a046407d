import Mathlib.Tactic.Zify
import Mathlib.Tactic.Linarith
import Verif.Proof.IntBasic

/-!
# Integer chip: `reduce`
-/

namespace Verif
variable {n : ℕ} {c : Circuit n} {w h : Advice n} {H : Prop} {info : RangeInfo n} {wm : ℕ}

theorem le_foldr_max {x : ℕ} : ∀ {l : List ℕ}, x ∈ l → x ≤ l.foldr Nat.max 0
  | y :: l, hx => by
    rw [List.foldr_cons]
    rcases List.mem_cons.1 hx with rfl | hx
    · exact Nat.le_max_left _ _
    · exact (le_foldr_max hx).trans (Nat.le_max_right _ _)

theorem w_limb_le_max (hv : info.Valid wm) {i : ℕ} (hi : i < info.limbs) :
    RangeInfo.limbOf 108 i wm ≤ info.max_wi :=
  le_foldr_max (List.mem_of_getElem? (w_limb_bn_get hv hi))

theorem RangeInfo.Valid.nf_ge (hv : info.Valid wm) : 231 ≤ info.n_floor_bits := by
  by_contra hlt
  have h1 := hv.n_gt
  have h2 := hv.n_floor.2
  have h3 : (2 : ℕ) ^ (info.n_floor_bits + 1) ≤ 2 ^ 231 := Nat.pow_le_pow_right (by norm_num) (by omega)
  norm_num at h1 h3
  omega

theorem RangeInfo.Valid.reduce_le (hv : info.Valid wm) : info.reduce_check_limbs ≤ info.limbs := by
  have h1 := hv.reduce_limbs
  have h2 := hv.limbs_eq
  have h3 := hv.nf_ge
  omega

theorem RangeInfo.Valid.w_pos (hv : info.Valid wm) : 0 < wm := by
  have := hv.w_lo
  have : 0 < 2 ^ (info.w_ceil_bits - 1) := by positivity
  omega

/-- The modulus split into limbs. -/
theorem RangeInfo.Valid.w_sum (hv : info.Valid wm) :
    wm = ∑ i ∈ Finset.range info.limbs, RangeInfo.limbOf 108 i wm * 2 ^ (108 * i) := by
  rw [← sum_limbOf, Nat.mod_eq_of_lt]
  have h1 := hv.w_hi
  have h2 := hv.wcb
  have h3 := hv.limbs_succ
  exact h1.trans_lt (Nat.pow_lt_pow_right (by norm_num) (by omega))

/-- Partial sums `Σ_{j<k} (d·w_j + r_j − a_j)·B^j`. -/
def redT (wm : ℕ) (d : ℕ) (r a : ℕ → ℕ) (k : ℕ) : ℤ :=
  ∑ j ∈ Finset.range k, ((d : ℤ) * RangeInfo.limbOf 108 j wm + r j - a j) * 2 ^ (108 * j)

theorem redT_succ (wm d : ℕ) (r a : ℕ → ℕ) (k : ℕ) :
    redT wm d r a (k + 1) = redT wm d r a k
      + ((d : ℤ) * RangeInfo.limbOf 108 k wm + r k - a k) * 2 ^ (108 * k) := by
  rw [redT, Finset.sum_range_succ]; rfl

/-- Splitting a weighted sum at position `k`. -/
theorem sum_split_dvd (f : ℕ → ℤ) {k K : ℕ} (hk : k ≤ K) :
    (2 : ℤ) ^ (108 * k) ∣ ∑ j ∈ Finset.range K, f j * 2 ^ (108 * j) -
      ∑ j ∈ Finset.range k, f j * 2 ^ (108 * j) := by
  obtain ⟨m, rfl⟩ := Nat.exists_eq_add_of_le hk
  rw [Finset.sum_range_add, add_sub_cancel_left]
  refine Finset.dvd_sum fun j _ => ?_
  rw [Nat.mul_add, pow_add]
  exact Dvd.intro_left (f (k + j) * 2 ^ (108 * j)) (by ring)

theorem redT_full {K d x y z : ℕ} {r a : ℕ → ℕ}
    (hw : wm = ∑ i ∈ Finset.range K, RangeInfo.limbOf 108 i wm * 2 ^ (108 * i))
    (hx : x = ∑ i ∈ Finset.range K, r i * 2 ^ (108 * i))
    (hy : y = ∑ i ∈ Finset.range K, a i * 2 ^ (108 * i)) (hz : z = d * wm + x) :
    redT wm d r a K = (z : ℤ) - y := by
  have hw' : (wm : ℤ) = ∑ i ∈ Finset.range K, (RangeInfo.limbOf 108 i wm : ℤ) * 2 ^ (108 * i) := by
    conv_lhs => rw [hw]
    push_cast
    rfl
  rw [hz, redT]
  push_cast
  rw [hw', hx, hy]
  push_cast
  rw [Finset.mul_sum, ← Finset.sum_add_distrib, ← Finset.sum_sub_distrib]
  exact Finset.sum_congr rfl fun i _ => by ring

/-- The integer carried out of the previous limb. -/
def lastZ (f : AssignedValue n → ZMod n) : Option (AssignedValue n) → ℤ
  | none => 0
  | some v => (f v).val - 64

theorem S_reduce_limbs [Fact n.Prime] (hv : info.Valid wm) (hw : c.Sat w) (a rem : AssignedInteger n)
    (da : AssignedValue n) (d r dI : ℕ) : ∀ (m i : ℕ) (last : Option (AssignedValue n)),
    S c (reduce_limbs info a rem da d r last (List.range' i m)) (fun _ =>
      WF info (cv w) a → WF info (cv w) rem → rem.times = 1 → dI < 2 ^ 18 → cv w da = (dI : ZMod n) →
      (last = none ↔ i = 0) → (∀ v, last = some v → (cv w v).val < 2 ^ 108) → i + m ≤ info.limbs →
      redT wm dI (limbAt (cv w) rem.limbs_le) (limbAt (cv w) a.limbs_le) i
        = 2 ^ (108 * i) * lastZ (cv w) last →
      ∃ z : ℤ, redT wm dI (limbAt (cv w) rem.limbs_le) (limbAt (cv w) a.limbs_le) (i + m)
        = 2 ^ (108 * (i + m)) * z) := by
  intro m
  induction m with
  | zero =>
    intro i last
    rw [List.range'_zero, reduce_limbs]
    exact S.pure fun _ _ _ _ _ _ _ _ h => ⟨_, h⟩
  | succ m ih =>
    intro i last
    rw [List.range'_succ]
    unfold reduce_limbs
    refine S.bind_index fun wb _ => ?_
    refine S.bind_index fun remi _ => ?_
    refine S.bind_index fun ai hai => ?_
    refine S.bind (S_usub _ _) fun u => ?_
    refine S.bind (S_usub _ _) fun u' => ?_
    refine S.bind (S_div_rem _ _) fun vr => ?_
    refine S.bind_rassert fun _ => ?_
    refine S.bind (S_nonleading hv hw _) fun v => ?_
    refine S.bind_index fun wi hwi => ?_
    refine S.bind_index fun ri hri => ?_
    refine S.bind (S_one_line_with_last hw) fun cells => ?_
    refine (ih (i + 1) (some v)).mono ?_
    rintro _ hih ⟨row, -, facts, hlast⟩ ⟨x, hx, hvx⟩ - - - ha hrem ht hdI hda hnone hlv hle hT
    have hne := hv.neZero
    have hi : i < info.limbs := by omega
    rw [w_limb_get hv hi] at hwi
    cases hwi
    have g := facts.gate
    have c0 := facts.copy 0 da _ rfl
    have c1 := facts.copy 1 ri _ rfl
    have c2 := facts.copy 2 ai _ rfl
    have c4 := hlast v rfl
    have hxv : (cv w v).val = x := by
      rw [cv, hvx, ZMod.val_natCast_of_lt (lt_n_of_lt_limb hv le_rfl hx)]
    have hri' : w ri.cell = (limbAt (cv w) rem.limbs_le i : ZMod n) := (limbAt_cast (f := cv w) hri).symm
    have hai' : w ai.cell = (limbAt (cv w) a.limbs_le i : ZMod n) := (limbAt_cast (f := cv w) hai).symm
    have brem := hrem.limb i
    rw [ht, one_mul] at brem
    have ba := ha.limb i
    have hat := ha.times_lt
    have hwm := w_limb_le_max hv hi
    set W := RangeInfo.limbOf 108 i wm with hW
    set R := limbAt (cv w) rem.limbs_le i with hR
    set A := limbAt (cv w) a.limbs_le i with hA
    have hA63 : A < 63 * 2 ^ 108 := by
      refine ba.trans_le (Nat.mul_le_mul_right _ (by omega))
    have hdW : dI * W ≤ (2 ^ 18 - 1) * info.max_wi := Nat.mul_le_mul (by omega) hwm
    have hredn := hv.red_n
    have hnbig := hv.n_big
    rw [hv.limb_modulus, hv.overflow_limit] at *
    rw [Nat.add_assoc, Nat.add_comm 1 m] at hih
    refine hih ha hrem ht hdI hda (by simp) (fun v' hv' => by cases hv'; rw [hxv]; exact hx) (by omega) ?_
    -- the row, as an equation over the naturals
    have key : (dI : ℤ) * W + R - A + lastZ (cv w) last = 2 ^ 108 * (x - 64) := by
      cases last with
      | none =>
        obtain rfl : i = 0 := hnone.1 rfl
        simp [gateEq, rowFixL, rowFix, pairA, pairU] at g
        rw [c0, c1, c2, c4, hvx, hri', hai'] at g
        change w da.cell = _ at hda
        rw [hda] at g
        have e : ((dI * W + R + 64 * 2 ^ 108 : ℕ) : ZMod n) = ((A + 2 ^ 108 * x : ℕ) : ZMod n) := by
          push_cast
          linear_combination g
        have := cast_inj_of_lt (by omega) (by omega) e
        simp only [lastZ]
        zify at this
        linarith
      | some lv =>
        have hi0 : i ≠ 0 := fun h0 => by simp [h0] at hnone
        have hl := hlv lv rfl
        have c3 := facts.copy 3 lv _ rfl
        simp [gateEq, rowFixL, rowFix, pairA, hi0] at g
        rw [c0, c1, c2, c3, c4, hvx, hri', hai'] at g
        change w da.cell = _ at hda
        rw [hda] at g
        have elv : w lv.cell = ((cv w lv).val : ZMod n) := (ZMod.natCast_zmod_val _).symm
        rw [elv] at g
        have e : ((dI * W + R + (64 * 2 ^ 108 - 64) + (cv w lv).val : ℕ) : ZMod n)
            = ((A + 2 ^ 108 * x : ℕ) : ZMod n) := by
          push_cast
          linear_combination g
        have := cast_inj_of_lt (by omega) (by omega) e
        simp only [lastZ]
        have h64 : (64 * 2 ^ 108 - 64 : ℕ) + 64 = 64 * 2 ^ 108 := by norm_num
        zify at this h64
        linarith
    rw [redT_succ, hT, ← hW, ← hR, ← hA]
    have : lastZ (cv w) (some v) = (x : ℤ) - 64 := by simp [lastZ, hxv]
    rw [this, Nat.mul_succ, pow_add]
    calc _ = 2 ^ (108 * i) * ((dI : ℤ) * W + R - A + lastZ (cv w) last) := by ring
      _ = _ := by rw [key]; ring

/-- Two numbers congruent modulo `n` and modulo `2 ^ k`, both below the lcm, are equal. -/
theorem eq_of_lcm {n k a b : ℕ} (h1 : (a : ZMod n) = b) (h2 : ∃ z : ℤ, (a : ℤ) - b = 2 ^ k * z)
    (ha : a < Nat.lcm n (2 ^ k)) (hb : b < Nat.lcm n (2 ^ k)) : a = b := by
  have e1 : a ≡ b [MOD n] := (ZMod.natCast_eq_natCast_iff _ _ _).1 h1
  have e2 : a ≡ b [MOD 2 ^ k] := by
    obtain ⟨z, hz⟩ := h2
    refine (Nat.modEq_iff_dvd.2 ⟨-z, ?_⟩)
    push_cast
    linarith
  have e3 : a ≡ b [MOD Nat.lcm n (2 ^ k)] := by
    rw [Nat.modEq_iff_dvd] at e1 e2 ⊢
    have := lcm_dvd e1 e2
    rwa [← Int.coe_lcm, Int.lcm_natCast_natCast] at this
  exact Nat.ModEq.eq_of_lt_of_lt e3 ha hb

/-- The reduced value differs from the operand by a multiple of the modulus, and does not exceed it. -/
theorem S_reduce_exact [Fact n.Prime] (hv : info.Valid wm) (hw : c.Sat w) (a : AssignedInteger n) :
    S c (reduce info a) (fun r => WF info (cv w) a → WF info (cv w) r ∧ r.times = 1 ∧
      ∃ d, d * wm + V (cv w) r = V (cv w) a) := by
  unfold reduce
  split
  · exact S.pure fun ha => ⟨ha, ‹_›, 0, by simp⟩
  refine S.bind_rassert fun _ => ?_
  refine S.bind (S_get_w_bn hv _) fun abn => ?_
  refine S.bind (S_div_rem _ _) fun dr => ?_
  refine S.bind (S_assign_w hv hw _) fun rem => ?_
  refine S.bind (S_assign_common (by have := hv.n_gt; omega) hw _) fun da => ?_
  refine S.bind (S_one_line_with_last hw) fun cells => ?_
  rw [List.range_eq_range']
  refine S.bind (P := fun _ => ∀ dI : ℕ, WF info (cv w) a → WF info (cv w) rem → rem.times = 1 →
      dI < 2 ^ 18 → cv w da = (dI : ZMod n) →
      ∃ z : ℤ, redT wm dI (limbAt (cv w) rem.limbs_le) (limbAt (cv w) a.limbs_le) info.reduce_check_limbs
        = 2 ^ (108 * info.reduce_check_limbs) * z) ?_ fun _ => S.pure ?_
  · intro s u t hs hm
    have key := fun dI => S_reduce_limbs (w := w) hv hw a rem da dr.1 dr.2 dI info.reduce_check_limbs 0 none
      s u t hs hm
    refine ⟨(key 0).1, (key 0).2.1, fun e dI ha hr h1 h2 h3 => ?_⟩
    have := (key dI).2.2 e ha hr h1 h2 h3 (by simp) (by simp) (by simpa using hv.reduce_le)
      (by simp [redT, lastZ])
    simpa using this
  · rintro hz ⟨row, -, facts, hlast⟩ ⟨dI, hdI, hda⟩ ⟨hrem, ht⟩ - - ha
    refine ⟨hrem, ht, ?_⟩
    have hne := hv.neZero
    have hsplit := fun (f : ℕ → ℤ) => sum_split_dvd f hv.reduce_le
    have hfull := redT_full (z := dI * wm + V (cv w) rem) hv.w_sum (V_eq_sum (f := cv w) hrem.len)
      (V_eq_sum (f := cv w) ha.len) rfl
    obtain ⟨z, hz⟩ := hz dI ha hrem ht hdI hda
    obtain ⟨z', hz'⟩ := hsplit (fun j => (dI : ℤ) * RangeInfo.limbOf 108 j wm
      + limbAt (cv w) rem.limbs_le j - limbAt (cv w) a.limbs_le j)
    have g := facts.gate
    have c0 := facts.copy 0 da _ rfl
    have c1 := facts.copy 1 rem.native _ rfl
    have c4 := hlast a.native rfl
    simp [gateEq, rowFixL, rowFix, pairA] at g
    have hrn := hrem.native
    have han := ha.native
    simp only [cv] at hrn han
    rw [c0, c1, c4, hda, hrn, han, hv.w_native] at g
    have e : dI * wm + V (cv w) rem = V (cv w) a := by
      refine eq_of_lcm (n := n) (k := 108 * info.reduce_check_limbs) ?_ ⟨z' + z, ?_⟩ ?_ ?_
      · push_cast
        linear_combination g
      · rw [← hfull, _root_.mul_add, ← hz, ← hz']
        simp only [redT]
        ring
      · refine lt_of_lt_of_le ?_ hv.lcm_red
        have h1 := hrem.val
        rw [ht, one_mul] at h1
        have h2 : dI * wm ≤ (2 ^ 18 - 1) * wm := Nat.mul_le_mul_right _ (by omega)
        omega
      · refine lt_of_lt_of_le ?_ hv.lcm_red
        have h1 := ha.val
        have h2 := hv.red_a
        have h3 : a.times * 2 ^ info.w_ceil_bits ≤ 63 * 2 ^ info.w_ceil_bits :=
          Nat.mul_le_mul_right _ (by have := ha.times_lt; omega)
        have h4 : 0 < 2 ^ info.w_ceil_bits := by positivity
        omega
    exact ⟨dI, e⟩

theorem S_reduce [Fact n.Prime] (hv : info.Valid wm) (hw : c.Sat w) (a : AssignedInteger n) :
    S c (reduce info a) (fun r => WF info (cv w) a → WF info (cv w) r ∧ r.times = 1 ∧
      (V (cv w) r : ZMod wm) = V (cv w) a) :=
  (S_reduce_exact hv hw a).mono fun r hr ha => by
    obtain ⟨h1, h2, d, h3⟩ := hr ha
    refine ⟨h1, h2, ?_⟩
    rw [← h3]
    push_cast
    simp

theorem C_reduce_limbs (hv : info.Valid wm) {a rem : AssignedInteger n} {da : AssignedValue n} {d r : ℕ}
    (ha : WF info AssignedValue.val a) (hlen : rem.limbs_le.length = info.limbs)
    (hrem : ∀ i < info.limbs, limbAt AssignedValue.val rem.limbs_le i = RangeInfo.limbOf 108 i r)
    (hd : d < 2 ^ 18) (hda : da.val = (d : ZMod n)) (hr : r < wm)
    (hV : V AssignedValue.val a = d * wm + r) :
    ∀ (m i : ℕ) (last : Option (AssignedValue n)) (H : Prop),
    (H → (∀ x ∈ a.limbs_le, Ok h x) ∧ (∀ x ∈ rem.limbs_le, Ok h x) ∧ Ok h da ∧ ∀ v, last = some v → Ok h v) →
    (last = none ↔ i = 0) → (∀ v, last = some v → v.val.val < 2 ^ 108) → i + m ≤ info.limbs →
    redT wm d (fun i => RangeInfo.limbOf 108 i r) (limbAt AssignedValue.val a.limbs_le) i
        = 2 ^ (108 * i) * lastZ AssignedValue.val last →
    C c h H (reduce_limbs info a rem da d r last (List.range' i m)) (fun _ => True) (fun _ => True) := by
  have hne := hv.neZero
  intro m
  induction m with
  | zero =>
    intro i last H _ _ _ _ _
    rw [List.range'_zero, reduce_limbs]
    exact C.pure trivial fun _ => trivial
  | succ m ih =>
    intro i last H hok hnone hlv hle hT
    rw [List.range'_succ]
    unfold reduce_limbs
    have hi : i < info.limbs := by omega
    refine C.bind_index (w_limb_bn_get hv hi) ?_
    refine C.bind_index (a := RangeInfo.limbOf 108 i r) (by
      rw [RangeInfo.bn_to_limb_le, hv.limb_bits]; simp [hi]) ?_
    refine C_index_limb ha.len hi fun ai hai => ?_
    have hA : ai.val.val = limbAt AssignedValue.val a.limbs_le i := (limbAt_some hai).symm
    have ba := ha.limb i
    have hat := ha.times_lt
    have hwm := w_limb_le_max hv hi
    have hR := limbOf_lt i r
    have hsplit := sum_split_dvd (fun j => (d : ℤ) * RangeInfo.limbOf 108 j wm
      + RangeInfo.limbOf 108 j r - limbAt AssignedValue.val a.limbs_le j) (k := i + 1) (K := info.limbs) hi
    have hrs : r = ∑ j ∈ Finset.range info.limbs, RangeInfo.limbOf 108 j r * 2 ^ (108 * j) := by
      rw [← sum_limbOf, Nat.mod_eq_of_lt]
      have h1 := hr.trans_le hv.w_hi
      have h2 := hv.wcb
      have h3 := hv.limbs_succ
      exact h1.trans_le (Nat.pow_le_pow_right (by norm_num) (by omega))
    have hfull := redT_full (z := d * wm + r) (x := r) hv.w_sum hrs
      (V_eq_sum (f := AssignedValue.val) ha.len) rfl
    rw [hV, sub_self] at hfull
    change _ ∣ redT wm d (fun i => RangeInfo.limbOf 108 i r) (limbAt AssignedValue.val a.limbs_le) _ -
      redT wm d (fun i => RangeInfo.limbOf 108 i r) (limbAt AssignedValue.val a.limbs_le) _ at hsplit
    rw [hfull, zero_sub, dvd_neg, redT_succ, hT, Nat.mul_succ, pow_add] at hsplit
    have hr' : ∃ x, rem.limbs_le[i]? = some x ∧ x.val = (RangeInfo.limbOf 108 i r : ZMod n) := by
      refine ⟨rem.limbs_le[i]'(by omega), List.getElem?_eq_getElem _, ?_⟩
      rw [← hrem i hi, limbAt_cast (List.getElem?_eq_getElem _)]
    rw [hA]
    have hB : (2 : ℕ) ^ 108 = 324518553658426726783156020576256 := by norm_num
    set W := RangeInfo.limbOf 108 i wm with hW
    set R := RangeInfo.limbOf 108 i r with hR'
    set A := limbAt AssignedValue.val a.limbs_le i with hA'
    have hA63 : A < 63 * 2 ^ 108 := by
      refine ba.trans_le (Nat.mul_le_mul_right _ (by omega))
    have hdW : d * W ≤ (2 ^ 18 - 1) * info.max_wi := Nat.mul_le_mul (by omega) hwm
    have hredv := hv.red_v
    rw [hv.limb_modulus, hv.overflow_limit]
    obtain ⟨cr, bo, hcr, hbo, hcr', hcb, hlz⟩ : ∃ cr bo : ℕ,
        (last.elim 0 fun v => v.val.val) = cr ∧ (if i ≠ 0 then 64 else 0) = bo ∧
        cr < 2 ^ 108 ∧ bo ≤ 64 ∧ lastZ AssignedValue.val last = (cr : ℤ) - bo := by
      cases last with
      | none =>
        obtain rfl : i = 0 := hnone.1 rfl
        exact ⟨0, 0, rfl, rfl, by norm_num, by norm_num, by simp [lastZ]⟩
      | some lv =>
        have hi0 : i ≠ 0 := fun h0 => by simp [h0] at hnone
        exact ⟨lv.val.val, 64, rfl, if_pos hi0, hlv lv rfl, le_rfl, by simp [lastZ]⟩
    show C c h H (usub (d * W + R + 2 ^ 108 * 64) A >>= fun u => _) _ _
    refine C_bind_usub (by omega) ?_
    rw [hcr, hbo]
    refine C_bind_usub (by omega) ?_
    refine C_bind_div_rem (by norm_num) ?_
    set u := d * W + R + 2 ^ 108 * 64 - A + cr - bo with hu
    have hu' : (u : ℤ) = d * W + R + 2 ^ 108 * 64 - A + (cr - bo) := by
      rw [hu, Nat.cast_sub (by omega), Nat.cast_add, Nat.cast_sub (by omega)]
      push_cast
      ring
    have hdvd : (2 : ℤ) ^ 108 ∣ u := by
      have : (2 : ℤ) ^ (108 * i) * 2 ^ 108 ∣ 2 ^ (108 * i) * ((d : ℤ) * W + R - A + (cr - bo)) := by
        have e : (2 : ℤ) ^ (108 * i) * ((d : ℤ) * W + R - A + (cr - bo))
            = 2 ^ (108 * i) * lastZ AssignedValue.val last + (d * W + R - A) * 2 ^ (108 * i) := by
          rw [hlz]; ring
        rw [e]; exact hsplit
      have := Int.dvd_of_mul_dvd_mul_left (by positivity) this
      rw [hu']
      have e : (d * W + R + 2 ^ 108 * 64 - A + (cr - bo) : ℤ)
        = (d * W + R - A + (cr - bo)) + 2 ^ 108 * 64 := by ring
      rw [e]
      exact dvd_add this (dvd_mul_right _ _)
    have hdvd' : 2 ^ 108 ∣ u := by exact_mod_cast hdvd
    obtain ⟨x, hx⟩ := hdvd'
    have hxB : x < 2 ^ 108 := by
      by_contra hge
      have : 2 ^ 108 * 2 ^ 108 ≤ 2 ^ 108 * x := Nat.mul_le_mul_left _ (not_lt.1 hge)
      omega
    have hq : u / 2 ^ 108 = x := by rw [hx, Nat.mul_div_cancel_left _ (by norm_num)]
    have hm : u % 2 ^ 108 = 0 := by rw [hx, Nat.mul_mod_right]
    show C c h H (rassert (decide (u % 2 ^ 108 = 0)) >>= fun _ => _) _ _
    refine C.bind_rassert (by rw [hm]; rfl) ?_
    rw [hq]
    refine C.bind (C_nonleading hv hxB) fun v hvx => ?_
    refine C.bind_index (w_limb_get hv hi) ?_
    obtain ⟨ri, hri, hriv⟩ := hr'
    refine C.bind_index hri ?_
    have hxn : x < n := lt_n_of_lt_limb hv le_rfl hxB
    have key : (d : ZMod n) * W + R - A + (cr - bo) + 64 * 2 ^ 108 = 2 ^ 108 * x := by
      rw [hx] at hu'
      have := congrArg (Int.cast : ℤ → ZMod n) hu'
      push_cast at this
      linear_combination -this
    have hai' : ai.val = (A : ZMod n) := (limbAt_cast (f := AssignedValue.val) hai).symm
    refine C.bind (C_one_line_with_last ?_ ?_ ?_) fun cells _ => ?_
    · cases last with
      | none =>
        obtain rfl : i = 0 := hnone.1 rfl
        simp [gateEq, rowFixL, rowFix, rowAdvL, rowAdv, pairA, pairU, ValueSchema.value]
        rw [hda, hriv, hai', hvx]
        simp at hcr hbo
        rw [← hcr, ← hbo] at key
        push_cast at key
        linear_combination key
      | some lv =>
        have hi0 : i ≠ 0 := fun h0 => by simp [h0] at hnone
        simp [gateEq, rowFixL, rowFix, rowAdvL, rowAdv, pairA, ValueSchema.value, hi0]
        rw [hda, hriv, hai', hvx]
        rw [if_pos hi0] at hbo
        simp at hcr
        rw [← hcr, ← hbo, ZMod.natCast_zmod_val] at key
        push_cast at key
        linear_combination key
    · intro hH k v' y hk
      obtain ⟨o1, o2, o3, o4⟩ := hok hH.1
      rcases k with _ | _ | _ | _ | k <;> simp [pairA] at hk
      · obtain ⟨rfl, -⟩ := hk; exact o3
      · obtain ⟨rfl, -⟩ := hk; exact o2 _ (List.mem_of_getElem? hri)
      · obtain ⟨rfl, -⟩ := hk; exact o1 _ (List.mem_of_getElem? hai)
      · cases last with
        | none => simp [pairU] at hk
        | some lv => simp at hk; obtain ⟨rfl, -⟩ := hk; exact o4 _ rfl
    · intro hH v' hv'
      simp [pairA] at hv'
      subst hv'
      exact hH.2
    · refine ih (i + 1) (some v) _ ?_ (by simp) ?_ (by omega) ?_
      · intro hH
        obtain ⟨o1, o2, o3, o4⟩ := hok hH.1.1
        refine ⟨o1, o2, o3, ?_⟩
        rintro v' ⟨⟩
        exact hH.1.2
      · rintro v' ⟨⟩
        rw [hvx, ZMod.val_natCast_of_lt hxn]; exact hxB
      · rw [redT_succ, hT, Nat.mul_succ, pow_add, hlz]
        have : lastZ AssignedValue.val (some v) = (x : ℤ) - 64 := by
          simp [lastZ, hvx, ZMod.val_natCast_of_lt hxn]
        rw [this]
        rw [hx] at hu'
        push_cast at hu'
        have e : (d : ℤ) * W + R - A + (cr - bo) = 2 ^ 108 * (x - 64) := by linarith
        calc _ = 2 ^ (108 * i) * ((d : ℤ) * W + R - A + (cr - bo)) := by ring
          _ = _ := by rw [e]; ring

theorem C_reduce (hv : info.Valid wm) {a : AssignedInteger n} (ha : Honest wm info a) (hok : H → OkI h a) :
    C c h H (reduce info a) (fun r => Honest wm info r ∧ r.times = 1 ∧
      V AssignedValue.val r = V AssignedValue.val a % wm) (fun r => OkI h r) := by
  unfold reduce
  split
  · rename_i ht
    exact C.pure ⟨ha, ht, (Nat.mod_eq_of_lt (ha.canon ht)).symm⟩ hok
  have hne := hv.neZero
  have hat := ha.wf.times_lt
  have hw0 := hv.w_pos
  refine C.bind_rassert (by rw [hv.overflow_limit]; simpa using hat) ?_
  refine C.bind (C_get_w_bn hv ha.wf.len) ?_
  rintro _ rfl
  rw [hv.w_modulus]
  refine C_bind_div_rem (by omega) ?_
  have hd : V AssignedValue.val a / wm < 2 ^ 18 := by
    rw [Nat.div_lt_iff_lt_mul hw0]
    have h1 := ha.wf.val
    have h2 := hv.red_a
    have h3 : a.times * 2 ^ info.w_ceil_bits ≤ 63 * 2 ^ info.w_ceil_bits :=
      Nat.mul_le_mul_right _ (by omega)
    have h4 : 0 < 2 ^ info.w_ceil_bits := by positivity
    omega
  have hdm : V AssignedValue.val a = V AssignedValue.val a / wm * wm + V AssignedValue.val a % wm := by
    rw [Nat.mul_comm]; exact (Nat.div_add_mod _ _).symm
  have hr : V AssignedValue.val a % wm < wm := Nat.mod_lt _ hw0
  refine C.bind (C_assign_w hv hr) fun rem hrem => ?_
  refine C.bind (C_assign_common hd) fun da hda => ?_
  refine C.bind (C_one_line_with_last ?_ ?_ ?_) fun cells _ => ?_
  · simp [gateEq, rowFixL, rowFix, rowAdvL, rowAdv, pairA, ValueSchema.value]
    rw [hda, hrem.1.wf.native, ha.wf.native, hv.w_native, hrem.2.2.1]
    have := congrArg (Nat.cast : ℕ → ZMod n) hdm
    push_cast at this
    linear_combination -this
  · intro hH k v y hk
    rcases k with _ | _ | k <;> simp [pairA] at hk
    · obtain ⟨rfl, -⟩ := hk; exact hH.2
    · obtain ⟨rfl, -⟩ := hk; exact hH.1.2.native
  · intro hH v hv'
    simp at hv'
    subst hv'
    exact (hok hH.1.1.1).native
  · rw [List.range_eq_range']
    refine C.bind (C_reduce_limbs hv ha.wf hrem.1.wf.len hrem.2.2.2 hd hda hr hdm _ 0 none _ ?_ (by simp)
      (by simp) (by simpa using hv.reduce_le) (by simp [redT, lastZ])) fun _ _ => ?_
    · intro hH
      exact ⟨(hok hH.1.1.1.1).limb, hH.1.1.2.limb, hH.1.2, by simp⟩
    · exact C.pure ⟨hrem.1, hrem.2.1, hrem.2.2.1⟩ fun hH => hH.1.1.1.2

end Verif
