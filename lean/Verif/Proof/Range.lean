import Verif.Proof.RangeRow

/-!
# Range chip: soundness and completeness of `assign_range` and the limb assignments built on it
-/

namespace Verif

variable {n : ℕ} {c : Circuit n} {w h : Advice n} {H : Prop}

theorem cast_inj_of_lt {a b : ℕ} (ha : a < n) (hb : b < n) (h : (a : ZMod n) = b) : a = b := by
  rw [ZMod.natCast_eq_natCast_iff'] at h
  rwa [Nat.mod_eq_of_lt ha, Nat.mod_eq_of_lt hb] at h

/-- A lookup with tag `t` bounds the value by `2 ^ t`. -/
theorem inRangeTable_tag (hn : 18 < n) {t : ℕ} (ht : t ≤ 18) {v : ZMod n}
    (h : Circuit.inRangeTable (t : ZMod n) v) : ∃ x : ℕ, x < 2 ^ t ∧ v = x := by
  obtain ⟨t', x, ht', hx, e1, e2⟩ := h
  replace ht' : t' ≤ 18 := ht'
  obtain rfl := cast_inj_of_lt (by omega) (by omega) e1
  exact ⟨x, hx, e2⟩

theorem cast_ne_zero {k : ℕ} (h0 : k ≠ 0) (hk : k < n) : (k : ZMod n) ≠ 0 := by
  intro e
  have : (k : ZMod n) = (0 : ℕ) := by simpa using e
  exact h0 (cast_inj_of_lt hk (by omega) this)

theorem S_one_line_range [Fact n.Prime] (hn : 18 < n) (hw : c.Sat w) {s t : Context n} {bits : ℕ}
    {v0 a : ZMod n} (hb : bits ≤ 18) (k : RangeAdded s t 1 (fix1 bits) (adv1 v0 a)) (e : t.Embeds c) :
    ∃ x : ℕ, x < 2 ^ bits ∧ w ⟨.range, 0, s.range_offset⟩ = x := by
  have row := k.row hw e (i := 0) (by omega)
  have f0 := k.fixed e (i := 0) (by omega) 0
  have f1 := k.fixed e (i := 0) (by omega) 1
  simp only [fix1, Option.getD_some, Nat.add_zero] at f0 f1 row
  have ht := row.tagged
  rw [f1] at ht
  obtain ⟨x, hx, hv⟩ := inRangeTable_tag hn hb ht
  have hg := row.one
  unfold Circuit.rangeGate1 at hg
  rw [f0, hv] at hg
  have h2 : (2 : ZMod n) ≠ 0 := by exact_mod_cast cast_ne_zero (n := n) (k := 2) (by omega) (by omega)
  refine ⟨x, hx, ?_⟩
  have : (2 : ZMod n) * (w ⟨.range, 0, s.range_offset⟩ - x) = 0 := by linear_combination hg
  exact sub_eq_zero.1 ((mul_eq_zero.1 this).resolve_left h2)

theorem two_line_bound {bits : ℕ} (h1 : 36 ≤ bits) (h2 : bits ≤ 72) {x0 x1 x2 x3 : ℕ} (b0 : x0 < 2 ^ 18)
    (b1 : x1 < 2 ^ 18) (b2 : x2 < 2 ^ Records.two_line_tag0 bits)
    (b3 : x3 < 2 ^ Records.two_line_tag1 bits) :
    x0 + x1 * 2 ^ 18 + x2 * 2 ^ 36 + x3 * 2 ^ 54 < 2 ^ bits := by
  interval_cases bits <;> simp [Records.two_line_tag0, Records.two_line_tag1, COMMON_RANGE_BITS] at * <;>
    omega

theorem three_line_bound {bits : ℕ} (h1 : 72 < bits) (h2 : bits ≤ 108) {x0 x1 x2 x3 x4 x5 : ℕ}
    (b0 : x0 < 2 ^ 18) (b1 : x1 < 2 ^ 18) (b2 : x2 < 2 ^ 18) (b3 : x3 < 2 ^ Records.three_line_tag0 bits)
    (b4 : x4 < 2 ^ Records.three_line_tag1 bits) (b5 : x5 < 2 ^ Records.three_line_tag2 bits) :
    x0 + x1 * 2 ^ 18 + x2 * 2 ^ 36 + x3 * 2 ^ 54 + x4 * 2 ^ 72 + x5 * 2 ^ 90 < 2 ^ bits := by
  interval_cases bits <;> simp [Records.three_line_tag0, Records.three_line_tag1,
    Records.three_line_tag2, COMMON_RANGE_BITS] at * <;> omega

theorem two_line_tags {bits : ℕ} (h2 : bits ≤ 72) :
    Records.two_line_tag0 bits ≤ 18 ∧ Records.two_line_tag1 bits ≤ 18 := by
  simp only [Records.two_line_tag0, Records.two_line_tag1, COMMON_RANGE_BITS]
  constructor <;> split <;> omega

theorem three_line_tags {bits : ℕ} (h2 : bits ≤ 108) :
    Records.three_line_tag0 bits ≤ 18 ∧ Records.three_line_tag1 bits ≤ 18 ∧
    Records.three_line_tag2 bits ≤ 18 := by
  simp only [Records.three_line_tag0, Records.three_line_tag1, Records.three_line_tag2, COMMON_RANGE_BITS]
  refine ⟨?_, ?_, ?_⟩ <;> repeat' split
  all_goals omega

theorem S_two_line_range [Fact n.Prime] (hn : 18 < n) (hw : c.Sat w) {s t : Context n} {bits : ℕ}
    {adv} (hb : 36 ≤ bits) (hb' : bits ≤ 72)
    (k : RangeAdded s t 2 (fix2 (Records.two_line_tag0 bits) (Records.two_line_tag1 bits)) adv)
    (e : t.Embeds c) :
    ∃ x : ℕ, x < 2 ^ bits ∧ w ⟨.range, 0, s.range_offset⟩ = x := by
  have row0 := k.row hw e (i := 0) (by omega)
  have row1 := k.row hw e (i := 1) (by omega)
  have f0 := k.fixed e (i := 0) (by omega) 0
  have f1 := k.fixed e (i := 0) (by omega) 1
  have f2 := k.fixed e (i := 1) (by omega) 1
  simp only [fix2, Option.getD_some, Nat.add_zero] at f0 f1 f2 row0
  obtain ⟨t0, t1⟩ := two_line_tags hb'
  have c0 := row0.tagged
  have c1 := row1.tagged
  rw [f1] at c0
  rw [f2] at c1
  obtain ⟨x2, b2, e2⟩ := inRangeTable_tag hn t0 c0
  obtain ⟨x3, b3, e3⟩ := inRangeTable_tag hn t1 c1
  obtain ⟨x0, b0, e0⟩ := inRangeTable_tag hn le_rfl row0.common
  obtain ⟨x1, b1, e1⟩ := inRangeTable_tag hn le_rfl row1.common
  refine ⟨_, two_line_bound hb hb' b0 b1 b2 b3, ?_⟩
  have hg := row0.two
  unfold Circuit.rangeGate2 at hg
  rw [f0, e0, e1, e2, e3] at hg
  have h2 : (2 : ZMod n) ≠ 0 := by exact_mod_cast cast_ne_zero (n := n) (k := 2) (by omega) (by omega)
  have : (2 : ZMod n) * (w ⟨.range, 0, s.range_offset⟩ -
      (x0 + x1 * 2 ^ 18 + x2 * 2 ^ 36 + x3 * 2 ^ 54)) = 0 := by
    linear_combination -hg
  have := sub_eq_zero.1 ((mul_eq_zero.1 this).resolve_left h2)
  rw [this]; push_cast; ring

theorem S_three_line_range [Fact n.Prime] (hn : 18 < n) (hw : c.Sat w) {s t : Context n} {bits : ℕ}
    {adv} (hb : 72 < bits) (hb' : bits ≤ 108)
    (k : RangeAdded s t 3 (fix3 (Records.three_line_tag0 bits) (Records.three_line_tag1 bits)
      (Records.three_line_tag2 bits)) adv)
    (e : t.Embeds c) :
    ∃ x : ℕ, x < 2 ^ bits ∧ w ⟨.range, 0, s.range_offset⟩ = x := by
  have row0 := k.row hw e (i := 0) (by omega)
  have row1 := k.row hw e (i := 1) (by omega)
  have row2 := k.row hw e (i := 2) (by omega)
  have f0 := k.fixed e (i := 0) (by omega) 0
  have f1 := k.fixed e (i := 0) (by omega) 1
  have f2 := k.fixed e (i := 1) (by omega) 1
  have f3 := k.fixed e (i := 2) (by omega) 1
  simp only [fix3, Option.getD_some, Nat.add_zero] at f0 f1 f2 f3 row0
  obtain ⟨t0, t1, t2⟩ := three_line_tags hb'
  have c0 := row0.tagged
  have c1 := row1.tagged
  have c2 := row2.tagged
  rw [f1] at c0
  rw [f2] at c1
  rw [f3] at c2
  obtain ⟨x3, b3, e3⟩ := inRangeTable_tag hn t0 c0
  obtain ⟨x4, b4, e4⟩ := inRangeTable_tag hn t1 c1
  obtain ⟨x5, b5, e5⟩ := inRangeTable_tag hn t2 c2
  obtain ⟨x0, b0, e0⟩ := inRangeTable_tag hn le_rfl row0.common
  obtain ⟨x1, b1, e1⟩ := inRangeTable_tag hn le_rfl row1.common
  obtain ⟨x2, b2, e2⟩ := inRangeTable_tag hn le_rfl row2.common
  refine ⟨_, three_line_bound hb hb' b0 b1 b2 b3 b4 b5, ?_⟩
  have hg := row0.three
  unfold Circuit.rangeGate3 at hg
  rw [f0, e0, e1, e2, e3, e4, e5] at hg
  have h2 : (6 : ZMod n) ≠ 0 := by exact_mod_cast cast_ne_zero (n := n) (k := 6) (by omega) (by omega)
  have : (6 : ZMod n) * (w ⟨.range, 0, s.range_offset⟩ -
      (x0 + x1 * 2 ^ 18 + x2 * 2 ^ 36 + x3 * 2 ^ 54 + x4 * 2 ^ 72 + x5 * 2 ^ 90)) = 0 := by
    linear_combination hg
  have := sub_eq_zero.1 ((mul_eq_zero.1 this).resolve_left h2)
  rw [this]; push_cast; ring

/-- Bit lengths `assign_range_value` accepts, `src/context.rs:974-997`. -/
def RangeBits (bits : ℕ) : Prop := bits ≤ 18 ∨ 36 ≤ bits ∧ bits ≤ 108

theorem resize_length (v : List (ZMod n)) (k : ℕ) : (Records.resize v k).length = k := by
  simp [Records.resize]; omega

/-- The run of `assign_range`: rejected, or 1, 2 or 3 rows. -/
theorem assign_range_run {s : Context n} (hs : s.Fresh) (v : ZMod n × List (ZMod n)) (bits : ℕ) :
    ((¬ RangeBits bits ∨ v.2[0]? = none) ∧ ∃ p, assign_range v bits s = .error p) ∨
    ∃ t, assign_range v bits s = .ok (⟨⟨.range, 0, s.range_offset⟩, v.1⟩, t) ∧
      ((bits ≤ 18 ∧ ∃ v0, v.2[0]? = some v0 ∧ RangeAdded s t 1 (fix1 bits) (adv1 v0 v.1)) ∨
       (36 ≤ bits ∧ bits ≤ 72 ∧ ∃ v0 v1 v2 v3, Records.resize v.2 4 = [v0, v1, v2, v3] ∧
          RangeAdded s t 2 (fix2 (Records.two_line_tag0 bits) (Records.two_line_tag1 bits))
            (adv2 v0 v1 v2 v3 v.1)) ∨
       (72 < bits ∧ bits ≤ 108 ∧ ∃ v0 v1 v2 v3 v4 v5, Records.resize v.2 6 = [v0, v1, v2, v3, v4, v5] ∧
          RangeAdded s t 3 (fix3 (Records.three_line_tag0 bits) (Records.three_line_tag1 bits)
            (Records.three_line_tag2 bits)) (adv3 v0 v1 v2 v3 v4 v5 v.1))) := by
  unfold assign_range Records.assign_range_value
  by_cases h1 : bits ≤ COMMON_RANGE_BITS
  · rw [if_pos h1]
    cases hv : v.2[0]? with
    | none =>
      left
      refine ⟨.inr rfl, .indexOutOfBounds, ?_⟩
      unfold Records.assign_one_line_range_value
      rw [if_neg (by simpa using h1), hv]; rfl
    | some v0 =>
      right
      obtain ⟨t, e1, e2⟩ := one_line_range_run hs (a := v.1) (bits := bits) h1 hv
      rw [e1]
      exact ⟨_, rfl, .inl ⟨h1, v0, rfl, e2⟩⟩
  · rw [if_neg h1]
    by_cases h2 : bits < 2 * COMMON_RANGE_BITS
    · rw [if_pos h2]
      have h1' : ¬ bits ≤ 18 := h1
      have h2' : bits < 36 := h2
      exact .inl ⟨.inl (by unfold RangeBits; omega), _, rfl⟩
    · rw [if_neg h2]
      have h2' : 36 ≤ bits := by have : ¬ bits < 36 := h2; omega
      by_cases h3 : bits ≤ 4 * COMMON_RANGE_BITS
      · rw [if_pos h3]
        right
        have hl := resize_length v.2 4
        match hq : Records.resize v.2 4, hl with
        | [v0, v1, v2, v3], _ =>
          obtain ⟨t, e1, e2⟩ := two_line_range_run hs (a := v.1) (bits := bits) (v0 := v0) (v1 := v1)
            (v2 := v2) (v3 := v3) (l := []) h2' h3
          rw [e1]
          exact ⟨_, rfl, .inr (.inl ⟨h2', h3, v0, v1, v2, v3, rfl, e2⟩)⟩
      · rw [if_neg h3]
        have h3' : 72 < bits := by have : ¬ bits ≤ 72 := h3; omega
        by_cases h4 : bits ≤ 6 * COMMON_RANGE_BITS
        · rw [if_pos h4]
          right
          have hl := resize_length v.2 6
          match hq : Records.resize v.2 6, hl with
          | [v0, v1, v2, v3, v4, v5], _ =>
            obtain ⟨t, e1, e2⟩ := three_line_range_run hs (a := v.1) (bits := bits) (v0 := v0) (v1 := v1)
              (v2 := v2) (v3 := v3) (v4 := v4) (v5 := v5) (l := []) (by omega) h4
            rw [e1]
            exact ⟨_, rfl, .inr (.inr ⟨h3', h4, v0, v1, v2, v3, v4, v5, rfl, e2⟩)⟩
        · rw [if_neg h4]
          have h4' : ¬ bits ≤ 108 := h4
          exact .inl ⟨.inl (by unfold RangeBits; omega), _, rfl⟩

/-- Soundness of `assign_range`: the returned cell holds an integer below `2 ^ bits`, whatever was
handed in. -/
theorem S_assign_range [Fact n.Prime] (hn : 18 < n) (hw : c.Sat w) (v : ZMod n × List (ZMod n))
    (bits : ℕ) :
    S c (assign_range v bits) (fun r => ∃ x : ℕ, x < 2 ^ bits ∧ w r.cell = x) := by
  intro s a t hs hm
  rcases assign_range_run hs v bits with ⟨-, p, hp⟩ | ⟨t', ht', hc⟩
  · rw [hp] at hm; cases hm
  rw [ht'] at hm
  cases hm
  rcases hc with ⟨hb, v0, -, k⟩ | ⟨hb, hb', v0, v1, v2, v3, -, k⟩ | ⟨hb, hb', v0, v1, v2, v3, v4, v5, -, k⟩
  · exact ⟨k.fresh hs, k.grows, fun e => S_one_line_range hn hw hb k e⟩
  · exact ⟨k.fresh hs, k.grows, fun e => S_two_line_range hn hw hb hb' k e⟩
  · exact ⟨k.fresh hs, k.grows, fun e => S_three_line_range hn hw hb hb' k e⟩

/-! ## Completeness -/

/-- The `i`-th 18-bit chunk. -/
def chunk (bn i : ℕ) : ℕ := bn / 2 ^ (i * 18) % 2 ^ 18

theorem chunk_lt (bn i : ℕ) : chunk bn i < 2 ^ 18 := Nat.mod_lt _ (by norm_num)

theorem chunk_eq_zero {bn i : ℕ} (h : bn < 2 ^ (i * 18)) : chunk bn i = 0 := by
  simp [chunk, Nat.div_eq_of_lt h]

theorem chunk_top {bn i b : ℕ} (hb : bn < 2 ^ (i * 18 + b)) : chunk bn i < 2 ^ b := by
  unfold chunk
  refine (Nat.mod_le _ _).trans_lt ?_
  rw [Nat.div_lt_iff_lt_mul (by positivity), ← pow_add, add_comm b]; exact hb

theorem resize_chunks {bn d k : ℕ} (hd : bn < 2 ^ (d * 18)) :
    Records.resize ((List.range d).map fun i => ((chunk bn i : ℕ) : ZMod n)) k
      = (List.range k).map fun i => ((chunk bn i : ℕ) : ZMod n) := by
  unfold Records.resize
  apply List.ext_getElem?
  intro i
  by_cases hi : i < k
  · by_cases hid : i < d
    · rw [List.getElem?_append_left (by simp; omega)]
      simp [hi, hid]
    · have h0 : chunk bn i = 0 := chunk_eq_zero (hd.trans_le (Nat.pow_le_pow_right (by norm_num) (by omega)))
      rw [List.getElem?_append_right (by simp; omega)]
      simp [hi, h0, List.getElem?_replicate]
      omega
  · rw [List.getElem?_eq_none (by simp; omega), List.getElem?_eq_none (by simp; omega)]

theorem chunks2 {bn : ℕ} (h : bn < 2 ^ 72) :
    bn = chunk bn 0 + chunk bn 1 * 2 ^ 18 + chunk bn 2 * 2 ^ 36 + chunk bn 3 * 2 ^ 54 := by
  simp only [chunk, Nat.reduceMul, Nat.reducePow] at *
  omega

theorem chunks3 {bn : ℕ} (h : bn < 2 ^ 108) :
    bn = chunk bn 0 + chunk bn 1 * 2 ^ 18 + chunk bn 2 * 2 ^ 36 + chunk bn 3 * 2 ^ 54
      + chunk bn 4 * 2 ^ 72 + chunk bn 5 * 2 ^ 90 := by
  simp only [chunk, Nat.reduceMul, Nat.reducePow] at *
  omega

theorem inRangeTable_mk {t v : ℕ} (ht : t ≤ 18) (hv : v < 2 ^ t) :
    Circuit.inRangeTable (n := n) t v := ⟨t, v, ht, hv, rfl, rfl⟩

theorem two_line_chunks {bn bits : ℕ} (hb : 36 ≤ bits) (hb' : bits ≤ 72) (h : bn < 2 ^ bits) :
    chunk bn 2 < 2 ^ Records.two_line_tag0 bits ∧ chunk bn 3 < 2 ^ Records.two_line_tag1 bits := by
  simp only [Records.two_line_tag0, Records.two_line_tag1, COMMON_RANGE_BITS]
  constructor
  · split
    · exact chunk_lt _ _
    · apply chunk_top
      convert h using 2; omega
  · split
    · apply chunk_top
      convert h using 2; omega
    · rw [chunk_eq_zero (h.trans_le (Nat.pow_le_pow_right (by norm_num) (by omega)))]; simp

theorem three_line_chunks {bn bits : ℕ} (hb : 72 < bits) (hb' : bits ≤ 108) (h : bn < 2 ^ bits) :
    chunk bn 3 < 2 ^ Records.three_line_tag0 bits ∧ chunk bn 4 < 2 ^ Records.three_line_tag1 bits ∧
    chunk bn 5 < 2 ^ Records.three_line_tag2 bits := by
  simp only [Records.three_line_tag0, Records.three_line_tag1, Records.three_line_tag2, COMMON_RANGE_BITS]
  refine ⟨?_, ?_, ?_⟩
  · rw [if_pos (by omega)]; exact chunk_lt _ _
  · split
    · exact chunk_lt _ _
    · apply chunk_top
      convert h using 2; omega
  · split
    · apply chunk_top
      convert h using 2; omega
    · rw [chunk_eq_zero (h.trans_le (Nat.pow_le_pow_right (by norm_num) (by omega)))]; simp

theorem C_assign_range {bn d bits : ℕ} (hb : RangeBits bits) (hd : bits ≤ d * 18) (hd1 : 1 ≤ d)
    (hbn : bn < 2 ^ bits) :
    C c h H (assign_range (decompose_bn n bn d (2 ^ 18 - 1)) bits) (fun r => r.val = (bn : ZMod n))
      (fun r => Ok h r) := by
  intro s hs
  have hbd : bn < 2 ^ (d * 18) := hbn.trans_le (Nat.pow_le_pow_right (by norm_num) hd)
  have hdec : (decompose_bn n bn d (2 ^ 18 - 1)).2
      = (List.range d).map fun i => ((chunk bn i : ℕ) : ZMod n) := rfl
  have hacc : (decompose_bn n bn d (2 ^ 18 - 1)).1 = (bn : ZMod n) := rfl
  obtain ⟨t, ht, hc⟩ : ∃ t, assign_range (decompose_bn n bn d (2 ^ 18 - 1)) bits s
      = .ok (⟨⟨.range, 0, s.range_offset⟩, (bn : ZMod n)⟩, t) ∧ _ := by
    rcases assign_range_run hs (decompose_bn n bn d (2 ^ 18 - 1)) bits with ⟨hp | hp, -⟩ | h
    · exact absurd hb hp
    · have hd0 : 0 < d := hd1
      rw [hdec] at hp; simp [hd0.ne'] at hp
    · exact h
  rw [hdec, hacc, resize_chunks hbd, resize_chunks hbd] at hc
  rcases hc with ⟨hb1, v0, hv, k⟩ | ⟨hb1, hb2, v0, v1, v2, v3, hv, k⟩ |
    ⟨hb1, hb2, v0, v1, v2, v3, v4, v5, hv, k⟩
  · refine ⟨_, t, ht, k.fresh hs, k.grows, rfl, fun hH e ag => ⟨k.newOk ?_, k.honest ag (i := 0) (by omega) 0⟩⟩
    intro i hi
    obtain rfl : i = 0 := by omega
    have hv0 : v0 = (bn : ZMod n) := by
      have : (0 : ℕ) < d := by omega
      simp [this] at hv
      rw [← hv, chunk, zero_mul, pow_zero, Nat.div_one, Nat.mod_eq_of_lt]
      exact hbn.trans_le (Nat.pow_le_pow_right (by norm_num) hb1)
    subst hv0
    have f0 := k.fixed e (i := 0) (by omega) 0
    have f1 := k.fixed e (i := 0) (by omega) 1
    have a0 := k.honest ag (i := 0) (by omega) 0
    have a1 := k.honest ag (i := 0) (by omega) 1
    have a2 := k.honest ag (i := 0) (by omega) 2
    simp only [fix1, adv1, Option.getD_some, Option.getD_none, Nat.add_zero] at f0 f1 a0 a1 a2
    rw [Nat.add_zero]
    refine ⟨?_, ?_, ?_, ?_, ?_⟩
    · rw [f1, a1]; exact inRangeTable_mk hb1 hbn
    · rw [a2]; exact_mod_cast inRangeTable_mk (n := n) (t := 18) (v := 0) le_rfl (by norm_num)
    · simp [Circuit.rangeGate1, a0, a1]
    · simp [Circuit.rangeGate2, f0]
    · simp [Circuit.rangeGate3, f0]
  · refine ⟨_, t, ht, k.fresh hs, k.grows, rfl, fun hH e ag => ⟨k.newOk ?_, k.honest ag (i := 0) (by omega) 0⟩⟩
    have hv' : [(chunk bn 0 : ZMod n), (chunk bn 1 : ZMod n), (chunk bn 2 : ZMod n), (chunk bn 3 : ZMod n)]
        = [v0, v1, v2, v3] := hv
    injection hv' with q0 hv'; injection hv' with q1 hv'; injection hv' with q2 hv'
    injection hv' with q3 hv'
    subst q0 q1 q2 q3
    obtain ⟨t0, t1⟩ := two_line_tags hb2
    obtain ⟨c2, c3⟩ := two_line_chunks hb1 hb2 hbn
    have f0 := k.fixed e (i := 0) (by omega) 0
    have f1 := k.fixed e (i := 0) (by omega) 1
    have f2 := k.fixed e (i := 1) (by omega) 1
    have f3 := k.fixed e (i := 1) (by omega) 0
    have a0 := k.honest ag (i := 0) (by omega) 0
    have a1 := k.honest ag (i := 0) (by omega) 1
    have a2 := k.honest ag (i := 0) (by omega) 2
    have a3 := k.honest ag (i := 1) (by omega) 1
    have a4 := k.honest ag (i := 1) (by omega) 2
    simp only [fix2, adv2, Option.getD_some, Option.getD_none, Nat.add_zero] at f0 f1 f2 f3 a0 a1 a2 a3 a4
    have hsum : (bn : ZMod n) = chunk bn 0 + chunk bn 1 * 2 ^ 18 + chunk bn 2 * 2 ^ 36
        + chunk bn 3 * 2 ^ 54 := by
      exact_mod_cast congrArg (Nat.cast : ℕ → ZMod n)
        (chunks2 (hbn.trans_le (Nat.pow_le_pow_right (by norm_num) hb2)))
    intro i hi
    obtain rfl | rfl : i = 0 ∨ i = 1 := by omega
    · refine ⟨?_, ?_, ?_, ?_, ?_⟩
      · rw [Nat.add_zero, f1, a1]; exact inRangeTable_mk t0 c2
      · rw [Nat.add_zero, a2]; exact inRangeTable_mk le_rfl (chunk_lt _ _)
      · simp [Circuit.rangeGate1, f0]
      · simp only [Circuit.rangeGate2, Nat.add_zero, f0, a0, a1, a2, a3, a4]
        rw [hsum]; ring
      · simp [Circuit.rangeGate3, f0]
    · refine ⟨?_, ?_, ?_, ?_, ?_⟩
      · rw [f2, a3]; exact inRangeTable_mk t1 c3
      · rw [a4]; exact inRangeTable_mk le_rfl (chunk_lt _ _)
      · simp [Circuit.rangeGate1, f3]
      · simp [Circuit.rangeGate2, f3]
      · simp [Circuit.rangeGate3, f3]
  · refine ⟨_, t, ht, k.fresh hs, k.grows, rfl, fun hH e ag => ⟨k.newOk ?_, k.honest ag (i := 0) (by omega) 0⟩⟩
    have hv' : [(chunk bn 0 : ZMod n), (chunk bn 1 : ZMod n), (chunk bn 2 : ZMod n), (chunk bn 3 : ZMod n),
        (chunk bn 4 : ZMod n), (chunk bn 5 : ZMod n)] = [v0, v1, v2, v3, v4, v5] := hv
    injection hv' with q0 hv'; injection hv' with q1 hv'; injection hv' with q2 hv'
    injection hv' with q3 hv'; injection hv' with q4 hv'; injection hv' with q5 hv'
    subst q0 q1 q2 q3 q4 q5
    obtain ⟨t0, t1, t2⟩ := three_line_tags hb2
    obtain ⟨c3, c4, c5⟩ := three_line_chunks hb1 hb2 hbn
    have f0 := k.fixed e (i := 0) (by omega) 0
    have f1 := k.fixed e (i := 0) (by omega) 1
    have f2 := k.fixed e (i := 1) (by omega) 1
    have f3 := k.fixed e (i := 1) (by omega) 0
    have f4 := k.fixed e (i := 2) (by omega) 1
    have f5 := k.fixed e (i := 2) (by omega) 0
    have a0 := k.honest ag (i := 0) (by omega) 0
    have a1 := k.honest ag (i := 0) (by omega) 1
    have a2 := k.honest ag (i := 0) (by omega) 2
    have a3 := k.honest ag (i := 1) (by omega) 1
    have a4 := k.honest ag (i := 1) (by omega) 2
    have a5 := k.honest ag (i := 2) (by omega) 1
    have a6 := k.honest ag (i := 2) (by omega) 2
    simp only [fix3, adv3, Option.getD_some, Option.getD_none, Nat.add_zero] at f0 f1 f2 f3 f4 f5 a0 a1 a2 a3 a4 a5 a6
    have hsum : (bn : ZMod n) = chunk bn 0 + chunk bn 1 * 2 ^ 18 + chunk bn 2 * 2 ^ 36
        + chunk bn 3 * 2 ^ 54 + chunk bn 4 * 2 ^ 72 + chunk bn 5 * 2 ^ 90 := by
      exact_mod_cast congrArg (Nat.cast : ℕ → ZMod n)
        (chunks3 (hbn.trans_le (Nat.pow_le_pow_right (by norm_num) hb2)))
    intro i hi
    obtain rfl | rfl | rfl : i = 0 ∨ i = 1 ∨ i = 2 := by omega
    · refine ⟨?_, ?_, ?_, ?_, ?_⟩
      · rw [Nat.add_zero, f1, a1]; exact inRangeTable_mk t0 c3
      · rw [Nat.add_zero, a2]; exact inRangeTable_mk le_rfl (chunk_lt _ _)
      · simp [Circuit.rangeGate1, f0]
      · simp [Circuit.rangeGate2, f0]
      · simp only [Circuit.rangeGate3, Nat.add_zero, f0, a0, a1, a2, a3, a4, a5, a6]
        rw [hsum]; ring
    · refine ⟨?_, ?_, ?_, ?_, ?_⟩
      · rw [f2, a3]; exact inRangeTable_mk t1 c4
      · rw [a4]; exact inRangeTable_mk le_rfl (chunk_lt _ _)
      · simp [Circuit.rangeGate1, f3]
      · simp [Circuit.rangeGate2, f3]
      · simp [Circuit.rangeGate3, f3]
    · refine ⟨?_, ?_, ?_, ?_, ?_⟩
      · rw [f4, a5]; exact inRangeTable_mk t2 c5
      · rw [a6]; exact inRangeTable_mk le_rfl (chunk_lt _ _)
      · simp [Circuit.rangeGate1, f5]
      · simp [Circuit.rangeGate2, f5]
      · simp [Circuit.rangeGate3, f5]

/-! ## `assign_common` -/

theorem assign_common_eq (bn : ℕ) :
    (assign_common bn : M n (AssignedValue n)) = assign_range ((bn : ZMod n), [(bn : ZMod n)]) 18 := by
  funext s
  unfold assign_common assign_range Records.assign_range_value
  rw [if_pos (show 18 ≤ COMMON_RANGE_BITS from le_rfl)]
  rcases s.records.assign_one_line_range_value s.range_offset [(bn : ZMod n)] (bn : ZMod n) 18 with _ | _ <;> rfl

theorem S_assign_common [Fact n.Prime] (hn : 18 < n) (hw : c.Sat w) (bn : ℕ) :
    S c (assign_common bn) (fun r => ∃ x : ℕ, x < 2 ^ 18 ∧ w r.cell = x) := by
  rw [assign_common_eq]; exact S_assign_range hn hw _ _

theorem C_assign_common {bn : ℕ} (hbn : bn < 2 ^ 18) :
    C c h H (assign_common bn) (fun r => r.val = (bn : ZMod n)) (fun r => Ok h r) := by
  have : (assign_common bn : M n (AssignedValue n)) = assign_range (decompose_bn n bn 1 (2 ^ 18 - 1)) 18 := by
    rw [assign_common_eq]
    have : bn % 262144 = bn := Nat.mod_eq_of_lt hbn
    simp [decompose_bn, this]
  rw [this]
  exact C_assign_range (.inl le_rfl) (by norm_num) le_rfl hbn

end Verif
