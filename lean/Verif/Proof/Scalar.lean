import Verif.Model.Scalar
import Verif.Spec.Bits
import Verif.Props.Base
import Verif.Proof.IntReduce

/-!
# Scalar decomposition: proofs
-/

namespace Verif
variable {n : ℕ} {c : Circuit n} {w h : Advice n} {H : Prop}

theorem chunks_nil {α : Type} (k : ℕ) : chunks k ([] : List α) = [] := by rw [chunks]; simp

theorem chunks_cons {α : Type} {k : ℕ} (hk : k ≠ 0) {l : List α} (hl : l ≠ []) :
    chunks k l = l.take k :: chunks k (l.drop k) := by rw [chunks]; simp [hk, hl]

theorem chunks_flatten {α : Type} {k : ℕ} (hk : k ≠ 0) (l : List α) : (chunks k l).flatten = l := by
  induction hm : l.length using Nat.strong_induction_on generalizing l with
  | _ m ih =>
    by_cases hl : l = []
    · subst hl; rw [chunks_nil]; rfl
    · rw [chunks_cons hk hl, List.flatten_cons, ih _ _ _ rfl, List.take_append_drop]
      have := List.length_pos_iff.2 hl
      simp only [List.length_drop]; omega

theorem chunks_mem_length {α : Type} {k : ℕ} (hk : k ≠ 0) (l : List α) (hd : k ∣ l.length) :
    ∀ x ∈ chunks k l, x.length = k := by
  induction hm : l.length using Nat.strong_induction_on generalizing l with
  | _ m ih =>
    by_cases hl : l = []
    · subst hl; rw [chunks_nil]; simp
    · have h0 := List.length_pos_iff.2 hl
      have h1 := Nat.le_of_dvd h0 hd
      rw [chunks_cons hk hl]
      intro x hx
      rcases List.mem_cons.1 hx with rfl | hx
      · simpa using h1
      · exact ih _ (by simp only [List.length_drop]; omega) _
          (by simpa only [List.length_drop] using Nat.dvd_sub hd (dvd_refl k)) rfl x hx

theorem chunks_length {α : Type} {k : ℕ} (hk : k ≠ 0) (l : List α) :
    (chunks k l).length = (l.length + k - 1) / k := by
  induction hm : l.length using Nat.strong_induction_on generalizing l with
  | _ m ih =>
    by_cases hl : l = []
    · subst hl
      rw [chunks_nil, ← hm]
      exact (Nat.div_eq_of_lt (by simp; omega)).symm
    · have h0 := List.length_pos_iff.2 hl
      rw [chunks_cons hk hl, List.length_cons, ih _ (by simp only [List.length_drop]; omega) _ rfl,
        List.length_drop, hm]
      have e : m + k - 1 = (m - 1) + k := by omega
      rw [e, Nat.add_div_right _ (by omega)]
      congr 1
      by_cases hmk : m ≤ k
      · rw [Nat.div_eq_of_lt (show m - k + k - 1 < k by omega), Nat.div_eq_of_lt (show m - 1 < k by omega)]
      · congr 1; omega

theorem binVal_append (f : AssignedValue n → ZMod n) (a b : List (AssignedValue n)) :
    binVal f (a ++ b) = binVal f a + 2 ^ a.length * binVal f b := by
  induction a with
  | nil => simp [binVal]
  | cons x a ih => simp only [List.cons_append, binVal, ih, List.length_cons, pow_succ]; ring

theorem binVal_replicate_zero (f : AssignedValue n → ZMod n) {z : AssignedValue n} (hz : f z = 0) (k : ℕ) :
    binVal f (List.replicate k z) = 0 := by
  induction k with
  | zero => rfl
  | succ k ih => rw [List.replicate_succ, binVal, ih, hz]; simp

theorem binVal_lt [Fact n.Prime] {f : AssignedValue n → ZMod n} {l : List (AssignedValue n)}
    (hl : ∀ b ∈ l, f b = 0 ∨ f b = 1) : binVal f l < 2 ^ l.length := by
  haveI : Fact (1 < n) := ⟨(Fact.out : n.Prime).one_lt⟩
  induction l with
  | nil => simp [binVal]
  | cons x l ih =>
    have := ih fun b hb => hl b (List.mem_cons_of_mem _ hb)
    have hx : (f x).val ≤ 1 := by
      rcases hl x List.mem_cons_self with e | e <;> rw [e]
      · simp
      · rw [ZMod.val_one]
    rw [binVal, List.length_cons, pow_succ]; omega

theorem binVal_congr {f g : AssignedValue n → ZMod n} {l : List (AssignedValue n)} (hfg : ∀ b ∈ l, f b = g b) :
    binVal f l = binVal g l := by
  induction l with
  | nil => rfl
  | cons x l ih => rw [binVal, binVal, hfg x List.mem_cons_self, ih fun b hb => hfg b (List.mem_cons_of_mem _ hb)]

theorem VL_cons (f : AssignedValue n → ZMod n) (x : AssignedValue n) (l : List (AssignedValue n)) :
    VL f (x :: l) = (f x).val + 2 ^ 108 * VL f l := by
  have key : ∀ B : ℕ, ∑ i ∈ Finset.range (x :: l).length, limbAt f (x :: l) i * B ^ i =
      (f x).val + B * ∑ i ∈ Finset.range l.length, limbAt f l i * B ^ i := by
    intro B
    rw [List.length_cons, Finset.sum_range_succ', Finset.mul_sum, add_comm]
    refine congrArg₂ (· + ·) ?_ (Finset.sum_congr rfl fun i _ => ?_)
    · simp [limbAt]
    · simp only [limbAt, List.getElem?_cons_succ, pow_succ]; ring
  unfold VL
  simp only [pow_mul]
  exact key _

theorem Windows.of_bits {f : AssignedValue n → ZMod n} {ws : ℕ} (hws : ws ≠ 0) {bits : List (AssignedValue n)}
    (hd : ws ∣ bits.length) (hb : ∀ b ∈ bits, f b = 0 ∨ f b = 1) :
    Windows f ws (chunks ws bits).reverse (binVal f bits) where
  len win hwin := chunks_mem_length hws _ hd _ (List.mem_reverse.1 hwin)
  bit win hwin b hbm := hb b (by
    rw [← chunks_flatten hws bits]; exact List.mem_flatten.2 ⟨win, List.mem_reverse.1 hwin, hbm⟩)
  value := by rw [List.reverse_reverse, chunks_flatten hws]

/-! ## Soundness -/

theorem S_assign_bit' [Fact n.Prime] (hw : c.Sat w) (hb : c.BitRowsConsistent w) (v : ZMod n) :
    S c (assign_bit v) (fun r => w r.cell = 0 ∨ w r.cell = 1) := C06_partial v c w hw hb

theorem S_native_bits [Fact n.Prime] (hw : c.Sat w) (hb : c.BitRowsConsistent w) (s_bn : ℕ) (is : List ℕ)
    (v : AssignedValue n) :
    S c (native_bits s_bn is v) (fun r => (∀ b ∈ r.1, cv w b = 0 ∨ cv w b = 1) ∧ r.1.length = 2 * is.length ∧
      w v.cell = (binVal (cv w) r.1 : ZMod n) + 2 ^ r.1.length * w r.2.cell) := by
  induction is generalizing v with
  | nil => exact S.pure ⟨by simp, rfl, by simp [binVal]⟩
  | cons i is ih =>
    unfold native_bits
    refine S.bind (S_assign_bit' hw hb _) fun b0 => S.bind (S_assign_bit' hw hb _) fun b1 =>
      S.bind (S_one_line_with_last hw) fun cells => S.bind S.index fun v' => S.bind (ih v') fun r => S.pure ?_
    rintro ⟨h1, h2, h3⟩ hv' ⟨row, rfl, f, hl⟩ hb1 hb0
    simp [lineCells] at hv'
    subst hv'
    have hg := f.gate
    have k1 := f.copy 1 b1 2 rfl
    have k0 := f.copy 2 b0 1 rfl
    have kv := hl v rfl
    simp only at h3
    row_simp_at hg
    rw [k1, k0, kv, h3] at hg
    refine ⟨?_, by simp [h2]; ring, ?_⟩
    · simp only [List.mem_cons]
      rintro b (rfl | rfl | hbm)
      exacts [hb0, hb1, h1 b hbm]
    · simp only [binVal, List.length_cons, pow_succ]
      push_cast
      rw [ZMod.natCast_zmod_val, ZMod.natCast_zmod_val]
      simp only [cv]
      linear_combination -hg

theorem binVal_zeros (f : AssignedValue n → ZMod n) {l : List (AssignedValue n)} (hl : ∀ z ∈ l, f z = 0) :
    binVal f l = 0 := by
  induction l with
  | nil => rfl
  | cons x l ih => rw [binVal, ih fun z hz => hl z (List.mem_cons_of_mem _ hz), hl x List.mem_cons_self]; simp

theorem pad_length {len ws : ℕ} (hws : ws ≠ 0) (h0 : len % ws ≠ 0) :
    len + (ws - len % ws) = (len + ws - 1) / ws * ws := by
  have hlt := Nat.mod_lt len (Nat.pos_of_ne_zero hws)
  have hdm := Nat.div_add_mod len ws
  have e : (len + ws - 1) / ws = len / ws + 1 := by
    rw [show len + ws - 1 = (len - 1) + ws by omega, Nat.add_div_right _ (by omega)]
    congr 1
    refine (Nat.div_eq_of_lt_le ?_ ?_)
    · rw [mul_comm]; omega
    · rw [Nat.succ_mul, mul_comm]; omega
  rw [e, add_mul, mul_comm (len / ws)]; omega

theorem no_pad_length {len ws : ℕ} (hws : ws ≠ 0) (h0 : len % ws = 0) : len = (len + ws - 1) / ws * ws := by
  obtain ⟨k, rfl⟩ := Nat.dvd_of_mod_eq_zero h0
  rw [show ws * k + ws - 1 = (ws - 1) + ws * k by omega, Nat.add_mul_div_left _ _ (by omega),
    Nat.div_eq_of_lt (by omega)]
  ring

theorem S_pad_bits (hw : c.Sat w) {ws rem : ℕ} {bits : List (AssignedValue n)} (hws : ws ≠ 0) :
    S c (pad_bits ws rem bits) (fun r => rem = bits.length % ws → r.length = (bits.length + ws - 1) / ws * ws ∧
      ∃ ext, r = bits ++ ext ∧ ∀ z ∈ ext, cv w z = 0) := by
  unfold pad_bits
  split
  · rename_i h0
    refine S.bind (S_assign_constant hw 0) fun z => S.pure fun hz hrem => ⟨?_, _, rfl, ?_⟩
    · subst hrem
      rw [List.length_append, List.length_replicate, pad_length hws h0]
    · intro y hy
      rw [List.eq_of_mem_replicate hy]; exact hz
  · rename_i h0
    exact S.pure fun hrem => ⟨no_pad_length hws (by omega), [], by simp, by simp⟩

theorem windows_of_padded {f : AssignedValue n → ZMod n} {ws : ℕ} (hws : ws ≠ 0) {bits r : List (AssignedValue n)}
    (hlen : r.length = (bits.length + ws - 1) / ws * ws) (hr : ∃ ext, r = bits ++ ext ∧ ∀ z ∈ ext, f z = 0)
    (hb : ∀ b ∈ bits, f b = 0 ∨ f b = 1) :
    Windows f ws (chunks ws r).reverse (binVal f bits) ∧
      (chunks ws r).reverse.length = (bits.length + ws - 1) / ws := by
  obtain ⟨ext, rfl, hext⟩ := hr
  have := Windows.of_bits (f := f) hws (bits := bits ++ ext) (by rw [hlen]; exact Dvd.intro_left _ rfl) (by
    intro b hbm
    rcases List.mem_append.1 hbm with h | h
    · exact hb b h
    · exact .inl (hext b h))
  rw [binVal_append, binVal_zeros f hext] at this
  refine ⟨by simpa using this, ?_⟩
  rw [List.length_reverse, chunks_length hws, hlen]
  rw [show (bits.length + ws - 1) / ws * ws + ws - 1 = (ws - 1) + ws * ((bits.length + ws - 1) / ws) by
    rw [mul_comm]; omega, Nat.add_mul_div_left _ _ (by omega), Nat.div_eq_of_lt (show ws - 1 < ws by omega), zero_add]

theorem S_decompose_scalar_native [Fact n.Prime] (hw : c.Sat w) (hb : c.BitRowsConsistent w) {num_bits ws : ℕ}
    (hws : ws ≠ 0) (s : AssignedValue n) :
    S c (decompose_scalar_native num_bits ws s) (fun res =>
      ∃ k, Windows (cv w) ws res k ∧ res.length = (num_bits + ws - 1) / ws ∧ (k : ZMod n) = w s.cell) := by
  unfold decompose_scalar_native
  refine S.bind (S_native_bits hw hb _ _ s) fun r =>
    S.bind (P := fun bits => (∀ b ∈ r.1, cv w b = 0 ∨ cv w b = 1) → r.1.length = 2 * (num_bits / 2) →
      (∀ b ∈ bits, cv w b = 0 ∨ cv w b = 1) ∧ bits.length = num_bits ∧
      (binVal (cv w) bits : ZMod n) = (binVal (cv w) r.1 : ZMod n) + 2 ^ r.1.length * w r.2.cell) ?_ fun bits => ?_
  · split
    · refine S.bind (S_assert_bit hw _) fun _ => S.pure fun hbit hr hlen => ⟨?_, ?_, ?_⟩
      · intro b hbm
        rcases List.mem_append.1 hbm with h | h
        · exact hr b h
        · rw [List.mem_singleton.1 h]; exact hbit
      · simp; omega
      · rw [binVal_append]; simp [binVal, cv]
    · refine S.bind (S_assert_constant hw _ _) fun _ => S.pure fun hz hr hlen => ⟨hr, by omega, by rw [hz]; ring⟩
  · refine S.bind (S_pad_bits hw hws) fun r' => S.pure fun hpad hbits hr => ?_
    obtain ⟨h1, h2, h3⟩ := hbits hr.1 (by simpa using hr.2.1)
    obtain ⟨p1, p2⟩ := hpad (by rw [h2])
    obtain ⟨q1, q2⟩ := windows_of_padded hws p1 p2 h1
    exact ⟨_, q1, by rw [q2, h2], by rw [h3, hr.2.2]⟩

theorem S_limb_bits_loop [Fact n.Prime] (hw : c.Sat w) (hb : c.BitRowsConsistent w) (v : ℕ) (js : List ℕ)
    (rest : AssignedValue n) :
    S c (limb_bits_loop v js rest) (fun r => (∀ b ∈ r.1, cv w b = 0 ∨ cv w b = 1) ∧ r.1.length = js.length ∧
      w rest.cell = (binVal (cv w) r.1 : ZMod n) + 2 ^ r.1.length * w r.2.cell) := by
  induction js generalizing rest with
  | nil => exact S.pure ⟨by simp, rfl, by simp [binVal]⟩
  | cons i is ih =>
    unfold limb_bits_loop
    refine S.bind (S_assign_bit' hw hb _) fun b =>
      S.bind (S_one_line_with_last hw) fun cells => S.bind (ih _) fun r => S.pure ?_
    rintro ⟨h1, h2, h3⟩ ⟨row, rfl, f, -⟩ hb0
    have hg := f.gate
    have k0 := f.copy 0 rest (-1) rfl
    have k1 := f.copy 1 b 1 rfl
    row_simp_at hg
    rw [k0, k1] at hg
    simp only at h3
    refine ⟨?_, by simp [h2], ?_⟩
    · simp only [List.mem_cons]
      rintro b (rfl | hbm)
      exacts [hb0, h1 b hbm]
    · simp only [binVal, List.length_cons, pow_succ]
      push_cast
      rw [ZMod.natCast_zmod_val]
      simp only [cv] at *
      linear_combination -hg + 2 * h3

theorem S_limbs_bits [Fact n.Prime] (hw : c.Sat w) (hb : c.BitRowsConsistent w) {info : RangeInfo n} {wm : ℕ}
    (hv : info.Valid wm) (ls : List (AssignedValue n)) :
    S c (limbs_bits info ls) (fun r => (∀ b ∈ r, cv w b = 0 ∨ cv w b = 1) ∧ r.length = 108 * ls.length ∧
      binVal (cv w) r = VL (cv w) ls) := by
  induction ls with
  | nil => exact S.pure ⟨by simp, rfl, rfl⟩
  | cons l ls ih =>
    unfold limbs_bits
    refine S.bind (S_limb_bits_loop hw hb _ _ l) fun r => S.bind (S_assert_constant hw _ _) fun _ =>
      S.bind ih fun rs => S.pure ?_
    rintro ⟨h1, h2, h3⟩ hz ⟨g1, g2, g3⟩
    rw [List.length_range, hv.limb_bits] at g2
    refine ⟨?_, by simp only [List.length_append, List.length_cons]; omega, ?_⟩
    · intro b hbm
      rcases List.mem_append.1 hbm with h | h
      exacts [g1 b h, h1 b h]
    · rw [hz, mul_zero, add_zero] at g3
      have hlt := binVal_lt g1
      rw [g2] at hlt
      have e : (cv w l).val = binVal (cv w) r.1 := by
        simp only [cv]
        rw [g3]
        exact ZMod.val_cast_of_lt (lt_trans hlt (by have := hv.n_gt; omega))
      rw [binVal_append, VL_cons, e, g2, h3]

/-- The bits are those of a number that differs from the value of the scalar by a multiple of the modulus and does not
exceed it. -/
theorem S_decompose_scalar_general_exact [Fact n.Prime] (hw : c.Sat w) (hb : c.BitRowsConsistent w) {info : RangeInfo n}
    {wm : ℕ} (hv : info.Valid wm) {ws : ℕ} (hws : ws ≠ 0) (s : AssignedInteger n) :
    S c (decompose_scalar_general info ws s) (fun res => WF info (cv w) s →
      ∃ k, Windows (cv w) ws res k ∧ res.length = (108 * info.limbs + ws - 1) / ws ∧ ∃ d, d * wm + k = V (cv w) s) := by
  unfold decompose_scalar_general
  refine S.bind (S_reduce_exact hv hw s) fun s' => S.bind (S_limbs_bits hw hb hv _) fun bits =>
    S.bind (S_pad_bits hw hws) fun r' => S.bind_rassert fun _ => S.pure fun hpad hbits hr hs => ?_
  obtain ⟨h1, h2, h3⟩ := hbits
  obtain ⟨p1, p2⟩ := hpad rfl
  obtain ⟨q1, q2⟩ := windows_of_padded hws p1 p2 h1
  obtain ⟨e1, -, d, e2⟩ := hr hs
  refine ⟨_, q1, by rw [q2, h2, e1.len], d, by rw [h3, ← e2]; rfl⟩

theorem S_decompose_scalar_general [Fact n.Prime] (hw : c.Sat w) (hb : c.BitRowsConsistent w) {info : RangeInfo n}
    {wm : ℕ} (hv : info.Valid wm) {ws : ℕ} (hws : ws ≠ 0) (s : AssignedInteger n) :
    S c (decompose_scalar_general info ws s) (fun res => WF info (cv w) s →
      ∃ k, Windows (cv w) ws res k ∧ res.length = (108 * info.limbs + ws - 1) / ws ∧
        (k : ZMod wm) = V (cv w) s) :=
  (S_decompose_scalar_general_exact hw hb hv hws s).mono fun res h hs => by
    obtain ⟨k, h1, h2, d, h3⟩ := h hs
    refine ⟨k, h1, h2, ?_⟩
    rw [← h3]
    push_cast
    simp

/-! ## Completeness -/

theorem bitField_bit (b : Bool) : bitField n b = 0 ∨ bitField n b = 1 := by
  cases b
  · exact .inl rfl
  · exact .inr rfl

theorem bitField_val [Fact n.Prime] (x i : ℕ) : (bitField n (x.testBit i)).val = x / 2 ^ i % 2 := by
  haveI : Fact (1 < n) := ⟨(Fact.out : n.Prime).one_lt⟩
  rw [Nat.testBit_eq_decide_div_mod_eq]
  unfold bitField
  rcases Nat.mod_two_eq_zero_or_one (x / 2 ^ i) with e | e <;> simp [e, ZMod.val_one]

theorem shift_step (x j : ℕ) : x / 2 ^ j = x / 2 ^ j % 2 + 2 * (x / 2 ^ (j + 1)) := by
  rw [pow_succ, ← Nat.div_div_eq_div_mul]; omega

theorem C_native_bits [Fact n.Prime] (s_bn k i : ℕ) {v : AssignedValue n}
    (hv : v.val = ((s_bn / 2 ^ (2 * i) : ℕ) : ZMod n)) (hok : H → Ok h v) :
    C c h H (native_bits s_bn (List.range' i k) v)
      (fun r => (∀ b ∈ r.1, b.val = 0 ∨ b.val = 1) ∧ r.1.length = 2 * k ∧
        r.2.val = ((s_bn / 2 ^ (2 * (i + k)) : ℕ) : ZMod n) ∧
        s_bn / 2 ^ (2 * i) = binVal AssignedValue.val r.1 + 2 ^ (2 * k) * (s_bn / 2 ^ (2 * (i + k))))
      (fun r => (∀ b ∈ r.1, Ok h b) ∧ Ok h r.2) := by
  induction k generalizing i v H with
  | zero => exact C.pure ⟨by simp, rfl, by simpa using hv, by simp [binVal]⟩ fun hH => ⟨by simp, hok hH⟩
  | succ k ih =>
    rw [List.range'_succ]
    unfold native_bits
    refine C.bind (C_assign_bit (bitField_bit _)) fun b0 hb0 =>
      C.bind (C_assign_bit (bitField_bit _)) fun b1 hb1 => ?_
    have e0 := shift_step s_bn (2 * i)
    have e1 := shift_step s_bn (2 * i + 1)
    have eb0 : b0.val = ((s_bn / 2 ^ (2 * i) % 2 : ℕ) : ZMod n) := by
      rw [← ZMod.natCast_zmod_val b0.val, hb0, bitField_val, mul_comm i]
    have eb1 : b1.val = ((s_bn / 2 ^ (2 * i + 1) % 2 : ℕ) : ZMod n) := by
      rw [← ZMod.natCast_zmod_val b1.val, hb1, bitField_val, mul_comm i]
    refine C.bind (C_one_line_with_last ?_ ?_ ?_) fun cells hc => ?_
    · row_simp
      rw [hv, eb0, eb1, Nat.shiftRight_eq_div_pow, mul_comm i]
      have : ((s_bn / 2 ^ (2 * i) : ℕ) : ZMod n) =
        ((s_bn / 2 ^ (2 * i) % 2 + 2 * (s_bn / 2 ^ (2 * i + 1) % 2 + 2 * (s_bn / 2 ^ (2 * i + 2))) : ℕ) : ZMod n) := by
        rw [← e1, ← e0]
      rw [this]
      push_cast
      ring
    · intro hH j x y hj
      rcases j with _ | _ | _ | j <;> simp at hj
      · rw [← hj.1]; exact hH.2
      · rw [← hj.1]; exact hH.1.2
    · intro hH x hx
      simp at hx
      rw [← hx]; exact hok hH.1.1
    · obtain ⟨row, rfl⟩ := hc
      refine C.bind (C.index (a := ⟨⟨.base, 0, row⟩, ((s_bn >>> (i * 2 + 2) : ℕ) : ZMod n)⟩) rfl) ?_
      rintro _ rfl
      refine C.bind (ih (i + 1) (by simp only [Nat.shiftRight_eq_div_pow]; rw [mul_comm i]; rfl)
        fun hH => hH.1.2.1 0 _ rfl) fun r hr => C.pure ?_ ?_
      · obtain ⟨h1, h2, h3, h4⟩ := hr
        have ei : i + 1 + k = i + (k + 1) := by ring
        rw [ei] at h3 h4
        refine ⟨?_, by simp only [List.length_cons, h2]; ring, h3, ?_⟩
        · simp only [List.mem_cons]
          rintro b (rfl | rfl | hbm)
          · rw [hb0]; exact bitField_bit _
          · rw [hb1]; exact bitField_bit _
          · exact h1 b hbm
        · have v0 : b0.val.val = s_bn / 2 ^ (2 * i) % 2 := by rw [hb0, bitField_val, mul_comm i]
          have v1 : b1.val.val = s_bn / 2 ^ (2 * i + 1) % 2 := by rw [hb1, bitField_val, mul_comm i]
          simp only [binVal, v0, v1]
          rw [show 2 * i + 1 + 1 = 2 * (i + 1) by ring] at e1
          have e2 : s_bn / 2 ^ (2 * i) = s_bn / 2 ^ (2 * i) % 2 + 2 * (s_bn / 2 ^ (2 * i + 1) % 2 +
              2 * (binVal AssignedValue.val r.1 + 2 ^ (2 * k) * (s_bn / 2 ^ (2 * (i + (k + 1)))))) := by
            rw [← h4, ← e1]; exact e0
          rw [show 2 * (k + 1) = 2 * k + 2 by ring, pow_add]
          refine e2.trans ?_
          ring
      · intro hH
        refine ⟨?_, hH.2.2⟩
        simp only [List.mem_cons]
        rintro b (rfl | rfl | hbm)
        · exact hH.1.1.1.1.2
        · exact hH.1.1.1.2
        · exact hH.2.1 b hbm

theorem C_pad_bits {ws rem : ℕ} {bits : List (AssignedValue n)} (hws : ws ≠ 0) (hrem : rem = bits.length % ws)
    (hok : H → ∀ b ∈ bits, Ok h b) :
    C c h H (pad_bits ws rem bits) (fun r => r.length = (bits.length + ws - 1) / ws * ws ∧
      ∃ ext, r = bits ++ ext ∧ ∀ z ∈ ext, z.val = 0) (fun r => ∀ b ∈ r, Ok h b) := by
  subst hrem
  unfold pad_bits
  split
  · rename_i h0
    refine C.bind C_assign_constant fun z hz => C.pure ⟨?_, _, rfl, ?_⟩ ?_
    · rw [List.length_append, List.length_replicate, pad_length hws h0]
    · intro y hy
      rw [List.eq_of_mem_replicate hy]; exact hz
    · intro hH b hb
      rcases List.mem_append.1 hb with hb | hb
      · exact hok hH.1 b hb
      · rw [List.eq_of_mem_replicate hb]; exact hH.2
  · rename_i h0
    exact C.pure ⟨no_pad_length hws (by omega), [], by simp, by simp⟩ hok

theorem mem_chunks_reverse {α : Type} {ws : ℕ} (hws : ws ≠ 0) {l : List α} {win : List α}
    (h1 : win ∈ (chunks ws l).reverse) {b : α} (h2 : b ∈ win) : b ∈ l := by
  rw [← chunks_flatten hws l]; exact List.mem_flatten.2 ⟨win, List.mem_reverse.1 h1, h2⟩

theorem C_decompose_scalar_native [Fact n.Prime] {num_bits ws : ℕ} (hws : ws ≠ 0) (hn : n ≤ 2 ^ num_bits)
    {s : AssignedValue n} (hok : H → Ok h s) :
    C c h H (decompose_scalar_native num_bits ws s)
      (fun res => Windows AssignedValue.val ws res s.val.val ∧ res.length = (num_bits + ws - 1) / ws)
      (fun res => ∀ win ∈ res, ∀ b ∈ win, Ok h b) := by
  unfold decompose_scalar_native
  rw [List.range_eq_range']
  have hlt : s.val.val < 2 ^ num_bits := lt_of_lt_of_le (ZMod.val_lt _) hn
  refine C.bind (C_native_bits _ _ 0 (by simp) hok) fun r hr => ?_
  obtain ⟨h1, h2, h3, h4⟩ := hr
  rw [zero_add] at h3 h4
  simp only [mul_zero, pow_zero, Nat.div_one] at h4
  refine C.bind (P := fun bits => (∀ b ∈ bits, b.val = 0 ∨ b.val = 1) ∧ bits.length = num_bits ∧
      binVal AssignedValue.val bits = s.val.val) (Q := fun bits => ∀ b ∈ bits, Ok h b) ?_ fun bits hbits => ?_
  · split
    · rename_i ho
      have hd : s.val.val / 2 ^ (2 * (num_bits / 2)) < 2 := by
        rw [Nat.div_lt_iff_lt_mul (by positivity), ← pow_succ']
        rwa [show 2 * (num_bits / 2) + 1 = num_bits by omega]
      have hbit : r.2.val = 0 ∨ r.2.val = 1 := by
        rw [h3]
        generalize s.val.val / 2 ^ (2 * (num_bits / 2)) = x at hd ⊢
        have : x = 0 ∨ x = 1 := by omega
        rcases this with rfl | rfl <;> simp
      refine C.bind (C_assert_bit hbit fun hH => hH.2.2) fun _ _ => C.pure ⟨?_, ?_, ?_⟩ ?_
      · intro b hb
        rcases List.mem_append.1 hb with hb | hb
        · exact h1 b hb
        · rw [List.mem_singleton.1 hb]; exact hbit
      · simp; omega
      · rw [binVal_append, h2]
        have : r.2.val.val = s.val.val / 2 ^ (2 * (num_bits / 2)) := by
          rw [h3]
          exact ZMod.val_cast_of_lt (lt_of_lt_of_le hd (Fact.out : n.Prime).two_le)
        simp only [binVal, this]
        rw [mul_zero, add_zero]; exact h4.symm
      · intro hH b hb
        rcases List.mem_append.1 hb with hb | hb
        · exact hH.1.2.1 b hb
        · rw [List.mem_singleton.1 hb]; exact hH.1.2.2
    · rename_i ho
      have hd : s.val.val / 2 ^ (2 * (num_bits / 2)) = 0 := by
        refine Nat.div_eq_of_lt ?_
        rwa [show 2 * (num_bits / 2) = num_bits by omega]
      refine C.bind (C_assert_constant (by rw [h3, hd]; simp) fun hH => hH.2.2) fun _ _ =>
        C.pure ⟨h1, by omega, ?_⟩ fun hH => hH.1.2.1
      rw [hd] at h4; omega
  · obtain ⟨b1, b2, b3⟩ := hbits
    refine C.bind (C_pad_bits hws (by rw [b2]) fun hH => hH.2) fun r' hr' => ?_
    obtain ⟨q1, q2⟩ := windows_of_padded (f := AssignedValue.val) hws hr'.1 hr'.2 b1
    rw [b3] at q1
    rw [b2] at q2
    exact C.pure ⟨q1, q2⟩ fun hH win hwin b hb => hH.2 b (mem_chunks_reverse hws hwin hb)

theorem C_limb_bits_loop [Fact n.Prime] (hn2 : (2 : ZMod n) ≠ 0) (x k i : ℕ) {rest : AssignedValue n}
    (hv : rest.val = ((x / 2 ^ i : ℕ) : ZMod n)) (hok : H → Ok h rest) :
    C c h H (limb_bits_loop x (List.range' i k) rest)
      (fun r => (∀ b ∈ r.1, b.val = 0 ∨ b.val = 1) ∧ r.1.length = k ∧
        r.2.val = ((x / 2 ^ (i + k) : ℕ) : ZMod n) ∧
        x / 2 ^ i = binVal AssignedValue.val r.1 + 2 ^ k * (x / 2 ^ (i + k)))
      (fun r => (∀ b ∈ r.1, Ok h b) ∧ Ok h r.2) := by
  induction k generalizing i rest H with
  | zero => exact C.pure ⟨by simp, rfl, by simpa using hv, by simp [binVal]⟩ fun hH => ⟨by simp, hok hH⟩
  | succ k ih =>
    rw [List.range'_succ]
    unfold limb_bits_loop
    refine C.bind (C_assign_bit (bitField_bit _)) fun b0 hb0 => ?_
    have e0 := shift_step x i
    have eb0 : b0.val = ((x / 2 ^ i % 2 : ℕ) : ZMod n) := by
      rw [← ZMod.natCast_zmod_val b0.val, hb0, bitField_val]
    have ev : (rest.val - b0.val) * 2⁻¹ = ((x / 2 ^ (i + 1) : ℕ) : ZMod n) := by
      have : rest.val = ((x / 2 ^ i % 2 + 2 * (x / 2 ^ (i + 1)) : ℕ) : ZMod n) := by rw [hv, ← e0]
      rw [this, eb0]
      push_cast
      field_simp
      ring
    refine C.bind (C_one_line_with_last ?_ ?_ ?_) fun cells hc => ?_
    · row_simp
      field_simp
      ring
    · intro hH j x y hj
      rcases j with _ | _ | j <;> simp at hj
      · rw [← hj.1]; exact hok hH.1
      · rw [← hj.1]; exact hH.2
    · intro hH x hx
      simp at hx
    · obtain ⟨row, rfl⟩ := hc
      refine C.bind (ih (i + 1) ev fun hH => hH.2.2) fun r hr => C.pure ?_ ?_
      · obtain ⟨h1, h2, h3, h4⟩ := hr
        have ei : i + 1 + k = i + (k + 1) := by ring
        rw [ei] at h3 h4
        refine ⟨?_, by simp only [List.length_cons, h2], h3, ?_⟩
        · simp only [List.mem_cons]
          rintro b (rfl | hbm)
          · rw [hb0]; exact bitField_bit _
          · exact h1 b hbm
        · have v0 : b0.val.val = x / 2 ^ i % 2 := by rw [hb0, bitField_val]
          simp only [binVal, v0]
          have e2 : x / 2 ^ i = x / 2 ^ i % 2 + 
              2 * (binVal AssignedValue.val r.1 + 2 ^ k * (x / 2 ^ (i + (k + 1)))) := by
            rw [← h4]; exact e0
          rw [pow_succ]
          refine e2.trans ?_
          ring
      · intro hH
        refine ⟨?_, hH.2.2⟩
        simp only [List.mem_cons]
        rintro b (rfl | hbm)
        · exact hH.1.1.2
        · exact hH.2.1 b hbm

theorem C_limbs_bits [Fact n.Prime] {info : RangeInfo n} {wm : ℕ} (hv : info.Valid wm) {ls : List (AssignedValue n)}
    (hls : ∀ l ∈ ls, l.val.val < 2 ^ 108) (hok : H → ∀ l ∈ ls, Ok h l) :
    C c h H (limbs_bits info ls) (fun r => (∀ b ∈ r, b.val = 0 ∨ b.val = 1) ∧ r.length = 108 * ls.length ∧
      binVal AssignedValue.val r = VL AssignedValue.val ls) (fun r => ∀ b ∈ r, Ok h b) := by
  have hn2 : (2 : ZMod n) ≠ 0 := by
    have := hv.n_gt
    intro e
    have := (ZMod.natCast_eq_zero_iff 2 n).1 (by simpa using e)
    have := Nat.le_of_dvd (by norm_num) this
    omega
  induction ls generalizing H with
  | nil => exact C.pure ⟨by simp, rfl, rfl⟩ fun _ => by simp
  | cons l ls ih =>
    unfold limbs_bits
    rw [List.range_eq_range']
    refine C.bind (C_limb_bits_loop hn2 l.val.val _ 0 (by simp) fun hH => hok hH l List.mem_cons_self) fun r hr => ?_
    obtain ⟨h1, h2, h3, h4⟩ := hr
    rw [hv.limb_bits] at h2 h3 h4
    have hd : l.val.val / 2 ^ (0 + 108) = 0 := Nat.div_eq_of_lt (by rw [zero_add]; exact hls l List.mem_cons_self)
    rw [hd] at h3 h4
    simp only [pow_zero, Nat.div_one, mul_zero, add_zero] at h4
    refine C.bind (C_assert_constant (by rw [h3]; simp) fun hH => hH.2.2) fun _ _ =>
      C.bind (ih (fun x hx => hls x (List.mem_cons_of_mem _ hx)) fun hH x hx =>
        hok hH.1.1 x (List.mem_cons_of_mem _ hx)) fun rs hrs => C.pure ⟨?_, ?_, ?_⟩ ?_
    · intro b hb
      rcases List.mem_append.1 hb with hb | hb
      exacts [h1 b hb, hrs.1 b hb]
    · simp only [List.length_append, List.length_cons, h2, hrs.2.1]; ring
    · rw [binVal_append, VL_cons, ← h4, h2, hrs.2.2]
    · intro hH b hb
      rcases List.mem_append.1 hb with hb | hb
      exacts [hH.1.1.2.1 b hb, hH.2 b hb]

theorem C_decompose_scalar_general [Fact n.Prime] {info : RangeInfo n} {wm : ℕ} (hv : info.Valid wm) {ws : ℕ}
    (hws : ws ≠ 0) {s : AssignedInteger n} (hs : Honest wm info s) (hok : H → OkI h s) :
    C c h H (decompose_scalar_general info ws s)
      (fun res => Windows AssignedValue.val ws res (V AssignedValue.val s % wm) ∧
        res.length = (108 * info.limbs + ws - 1) / ws)
      (fun res => ∀ win ∈ res, ∀ b ∈ win, Ok h b) := by
  unfold decompose_scalar_general
  refine C.bind (C_reduce hv hs hok) fun s' hs' => ?_
  obtain ⟨k1, k2, k3⟩ := hs'
  refine C.bind (C_limbs_bits hv ?_ fun hH => hH.2.limb) fun bits hbits => ?_
  · intro l hl
    obtain ⟨i, hi⟩ := List.mem_iff_getElem?.1 hl
    have := k1.wf.limb i
    rw [k2, one_mul, limbAt, hi] at this
    exact this
  obtain ⟨b1, b2, b3⟩ := hbits
  refine C.bind (C_pad_bits hws rfl fun hH => hH.2) fun r' hr' => ?_
  obtain ⟨q1, q2⟩ := windows_of_padded (f := AssignedValue.val) hws hr'.1 hr'.2 b1
  refine C.bind_rassert (by rw [hr'.1]; simp) ?_
  rw [b3] at q1
  rw [b2, k1.wf.len] at q2
  refine C.pure ⟨?_, q2⟩ fun hH win hwin b hb => hH.2 b (mem_chunks_reverse hws hwin hb)
  rw [← k3]; exact q1

end Verif
