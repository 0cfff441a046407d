import Verif.Proof.Scalar
import Verif.Proof.RelApi
import Verif.Proof.IntReduce

/-!
# Forged witnesses for the scalar decompositions

A dishonest prover runs a program `m'` of their own. If it records the same circuit as the real program `m` and its own
recorded witness is accepted, then that witness is accepted by the circuit of `m`.
-/

namespace Verif
variable {n : ℕ} {α : Type}

theorem SameShape.refl (s : Context n) : SameShape s s := ⟨rfl, rfl, rfl, rfl, rfl, rfl, rfl, rfl, rfl, rfl, rfl⟩

theorem SameShape.circuit {t t' : Context n} (H : SameShape t t') (usable : ℕ) : t.circuit usable = t'.circuit usable := by
  unfold Context.circuit
  rw [H.base_fix, H.range_fix, H.select_fix, H.permutations]

theorem SameShape.fits {t t' : Context n} (H : SameShape t t') {usable : ℕ} (h : t.Fits usable) : t'.Fits usable := by
  obtain ⟨h1, h2, h3⟩ := h
  exact ⟨H.base_offset ▸ h1, H.range_offset ▸ h2, H.select_offset ▸ h3⟩

/-- The forging principle. -/
theorem forge [Shaped α] {m m' : M n α} (hrel : Runs2 True m m' (sh True)) {a : α} {t : Context n}
    (hm : m (.new n) = .ok (a, t)) {P : α → Prop} {Q : Advice n → α → Prop}
    (hm' : ∀ (c : Circuit n) (h : Advice n), C c h True m' P (Q h)) :
    ∃ a' w, sh True a a' ∧ P a' ∧ ∀ usable, t.Fits usable → (t.circuit usable).Sat w ∧ Q w a' := by
  obtain ⟨a', t', h1, -, h3, h4⟩ := C.run_new hm'
  obtain ⟨-, r2, r3⟩ := hrel _ _ _ _ _ _ (fun _ => SameShape.refl _) hm h1
  refine ⟨a', t'.honest, r3, h3, fun u hu => ?_⟩
  rw [(r2 trivial).circuit]
  exact h4 u ((r2 trivial).fits hu)

/-- The row of `assign_bit` with `x` in the returned cell and 1 in the other. -/
def forge_bit (x : ZMod n) : M n (AssignedCondition n) := do
  let cells ← one_line [pairU x 1, pairU 1 0] none [-1] none
  index cells 0

theorem rel_forge_bit {st : Prop} (a x : ZMod n) : Runs2 (n := n) st (assign_bit a) (forge_bit x) (sh st) := by
  unfold assign_bit forge_bit; rel

variable {c : Circuit n} {h : Advice n} {H : Prop}

theorem C_forge_bit {x : ZMod n} : C c h H (forge_bit x) (fun r => r.val = x) (fun r => Ok h r) := by
  unfold forge_bit
  refine C.bind (C_one_line ?_ ?_) fun cells hc => ?_
  · row_simp
  · intro hH k v y hk
    rcases k with _ | _ | _ | k <;> simp at hk
  · obtain ⟨r, rfl⟩ := hc
    refine (C.index (a := ⟨⟨.base, 0, r⟩, x⟩) rfl).mono (fun x hx => by rw [hx]) ?_
    intro x hH hx _
    exact hH.2 0 x (by rw [hx]; rfl)

/-! ## Native scalars -/

/-- The rest of `decompose_scalar_native` after the loop. -/
def finish_native (num_bits ws : ℕ) (r : List (AssignedCondition n) × AssignedValue n) :
    M n (List (List (AssignedCondition n))) := do
  let bits ← (if num_bits % 2 = 1 then do
      assert_bit r.2
      pure (r.1 ++ [r.2])
    else do
      assert_constant r.2 0
      pure r.1 : M n _)
  let bits ← pad_bits ws (num_bits % ws) bits
  pure (chunks ws bits).reverse

theorem decompose_scalar_native_eq (num_bits ws : ℕ) (s : AssignedValue n) : decompose_scalar_native num_bits ws s =
    native_bits s.val.val (List.range (num_bits / 2)) s >>= finish_native num_bits ws := rfl

/-- The first round with `2 + x % 4` and `-1` for the bits, and the other rounds as in the code. -/
def forge_native_bits (x k : ℕ) (v : AssignedValue n) : M n (List (AssignedCondition n) × AssignedValue n) := do
  let b0 ← forge_bit (((2 + x % 4 : ℕ) : ZMod n))
  let b1 ← forge_bit (-1)
  let cells ← one_line_with_last [pairU ((x / 4 : ℕ) : ZMod n) 4, pairA b1 2, pairA b0 1] (pairA v (-1)) none [] none
  let v ← index cells.1 0
  let r ← native_bits x (List.range' 1 k) v
  pure (b0 :: b1 :: r.1, r.2)

theorem rel_forge_native_bits (s x k : ℕ) {v v' : AssignedValue n} (h_v : sh True v v') :
    Runs2 True (native_bits s (List.range (k + 1)) v) (forge_native_bits x k v') (sh True) := by
  rw [List.range_eq_range', List.range'_succ]
  unfold native_bits forge_native_bits
  refine (rel_forge_bit _ _).bind fun _ _ h0 => (rel_forge_bit _ _).bind fun _ _ h1 => ?_
  refine (rel_one_line_with_last ?_ (arg_A _ h_v) _ _ _).bind fun _ _ hc => ?_
  · shape
  refine (rel_index (sh_fst hc) 0).bind fun _ _ hv => (rel_native_bits _ _ _ hv).bind fun _ _ hr => ?_
  exact Runs2.pure (sh_pair (sh_cons h0 (sh_cons h1 (sh_fst hr))) (sh_snd hr))

theorem C_forge_native_bits [Fact n.Prime] (x k : ℕ) {v : AssignedValue n} (hv : v.val = (x : ZMod n))
    (hok : H → Ok h v) :
    C c h H (forge_native_bits x k v)
      (fun r => (∃ b ∈ r.1, b.val = -1) ∧ r.1.length = 2 * (k + 1) ∧
        r.2.val = ((x / 2 ^ (2 * (k + 1)) : ℕ) : ZMod n))
      (fun r => (∀ b ∈ r.1, Ok h b) ∧ Ok h r.2) := by
  unfold forge_native_bits
  refine C.bind C_forge_bit fun b0 hb0 => C.bind C_forge_bit fun b1 hb1 => ?_
  refine C.bind (C_one_line_with_last ?_ ?_ ?_) fun cells hc => ?_
  · row_simp
    rw [hv, hb0, hb1]
    have : (x : ZMod n) = ((4 * (x / 4) + x % 4 : ℕ) : ZMod n) := by rw [Nat.div_add_mod]
    rw [this]
    push_cast
    ring
  · intro hH j x y hj
    rcases j with _ | _ | _ | j <;> simp at hj
    · rw [← hj.1]; exact hH.2
    · rw [← hj.1]; exact hH.1.2
  · intro hH x hx
    simp at hx
    rw [← hx]; exact hok hH.1.1
  · obtain ⟨row, rfl⟩ := hc
    refine C.bind (C.index (a := ⟨⟨.base, 0, row⟩, ((x / 4 : ℕ) : ZMod n)⟩) rfl) ?_
    rintro _ rfl
    refine C.bind (C_native_bits x k 1 rfl fun hH => hH.1.2.1 0 _ rfl) fun r hr => C.pure ?_ ?_
    · obtain ⟨h1, h2, h3, h4⟩ := hr
      refine ⟨⟨b1, by simp, hb1⟩, by simp only [List.length_cons, h2]; ring, ?_⟩
      rw [h3, Nat.add_comm 1 k]
    · intro hH
      refine ⟨?_, hH.2.2⟩
      simp only [List.mem_cons]
      rintro b (rfl | rfl | hbm)
      · exact hH.1.1.1.1.2
      · exact hH.1.1.1.2
      · exact hH.2.1 b hbm

theorem mem_chunks_of_mem {α : Type} {ws : ℕ} (hws : ws ≠ 0) {l : List α} {b : α} (h : b ∈ l) :
    ∃ win ∈ (chunks ws l).reverse, b ∈ win := by
  rw [← chunks_flatten hws l] at h
  obtain ⟨win, h1, h2⟩ := List.mem_flatten.1 h
  exact ⟨win, List.mem_reverse.2 h1, h2⟩

theorem rel_finish_native (num_bits ws : ℕ) {r r' : List (AssignedCondition n) × AssignedValue n}
    (hr : sh True r r') : Runs2 True (finish_native num_bits ws r) (finish_native num_bits ws r') (sh True) := by
  unfold finish_native
  refine Runs2.bind (R := sh True) (Runs2.ite ?_ ?_) fun _ _ hb => (rel_pad_bits _ _ hb).bind fun _ _ hb =>
    Runs2.pure (sh_reverse (sh_chunks ws hb))
  · exact (rel_assert_bit (sh_snd hr)).bind fun _ _ _ => Runs2.pure (sh_append (sh_fst hr) (sh_cons (sh_snd hr) sh_nil))
  · exact (rel_assert_constant (sh_snd hr) _).bind fun _ _ _ => Runs2.pure (sh_fst hr)

theorem C_finish_native [Fact n.Prime] {num_bits ws x : ℕ} (hws : ws ≠ 0) (hx : x < 2 ^ num_bits)
    {r : List (AssignedCondition n) × AssignedValue n} (h1 : ∃ b ∈ r.1, b.val = -1)
    (h2 : r.1.length = 2 * (num_bits / 2)) (h3 : r.2.val = ((x / 2 ^ (2 * (num_bits / 2)) : ℕ) : ZMod n))
    (hok : H → (∀ b ∈ r.1, Ok h b) ∧ Ok h r.2) :
    C c h H (finish_native num_bits ws r) (fun res => ∃ win ∈ res, ∃ b ∈ win, b.val = -1)
      (fun res => ∀ win ∈ res, ∀ b ∈ win, Ok h b) := by
  unfold finish_native
  obtain ⟨b, hb, hbv⟩ := h1
  refine C.bind (P := fun bits => b ∈ bits ∧ bits.length = num_bits) (Q := fun bits => ∀ b ∈ bits, Ok h b) ?_
    fun bits hbits => ?_
  · split
    · rename_i ho
      have hd : x / 2 ^ (2 * (num_bits / 2)) < 2 := by
        rw [Nat.div_lt_iff_lt_mul (by positivity), ← pow_succ']
        rwa [show 2 * (num_bits / 2) + 1 = num_bits by omega]
      have hbit : r.2.val = 0 ∨ r.2.val = 1 := by
        rw [h3]
        generalize x / 2 ^ (2 * (num_bits / 2)) = x at hd ⊢
        have : x = 0 ∨ x = 1 := by omega
        rcases this with rfl | rfl <;> simp
      refine C.bind (C_assert_bit hbit fun hH => (hok hH).2) fun _ _ => C.pure ⟨?_, ?_⟩ ?_
      · exact List.mem_append_left _ hb
      · simp; omega
      · intro hH b hb
        rcases List.mem_append.1 hb with hb | hb
        · exact (hok hH.1).1 b hb
        · rw [List.mem_singleton.1 hb]; exact (hok hH.1).2
    · rename_i ho
      have hd : x / 2 ^ (2 * (num_bits / 2)) = 0 := by
        refine Nat.div_eq_of_lt ?_
        rwa [show 2 * (num_bits / 2) = num_bits by omega]
      exact C.bind (C_assert_constant (by rw [h3, hd]; simp) fun hH => (hok hH).2) fun _ _ =>
        C.pure ⟨hb, by omega⟩ fun hH => (hok hH.1).1
  · obtain ⟨b1, b2⟩ := hbits
    refine C.bind (C_pad_bits hws (by rw [b2]) fun hH => hH.2) fun r' hr' => ?_
    obtain ⟨-, ext, rfl, -⟩ := hr'
    obtain ⟨win, w1, w2⟩ := mem_chunks_of_mem hws (List.mem_append_left ext b1)
    exact C.pure ⟨win, w1, b, w2, hbv⟩ fun hH win hwin b hb => hH.2 b (mem_chunks_reverse hws hwin hb)

/-! ## General scalars -/

/-- The bits of the first limb with `2 + x % 4` and `-1` for the two lowest ones. -/
def forge_limb_bits (x k : ℕ) (rest : AssignedValue n) : M n (List (AssignedCondition n) × AssignedValue n) := do
  let b0 ← forge_bit (((2 + x % 4 : ℕ) : ZMod n))
  let c0 ← one_line_with_last [pairA rest (-1), pairA b0 1] (pairU ((rest.val - b0.val) * 2⁻¹) 2) none [] none
  let b1 ← forge_bit (-1)
  let c1 ← one_line_with_last [pairA c0.2 (-1), pairA b1 1] (pairU ((c0.2.val - b1.val) * 2⁻¹) 2) none [] none
  let r ← limb_bits_loop x (List.range' 2 k) c1.2
  pure (b0 :: b1 :: r.1, r.2)

theorem rel_forge_limb_bits (s x k : ℕ) {v v' : AssignedValue n} (h_v : sh True v v') :
    Runs2 True (limb_bits_loop s (List.range (k + 2)) v) (forge_limb_bits x k v') (sh True) := by
  rw [List.range_eq_range', List.range'_succ, List.range'_succ]
  have e : forge_limb_bits x k v' = (do
      let b0 ← forge_bit (((2 + x % 4 : ℕ) : ZMod n))
      let c0 ← one_line_with_last [pairA v' (-1), pairA b0 1] (pairU ((v'.val - b0.val) * 2⁻¹) 2) none [] none
      let r0 ← (do
        let b1 ← forge_bit (-1)
        let c1 ← one_line_with_last [pairA c0.2 (-1), pairA b1 1] (pairU ((c0.2.val - b1.val) * 2⁻¹) 2) none [] none
        let r ← limb_bits_loop x (List.range' 2 k) c1.2
        pure (b1 :: r.1, r.2))
      pure (b0 :: r0.1, r0.2)) := by
    unfold forge_limb_bits
    simp only [bind_assoc, pure_bind]
  have e1 : ∀ (s : ℕ) (i : ℕ) (is : List ℕ) (v : AssignedValue n), limb_bits_loop s (i :: is) v = (do
      let b ← assign_bit (bitField n (s.testBit i))
      let cells ← one_line_with_last [pairA v (-1), pairA b 1] (pairU ((v.val - b.val) * 2⁻¹) 2) none [] none
      let r ← limb_bits_loop s is cells.2
      pure (b :: r.1, r.2)) := fun _ _ _ _ => rfl
  rw [e, e1]
  refine (rel_forge_bit _ _).bind fun _ _ h0 => ?_
  refine (rel_one_line_with_last ?_ (arg_U _ _ _) _ _ _).bind fun _ _ hc => ?_
  · shape
  refine Runs2.bind (R := sh True) ?_ fun _ _ hr => Runs2.pure (sh_pair (sh_cons h0 (sh_fst hr)) (sh_snd hr))
  rw [e1]
  refine (rel_forge_bit _ _).bind fun _ _ h0 => ?_
  refine (rel_one_line_with_last ?_ (arg_U _ _ _) _ _ _).bind fun _ _ hc => ?_
  · shape
  exact (rel_limb_bits_loop _ _ _ (sh_snd hc)).bind fun _ _ hr =>
    Runs2.pure (sh_pair (sh_cons h0 (sh_fst hr)) (sh_snd hr))

theorem C_forge_limb_bits [Fact n.Prime] (hn2 : (2 : ZMod n) ≠ 0) (x k : ℕ) {rest : AssignedValue n}
    (hv : rest.val = (x : ZMod n)) (hok : H → Ok h rest) :
    C c h H (forge_limb_bits x k rest)
      (fun r => (∃ b ∈ r.1, b.val = -1) ∧ r.1.length = k + 2 ∧ r.2.val = ((x / 2 ^ (2 + k) : ℕ) : ZMod n))
      (fun r => (∀ b ∈ r.1, Ok h b) ∧ Ok h r.2) := by
  unfold forge_limb_bits
  refine C.bind C_forge_bit fun b0 hb0 => ?_
  refine C.bind (C_one_line_with_last ?_ ?_ ?_) fun cells hc => ?_
  · row_simp
    field_simp
    ring
  · intro hH j x y hj
    rcases j with _ | _ | j <;> simp at hj
    · rw [← hj.1]; exact hok hH.1
    · rw [← hj.1]; exact hH.2
  · intro hH x hx
    simp at hx
  obtain ⟨row, rfl⟩ := hc
  refine C.bind C_forge_bit fun b1 hb1 => ?_
  refine C.bind (C_one_line_with_last ?_ ?_ ?_) fun cells hc => ?_
  · row_simp
    field_simp
    ring
  · intro hH j x y hj
    rcases j with _ | _ | j <;> simp at hj
    · rw [← hj.1]; exact hH.1.2.2
    · rw [← hj.1]; exact hH.2
  · intro hH x hx
    simp at hx
  obtain ⟨row', rfl⟩ := hc
  have ev : ((rest.val - b0.val) * 2⁻¹ - b1.val) * 2⁻¹ = ((x / 2 ^ 2 : ℕ) : ZMod n) := by
    have : (x : ZMod n) = ((4 * (x / 4) + x % 4 : ℕ) : ZMod n) := by rw [Nat.div_add_mod]
    rw [hv, hb0, hb1, this]
    push_cast
    field_simp
    norm_num
    ring
  refine C.bind (C_limb_bits_loop hn2 x k 2 ev fun hH => hH.2.2) fun r hr => C.pure ?_ ?_
  · obtain ⟨h1, h2, h3, h4⟩ := hr
    exact ⟨⟨b1, by simp, hb1⟩, by simp only [List.length_cons, h2], h3⟩
  · intro hH
    refine ⟨?_, hH.2.2⟩
    simp only [List.mem_cons]
    rintro b (rfl | rfl | hbm)
    · exact hH.1.1.1.1.2
    · exact hH.1.1.2
    · exact hH.2.1 b hbm

/-- The bits of the limbs, forged in the first limb. -/
def forge_limbs_bits (info : RangeInfo n) : List (AssignedValue n) → M n (List (AssignedCondition n))
  | [] => pure []
  | l :: ls => do
    let r ← forge_limb_bits l.val.val (info.limb_bits - 2) l
    assert_constant r.2 0
    let rs ← limbs_bits info ls
    pure (r.1 ++ rs)

theorem rel_forge_limbs_bits {info : RangeInfo n} (hi : 2 ≤ info.limb_bits) {l l' : List (AssignedValue n)}
    (hl : sh True l l') : Runs2 True (limbs_bits info l) (forge_limbs_bits info l') (sh True) := by
  cases hl with
  | nil => exact Runs2.pure sh_nil
  | cons h1 h2 =>
    rename_i x x' l l'
    unfold limbs_bits forge_limbs_bits
    obtain ⟨k, e⟩ : ∃ k, info.limb_bits = k + 2 := ⟨info.limb_bits - 2, by omega⟩
    rw [e, Nat.add_sub_cancel]
    refine (rel_forge_limb_bits _ _ _ h1).bind fun _ _ hr => (rel_assert_constant (sh_snd hr) _).bind fun _ _ _ => ?_
    exact (rel_limbs_bits info h2).bind fun _ _ hrs => Runs2.pure (sh_append (sh_fst hr) hrs)

theorem C_forge_limbs_bits [Fact n.Prime] {info : RangeInfo n} {wm : ℕ} (hv : info.Valid wm)
    {ls : List (AssignedValue n)} (hne : ls ≠ []) (hls : ∀ l ∈ ls, l.val.val < 2 ^ 108) (hok : H → ∀ l ∈ ls, Ok h l) :
    C c h H (forge_limbs_bits info ls) (fun r => (∃ b ∈ r, b.val = -1) ∧ r.length = 108 * ls.length)
      (fun r => ∀ b ∈ r, Ok h b) := by
  have hn2 : (2 : ZMod n) ≠ 0 := by
    have := hv.n_gt
    intro e
    have := (ZMod.natCast_eq_zero_iff 2 n).1 (by simpa using e)
    have := Nat.le_of_dvd (by norm_num) this
    omega
  cases ls with
  | nil => exact absurd rfl hne
  | cons l ls =>
    unfold forge_limbs_bits
    rw [hv.limb_bits]
    refine C.bind (C_forge_limb_bits hn2 l.val.val _ (by simp) fun hH => hok hH l List.mem_cons_self) fun r hr => ?_
    obtain ⟨⟨b, h1, hbv⟩, h2, h3⟩ := hr
    have hd : l.val.val / 2 ^ (2 + (108 - 2)) = 0 := Nat.div_eq_of_lt (hls l List.mem_cons_self)
    rw [hd] at h3
    refine C.bind (C_assert_constant (by rw [h3]; simp) fun hH => hH.2.2) fun _ _ =>
      C.bind (C_limbs_bits hv (fun x hx => hls x (List.mem_cons_of_mem _ hx)) fun hH x hx =>
        hok hH.1.1 x (List.mem_cons_of_mem _ hx)) fun rs hrs => C.pure ⟨⟨b, ?_, hbv⟩, ?_⟩ ?_
    · exact List.mem_append_left _ h1
    · simp only [List.length_append, List.length_cons, h2, hrs.2.1]; ring
    · intro hH b hb
      rcases List.mem_append.1 hb with hb | hb
      exacts [hH.1.1.2.1 b hb, hH.2 b hb]

/-- `decompose_scalar_general` with forged bits. -/
def forge_general (info : RangeInfo n) (ws : ℕ) (s : AssignedInteger n) : M n (List (List (AssignedCondition n))) := do
  let s ← reduce info s
  let bits ← forge_limbs_bits info s.limbs_le
  let bits ← pad_bits ws (bits.length % ws) bits
  rassert (decide (bits.length % ws = 0))
  pure (chunks ws bits).reverse

theorem rel_forge_general {info : RangeInfo n} (hi : 2 ≤ info.limb_bits) (ws : ℕ) {s s' : AssignedInteger n}
    (h_s : sh True s s') : Runs2 True (decompose_scalar_general info ws s) (forge_general info ws s') (sh True) := by
  unfold decompose_scalar_general forge_general
  refine (rel_reduce info h_s).bind fun _ _ hs => (rel_forge_limbs_bits hi (sh_limbs hs)).bind fun _ _ hb => ?_
  rw [sh_length hb]
  refine (rel_pad_bits _ _ hb).bind fun _ _ hb => ?_
  exact (rel_rassert _ _).bind fun _ _ _ => Runs2.pure (sh_reverse (sh_chunks ws hb))

theorem C_forge_general [Fact n.Prime] {info : RangeInfo n} {wm : ℕ} (hv : info.Valid wm) {ws : ℕ}
    (hws : ws ≠ 0) {s : AssignedInteger n} (hs : Honest wm info s) (hok : H → OkI h s) :
    C c h H (forge_general info ws s) (fun res => ∃ win ∈ res, ∃ b ∈ win, b.val = -1)
      (fun res => ∀ win ∈ res, ∀ b ∈ win, Ok h b) := by
  unfold forge_general
  refine C.bind (C_reduce hv hs hok) fun s' hs' => ?_
  obtain ⟨k1, k2, k3⟩ := hs'
  refine C.bind (C_forge_limbs_bits hv ?_ ?_ fun hH => hH.2.limb) fun bits hbits => ?_
  · intro e
    have := k1.wf.len
    rw [e] at this
    have := hv.limbs_ge
    simp at *
    omega
  · intro l hl
    obtain ⟨i, hi⟩ := List.mem_iff_getElem?.1 hl
    have := k1.wf.limb i
    rw [k2, one_mul, limbAt, hi] at this
    exact this
  obtain ⟨⟨b, b1, hbv⟩, b2⟩ := hbits
  refine C.bind (C_pad_bits hws rfl fun hH => hH.2) fun r' hr' => ?_
  refine C.bind_rassert (by rw [hr'.1]; simp) ?_
  obtain ⟨-, ext, rfl, -⟩ := hr'
  obtain ⟨win, w1, w2⟩ := mem_chunks_of_mem hws (List.mem_append_left ext b1)
  exact C.pure ⟨win, w1, b, w2, hbv⟩ fun hH win hwin b hb => hH.2 b (mem_chunks_reverse hws hwin hb)

end Verif
