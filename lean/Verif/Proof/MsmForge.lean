import Verif.Proof.MsmCompleteTop
import Verif.Proof.MsmRandom
import Verif.Proof.Forge
import Verif.Proof.Encode
import Verif.Proof.Keccak

/-!
# Forged multi-scalar multiplications

A prover who replaces one digit of the scalar by `-1`. The selection between the two table entries `L` and `L + P` is
linear in the digit, limb by limb; with digit `-1` it yields the third point of the curve on the line through the two
entries, if the limbs fit.
-/

namespace Verif
variable {n wm : ℕ} {info : RangeInfo n} {b : ZMod wm} {c : Circuit n} {h : Advice n} {H : Prop} {σ : Type}

/-- The coordinates `xa`, `xb`, `xt` are in arithmetic progression limb by limb. -/
def LimbLine (k xa xb xt : ℕ) : Prop :=
  ∀ i < k, 2 * RangeInfo.limbOf 108 i xb = RangeInfo.limbOf 108 i xa + RangeInfo.limbOf 108 i xt

theorem C_bisec_int_minus (hv : info.Valid wm) {cond : AssignedValue n} {a b : AssignedInteger n}
    (ha : Honest wm info a) (hb : Honest wm info b) (ta : a.times = 1) (tb : b.times = 1) {xa xb xt : ℕ}
    (hVa : V AssignedValue.val a = xa) (hVb : V AssignedValue.val b = xb) (hxt : xt < wm)
    (hl : LimbLine info.limbs xa xb xt) (hs : 2 * xb = xa + xt) (hc : cond.val = -1)
    (hok : H → Ok h cond ∧ OkI h a ∧ OkI h b) :
    C c h H (bisec_int info cond a b) (fun r => Honest wm info r ∧ r.times = 1 ∧ V AssignedValue.val r = xt)
      (fun r => OkI h r) := by
  have hne := hv.neZero
  have digit : ∀ {a : AssignedInteger n} {x}, Honest wm info a → a.times = 1 → V AssignedValue.val a = x → ∀ i < info.limbs,
      limbAt AssignedValue.val a.limbs_le i = RangeInfo.limbOf 108 i x := by
    intro a x ha ta hx i hi
    rw [← hx, V_eq_sum ha.wf.len, limbOf_sum (fun j _ => ?_) i hi]
    have := ha.wf.limb j
    rwa [ta, one_mul] at this
  unfold bisec_int
  refine C.bind (C.mapM_range (P := fun i x => x.val = cond.val * (limbAt AssignedValue.val a.limbs_le i : ZMod n)
    + (1 - cond.val) * (limbAt AssignedValue.val b.limbs_le i : ZMod n)) (Q := fun _ x => Ok h x) fun i hi => ?_)
    fun limbs hl' => ?_
  · refine C_index_limb ha.wf.len hi fun ai hai => C_index_limb hb.wf.len hi fun bi hbi => ?_
    refine (C_bisec fun hH => ⟨(hok hH).1, (hok hH).2.1.limb _ (List.mem_of_getElem? hai),
      (hok hH).2.2.limb _ (List.mem_of_getElem? hbi)⟩).mono (fun r hr => ?_) fun _ _ _ q => q
    rw [← WF.cast_limb hv hai, ← WF.cast_limb hv hbi, hr]
  refine C.bind (C_bisec fun hH => ⟨(hok hH.1).1, (hok hH.1).2.1.native, (hok hH.1).2.2.native⟩)
    fun nat hnat => ?_
  have hall : ∀ i < info.limbs, ∃ x, limbs[i]? = some x ∧ x.val = (RangeInfo.limbOf 108 i xt : ZMod n) := by
    intro i hi
    obtain ⟨x, hx, e⟩ := hl'.2 i hi
    refine ⟨x, hx, ?_⟩
    rw [e, hc, digit ha ta hVa i hi, digit hb tb hVb i hi]
    have := congrArg (Nat.cast (R := ZMod n)) (hl i hi)
    push_cast at this
    linear_combination this
  have hsum := const_limbs hv hxt
  have hVL : VL AssignedValue.val limbs = xt := by
    rw [VL_eq hl'.1 (fun i _ => lt_n_of_lt_limb hv le_rfl (limbOf_lt i xt)) hall, ← hsum]
  obtain ⟨k1, k2⟩ := wf_of_limbs (t := 1) (nat := nat) (f := AssignedValue.val) hv hl'.1 hall
    (fun i _ => by rw [one_mul]; exact limbOf_lt i xt)
    (by rw [← hsum, one_mul]; exact hxt.trans_le hv.w_hi) le_rfl (by norm_num)
    (by
      rw [hnat, hVL, hc, ha.wf.native, hb.wf.native, hVa, hVb]
      have := congrArg (Nat.cast (R := ZMod n)) hs
      push_cast at this
      linear_combination this)
  rw [← hsum] at k2
  refine C.pure ?_ fun hH => ⟨fun x hx => ?_, hH.2⟩
  · rw [ta, tb, show max 1 1 = 1 from rfl]
    exact ⟨⟨k1, fun _ => by rw [k2]; exact hxt⟩, rfl, k2⟩
  · obtain ⟨i, hi⟩ := List.mem_iff_getElem?.1 hx
    exact hH.1.2 i x hi

theorem HRep.V_eq {a : AssignedInteger n} {x : ℕ} (ha : HRep wm info a (x : ZMod wm)) (ta : a.times = 1) (hx : x < wm) :
    V AssignedValue.val a = x := by
  have h1 := ha.honest.canon ta
  have := (ZMod.natCast_eq_natCast_iff' _ _ _).1 ha.eq
  rwa [Nat.mod_eq_of_lt h1, Nat.mod_eq_of_lt hx] at this

/-- Selecting with `-1`. -/
theorem C_bisec_nz_minus [Fact wm.Prime] (hi : RangeInfo.new wm n 18 6 = .ok info) {cond : AssignedCondition n}
    {p q : AssignedNonZeroPoint n} {P Q T : Pt b} (hP : HRed info p P) (hQ : HRed info q Q) {px py qx qy tx ty : ℕ}
    (hpx : px < wm) (hpy : py < wm) (hqx : qx < wm) (hqy : qy < wm) (htx : tx < wm) (hty : ty < wm)
    (cP : HasCoords P (px : ZMod wm) (py : ZMod wm)) (cQ : HasCoords Q (qx : ZMod wm) (qy : ZMod wm))
    (cT : HasCoords T (tx : ZMod wm) (ty : ZMod wm)) (lx : LimbLine info.limbs px qx tx) (ly : LimbLine info.limbs py qy ty)
    (sx : 2 * qx = px + tx) (sy : 2 * qy = py + ty) (hc : cond.val = -1) (hok : H → Ok h cond ∧ OkN h p ∧ OkN h q) :
    C c h H (ecc_bisec_non_zero_point info cond p q) (fun r => HNRep info r T) (OkN h) := by
  have hv := RangeInfo.new_valid hi
  obtain ⟨⟨⟨x, y, hx, hy, hP⟩, -⟩, t1, t2⟩ := hP
  obtain ⟨⟨⟨x', y', hx', hy', hQ⟩, -⟩, t3, t4⟩ := hQ
  obtain ⟨rfl, rfl⟩ := hP.unique cP
  obtain ⟨rfl, rfl⟩ := hQ.unique cQ
  refine C.bind (C_bisec_int_minus hv hx.honest hx'.honest t1 t3 (hx.V_eq t1 hpx) (hx'.V_eq t3 hqx) htx lx sx hc fun hH =>
      ⟨(hok hH).1, (hok hH).2.1.x, (hok hH).2.2.x⟩) fun rx h1 =>
    C.bind (C_bisec_int_minus hv hy.honest hy'.honest t2 t4 (hy.V_eq t2 hpy) (hy'.V_eq t4 hqy) hty ly sy hc fun hH =>
      ⟨(hok hH.1).1, (hok hH.1).2.1.y, (hok hH.1).2.2.y⟩) fun ry h2 =>
    C.pure ⟨⟨_, _, ⟨h1.1, by rw [h1.2.2]⟩, ⟨h2.1, by rw [h2.2.2]⟩, cT⟩, ?_, ?_⟩ fun hH => ⟨hH.1.2, hH.2⟩
  · show rx.times ≤ 16
    rw [h1.2.1]; norm_num
  · show ry.times ≤ 16
    rw [h2.2.1]; norm_num

/-! ### Forged digits -/

theorem chunks_one {α : Type} : ∀ l : List α, chunks 1 l = l.map fun a => [a]
  | [] => chunks_nil 1
  | a :: l => by
    rw [chunks_cons one_ne_zero (by simp)]
    exact congrArg ([a] :: ·) (chunks_one l)

/-- The digits of a forged scalar, in the order of the windows: those of the number `e.1`, with `e.2` for the lowest. -/
def forgedDigit (W : ℕ) (e : ℕ × ZMod n) (wi : ℕ) : ZMod n :=
  if wi + 1 = W then e.2 else bitField n (e.1.testBit (W - 1 - wi))

/-- The first round of the decomposition of `x + d` for an even `x`, with `d` for the lowest digit and the other digits
those of `x`; the other rounds as in the code. -/
def forge_digit_bits (d : ZMod n) (x k : ℕ) (v : AssignedValue n) : M n (List (AssignedCondition n) × AssignedValue n) := do
  let b0 ← forge_bit d
  let b1 ← assign_bit (bitField n (x.testBit 1))
  let cells ← one_line_with_last [pairU ((x / 4 : ℕ) : ZMod n) 4, pairA b1 2, pairA b0 1] (pairA v (-1)) none [] none
  let v ← index cells.1 0
  let r ← native_bits x (List.range' 1 k) v
  pure (b0 :: b1 :: r.1, r.2)

theorem rel_forge_digit_bits (d : ZMod n) (s x k : ℕ) {v v' : AssignedValue n} (h_v : sh True v v') :
    Runs2 True (native_bits s (List.range (k + 1)) v) (forge_digit_bits d x k v') (sh True) := by
  rw [List.range_eq_range', List.range'_succ]
  unfold native_bits forge_digit_bits
  refine (rel_forge_bit _ _).bind fun _ _ h0 => (rel_assign_bit _ _).bind fun _ _ h1 => ?_
  refine (rel_one_line_with_last ?_ (arg_A _ h_v) _ _ _).bind fun _ _ hc => ?_
  · shape
  refine (rel_index (sh_fst hc) 0).bind fun _ _ hv => (rel_native_bits _ _ _ hv).bind fun _ _ hr => ?_
  exact Runs2.pure (sh_pair (sh_cons h0 (sh_cons h1 (sh_fst hr))) (sh_snd hr))

theorem C_forge_digit_bits [Fact n.Prime] {d : ZMod n} {x k : ℕ} (hx : x % 2 = 0) (hlt : x < 2 ^ (2 * (k + 1)))
    {v : AssignedValue n} (hv : v.val = (x : ZMod n) + d) (hok : H → Ok h v) :
    C c h H (forge_digit_bits d x k v)
      (fun r => r.1.length = 2 * (k + 1) ∧ (∀ (j : ℕ) a, r.1[j]? = some a → a.val = if j = 0 then d else bitField n (x.testBit j)) ∧
        r.2.val = 0)
      (fun r => (∀ b ∈ r.1, Ok h b) ∧ Ok h r.2) := by
  unfold forge_digit_bits
  refine C.bind C_forge_bit fun b0 hb0 => C.bind (C_assign_bit (bitField_bit _)) fun b1 hb1 => ?_
  have eb1 : b1.val = ((x / 2 % 2 : ℕ) : ZMod n) := by
    rw [← ZMod.natCast_zmod_val b1.val, hb1, bitField_val, pow_one]
  refine C.bind (C_one_line_with_last ?_ ?_ ?_) fun cells hc => ?_
  · row_simp
    rw [hv, hb0, eb1]
    have : (x : ZMod n) = ((4 * (x / 4) + 2 * (x / 2 % 2) : ℕ) : ZMod n) := by congr 1; omega
    rw [this]
    push_cast
    ring
  · intro hH j x y hj
    rcases j with _ | _ | _ | j <;> simp at hj
    · rw [← hj.1]; exact hH.2
    · rw [← hj.1]; exact hH.1.2
  · intro hH x hx
    simp at hx
    rw [← hx]; exact hok hH.1.1
  · obtain ⟨row, rfl⟩ := hc
    refine C.bind (C.index (a := ⟨⟨.base, 0, row⟩, ((x / 4 : ℕ) : ZMod n)⟩) rfl) ?_
    rintro _ rfl
    refine C.bind (C_native_bits x k 1 rfl fun hH => hH.1.2.1 0 _ rfl) fun r hr => C.pure ?_ ?_
    · obtain ⟨h1, h2, h3, h4⟩ := hr
      rw [Nat.add_comm 1 k, Nat.div_eq_of_lt hlt] at h3 h4
      rw [Nat.mul_zero, Nat.add_zero] at h4
      refine ⟨by simp only [List.length_cons, h2]; ring, fun j a hd => ?_, by rw [h3]; simp⟩
      rcases j with _ | _ | j
      · simp at hd
        rw [← hd, hb0]; rfl
      · simp at hd
        rw [← hd, hb1]; rfl
      · simp only [List.getElem?_cons_succ] at hd
        have := bits_binVal (f := AssignedValue.val) r.1 h1
        rw [List.forall₂_iff_get] at this
        obtain ⟨hj, e⟩ := List.getElem?_eq_some_iff.1 hd
        have := this.2 j hj (by simpa using hj)
        simp only [List.get_eq_getElem, List.getElem_map, List.getElem_range, e] at this
        rw [this, ← h4, Nat.testBit_div_two_pow]
        rw [if_neg (by omega), Nat.add_comm j]
    · intro hH
      refine ⟨?_, hH.2.2⟩
      simp only [List.mem_cons]
      rintro b (rfl | rfl | hbm)
      · exact hH.1.1.1.1.2
      · exact hH.1.1.1.2
      · exact hH.2.1 b hbm

/-- `decompose_scalar_native` with windows of one bit, an even number of bits and forged digits. -/
def forge_digits (num_bits : ℕ) (e : ℕ × ZMod n) (s : AssignedValue n) : M n (List (List (AssignedCondition n))) :=
  forge_digit_bits e.2 e.1 (num_bits / 2 - 1) s >>= finish_native num_bits 1

theorem rel_forge_digits {num_bits : ℕ} (h2 : 2 ≤ num_bits) (e : ℕ × ZMod n) {s s' : AssignedValue n} (hs : sh True s s') :
    Runs2 True (decompose_scalar_native num_bits 1 s) (forge_digits num_bits e s') (sh True) := by
  rw [decompose_scalar_native_eq]
  unfold forge_digits
  have : num_bits / 2 = num_bits / 2 - 1 + 1 := by omega
  rw [this, Nat.add_sub_cancel]
  exact (rel_forge_digit_bits _ _ _ _ hs).bind fun _ _ hr => rel_finish_native _ _ hr

/-- The windows `res` hold the forged digits. -/
def Digits (W : ℕ) (e : ℕ × ZMod n) (res : List (List (AssignedCondition n))) : Prop :=
  res.length = W ∧ ∀ wi < W, ∃ d, res[wi]? = some [d] ∧ d.val = forgedDigit W e wi

/-- `e` is a way to forge the scalar `v` in `W` bits. -/
def Forgery (W : ℕ) (v : ZMod n) (e : ℕ × ZMod n) : Prop := e.1 % 2 = 0 ∧ e.1 < 2 ^ W ∧ v = (e.1 : ZMod n) + e.2

theorem C_forge_digits [Fact n.Prime] {W : ℕ} (h2 : 2 ≤ W) (he : W % 2 = 0) {s : AssignedValue n} {e : ℕ × ZMod n}
    (hs : Forgery W s.val e) (hok : H → Ok h s) :
    C c h H (forge_digits W e s) (Digits W e) (fun res => ∀ win ∈ res, ∀ x ∈ win, Ok h x) := by
  unfold forge_digits
  have hW : 2 * (W / 2 - 1 + 1) = W := by omega
  refine C.bind (C_forge_digit_bits hs.1 (by rw [hW]; exact hs.2.1) hs.2.2 hok) fun r ⟨h1, h3, h4⟩ => ?_
  rw [hW] at h1
  unfold finish_native
  rw [if_neg (by omega), bind_assoc]
  refine C.bind (C_assert_constant h4 fun hH => hH.2.2) fun _ _ => ?_
  rw [pure_bind]
  refine C.bind (C_pad_bits one_ne_zero (by simp [Nat.mod_one]) fun hH => hH.1.2.1) fun r' ⟨e1, ext, e2, _⟩ => C.pure ?_ fun hH => ?_
  · obtain rfl : ext = [] := by
      rw [e2, List.length_append, Nat.add_sub_cancel, Nat.div_one, Nat.mul_one] at e1
      exact List.length_eq_zero_iff.1 (by omega)
    rw [List.append_nil] at e2
    subst e2
    rw [chunks_one]
    refine ⟨by simp [h1], fun wi hwi => ?_⟩
    have hj : W - 1 - wi < r.1.length := by omega
    refine ⟨r.1[W - 1 - wi], ?_, (h3 _ _ (List.getElem?_eq_getElem hj)).trans ?_⟩
    swap
    · unfold forgedDigit
      by_cases e : wi + 1 = W
      · rw [if_pos e, if_pos (by omega)]
      · rw [if_neg e, if_neg (by omega)]
    rw [List.getElem?_reverse (by simpa using (by omega : wi < r.1.length)), List.length_map, h1, List.getElem?_map,
      List.getElem?_eq_getElem hj]
    rfl
  · intro win hw x hx
    exact hH.2 x (mem_chunks_reverse one_ne_zero hw hx)

/-- The operations on native scalars, with forged decompositions. -/
def forgedScalar (num_bits : ℕ) (g : ZMod n → ℕ × ZMod n) : ScalarOps n (AssignedValue n) :=
  { nativeScalar num_bits with decompose := fun s => forge_digits num_bits (g s.val) s }

theorem rel_forgedScalar {num_bits : ℕ} (h2 : 2 ≤ num_bits) (g : ZMod n → ℕ × ZMod n) :
    RelOps₂ True (nativeScalar (n := n) num_bits) (forgedScalar num_bits g) where
  decompose _ _ h := rel_forge_digits h2 _ h
  bisec := (relOps_native num_bits).bisec
  zero := (relOps_native num_bits).zero

theorem normalize_forged (num_bits : ℕ) (g : ZMod n → ℕ × ZMod n) (z : AssignedValue n) (p : AssignedNonZeroPoint n) :
    ∀ l, normalize info (forgedScalar num_bits g) z p l = normalize info (nativeScalar num_bits) z p l
  | [] => rfl
  | (q, s) :: l => by
    unfold normalize
    rw [normalize_forged num_bits g z p l]
    rfl

/-! ### Random points for a given sequence of partial results -/

theorem atMost_accPos {G : Type} [AddCommGroup G] (h2 : ∀ P : G, P + P = 0 → P = 0) (h3 : ∀ P : G, P + P + P = 0 → P = 0)
    (W : ℕ) (L : G) (Z V : ℕ → G) :
    AtMost (W * 7) fun A => ¬ ∀ t < W, Addable (Z t) (-A) ∧ AccPos true L A (V t) (Z t - L) (V (t + 1)) := by
  have key : ∀ z v v' : G, AtMost 7 fun A => ¬ (Addable z (-A) ∧ AccPos true L A v (z - L) v') := by
    intro z v v'
    have a1 : AtMost 1 fun A => z = -A := AtMost.one fun A B hA hB => neg_injective (hA.symm.trans hB)
    have a2 : AtMost 1 fun A => z = - -A := AtMost.one fun A B hA hB => by
      have := hA.symm.trans hB; simpa using this
    have a3 : AtMost 1 fun A => A + v + (A + v) = 0 := AtMost.one fun A B hA hB =>
      add_right_cancel ((h2 _ hA).trans (h2 _ hB).symm)
    have a4 : AtMost 1 fun A => -A + (if true = true then L else 0) + (z - L) = A + v + (A + v) := AtMost.one fun A B hA hB => by
      rw [if_pos rfl] at hA hB
      have e : ∀ A : G, -A + L + (z - L) = A + v + (A + v) → A + A + A = z - (v + v) := fun A h => by
        have : A + A + A = (A + v + (A + v)) + A - (v + v) := by abel
        rw [this, ← h]; abel
      have := (e A hA).trans (e B hB).symm
      exact sub_eq_zero.1 (h3 (A - B) (by rw [sub_add_sub_comm, sub_add_sub_comm, this, sub_self]))
    have a5 : AtMost 1 fun A => -A + (if true = true then L else 0) + (z - L) = -(A + v + (A + v)) := AtMost.one fun A B hA hB => by
      rw [if_pos rfl] at hA hB
      have e : ∀ A : G, -A + L + (z - L) = -(A + v + (A + v)) → A = -(z + (v + v)) := fun A h => by
        have h' : A + v + (A + v) = -(-A + L + (z - L)) := by rw [h, neg_neg]
        have : A = (A + v + (A + v)) - A - (v + v) := by abel
        rw [this, h']; abel
      exact (e A hA).trans (e B hB).symm
    have a6 : AtMost 1 fun A => A + v' + L = L := AtMost.one fun A B hA hB => by simpa using hA.trans hB.symm
    have a7 : AtMost 1 fun A => A + v' + L = -L := AtMost.one fun A B hA hB => by simpa using hA.trans hB.symm
    refine ((((((a1.or a2).or a3).or a4).or a5).or a6).or a7).mono le_rfl fun A hA => ?_
    by_contra hc
    push Not at hc
    obtain ⟨⟨⟨⟨⟨⟨c1, c2⟩, c3⟩, c4⟩, c5⟩, c6⟩, c7⟩ := hc
    exact hA ⟨⟨c1, c2⟩, c3, c4, c5, fun _ => c6, fun _ => c7⟩
  refine (AtMost.exists_lt W fun t _ => key (Z t) (V t) (V (t + 1))).mono le_rfl fun A hA => ?_
  push Not at hA
  obtain ⟨t, ht, hA⟩ := hA
  exact ⟨t, ht, fun h => hA h.1 h.2⟩

/-! ### The sums -/

section
variable {G : Type} [AddCommGroup G]

theorem prefixSum_succ {W t : ℕ} (ht : t < W) : ∀ (xs : List ℕ) (Ps : List G),
    prefixSum W (t + 1) xs Ps = prefixSum W t xs Ps + prefixSum W t xs Ps + windowSum W t xs Ps
  | [], Ps => by simp [prefixSum, windowSum]
  | _ :: _, [] => by simp [prefixSum, windowSum]
  | x :: xs, P :: Ps => by
    have ih := prefixSum_succ ht xs Ps
    unfold prefixSum windowSum windowBit at ih ⊢
    simp only [List.zipWith_cons_cons, List.sum_cons]
    rw [ih]
    have e1 : W - t = W - (t + 1) + 1 := by omega
    have e2 : W - 1 - t = W - (t + 1) := by omega
    rw [e1, e2, pow_succ, ← Nat.div_div_eq_div_mul]
    generalize x / 2 ^ (W - (t + 1)) = y
    have e3 : y • P = (y / 2) • P + (y / 2) • P + (y % 2) • P := by
      rw [← add_nsmul, ← add_nsmul]
      congr 1; omega
    rw [e3]
    abel

theorem prefixSum_start {W : ℕ} : ∀ (xs : List ℕ) (Ps : List G), (∀ x ∈ xs, x < 2 ^ W) → prefixSum W 0 xs Ps = 0
  | [], Ps, _ => by simp [prefixSum]
  | _ :: _, [], _ => by simp [prefixSum]
  | x :: xs, P :: Ps, h => by
    have ih := prefixSum_start xs Ps fun y hy => h y (by simp [hy])
    unfold prefixSum at ih ⊢
    rw [List.zipWith_cons_cons, List.sum_cons, ih, Nat.sub_zero, Nat.div_eq_of_lt (h x (by simp)), zero_nsmul, add_zero]

theorem windowSum_even {W : ℕ} : ∀ (xs : List ℕ) (Ps : List G), (∀ x ∈ xs, x % 2 = 0) → windowSum W (W - 1) xs Ps = 0
  | [], Ps, _ => by simp [windowSum]
  | _ :: _, [], _ => by simp [windowSum]
  | x :: xs, P :: Ps, h => by
    have ih := windowSum_even (W := W) xs Ps fun y hy => h y (by simp [hy])
    unfold windowSum windowBit at ih ⊢
    rw [List.zipWith_cons_cons, List.sum_cons, ih, Nat.sub_self, pow_zero, Nat.div_one, h x (by simp), zero_nsmul, add_zero]

/-- What window `t` selects. -/
def forgedPick (W : ℕ) (xs : List ℕ) (Ps : List G) (L D : G) (t : ℕ) : G :=
  if t + 1 = W then L + D else L + windowSum W t xs Ps

/-- The partial results. -/
def forgedSum (W : ℕ) (xs : List ℕ) (Ps : List G) (D : G) (t : ℕ) : G :=
  prefixSum W t xs Ps + if t = W then D else 0

theorem forgedSum_succ {W : ℕ} {xs : List ℕ} (hx : ∀ x ∈ xs, x % 2 = 0) {Ps : List G} {L D : G} (t : ℕ) (ht : t < W) :
    forgedSum W xs Ps D (t + 1) = forgedSum W xs Ps D t + forgedSum W xs Ps D t + (forgedPick W xs Ps L D t - L) := by
  unfold forgedSum forgedPick
  rw [if_neg (by omega : t ≠ W), prefixSum_succ ht]
  by_cases e : t + 1 = W
  · rw [if_pos e, if_pos e]
    have : t = W - 1 := by omega
    rw [this, windowSum_even xs Ps hx]
    abel
  · rw [if_neg e, if_neg e]
    abel

theorem subsetSum_digits [Fact n.Prime] {W wi : ℕ} : ∀ {ds : List (AssignedValue n)} {xs : List ℕ} {Ps : List G},
    List.Forall₂ (fun a x => a.val = bitField n (x.testBit (W - 1 - wi))) ds xs →
    subsetSum Ps (binVal AssignedValue.val ds) = windowSum W wi xs Ps
  | [], [], Ps, .nil => by simp [windowSum, binVal]
  | a :: ds, x :: xs, [], .cons _ _ => by simp [windowSum, subsetSum]
  | a :: ds, x :: xs, P :: Ps, .cons h hs => by
    have ih := subsetSum_digits (Ps := Ps) hs
    unfold windowSum windowBit at ih ⊢
    rw [List.zipWith_cons_cons, List.sum_cons, ← ih, binVal, h, bitField_val, subsetSum]
    have := Nat.mod_lt (x / 2 ^ (W - 1 - wi)) (show 2 > 0 by norm_num)
    congr 2 <;> omega

end

/-! ### A multiplication with forged digits -/

theorem chunks_self {α : Type} {k : ℕ} (hk : k ≠ 0) {l : List α} (hl : l ≠ []) (h : l.length ≤ k) : chunks k l = [l] := by
  rw [chunks_cons hk hl, List.take_of_length_le h, List.drop_eq_nil_of_le h, chunks_nil]

section
variable [Fact n.Prime] [Fact wm.Prime] (hi : RangeInfo.new wm n 18 6 = .ok info) (hd : info.d_bits % 108 ≠ 0)
  (hb : GoodCurve b)

/-- What the choice has to satisfy in the last window, when the digits are `es`. -/
def PickForged (c : Circuit n) (info : RangeInfo n) (h : Advice n) (K : ℕ → AssignedNonZeroPoint n → Prop)
    (pick : List (List (AssignedNonZeroPoint n)) → ℕ → List (AssignedCondition n) → M n (AssignedNonZeroPoint n))
    (es : List (ZMod n)) (Ps : List (Pt b)) (L R : Pt b) : Prop :=
  ∀ (cs : List (List (AssignedNonZeroPoint n))) cl (ds : List (AssignedCondition n)) (H : Prop), cs[0]? = some cl →
    HCands info cl (fun i => L + subsetSum Ps i) → cl.length = 2 ^ Ps.length → ds.map AssignedValue.val = es →
    (H → (∀ x ∈ ds, Ok h x) ∧ OkCands h K cl) → C c h H (pick cs 0 ds) (fun r => HNRep info r R) (OkN h)

include hi hd hb in
/-- After the preparation, when there is one group. -/
theorem C_msm_after_forged {ops : ScalarOps n σ} {OkS : σ → Prop} {R : σ → ℕ × ZMod n → Prop} {B : ℕ}
    {K : ℕ → ℕ → AssignedNonZeroPoint n → Prop}
    {pick : List (List (AssignedNonZeroPoint n)) → ℕ → List (AssignedCondition n) → M n (AssignedNonZeroPoint n)}
    (hp : ∀ cs g l, Prog (pick cs g l))
    (hpr : ∀ cs g b b', sh False b b' → Runs2 False (pick cs g b) (pick cs g b') (sh False))
    (hpick : PickComplete c info h b B K pick) {W : ℕ} (hW : 1 ≤ W)
    (hdec : ∀ (H : Prop) s e, R s e → (H → OkS s) → C c h H (ops.decompose s) (Digits W e)
      (fun res => ∀ win ∈ res, ∀ x ∈ win, Ok h x))
    {scalars : List σ} {es : List (ℕ × ZMod n)} (hes : List.Forall₂ R scalars es)
    (hx : ∀ e ∈ es, e.1 % 2 = 0 ∧ e.1 < 2 ^ W) {size : ℕ} (hne : scalars ≠ []) (hlen : scalars.length ≤ size)
    (hB : scalars.length ≤ B)
    {line_neg acc acc_neg : AssignedNonZeroPoint n} {L A D : Pt b}
    (hL : HNRep info line_neg (-L)) (hA : HNRep info acc A) (hA' : HNRep info acc_neg (-A))
    {cs : List (List (AssignedNonZeroPoint n))} {cl : List (AssignedNonZeroPoint n)} {Ps : List (Pt b)} (hcs : cs[0]? = some cl)
    (hPs : Ps.length = scalars.length) (hcl : cl.length = 2 ^ Ps.length)
    (hcd : HCands info cl (fun i => L + subsetSum Ps i))
    (hlast : PickForged c info h (K 0) pick (es.map Prod.snd) Ps L (L + D))
    (hpos : ∀ t < W, Addable (forgedPick W (es.map Prod.fst) Ps L D t) (-A) ∧ AccPos true L A
      (forgedSum W (es.map Prod.fst) Ps D t) (forgedPick W (es.map Prod.fst) Ps L D t - L)
      (forgedSum W (es.map Prod.fst) Ps D (t + 1)))
    (hok : H → OkN h line_neg ∧ OkN h acc ∧ OkN h acc_neg ∧ (∀ s ∈ scalars, OkS s) ∧ OkCands h (K 0) cl) :
    C c h H (msm_after info ops pick scalars size line_neg acc acc_neg cs) (fun res => ∃ p, res = .ok p ∧
      HPRep info p (prefixSum W W (es.map Prod.fst) Ps + D)) (fun r => ∀ p, r = .ok p → OkP h p) := by
  unfold msm_after
  refine C.bind (C.mapM₂ hes fun hH s e hsl hse => hdec _ s e hse fun h' => (hok (hH h')).2.2.2.1 s hsl)
    fun bits hbits => ?_
  have hlb : bits.length = scalars.length := by rw [hbits.length_eq, hes.length_eq]
  have h0 : 0 < bits.length := by rw [hlb]; exact List.length_pos_iff.2 hne
  have hdig : ∀ bs ∈ bits, ∃ e, Digits W e bs := by
    intro bs hbs
    obtain ⟨i, hi, rfl⟩ := List.getElem_of_mem hbs
    exact ⟨_, (List.forall₂_iff_get.1 hbits).2 i hi (by rw [← hbits.length_eq]; exact hi)⟩
  have hWb : ∀ bs ∈ bits, bs.length = W := fun bs hbs => (hdig bs hbs).elim fun _ h => h.1
  refine C.bind_index (List.getElem?_eq_getElem h0) ?_
  rw [hWb _ (List.getElem_mem h0), chunks_self (l := bits) (by omega) (List.length_pos_iff.1 h0) (by omega)]
  refine C.tryB (C_windows_parallel (P := fun wi p => HNRep info p (forgedPick W (es.map Prod.fst) Ps L D wi + -A))
    (Q := fun _ p => OkN h p) hW (fun i => (prog_window_acc (hp _) i _ _ _).growing) (fun i => neverErr_window_acc i _ _ _)
    (fun wi hwi => ?_) fun i _ => ?_) fun l hl => ?_
  · unfold window_acc
    refine C.bind (C_group_bits (wi := wi) (fun bs hbs => ⟨by rw [hWb bs hbs]; exact hwi, fun win hwin => ?_⟩) fun hH =>
      hH.2) fun ds hds => ?_
    · obtain ⟨e, h1, h2⟩ := hdig bs hbs
      obtain ⟨j, hj⟩ := List.mem_iff_getElem?.1 hwin
      obtain ⟨d, h3, -⟩ := h2 j (by rw [← h1]; exact (List.getElem?_eq_some_iff.1 hj).1)
      rw [h3] at hj
      cases hj; rfl
    have hvals : List.Forall₂ (fun a e => a.val = forgedDigit W e wi) ds es := by
      rw [List.forall₂_iff_get] at hbits hds ⊢
      refine ⟨hds.1.symm.trans hbits.1, fun i h1 h2 => ?_⟩
      obtain ⟨win, w1, w2⟩ := hds.2 i (by rw [hds.1]; exact h1) h1
      obtain ⟨d, d1, d2⟩ := (hbits.2 i (by rw [hbits.1]; exact h2) h2).2 wi hwi
      rw [d1] at w1
      cases w1
      simp only [List.getElem?_cons_zero, Option.some.injEq] at w2
      rw [← w2]; exact d2
    have hdl : ds.length = Ps.length := by rw [hvals.length_eq, ← hes.length_eq, hPs]
    refine C.bind (P := fun r => HNRep info r (forgedPick W (es.map Prod.fst) Ps L D wi)) (Q := OkN h) ?_ fun ci hci => ?_
    · unfold forgedPick
      split
      · rename_i e
        refine hlast cs cl ds _ hcs hcd hcl ?_ fun hH => ⟨hH.2, (hok hH.1.1).2.2.2.2⟩
        have : List.Forall₂ (fun a e => a.val = e.2) ds es := hvals.imp fun _ _ h => by rw [h]; exact if_pos e
        have := List.forall₂_map_left_iff.2 (List.forall₂_map_right_iff.2 this)
        exact (List.forall₂_eq_eq_eq ▸ this : ds.map AssignedValue.val = es.map Prod.snd)
      · rename_i e
        have hv : List.Forall₂ (fun a x => a.val = bitField n (x.testBit (W - 1 - wi))) ds (es.map Prod.fst) :=
          List.forall₂_map_right_iff.2 (hvals.imp fun _ _ h => by rw [h]; exact if_neg e)
        rw [← subsetSum_digits (Ps := Ps) hv]
        refine hpick cs 0 ds cl (fun i => L + subsetSum Ps i) _ hcs hcd (by rw [hdl, hcl]) ?_ (by omega) (fun a ha => ?_)
          fun hH => ⟨hH.2, (hok hH.1.1).2.2.2.2⟩
        · intro e0
          rw [e0] at hdl
          simp at hdl
          omega
        · obtain ⟨i, hi, rfl⟩ := List.getElem_of_mem ha
          have := (List.forall₂_iff_get.1 hv).2 i hi (by rw [← hv.length_eq]; exact hi)
          simp only [List.get_eq_getElem] at this
          rw [this]
          exact bitField_bit _
    refine C.tryB (C_ecc_add_unsafe hi hd hci hA' (hpos wi hwi).1.1 (hpos wi hwi).1.2 fun hH => ⟨hH.2, (hok hH.1.1.1).2.2.1⟩)
      fun a ha => ?_
    unfold window_acc
    refine C.pure ⟨a, rfl, ha⟩ fun hH p e => ?_
    cases e
    exact hH.2
  · exact (rel_windows info (hpr _) 0 i _ 0 (sh_false_refl _)).mono fun _ _ _ => trivial
  · have hfin : forgedSum W (es.map Prod.fst) Ps D W = prefixSum W W (es.map Prod.fst) Ps + D := by
      unfold forgedSum; rw [if_pos rfl]
    rw [← hfin]
    refine C_msm_finish hi hd hb hL hA hA' (V := forgedSum W (es.map Prod.fst) Ps D)
      (X := fun t => forgedPick W (es.map Prod.fst) Ps L D t - L) ?_ (fun t ht => forgedSum_succ ?_ t ht) _
      (fun t ht => (hpos t ht).2) hl.1 (fun j p hp => ?_) fun hH =>
      ⟨(hok hH.1.1).1, (hok hH.1.1).2.1, (hok hH.1.1).2.2.1, hH.2⟩
    · unfold forgedSum
      rw [prefixSum_start _ _ (fun x hx' => ?_), if_neg (by omega)]
      · exact add_zero _
      · obtain ⟨e, he, rfl⟩ := List.mem_map.1 hx'
        exact (hx e he).2
    · intro x hx'
      obtain ⟨e, he, rfl⟩ := List.mem_map.1 hx'
      exact (hx e he).1
    · have := hl.2 j p hp
      generalize forgedPick W (es.map Prod.fst) Ps L D j = Z at this ⊢
      have e : Z + -A = -A + (if true = true then L else 0) + (Z - L) := by
        simp
        abel
      rwa [← e]

end

/-! ### The third point -/

section
variable [Fact n.Prime] [Fact wm.Prime] (hi : RangeInfo.new wm n 18 6 = .ok info) (hd : info.d_bits % 108 ≠ 0)
  (hb : GoodCurve b)

/-- Coordinates `(lx, ly)`, `(mx, my)`, `(tx, ty)` of `L`, `M` and `T` such that selecting between `L` and `M` with the
digit `-1` yields `T`. -/
structure Progression (info : RangeInfo n) (L M T : Pt b) (lx ly mx my tx ty : ℕ) : Prop where
  L : HasCoords L (lx : ZMod wm) (ly : ZMod wm)
  M : HasCoords M (mx : ZMod wm) (my : ZMod wm)
  T : HasCoords T (tx : ZMod wm) (ty : ZMod wm)
  lt : lx < wm ∧ ly < wm ∧ mx < wm ∧ my < wm ∧ tx < wm ∧ ty < wm
  x : LimbLine info.limbs mx lx tx
  y : LimbLine info.limbs my ly ty
  sx : 2 * lx = mx + tx
  sy : 2 * ly = my + ty

include hi in
theorem pickForged_minus {L P T : Pt b} {lx ly mx my tx ty : ℕ} (hl : Progression info L (L + P) T lx ly mx my tx ty)
    : PickForged c info h (fun _ _ => True) (pick_bisec info) [-1] [P] L T := by
  intro cs cl ds H hcs hcl hlen hds hok
  obtain ⟨d, rfl⟩ : ∃ d, ds = [d] := List.length_eq_one_iff.1 (by rw [← List.length_map, hds]; rfl)
  have hd : d.val = -1 := by simpa using hds
  obtain ⟨p0, p1, rfl⟩ := List.length_eq_two.1 (by simpa using hlen)
  unfold pick_bisec bisec_candidate_non_zero
  refine C.bind_index hcs ?_
  simp only [bisec_rounds, bisec_pairs, bind_assoc, pure_bind]
  have h0 : HRed info p0 L := by
    have := hcl 0 p0 rfl
    simpa using this
  have h1 : HRed info p1 (L + P) := by
    have := hcl 1 p1 rfl
    simpa [subsetSum] using this
  obtain ⟨l1, l2, l3, l4, l5, l6⟩ := hl.lt
  refine C.bind (C_bisec_nz_minus hi h1 h0 l3 l4 l1 l2 l5 l6 hl.M hl.L hl.T hl.x hl.y hl.sx hl.sy hd fun hH =>
    ⟨(hok hH).1 d (by simp), ((hok hH).2 1 p1 rfl).1, ((hok hH).2 0 p0 rfl).1⟩) fun r hr => ?_
  refine C.bind_rassert (by simp) ?_
  unfold index
  exact C.pure hr fun hH => hH.2

theorem groupSize_self {best N : ℕ} (h1 : 1 ≤ N) (h2 : N ≤ best) : groupSize best N = N := by
  have : groupCount best N = 1 := by
    unfold groupCount
    rw [show N + best - 1 = (N - 1) + best by omega, Nat.add_div_right _ (by omega), Nat.div_eq_of_lt (by omega)]
  unfold groupSize
  rw [this, Nat.div_one]
  omega

include hi hd hb in
/-- The batch with forged digits, for up to `best` points. -/
theorem C_msm_batch_forged {ops : ScalarOps n σ} {OkS : σ → Prop} {R : σ → ℕ × ZMod n → Prop} {best : ℕ} (hbest : best ≤ 31)
    {before : M n Unit} (hbef : ∀ H : Prop, C c h H before (fun _ => True) (fun _ => True))
    {cache : ℕ → AssignedNonZeroPoint n → ℕ → M n Unit}
    {K : ℕ → ℕ → AssignedNonZeroPoint n → Prop}
    (hK : ∀ g, CacheComplete c info h b (K g) (cache g))
    {pick : List (List (AssignedNonZeroPoint n)) → ℕ → List (AssignedCondition n) → M n (AssignedNonZeroPoint n)}
    (hp : ∀ cs g l, Prog (pick cs g l))
    (hpr : ∀ cs g b b', sh False b b' → Runs2 False (pick cs g b) (pick cs g b') (sh False))
    (hpick : PickComplete c info h b best K pick) {W : ℕ} (hW : 1 ≤ W)
    (hdec : ∀ (H : Prop) s e, R s e → (H → OkS s) → C c h H (ops.decompose s) (Digits W e)
      (fun res => ∀ win ∈ res, ∀ x ∈ win, Ok h x))
    {bb : ℕ} (hbb : bb < wm) (hbe : (bb : ZMod wm) = b) {points : List (AssignedNonZeroPoint n)} {scalars : List σ}
    {Ps : List (Pt b)} {es : List (ℕ × ZMod n)} (hP : List.Forall₂ (HNRep info) points Ps) (hes : List.Forall₂ R scalars es)
    (hx : ∀ e ∈ es, e.1 % 2 = 0 ∧ e.1 < 2 ^ W) (hlen : points.length = scalars.length) (hne : points ≠ [])
    (hN : points.length ≤ best) {ax ay lx ly : ℕ} {A L D : Pt b} (hax : ax < wm) (hay : ay < wm) (hlx : lx < wm)
    (hly : ly < wm) (hA : HasCoords A (ax : ZMod wm) (ay : ZMod wm)) (hL : HasCoords L (lx : ZMod wm) (ly : ZMod wm))
    (hlast : PickForged c info h (K 0) pick (es.map Prod.snd) Ps L (L + D))
    (hcand : ∀ (before : List (Pt b)) (P : Pt b) (after S : List (Pt b)), Ps = before ++ P :: after → S.Sublist after →
      Addable (L + S.sum) P)
    (hpos : ∀ t < W, Addable (forgedPick W (es.map Prod.fst) Ps L D t) (-A) ∧ AccPos true L A
      (forgedSum W (es.map Prod.fst) Ps D t) (forgedPick W (es.map Prod.fst) Ps L D t - L)
      (forgedSum W (es.map Prod.fst) Ps D (t + 1)))
    (hok : H → (∀ p ∈ points, OkN h p) ∧ ∀ s ∈ scalars, OkS s) :
    C c h H (msm_batch info bb ops best before cache pick points scalars (some (ax, ay)) (some (lx, ly)))
      (fun res => ∃ p, res = .ok p ∧ HPRep info p (prefixSum W W (es.map Prod.fst) Ps + D))
      (fun r => ∀ p, r = .ok p → OkP h p) := by
  have h1 : 1 ≤ points.length := List.length_pos_iff.2 hne
  have hPl := hP.length_eq
  have hgs : groupSize best Ps.length = Ps.length := groupSize_self (by omega) (by omega)
  have hPne : Ps ≠ [] := fun e => hne (List.length_eq_zero_iff.1 (by rw [hPl, e]; rfl))
  refine C_msm_prepare hi hd (by omega) hbest hbef hK hbb hbe hP hne hax hay hlx hly hA hL ?_ (fun hH => (hok hH).1) ?_
  · intro g bf P' af S e1 e2
    rw [hgs] at e1
    have hg : g = 0 := by
      rcases g with _ | g
      · rfl
      · have : Ps.length ≤ (g + 1) * Ps.length := Nat.le_mul_of_pos_left _ (by omega)
        unfold groupOf at e1
        rw [List.drop_eq_nil_of_le this] at e1
        simp at e1
    subst hg
    have : Ps = bf ++ P' :: af := by simpa [groupOf] using e1
    simpa [lineSign] using hcand bf P' af S this e2
  · rw [hgs]
    intro H' line_neg acc acc_neg cs _ _ hLn hAc hAn hcl hcs hok'
    have hch : chunks Ps.length Ps = [Ps] := chunks_self (by omega) hPne le_rfl
    rw [hch] at hcl hcs
    obtain ⟨cl, rfl⟩ := List.length_eq_one_iff.1 hcl
    obtain ⟨c1, c2⟩ := hcs 0 cl Ps rfl rfl
    refine C_msm_after_forged hi hd hb hp hpr hpick hW hdec hes hx (fun e => hne (List.length_eq_zero_iff.1 (by rw [hlen, e]; rfl)))
      (by omega) (by omega) hLn hAc hAn (cl := cl) rfl (by omega) c1 (by simpa [signed] using c2) hlast hpos fun hH =>
      ⟨(hok' hH).2.1, (hok' hH).2.2.1, (hok' hH).2.2.2.1, (hok (hok' hH).1).2, (hok' hH).2.2.2.2 0 cl rfl⟩

include hi hd in
/-- The normalisation before the batch, for points other than the identity. -/
theorem C_msm_of_batch {bb : ℕ} (hbb : bb < wm) (hbe : (bb : ZMod wm) = b) {W : ℕ} (hnW : n ≤ 2 ^ W) {g : ZMod n → ℕ × ZMod n}
    {points : List (AssignedPoint n)} {Ps : List (Pt b)} (hP : List.Forall₂ (HPRep info) points Ps) (hP0 : 0 ∉ Ps)
    {scalars : List (AssignedValue n)} (hlen : points.length = scalars.length) {gx gy : ℕ} {Gn : Pt b} (hgx : gx < wm)
    (hgy : gy < wm) (hG : HasCoords Gn (gx : ZMod wm) (gy : ZMod wm)) {r1 r2 : Option (ℕ × ℕ)} {pre : Option ℕ} {R : Pt b}
    (hbatch : ∀ (H' : Prop) points' (scalars' : List (AssignedValue n)), List.Forall₂ (HNRep info) points' Ps →
      scalars'.map AssignedValue.val = scalars.map AssignedValue.val →
      (H' → (∀ p ∈ points', OkN h p) ∧ ∀ s ∈ scalars', Ok h s) →
      C c h H' (match pre with
        | some pre => msm_batch_with_select info bb (forgedScalar W g) pre points' scalars' r1 r2
        | none => msm_batch_without_select info bb (forgedScalar W g) points' scalars' r1 r2)
        (fun res => ∃ p, res = .ok p ∧ HPRep info p R) (fun r => ∀ p, r = .ok p → OkP h p))
    (hok : H → (∀ p ∈ points, OkP h p) ∧ ∀ s ∈ scalars, Ok h s) :
    C c h H (msm info bb (forgedScalar W g) (gx, gy) r1 r2 pre points scalars)
      (fun r => HPRep info r.1 R) (fun r => OkP h r.1) := by
  unfold msm
  refine C.bind (P := fun r => ∃ p, r.1 = .ok p ∧ HPRep info p R)
    (Q := fun r => ∀ p, r.1 = .ok p → OkP h p) ?_ ?_
  swap
  · rintro ⟨r, q⟩ ⟨p, rfl, hp⟩
    exact C.pure hp fun hH => hH.2 p rfl
  unfold msm_unsafe
  have hsc := nativeScalar_complete (c := c) (h := h) hnW
  refine C.bind (C_assign_non_zero_point hi hd hbb hbe hgx hgy hG) fun q hq => C.bind (hsc.zero _) fun s0 h0 => ?_
  rw [normalize_forged]
  refine C.bind (C_normalize hi hsc h0 hq.1 hP scalars (scalars.map fun s => s.val.val)
    (by rw [List.forall₂_map_right_iff]; exact List.forall₂_same.2 fun _ _ => rfl) hlen fun hH =>
    ⟨hH.2, hH.1.2, (hok hH.1.1).1, (hok hH.1.1).2⟩) fun l ⟨hl1, hl2⟩ => ?_
  have hc : cleanPoints Gn Ps = Ps := by
    unfold cleanPoints
    conv_rhs => rw [← List.map_id Ps]
    refine List.map_congr_left fun P hP => if_neg ?_
    rintro rfl
    exact hP0 hP
  have hc' : ∀ (Ps : List (Pt b)) (ks : List ℕ), 0 ∉ Ps → Ps.length = ks.length → cleanScalars Ps ks = ks := by
    intro Ps
    induction Ps with
    | nil => intro ks _ hl; cases ks with
      | nil => rfl
      | cons => simp at hl
    | cons P Ps ih => intro ks hP hl; cases ks with
      | nil => simp at hl
      | cons k ks =>
        have := ih ks (fun h => hP (by simp [h])) (by simpa using hl)
        unfold cleanScalars at this ⊢
        rw [List.zipWith_cons_cons, this, if_neg (fun e => hP (by simp [e]))]
  rw [hc] at hl1
  rw [hc' Ps _ hP0 (by rw [List.length_map, ← hlen, hP.length_eq])] at hl2
  have hl2 : (l.map Prod.snd).map AssignedValue.val = scalars.map AssignedValue.val := by
    have h3 := List.forall₂_map_right_iff.1 hl2
    have h4 : List.Forall₂ (fun a s => a.val = s.val) (l.map Prod.snd) scalars := h3.imp fun _ _ h => ZMod.val_injective n h
    have := List.forall₂_map_left_iff.2 (List.forall₂_map_right_iff.2 h4)
    exact (List.forall₂_eq_eq_eq ▸ this :)
  have key := hbatch _ (l.map Prod.fst) (l.map Prod.snd) hl1 hl2 id
  cases pre with
  | none =>
    exact C.bind (key.weaken fun hH => hH.2) fun r ⟨p, e, hp⟩ => C.pure ⟨p, e, hp⟩ fun hH p' e => hH.2 p' e
  | some pre =>
    exact C.bind (key.weaken fun hH => hH.2) fun r ⟨p, e, hp⟩ => C.pure ⟨p, e, hp⟩ fun hH p' e => hH.2 p' e

omit [Fact n.Prime] in
theorem forall₂_forgery {W : ℕ} {g : ZMod n → ℕ × ZMod n} {l : List (AssignedValue n)} {vs : List (ZMod n)}
    (hl : l.map AssignedValue.val = vs) (hv : ∀ v ∈ vs, Forgery W v (g v)) :
    List.Forall₂ (fun s e => e = g s.val ∧ Forgery W s.val e) l (vs.map g) := by
  subst hl
  rw [List.map_map, List.forall₂_map_right_iff]
  exact List.forall₂_same.2 fun s hs => ⟨rfl, hv _ (List.mem_map_of_mem hs)⟩

/-- What the two multiplications with forged digits need. -/
structure ForgedMsm (W : ℕ) (g : ZMod n → ℕ × ZMod n) (vs : List (ZMod n)) (Ps : List (Pt b)) (A L D : Pt b) : Prop where
  W2 : 2 ≤ W
  even : W % 2 = 0
  bits : n ≤ 2 ^ W
  points : 0 ∉ Ps
  length : Ps.length = vs.length
  ne : Ps ≠ []
  forgery : ∀ v ∈ vs, Forgery W v (g v)
  candidates : ∀ (before : List (Pt b)) (P : Pt b) (after S : List (Pt b)), Ps = before ++ P :: after → S.Sublist after →
    Addable (L + S.sum) P
  acc : ∀ t < W, Addable (forgedPick W (vs.map fun v => (g v).1) Ps L D t) (-A) ∧ AccPos true L A
    (forgedSum W (vs.map fun v => (g v).1) Ps D t) (forgedPick W (vs.map fun v => (g v).1) Ps L D t - L)
    (forgedSum W (vs.map fun v => (g v).1) Ps D (t + 1))

include hi hd hb in
/-- `msm` with forged digits, with and without the select chip. -/
theorem C_msm_forged {bb : ℕ} (hbb : bb < wm) (hbe : (bb : ZMod wm) = b) {W : ℕ} {g : ZMod n → ℕ × ZMod n}
    {points : List (AssignedPoint n)} {Ps : List (Pt b)} (hP : List.Forall₂ (HPRep info) points Ps)
    {scalars : List (AssignedValue n)} {gx gy : ℕ} {Gn : Pt b} (hgx : gx < wm)
    (hgy : gy < wm) (hG : HasCoords Gn (gx : ZMod wm) (gy : ZMod wm)) {pre : Option ℕ}
    {ax ay lx ly : ℕ} {A L D : Pt b} (hax : ax < wm) (hay : ay < wm) (hlx : lx < wm)
    (hly : ly < wm) (hA : HasCoords A (ax : ZMod wm) (ay : ZMod wm)) (hL : HasCoords L (lx : ZMod wm) (ly : ZMod wm))
    (hf : ForgedMsm W g (scalars.map AssignedValue.val) Ps A L D)
    (hpick : match pre with
      | none => Ps.length ≤ 2 ∧ PickForged c info h (fun _ _ => True) (pick_bisec info)
          (scalars.map fun s => (g s.val).2) Ps L (L + D)
      | some pre => Ps.length ≤ 5 ∧ 256 ≤ n ∧ pre < MSM_LIMIT ∧ PickForged c info h (CachedPoint c info h (0 + pre))
          (pick_select info pre) (scalars.map fun s => (g s.val).2) Ps L (L + D))
    (hok : H → (∀ p ∈ points, OkP h p) ∧ ∀ s ∈ scalars, Ok h s) :
    C c h H (msm info bb (forgedScalar W g) (gx, gy) (some (ax, ay)) (some (lx, ly)) pre points scalars)
      (fun r => HPRep info r.1 (prefixSum W W (scalars.map fun s => (g s.val).1) Ps + D)) (fun r => OkP h r.1) := by
  have hlen : points.length = scalars.length := by rw [hP.length_eq, hf.length, List.length_map]
  refine C_msm_of_batch hi hd hbb hbe hf.bits hP hf.points hlen hgx hgy hG (fun H' points' scalars' hP' hs' hok' => ?_) hok
  have hR := forall₂_forgery hs' hf.forgery
  have e1 : ((scalars.map AssignedValue.val).map g).map Prod.fst = scalars.map fun s => (g s.val).1 := by
    simp only [List.map_map]; rfl
  have e2 : ((scalars.map AssignedValue.val).map g).map Prod.snd = scalars.map fun s => (g s.val).2 := by
    simp only [List.map_map]; rfl
  have e3 : ((scalars.map AssignedValue.val).map fun v => (g v).1) = scalars.map fun s => (g s.val).1 := by
    simp only [List.map_map]; rfl
  have hx : ∀ e ∈ (scalars.map AssignedValue.val).map g, e.1 % 2 = 0 ∧ e.1 < 2 ^ W := by
    intro e he
    obtain ⟨v, hv, rfl⟩ := List.mem_map.1 he
    exact ⟨(hf.forgery v hv).1, (hf.forgery v hv).2.1⟩
  have hdec : ∀ (H : Prop) (s : AssignedValue n) e, (e = g s.val ∧ Forgery W s.val e) → (H → Ok h s) →
      C c h H ((forgedScalar W g).decompose s) (Digits W e) (fun res => ∀ win ∈ res, ∀ x ∈ win, Ok h x) := by
    rintro H s _ ⟨rfl, hs⟩ hok
    exact C_forge_digits hf.W2 hf.even hs hok
  have hpl : points'.length = scalars'.length := by
    rw [hP'.length_eq, hf.length, ← hs', List.length_map]
  have hne : points' ≠ [] := by
    rintro rfl
    cases hP'
    exact hf.ne rfl
  have hacc := hf.acc
  rw [e3] at hacc
  cases pre with
  | none =>
    have := C_msm_batch_forged (ops := forgedScalar W g) (OkS := Ok h) (before := pure ()) hi hd hb (best := 2) (by norm_num) (fun _ => C.pure trivial fun _ => trivial)
      (K := fun _ _ _ => True) (cache := fun _ _ _ => pure ()) (fun _ _ _ _ _ _ _ => C.pure trivial fun _ => trivial)
      prog_pick_bisec (fun cs g _ _ hb => rel_pick_bisec info (sh_false_lists cs cs rfl) g hb) (pickComplete_bisec hi 2)
      (by have := hf.W2; omega) hdec hbb hbe hP' hR hx hpl hne (by rw [hP'.length_eq]; exact hpick.1) hax hay hlx hly hA hL
      (by rw [e2]; exact hpick.2) hf.candidates (by rw [e1]; exact hacc) hok'
    rw [e1] at this
    exact this
  | some pre =>
    obtain ⟨p1, p2, p3, p4⟩ := hpick
    have := C_msm_batch_forged (ops := forgedScalar W g) (OkS := Ok h) (before := rassert (pre < MSM_LIMIT))
      (cache := fun g p i => assign_cache_point_non_zero info p (pre + g) i) hi hd hb (best := 5) (by norm_num)
      (fun _ => by
        rw [decide_eq_true p3]
        exact C.pure trivial fun _ => trivial)
      (K := fun g i p => CachedPoint c info h (g + pre) i p) (fun g _ p i P hp hok => by
        rw [Nat.add_comm pre g]
        exact C_assign_cache_point _ _ hp.1 hp.2.1 hp.2.2 hok)
      (prog_pick_select _) (fun cs g _ _ hb => rel_pick_select info pre cs cs g hb) (pickComplete_select pre (by norm_num) p2)
      (by have := hf.W2; omega) hdec hbb hbe hP' hR hx hpl hne (by rw [hP'.length_eq]; exact p1) hax hay hlx hly hA hL
      (by rw [e2]; exact p4) hf.candidates (by rw [e1]; exact hacc) hok'
    rw [e1] at this
    refine C.bind_rassert ?_ this
    rw [hP'.length_eq]
    exact decide_eq_true (p1.trans (by decide +kernel))

/-- With the select chip, the digits `2` and `0` in a group of two points select the second. -/
theorem pickForged_two (hn : 256 ≤ n) {pre : ℕ} {L P Q : Pt b} :
    PickForged c info h (CachedPoint c info h (0 + pre)) (pick_select info pre) [2, 0] [P, Q] L (L + Q) := by
  intro cs cl ds H hcs hcl hlen hds hok
  obtain ⟨d0, d1, rfl⟩ : ∃ a b, ds = [a, b] := List.length_eq_two.1 (by rw [← List.length_map, hds]; rfl)
  simp only [List.map_cons, List.map_nil, List.cons.injEq, and_true] at hds
  have e2 : (2 : ZMod n).val = 2 := by
    have := ZMod.val_natCast n 2
    rw [Nat.mod_eq_of_lt (by omega)] at this
    exact this
  have hv : binVal AssignedValue.val [d0, d1] = 2 := by
    simp only [binVal, hds.1, hds.2, e2, ZMod.val_zero]
  have := C_pick_select (H := H) (b := b) pre hn hcs hcl (by simpa using hlen) (by simp) (by simp) (by rw [hv]; simp) hok
  rw [hv] at this
  simpa [subsetSum] using this

end
end Verif
