import Verif.Proof.IntLinear

/-!
# Integer chip: multiplication
-/

namespace Verif
variable {n : ℕ} {c : Circuit n} {w h : Advice n} {H : Prop} {info : RangeInfo n} {wm : ℕ}

/-! ## Arithmetic of the product columns -/

/-- Column `p` of `a·b − d·w`. -/
def mulCol (wm : ℕ) (A B D : ℕ → ℕ) (p : ℕ) : ℤ :=
  ∑ i ∈ Finset.range (p + 1), ((A i : ℤ) * B (p - i) - D i * RangeInfo.limbOf 108 (p - i) wm)

/-- Partial sums `Σ_{j<k} (col_j − r_j)·2^(108 j)`. -/
def mulT (wm : ℕ) (A B D R : ℕ → ℕ) (k : ℕ) : ℤ :=
  ∑ j ∈ Finset.range k, (mulCol wm A B D j - R j) * 2 ^ (108 * j)

theorem mulT_succ (wm : ℕ) (A B D R : ℕ → ℕ) (k : ℕ) :
    mulT wm A B D R (k + 1) = mulT wm A B D R k + (mulCol wm A B D k - R k) * 2 ^ (108 * k) := by
  rw [mulT, Finset.sum_range_succ]; rfl

theorem sum_range_support {x : ℕ → ℤ} {L N : ℕ} (hx : ∀ i, L ≤ i → x i = 0) (hN : L ≤ N) :
    ∑ i ∈ Finset.range N, x i = ∑ i ∈ Finset.range L, x i := by
  obtain ⟨m, rfl⟩ := Nat.exists_eq_add_of_le hN
  rw [Finset.sum_range_add]
  have : ∑ i ∈ Finset.range m, x (L + i) = 0 := Finset.sum_eq_zero fun i _ => hx _ (by omega)
  rw [this, add_zero]

/-- The first `K` columns of a product determine it modulo `2^(108 K)`. -/
theorem conv_dvd {x y : ℕ → ℤ} {L : ℕ} (hx : ∀ i, L ≤ i → x i = 0) (hy : ∀ i, L ≤ i → y i = 0) (K : ℕ) :
    (2 : ℤ) ^ (108 * K) ∣ (∑ i ∈ Finset.range L, x i * 2 ^ (108 * i)) *
        (∑ i ∈ Finset.range L, y i * 2 ^ (108 * i)) -
      ∑ p ∈ Finset.range K, (∑ i ∈ Finset.range (p + 1), x i * y (p - i)) * 2 ^ (108 * p) := by
  have ex : ∑ i ∈ Finset.range L, x i * 2 ^ (108 * i) = ∑ i ∈ Finset.range (K + L), x i * 2 ^ (108 * i) :=
    (sum_range_support (fun i hi => by rw [hx i hi, zero_mul]) (by omega)).symm
  have ey : ∑ i ∈ Finset.range L, y i * 2 ^ (108 * i) = ∑ i ∈ Finset.range (K + L), y i * 2 ^ (108 * i) :=
    (sum_range_support (fun i hi => by rw [hy i hi, zero_mul]) (by omega)).symm
  have e1 : ∑ p ∈ Finset.range K, (∑ i ∈ Finset.range (p + 1), x i * y (p - i)) * 2 ^ (108 * p)
      = ∑ p ∈ Finset.range K, ∑ i ∈ Finset.range (p + 1),
          (x i * 2 ^ (108 * i)) * (y (p - i) * 2 ^ (108 * (p - i))) := by
    refine Finset.sum_congr rfl fun p _ => ?_
    rw [Finset.sum_mul]
    refine Finset.sum_congr rfl fun i hi => ?_
    have : p = i + (p - i) := by have := Finset.mem_range.1 hi; omega
    conv_lhs => rw [this, Nat.mul_add, pow_add]
    rw [Nat.add_sub_cancel_left]
    ring
  rw [ex, ey, e1, Finset.sum_range_diag_flip K fun i j => (x i * 2 ^ (108 * i)) * (y j * 2 ^ (108 * j))]
  set Y := ∑ i ∈ Finset.range (K + L), y i * 2 ^ (108 * i) with hY
  have h1 : (2 : ℤ) ^ (108 * K) ∣ (∑ i ∈ Finset.range (K + L), x i * 2 ^ (108 * i)) * Y
      - (∑ i ∈ Finset.range K, x i * 2 ^ (108 * i)) * Y := by
    rw [← sub_mul]
    exact Dvd.dvd.mul_right (sum_split_dvd x (by omega)) _
  have h2 : (2 : ℤ) ^ (108 * K) ∣ (∑ i ∈ Finset.range K, x i * 2 ^ (108 * i)) * Y
      - ∑ i ∈ Finset.range K, ∑ j ∈ Finset.range (K - i), (x i * 2 ^ (108 * i)) * (y j * 2 ^ (108 * j)) := by
    rw [Finset.sum_mul, ← Finset.sum_sub_distrib]
    refine Finset.dvd_sum fun i hi => ?_
    have hi := Finset.mem_range.1 hi
    rw [← Finset.mul_sum, ← mul_sub]
    have e : 108 * K = 108 * i + 108 * (K - i) := by omega
    rw [e, pow_add]
    exact mul_dvd_mul (Dvd.intro_left _ rfl) (sum_split_dvd y (by omega))
  have := dvd_add h1 h2
  rwa [sub_add_sub_cancel] at this

theorem limbOf_big (hv : info.Valid wm) {i : ℕ} (hi : info.limbs ≤ i) : RangeInfo.limbOf 108 i wm = 0 := by
  unfold RangeInfo.limbOf
  rw [Nat.div_eq_of_lt, Nat.zero_mod]
  have h1 := hv.w_hi
  have h2 := hv.wcb
  have h3 := hv.limbs_succ
  have h4 := Nat.mod_lt info.w_ceil_bits (show 108 > 0 by norm_num)
  exact h1.trans_lt (Nat.pow_lt_pow_right (by norm_num) (by omega))

/-- The sums `mulT` against the full product. -/
theorem mulT_dvd (hv : info.Valid wm) {A B D R : ℕ → ℕ} {a b d r : ℕ}
    (hA : ∀ i, info.limbs ≤ i → A i = 0) (hB : ∀ i, info.limbs ≤ i → B i = 0)
    (hD : ∀ i, info.limbs ≤ i → D i = 0) (hR : ∀ i, info.limbs ≤ i → R i = 0)
    (ha : a = ∑ i ∈ Finset.range info.limbs, A i * 2 ^ (108 * i))
    (hb : b = ∑ i ∈ Finset.range info.limbs, B i * 2 ^ (108 * i))
    (hd : d = ∑ i ∈ Finset.range info.limbs, D i * 2 ^ (108 * i))
    (hr : r = ∑ i ∈ Finset.range info.limbs, R i * 2 ^ (108 * i)) (K : ℕ) :
    (2 : ℤ) ^ (108 * K) ∣ ((a : ℤ) * b - (d * wm + r)) - mulT wm A B D R K := by
  have h1 := conv_dvd (x := fun i => (A i : ℤ)) (y := fun i => (B i : ℤ)) (L := info.limbs)
    (fun i hi => by simp [hA i hi]) (fun i hi => by simp [hB i hi]) K
  have h2 := conv_dvd (x := fun i => (D i : ℤ)) (y := fun i => (RangeInfo.limbOf 108 i wm : ℤ))
    (L := info.limbs) (fun i hi => by simp [hD i hi]) (fun i hi => by simp [limbOf_big hv hi]) K
  have h3 : (2 : ℤ) ^ (108 * K) ∣ (r : ℤ) - ∑ j ∈ Finset.range K, (R j : ℤ) * 2 ^ (108 * j) := by
    have := sum_split_dvd (fun j => (R j : ℤ)) (k := K) (K := K + info.limbs) (by omega)
    rw [sum_range_support (L := info.limbs) (fun i hi => by rw [hR i hi]; simp) (by omega)] at this
    rw [hr]
    push_cast
    exact this
  have ew : (wm : ℤ) = ∑ i ∈ Finset.range info.limbs, (RangeInfo.limbOf 108 i wm : ℤ) * 2 ^ (108 * i) := by
    conv_lhs => rw [hv.w_sum]
    push_cast
    rfl
  have ea : (a : ℤ) = ∑ i ∈ Finset.range info.limbs, (A i : ℤ) * 2 ^ (108 * i) := by
    rw [ha]; push_cast; rfl
  have eb : (b : ℤ) = ∑ i ∈ Finset.range info.limbs, (B i : ℤ) * 2 ^ (108 * i) := by
    rw [hb]; push_cast; rfl
  have ed : (d : ℤ) = ∑ i ∈ Finset.range info.limbs, (D i : ℤ) * 2 ^ (108 * i) := by
    rw [hd]; push_cast; rfl
  rw [← ea, ← eb] at h1
  rw [← ed, ← ew] at h2
  have h := dvd_sub (dvd_sub h1 h2) h3
  have : mulT wm A B D R K = ∑ p ∈ Finset.range K, (∑ i ∈ Finset.range (p + 1), (A i : ℤ) * B (p - i)) * 2 ^ (108 * p)
      - ∑ p ∈ Finset.range K, (∑ i ∈ Finset.range (p + 1), (D i : ℤ) * RangeInfo.limbOf 108 (p - i) wm) * 2 ^ (108 * p)
      - ∑ j ∈ Finset.range K, (R j : ℤ) * 2 ^ (108 * j) := by
    rw [mulT, ← Finset.sum_sub_distrib, ← Finset.sum_sub_distrib]
    refine Finset.sum_congr rfl fun p _ => ?_
    rw [mulCol, Finset.sum_sub_distrib]
    ring
  rw [this]
  generalize (2 : ℤ) ^ (108 * K) = q at h ⊢
  have e : ∀ x y : ℤ, x = y → q ∣ x → q ∣ y := fun x y hxy hx => hxy ▸ hx
  exact e _ _ (by ring) h

/-- Bounds on a column. -/
theorem mulCol_bound (hv : info.Valid wm) {A B D : ℕ → ℕ} (hA : ∀ i, info.limbs ≤ i → A i = 0)
    (hD : ∀ i, info.limbs ≤ i → D i = 0)
    (bA : ∀ i, A i ≤ 2 ^ 108 * 63) (bB : ∀ i, B i ≤ 2 ^ 108 * 63) (bD : ∀ i, D i ≤ 2 ^ 108 - 1) (p : ℕ) :
    mulCol wm A B D p ≤ (2 ^ 108 * 63) * (2 ^ 108 * 63) * info.limbs ∧
    -((info.limbs * (2 ^ 108 - 1) * info.max_wi : ℕ) : ℤ) ≤ mulCol wm A B D p := by
  have key : ∀ (F : ℕ → ℤ) (bd : ℤ), (∀ i, info.limbs ≤ i → F i = 0) → (∀ i, F i ≤ bd) → 0 ≤ bd →
      ∀ N, ∑ i ∈ Finset.range N, F i ≤ info.limbs * bd := by
    intro F bd h0 h1 hb N
    by_cases hN : info.limbs ≤ N
    · rw [sum_range_support h0 hN]
      calc _ ≤ ∑ _i ∈ Finset.range info.limbs, bd := Finset.sum_le_sum fun i _ => h1 i
        _ = _ := by simp
    · calc _ ≤ ∑ _i ∈ Finset.range N, bd := Finset.sum_le_sum fun i _ => h1 i
        _ = N * bd := by simp
        _ ≤ _ := Int.mul_le_mul_of_nonneg_right (by omega) hb
  have hW : ∀ i, RangeInfo.limbOf 108 i wm ≤ info.max_wi := fun i => by
    by_cases hi : i < info.limbs
    · exact w_limb_le_max hv hi
    · rw [limbOf_big hv (not_lt.1 hi)]; exact Nat.zero_le _
  constructor
  · have := key (fun i => (A i : ℤ) * B (p - i) - D i * RangeInfo.limbOf 108 (p - i) wm)
      ((2 ^ 108 * 63) * (2 ^ 108 * 63)) (fun i hi => by simp [hA i hi, hD i hi]) (fun i => by
        have h1 : A i * B (p - i) ≤ (2 ^ 108 * 63) * (2 ^ 108 * 63) := Nat.mul_le_mul (bA i) (bB _)
        have h2 : (0 : ℤ) ≤ D i * RangeInfo.limbOf 108 (p - i) wm := by positivity
        have h3 : ((A i * B (p - i) : ℕ) : ℤ) ≤ (2 ^ 108 * 63) * (2 ^ 108 * 63) := by exact_mod_cast h1
        push_cast at h3
        linarith) (by positivity) (p + 1)
    rw [mulCol]
    linarith
  · have := key (fun i => -((A i : ℤ) * B (p - i) - D i * RangeInfo.limbOf 108 (p - i) wm))
      (((2 ^ 108 - 1 : ℕ) * info.max_wi : ℕ)) (fun i hi => by simp [hA i hi, hD i hi]) (fun i => by
        have h1 : D i * RangeInfo.limbOf 108 (p - i) wm ≤ (2 ^ 108 - 1) * info.max_wi :=
          Nat.mul_le_mul (bD i) (hW _)
        have h2 : (0 : ℤ) ≤ A i * B (p - i) := by positivity
        have h3 : ((D i * RangeInfo.limbOf 108 (p - i) wm : ℕ) : ℤ) ≤ ((2 ^ 108 - 1 : ℕ) * info.max_wi : ℕ) := by
          exact_mod_cast h1
        rw [Nat.cast_mul] at h3
        linarith) (by positivity) (p + 1)
    rw [Finset.sum_neg_distrib] at this
    rw [mulCol, Nat.mul_assoc, Nat.cast_mul info.limbs]
    linarith

theorem RangeInfo.Valid.mul_slack (hv : info.Valid wm) : info.limbs * 3970 ≤ 2 ^ 18 - 1 := by
  have h1 := hv.mul_v
  have e : (2 ^ 108 * 63) * (2 ^ 108 * 63) * info.limbs + 2 ^ 108 * (info.limbs * 2 ^ 108 + 2)
    = (info.limbs * 3970) * (2 ^ 108 * 2 ^ 108) + 2 * 2 ^ 108 := by ring
  rw [e] at h1
  by_contra hlt
  have : 2 ^ 18 * (2 ^ 108 * 2 ^ 108) ≤ (info.limbs * 3970) * (2 ^ 108 * 2 ^ 108) :=
    Nat.mul_le_mul_right _ (by omega)
  norm_num at *
  omega

/-- The honest carry `U = col − r + v + borrow·B − borrow` is in `[0, 2^18 · B²)`. -/
theorem mulU_bound (hv : info.Valid wm) {A B D : ℕ → ℕ} (hA : ∀ i, info.limbs ≤ i → A i = 0)
    (hD : ∀ i, info.limbs ≤ i → D i = 0)
    (bA : ∀ i, A i ≤ 2 ^ 108 * 63) (bB : ∀ i, B i ≤ 2 ^ 108 * 63) (bD : ∀ i, D i ≤ 2 ^ 108 - 1) (p : ℕ)
    {r v x : ℤ} (hr0 : 0 ≤ r) (hr : r ≤ 2 ^ 108 - 1) (hv0 : 0 ≤ v) (hv1 : v < 2 ^ 126)
    (hx0 : 0 ≤ x) (hx : x ≤ info.limbs * 2 ^ 108 + 2) :
    0 ≤ mulCol wm A B D p - r + v + (2 ^ 108 * (info.limbs * 2 ^ 108 + 2) - x) ∧
    mulCol wm A B D p - r + v + (2 ^ 108 * (info.limbs * 2 ^ 108 + 2) - x) ≤ (2 ^ 108 * 2 ^ 18 - 1) * 2 ^ 108 := by
  obtain ⟨h1, h2⟩ := mulCol_bound hv (B := B) hA hD bA bB bD p
  have h3 := hv.mul_borrow
  have h4 := hv.mul_slack
  have h3' : ((info.limbs * (2 ^ 108 - 1) * info.max_wi : ℕ) : ℤ) + (2 ^ 108 - 1)
      ≤ (info.limbs * 2 ^ 108 + 2) * 2 ^ 108 - (info.limbs * 2 ^ 108 + 2) := by
    have hle : info.limbs * 2 ^ 108 + 2 ≤ (info.limbs * 2 ^ 108 + 2) * 2 ^ 108 :=
      Nat.le_mul_of_pos_right _ (by norm_num)
    zify [hle] at h3
    push_cast at h3 ⊢
    exact h3
  have h4' : (info.limbs : ℤ) * 3970 ≤ 2 ^ 18 - 1 := by
    have : ((info.limbs * 3970 : ℕ) : ℤ) ≤ ((2 ^ 18 - 1 : ℕ) : ℤ) := by exact_mod_cast h4
    push_cast at this
    norm_num at this ⊢
    exact this
  constructor
  · linarith
  · nlinarith [h4']

theorem int_eq_of_cast {x y : ℤ} (hx : 0 ≤ x) (hx' : x < n) (hy : 0 ≤ y) (hy' : y < n)
    (h : (x : ZMod n) = (y : ZMod n)) : x = y := by
  have := (ZMod.intCast_eq_intCast_iff x y n).1 h
  rwa [Int.ModEq, Int.emod_eq_of_lt hx hx', Int.emod_eq_of_lt hy hy'] at this

/-! ## The columns -/

theorem sum_range'_map (F : ℕ → ZMod n) : ∀ (m l : ℕ),
    ((List.range' l m).map F).sum = ∑ i ∈ Finset.range m, F (l + i)
  | 0, l => by simp
  | m + 1, l => by
    rw [List.range'_succ, List.map_cons, List.sum_cons, sum_range'_map F m (l + 1), Finset.sum_range_succ',
      add_zero, add_comm]
    congr 1
    exact Finset.sum_congr rfl fun i _ => by rw [add_assoc, add_comm 1]

/-- The terms collected for a column, as a full convolution sum. -/
theorem column_sum (hv : info.Valid wm) {A B D : ℕ → ℕ} (hA : ∀ i, info.limbs ≤ i → A i = 0)
    (hB : ∀ i, info.limbs ≤ i → B i = 0) (hD : ∀ i, info.limbs ≤ i → D i = 0) (p : ℕ) :
    ((List.range' (p - (info.limbs - 1)) (min (p + 1) info.limbs - (p - (info.limbs - 1)))).map fun i =>
      (A i : ZMod n) * B (p - i) - D i * RangeInfo.limbOf 108 (p - i) wm).sum
      = (mulCol wm A B D p : ZMod n) := by
  rw [sum_range'_map, mulCol]
  push_cast
  set l := p - (info.limbs - 1) with hl
  set m := min (p + 1) info.limbs - l with hm
  have hk := hv.limbs_ge
  obtain ⟨k, hk'⟩ : ∃ k, p + 1 = l + m + k := ⟨p + 1 - (l + m), by omega⟩
  rw [hk', Finset.sum_range_add, Finset.sum_range_add, Finset.sum_eq_zero (s := Finset.range l),
    Finset.sum_eq_zero (s := Finset.range k), zero_add, add_zero]
  · intro i hi
    have := Finset.mem_range.1 hi
    rw [hA _ (by omega), hD _ (by omega)]; simp
  · intro i hi
    have := Finset.mem_range.1 hi
    rw [hB _ (by omega), limbOf_big hv (by omega)]; simp

theorem forall₂_map_sum {α β : Type} {F : α → ZMod n} {G : β → ZMod n} : ∀ {l : List α} {l' : List β},
    List.Forall₂ (fun x y => G y = F x) l l' → (l'.map G).sum = (l.map F).sum
  | _, _, .nil => rfl
  | _, _, .cons h t => by
    rw [List.map_cons, List.map_cons, List.sum_cons, List.sum_cons, h, forall₂_map_sum t]

theorem S_mul_column (hv : info.Valid wm) (hw : c.Sat w) (a b : AssignedInteger n)
    (d : List (AssignedValue n)) (p : ℕ) :
    S c (mul_column info a b d p) (fun r => a.limbs_le.length = info.limbs → b.limbs_le.length = info.limbs →
      d.length = info.limbs → cv w r = (mulCol wm (limbAt (cv w) a.limbs_le) (limbAt (cv w) b.limbs_le)
        (limbAt (cv w) d) p : ZMod n)) := by
  have hne := hv.neZero
  unfold mul_column
  refine S.bind (S.mapM (P := fun i t => w t.a.cell * w t.b.cell + w t.c.cell * t.c_coeff =
    (limbAt (cv w) a.limbs_le i : ZMod n) * limbAt (cv w) b.limbs_le (p - i)
      - limbAt (cv w) d i * RangeInfo.limbOf 108 (p - i) wm) fun i hi => ?_) fun terms => ?_
  · refine S.bind_index fun ai hai => S.bind_index fun bi hbi => S.bind_index fun di hdi =>
      S.bind_index fun wi hwi => S.pure ?_
    have hlt : p - i < info.limbs := by
      have := (List.getElem?_eq_some_iff.1 hwi).1
      rw [hv.w_limbs, hv.w_limbs_bn] at this
      simpa using this
    rw [w_limb_get hv hlt] at hwi
    cases hwi
    rw [limbAt_cast hai, limbAt_cast hbi, limbAt_cast hdi]
    simp only [cv]
    ring
  · refine (S_mul_add_with_next_line hw terms).mono fun r hr ht ha hb hd => ?_
    show w r.cell = _
    rw [hr, termsW, forall₂_map_sum ht]
    exact column_sum hv (fun i hi => limbAt_none (l := a.limbs_le) (ha.trans_le hi))
      (fun i hi => limbAt_none (l := b.limbs_le) (hb.trans_le hi))
      (fun i hi => limbAt_none (l := d) (hd.trans_le hi)) p

theorem C_mul_column (hv : info.Valid wm) {a b : AssignedInteger n} {d : List (AssignedValue n)} {p : ℕ}
    (ha : a.limbs_le.length = info.limbs) (hb : b.limbs_le.length = info.limbs)
    (hd : d.length = info.limbs) (hp : p < 2 * info.limbs - 1)
    (hok : H → (∀ x ∈ a.limbs_le, Ok h x) ∧ (∀ x ∈ b.limbs_le, Ok h x) ∧ ∀ x ∈ d, Ok h x) :
    C c h H (mul_column info a b d p) (fun r => r.val = (mulCol wm (limbAt AssignedValue.val a.limbs_le)
      (limbAt AssignedValue.val b.limbs_le) (limbAt AssignedValue.val d) p : ZMod n)) (fun r => Ok h r) := by
  have hne := hv.neZero
  have hk := hv.limbs_ge
  unfold mul_column
  refine C.bind (C.mapM (P := fun i t => t.a.val * t.b.val + t.c.val * t.c_coeff =
    (limbAt AssignedValue.val a.limbs_le i : ZMod n) * limbAt AssignedValue.val b.limbs_le (p - i)
      - limbAt AssignedValue.val d i * RangeInfo.limbOf 108 (p - i) wm)
    (Q := fun _ t => Ok h t.a ∧ Ok h t.b ∧ Ok h t.c) fun i hi => ?_) fun terms ht => ?_
  · have hi := List.mem_range'_1.1 hi
    refine C_index_limb ha (by omega) fun ai hai => C_index_limb hb (by omega) fun bi hbi =>
      C_index_limb hd (by omega) fun di hdi => C.bind_index (w_limb_get hv (by omega)) (C.pure ?_ fun hH => ?_)
    · rw [limbAt_cast hai, limbAt_cast hbi, limbAt_cast hdi]
      ring
    · exact ⟨(hok hH).1 _ (List.mem_of_getElem? hai), (hok hH).2.1 _ (List.mem_of_getElem? hbi),
        (hok hH).2.2 _ (List.mem_of_getElem? hdi)⟩
  · refine (C_mul_add_with_next_line terms ?_ fun hH l hl => ?_).mono (fun r hr => ?_) fun _ _ _ q => q
    · intro h0
      have := ht.length_eq
      rw [h0, List.length_range', List.length_nil] at this
      omega
    · obtain ⟨i, hi, rfl⟩ := List.mem_iff_getElem.1 hl
      have := (List.forall₂_iff_get.1 hH.2).2 i (by rw [hH.2.length_eq]; exact hi) hi
      exact this
    · rw [hr, termsVal, forall₂_map_sum ht]
      exact column_sum hv (fun i hi => limbAt_none (l := a.limbs_le) (ha.trans_le hi))
        (fun i hi => limbAt_none (l := b.limbs_le) (hb.trans_le hi))
        (fun i hi => limbAt_none (l := d) (hd.trans_le hi)) p

/-! ## Carries -/

theorem S_mul_carry [Fact n.Prime] (hv : info.Valid wm) (hw : c.Sat w) (u : AssignedValue n) :
    S c (mul_carry info u) (fun v => ∃ xh xl : ℕ, xh < 2 ^ 18 ∧ xl < 2 ^ 108 ∧ w v.1.cell = xh ∧
      w v.2.cell = xl ∧ w u.cell = ((2 ^ 108 * (xh * 2 ^ 108 + xl) : ℕ) : ZMod n)) := by
  have hk := hv.limbs_ge
  unfold mul_carry
  refine S.bind (S_div_rem _ _) fun vr => S.bind_rassert fun _ => S.bind (S_div_rem _ _) fun vhl => ?_
  refine S.bind (S_assign_common (by have := hv.n_gt; omega) hw _) fun v_h =>
    S.bind (S_nonleading hv hw _) fun v_l => ?_
  refine S.bind_index fun c2 hc2 => S.bind_index fun c1 hc1 => ?_
  rw [coeff_get hv (by omega)] at hc1 hc2
  cases hc1
  cases hc2
  refine S.bind (S_one_line_with_last hw) fun cells => S.pure ?_
  rintro ⟨row, -, facts, hlast⟩ ⟨xl, hxl, hl⟩ ⟨xh, hxh, hh⟩ - -
  refine ⟨xh, xl, hxh, hxl, hh, hl, ?_⟩
  have g := facts.gate
  have c0 := facts.copy 0 v_h _ rfl
  have c1 := facts.copy 1 v_l _ rfl
  have c4 := hlast u rfl
  simp [gateEq, rowFixL, rowFix, pairA] at g
  rw [c0, c1, c4, hh, hl] at g
  push_cast
  linear_combination -g

theorem C_mul_carry (hv : info.Valid wm) {u : AssignedValue n} {x : ℕ} (hx : x < 2 ^ 126)
    (hu : u.val.val = 2 ^ 108 * x) (hok : H → Ok h u) :
    C c h H (mul_carry info u) (fun v => ∃ xh xl : ℕ, xh < 2 ^ 18 ∧ xl < 2 ^ 108 ∧ v.1.val = xh ∧
      v.2.val = xl ∧ x = xh * 2 ^ 108 + xl) (fun v => Ok h v.1 ∧ Ok h v.2) := by
  have hne := hv.neZero
  have hk := hv.limbs_ge
  unfold mul_carry
  rw [hu, hv.limb_modulus]
  refine C_bind_div_rem (by norm_num) ?_
  rw [Nat.mul_div_cancel_left _ (by norm_num), Nat.mul_mod_right]
  refine C.bind_rassert rfl ?_
  refine C_bind_div_rem (by norm_num) ?_
  have h1 : x / 2 ^ 108 < 2 ^ 18 := by
    rw [Nat.div_lt_iff_lt_mul (by norm_num), ← pow_add]; exact hx
  have h2 : x % 2 ^ 108 < 2 ^ 108 := Nat.mod_lt _ (by norm_num)
  have h3 : x = x / 2 ^ 108 * 2 ^ 108 + x % 2 ^ 108 := by
    rw [Nat.mul_comm]; exact (Nat.div_add_mod _ _).symm
  refine C.bind (C_assign_common h1) fun v_h hvh => C.bind (C_nonleading hv h2) fun v_l hvl => ?_
  refine C.bind_index (coeff_get hv (by omega)) (C.bind_index (coeff_get hv (by omega)) ?_)
  refine C.bind (C_one_line_with_last ?_ ?_ ?_) fun cells _ => C.pure ?_ ?_
  · simp [gateEq, rowFixL, rowFix, rowAdvL, rowAdv, pairA, ValueSchema.value]
    have e : u.val = ((2 ^ 108 * x : ℕ) : ZMod n) := by rw [← hu, ZMod.natCast_zmod_val]
    rw [hvh, hvl, e]
    have := congrArg (Nat.cast : ℕ → ZMod n) h3
    push_cast at this ⊢
    linear_combination -2 ^ 108 * this
  · intro hH k v y hk
    rcases k with _ | _ | k <;> simp [pairA] at hk
    · obtain ⟨rfl, -⟩ := hk; exact hH.1.2
    · obtain ⟨rfl, -⟩ := hk; exact hH.2
  · intro hH v hv'
    simp at hv'
    subst hv'
    exact hok hH.1.1
  · exact ⟨_, _, h1, h2, hvh, hvl, h3⟩
  · intro hH
    exact ⟨hH.1.1.2, hH.1.2⟩

/-- The bounds the operands of a multiplication come with. -/
structure MulBounds (info : RangeInfo n) (A B D R : ℕ → ℕ) : Prop where
  zA : ∀ i, info.limbs ≤ i → A i = 0
  zB : ∀ i, info.limbs ≤ i → B i = 0
  zD : ∀ i, info.limbs ≤ i → D i = 0
  zR : ∀ i, info.limbs ≤ i → R i = 0
  bA : ∀ i, A i ≤ 2 ^ 108 * 63
  bB : ∀ i, B i ≤ 2 ^ 108 * 63
  bD : ∀ i, D i ≤ 2 ^ 108 - 1
  bR : ∀ i, R i ≤ 2 ^ 108 - 1

theorem MulBounds.of_wf {f : AssignedValue n → ZMod n} {a b rem : AssignedInteger n}
    {d : List (AssignedValue n)} (ha : WF info f a) (hb : WF info f b) (hr : WF info f rem)
    (ht : rem.times = 1) (hd : d.length = info.limbs) (hd' : ∀ i, limbAt f d i < 2 ^ 108) :
    MulBounds info (limbAt f a.limbs_le) (limbAt f b.limbs_le) (limbAt f d) (limbAt f rem.limbs_le) where
  zA i hi := limbAt_none (by rw [ha.len]; exact hi)
  zB i hi := limbAt_none (by rw [hb.len]; exact hi)
  zD i hi := limbAt_none (by rw [hd]; exact hi)
  zR i hi := limbAt_none (by rw [hr.len]; exact hi)
  bA i := by
    have h1 := ha.limb i
    have h2 : a.times * 2 ^ 108 ≤ 63 * 2 ^ 108 := Nat.mul_le_mul_right _ (by have := ha.times_lt; omega)
    omega
  bB i := by
    have h1 := hb.limb i
    have h2 : b.times * 2 ^ 108 ≤ 63 * 2 ^ 108 := Nat.mul_le_mul_right _ (by have := hb.times_lt; omega)
    omega
  bD i := by have := hd' i; omega
  bR i := by have := hr.limb i; rw [ht] at this; omega

theorem n_big' (hv : info.Valid wm) : ((2 : ℤ) ^ 108 * 2 ^ 18 - 1) * 2 ^ 108 < n := by
  have := hv.n_big
  zify at this
  norm_num at this ⊢
  exact this

/-- One carry equation, lifted from the field to the integers. -/
theorem carry_eq (hv : info.Valid wm) {A B D R : ℕ → ℕ} (hb : MulBounds info A B D R) {p xh xl : ℕ}
    {v x : ℤ} (hxh : xh < 2 ^ 18) (hxl : xl < 2 ^ 108) (hv0 : 0 ≤ v) (hv1 : v < 2 ^ 126) (hx0 : 0 ≤ x)
    (hx : x ≤ info.limbs * 2 ^ 108 + 2)
    (e : ((mulCol wm A B D p - R p + v + (2 ^ 108 * (info.limbs * 2 ^ 108 + 2) - x) : ℤ) : ZMod n)
      = ((2 ^ 108 * (xh * 2 ^ 108 + xl) : ℕ) : ZMod n)) :
    mulCol wm A B D p - R p + v + (2 ^ 108 * (info.limbs * 2 ^ 108 + 2) - x)
      = 2 ^ 108 * (xh * 2 ^ 108 + xl) := by
  have hn := n_big' hv
  have bR := hb.bR p
  obtain ⟨h1, h2⟩ := mulU_bound hv (B := B) hb.zA hb.zD hb.bA hb.bB hb.bD p (r := R p) (v := v) (x := x)
    (by positivity) (by norm_num at bR ⊢; omega) hv0 hv1 hx0 hx
  have hy : (0 : ℤ) ≤ 2 ^ 108 * (xh * 2 ^ 108 + xl) :=
    mul_nonneg (by norm_num) (add_nonneg (mul_nonneg (Int.natCast_nonneg _) (by norm_num)) (Int.natCast_nonneg _))
  refine int_eq_of_cast h1 (h2.trans_lt hn) hy ?_ ?_
  · refine lt_of_le_of_lt ?_ hn
    norm_num at hxh hxl ⊢
    omega
  · rw [e]; push_cast; ring

theorem S_mul_carries [Fact n.Prime] (hv : info.Valid wm) (hw : c.Sat w) (A B D : ℕ → ℕ)
    (cols : List (AssignedValue n)) (rem : AssignedInteger n) :
    ∀ (m i : ℕ) (v : AssignedValue n × AssignedValue n),
    S c (mul_carries info ((info.limbs : ZMod n) * info.limb_modulus_n + 2) cols rem v (List.range' i m))
      (fun _ => MulBounds info A B D (limbAt (cv w) rem.limbs_le) →
        (∀ j x, cols[j]? = some x → cv w x = (mulCol wm A B D j : ZMod n)) →
        (∃ xh xl : ℕ, xh < 2 ^ 18 ∧ xl < 2 ^ 108 ∧ w v.1.cell = xh ∧ w v.2.cell = xl ∧
          mulT wm A B D (limbAt (cv w) rem.limbs_le) i =
            2 ^ (108 * i) * (xh * 2 ^ 108 + xl - (info.limbs * 2 ^ 108 + 2))) →
        ∃ z : ℤ, mulT wm A B D (limbAt (cv w) rem.limbs_le) (i + m) = 2 ^ (108 * (i + m)) * z) := by
  have hne := hv.neZero
  have hk := hv.limbs_ge
  intro m
  induction m with
  | zero =>
    intro i v
    rw [List.range'_zero, mul_carries]
    refine S.pure ?_
    rintro _ _ ⟨xh, xl, -, -, -, -, h⟩
    exact ⟨_, h⟩
  | succ m ih =>
    intro i v
    rw [List.range'_succ]
    unfold mul_carries
    refine S.bind_index fun li hli => S.bind_index fun c1 hc1 => S.bind_index fun c0 hc0 => ?_
    rw [coeff_get hv (by omega)] at hc1 hc0
    cases hc1
    cases hc0
    refine S.bind (P := fun u => limbAt (cv w) rem.limbs_le i = 0 ∨ i < info.limbs → w u.cell =
      w li.cell - (limbAt (cv w) rem.limbs_le i : ZMod n) + w v.1.cell * 2 ^ 108 + w v.2.cell +
        (2 ^ 108 * (info.limbs * 2 ^ 108 + 2) - (info.limbs * 2 ^ 108 + 2))) ?_ fun u => ?_
    · refine S.ite (fun _ => S.bind_index fun ri hri => (S_sum hw _ _).mono fun r hr _ => ?_)
        fun hi => (S_sum hw _ _).mono fun r hr hz => ?_
      · rw [hr, limbAt_cast hri, hv.limb_modulus_n]
        simp [cv]; ring
      · rw [hr, hz.resolve_right hi, hv.limb_modulus_n]
        simp; ring
    refine S.bind (S_mul_carry hv hw u) fun v' => ?_
    refine (ih (i + 1) v').mono ?_
    rintro _ hih ⟨yh, yl, hyh, hyl, hv1, hv2, huv⟩ hu hb hcols ⟨xh, xl, hxh, hxl, hx1, hx2, hT⟩
    rw [Nat.add_assoc, Nat.add_comm 1 m] at hih
    refine hih hb hcols ⟨yh, yl, hyh, hyl, hv1, hv2, ?_⟩
    have hzi : limbAt (cv w) rem.limbs_le i = 0 ∨ i < info.limbs := by
      by_cases hi : i < info.limbs
      · exact .inr hi
      · exact .inl (hb.zR i (not_lt.1 hi))
    have hu := hu hzi
    have hli := hcols i li hli
    simp only [cv] at hli
    rw [huv, hli, hx1, hx2] at hu
    have key := carry_eq hv hb (p := i) (v := xh * 2 ^ 108 + xl) (x := info.limbs * 2 ^ 108 + 2) hyh hyl
      (by positivity) (by norm_num at hxh hxl ⊢; omega) (by positivity) le_rfl (by
        rw [hu]; push_cast; ring)
    rw [mulT_succ, hT, Nat.mul_succ, pow_add]
    generalize (2 : ℤ) ^ (108 * i) = q at *
    linear_combination q * key

theorem S_mul_limbs [Fact n.Prime] (hv : info.Valid wm) (hw : c.Sat w) (a b rem : AssignedInteger n)
    (d : List (AssignedValue n)) :
    S c (add_constraints_for_mul_equation_on_limbs info a b d rem) (fun _ =>
      WF info (cv w) a → WF info (cv w) b → WF info (cv w) rem → d.length = info.limbs →
      (∀ i, limbAt (cv w) d i < 2 ^ 108) → rem.times = 1 ∧
      ∃ z : ℤ, (V (cv w) a : ℤ) * V (cv w) b - (VL (cv w) d * wm + V (cv w) rem)
        = 2 ^ (108 * info.mul_check_limbs) * z) := by
  have hne := hv.neZero
  have hk := hv.limbs_ge
  unfold add_constraints_for_mul_equation_on_limbs
  refine S.bind_rassert fun _ => S.bind_rassert fun _ => S.bind_rassert fun ht => ?_
  have ht : rem.times = 1 := by simpa using ht
  refine S.bind (S.mapM_range fun p _ => S_mul_column hv hw a b d p) fun cols => ?_
  refine S.bind_index fun l0 hl0 => S.bind_index fun r0 hr0 => ?_
  refine S.bind (S_sum hw _ _) fun u => ?_
  refine S.bind (S_mul_carry hv hw u) fun v => ?_
  refine S.bind_rassert fun hK => ?_
  have hK : info.limbs ≤ info.mul_check_limbs := by simpa using hK
  refine S.bind (S_mul_carries hv hw (limbAt (cv w) a.limbs_le) (limbAt (cv w) b.limbs_le)
    (limbAt (cv w) d) cols rem _ 1 v) fun _ => S.pure ?_
  rintro hcar ⟨xh, xl, hxh, hxl, hx1, hx2, hux⟩ hu ⟨hcl, hcols⟩ ha hb hr hd hd'
  have bds := MulBounds.of_wf ha hb hr ht hd hd'
  have hcols' : ∀ (j : ℕ) x, cols[j]? = some x → cv w x = (mulCol wm (limbAt (cv w) a.limbs_le)
      (limbAt (cv w) b.limbs_le) (limbAt (cv w) d) j : ZMod n) := by
    intro j x hx
    obtain ⟨y, hy, hy'⟩ := hcols j (by rw [← hcl]; exact (List.getElem?_eq_some_iff.1 hx).1)
    rw [hx] at hy
    cases hy
    exact hy' ha.len hb.len hd
  obtain ⟨z, hz⟩ := hcar bds hcols' ⟨xh, xl, hxh, hxl, hx1, hx2, by
    have e0 := hcols' 0 l0 hl0
    simp only [cv] at e0
    have er : w r0.cell = (limbAt (cv w) rem.limbs_le 0 : ZMod n) := (limbAt_cast (f := cv w) hr0).symm
    rw [hux] at hu
    simp only [sumW_cons, sumW_nil, Option.getD_some, e0, er, hv.limb_modulus_n] at hu
    have key := carry_eq hv bds (p := 0) (v := 0) (x := 0) hxh hxl le_rfl (by norm_num) le_rfl
      (by positivity) (by rw [hu]; push_cast; ring)
    rw [mulT_succ]
    simp only [mulT, Finset.range_zero, Finset.sum_empty]
    linear_combination key⟩
  have e : 1 + (info.mul_check_limbs - 1) = info.mul_check_limbs := by omega
  rw [e] at hz
  obtain ⟨z', hz'⟩ := mulT_dvd hv bds.zA bds.zB bds.zD bds.zR (V_eq_sum ha.len) (V_eq_sum hb.len)
    (show VL (cv w) d = ∑ i ∈ Finset.range info.limbs, limbAt (cv w) d i * 2 ^ (108 * i) by rw [VL, hd])
    (V_eq_sum hr.len) info.mul_check_limbs
  exact ⟨ht, z' + z, by linear_combination hz' + hz⟩

theorem S_mul_native (hv : info.Valid wm) (hw : c.Sat w) (a b rem : AssignedInteger n) (d : AssignedValue n) :
    S c (add_constraints_for_mul_equation_on_native info a b d rem) (fun _ =>
      w a.native.cell * w b.native.cell = w d.cell * wm + w rem.native.cell) := by
  unfold add_constraints_for_mul_equation_on_native
  refine S.bind (S_one_line hw) fun cells => S.pure ?_
  rintro ⟨r, -, facts⟩
  have g := facts.gate
  have c0 := facts.copy 0 a.native _ rfl
  have c1 := facts.copy 1 b.native _ rfl
  have c2 := facts.copy 2 d _ rfl
  have c3 := facts.copy 3 rem.native _ rfl
  simp [gateEq, rowFix, pairA] at g
  rw [c0, c1, c2, c3, hv.w_native] at g
  linear_combination -g

/-- The two groups of constraints together say `a·b = d·w + rem` over the naturals. -/
theorem mul_eq_of (hv : info.Valid wm) {f : AssignedValue n → ZMod n} {a b rem : AssignedInteger n}
    {d : List (AssignedValue n)} {dn : AssignedValue n} (ha : WF info f a) (hb : WF info f b)
    (hr : WF info f rem) (ht : rem.times = 1) (hd : VL f d < 2 ^ info.d_bits) (hdn : f dn = (VL f d : ZMod n))
    (h1 : ∃ z : ℤ, (V f a : ℤ) * V f b - (VL f d * wm + V f rem) = 2 ^ (108 * info.mul_check_limbs) * z)
    (h2 : f a.native * f b.native = f dn * wm + f rem.native) :
    V f a * V f b = VL f d * wm + V f rem := by
  refine eq_of_lcm (n := n) (k := 108 * info.mul_check_limbs) ?_ ?_ ?_ ?_
  · push_cast
    rw [← ha.native, ← hb.native, ← hr.native, ← hdn]
    exact h2
  · push_cast; exact h1
  · refine lt_of_le_of_lt ?_ hv.lcm_mul1
    have h4 : 0 < 2 ^ info.w_ceil_bits := by positivity
    refine Nat.mul_le_mul ?_ ?_
    · have h1 := ha.val
      have h3 : a.times * 2 ^ info.w_ceil_bits ≤ 63 * 2 ^ info.w_ceil_bits :=
        Nat.mul_le_mul_right _ (by have := ha.times_lt; omega)
      omega
    · have h1 := hb.val
      have h3 : b.times * 2 ^ info.w_ceil_bits ≤ 63 * 2 ^ info.w_ceil_bits :=
        Nat.mul_le_mul_right _ (by have := hb.times_lt; omega)
      omega
  · refine lt_of_le_of_lt ?_ hv.lcm_mul2
    have h1 := hr.val
    rw [ht, one_mul] at h1
    exact Nat.add_le_add (Nat.mul_le_mul_right _ (by omega)) (by omega)

theorem S_int_mul [Fact n.Prime] (hv : info.Valid wm) (hw : c.Sat w) (a b : AssignedInteger n) :
    S c (int_mul info a b) (fun r => WF info (cv w) a → WF info (cv w) b → WF info (cv w) r ∧ r.times = 1 ∧
      (V (cv w) r : ZMod wm) = (V (cv w) a : ZMod wm) * V (cv w) b) := by
  unfold int_mul
  refine S.bind (S_get_w_bn hv _) fun abn => S.bind (S_get_w_bn hv _) fun bbn =>
    S.bind (S_div_rem _ _) fun dr => S.bind (S_assign_w hv hw _) fun rem => S.bind (S_assign_d hv hw _) fun d => ?_
  refine S.bind (S_mul_limbs hv hw a b rem d.1) fun _ => S.bind (S_mul_native hv hw a b rem d.2) fun _ => S.pure ?_
  rintro h2 h1 ⟨d1, d2, d3, d4⟩ ⟨hr, ht⟩ - - - ha hb
  refine ⟨hr, ht, ?_⟩
  have := mul_eq_of hv ha hb hr ht d3 d4 (h1 ha hb hr d1 d2).2 h2
  have := congrArg (Nat.cast : ℕ → ZMod wm) this
  push_cast at this
  rw [this]; simp

/-! ## Completeness -/

/-- The honest carry: divisible by `2^108`, with a quotient of 126 bits. -/
theorem honest_carry (hv : info.Valid wm) {A B D R : ℕ → ℕ} (hb : MulBounds info A B D R) {p : ℕ} {v x : ℤ}
    (hv0 : 0 ≤ v) (hv1 : v < 2 ^ 126) (hx0 : 0 ≤ x) (hx : x ≤ info.limbs * 2 ^ 108 + 2)
    (hdvd : (2 : ℤ) ^ 108 ∣ mulCol wm A B D p - R p + v - x) {u : ZMod n}
    (hu : u = ((mulCol wm A B D p - R p + v + (2 ^ 108 * (info.limbs * 2 ^ 108 + 2) - x) : ℤ) : ZMod n)) :
    ∃ y : ℕ, y < 2 ^ 126 ∧ u.val = 2 ^ 108 * y ∧
      mulCol wm A B D p - R p + v + (2 ^ 108 * (info.limbs * 2 ^ 108 + 2) - x) = 2 ^ 108 * (y : ℤ) := by
  have hn := n_big' hv
  have bR := hb.bR p
  obtain ⟨h1, h2⟩ := mulU_bound hv (B := B) hb.zA hb.zD hb.bA hb.bB hb.bD p (r := R p) (v := v) (x := x)
    (by positivity) (by norm_num at bR ⊢; omega) hv0 hv1 hx0 hx
  set U := mulCol wm A B D p - R p + v + (2 ^ 108 * (info.limbs * 2 ^ 108 + 2) - x) with hU
  have hdvd' : (2 : ℤ) ^ 108 ∣ U := by
    have e : U = (mulCol wm A B D p - R p + v - x) + 2 ^ 108 * (info.limbs * 2 ^ 108 + 2) := by rw [hU]; ring
    rw [e]
    exact Int.dvd_add hdvd (Int.dvd_mul_right _ _)
  obtain ⟨z, hz⟩ := hdvd'
  have hz0 : 0 ≤ z := by
    rw [hz] at h1
    exact nonneg_of_mul_nonneg_right h1 (by norm_num)
  obtain ⟨y, rfl⟩ := Int.eq_ofNat_of_zero_le hz0
  refine ⟨y, ?_, ?_, hz⟩
  · have : (2 : ℤ) ^ 108 * y ≤ 2 ^ 108 * (2 ^ 108 * 2 ^ 18 - 1) := by rw [← hz]; linarith
    have := le_of_mul_le_mul_left this (by norm_num)
    norm_num at this ⊢
    omega
  · have e : u = ((2 ^ 108 * y : ℕ) : ZMod n) := by
      rw [hu, hz]; push_cast; rfl
    rw [e, ZMod.val_natCast_of_lt]
    have : (2 : ℤ) ^ 108 * y < n := by rw [← hz]; exact h2.trans_lt hn
    exact_mod_cast this

theorem C_mul_carries (hv : info.Valid wm) {A B D : ℕ → ℕ} {cols : List (AssignedValue n)}
    {rem : AssignedInteger n} (hb : MulBounds info A B D (limbAt AssignedValue.val rem.limbs_le))
    (hrl : rem.limbs_le.length = info.limbs) (hT0 : ∀ k, (2 : ℤ) ^ (108 * k) ∣
      mulT wm A B D (limbAt AssignedValue.val rem.limbs_le) k) :
    ∀ (m i : ℕ) (v : AssignedValue n × AssignedValue n) (H : Prop), cols.length = i + m →
    (∀ j x, cols[j]? = some x → x.val = (mulCol wm A B D j : ZMod n)) →
    (H → (∀ x ∈ cols, Ok h x) ∧ (∀ x ∈ rem.limbs_le, Ok h x) ∧ Ok h v.1 ∧ Ok h v.2) →
    (∃ xh xl : ℕ, xh < 2 ^ 18 ∧ xl < 2 ^ 108 ∧ v.1.val = xh ∧ v.2.val = xl ∧
      mulT wm A B D (limbAt AssignedValue.val rem.limbs_le) i =
        2 ^ (108 * i) * (xh * 2 ^ 108 + xl - (info.limbs * 2 ^ 108 + 2))) →
    C c h H (mul_carries info ((info.limbs : ZMod n) * info.limb_modulus_n + 2) cols rem v (List.range' i m))
      (fun _ => True) (fun _ => True) := by
  have hne := hv.neZero
  have hk := hv.limbs_ge
  intro m
  induction m with
  | zero =>
    intro i v H _ _ _ _
    rw [List.range'_zero, mul_carries]
    exact C.pure trivial fun _ => trivial
  | succ m ih =>
    rintro i v H hcl hcols hok ⟨xh, xl, hxh, hxl, hx1, hx2, hT⟩
    rw [List.range'_succ]
    unfold mul_carries
    refine C_index_limb hcl (by omega) fun li hli => C.bind_index (coeff_get hv (by omega))
      (C.bind_index (coeff_get hv (by omega)) ?_)
    have hliv := hcols i li hli
    refine C.bind (P := fun u => u.val =
      ((mulCol wm A B D i - limbAt AssignedValue.val rem.limbs_le i + (xh * 2 ^ 108 + xl)
        + (2 ^ 108 * (info.limbs * 2 ^ 108 + 2) - (info.limbs * 2 ^ 108 + 2)) : ℤ) : ZMod n))
      (Q := fun u => Ok h u) ?_ fun u hu => ?_
    · split
      · rename_i hi
        refine C_index_limb hrl hi fun ri hri => (C_sum _ _ (by simp) ?_).mono (fun r hr => ?_) fun _ _ _ q => q
        · intro hH e he
          obtain ⟨o1, o2, o3, o4⟩ := hok hH
          simp only [List.mem_cons, List.not_mem_nil, or_false] at he
          rcases he with rfl | rfl | rfl | rfl
          · exact o1 _ (List.mem_of_getElem? hli)
          · exact o2 _ (List.mem_of_getElem? hri)
          · exact o3
          · exact o4
        · have er : ri.val = (limbAt AssignedValue.val rem.limbs_le i : ZMod n) :=
            (limbAt_cast (f := AssignedValue.val) hri).symm
          rw [hr, hv.limb_modulus_n]
          simp [hliv, er, hx1, hx2]; ring
      · rename_i hi
        refine (C_sum _ _ (by simp) ?_).mono (fun r hr => ?_) fun _ _ _ q => q
        · intro hH e he
          obtain ⟨o1, o2, o3, o4⟩ := hok hH
          simp only [List.mem_cons, List.not_mem_nil, or_false] at he
          rcases he with rfl | rfl | rfl
          · exact o1 _ (List.mem_of_getElem? hli)
          · exact o3
          · exact o4
        · rw [hr, hv.limb_modulus_n, hb.zR i (not_lt.1 hi)]
          simp [hliv, hx1, hx2]; ring
    have hdvd : (2 : ℤ) ^ 108 ∣ mulCol wm A B D i - limbAt AssignedValue.val rem.limbs_le i
        + (xh * 2 ^ 108 + xl) - (info.limbs * 2 ^ 108 + 2) := by
      have := hT0 (i + 1)
      rw [mulT_succ, hT, Nat.mul_succ, pow_add] at this
      refine Int.dvd_of_mul_dvd_mul_left (a := 2 ^ (108 * i)) (by positivity) ?_
      have e : (2 : ℤ) ^ (108 * i) * (mulCol wm A B D i - limbAt AssignedValue.val rem.limbs_le i
        + (xh * 2 ^ 108 + xl) - (info.limbs * 2 ^ 108 + 2)) =
        2 ^ (108 * i) * (xh * 2 ^ 108 + xl - (info.limbs * 2 ^ 108 + 2)) +
          (mulCol wm A B D i - limbAt AssignedValue.val rem.limbs_le i) * 2 ^ (108 * i) := by ring
      rw [e]
      exact this
    obtain ⟨y, hy, huy, hU⟩ := honest_carry hv hb (p := i) (v := xh * 2 ^ 108 + xl)
      (x := info.limbs * 2 ^ 108 + 2) (add_nonneg (mul_nonneg (Int.natCast_nonneg _) (by norm_num))
        (Int.natCast_nonneg _)) (by norm_num at hxh hxl ⊢; omega)
      (add_nonneg (mul_nonneg (Int.natCast_nonneg _) (by norm_num)) (by norm_num)) le_rfl hdvd hu
    refine C.bind (C_mul_carry hv hy huy fun hH => hH.2) fun v' hv' => ?_
    obtain ⟨yh, yl, hyh, hyl, e1, e2, e3⟩ := hv'
    refine ih (i + 1) v' _ (by omega) hcols ?_ ⟨yh, yl, hyh, hyl, e1, e2, ?_⟩
    · intro hH
      exact ⟨(hok hH.1.1).1, (hok hH.1.1).2.1, hH.2⟩
    · have e3' : (y : ℤ) = yh * 2 ^ 108 + yl := by rw [e3]; push_cast; ring
      rw [← e3', mulT_succ, hT, Nat.mul_succ, pow_add]
      generalize (2 : ℤ) ^ (108 * i) = q at *
      linear_combination q * hU

theorem RangeInfo.Valid.mul_check_le (hv : info.Valid wm) :
    info.limbs ≤ info.mul_check_limbs ∧ info.mul_check_limbs ≤ 2 * info.limbs - 1 := by
  have h1 := hv.mul_limbs
  have h2 := hv.limbs_eq
  have h3 := hv.nf_ge
  have h4 := hv.nf_le
  have h5 := hv.limbs_ge
  constructor <;> omega

theorem C_mul_limbs (hv : info.Valid wm) {a b rem : AssignedInteger n} {d : List (AssignedValue n)}
    (ha : WF info AssignedValue.val a) (hb : WF info AssignedValue.val b)
    (hr : WF info AssignedValue.val rem) (ht : rem.times = 1) (hd : d.length = info.limbs)
    (hd' : ∀ i, limbAt AssignedValue.val d i < 2 ^ 108)
    (heq : V AssignedValue.val a * V AssignedValue.val b = VL AssignedValue.val d * wm + V AssignedValue.val rem)
    (hok : H → OkI h a ∧ OkI h b ∧ OkI h rem ∧ ∀ x ∈ d, Ok h x) :
    C c h H (add_constraints_for_mul_equation_on_limbs info a b d rem) (fun _ => True) (fun _ => True) := by
  have hne := hv.neZero
  have hk := hv.limbs_ge
  obtain ⟨hK1, hK2⟩ := hv.mul_check_le
  have bds := MulBounds.of_wf ha hb hr ht hd hd'
  have hT0 : ∀ k, (2 : ℤ) ^ (108 * k) ∣ mulT wm (limbAt AssignedValue.val a.limbs_le)
      (limbAt AssignedValue.val b.limbs_le) (limbAt AssignedValue.val d)
      (limbAt AssignedValue.val rem.limbs_le) k := fun k => by
    have := mulT_dvd hv bds.zA bds.zB bds.zD bds.zR (V_eq_sum ha.len) (V_eq_sum hb.len)
      (show VL AssignedValue.val d = ∑ i ∈ Finset.range info.limbs, limbAt AssignedValue.val d i * 2 ^ (108 * i)
        by rw [VL, hd])
      (V_eq_sum hr.len) k
    have e : (V AssignedValue.val a : ℤ) * V AssignedValue.val b
        = VL AssignedValue.val d * wm + V AssignedValue.val rem := by exact_mod_cast heq
    rw [e, sub_self, zero_sub] at this
    exact Int.dvd_neg.1 this
  unfold add_constraints_for_mul_equation_on_limbs
  refine C.bind_rassert (by rw [hv.overflow_limit]; simpa using ha.times_lt) ?_
  refine C.bind_rassert (by rw [hv.overflow_limit]; simpa using hb.times_lt) ?_
  refine C.bind_rassert (by simpa using ht) ?_
  refine C.bind (C.mapM_range fun p hp => C_mul_column hv ha.len hb.len hd (by omega) fun hH =>
    ⟨(hok hH).1.limb, (hok hH).2.1.limb, (hok hH).2.2.2⟩) fun cols hcols => ?_
  obtain ⟨hcl, hcols⟩ := hcols
  have hcols' : ∀ (j : ℕ) x, cols[j]? = some x → x.val = (mulCol wm (limbAt AssignedValue.val a.limbs_le)
      (limbAt AssignedValue.val b.limbs_le) (limbAt AssignedValue.val d) j : ZMod n) := by
    intro j x hx
    obtain ⟨y, hy, hy'⟩ := hcols j (by rw [← hcl]; exact (List.getElem?_eq_some_iff.1 hx).1)
    rw [hx] at hy
    cases hy
    exact hy'
  have okc : ∀ cols : List (AssignedValue n), (∀ (i : ℕ) x, cols[i]? = some x → Ok h x) → ∀ x ∈ cols, Ok h x := by
    intro cols hc x hx
    obtain ⟨i, hi⟩ := List.mem_iff_getElem?.1 hx
    exact hc i x hi
  refine C_index_limb hcl (by omega) fun l0 hl0 => C_index_limb hr.len (by omega) fun r0 hr0 => ?_
  have hl0v := hcols' 0 l0 hl0
  have er : r0.val = (limbAt AssignedValue.val rem.limbs_le 0 : ZMod n) :=
    (limbAt_cast (f := AssignedValue.val) hr0).symm
  refine C.bind (C_sum _ _ (by simp) ?_) fun u hu => ?_
  · intro hH e he
    simp only [List.mem_cons, List.not_mem_nil, or_false] at he
    rcases he with rfl | rfl
    · exact hH.2 _ _ hl0
    · exact (hok hH.1).2.2.1.limb _ (List.mem_of_getElem? hr0)
  have hdvd : (2 : ℤ) ^ 108 ∣ mulCol wm (limbAt AssignedValue.val a.limbs_le)
      (limbAt AssignedValue.val b.limbs_le) (limbAt AssignedValue.val d) 0
      - limbAt AssignedValue.val rem.limbs_le 0 + 0 - 0 := by
    have := hT0 1
    rw [mulT_succ] at this
    simpa [mulT] using this
  obtain ⟨y, hy, huy, hU⟩ := honest_carry hv bds (p := 0) (v := 0) (x := 0) le_rfl (by norm_num) le_rfl
    (add_nonneg (mul_nonneg (Int.natCast_nonneg _) (by norm_num)) (by norm_num)) hdvd (u := u.val) (by
      rw [hu, hv.limb_modulus_n]
      simp [hl0v, er]; ring)
  refine C.bind (C_mul_carry hv hy huy fun hH => hH.2) fun v hv' => ?_
  obtain ⟨yh, yl, hyh, hyl, e1, e2, e3⟩ := hv'
  refine C.bind_rassert (by simpa using hK1) ?_
  refine C.bind (C_mul_carries hv bds hr.len hT0 _ 1 v _ (by rw [hcl]; omega) hcols' ?_
    ⟨yh, yl, hyh, hyl, e1, e2, ?_⟩) fun _ _ => C.pure trivial fun _ => trivial
  · intro hH
    exact ⟨okc _ hH.1.1.2, (hok hH.1.1.1).2.2.1.limb, hH.2⟩
  · have e3' : (y : ℤ) = yh * 2 ^ 108 + yl := by rw [e3]; push_cast; ring
    rw [← e3', mulT_succ]
    simp only [mulT, Finset.range_zero, Finset.sum_empty]
    linear_combination hU

theorem C_mul_native (hv : info.Valid wm) {a b rem : AssignedInteger n} {d : AssignedValue n}
    (heq : a.native.val * b.native.val = d.val * wm + rem.native.val)
    (hok : H → Ok h a.native ∧ Ok h b.native ∧ Ok h d ∧ Ok h rem.native) :
    C c h H (add_constraints_for_mul_equation_on_native info a b d rem) (fun _ => True) (fun _ => True) := by
  unfold add_constraints_for_mul_equation_on_native
  refine C.bind (C_one_line ?_ ?_) fun _ _ => C.pure trivial fun _ => trivial
  · simp [gateEq, rowFix, rowAdv, pairA, ValueSchema.value]
    rw [hv.w_native]
    linear_combination -heq
  · intro hH k v y hk
    obtain ⟨o1, o2, o3, o4⟩ := hok hH
    rcases k with _ | _ | _ | _ | k <;> simp [pairA] at hk
    · obtain ⟨rfl, -⟩ := hk; exact o1
    · obtain ⟨rfl, -⟩ := hk; exact o2
    · obtain ⟨rfl, -⟩ := hk; exact o3
    · obtain ⟨rfl, -⟩ := hk; exact o4

/-- The quotient of a product fits `d_bits`. -/
theorem quot_lt (hv : info.Valid wm) {f : AssignedValue n → ZMod n} {a b : AssignedInteger n}
    (ha : WF info f a) (hb : WF info f b) {d r : ℕ} (heq : V f a * V f b = d * wm + r) : d < 2 ^ info.d_bits := by
  have h4 : 0 < 2 ^ info.w_ceil_bits := by positivity
  have hw0 := hv.w_pos
  have h1 : V f a * V f b ≤ (2 ^ info.w_ceil_bits * 63 - 1) * (2 ^ info.w_ceil_bits * 63 - 1) := by
    refine Nat.mul_le_mul ?_ ?_
    · have h1 := ha.val
      have h3 : a.times * 2 ^ info.w_ceil_bits ≤ 63 * 2 ^ info.w_ceil_bits :=
        Nat.mul_le_mul_right _ (by have := ha.times_lt; omega)
      omega
    · have h1 := hb.val
      have h3 : b.times * 2 ^ info.w_ceil_bits ≤ 63 * 2 ^ info.w_ceil_bits :=
        Nat.mul_le_mul_right _ (by have := hb.times_lt; omega)
      omega
  have h2 := hv.mul_a
  have h3 : d * wm ≤ (2 ^ info.d_bits - 1) * wm := by omega
  have h5 := Nat.le_of_mul_le_mul_right h3 hw0
  have h6 : 0 < 2 ^ info.d_bits := by positivity
  omega

theorem limbs_d_lt {d : List (AssignedValue n)} {k x : ℕ} (hl : d.length = k)
    (hd : ∀ i < k, limbAt AssignedValue.val d i = RangeInfo.limbOf 108 i x) (i : ℕ) :
    limbAt AssignedValue.val d i < 2 ^ 108 := by
  by_cases hi : i < k
  · rw [hd i hi]; exact limbOf_lt _ _
  · rw [limbAt_none (by omega)]; norm_num

theorem C_int_mul_wf (hv : info.Valid wm) (hdb : info.d_bits % 108 ≠ 0) {a b : AssignedInteger n}
    (ha : WF info AssignedValue.val a) (hb : WF info AssignedValue.val b) (hok : H → OkI h a ∧ OkI h b) :
    C c h H (int_mul info a b) (fun r => Honest wm info r ∧ r.times = 1 ∧
      V AssignedValue.val r = V AssignedValue.val a * V AssignedValue.val b % wm) (fun r => OkI h r) := by
  have hw0 := hv.w_pos
  unfold int_mul
  refine C.bind (C_get_w_bn hv ha.len) ?_
  rintro _ rfl
  refine C.bind (C_get_w_bn hv hb.len) ?_
  rintro _ rfl
  rw [hv.w_modulus]
  refine C_bind_div_rem (by omega) ?_
  set P := V AssignedValue.val a * V AssignedValue.val b with hP
  have hdm : P = P / wm * wm + P % wm := by
    rw [Nat.mul_comm]; exact (Nat.div_add_mod _ _).symm
  refine C.bind (C_assign_w hv (Nat.mod_lt P hw0)) fun rem hrem => ?_
  refine C.bind (C_assign_d hv hdb (quot_lt hv ha hb hdm)) fun d hd => ?_
  obtain ⟨hr1, hr2, hr3, hr4⟩ := hrem
  obtain ⟨hd1, hd2, hd3, hd4⟩ := hd
  have heq : V AssignedValue.val a * V AssignedValue.val b
      = VL AssignedValue.val d.1 * wm + V AssignedValue.val rem := by rw [hd2, hr3]; exact hdm
  refine C.bind (C_mul_limbs hv ha hb hr1.wf hr2 hd1 (limbs_d_lt hd1 hd4) heq fun hH =>
    ⟨(hok hH.1.1.1.1).1, (hok hH.1.1.1.1).2, hH.1.2, hH.2.1⟩) fun _ _ => ?_
  refine C.bind (C_mul_native hv ?_ fun hH => ⟨(hok hH.1.1.1.1.1).1.native, (hok hH.1.1.1.1.1).2.native,
    hH.1.2.2, hH.1.1.2.native⟩) fun _ _ => C.pure ⟨hr1, hr2, hr3⟩ fun hH => hH.1.1.1.2
  rw [ha.native, hb.native, hr1.wf.native, hd3, ← hd2]
  exact_mod_cast congrArg (Nat.cast : ℕ → ZMod n) heq

theorem C_int_mul (hv : info.Valid wm) (hdb : info.d_bits % 108 ≠ 0) {a b : AssignedInteger n}
    (ha : Honest wm info a) (hb : Honest wm info b) (hok : H → OkI h a ∧ OkI h b) :
    C c h H (int_mul info a b) (fun r => Honest wm info r ∧ r.times = 1 ∧
      V AssignedValue.val r = V AssignedValue.val a * V AssignedValue.val b % wm) (fun r => OkI h r) :=
  C_int_mul_wf hv hdb ha.wf hb.wf hok

end Verif
