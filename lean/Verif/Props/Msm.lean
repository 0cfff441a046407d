import Verif.Proof.MsmTop
import Verif.Props.Ecc
import Verif.Proof.CurveCard

/-!
# C28, C29, C46: multi-scalar multiplication

`msmSum xs Ps` is the sum of `xᵢ • Pᵢ` (Spec/Msm.lean). The scalars are residues modulo the order `r`; the points
have order dividing `r`. The prover is free in the two random points and in the point that replaces identity inputs.
For scalars in another field there are also versions for points of any order, with a sum of natural multiples (`natSum`).

All theorems assume that the two cells of every `assign_bit` row agree (`BitRowsConsistent`): the scalars'
digits come from `assign_bit`, see C06, C26, C27.
-/

namespace Verif
variable {n wm : ℕ} {info : RangeInfo n} {b : ZMod wm}

/-- C28, partial, scalars in the native field. Full statement: without `hbits` and without `hG`. Missing: the copy
constraint in `assign_bit`; and a check that the point substituted for identity inputs has order dividing `r`
(`hG`: no input is the identity, or the whole curve has exponent `r`, as for bn256, `bn_order`). -/
theorem C28_native_partial [Fact n.Prime] [Fact wm.Prime] (h : RangeInfo.new wm n 18 6 = .ok info) (hb : GoodCurve b)
    (bb : ℕ) (hbb : bb < wm) (hbe : (bb : ZMod wm) = b) (num_bits : ℕ) (hn : 1 ≤ num_bits)
    (points : List (AssignedPoint n)) (scalars : List (AssignedValue n)) (gen : ℕ × ℕ) (r1 r2 : Option (ℕ × ℕ))
    (c : Circuit n) (w : Advice n) (hw : c.Sat w) (hbits : c.BitRowsConsistent w)
    (Ps : List (Pt b)) (hP : List.Forall₂ (PRep info w) points Ps) (hr : ∀ P ∈ Ps, n • P = 0)
    (hG : 0 ∈ Ps → ∀ G : Pt b, n • G = 0) :
    S c (msm info bb (nativeScalar num_bits) gen r1 r2 none points scalars) (fun res =>
      PRep info w res.1 (msmSum (scalars.map (cv w)) Ps)) :=
  haveI : NeZero n := ⟨(Fact.out : n.Prime).ne_zero⟩
  S_msm h hw (nativeScalar_sound hw hbits hn) (nativeScalar_prog _) hb hbb hbe hP
    (by rw [List.forall₂_map_right_iff]; exact List.forall₂_same.2 fun _ _ => rfl) hr (nativeScalar_zero hG) gen r1 r2 (by simp)

/-- C28, partial, scalars in another field `ZMod sm`, for arbitrary points of the curve, of whatever order: the result is a
sum of multiples `k • P` with each `k` congruent to the scalar modulo `sm`. Partial only in `hbits`. -/
theorem C28_general_any_partial [Fact n.Prime] [Fact wm.Prime] (h : RangeInfo.new wm n 18 6 = .ok info) (hb : GoodCurve b)
    (bb : ℕ) (hbb : bb < wm) (hbe : (bb : ZMod wm) = b) {sm : ℕ} [NeZero sm] {sinfo : RangeInfo n}
    (hs : RangeInfo.new sm n 18 6 = .ok sinfo)
    (points : List (AssignedPoint n)) (scalars : List (AssignedInteger n)) (gen : ℕ × ℕ) (r1 r2 : Option (ℕ × ℕ))
    (c : Circuit n) (w : Advice n) (hw : c.Sat w) (hbits : c.BitRowsConsistent w)
    (Ps : List (Pt b)) (hP : List.Forall₂ (PRep info w) points Ps) (xs : List (ZMod sm))
    (hx : List.Forall₂ (Rep sm sinfo w) scalars xs) :
    S c (msm info bb (generalScalar sinfo) gen r1 r2 none points scalars) (fun res =>
      ∃ ks : List ℕ, List.Forall₂ (fun (k : ℕ) (x : ZMod sm) => (k : ZMod sm) = x) ks xs ∧
        PRep info w res.1 (natSum ks Ps)) :=
  S_msm_nat h hw (generalScalar_sound hs hw hbits) (generalScalar_prog _) hb hbb hbe hP hx (generalScalar_zero _) gen r1 r2
    (by simp)

/-- C28, partial, scalars in another field `ZMod sm`, for points of order dividing `sm`; identity inputs are allowed, the
zero that replaces their scalars has only one decomposition. Partial only in `hbits`. -/
theorem C28_general_partial [Fact n.Prime] [Fact wm.Prime] (h : RangeInfo.new wm n 18 6 = .ok info) (hb : GoodCurve b)
    (bb : ℕ) (hbb : bb < wm) (hbe : (bb : ZMod wm) = b) {sm : ℕ} [NeZero sm] {sinfo : RangeInfo n}
    (hs : RangeInfo.new sm n 18 6 = .ok sinfo)
    (points : List (AssignedPoint n)) (scalars : List (AssignedInteger n)) (gen : ℕ × ℕ) (r1 r2 : Option (ℕ × ℕ))
    (c : Circuit n) (w : Advice n) (hw : c.Sat w) (hbits : c.BitRowsConsistent w)
    (Ps : List (Pt b)) (hP : List.Forall₂ (PRep info w) points Ps) (xs : List (ZMod sm))
    (hx : List.Forall₂ (Rep sm sinfo w) scalars xs) (hr : ∀ P ∈ Ps, sm • P = 0) :
    S c (msm info bb (generalScalar sinfo) gen r1 r2 none points scalars) (fun res =>
      PRep info w res.1 (msmSum xs Ps)) :=
  S_msm h hw (generalScalar_sound hs hw hbits) (generalScalar_prog _) hb hbb hbe hP hx hr (generalScalar_zero _) gen r1 r2 (by simp)

/-- C29, partial, scalars in the native field. Full statement and what is missing: as for C28; and for the first call on
a context (`pre = 0`) the constraint that lookups are answered by cached values (`LookupsCached`, see C30). For every
later call it is enough that the keys are unique (`KeysUnique`), which C31 proves of the circuit of every context; see
`C29_calls_partial`. -/
theorem C29_native_partial [Fact n.Prime] [Fact wm.Prime] (h : RangeInfo.new wm n 18 6 = .ok info) (hb : GoodCurve b)
    (bb : ℕ) (hbb : bb < wm) (hbe : (bb : ZMod wm) = b) (num_bits : ℕ) (hn : 1 ≤ num_bits)
    (points : List (AssignedPoint n)) (scalars : List (AssignedValue n)) (gen : ℕ × ℕ) (r1 r2 : Option (ℕ × ℕ))
    (pre : ℕ) (c : Circuit n) (w : Advice n) (hw : c.Sat w) (hbits : c.BitRowsConsistent w) (hu : c.KeysUnique)
    (hl : (0 < pre ∧ 2 ^ 140 < n ∧ info.limbs < 2 ^ 60) ∨ (c.LookupsCached w ∧ c.ZeroKeyUnique))
    (Ps : List (Pt b)) (hP : List.Forall₂ (PRep info w) points Ps) (hr : ∀ P ∈ Ps, n • P = 0)
    (hG : 0 ∈ Ps → ∀ G : Pt b, n • G = 0) :
    S c (msm info bb (nativeScalar num_bits) gen r1 r2 (some pre) points scalars) (fun res =>
      PRep info w res.1 (msmSum (scalars.map (cv w)) Ps)) :=
  haveI : NeZero n := ⟨(Fact.out : n.Prime).ne_zero⟩
  S_msm h hw (nativeScalar_sound hw hbits hn) (nativeScalar_prog _) hb hbb hbe hP
    (by rw [List.forall₂_map_right_iff]; exact List.forall₂_same.2 fun _ _ => rfl) hr (nativeScalar_zero hG) gen r1 r2
    (by rintro p ⟨⟩; exact ⟨hu, hl⟩)

/-- C29, partial, scalars in another field, for arbitrary points of the curve, of whatever order. -/
theorem C29_general_any_partial [Fact n.Prime] [Fact wm.Prime] (h : RangeInfo.new wm n 18 6 = .ok info) (hb : GoodCurve b)
    (bb : ℕ) (hbb : bb < wm) (hbe : (bb : ZMod wm) = b) {sm : ℕ} [NeZero sm] {sinfo : RangeInfo n}
    (hs : RangeInfo.new sm n 18 6 = .ok sinfo)
    (points : List (AssignedPoint n)) (scalars : List (AssignedInteger n)) (gen : ℕ × ℕ) (r1 r2 : Option (ℕ × ℕ))
    (pre : ℕ) (c : Circuit n) (w : Advice n) (hw : c.Sat w) (hbits : c.BitRowsConsistent w) (hu : c.KeysUnique)
    (hl : (0 < pre ∧ 2 ^ 140 < n ∧ info.limbs < 2 ^ 60) ∨ (c.LookupsCached w ∧ c.ZeroKeyUnique))
    (Ps : List (Pt b)) (hP : List.Forall₂ (PRep info w) points Ps) (xs : List (ZMod sm))
    (hx : List.Forall₂ (Rep sm sinfo w) scalars xs) :
    S c (msm info bb (generalScalar sinfo) gen r1 r2 (some pre) points scalars) (fun res =>
      ∃ ks : List ℕ, List.Forall₂ (fun (k : ℕ) (x : ZMod sm) => (k : ZMod sm) = x) ks xs ∧
        PRep info w res.1 (natSum ks Ps)) :=
  S_msm_nat h hw (generalScalar_sound hs hw hbits) (generalScalar_prog _) hb hbb hbe hP hx (generalScalar_zero _) gen r1 r2
    (by rintro p ⟨⟩; exact ⟨hu, hl⟩)

/-- C29, partial, scalars in another field, for points of order dividing `sm`. -/
theorem C29_general_partial [Fact n.Prime] [Fact wm.Prime] (h : RangeInfo.new wm n 18 6 = .ok info) (hb : GoodCurve b)
    (bb : ℕ) (hbb : bb < wm) (hbe : (bb : ZMod wm) = b) {sm : ℕ} [NeZero sm] {sinfo : RangeInfo n}
    (hs : RangeInfo.new sm n 18 6 = .ok sinfo)
    (points : List (AssignedPoint n)) (scalars : List (AssignedInteger n)) (gen : ℕ × ℕ) (r1 r2 : Option (ℕ × ℕ))
    (pre : ℕ) (c : Circuit n) (w : Advice n) (hw : c.Sat w) (hbits : c.BitRowsConsistent w) (hu : c.KeysUnique)
    (hl : (0 < pre ∧ 2 ^ 140 < n ∧ info.limbs < 2 ^ 60) ∨ (c.LookupsCached w ∧ c.ZeroKeyUnique))
    (Ps : List (Pt b)) (hP : List.Forall₂ (PRep info w) points Ps) (xs : List (ZMod sm))
    (hx : List.Forall₂ (Rep sm sinfo w) scalars xs) (hr : ∀ P ∈ Ps, sm • P = 0) :
    S c (msm info bb (generalScalar sinfo) gen r1 r2 (some pre) points scalars) (fun res =>
      PRep info w res.1 (msmSum xs Ps)) :=
  S_msm h hw (generalScalar_sound hs hw hbits) (generalScalar_prog _) hb hbb hbe hP hx hr (generalScalar_zero _) gen r1 r2
    (by rintro p ⟨⟩; exact ⟨hu, hl⟩)

/-- `ecc_mul`: the instance with one point. -/
theorem C28_ecc_mul_partial [Fact n.Prime] [Fact wm.Prime] (h : RangeInfo.new wm n 18 6 = .ok info) (hb : GoodCurve b)
    (bb : ℕ) (hbb : bb < wm) (hbe : (bb : ZMod wm) = b) (num_bits : ℕ) (hn : 1 ≤ num_bits)
    (p : AssignedPoint n) (s : AssignedValue n) (gen : ℕ × ℕ) (r1 r2 : Option (ℕ × ℕ))
    (c : Circuit n) (w : Advice n) (hw : c.Sat w) (hbits : c.BitRowsConsistent w)
    (P : Pt b) (hP : PRep info w p P) (hr : n • P = 0) (hG : P = 0 → ∀ G : Pt b, n • G = 0) :
    S c (ecc_mul info bb (nativeScalar num_bits) gen r1 r2 none p s) (fun res =>
      PRep info w res.1 ((w s.cell).val • P)) := by
  have := C28_native_partial h hb bb hbb hbe num_bits hn [p] [s] gen r1 r2 c w hw hbits [P] (.cons hP .nil)
    (by simpa using hr) (by simpa [eq_comm] using hG)
  simpa [msmSum, cv, ecc_mul] using this

/-- C28 for bn256 (scalars native): nothing is assumed of the points, because the whole curve has order `bnR`
(`bn_order`). Partial only in `hbits`. -/
theorem C28_bn256_partial {info : RangeInfo bnR} (h : RangeInfo.new bnQ bnR 18 6 = .ok info)
    (points : List (AssignedPoint bnR)) (scalars : List (AssignedValue bnR)) (r1 r2 : Option (ℕ × ℕ))
    (c : Circuit bnR) (w : Advice bnR) (hw : c.Sat w) (hbits : c.BitRowsConsistent w)
    (Ps : List (Pt (3 : ZMod bnQ))) (hP : List.Forall₂ (PRep info w) points Ps) :
    S c (msm info 3 (nativeScalar 254) (1, 2) r1 r2 none points scalars) (fun res =>
      PRep info w res.1 (msmSum (scalars.map (cv w)) Ps)) :=
  C28_native_partial h good_bn 3 (by decide +kernel) (by norm_num) 254 (by norm_num) points scalars (1, 2) r1 r2 c w hw
    hbits Ps hP (fun P _ => bn_order P) fun _ => bn_order

/-- C29 for bn256 (scalars native), for every call but the first on a context: partial only in `hbits`. -/
theorem C29_bn256_partial {info : RangeInfo bnR} (h : RangeInfo.new bnQ bnR 18 6 = .ok info)
    (points : List (AssignedPoint bnR)) (scalars : List (AssignedValue bnR)) (r1 r2 : Option (ℕ × ℕ)) (pre : ℕ)
    (hpre : 0 < pre) (c : Circuit bnR) (w : Advice bnR) (hw : c.Sat w) (hbits : c.BitRowsConsistent w)
    (hu : c.KeysUnique) (Ps : List (Pt (3 : ZMod bnQ))) (hP : List.Forall₂ (PRep info w) points Ps) :
    S c (msm info 3 (nativeScalar 254) (1, 2) r1 r2 (some pre) points scalars) (fun res =>
      PRep info w res.1 (msmSum (scalars.map (cv w)) Ps)) := by
  refine C29_native_partial h good_bn 3 (by decide +kernel) (by norm_num) 254 (by norm_num) points scalars (1, 2) r1 r2
    pre c w hw hbits hu (.inl ⟨hpre, by decide +kernel, ?_⟩) Ps hP (fun P _ => bn_order P) fun _ => bn_order
  obtain ⟨info', hs⟩ := Setup.of_summary summary_bnQ
  obtain rfl : info' = info := by have := hs.new.symm.trans h; injection this
  have := hs.summary
  simp only [List.cons.injEq] at this
  omega

/-! ## C46 -/

theorem msm_batch_empty {σ : Type} (ops : ScalarOps n σ) (bb best : ℕ) (hbest : 1 ≤ best) (before : M n Unit)
    (cache : ℕ → AssignedNonZeroPoint n → ℕ → M n Unit)
    (pick : List (List (AssignedNonZeroPoint n)) → ℕ → List (AssignedCondition n) → M n (AssignedNonZeroPoint n))
    (scalars : List σ) (r1 r2 : Option (ℕ × ℕ)) (s : Context n) (x : Except UnsafeError (AssignedPoint n) × Context n) :
    msm_batch info bb ops best before cache pick [] scalars r1 r2 s ≠ .ok x := by
  intro e
  obtain ⟨a, t⟩ := x
  rw [msm_batch_eq] at e
  obtain ⟨pts, _, e0, e⟩ := run_bind_ok.1 e
  have : pts = [] := by cases e0; rfl
  subst this
  iterate 6 obtain ⟨_, _, -, e⟩ := run_bind_ok.1 e
  obtain ⟨_, _, e, -⟩ := run_bind_ok.1 e
  have h0 : (([] : List (AssignedNonZeroPoint n)).length + best - 1) / best = 0 := by
    apply Nat.div_eq_of_lt
    simp only [List.length_nil]
    omega
  rw [h0] at e
  simp [div_rem] at e

/-- C46 fails: on empty lists `msm` panics, on every context, with and without the select chip, whatever the scalar
operations. (The number of groups is 0 and the group size is computed by dividing by it.) -/
theorem C46_violated {σ : Type} (ops : ScalarOps n σ) (bb : ℕ) (gen : ℕ × ℕ) (r1 r2 : Option (ℕ × ℕ))
    (msm_prefix : Option ℕ) (s : Context n) :
    ∃ e, msm info bb ops gen r1 r2 msm_prefix [] [] s = .error e := by
  cases e : msm info bb ops gen r1 r2 msm_prefix [] [] s with
  | error p => exact ⟨p, rfl⟩
  | ok x =>
    exfalso
    obtain ⟨a, t⟩ := x
    unfold msm at e
    obtain ⟨_, _, e, -⟩ := run_bind_ok.1 e
    unfold msm_unsafe at e
    obtain ⟨_, _, -, e⟩ := run_bind_ok.1 e
    obtain ⟨_, _, -, e⟩ := run_bind_ok.1 e
    obtain ⟨l, _, e0, e⟩ := run_bind_ok.1 e
    have : l = [] := by cases e0; rfl
    subst this
    cases msm_prefix with
    | some pre =>
      obtain ⟨_, _, e, -⟩ := run_bind_ok.1 e
      obtain ⟨_, _, -, e⟩ := run_bind_ok.1 e
      exact msm_batch_empty _ _ _ (by norm_num) _ _ _ _ _ _ _ _ e
    | none =>
      obtain ⟨_, _, e, -⟩ := run_bind_ok.1 e
      exact msm_batch_empty _ _ _ (by norm_num) _ _ _ _ _ _ _ _ e

/-- What remains of C46. Full statement: `msm` on empty lists returns the identity. Missing: empty lists, see
`C46_violated`. A client that pads an empty sum with terms whose point is the identity or whose scalar is 0 gets the
identity. -/
theorem C46_padded_partial {info : RangeInfo bnR} (h : RangeInfo.new bnQ bnR 18 6 = .ok info)
    (points : List (AssignedPoint bnR)) (scalars : List (AssignedValue bnR)) (r1 r2 : Option (ℕ × ℕ))
    (c : Circuit bnR) (w : Advice bnR) (hw : c.Sat w) (hbits : c.BitRowsConsistent w)
    (Ps : List (Pt (3 : ZMod bnQ))) (hP : List.Forall₂ (PRep info w) points Ps)
    (h0 : ∀ x ∈ scalars.zip Ps, w x.1.cell = 0 ∨ x.2 = 0) :
    S c (msm info 3 (nativeScalar 254) (1, 2) r1 r2 none points scalars) (fun res =>
      PRep info w res.1 (0 : Pt (3 : ZMod bnQ))) := by
  refine (C28_bn256_partial h points scalars r1 r2 c w hw hbits Ps hP).mono fun res hres => ?_
  have e : msmSum (scalars.map (cv w)) Ps = 0 := by
    unfold msmSum
    refine List.sum_eq_zero fun y hy => ?_
    rw [List.zipWith_map_left, ← List.map_uncurry_zip_eq_zipWith] at hy
    obtain ⟨x, hx, rfl⟩ := List.mem_map.1 hy
    rcases h0 x hx with h | h
    · show (w x.1.cell).val • x.2 = 0
      rw [h, ZMod.val_zero]
      exact zero_nsmul _
    · show (w x.1.cell).val • x.2 = 0
      rw [h]
      exact nsmul_zero _
  rwa [e] at hres

end Verif
