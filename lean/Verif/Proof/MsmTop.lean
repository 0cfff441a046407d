import Verif.Proof.MsmBatch
import Verif.Proof.Select
import Verif.Spec.Msm

/-!
# Multi-scalar multiplication: the two batch routines, normalisation of the inputs, `msm`
-/

namespace Verif
variable {cc : Prop}
variable {n wm : ℕ} {info : RangeInfo n} {b : ZMod wm} {σ : Type} {ops : ScalarOps n σ}

/-- What the operations of a scalar context have to satisfy. `R s x` says which residue `s` stands for, `Z s` that it
stands for the zero the library assigns, and `D s k` that the bits of `k` are a decomposition of `s`. -/
structure ScalarSound (c : Circuit n) (w : Advice n) {r : ℕ} (R : σ → ZMod r → Prop) (Z : σ → Prop) (D : σ → ℕ → Prop)
    (W : ℕ) (ops : ScalarOps n σ) : Prop where
  pos : 1 ≤ W
  decompose : DecomposeSound c w (fun s => ∃ x, R s x) D W ops.decompose
  zeroR : ∀ s, Z s → R s 0
  residue : ∀ s x k, R s x → D s k → (k : ZMod r) = x
  bisec : ∀ d a b, S c (ops.bisec d a b) (fun s => ∀ y, Z a → R b y → (cv w d = 1 → Z s) ∧ (cv w d = 0 → R s y))
  zero : S c ops.zero Z

/-- The operations of a scalar context are programs. -/
structure ScalarProg (ops : ScalarOps n σ) : Prop where
  decompose : ∀ {cc : Prop} s, Built cc (ops.decompose s)
  bisec : ∀ {cc : Prop} d a b, Built cc (ops.bisec d a b)
  zero : ∀ {cc : Prop}, Built cc ops.zero

theorem nativeScalar_prog (num_bits : ℕ) : ScalarProg (nativeScalar (n := n) num_bits) :=
  ⟨prog_decompose_scalar_native _ _, prog_bisec, prog_assign_constant _⟩

theorem generalScalar_prog (sinfo : RangeInfo n) : ScalarProg (generalScalar sinfo) :=
  ⟨prog_decompose_scalar_general _ _, prog_bisec_int _, prog_assign_int_constant _ _⟩

theorem nativeScalar_sound [Fact n.Prime] {c : Circuit n} {w : Advice n} (hw : c.Sat w) (hb : c.BitRowsConsistent w)
    {num_bits : ℕ} (hn : 1 ≤ num_bits) :
    ScalarSound c w (fun s (x : ZMod n) => cv w s = x) (fun s => cv w s = 0) (fun s k => (k : ZMod n) = cv w s) num_bits
      (nativeScalar num_bits) where
  pos := hn
  decompose s := (S_decompose_scalar_native hw hb one_ne_zero s).mono fun res h _ => by
    obtain ⟨k, h1, h2, h3⟩ := h
    exact ⟨k, h1, by rw [h2]; omega, h3⟩
  zeroR s h := h
  residue s x k h1 h2 := h2.trans h1
  bisec d a b := (S_bisec hw d a b).mono fun s h y hx hy => by
    have hx : w a.cell = 0 := hx
    have hy : w b.cell = y := hy
    constructor
    · intro hd
      have hd : w d.cell = 1 := hd
      show w s.cell = 0
      rw [h, hd, hx]; ring
    · intro hd
      have hd : w d.cell = 0 := hd
      show w s.cell = y
      rw [h, hd, hy]; ring
  zero := S_assign_constant hw 0

/-- A decomposition of the native zero is a multiple of the modulus. -/
theorem nativeScalar_zero {w : Advice n} {G : Type} [AddCommGroup G] {q : Prop} (h : q → ∀ P : G, n • P = 0) :
    q → ∀ (s : AssignedValue n) (k : ℕ) (P : G), cv w s = 0 → (k : ZMod n) = cv w s → k • P = 0 := by
  intro hq s k P h0 hk
  rw [h0, ZMod.natCast_eq_zero_iff] at hk
  obtain ⟨m, rfl⟩ := hk
  rw [mul_comm, mul_smul, h hq P, smul_zero]

theorem generalScalar_sound [Fact n.Prime] {sm : ℕ} [NeZero sm] {sinfo : RangeInfo n}
    (hi : RangeInfo.new sm n 18 6 = .ok sinfo) {c : Circuit n} {w : Advice n} (hw : c.Sat w)
    (hb : c.BitRowsConsistent w) :
    ScalarSound c w (Rep sm sinfo w) (fun s => WF sinfo (cv w) s ∧ V (cv w) s = 0)
      (fun s k => WF sinfo (cv w) s → ∃ d, d * sm + k = V (cv w) s) (108 * sinfo.limbs) (generalScalar sinfo) where
  pos := by have := (RangeInfo.new_valid hi).limbs_ge; omega
  decompose s := (S_decompose_scalar_general_exact hw hb (RangeInfo.new_valid hi) one_ne_zero s).mono fun _ h hx => by
    obtain ⟨x, hx⟩ := hx
    obtain ⟨k, h1, h2, h3⟩ := h hx.wf
    exact ⟨k, h1, by rw [h2]; omega, fun _ => h3⟩
  zeroR s h := ⟨h.1, by rw [h.2]; simp⟩
  residue s x k h1 h2 := by
    obtain ⟨d, h3⟩ := h2 h1.wf
    rw [← h1.eq, ← h3]
    push_cast
    simp
  bisec d a b := (S_bisec_int (RangeInfo.new_valid hi) hw d a b).mono fun s h y ha hb => by
    obtain ⟨-, h1, h2⟩ := h ha.1 hb.wf
    exact ⟨fun hc => let ⟨k1, k2⟩ := h1 hc; ⟨k1, k2.trans ha.2⟩, fun hc => let ⟨k1, k2⟩ := h2 hc; ⟨k1, by rw [k2, hb.eq]⟩⟩
  zero := (S_assign_int_constant (RangeInfo.new_valid hi) hw 0).mono fun s h =>
    let ⟨h1, _, h2⟩ := h (Nat.pos_of_ne_zero (NeZero.ne sm)); ⟨h1, h2⟩

/-- A decomposition of the zero of another field is 0. -/
theorem generalScalar_zero {sinfo : RangeInfo n} {w : Advice n} {sm : ℕ} {G : Type} [AddCommGroup G] (q : Prop) :
    q → ∀ (s : AssignedInteger n) (k : ℕ) (P : G), WF sinfo (cv w) s ∧ V (cv w) s = 0 →
      (WF sinfo (cv w) s → ∃ d, d * sm + k = V (cv w) s) → k • P = 0 := by
  intro _ s k P h0 hk
  obtain ⟨d, hd⟩ := hk h0.1
  rw [h0.2] at hd
  rw [Nat.eq_zero_of_add_eq_zero_left hd, zero_smul]

section
variable [Fact n.Prime] [Fact wm.Prime] (h : RangeInfo.new wm n 18 6 = .ok info) {c : Circuit n} {w : Advice n}
  (hw : c.Sat w)
include h hw

omit [Fact wm.Prime] in
theorem pickSound_bisec (G B : ℕ) : PickSound c info w b G B (fun _ _ _ => True) (pick_bisec info) := by
  intro cs g bits
  unfold pick_bisec
  refine S.bind_index fun cl hcl => (S_bisec_candidate (b := b) h hw cl bits).mono fun r hr => ⟨cl, hcl, ?_⟩
  intro Q hQ _ _ _ hbit
  exact hr Q (fun i p hp => (hQ i p hp).1) hbit

variable {r W : ℕ} [NeZero r] {R : σ → ZMod r → Prop} {Z : σ → Prop} {D : σ → ℕ → Prop}
  (hs : ScalarSound c w R Z D W ops) (hp : ScalarProg ops)
  (hb : GoodCurve b) {bb : ℕ} (hbb : bb < wm) (hbe : (bb : ZMod wm) = b)
include hs hp hb hbb hbe

omit [NeZero r] in
theorem S_msm_batch_without_select {points : List (AssignedNonZeroPoint n)} {scalars : List σ} {Ps : List (Pt b)}
    (hP : List.Forall₂ (NRep info w) points Ps) (hx : ∀ s ∈ scalars, ∃ x, R s x)
    (hlen : points.length = scalars.length) (acc_c line_c : Option (ℕ × ℕ)) :
    S c (msm_batch_without_select info bb ops points scalars acc_c line_c) (fun res => ∃ p ks, res = .ok p ∧
      List.Forall₂ D scalars ks ∧ PRep info w p (natSum ks Ps)) :=
  S_msm_batch h hw hb hs.pos (by norm_num) (by norm_num) hp.decompose hs.decompose (.pure _) (fun _ _ _ => .pure _)
    (fun _ _ _ => S.pure trivial) prog_pick_bisec (pickSound_bisec h hw points.length 2) hbb hbe hP hx hlen le_rfl _ _

omit [NeZero r] in
theorem S_msm_batch_with_select (hu : c.KeysUnique) {pre : ℕ}
    (hbd : (0 < pre ∧ 2 ^ 140 < n ∧ info.limbs < 2 ^ 60) ∨ (c.LookupsCached w ∧ c.ZeroKeyUnique))
    {points : List (AssignedNonZeroPoint n)} {scalars : List σ} {Ps : List (Pt b)}
    (hP : List.Forall₂ (NRep info w) points Ps) (hx : ∀ s ∈ scalars, ∃ x, R s x)
    (hlen : points.length = scalars.length) (acc_c line_c : Option (ℕ × ℕ)) :
    S c (msm_batch_with_select info bb ops pre points scalars acc_c line_c) (fun res => ∃ p ks, res = .ok p ∧
      List.Forall₂ D scalars ks ∧ PRep info w p (natSum ks Ps)) := by
  unfold msm_batch_with_select
  refine S.bind_rassert fun hlim => ?_
  by_cases hpre : pre < MSM_LIMIT
  · refine S_msm_batch (G := points.length) h hw hb hs.pos (by norm_num) (by norm_num) hp.decompose hs.decompose (prog_rassert _)
      (K := fun g i p => CachedPoint c info w (g + pre) i p)
      (fun _ _ _ => prog_assign_cache_point_non_zero (cc := True) trivial ..)
      (fun g p i => by rw [Nat.add_comm pre g]; exact S_assign_cache_point hw p _ _)
      (prog_pick_select _) (S_pick_select hw hu pre ?_) hbb hbe hP hx hlen le_rfl _ _
    intro g k off hg hk hoff
    rcases hbd with ⟨h2, h3, h4⟩ | hbd
    swap
    · exact .inr hbd
    · refine .inl ?_
      have hlim : points.length ≤ MSM_PREFIX_OFFSET := by simpa using hlim
      unfold encode_offset
      rw [Ne, ZMod.natCast_eq_zero_iff]
      intro hd
      have e1 : MSM_LIMIT = 2 ^ 28 := by unfold MSM_LIMIT MSM_PREFIX_OFFSET; norm_num
      have e2 : MSM_PREFIX_OFFSET = 2 ^ 20 := rfl
      rw [e1] at hpre
      rw [e2] at hlim
      have h5 : 0 < k * 2 ^ 128 + (g + pre) * 2 ^ 64 + off := by
        have : 0 < (g + pre) * 2 ^ 64 := Nat.mul_pos (by omega) (by norm_num)
        exact Nat.add_pos_left (Nat.add_pos_right _ this) _
      have h6 := Nat.le_of_dvd h5 hd
      have h7 : k * 2 ^ 128 ≤ 2 ^ 5 * 2 ^ 128 := Nat.mul_le_mul_right _ hk.le
      have h8 : (g + pre) * 2 ^ 64 ≤ 2 ^ 29 * 2 ^ 64 := Nat.mul_le_mul_right _ (by omega)
      have h9 : off < 2 ^ 62 := by omega
      have h10 : 2 ^ 5 * 2 ^ 128 + 2 ^ 29 * 2 ^ 64 + 2 ^ 62 < 2 ^ 140 := by norm_num
      exact absurd (h6.trans (Nat.add_le_add (Nat.add_le_add h7 h8) h9.le)) (by
        have := h10.trans h3
        exact Nat.not_le.2 this)
  · intro s a t _ e
    exfalso
    rw [msm_batch_eq] at e
    iterate 8 obtain ⟨_, _, -, e⟩ := run_bind_ok.1 e
    obtain ⟨_, _, e, -⟩ := run_bind_ok.1 e
    simp only [rassert, hpre, decide_false] at e
    cases e

omit h hw hs hb hbb hbe [Fact n.Prime] [Fact wm.Prime] [NeZero r] in
theorem prog_normalize (s_zero : σ) (q : AssignedNonZeroPoint n) : ∀ l, Built cc (normalize info ops s_zero q l)
  | [] => .pure _
  | (p, s) :: rest => .bind (hp.bisec _ _ _) fun _ => .bind (prog_ecc_bisec_to_non_zero_point ..) fun _ =>
      .bind (prog_normalize s_zero q rest) fun _ => .pure _

omit h hw hs hp hb hbb hbe [Fact n.Prime] [Fact wm.Prime] [NeZero r] in
theorem natSum_cons {G : Type} [AddCommGroup G] (k : ℕ) (ks : List ℕ) (P : G) (Ps : List G) :
    natSum (k :: ks) (P :: Ps) = k • P + natSum ks Ps := by simp [natSum]

omit hp hb hbb hbe in
theorem S_normalize {s_zero : σ} (hz : Z s_zero) {q : AssignedNonZeroPoint n} {G : Pt b} (hq : NRep info w q G)
    {points : List (AssignedPoint n)} {Ps : List (Pt b)} (hP : List.Forall₂ (PRep info w) points Ps)
    (hG : 0 ∈ Ps → ∀ s k, Z s → D s k → k • G = 0) :
    ∀ (scalars : List σ) (xs : List (ZMod r)), List.Forall₂ R scalars xs →
    S c (normalize info ops s_zero q (points.zip scalars)) (fun l => ∃ Qs,
      List.Forall₂ (NRep info w) (l.map Prod.fst) Qs ∧ (∀ s ∈ l.map Prod.snd, ∃ x, R s x) ∧
      ∀ ks, List.Forall₂ D (l.map Prod.snd) ks → ∃ ks' : List ℕ,
        List.Forall₂ (fun (k : ℕ) (x : ZMod r) => (k : ZMod r) = x) ks' xs ∧ natSum ks Qs = natSum ks' Ps) := by
  have triv : ∀ xs : List (ZMod r), List.Forall₂ (fun (k : ℕ) (x : ZMod r) => (k : ZMod r) = x) (xs.map ZMod.val) xs := by
    intro xs
    rw [List.forall₂_map_left_iff]
    exact List.forall₂_same.2 fun x _ => ZMod.natCast_zmod_val x
  induction hP with
  | nil =>
    intro scalars xs _
    exact S.pure ⟨[], .nil, by simp, fun ks _ => ⟨xs.map ZMod.val, triv xs, by simp [natSum]⟩⟩
  | @cons p P points Ps hp1 _ ih =>
    intro scalars xs hx
    have ih := ih fun h0 => hG (List.mem_cons_of_mem _ h0)
    cases hx with
    | nil => exact S.pure ⟨[], .nil, by simp, fun ks _ => ⟨[], .nil, by simp [natSum]⟩⟩
    | @cons s x scalars xs hsx hx =>
      rw [List.zip_cons_cons]
      unfold normalize
      refine S.bind (hs.bisec p.z s_zero s) fun s' => S.bind (S_bisec_to_nz (b := b) h hw p q) fun p' =>
        S.bind (ih _ _ hx) fun rest => S.pure fun h3 h2 h1 => ?_
      obtain ⟨Qs, k1, k2, k3⟩ := h3
      obtain ⟨Q, hQ, hy, e⟩ : ∃ Q, NRep info w p' Q ∧ (∃ y, R s' y) ∧
          ∀ k, D s' k → ∃ k' : ℕ, (k' : ZMod r) = x ∧ k • Q = k' • P := by
        have hp1' := hp1
        obtain ⟨px, py, -, -, ⟨hz1, rfl⟩ | ⟨hz0, -⟩⟩ := hp1'
        · have hz' := (h1 _ hz hsx).1 hz1
          exact ⟨G, (h2 _ _ hp1 hq).1 hz1, ⟨0, hs.zeroR _ hz'⟩, fun k hk => ⟨x.val, ZMod.natCast_zmod_val x, by
            rw [hG List.mem_cons_self _ _ hz' hk]; exact (nsmul_zero _).symm⟩⟩
        · have hx' := (h1 _ hz hsx).2 hz0
          exact ⟨P, (h2 _ _ hp1 hq).2 hz0, ⟨x, hx'⟩, fun k hk => ⟨k, hs.residue _ _ _ hx' hk, rfl⟩⟩
      refine ⟨Q :: Qs, .cons hQ k1, ?_, ?_⟩
      · intro s hs
        rcases List.mem_cons.1 hs with rfl | h
        exacts [hy, k2 _ h]
      · intro ks hks
        cases hks with
        | @cons _ k _ ks hk hks =>
          obtain ⟨k', e1, e2⟩ := e k hk
          obtain ⟨ks', e3, e4⟩ := k3 ks hks
          exact ⟨k' :: ks', .cons e1 e3, by rw [natSum_cons, natSum_cons, e2, e4]⟩

/-- When the lookups of a multi-scalar multiplication with prefix `pre` are known to find cached values. -/
def SelectOk (c : Circuit n) (w : Advice n) (info : RangeInfo n) (pre : ℕ) : Prop :=
  c.KeysUnique ∧ ((0 < pre ∧ 2 ^ 140 < n ∧ info.limbs < 2 ^ 60) ∨ (c.LookupsCached w ∧ c.ZeroKeyUnique))

/-- The result is a sum of multiples `k • P`, each `k` congruent to the scalar. Nothing is assumed of the orders of the
points, but `hG`: that decompositions of zero do not move the point that replaces identity inputs. -/
theorem S_msm_unsafe_nat {points : List (AssignedPoint n)} {scalars : List σ} {Ps : List (Pt b)}
    {xs : List (ZMod r)} (hP : List.Forall₂ (PRep info w) points Ps) (hx : List.Forall₂ R scalars xs)
    (hG : 0 ∈ Ps → ∀ s k (G : Pt b), Z s → D s k → k • G = 0) (gen : ℕ × ℕ) (r1 r2 : Option (ℕ × ℕ))
    {msm_prefix : Option ℕ} (hpre : ∀ pre, msm_prefix = some pre → SelectOk c w info pre) :
    S c (msm_unsafe info bb ops gen r1 r2 msm_prefix points scalars) (fun res => ∃ p, res.1 = .ok p ∧
      ∃ ks : List ℕ, List.Forall₂ (fun (k : ℕ) (x : ZMod r) => (k : ZMod r) = x) ks xs ∧ PRep info w p (natSum ks Ps)) := by
  have gr : ∀ l : List (AssignedNonZeroPoint n × σ), Growing (match msm_prefix with
      | some pre => do
        let r ← msm_batch_with_select info bb ops pre (l.map Prod.fst) (l.map Prod.snd) r1 r2
        pure (r, some (pre + MSM_PREFIX_OFFSET))
      | none => do
        let r ← msm_batch_without_select info bb ops (l.map Prod.fst) (l.map Prod.snd) r1 r2
        pure (r, none)) := by
    intro l
    cases msm_prefix with
    | some pre =>
      exact .bind (.bind (prog_rassert _).growing fun _ => growing_msm_batch (by norm_num) hp.decompose (prog_rassert _)
        (fun _ _ _ => prog_assign_cache_point_non_zero (cc := True) trivial ..) (prog_pick_select _) _ _ _ _ _) fun _ => .pure _
    | none =>
      exact .bind (growing_msm_batch (by norm_num) hp.decompose (.pure _)
        (fun _ _ _ => .pure _) prog_pick_bisec _ _ _ _ _) fun _ => .pure _
  unfold msm_unsafe
  refine S.bindG (S_assign_non_zero_point h hw hb bb hbb hbe _) (fun _ => .bind hp.zero.growing fun _ =>
    .bind (prog_normalize hp _ _ _).growing gr) fun q ⟨⟨G, hq⟩, _⟩ => ?_
  refine S.bindG hs.zero (fun _ => .bind (prog_normalize hp _ _ _).growing gr) fun s0 h0 => ?_
  refine S.bindG (S_normalize h hw hs h0 hq hP (fun h s k => hG h s k G) _ _ hx) gr ?_
  rintro l ⟨Qs, k1, k2, k3⟩
  have fin : ∀ {res : Except UnsafeError (AssignedPoint n)}, (∃ p ks, res = .ok p ∧ List.Forall₂ D (l.map Prod.snd) ks ∧
      PRep info w p (natSum ks Qs)) → ∃ p, res = .ok p ∧
      ∃ ks : List ℕ, List.Forall₂ (fun (k : ℕ) (x : ZMod r) => (k : ZMod r) = x) ks xs ∧ PRep info w p (natSum ks Ps) := by
    rintro res ⟨p, ks, e, h1, h2⟩
    obtain ⟨ks', h3, h4⟩ := k3 ks h1
    exact ⟨p, e, ks', h3, h4 ▸ h2⟩
  cases hm : msm_prefix with
  | some pre =>
    obtain ⟨hu, hbd⟩ := hpre pre hm
    exact S.bind (S_msm_batch_with_select h hw hs hp hb hbb hbe hu hbd k1 k2 (by simp) _ _) fun _ => S.pure fin
  | none =>
    exact S.bind (S_msm_batch_without_select h hw hs hp hb hbb hbe k1 k2 (by simp) _ _) fun _ => S.pure fin

omit h hw hs hp hb hbb hbe [Fact n.Prime] [Fact wm.Prime] in
theorem natSum_residue {G : Type} [AddCommGroup G] {ks : List ℕ} {xs : List (ZMod r)}
    (h : List.Forall₂ (fun (k : ℕ) (x : ZMod r) => (k : ZMod r) = x) ks xs) :
    ∀ {Ps : List G}, (∀ P ∈ Ps, r • P = 0) → natSum ks Ps = msmSum xs Ps := by
  induction h with
  | nil => intro Ps _; simp [natSum, msmSum]
  | @cons k x ks xs hk _ ih =>
    intro Ps hP
    cases Ps with
    | nil => simp [natSum, msmSum]
    | cons P Ps =>
      have e : msmSum (x :: xs) (P :: Ps) = x.val • P + msmSum xs Ps := by simp [msmSum]
      rw [natSum_cons, e, ih fun P h => hP P (List.mem_cons_of_mem _ h), ← hk, ZMod.val_natCast]
      congr 1
      conv_lhs => rw [← Nat.div_add_mod k r, add_smul, mul_comm, mul_smul, hP P (by simp), smul_zero, zero_add]

theorem S_msm_unsafe {points : List (AssignedPoint n)} {scalars : List σ} {Ps : List (Pt b)}
    {xs : List (ZMod r)} (hP : List.Forall₂ (PRep info w) points Ps) (hx : List.Forall₂ R scalars xs)
    (hr : ∀ P ∈ Ps, r • P = 0) (hG : 0 ∈ Ps → ∀ s k (G : Pt b), Z s → D s k → k • G = 0) (gen : ℕ × ℕ)
    (r1 r2 : Option (ℕ × ℕ)) {msm_prefix : Option ℕ} (hpre : ∀ pre, msm_prefix = some pre → SelectOk c w info pre) :
    S c (msm_unsafe info bb ops gen r1 r2 msm_prefix points scalars) (fun res => ∃ p, res.1 = .ok p ∧
      PRep info w p (msmSum xs Ps)) :=
  (S_msm_unsafe_nat h hw hs hp hb hbb hbe hP hx hG gen r1 r2 hpre).mono fun _ ⟨p, e, _, h1, h2⟩ =>
    ⟨p, e, natSum_residue h1 hr ▸ h2⟩

theorem S_msm_nat {points : List (AssignedPoint n)} {scalars : List σ} {Ps : List (Pt b)}
    {xs : List (ZMod r)} (hP : List.Forall₂ (PRep info w) points Ps) (hx : List.Forall₂ R scalars xs)
    (hG : 0 ∈ Ps → ∀ s k (G : Pt b), Z s → D s k → k • G = 0) (gen : ℕ × ℕ) (r1 r2 : Option (ℕ × ℕ))
    {msm_prefix : Option ℕ} (hpre : ∀ pre, msm_prefix = some pre → SelectOk c w info pre) :
    S c (msm info bb ops gen r1 r2 msm_prefix points scalars) (fun res =>
      ∃ ks : List ℕ, List.Forall₂ (fun (k : ℕ) (x : ZMod r) => (k : ZMod r) = x) ks xs ∧
        PRep info w res.1 (natSum ks Ps)) := by
  unfold msm
  refine S.bind (S_msm_unsafe_nat h hw hs hp hb hbb hbe hP hx hG gen r1 r2 hpre) fun ⟨res, pre⟩ => ?_
  cases res with
  | ok p => exact S.pure fun ⟨p', e, hp'⟩ => by cases e; exact hp'
  | error e => exact S.panic

theorem S_msm {points : List (AssignedPoint n)} {scalars : List σ} {Ps : List (Pt b)}
    {xs : List (ZMod r)} (hP : List.Forall₂ (PRep info w) points Ps) (hx : List.Forall₂ R scalars xs)
    (hr : ∀ P ∈ Ps, r • P = 0) (hG : 0 ∈ Ps → ∀ s k (G : Pt b), Z s → D s k → k • G = 0) (gen : ℕ × ℕ)
    (r1 r2 : Option (ℕ × ℕ)) {msm_prefix : Option ℕ} (hpre : ∀ pre, msm_prefix = some pre → SelectOk c w info pre) :
    S c (msm info bb ops gen r1 r2 msm_prefix points scalars) (fun res => PRep info w res.1 (msmSum xs Ps)) :=
  (S_msm_nat h hw hs hp hb hbb hbe hP hx hG gen r1 r2 hpre).mono fun _ ⟨_, h1, h2⟩ => natSum_residue h1 hr ▸ h2

end
end Verif
