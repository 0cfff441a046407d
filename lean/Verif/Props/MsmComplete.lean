import Verif.Proof.MsmCompleteTop
import Verif.Proof.MsmRandom
import Verif.Proof.CurveCard
import Verif.Props.Ecc
import Verif.Spec.Msm

/-!
# C49: an honest prover can prove every multi-scalar multiplication

The algorithm uses incomplete additions, so it can fail for unlucky random points. `GeneralPosition`
(Spec/MsmPosition.lean) lists the exceptions. Under it the honest run does not panic, its result is the sum and the
recorded witness satisfies the circuit (`C49_native_complete`, `C49_general_complete`). Almost all random points avoid
the exceptions (`C49_random_points`). For bn256 it follows that a good choice exists for all inputs
(`C49_bn256_accepted`).
-/

namespace Verif
variable {n wm : ℕ} {info : RangeInfo n} {b : ZMod wm}

/-- The scalars on which the batch works, as numbers. -/
theorem zipWith_val {r : ℕ} {G : Type} [AddCommGroup G] (xs : List (ZMod r)) (Ps : List G) :
    (List.zipWith (fun k (P : G) => k • P) (xs.map ZMod.val) Ps).sum = msmSum xs Ps := by
  unfold msmSum
  rw [List.zipWith_map_left]

/-- C49, scalars in the native field, with (`msm_prefix = some _`) and without the select chip. The points are
represented honestly, the lists have the same nonzero length, the random points `A` and `L` and the point `Gn` that
replaces identities are on the curve, and no addition is exceptional. -/
theorem C49_native_complete [Fact n.Prime] [Fact wm.Prime] (h : RangeInfo.new wm n 18 6 = .ok info)
    (hd : info.d_bits % 108 ≠ 0) (hb : GoodCurve b) (bb : ℕ) (hbb : bb < wm) (hbe : (bb : ZMod wm) = b) (num_bits : ℕ)
    (hn : n ≤ 2 ^ num_bits) (points : List (AssignedPoint n)) (scalars : List (AssignedValue n)) (Ps : List (Pt b))
    (hP : List.Forall₂ (HPRep info) points Ps) (hlen : points.length = scalars.length) (hne : points ≠ [])
    (gen r1 r2 : ℕ × ℕ) (Gn A L : Pt b) (hG : ConstCoords (some gen) Gn) (hA : ConstCoords (some r1) A)
    (hL : ConstCoords (some r2) L) (msm_prefix : Option ℕ)
    (hpre : ∀ pre, msm_prefix = some pre → 256 ≤ n ∧ pre < MSM_LIMIT ∧ points.length ≤ MSM_PREFIX_OFFSET)
    (hpos : GeneralPosition num_bits (groupSize (if msm_prefix.isSome then 5 else 2) Ps.length)
      (cleanScalars Ps (scalars.map fun s => s.val.val)) (cleanPoints Gn Ps) A L) :
    Complete (msm info bb (nativeScalar num_bits) gen (some r1) (some r2) msm_prefix points scalars)
      (fun w => (∀ p ∈ points, OkP w p) ∧ ∀ s ∈ scalars, Ok w s)
      (fun r => HPRep info r.1 (msmSum (scalars.map AssignedValue.val) Ps) ∧
        r.2 = msm_prefix.map (· + MSM_PREFIX_OFFSET))
      (fun w r => OkP w r.1) := by
  intro c w
  rcases hG with ⟨e, -⟩ | ⟨gx, gy, e, hgx, hgy, hG⟩ <;> cases e
  rcases hA with ⟨e, -⟩ | ⟨ax, ay, e, hax, hay, hA⟩ <;> cases e
  rcases hL with ⟨e, -⟩ | ⟨lx, ly, e, hlx, hly, hL⟩ <;> cases e
  have := C_msm (c := c) (h := w) (H := (∀ p ∈ points, OkP w p) ∧ ∀ s ∈ scalars, Ok w s) h hd hb
    (nativeScalar_complete hn) hbb hbe hP (ks := scalars.map fun s => s.val.val) (msm_prefix := msm_prefix) (Gn := Gn) (A := A) (L := L)
    (by rw [List.forall₂_map_right_iff]; exact List.forall₂_same.2 fun _ _ => rfl) hlen hne hgx hgy hax hay hlx hly hG hA hL
    hpre (by exact hpos) id
  rw [← zipWith_val, List.map_map]
  exact this

/-- C49, scalars in another field `ZMod sm`. -/
theorem C49_general_complete [Fact n.Prime] [Fact wm.Prime] (h : RangeInfo.new wm n 18 6 = .ok info)
    (hd : info.d_bits % 108 ≠ 0) (hb : GoodCurve b) (bb : ℕ) (hbb : bb < wm) (hbe : (bb : ZMod wm) = b) {sm : ℕ} [NeZero sm]
    {sinfo : RangeInfo n} (hs : RangeInfo.new sm n 18 6 = .ok sinfo)
    (points : List (AssignedPoint n)) (scalars : List (AssignedInteger n)) (Ps : List (Pt b)) (xs : List (ZMod sm))
    (hP : List.Forall₂ (HPRep info) points Ps) (hx : List.Forall₂ (HRep sm sinfo) scalars xs)
    (hlen : points.length = scalars.length) (hne : points ≠ [])
    (gen r1 r2 : ℕ × ℕ) (Gn A L : Pt b) (hG : ConstCoords (some gen) Gn) (hA : ConstCoords (some r1) A)
    (hL : ConstCoords (some r2) L) (msm_prefix : Option ℕ)
    (hpre : ∀ pre, msm_prefix = some pre → 256 ≤ n ∧ pre < MSM_LIMIT ∧ points.length ≤ MSM_PREFIX_OFFSET)
    (hpos : GeneralPosition (108 * sinfo.limbs) (groupSize (if msm_prefix.isSome then 5 else 2) Ps.length)
      (cleanScalars Ps (xs.map ZMod.val)) (cleanPoints Gn Ps) A L) :
    Complete (msm info bb (generalScalar sinfo) gen (some r1) (some r2) msm_prefix points scalars)
      (fun w => (∀ p ∈ points, OkP w p) ∧ ∀ s ∈ scalars, OkI w s)
      (fun r => HPRep info r.1 (msmSum xs Ps) ∧ r.2 = msm_prefix.map (· + MSM_PREFIX_OFFSET))
      (fun w r => OkP w r.1) := by
  intro c w
  rcases hG with ⟨e, -⟩ | ⟨gx, gy, e, hgx, hgy, hG⟩ <;> cases e
  rcases hA with ⟨e, -⟩ | ⟨ax, ay, e, hax, hay, hA⟩ <;> cases e
  rcases hL with ⟨e, -⟩ | ⟨lx, ly, e, hlx, hly, hL⟩ <;> cases e
  have := C_msm (c := c) (h := w) (H := (∀ p ∈ points, OkP w p) ∧ ∀ s ∈ scalars, OkI w s) h hd hb
    (generalScalar_complete (NeZero.one_le) hs) hbb hbe hP (ks := xs.map ZMod.val)
    (by
      rw [List.forall₂_map_right_iff]
      refine hx.imp fun s x hsx => ?_
      rw [ZMod.natCast_zmod_val]
      exact ⟨hsx, ZMod.val_lt x⟩) hlen hne hgx hgy hax hay hlx hly hG hA hL hpre hpos id
  rw [← zipWith_val]
  exact this

/-- C49: for any points and scalars, all but a few random points `L` are such that all but a few random points `A` are
good. `A` is taken from a subgroup without elements of order two and three, such as the elements of order dividing `r`
for a prime `r > 3`. The bounds do not depend on the points and scalars. -/
theorem C49_random_points {G : Type} [AddCommGroup G] (T : AddSubgroup G) (h2 : ∀ P ∈ T, P + P = 0 → P = 0)
    (h3 : ∀ P ∈ T, P + P + P = 0 → P = 0) (W size : ℕ) (hs : 1 ≤ size) (ks : List ℕ) (Ps : List G) :
    AtMost (groupCount size Ps.length * (2 * 2 ^ size)) fun L =>
      ¬ AtMost (W * (2 * groupCount size Ps.length + 5)) fun A => A ∈ T ∧ ¬ GeneralPosition W size ks Ps A L :=
  atMost_position hs ks Ps h2 h3

theorem bn_no_small (P : Pt (3 : ZMod bnQ)) : (P + P = 0 → P = 0) ∧ (P + P + P = 0 → P = 0) := by
  have ho := bn_order P
  have key : ∀ k : ℕ, Nat.Coprime bnR k → k • P = 0 → P = 0 := by
    intro k hk h0
    have h1 : addOrderOf P ∣ Nat.gcd bnR k := Nat.dvd_gcd (addOrderOf_dvd_of_nsmul_eq_zero ho)
      (addOrderOf_dvd_of_nsmul_eq_zero h0)
    rw [hk] at h1
    exact AddMonoid.addOrderOf_eq_one_iff.1 (Nat.dvd_one.1 h1)
  refine ⟨fun e => key 2 (by decide +kernel) (by rw [two_nsmul]; exact e), fun e => key 3 (by decide +kernel) ?_⟩
  rw [succ_nsmul, two_nsmul]; exact e

theorem constCoords_of_ne {q : ℕ} [Fact q.Prime] {b : ZMod q} (P : Pt b) (hP : P ≠ 0) : ∃ r : ℕ × ℕ, ConstCoords (some r) P := by
  rcases P with _ | ⟨x, y, hxy⟩
  · exact (hP rfl).elim
  · refine ⟨(x.val, y.val), .inr ⟨_, _, rfl, ZMod.val_lt x, ZMod.val_lt y, ?_⟩⟩
    rw [ZMod.natCast_zmod_val, ZMod.natCast_zmod_val]
    exact ⟨hxy, rfl⟩

/-- A whole circuit: assign points and scalars, then multiply. -/
def msmProgram (info : RangeInfo n) (bb num_bits : ℕ) (gen r1 r2 : ℕ × ℕ) (msm_prefix : Option ℕ)
    (coords : List (Option (ℕ × ℕ))) (xs : List (ZMod n)) : M n (AssignedPoint n × Option ℕ) := do
  let points ← coords.mapM (assign_point info bb)
  let scalars ← xs.mapM assign
  msm info bb (nativeScalar num_bits) gen (some r1) (some r2) msm_prefix points scalars

/-- C49 for bn256: for all points of the curve (the identity and repetitions included) and all scalars, as many of the
one as of the other and at least one, all but at most `64 * N` random points `L` are such that with all but at most
`254 * (2 * N + 5)` random points `A` the circuit that assigns points and scalars and multiplies is accepted with the
right result, with and without the select chip. The curve has more than `2 ^ 253` points. -/
theorem C49_bn256_random {info : RangeInfo bnR} (h : RangeInfo.new bnQ bnR 18 6 = .ok info) (msm_prefix : Option ℕ)
    (coords : List (Option (ℕ × ℕ))) (Ps : List (Pt (3 : ZMod bnQ)))
    (hP : List.Forall₂ ConstCoords coords Ps) (xs : List (ZMod bnR)) (hlen : Ps.length = xs.length) (hne : xs ≠ [])
    (hpre : ∀ pre, msm_prefix = some pre → pre < MSM_LIMIT ∧ Ps.length ≤ MSM_PREFIX_OFFSET) :
    AtMost (64 * Ps.length) fun L : Pt (3 : ZMod bnQ) => ¬ AtMost (254 * (2 * Ps.length + 5)) fun A : Pt (3 : ZMod bnQ) =>
      ∃ r1 r2, ConstCoords (some r1) A ∧ ConstCoords (some r2) L ∧
        ¬ Accepted (msmProgram info 3 254 (1, 2) r1 r2 msm_prefix coords xs) (fun r => HPRep info r.1 (msmSum xs Ps)) := by
  have hd : info.d_bits % 108 ≠ 0 := by
    obtain ⟨info', hs⟩ := Setup.of_summary summary_bnQ
    obtain rfl : info' = info := by have := hs.new.symm.trans h; injection this
    have := hs.summary
    simp only [List.cons.injEq] at this
    omega
  obtain ⟨Gn, hG⟩ := bn_generator
  have hG : ConstCoords (some (1, 2)) Gn := .inr ⟨1, 2, rfl, by decide +kernel, by decide +kernel, hG⟩
  have hcl : (cleanPoints Gn Ps).length = Ps.length := by simp [cleanPoints]
  have hN : 1 ≤ Ps.length := by rw [hlen]; exact List.length_pos_iff.2 hne
  have hbest : 1 ≤ (if msm_prefix.isSome then 5 else 2) ∧ (if msm_prefix.isSome then 5 else 2) ≤ 5 := by split <;> omega
  obtain ⟨hs1, hs2⟩ := groupSize_le hbest.1 hN
  have hg := groupCount_le hs2 hN
  have hp : 2 ^ groupSize (if msm_prefix.isSome then 5 else 2) Ps.length ≤ 2 ^ 5 :=
    Nat.pow_le_pow_right (by norm_num) (hs1.trans hbest.2)
  have hr := C49_random_points (⊤ : AddSubgroup (Pt (3 : ZMod bnQ))) (fun P _ => (bn_no_small P).1)
    (fun P _ => (bn_no_small P).2) 254 _ hs2 (cleanScalars Ps (xs.map ZMod.val)) (cleanPoints Gn Ps)
  rw [hcl] at hr
  refine hr.mono ?_ fun L hL hc => hL (hc.mono ?_ ?_)
  · rw [Nat.mul_comm 64]
    exact Nat.mul_le_mul hg (by omega)
  · exact Nat.mul_le_mul_left _ (by omega)
  rintro A ⟨r1, r2, hr1, hr2, hacc⟩
  refine ⟨trivial, fun hpos => hacc (Accepted.of_C (Q := fun w r => OkP w r.1) fun c w => ?_)⟩
  unfold msmProgram
  refine C.bind (C.mapM₂ (P := fun P p => HPRep info p P) (Q := OkP w) hP fun _ cc P _ hc =>
      (C_assign_point h hd (by decide +kernel) (by norm_num) hc).mono (fun _ hr => hr.1) fun _ _ _ q => q)
    fun points hpts => C.bind (C.mapM₂ (P := fun x s => s.val = x) (Q := Ok w) (R := Eq) (l := xs) (l' := xs)
      (List.forall₂_same.2 fun _ _ => rfl) fun _ x _ _ e => e ▸ C_assign) fun scalars hsc => ?_
  have hx : xs = scalars.map AssignedValue.val := by
    have := List.forall₂_map_left_iff.2 hsc
    exact (List.forall₂_eq_eq_eq ▸ this : scalars.map AssignedValue.val = xs).symm
  have hl1 : points.length = Ps.length := hpts.length_eq
  subst hx
  have hsl : Ps.length = scalars.length := by rw [hlen, List.length_map]
  refine ((C49_native_complete h hd good_bn 3 (by decide +kernel) (by norm_num) 254 (by decide +kernel) points scalars Ps hpts
    (hl1.trans hsl) (by intro e; rw [e] at hl1; simp at hl1; omega) (1, 2) r1 r2 Gn A L hG hr1 hr2 msm_prefix
    (fun pre e => ⟨by decide +kernel, (hpre pre e).1, hl1 ▸ (hpre pre e).2⟩) (by rw [List.map_map] at hpos; exact hpos) c w).weaken
    fun hH => ⟨hH.1.2, hH.2⟩).mono (fun _ hr => hr.1) fun _ _ _ q => q

/-- C49 for bn256: there are random points with which the circuit is accepted. -/
theorem C49_bn256_accepted {info : RangeInfo bnR} (h : RangeInfo.new bnQ bnR 18 6 = .ok info) (msm_prefix : Option ℕ)
    (coords : List (Option (ℕ × ℕ))) (Ps : List (Pt (3 : ZMod bnQ)))
    (hP : List.Forall₂ ConstCoords coords Ps) (xs : List (ZMod bnR)) (hlen : Ps.length = xs.length) (hne : xs ≠ [])
    (hmax : Ps.length ≤ 2 ^ 240)
    (hpre : ∀ pre, msm_prefix = some pre → pre < MSM_LIMIT ∧ Ps.length ≤ MSM_PREFIX_OFFSET) :
    ∃ r1 r2, Accepted (msmProgram info 3 254 (1, 2) r1 r2 msm_prefix coords xs) (fun r =>
      HPRep info r.1 (msmSum xs Ps)) := by
  have : Finite (Pt (3 : ZMod bnQ)) := Nat.finite_of_card_ne_zero (by rw [bn_card]; decide +kernel)
  have hcard : 2 ^ 253 < Nat.card (Pt (3 : ZMod bnQ)) := by rw [bn_card]; decide +kernel
  have h0 : AtMost 1 fun P : Pt (3 : ZMod bnQ) => P = 0 := AtMost.one fun A B hA hB => hA.trans hB.symm
  obtain ⟨L, hL⟩ := ((C49_bn256_random h msm_prefix coords Ps hP xs hlen hne hpre).or h0).exists_not (by omega)
  rw [not_or, not_not] at hL
  obtain ⟨A, hA⟩ := (hL.1.or h0).exists_not (by omega)
  rw [not_or] at hA
  obtain ⟨r1, hr1⟩ := constCoords_of_ne A hA.2
  obtain ⟨r2, hr2⟩ := constCoords_of_ne L hL.2
  by_contra hc
  exact hA.1 ⟨r1, r2, hr1, hr2, fun ha => hc ⟨r1, r2, ha⟩⟩

end Verif
