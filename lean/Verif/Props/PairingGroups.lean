import Verif.Proof.OffTwist
import Verif.Proof.CurveCard
import Verif.Props.TowerProg
import Verif.Props.Msm

/-!
# C72: the points in a pairing check
-/

namespace Verif
variable {n : ℕ} {crv : PairingCurve} {info : RangeInfo n}

/-- The pairing for bls12_381 of a point with abscissa 0 and a point of the second group is 1. -/
theorem ate_zero {g : Fq2 (pairQ .bls12_381) × Fq2 (pairQ .bls12_381)} (hg : InG2 .bls12_381 (untwist .bls12_381 g))
    {y : ZMod (pairQ .bls12_381)} (hy : y ≠ 0) : ate .bls12_381 (untwist .bls12_381 g) (embQ 0, embQ y) = 1 := by
  let vs : List (PairV bnR (pairQ .bls12_381)) := [⟨0, 0, y, 0, g.1, g.2⟩]
  have hin : InputsOk vs := fun v hv => by rw [List.mem_singleton.1 hv]; exact hg
  have hp : pairProd vs = ate .bls12_381 (untwist .bls12_381 g) (embQ 0, embQ y) := by
    simp only [vs, pairProd, List.map_cons, List.map_nil, List.prod_cons, List.prod_nil, _root_.mul_one]
  have h0 : pairProd vs ≠ 0 := by
    rw [hp]
    exact left_ne_zero_of_mul_eq_one (ate_neg (aat_untwist hg.ne_zero) hg 0 y hy)
  rw [← hp, ← millerOf_prod hin]
  refine Quartic.final (quartic_miller fun v hv => ?_) ((millerOf_ne_zero hin).2 h0)
  obtain ⟨u, hu, rfl⟩ := List.mem_map.1 hv
  rw [List.mem_singleton.1 hu]
  rfl

/-- Assign the point `P`, and the constant `g` as a second point (its flag is that of `P`, i.e. false), and check that their
pairing is 1. -/
noncomputable def singleCheck {crv : PairingCurve} (P : Pt (pairBq crv)) (g : Fq2 (pairQ crv) × Fq2 (pairQ crv)) :
    List (TInstr crv) :=
  [.pt (.assignA P), .pt (.downgrade 0), .pt (.isIdentity 0), .op (.const .f2 g.1) (), .op (.const .f2 g.2) (), .g2 0 1 0,
    .checkPairing [(0, 0)]]

/-- C72 is violated for bls12_381: there is a point `P` of the curve, accepted by `assign_non_zero_point`, that is not of
order `r`, it has order 3, such that for every point `g` of the second group `check_pairing` accepts the single pair
`(P, g)`. -/
theorem C72_violated : ∃ (info : RangeInfo bnR) (P : Pt (pairBq .bls12_381)), Env blsQ info ∧ HasCoords P 0 2 ∧
    P + P + P = 0 ∧ blsR • P ≠ 0 ∧ ∀ g, InG2 .bls12_381 (untwist .bls12_381 g) →
      Accepted (texecAll info blsR (singleCheck P g) (TSt.empty bnR)) (fun _ => True) := by
  obtain ⟨info, E⟩ := env_bls12_381
  obtain ⟨P, hP⟩ := HasCoords.of_eqn (good_pair .bls12_381) (x := 0) (y := 2) (by decide +kernel)
  have h3 : P + P + P = 0 := by
    have h := hP.double (good_pair .bls12_381) (l := 0) (by decide +kernel) (by ring)
    have e1 : (0 : ZMod (pairQ .bls12_381)) ^ 2 - 0 - 0 = 0 := by ring
    have e2 : ((0 : ZMod (pairQ .bls12_381)) - 0) * 0 - 2 = -2 := by ring
    rw [e1, e2] at h
    rw [h.inj hP.neg, neg_add_cancel]
  refine ⟨info, P, E, hP, h3, ?_, fun g hg => ?_⟩
  · intro h
    have e : blsR = 3 * (blsR / 3) + 1 := by decide +kernel
    have h3' : (3 : ℕ) • P = 0 := by rw [← h3]; abel
    rw [e, add_smul, mul_comm, mul_smul, h3', nsmul_zero, zero_add, one_smul] at h
    exact hP.ne_zero h
  · have hone : ateProd [(((0 : ZMod (pairQ .bls12_381)), (2 : ZMod (pairQ .bls12_381))), g)] = 1 := by
      have := ate_zero hg (y := 2) (by decide +kernel)
      rw [ateProd]; simpa using this
    have hid : ∀ {s : PRef (pairBq .bls12_381)}, s.pts[0]? = some P → (PInstr.isIdentity 0).eval s = some (s.pushC false) := by
      intro s h
      rw [PInstr.eval, h]
      show some (s.pushC (decide (P = 0))) = _
      rw [decide_eq_false hP.ne_zero]
    have hev : ∃ r, tevalAll (singleCheck P g) (TRef.empty .bls12_381) = some r :=
      ⟨_, tev_cons (tev_pt (pev_assignA hP.ne_zero)) <| tev_cons (tev_pt rfl) <| tev_cons (tev_pt (hid rfl)) <|
        tev_cons (tev_op rfl _ fun _ => Iff.rfl) <| tev_cons (tev_op rfl _ fun _ => Iff.rfl) <| tev_cons rfl <|
        tev_cons (tev_check (us := [((0, 2), g)]) (inputs_cons (q := g) rfl (Pt.xy_iff.2 hP) rfl rfl)
          (fun v hv => by rw [List.mem_singleton.1 hv]; exact hg) hone) rfl⟩
    obtain ⟨r, hr⟩ := hev
    exact Accepted.of_C fun c h => (C56_program_complete (crv := .bls12_381) E blsR (by decide +kernel) _ r hr c h).mono
      (fun _ _ => trivial) fun _ _ _ h => h

/-! ## The second points -/

/-- Assign the point `P`, negate it, assign the constant `g` as a second point, and check that the product of the pairings
of `P` and `-P` with `g` is 1. -/
noncomputable def bothCheck {crv : PairingCurve} (P : Pt (pairBq crv)) (g : Fq2 (pairQ crv) × Fq2 (pairQ crv)) :
    List (TInstr crv) :=
  [.pt (.assignA P), .pt (.downgrade 0), .pt (.neg 0), .pt (.isIdentity 0), .op (.const .f2 g.1) (), .op (.const .f2 g.2) (),
    .g2 0 1 0] ++ [.checkPairing [(0, 0), (1, 0)]]

theorem texecAll_append (order : ℕ) (is js : List (TInstr crv)) : ∀ s : TSt n,
    texecAll info order (is ++ js) s = texecAll info order is s >>= texecAll info order js := by
  induction is with
  | nil => intro s; rw [List.nil_append, texecAll, pure_bind]
  | cons i is ih =>
    intro s
    rw [List.cons_append, texecAll, texecAll, bind_assoc]
    congr 1
    funext t
    exact ih t

/-- `(1, 1)` is not a point of the twist. -/
theorem one_off_twist (crv : PairingCurve) :
    ¬ (pairE crv).Equation (emb12 (onePt (pairQ crv)).1 * untwistU crv ^ 2) (emb12 (onePt (pairQ crv)).2 * untwistU crv ^ 3) := by
  rw [WeierstrassCurve.Affine.equation_iff]
  have e1 : emb12 (onePt (pairQ crv)).1 = (1 : Fq12 (pairQ crv) crv) := map_one (embHom (pairQ crv) crv)
  have e2 : emb12 (onePt (pairQ crv)).2 = (1 : Fq12 (pairQ crv) crv) := map_one (embHom (pairQ crv) crv)
  rw [e1, e2]
  simp only [pairE, curveOver]
  intro h
  have hb : (pairB crv : Fq12 (pairQ crv) crv) = 0 := by linear_combination -h
  rw [CharP.cast_eq_zero_iff (Fq12 (pairQ crv) crv) (pairQ crv)] at hb
  revert hb
  cases crv <;> decide +kernel

/-- C72 is violated for the second points, for both curves: there is a pair `g` of elements of `Fq2` that is not a point of
the twist, let alone of the second group, such that for every point `P` of the curve but the identity the check of the pairs
`(P, g)` and `(-P, g)` is accepted. -/
theorem C72_violated_second (crv : PairingCurve) : ∃ g : Fq2 (pairQ crv) × Fq2 (pairQ crv),
    ¬ (pairE crv).Equation (emb12 g.1 * untwistU crv ^ 2) (emb12 g.2 * untwistU crv ^ 3) ∧ ¬ InG2 crv (untwist crv g) ∧
    ∀ {n : ℕ} {info : RangeInfo n}, Env (pairQ crv) info → ∀ order, order % 2 = 1 → ∀ P : Pt (pairBq crv), P ≠ 0 →
      Accepted (texecAll info order (bothCheck P g) (TSt.empty n)) (fun _ => True) := by
  refine ⟨onePt (pairQ crv), one_off_twist crv, fun h => h.ne_zero ?_, fun {n info} E order ho P hne => ?_⟩
  · unfold untwist
    rw [dif_neg fun h => one_off_twist crv h.1]
  generalize hg : onePt (pairQ crv) = g
  obtain ⟨x, y, hP⟩ : ∃ x y, HasCoords P x y := by
    cases P with
    | zero => exact absurd rfl hne
    | some x y h => exact ⟨x, y, h, rfl⟩
  have h1 : P.xy = some (x, y) := Pt.xy_iff.2 hP
  have h2 : (-P).xy = some (x, -y) := Pt.xy_iff.2 hP.neg
  have hy : y ≠ 0 := fun h0 => no_two_torsion crv x (by rw [← hP.eqn, h0]; ring)
  have hid : ∀ {s : PRef (pairBq crv)}, s.pts[0]? = some P → (PInstr.isIdentity 0).eval s = some (s.pushC false) := by
    intro s h
    rw [PInstr.eval, h]
    show some (s.pushC (decide (P = 0))) = _
    rw [decide_eq_false hne]
  obtain ⟨r, hr, hu⟩ : ∃ r, tevalAll [.pt (.assignA P), .pt (.downgrade 0), .pt (.neg 0), .pt (.isIdentity 0), .op (.const .f2 g.1) (),
      .op (.const .f2 g.2) (), .g2 0 1 0] (TRef.empty crv) = some r ∧
        r.inputs [(0, 0), (1, 0)] = some [((x, y), g), ((x, -y), g)] :=
    ⟨_, tev_cons (tev_pt (pev_assignA hne)) <| tev_cons (tev_pt rfl) <| tev_cons (tev_pt rfl) <|
      tev_cons (tev_pt (hid rfl)) <| tev_cons (tev_op rfl _ fun _ => Iff.rfl) <| tev_cons (tev_op rfl _ fun _ => Iff.rfl) <|
      tev_cons rfl rfl, inputs_cons (q := g) rfl h1 rfl <| inputs_cons (q := g) rfl h2 rfl rfl⟩
  have hm : millerOf crv ([((x, y), g), ((x, -y), g)].map (toV n)) ^ finalExponent crv = 1 := by
    subst hg
    exact (real_miller (P := (x, y)) hy (lines_one crv)).final
  refine Accepted.of_C (Q := fun _ _ => True) fun c h => ?_
  rw [bothCheck, texecAll_append]
  refine C.bind (C56_program_complete E order ho _ r hr c h) fun s hs => ?_
  obtain ⟨as, k1, k2, -⟩ := found_hrep hs hu
  show C c h _ (TInstr.exec info order (.checkPairing [(0, 0), (1, 0)]) s >>= fun s => pure s) _ _
  rw [bind_pure]
  unfold TInstr.exec
  exact C.bind_inputs k1 <| C.bind (((check_pairing_realises E).complete as _ k2 ⟨(), ⟨noFlags_toV _, hm⟩, rfl⟩ c h).weaken
    fun hH => found_ok hH.2 k1) fun _ _ => C.pure trivial fun _ => trivial

/-! ## What does hold -/

/-- C72, the first points are not the identity: whatever points of the curve the first points of an accepted pairing check
represent. Missing: that they have order `r`, which `C72_violated` refutes for bls12_381, and that the second points lie in
the second group, which `C72_violated_second` refutes. -/
theorem C72_nonzero_partial (E : Env (pairQ crv) info) (ts : List (AssignedPoint n × AssignedG2Affine n)) :
    Sound (check_pairing info crv ts) (fun w _ => ∀ vs Ps, (encPair (pairQ crv) info).list.rep w ts vs →
      List.Forall₂ (fun t (P : Pt (pairBq crv)) => PRep info w t.1 P) ts Ps → ∀ P ∈ Ps, P ≠ 0) := by
  intro c w hw
  refine ((check_pairing_realises E).sound ts c w hw).mono fun _ h vs Ps hv hP => ?_
  obtain ⟨_, ⟨⟨hf, -⟩, -⟩, -⟩ := h vs hv
  clear h
  induction hv generalizing Ps with
  | nil => cases hP; simp
  | @cons t v ts vs h1 h2 ih =>
    cases hP with
    | cons k1 k2 =>
      rintro P (_ | ⟨_, hP⟩)
      · obtain ⟨x, y, -, -, ⟨hz, -⟩ | ⟨-, hc⟩⟩ := k1
        · have e : w t.1.z.cell = 0 := h1.1.1.trans (hf v List.mem_cons_self).1
          have : Fact n.Prime := ⟨E.prime_n⟩
          exact absurd (hz.symm.trans e) one_ne_zero
        · exact hc.ne_zero
      · exact ih _ k2 (fun v hv => hf v (List.mem_cons_of_mem _ hv)) P hP

/-- C72 for the first points of bn256: they are of order `r` exactly. Missing: the second points, see
`C72_violated_second`. -/
theorem C72_bn256_partial {info : RangeInfo n} (E : Env (pairQ .bn256) info) (ts : List (AssignedPoint n × AssignedG2Affine n)) :
    Sound (check_pairing info .bn256 ts) (fun w _ => ∀ vs Ps, (encPair (pairQ .bn256) info).list.rep w ts vs →
      List.Forall₂ (fun t (P : Pt (pairBq .bn256)) => PRep info w t.1 P) ts Ps → ∀ P ∈ Ps, addOrderOf P = bnR) := by
  intro c w hw
  refine (C72_nonzero_partial E ts c w hw).mono fun _ h vs Ps hv hP P hm => ?_
  have e : pairBq .bn256 = (3 : ZMod bnQ) := by show ((3 : ℕ) : ZMod bnQ) = 3; norm_num
  have ho := bn_order
  rw [← e] at ho
  have : Fact bnR.Prime := ⟨bnR_prime⟩
  exact addOrderOf_eq_prime (ho P) (h vs Ps hv hP P hm)

end Verif
