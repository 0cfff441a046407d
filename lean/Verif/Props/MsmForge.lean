import Verif.Proof.MsmForge
import Verif.Props.MsmComplete
import Verif.Props.ScalarForge

/-!
# C28 and C29 fail: forged multiplications

Without the select chip a dishonest prover replaces the lowest digit of an odd scalar by `-1` (C26 fails, see ScalarForge) and picks the random
point `L` such that the selection between `L` and `L + P` with that digit yields a third point of the curve (`C28_violated`).

With the select chip the digits of a group of points are only used in a linear combination, the index in the table. The
prover replaces the lowest digit of the first scalar by `2`, which selects the second point (`C29_violated`).
-/

namespace Verif
variable {n wm : ℕ} {info : RangeInfo n} {b : ZMod wm}

/-- A point with the cells of an honestly recorded one stands for the recorded point. -/
theorem HPRep.rep_of_shape {p p' : AssignedPoint n} (hs : sh True p p') {w : Advice n} (hok : OkP w p') {P : Pt b}
    (h : HPRep info p' P) : PRep info w p P := by
  obtain ⟨⟨x, y, hx, hy, hz⟩, -⟩ := h
  have e : w p.z.cell = p'.z.val := by rw [hs.z trivial]; exact hok.z
  exact ⟨x, y, hx.rep_of_shape hs.x hok.x, hy.rep_of_shape hs.y hok.y, by rwa [e]⟩

/-- A circuit that assigns a point and a scalar and multiplies. -/
def mulDemo (info : RangeInfo n) (bb num_bits : ℕ) (gen r1 r2 : ℕ × ℕ) (pre : Option ℕ) (coords : Option (ℕ × ℕ)) (x : ZMod n) :
    M n (AssignedPoint n × AssignedValue n × AssignedPoint n) := do
  let p ← assign_point info bb coords
  let s ← assign x
  let r ← ecc_mul info bb (nativeScalar num_bits) gen (some r1) (some r2) pre p s
  pure (p, s, r.1)

/-! The points `L`, `M`, `T` on bn256. -/

def forgeL : ℕ × ℕ := (19899771749480025447541838857181098485461362091773787020376544323411544545767,
  4543429368908571126236947685932050576840707837316296821186602420493198791632)
def forgeM : ℕ × ℕ := (18546819496815090501900925235053388931223278451116052888235601741465109746137,
  663096046829834673977998716970183908916439871149869016755287356028298855185)
def forgeT : ℕ × ℕ := (21252724002144960393182752479308808039699445732431521152517486905357979345397,
  8423762690987307578495896654893917244764975803482724625617917484958098728079)

def forgeP : ℕ × ℕ := (5749995860502961576068490558100976340928644012838367297104775559537880622820,
  2257780631350407975552701476469263146165354520589306031512202367358899287622)

theorem bn_point {x y : ℕ} (h : (y ^ 2) % bnQ = (x ^ 3 + 3) % bnQ) : ∃ P : Pt (3 : ZMod bnQ), HasCoords P (x : ZMod bnQ) (y : ZMod bnQ) := by
  refine HasCoords.of_eqn good_bn ?_
  have := (ZMod.natCast_eq_natCast_iff' _ _ bnQ).2 h
  push_cast at this
  exact this

/-- Chord through two points, in numbers: `l` is the slope. -/
theorem bn_line {P Q T : Pt (3 : ZMod bnQ)} {x₁ y₁ x₂ y₂ x₃ y₃ l : ℕ} (hP : HasCoords P (x₁ : ZMod bnQ) (y₁ : ZMod bnQ))
    (hQ : HasCoords Q (x₂ : ZMod bnQ) (y₂ : ZMod bnQ)) (hT : HasCoords T (x₃ : ZMod bnQ) (y₃ : ZMod bnQ))
    (hx : x₁ % bnQ ≠ x₂ % bnQ) (hl : (l * x₁ + y₂) % bnQ = (l * x₂ + y₁) % bnQ)
    (h1 : (l * l) % bnQ = (x₁ + x₂ + x₃) % bnQ) (h2 : (l * x₁ + y₃) % bnQ = (l * x₃ + y₁) % bnQ) : P + Q + T = 0 := by
  have e0 : (x₁ : ZMod bnQ) ≠ x₂ := fun e => hx ((ZMod.natCast_eq_natCast_iff' _ _ bnQ).1 e)
  have e1 := (ZMod.natCast_eq_natCast_iff' _ _ bnQ).2 hl
  have e2 := (ZMod.natCast_eq_natCast_iff' _ _ bnQ).2 h1
  have e3 := (ZMod.natCast_eq_natCast_iff' _ _ bnQ).2 h2
  push_cast at e1 e2 e3
  have hs : (l : ZMod bnQ) = ((y₁ : ZMod bnQ) - y₂) / (x₁ - x₂) := by
    rw [eq_div_iff (sub_ne_zero.2 e0)]
    linear_combination e1
  have hx3 : (l : ZMod bnQ) ^ 2 - x₁ - x₂ = x₃ := by linear_combination e2
  have := hP.add hQ e0 hs
  rw [hx3] at this
  have hy : ((x₁ : ZMod bnQ) - x₃) * l - y₁ = -y₃ := by linear_combination e3
  rw [hy] at this
  rw [this.inj hT.neg]
  exact neg_add_cancel T

theorem forge_points : ∃ P L T : Pt (3 : ZMod bnQ), HasCoords P (forgeP.1 : ZMod bnQ) (forgeP.2 : ZMod bnQ) ∧
    HasCoords L (forgeL.1 : ZMod bnQ) (forgeL.2 : ZMod bnQ) ∧
    HasCoords (L + P) (forgeM.1 : ZMod bnQ) (forgeM.2 : ZMod bnQ) ∧
    HasCoords T (forgeT.1 : ZMod bnQ) (forgeT.2 : ZMod bnQ) ∧ L + (L + P) + T = 0 ∧ Addable L P := by
  obtain ⟨P, hP⟩ := bn_point (x := forgeP.1) (y := forgeP.2) (by decide +kernel)
  obtain ⟨L, hL⟩ := bn_point (x := forgeL.1) (y := forgeL.2) (by decide +kernel)
  obtain ⟨M', hM'⟩ := bn_point (x := forgeM.1) (y := bnQ - forgeM.2) (by decide +kernel)
  obtain ⟨T, hT⟩ := bn_point (x := forgeT.1) (y := forgeT.2) (by decide +kernel)
  have hM : L + P = -M' := by
    have := bn_line (l := 3621332623787655582908332825265909491013909368956993039890518683832521754660) hL hP hM'
      (by decide +kernel) (by decide +kernel) (by decide +kernel) (by decide +kernel)
    exact eq_neg_of_add_eq_zero_left this
  have hM2 : HasCoords (L + P) (forgeM.1 : ZMod bnQ) (forgeM.2 : ZMod bnQ) := by
    have := hM'.neg
    rw [Nat.cast_sub (by decide +kernel), ZMod.natCast_self, zero_sub, neg_neg] at this
    rw [hM]; exact this
  refine ⟨P, L, T, hP, hL, hM2, hT, bn_line
    (l := 1316461072166841585445969407799009300261069349468916716110003176875817594416) hL hM2 hT (by decide +kernel)
    (by decide +kernel) (by decide +kernel) (by decide +kernel), ?_, ?_⟩
  · rintro rfl
    exact absurd ((ZMod.natCast_eq_natCast_iff' _ _ bnQ).1 (hL.unique hP).1) (by decide +kernel)
  · intro e
    rw [e, neg_add_cancel] at hM2
    exact hM2.ne_zero rfl

theorem limbLine_of {a b t : ℕ} (h : ∀ i ∈ List.range 3,
    2 * RangeInfo.limbOf 108 i b = RangeInfo.limbOf 108 i a + RangeInfo.limbOf 108 i t) : LimbLine 3 a b t :=
  fun i hi => h i (List.mem_range.2 hi)

/-- The multiplication of one point is accepted with some random points. -/
theorem mulDemo_runs {info : RangeInfo bnR} (h : RangeInfo.new bnQ bnR 18 6 = .ok info) {pre : Option ℕ}
    (hpre : ∀ p, pre = some p → p < MSM_LIMIT) {coords : Option (ℕ × ℕ)} {P : Pt (3 : ZMod bnQ)}
    (hP : ConstCoords coords P) (x : ZMod bnR) : ∃ r1 r2 a t, mulDemo info 3 254 (1, 2) r1 r2 pre coords x (.new bnR) = .ok (a, t) := by
  obtain ⟨r1, r2, a, t, hrun, -⟩ := C49_bn256_accepted h pre [coords] [P] (.cons hP .nil) [x] rfl (by simp) (by norm_num)
    fun p e => ⟨hpre p e, by simp [MSM_PREFIX_OFFSET]⟩
  unfold msmProgram at hrun
  rw [List.mapM_cons, List.mapM_nil, List.mapM_cons, List.mapM_nil] at hrun
  simp only [bind_assoc, pure_bind] at hrun
  obtain ⟨p, u, h1, hrun⟩ := run_bind_ok.1 hrun
  obtain ⟨s, v, h2, hrun⟩ := run_bind_ok.1 hrun
  refine ⟨r1, r2, (p, s, a.1), t, ?_⟩
  unfold mulDemo
  exact run_bind_ok.2 ⟨_, _, h1, run_bind_ok.2 ⟨_, _, h2, run_bind_ok.2 ⟨a, _, hrun, rfl⟩⟩⟩

/-- **C28 fails.** On bn256 there is a point `P` such that for every odd scalar `x` the circuit that multiplies `P` by `x`
has a satisfying assignment with the same point and scalar and another result. The random points `r1`, `r2` of the
honest run matter only in that it succeeds; the circuit does not depend on them (C34). -/
theorem C28_violated {info : RangeInfo bnR} (h : RangeInfo.new bnQ bnR 18 6 = .ok info) :
    ∃ P : Pt (3 : ZMod bnQ), ConstCoords (some forgeP) P ∧ ∀ x : ZMod bnR, x.val % 2 = 1 →
      (∃ r1 r2 a t, mulDemo info 3 254 (1, 2) r1 r2 none (some forgeP) x (.new bnR) = .ok (a, t)) ∧
      ∀ r1 r2 p s r t, mulDemo info 3 254 (1, 2) r1 r2 none (some forgeP) x (.new bnR) = .ok ((p, s, r), t) →
        ∃ (w : Advice bnR) (Q : Pt (3 : ZMod bnQ)), Q ≠ x.val • P ∧ ∀ usable, t.Fits usable →
          (t.circuit usable).Sat w ∧ PRep info w p P ∧ w s.cell = x ∧ PRep info w r Q := by
  have hd : info.d_bits % 108 ≠ 0 ∧ info.limbs = 3 := by
    obtain ⟨info', hs⟩ := Setup.of_summary summary_bnQ
    obtain rfl : info' = info := by have := hs.new.symm.trans h; injection this
    have := hs.summary
    simp only [List.cons.injEq] at this
    omega
  obtain ⟨P, L, T, hP, hL, hM, hT, hsum, hadd⟩ := forge_points
  have hcP : ConstCoords (some forgeP) P := .inr ⟨_, _, rfl, by decide +kernel, by decide +kernel, hP⟩
  refine ⟨P, hcP, fun x hx => ⟨mulDemo_runs h (by simp) hcP x, fun r1 r2 p s r t hrun => ?_⟩⟩
  have hcard : 2 ^ 253 < Nat.card (Pt (3 : ZMod bnQ)) := by rw [bn_card]; decide +kernel
  have : Finite (Pt (3 : ZMod bnQ)) := Nat.finite_of_card_ne_zero (by rw [bn_card]; decide +kernel)
  have h0 : AtMost 1 fun P : Pt (3 : ZMod bnQ) => P = 0 := AtMost.one fun A B hA hB => hA.trans hB.symm
  have hlt : x.val + 1 < 2 ^ 254 := lt_of_le_of_lt (ZMod.val_lt x) (by decide +kernel)
  obtain ⟨A, hA⟩ := ((atMost_accPos (fun P : Pt (3 : ZMod bnQ) => (bn_no_small P).1) (fun P => (bn_no_small P).2) 254 L
    (forgedPick 254 [x.val + 1] [P] L (T - L)) (forgedSum 254 [x.val + 1] [P] (T - L))).or h0).exists_not (by omega)
  rw [not_or, not_not] at hA
  obtain ⟨rA, hrA⟩ := constCoords_of_ne A hA.2
  rcases hrA with ⟨e, -⟩ | ⟨ax, ay, e, hax, hay, hcA⟩ <;> cases e
  obtain ⟨Gn, hG⟩ := bn_generator
  have hline : Progression info L (L + P) T forgeL.1 forgeL.2 forgeM.1 forgeM.2 forgeT.1 forgeT.2 := by
    refine ⟨hL, hM, hT, by decide +kernel, ?_, ?_, by decide +kernel, by decide +kernel⟩ <;> rw [hd.2] <;>
      exact limbLine_of (by decide +kernel)
  let g : ZMod bnR → ℕ × ZMod bnR := fun v => (v.val + 1, -1)
  have hf : ForgedMsm 254 g [x] [P] A L (T - L) := by
    refine ⟨by norm_num, by norm_num, by decide +kernel, ?_, rfl, by simp, ?_, ?_, hA.1⟩
    · simpa using hP.ne_zero.symm
    · intro v hv
      obtain rfl : v = x := by simpa using hv
      refine ⟨by show (v.val + 1) % 2 = 0; omega, hlt, ?_⟩
      show v = ((v.val + 1 : ℕ) : ZMod bnR) + -1
      rw [Nat.cast_add, ZMod.natCast_zmod_val]
      simp
    · intro bf P' af S e hS
      rcases bf with _ | ⟨_, bf⟩
      · simp only [List.nil_append, List.cons.injEq] at e
        obtain ⟨rfl, rfl⟩ := e
        rw [List.sublist_nil.1 hS]
        simpa using hadd
      · simp at e
  obtain ⟨⟨p', s', r'⟩, w, hsh, ⟨k1, k2, k3⟩, hw⟩ := forge (m' := do
      let p ← assign_point info 3 (some forgeP)
      let s ← assign x
      let r ← ecc_mul info 3 (forgedScalar 254 g) (1, 2) (some (ax, ay)) (some forgeL) none p s
      pure (p, s, r.1))
    (by
      unfold mulDemo
      exact (rel_assign_point info 3 _ _).bind fun _ _ hp => (rel_assign _ _).bind fun _ _ hs =>
        (rel_ecc_mul info 3 (rel_forgedScalar (by norm_num) g) _ _ _ _ _ _ _ hp hs).bind fun _ _ hr =>
        Runs2.pure (sh_pair hp (sh_pair hs hr.1))) hrun
    (P := fun r => HPRep info r.1 P ∧ r.2.1.val = x ∧ HPRep info r.2.2 ((x.val + 1) • P + (T - L)))
    (Q := fun w r => OkP w r.1 ∧ Ok w r.2.1 ∧ OkP w r.2.2) (by
      intro c h'
      refine C.bind ((C_assign_point h hd.1 (by decide +kernel) (by norm_num) hcP).mono (fun _ hr => hr.1) fun _ _ _ q => q)
        fun p hp => C.bind C_assign fun s hs => ?_
      subst hs
      refine C.bind (C_msm_forged (g := g) (D := T - L) h hd.1 good_bn (by decide +kernel) (by norm_num) (.cons hp .nil)
        (by decide +kernel) (by decide +kernel) hG hax hay (by decide +kernel) (by decide +kernel) hcA hL hf
        ⟨by simp, ?_⟩ fun hH => ⟨by simpa using hH.1.2, by simpa using hH.2⟩) fun r hr =>
        C.pure ⟨hp, rfl, ?_⟩ fun hH => ⟨hH.1.1.2, hH.1.2, hH.2⟩
      · rw [add_sub_cancel]
        exact pickForged_minus h hline
      · simpa [prefixSum, g] using hr)
  refine ⟨w, (x.val + 1) • P + (T - L), fun e => ?_, fun usable hf => ?_⟩
  · rw [succ_nsmul, add_assoc] at e
    have e' : P + (T - L) = 0 := by simpa using e
    have : L + L + L = 0 := by
      have h1 : L + L + L = (L + (L + P) + T) - (P + (T - L)) := by abel
      rw [h1, hsum, e', sub_zero]
    exact hL.ne_zero ((bn_no_small L).2 this)
  · obtain ⟨s1, s2, s3, s4⟩ := hw usable hf
    refine ⟨s1, k1.rep_of_shape hsh.1 s2, ?_, k3.rep_of_shape hsh.2.2 s4⟩
    have := hsh.2.1 trivial
    simp only at this
    rw [this, ← k2]; exact s3

/-- A circuit that assigns two points and two scalars and computes the multi-scalar multiplication. -/
def msmDemo (info : RangeInfo n) (bb num_bits : ℕ) (gen r1 r2 : ℕ × ℕ) (pre : Option ℕ) (c0 c1 : Option (ℕ × ℕ))
    (x0 x1 : ZMod n) : M n (AssignedPoint n × AssignedPoint n × AssignedValue n × AssignedValue n × AssignedPoint n) := do
  let p0 ← assign_point info bb c0
  let p1 ← assign_point info bb c1
  let s0 ← assign x0
  let s1 ← assign x1
  let r ← msm info bb (nativeScalar num_bits) gen (some r1) (some r2) pre [p0, p1] [s0, s1]
  pure (p0, p1, s0, s1, r.1)

theorem msmDemo_runs {info : RangeInfo bnR} (h : RangeInfo.new bnQ bnR 18 6 = .ok info) {pre : Option ℕ}
    (hpre : ∀ p, pre = some p → p < MSM_LIMIT) {c0 c1 : Option (ℕ × ℕ)} {P0 P1 : Pt (3 : ZMod bnQ)}
    (h0 : ConstCoords c0 P0) (h1 : ConstCoords c1 P1) (x0 x1 : ZMod bnR) :
    ∃ r1 r2 a t, msmDemo info 3 254 (1, 2) r1 r2 pre c0 c1 x0 x1 (.new bnR) = .ok (a, t) := by
  obtain ⟨r1, r2, a, t, hrun, -⟩ := C49_bn256_accepted h pre [c0, c1] [P0, P1] (.cons h0 (.cons h1 .nil)) [x0, x1] rfl
    (by simp) (by norm_num) fun p e => ⟨hpre p e, by simp [MSM_PREFIX_OFFSET]⟩
  unfold msmProgram at hrun
  simp only [List.mapM_cons, List.mapM_nil, bind_assoc, pure_bind] at hrun
  obtain ⟨p0, u0, e0, hrun⟩ := run_bind_ok.1 hrun
  obtain ⟨p1, u1, e1, hrun⟩ := run_bind_ok.1 hrun
  obtain ⟨s0, v0, e2, hrun⟩ := run_bind_ok.1 hrun
  obtain ⟨s1, v1, e3, hrun⟩ := run_bind_ok.1 hrun
  refine ⟨r1, r2, (p0, p1, s0, s1, a.1), t, ?_⟩
  unfold msmDemo
  exact run_bind_ok.2 ⟨_, _, e0, run_bind_ok.2 ⟨_, _, e1, run_bind_ok.2 ⟨_, _, e2, run_bind_ok.2 ⟨_, _, e3,
    run_bind_ok.2 ⟨a, _, hrun, rfl⟩⟩⟩⟩⟩

/-- **C29 fails.** For all points `P0` and `P1` of bn256 other than the identity with `P1 ≠ 2 • P0`, all scalars `x0`
that are `2` modulo `4` and `x1` that are `0` modulo `4`, and every prefix, the circuit of the multi-scalar multiplication
with the select chip has a satisfying assignment with the same points and scalars and another result. -/
theorem C29_violated {info : RangeInfo bnR} (h : RangeInfo.new bnQ bnR 18 6 = .ok info) (pre : ℕ) (hpre : pre < MSM_LIMIT)
    (c0 c1 : Option (ℕ × ℕ)) (P0 P1 : Pt (3 : ZMod bnQ)) (h0 : ConstCoords c0 P0) (h1 : ConstCoords c1 P1) (hP0 : P0 ≠ 0)
    (hP1 : P1 ≠ 0) (hP : P1 ≠ 2 • P0) (x0 x1 : ZMod bnR) (hx0 : x0.val % 4 = 2) (hx1 : x1.val % 4 = 0) :
    (∃ r1 r2 a t, msmDemo info 3 254 (1, 2) r1 r2 (some pre) c0 c1 x0 x1 (.new bnR) = .ok (a, t)) ∧
    ∀ r1 r2 p0 p1 s0 s1 r t, msmDemo info 3 254 (1, 2) r1 r2 (some pre) c0 c1 x0 x1 (.new bnR) = .ok ((p0, p1, s0, s1, r), t) →
      ∃ (w : Advice bnR) (Q : Pt (3 : ZMod bnQ)), Q ≠ x0.val • P0 + x1.val • P1 ∧ ∀ usable, t.Fits usable →
        (t.circuit usable).Sat w ∧ PRep info w p0 P0 ∧ PRep info w p1 P1 ∧ w s0.cell = x0 ∧ w s1.cell = x1 ∧
        PRep info w r Q := by
  have hd : info.d_bits % 108 ≠ 0 := by
    obtain ⟨info', hs⟩ := Setup.of_summary summary_bnQ
    obtain rfl : info' = info := by have := hs.new.symm.trans h; injection this
    have := hs.summary
    simp only [List.cons.injEq] at this
    omega
  refine ⟨msmDemo_runs h (by simpa using hpre) h0 h1 x0 x1, fun r1 r2 p0 p1 s0 s1 r t hrun => ?_⟩
  have hcard : 2 ^ 253 < Nat.card (Pt (3 : ZMod bnQ)) := by rw [bn_card]; decide +kernel
  have : Finite (Pt (3 : ZMod bnQ)) := Nat.finite_of_card_ne_zero (by rw [bn_card]; decide +kernel)
  have hz : AtMost 1 fun P : Pt (3 : ZMod bnQ) => P = 0 := AtMost.one fun A B hA hB => hA.trans hB.symm
  obtain ⟨L, hL⟩ := ((atMost_table true [P0, P1]).or hz).exists_not (by simp only [List.length_cons, List.length_nil]; omega)
  rw [not_or] at hL
  obtain ⟨rL, hrL⟩ := constCoords_of_ne L hL.2
  rcases hrL with ⟨e, -⟩ | ⟨lx, ly, e, hlx, hly, hcL⟩ <;> cases e
  let g : ZMod bnR → ℕ × ZMod bnR := fun v => if v.val % 4 = 2 then (v.val - 2, 2) else (v.val, 0)
  have g0 : g x0 = (x0.val - 2, 2) := if_pos hx0
  have g1 : g x1 = (x1.val, 0) := if_neg (by omega)
  obtain ⟨A, hA⟩ := ((atMost_accPos (fun P : Pt (3 : ZMod bnQ) => (bn_no_small P).1) (fun P => (bn_no_small P).2) 254 L
    (forgedPick 254 [(g x0).1, (g x1).1] [P0, P1] L P1) (forgedSum 254 [(g x0).1, (g x1).1] [P0, P1] P1)).or hz).exists_not
    (by omega)
  rw [not_or, not_not] at hA
  obtain ⟨rA, hrA⟩ := constCoords_of_ne A hA.2
  rcases hrA with ⟨e, -⟩ | ⟨ax, ay, e, hax, hay, hcA⟩ <;> cases e
  obtain ⟨Gn, hG⟩ := bn_generator
  have hlt : ∀ x : ZMod bnR, x.val < 2 ^ 254 := fun x => (ZMod.val_lt x).trans_le (by decide +kernel)
  have hf : ForgedMsm 254 g [x0, x1] [P0, P1] A L P1 := by
    refine ⟨by norm_num, by norm_num, by decide +kernel, ?_, rfl, by simp, ?_, ?_, hA.1⟩
    · simpa using ⟨hP0.symm, hP1.symm⟩
    · intro v hv
      rcases (by simpa using hv : v = x0 ∨ v = x1) with rfl | rfl
      · rw [g0]
        refine ⟨by show (v.val - 2) % 2 = 0; omega, lt_of_le_of_lt (Nat.sub_le _ _) (hlt v), ?_⟩
        show v = ((v.val - 2 : ℕ) : ZMod bnR) + 2
        rw [Nat.cast_sub (by omega), ZMod.natCast_zmod_val]
        simp
      · rw [g1]
        refine ⟨by show v.val % 2 = 0; omega, hlt v, ?_⟩
        show v = ((v.val : ℕ) : ZMod bnR) + 0
        rw [ZMod.natCast_zmod_val, add_zero]
    · intro bf P' af S e hS
      by_contra hc
      exact hL.1 ⟨bf, P', af, S, e, hS, by simpa using hc⟩
  obtain ⟨⟨p0', p1', s0', s1', r'⟩, w, hsh, ⟨k0, k1, k2, k3, k4⟩, hw⟩ := forge (m' := do
      let p0 ← assign_point info 3 c0
      let p1 ← assign_point info 3 c1
      let s0 ← assign x0
      let s1 ← assign x1
      let r ← msm info 3 (forgedScalar 254 g) (1, 2) (some (ax, ay)) (some (lx, ly)) (some pre) [p0, p1] [s0, s1]
      pure (p0, p1, s0, s1, r.1))
    (by
      unfold msmDemo
      exact (rel_assign_point info 3 _ _).bind fun _ _ hp0 => (rel_assign_point info 3 _ _).bind fun _ _ hp1 =>
        (rel_assign _ _).bind fun _ _ hs0 => (rel_assign _ _).bind fun _ _ hs1 =>
        (rel_msm info 3 (rel_forgedScalar (by norm_num) g) _ _ _ _ _ _ _ (sh_cons hp0 (sh_cons hp1 sh_nil))
          (sh_cons hs0 (sh_cons hs1 sh_nil))).bind fun _ _ hr =>
        Runs2.pure (sh_pair hp0 (sh_pair hp1 (sh_pair hs0 (sh_pair hs1 hr.1))))) hrun
    (P := fun r => HPRep info r.1 P0 ∧ HPRep info r.2.1 P1 ∧ r.2.2.1.val = x0 ∧ r.2.2.2.1.val = x1 ∧
      HPRep info r.2.2.2.2 ((x0.val - 2) • P0 + x1.val • P1 + P1))
    (Q := fun w r => OkP w r.1 ∧ OkP w r.2.1 ∧ Ok w r.2.2.1 ∧ Ok w r.2.2.2.1 ∧ OkP w r.2.2.2.2) (by
      intro c h'
      have ha : ∀ {H : Prop} {cc : Option (ℕ × ℕ)} {P : Pt (3 : ZMod bnQ)}, ConstCoords cc P →
          C c h' H (assign_point info 3 cc) (fun r => HPRep info r P) (OkP h') := fun hc =>
        (C_assign_point h hd (by decide +kernel) (by norm_num) hc).mono (fun _ hr => hr.1) fun _ _ _ q => q
      refine C.bind (ha h0) fun p0 hp0 => C.bind (ha h1) fun p1 hp1 => C.bind C_assign fun s0 hs0 =>
        C.bind C_assign fun s1 hs1 => ?_
      subst hs0
      subst hs1
      refine C.bind (C_msm_forged (g := g) (D := P1) h hd good_bn (by decide +kernel) (by norm_num) (.cons hp0 (.cons hp1 .nil))
        (by decide +kernel) (by decide +kernel) hG hax hay hlx hly hcA hcL hf
        ⟨by simp, by decide +kernel, hpre, ?_⟩ fun hH =>
        ⟨by simpa using ⟨hH.1.1.1.2, hH.1.1.2⟩, by simpa using ⟨hH.1.2, hH.2⟩⟩) fun r hr =>
        C.pure ⟨hp0, hp1, rfl, rfl, ?_⟩ fun hH => ⟨hH.1.1.1.1.2, hH.1.1.1.2, hH.1.1.2, hH.1.2, hH.2⟩
      · simp only [List.map_cons, List.map_nil, g0, g1]
        exact pickForged_two (by decide +kernel)
      · simpa [prefixSum, g0, g1] using hr)
  refine ⟨w, (x0.val - 2) • P0 + x1.val • P1 + P1, fun e => hP ?_, fun usable hu => ?_⟩
  · have e1 : x0.val • P0 = (x0.val - 2) • P0 + 2 • P0 := by
      rw [← add_nsmul, Nat.sub_add_cancel (by omega)]
    rw [e1] at e
    have : P1 - 2 • P0 = 0 := by
      have e2 : P1 - 2 • P0 = ((x0.val - 2) • P0 + x1.val • P1 + P1) - ((x0.val - 2) • P0 + 2 • P0 + x1.val • P1) := by abel
      rw [e2, e, sub_self]
    exact sub_eq_zero.1 this
  · obtain ⟨q0, q1, q2, q3, q4, q5⟩ := hw usable hu
    have c0 := hsh.2.2.1 trivial
    have c1 := hsh.2.2.2.1 trivial
    simp only at c0 c1
    refine ⟨q0, k0.rep_of_shape hsh.1 q1, k1.rep_of_shape hsh.2.1 q2, ?_, ?_, k4.rep_of_shape hsh.2.2.2.2 q5⟩
    · rw [c0, ← k2]; exact q3
    · rw [c1, ← k3]; exact q4

/-- Not vacuous: the generator and its negation, the scalars `2` and `4`. -/
example : ∃ P0 P1 : Pt (3 : ZMod bnQ), ConstCoords (some (1, 2)) P0 ∧ ConstCoords (some (1, bnQ - 2)) P1 ∧ P0 ≠ 0 ∧ P1 ≠ 0 ∧
    P1 ≠ 2 • P0 ∧ (2 : ZMod bnR).val % 4 = 2 ∧ (4 : ZMod bnR).val % 4 = 0 := by
  obtain ⟨P, hP⟩ := bn_generator
  refine ⟨P, -P, .inr ⟨_, _, rfl, by decide +kernel, by decide +kernel, hP⟩, .inr ⟨_, _, rfl, by decide +kernel, by decide +kernel, ?_⟩,
    hP.ne_zero, neg_ne_zero.2 hP.ne_zero, fun e => hP.ne_zero ((bn_no_small P).2 ?_), by decide +kernel, by decide +kernel⟩
  · have := hP.neg
    rwa [Nat.cast_sub (by decide +kernel), ZMod.natCast_self, zero_sub]
  · rw [two_nsmul] at e
    rw [← e, neg_add_cancel]

end Verif
