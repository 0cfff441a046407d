import Verif.Spec.EccProg
import Verif.Props.IntProg
import Verif.Proof.EccMore

/-!
# C54: arbitrary programs over the integer chip and the ECC chip
-/

namespace Verif
variable {n wm : ℕ} {info : RangeInfo n} {b : ZMod wm}

theorem Pt.coords_const [Fact wm.Prime] (P : Pt b) : ConstCoords P.coords P := by
  have hwm : NeZero wm := ⟨(Fact.out : wm.Prime).ne_zero⟩
  cases P with
  | zero => exact .inl ⟨rfl, rfl⟩
  | some x y h =>
    refine .inr ⟨x.val, y.val, rfl, ZMod.val_lt x, ZMod.val_lt y, ?_⟩
    exact HasCoords.mk h (ZMod.natCast_zmod_val x).symm (ZMod.natCast_zmod_val y).symm

theorem exists_coords {P : Pt b} (h : P ≠ 0) : ∃ x y, HasCoords P x y := by
  cases P with
  | zero => exact absurd rfl h
  | some x y h' => exact ⟨x, y, h', rfl⟩

theorem Pt.xy_iff {P : Pt b} {v : ZMod wm × ZMod wm} : P.xy = some v ↔ HasCoords P v.1 v.2 := by
  constructor
  · intro h
    cases P with
    | zero => cases h
    | some x y h' => cases h; exact ⟨h', rfl⟩
  · rintro ⟨h, rfl⟩
    rfl

theorem NRep.ne_zero [Fact wm.Prime] {w : Advice n} {p : AssignedNonZeroPoint n} {P : Pt b} (h : NRep info w p P) : P ≠ 0 := by
  obtain ⟨x, y, -, -, h⟩ := h
  exact h.ne_zero

section sound
variable [Fact wm.Prime] {w : Advice n} {s : PSt n} {r : PRef b}

theorem RepPSt.pushP (h : RepPSt info w s r) {a : AssignedPoint n} {P : Pt b} (ha : PRep info w a P) :
    RepPSt info w (s.pushP a) (r.pushP P) := ⟨h.base, forall2_snoc h.pts ha, h.crvs, h.affs⟩

theorem RepPSt.pushK (h : RepPSt info w s r) {a : AssignedPointWithCurvature n} {P : Pt b} (ha : KRep info w a P) :
    RepPSt info w (s.pushK a) (r.pushK P) := ⟨h.base, h.pts, forall2_snoc h.crvs ha, h.affs⟩

theorem RepPSt.pushA (h : RepPSt info w s r) {a : AssignedNonZeroPoint n} {P : Pt b} (ha : NRep info w a P) :
    RepPSt info w (s.pushA a) (r.pushA P) := ⟨h.base, h.pts, h.crvs, forall2_snoc h.affs ha⟩

theorem RepPSt.pushC (h : RepPSt info w s r) {a : AssignedCondition n} {f : Bool} (ha : Holds w a f) :
    RepPSt info w (s.pushC a) (r.pushC f) := ⟨h.base.pushC ha, h.pts, h.crvs, h.affs⟩

theorem RepPSt.pushXY (h : RepPSt info w s r) {a a' : AssignedInteger n} {x y : ZMod wm} (ha : Rep wm info w a x)
    (ha' : Rep wm info w a' y) : RepPSt info w (s.pushXY a a') (r.pushXY x y) :=
  ⟨(h.base.pushI ha).pushI ha', h.pts, h.crvs, h.affs⟩

theorem pexec_sound [Fact n.Prime] (h : RangeInfo.new wm n 18 6 = .ok info) (hb : GoodCurve b) (order : ℕ)
    {c : Circuit n} (hw : c.Sat w) (i : PInstr b) (s : PSt n)
    (hk : ∀ j k, i = .int (.smallMul j k) → 1 ≤ k) (hbits : (∃ P, i = .assign P) → c.BitRowsConsistent w) :
    S c (i.exec info order s) (fun s' => ∀ r : PRef b, RepPSt info w s r →
      ∃ r', PStep i r r' ∧ RepPSt info w s' r') := by
  have hwm : NeZero wm := ⟨(Fact.out : wm.Prime).ne_zero⟩
  cases i with
  | int i =>
    refine S.bind (exec_sound h hw i s.base fun j k e => hk j k (by rw [e])) fun t => S.pure fun ht r hr => ?_
    obtain ⟨r', k1, k2⟩ := ht _ hr.base
    exact ⟨_, .int k1, k2, hr.pts, hr.crvs, hr.affs⟩
  | const P =>
    refine S.bind (S_assign_constant_point h hw _ P P.coords_const) fun a => S.pure fun ha r hr => ?_
    exact ⟨_, .const P, hr.pushP ha⟩
  | assign P =>
    refine S.bind (S_assign_point h hw hb (hbits ⟨P, rfl⟩) _ (ZMod.val_lt b) (ZMod.natCast_zmod_val b) _) fun a =>
      S.pure fun ⟨Q, hQ⟩ r hr => ?_
    exact ⟨_, .assign P Q, hr.pushP hQ⟩
  | assignA P =>
    refine S.bind (S_assign_non_zero_point h hw hb _ (ZMod.val_lt b) (ZMod.natCast_zmod_val b) _) fun a =>
      S.pure fun ⟨⟨Q, hQ⟩, _⟩ r hr => ?_
    exact ⟨_, .assignA P Q hQ.ne_zero, hr.pushA hQ⟩
  | identity =>
    refine S.bind (S_assign_identity (b := b) h hw) fun a => S.pure fun ⟨ha, _⟩ r hr => ?_
    exact ⟨_, .identity, hr.pushK ha⟩
  | curv i =>
    refine S.bind_index fun a ha => S.bind (S_to_point_with_curvature h hw hb a) fun t => S.pure fun ht r hr => ?_
    obtain ⟨P, hP, rP⟩ := forall2_get hr.pts ha
    exact ⟨_, .curv hP, hr.pushK (ht.2 P rP)⟩
  | reduceCurv i =>
    refine S.bind_index fun a ha => S.bind (S_ecc_reduce_with_curvature h hw hb a) fun t => S.pure fun ht r hr => ?_
    obtain ⟨P, hP, rP⟩ := forall2_get hr.pts ha
    exact ⟨_, .reduceCurv hP, hr.pushK (ht P rP)⟩
  | uncurv i =>
    refine S.bind_index fun a ha => S.pure fun r hr => ?_
    obtain ⟨P, hP, rP⟩ := forall2_get hr.crvs ha
    exact ⟨_, .uncurv hP, hr.pushP rP.1⟩
  | add i j =>
    refine S.bind_index fun a ha => S.bind_index fun q hq => S.bind (S_ecc_add h hw hb a q) fun t =>
      S.pure fun ht r hr => ?_
    obtain ⟨P, hP, rP⟩ := forall2_get hr.crvs ha
    obtain ⟨Q, hQ, rQ⟩ := forall2_get hr.pts hq
    exact ⟨_, .add hP hQ, hr.pushP (ht P Q rP rQ)⟩
  | double i =>
    refine S.bind_index fun a ha => S.bind (S_ecc_double h hw hb order a) fun t => S.pure fun ht r hr => ?_
    obtain ⟨P, hP, rP⟩ := forall2_get hr.crvs ha
    exact ⟨_, .double hP, hr.pushP (ht P rP)⟩
  | neg i =>
    refine S.bind_index fun a ha => S.bind (S_ecc_neg (b := b) h hw a) fun t => S.pure fun ht r hr => ?_
    obtain ⟨P, hP, rP⟩ := forall2_get hr.pts ha
    exact ⟨_, .neg hP, hr.pushP (ht P rP)⟩
  | reduce i =>
    refine S.bind_index fun a ha => S.bind (S_ecc_reduce (b := b) h hw a) fun t => S.pure fun ht r hr => ?_
    obtain ⟨P, hP, rP⟩ := forall2_get hr.pts ha
    exact ⟨_, .reduce hP, hr.pushP (ht P rP)⟩
  | select d i j =>
    refine S.bind_index fun d hd => S.bind_index fun a ha => S.bind_index fun q hq =>
      S.bind (C22_bisec_sound (b := b) h d a q c w hw) fun t => S.pure fun ht r hr => ?_
    obtain ⟨f, hf, rf⟩ := forall2_get hr.base.conds hd
    obtain ⟨P, hP, rP⟩ := forall2_get hr.pts ha
    obtain ⟨Q, hQ, rQ⟩ := forall2_get hr.pts hq
    refine ⟨_, .select hf hP hQ, hr.pushP ?_⟩
    cases f
    exacts [(ht P Q rP rQ).2 rf, (ht P Q rP rQ).1 rf]
  | selectCurv d i j =>
    refine S.bind_index fun d hd => S.bind_index fun a ha => S.bind_index fun q hq =>
      S.bind (S_bisec_kc (b := b) h hw d a q) fun t => S.pure fun ht r hr => ?_
    obtain ⟨f, hf, rf⟩ := forall2_get hr.base.conds hd
    obtain ⟨P, hP, rP⟩ := forall2_get hr.crvs ha
    obtain ⟨Q, hQ, rQ⟩ := forall2_get hr.crvs hq
    refine ⟨_, .selectCurv hf hP hQ, hr.pushK ?_⟩
    cases f
    exacts [(ht P Q rP rQ).2 rf, (ht P Q rP rQ).1 rf]
  | assertEqual i j =>
    refine S.bind_index fun a ha => S.bind_index fun q hq => S.bind (S_ecc_assert_equal (b := b) h hw a q) fun _ =>
      S.pure fun ht r hr => ?_
    obtain ⟨P, hP, rP⟩ := forall2_get hr.pts ha
    obtain ⟨Q, hQ, rQ⟩ := forall2_get hr.pts hq
    obtain rfl := ht P Q rP rQ
    exact ⟨_, .assertEqual hP hQ, hr⟩
  | isIdentity i =>
    refine S.bind_index fun a ha => S.pure fun r hr => ?_
    obtain ⟨P, hP, rP⟩ := forall2_get hr.pts ha
    refine ⟨_, .isIdentity hP, hr.pushC ?_⟩
    obtain ⟨x, y, -, -, ⟨hz, h0⟩ | ⟨hz, h0⟩⟩ := rP
    · simpa [Holds, h0] using hz
    · simpa [Holds, h0.ne_zero] using hz
  | coords i =>
    refine S.bind_index fun a ha => S.pure fun r hr => ?_
    obtain ⟨P, hP, rP⟩ := forall2_get hr.pts ha
    obtain ⟨x, y, hx, hy, rP⟩ := rP
    refine ⟨_, .coords (x := x) (y := y) hP fun h0 => ?_, hr.pushXY hx hy⟩
    rcases rP with h1 | h1
    exacts [absurd h1.2 h0, h1.2]
  | addA i j =>
    refine S.bind_index fun a ha => S.bind_index fun q hq => S.bind (S_ecc_add_unsafe (b := b) h hw a q) fun t =>
      S.bind_unwrap fun u hu => S.pure fun ht r hr => ?_
    obtain ⟨P, hP, rP⟩ := forall2_get hr.affs ha
    obtain ⟨Q, hQ, rQ⟩ := forall2_get hr.affs hq
    obtain ⟨h1, h2, p, rfl, hp⟩ := ht P Q rP rQ
    cases hu
    exact ⟨_, .addA hP hQ h1 h2, hr.pushA hp⟩
  | doubleA i =>
    refine S.bind_index fun a ha => S.bind (S_ecc_double_unsafe h hw hb a) fun t =>
      S.bind_unwrap fun u hu => S.pure fun ht r hr => ?_
    obtain ⟨P, hP, rP⟩ := forall2_get hr.affs ha
    obtain ⟨h1, p, rfl, hp⟩ := ht P rP
    cases hu
    exact ⟨_, .doubleA hP h1, hr.pushA hp⟩
  | negA i =>
    refine S.bind_index fun a ha => S.bind (S_neg_nz (b := b) h hw a) fun t => S.pure fun ht r hr => ?_
    obtain ⟨P, hP, rP⟩ := forall2_get hr.affs ha
    exact ⟨_, .negA hP, hr.pushA (ht P rP)⟩
  | reduceA i =>
    refine S.bind_index fun a ha => S.bind (S_reduce_nz (b := b) h hw a) fun t => S.pure fun ht r hr => ?_
    obtain ⟨P, hP, rP⟩ := forall2_get hr.affs ha
    exact ⟨_, .reduceA hP, hr.pushA (ht P rP).1⟩
  | selectA d i j =>
    refine S.bind_index fun d hd => S.bind_index fun a ha => S.bind_index fun q hq =>
      S.bind (S_bisec_nz (b := b) h hw d a q) fun t => S.pure fun ht r hr => ?_
    obtain ⟨f, hf, rf⟩ := forall2_get hr.base.conds hd
    obtain ⟨P, hP, rP⟩ := forall2_get hr.affs ha
    obtain ⟨Q, hQ, rQ⟩ := forall2_get hr.affs hq
    refine ⟨_, .selectA hf hP hQ, hr.pushA ?_⟩
    cases f
    exacts [(ht P Q rP rQ).2 rf, (ht P Q rP rQ).1 rf]
  | assertEqualA i j =>
    refine S.bind_index fun a ha => S.bind_index fun q hq => S.bind (S_assert_equal_nz (b := b) h hw a q) fun _ =>
      S.pure fun ht r hr => ?_
    obtain ⟨P, hP, rP⟩ := forall2_get hr.affs ha
    obtain ⟨Q, hQ, rQ⟩ := forall2_get hr.affs hq
    obtain rfl := ht P Q rP rQ
    exact ⟨_, .assertEqualA hP hQ, hr⟩
  | downgrade i =>
    refine S.bind_index fun a ha => S.bind (S_downgrade (info := info) (b := b) hw a) fun t => S.pure fun ht r hr => ?_
    obtain ⟨P, hP, rP⟩ := forall2_get hr.affs ha
    exact ⟨_, .downgrade hP, hr.pushP (ht P rP)⟩
  | toA i j =>
    refine S.bind_index fun a ha => S.bind_index fun q hq => S.bind (S_bisec_to_nz (b := b) h hw a q) fun t =>
      S.pure fun ht r hr => ?_
    obtain ⟨P, hP, rP⟩ := forall2_get hr.pts ha
    obtain ⟨Q, hQ, rQ⟩ := forall2_get hr.affs hq
    refine ⟨_, .toA hP hQ, hr.pushA ?_⟩
    have key := ht P Q rP rQ
    obtain ⟨x, y, -, -, ⟨hz, h0⟩ | ⟨hz, h0⟩⟩ := rP
    · rw [if_pos h0]; exact key.1 hz
    · rw [if_neg h0.ne_zero]; exact key.2 hz
  | coordsA i =>
    refine S.bind_index fun a ha => S.pure fun r hr => ?_
    obtain ⟨P, hP, rP⟩ := forall2_get hr.affs ha
    obtain ⟨x, y, hx, hy, rP⟩ := rP
    exact ⟨_, .coordsA hP rP, hr.pushXY hx hy⟩

end sound

/-- C54, soundness: for every program of integer, condition and point calls (multipliers at least 1) and every advice
assignment satisfying the final circuit, everything the program holds stands for the results of running the same
program in the field and in the group of the curve, on inputs the prover chose among the points of the curve. Where
the program introduces points by `assign_point`, the two cells of every `assign_bit` row have to agree
(`C06_violated`); nothing is assumed of other programs. -/
theorem C54_program_sound [Fact n.Prime] [Fact wm.Prime] (h : RangeInfo.new wm n 18 6 = .ok info) (hb : GoodCurve b)
    (order : ℕ) (prog : List (PInstr b)) (hk : ∀ j k, PInstr.int (.smallMul j k) ∈ prog → 1 ≤ k)
    (c : Circuit n) (w : Advice n) (hw : c.Sat w) (hbits : (∃ P, PInstr.assign P ∈ prog) → c.BitRowsConsistent w) :
    S c (pexecAll info order prog ⟨⟨[], []⟩, [], [], []⟩)
      (fun s => ∃ r : PRef b, PSteps prog ⟨⟨[], []⟩, [], [], []⟩ r ∧ RepPSt info w s r) := by
  have key : ∀ (prog : List (PInstr b)) (s : PSt n), (∀ j k, PInstr.int (.smallMul j k) ∈ prog → 1 ≤ k) →
      ((∃ P, PInstr.assign P ∈ prog) → c.BitRowsConsistent w) →
      S c (pexecAll info order prog s) (fun s' => ∀ r : PRef b, RepPSt info w s r →
        ∃ r', PSteps prog r r' ∧ RepPSt info w s' r') := by
    intro prog
    induction prog with
    | nil => intro s _ _; exact S.pure fun r hr => ⟨r, .nil, hr⟩
    | cons i is ih =>
      intro s hk hbits
      refine S.bind (pexec_sound h hb order hw i s (fun j k e => hk j k (by simp [e]))
        fun ⟨P, e⟩ => hbits ⟨P, by simp [e]⟩) fun s' => ?_
      refine (ih s' (fun j k e => hk j k (by simp [e])) fun ⟨P, e⟩ => hbits ⟨P, by simp [e]⟩).mono
        fun s'' h2 h1 r hr => ?_
      obtain ⟨r', k1, k2⟩ := h1 r hr
      obtain ⟨r'', k3, k4⟩ := h2 r' k2
      exact ⟨r'', .cons k1 k3, k4⟩
  exact (key prog _ hk hbits).mono fun s hs => hs _ ⟨⟨.nil, .nil⟩, .nil, .nil, .nil⟩

/-- C54, end to end: run a program without `assign_point` on an empty context; any advice assignment satisfying the
resulting circuit agrees with the reference semantics. -/
theorem C54_end_to_end [Fact n.Prime] [Fact wm.Prime] (h : RangeInfo.new wm n 18 6 = .ok info) (hb : GoodCurve b)
    (order : ℕ) (prog : List (PInstr b)) (hk : ∀ j k, PInstr.int (.smallMul j k) ∈ prog → 1 ≤ k)
    (ha : ∀ P, PInstr.assign P ∉ prog) (s : PSt n) (t : Context n)
    (hrun : pexecAll info order prog ⟨⟨[], []⟩, [], [], []⟩ (Context.new n) = .ok (s, t)) (usable : ℕ)
    (hf : t.Fits usable) (w : Advice n) (hw : (t.circuit usable).Sat w) :
    ∃ r : PRef b, PSteps prog ⟨⟨[], []⟩, [], [], []⟩ r ∧ RepPSt info w s r :=
  S.run (fun c w hw => C54_program_sound h hb order prog hk c w hw fun ⟨P, hP⟩ => absurd hP (ha P))
    Context.new_fresh hrun hf hw

section complete
variable [Fact wm.Prime] {s : PSt n} {r : PRef b}

theorem HRepPSt.pushP (h : HRepPSt info s r) {a : AssignedPoint n} {P : Pt b} (ha : HPRep info a P) :
    HRepPSt info (s.pushP a) (r.pushP P) := ⟨h.base, forall2_snoc h.pts ha, h.crvs, h.affs⟩

theorem HRepPSt.pushK (h : HRepPSt info s r) {a : AssignedPointWithCurvature n} {P : Pt b} (ha : HKRep info a P) :
    HRepPSt info (s.pushK a) (r.pushK P) := ⟨h.base, h.pts, forall2_snoc h.crvs ha, h.affs⟩

theorem HRepPSt.pushA (h : HRepPSt info s r) {a : AssignedNonZeroPoint n} {P : Pt b} (ha : HNRep info a P) :
    HRepPSt info (s.pushA a) (r.pushA P) := ⟨h.base, h.pts, h.crvs, forall2_snoc h.affs ha⟩

theorem HRepPSt.pushC (h : HRepPSt info s r) {a : AssignedCondition n} {f : Bool} (ha : a.val = if f then 1 else 0) :
    HRepPSt info (s.pushC a) (r.pushC f) := ⟨h.base.pushC ha, h.pts, h.crvs, h.affs⟩

theorem HRepPSt.pushXY (h : HRepPSt info s r) {a a' : AssignedInteger n} {x y : ZMod wm} (ha : HRep wm info a x)
    (ha' : HRep wm info a' y) (t : a.times ≤ 16) (t' : a'.times ≤ 16) :
    HRepPSt info (s.pushXY a a') (r.pushXY x y) := ⟨(h.base.pushI ha t).pushI ha' t', h.pts, h.crvs, h.affs⟩

omit [Fact wm.Prime] in
theorem mem_snoc {α : Type} {l : List α} {a : α} {p : α → Prop} (h : ∀ x ∈ l, p x) (ha : p a) : ∀ x ∈ l ++ [a], p x := by
  intro x hx
  rcases List.mem_append.1 hx with hx | hx
  exacts [h x hx, List.mem_singleton.1 hx ▸ ha]

variable {h : Advice n}

theorem OkPSt.pushP (hs : OkPSt h s) {a : AssignedPoint n} (ha : OkP h a) : OkPSt h (s.pushP a) :=
  ⟨hs.base, mem_snoc hs.pts ha, hs.crvs, hs.affs⟩
theorem OkPSt.pushK (hs : OkPSt h s) {a : AssignedPointWithCurvature n} (ha : OkK h a) : OkPSt h (s.pushK a) :=
  ⟨hs.base, hs.pts, mem_snoc hs.crvs ha, hs.affs⟩
theorem OkPSt.pushA (hs : OkPSt h s) {a : AssignedNonZeroPoint n} (ha : OkN h a) : OkPSt h (s.pushA a) :=
  ⟨hs.base, hs.pts, hs.crvs, mem_snoc hs.affs ha⟩
theorem OkPSt.pushC (hs : OkPSt h s) {a : AssignedCondition n} (ha : Ok h a) : OkPSt h (s.pushC a) :=
  ⟨hs.base.pushC ha, hs.pts, hs.crvs, hs.affs⟩
theorem OkPSt.pushXY (hs : OkPSt h s) {a a' : AssignedInteger n} (ha : OkI h a) (ha' : OkI h a') :
    OkPSt h (s.pushXY a a') := ⟨(hs.base.pushI ha).pushI ha', hs.pts, hs.crvs, hs.affs⟩

theorem pexec_complete [Fact n.Prime] (hi : RangeInfo.new wm n 18 6 = .ok info) (hd : info.d_bits % 108 ≠ 0)
    (hb : GoodCurve b) {order : ℕ} (ho : order % 2 = 1) {c : Circuit n} {H : Prop} (i : PInstr b) {r' : PRef b}
    (hr : HRepPSt info s r) (hok : H → OkPSt h s) (he : i.eval r = some r') :
    C c h H (i.exec info order s) (fun s' => HRepPSt info s' r') (fun s' => OkPSt h s') := by
  have hwm : NeZero wm := ⟨(Fact.out : wm.Prime).ne_zero⟩
  have hbe := ZMod.natCast_zmod_val b
  have hbb := ZMod.val_lt b
  have mP : ∀ {i a}, s.pts[i]? = some a → H → OkP h a := fun hg hH => (hok hH).pts _ (List.mem_of_getElem? hg)
  have mK : ∀ {i a}, s.crvs[i]? = some a → H → OkK h a := fun hg hH => (hok hH).crvs _ (List.mem_of_getElem? hg)
  have mA : ∀ {i a}, s.affs[i]? = some a → H → OkN h a := fun hg hH => (hok hH).affs _ (List.mem_of_getElem? hg)
  have mC : ∀ {i a}, s.base.conds[i]? = some a → H → Ok h a := fun hg hH =>
    (hok hH).base.conds _ (List.mem_of_getElem? hg)
  cases i <;> simp only [PInstr.eval, Option.bind_eq_bind, Option.bind_eq_some_iff, Option.some.injEq] at he
  case int i =>
    obtain ⟨t, ht, rfl⟩ := he
    exact C.bind (exec_complete hi hd i hr.base (fun hH => (hok hH).base) ht) fun s' hs' =>
      C.pure ⟨hs', hr.pts, hr.crvs, hr.affs⟩ fun hH => ⟨hH.2, (hok hH.1).pts, (hok hH.1).crvs, (hok hH.1).affs⟩
  case const P =>
    subst he
    exact C.bind (C_assign_constant_point hi P.coords_const) fun a ha =>
      C.pure (hr.pushP ha) fun hH => (hok hH.1).pushP hH.2
  case assign P =>
    subst he
    exact C.bind (C_assign_point hi hd hbb hbe P.coords_const) fun a ha =>
      C.pure (hr.pushP ha.1) fun hH => (hok hH.1).pushP hH.2
  case assignA P =>
    split at he
    · cases he
    · rename_i h0
      cases he
      obtain ⟨e, -⟩ | ⟨x, y, e, hx, hy, hP⟩ := P.coords_const
      · cases P with
        | zero => exact absurd rfl h0
        | some x y h => cases e
      · show C c h H (assign_non_zero_point info b.val P.coords >>= fun a => pure (s.pushA a)) _ _
        rw [e]
        exact C.bind (C_assign_non_zero_point hi hd hbb hbe hx hy hP) fun a ha =>
          C.pure (hr.pushA ha.1) fun hH => (hok hH.1).pushA hH.2
  case identity =>
    subst he
    exact C.bind (C_assign_identity (b := b) hi) fun a ha =>
      C.pure (hr.pushK ha.1) fun hH => (hok hH.1).pushK hH.2
  case curv i =>
    obtain ⟨P, hP, rfl⟩ := he
    obtain ⟨a, ha, ra⟩ := forall2_get' hr.pts hP
    exact C.bind_index ha <| C.bind (C_to_point_with_curvature hi hd hb ra (mP ha)) fun t ht =>
      C.pure (hr.pushK ht.1) fun hH => (hok hH.1).pushK hH.2
  case reduceCurv i =>
    obtain ⟨P, hP, rfl⟩ := he
    obtain ⟨a, ha, ra⟩ := forall2_get' hr.pts hP
    exact C.bind_index ha <| C.bind (C_ecc_reduce_with_curvature hi hd hb ra (mP ha)) fun t ht =>
      C.pure (hr.pushK ht.1) fun hH => (hok hH.1).pushK hH.2
  case uncurv i =>
    obtain ⟨P, hP, rfl⟩ := he
    obtain ⟨a, ha, ra⟩ := forall2_get' hr.crvs hP
    exact C.bind_index ha <| C.pure (hr.pushP ra.1) fun hH => (hok hH).pushP ⟨(mK ha hH).x, (mK ha hH).y, (mK ha hH).z⟩
  case add i j =>
    obtain ⟨P, hP, Q, hQ, rfl⟩ := he
    obtain ⟨a, ha, ra⟩ := forall2_get' hr.crvs hP
    obtain ⟨q, hq, rq⟩ := forall2_get' hr.pts hQ
    exact C.bind_index ha <| C.bind_index hq <| C.bind (C_ecc_add hi hd hb ra rq fun hH => ⟨mK ha hH, mP hq hH⟩)
      fun t ht => C.pure (hr.pushP ht) fun hH => (hok hH.1).pushP hH.2
  case double i =>
    obtain ⟨P, hP, rfl⟩ := he
    obtain ⟨a, ha, ra⟩ := forall2_get' hr.crvs hP
    exact C.bind_index ha <| C.bind (C_ecc_double hi hd hb ho ra (mK ha)) fun t ht =>
      C.pure (hr.pushP ht) fun hH => (hok hH.1).pushP hH.2
  case neg i =>
    obtain ⟨P, hP, rfl⟩ := he
    obtain ⟨a, ha, ra⟩ := forall2_get' hr.pts hP
    exact C.bind_index ha <| C.bind (C_ecc_neg hi ra (mP ha)) fun t ht =>
      C.pure (hr.pushP ht) fun hH => (hok hH.1).pushP hH.2
  case reduce i =>
    obtain ⟨P, hP, rfl⟩ := he
    obtain ⟨a, ha, ra⟩ := forall2_get' hr.pts hP
    exact C.bind_index ha <| C.bind (C_ecc_reduce hi ra (mP ha)) fun t ht =>
      C.pure (hr.pushP ht.1) fun hH => (hok hH.1).pushP hH.2
  case select d i j =>
    obtain ⟨f, hf, P, hP, Q, hQ, rfl⟩ := he
    obtain ⟨d, hd', rd⟩ := forall2_get' hr.base.conds hf
    obtain ⟨a, ha, ra⟩ := forall2_get' hr.pts hP
    obtain ⟨q, hq, rq⟩ := forall2_get' hr.pts hQ
    refine C.bind_index hd' <| C.bind_index ha <| C.bind_index hq <| C.bind ((C22_bisec_complete hi d a q P Q ra rq
      (by rw [rd]; cases f <;> simp) c h).weaken fun hH => ⟨mC hd' hH, mP ha hH, mP hq hH⟩)
      fun t ht => C.pure (hr.pushP ?_) fun hH => (hok hH.1).pushP hH.2
    rw [rd] at ht
    cases f <;> simpa using ht
  case selectCurv d i j =>
    obtain ⟨f, hf, P, hP, Q, hQ, rfl⟩ := he
    obtain ⟨d, hd', rd⟩ := forall2_get' hr.base.conds hf
    obtain ⟨a, ha, ra⟩ := forall2_get' hr.crvs hP
    obtain ⟨q, hq, rq⟩ := forall2_get' hr.crvs hQ
    refine C.bind_index hd' <| C.bind_index ha <| C.bind_index hq <| C.bind (C_bisec_kc hi ra rq
      (by rw [rd]; cases f <;> simp) fun hH => ⟨mC hd' hH, mK ha hH, mK hq hH⟩)
      fun t ht => C.pure (hr.pushK ?_) fun hH => (hok hH.1).pushK hH.2
    rw [rd] at ht
    cases f <;> simpa using ht
  case assertEqual i j =>
    obtain ⟨P, hP, Q, hQ, he⟩ := he
    obtain ⟨a, ha, ra⟩ := forall2_get' hr.pts hP
    obtain ⟨q, hq, rq⟩ := forall2_get' hr.pts hQ
    split at he
    · rename_i e
      subst e
      cases he
      exact C.bind_index ha <| C.bind_index hq <| C.bind (C_ecc_assert_equal hi ra rq fun hH => ⟨mP ha hH, mP hq hH⟩)
        fun _ _ => C.pure hr fun hH => hok hH.1
    · cases he
  case isIdentity i =>
    obtain ⟨P, hP, rfl⟩ := he
    obtain ⟨a, ha, ra⟩ := forall2_get' hr.pts hP
    refine C.bind_index ha <| C.pure (hr.pushC ?_) fun hH => (hok hH).pushC (mP ha hH).z
    obtain ⟨⟨x, y, -, -, ⟨hz, h0⟩ | ⟨hz, h0⟩⟩, -⟩ := ra
    · simpa [h0] using hz
    · simpa [h0.ne_zero] using hz
  case coords i =>
    obtain ⟨P, hP, v, hv, rfl⟩ := he
    obtain ⟨a, ha, ra⟩ := forall2_get' hr.pts hP
    obtain ⟨⟨x, y, hx, hy, hz⟩, t, t'⟩ := ra
    rw [Pt.xy_iff] at hv
    rcases hz with ⟨-, h0⟩ | ⟨-, h0⟩
    · exact absurd h0 hv.ne_zero
    · obtain ⟨rfl, rfl⟩ := hv.unique h0
      exact C.bind_index ha <| C.pure (hr.pushXY hx hy t t') fun hH => (hok hH).pushXY (mP ha hH).x (mP ha hH).y
  case addA i j =>
    obtain ⟨P, hP, Q, hQ, he⟩ := he
    obtain ⟨a, ha, ra⟩ := forall2_get' hr.affs hP
    obtain ⟨q, hq, rq⟩ := forall2_get' hr.affs hQ
    split at he
    · rename_i hne
      cases he
      refine C.bind_index ha <| C.bind_index hq <| C.bind (C_ecc_add_unsafe hi hd ra rq hne.1 hne.2 fun hH =>
        ⟨mA ha hH, mA hq hH⟩) fun t ht => ?_
      obtain ⟨p, rfl, hp⟩ := ht
      exact C.bind_unwrap rfl <| C.pure (hr.pushA hp) fun hH => (hok hH.1).pushA (hH.2 p rfl)
    · cases he
  case doubleA i =>
    obtain ⟨P, hP, he⟩ := he
    obtain ⟨a, ha, ra⟩ := forall2_get' hr.affs hP
    split at he
    · rename_i hne
      cases he
      refine C.bind_index ha <| C.bind (C_ecc_double_unsafe hi hd hb ra hne (mA ha)) fun t ht => ?_
      obtain ⟨p, rfl, hp⟩ := ht
      exact C.bind_unwrap rfl <| C.pure (hr.pushA hp) fun hH => (hok hH.1).pushA (hH.2 p rfl)
    · cases he
  case negA i =>
    obtain ⟨P, hP, rfl⟩ := he
    obtain ⟨a, ha, ra⟩ := forall2_get' hr.affs hP
    exact C.bind_index ha <| C.bind (C_neg_nz hi ra (mA ha)) fun t ht =>
      C.pure (hr.pushA ht) fun hH => (hok hH.1).pushA hH.2
  case reduceA i =>
    obtain ⟨P, hP, rfl⟩ := he
    obtain ⟨a, ha, ra⟩ := forall2_get' hr.affs hP
    exact C.bind_index ha <| C.bind (C_reduce_nz hi ra (mA ha)) fun t ht =>
      C.pure (hr.pushA ht.1) fun hH => (hok hH.1).pushA hH.2
  case selectA d i j =>
    obtain ⟨f, hf, P, hP, Q, hQ, rfl⟩ := he
    obtain ⟨d, hd', rd⟩ := forall2_get' hr.base.conds hf
    obtain ⟨a, ha, ra⟩ := forall2_get' hr.affs hP
    obtain ⟨q, hq, rq⟩ := forall2_get' hr.affs hQ
    refine C.bind_index hd' <| C.bind_index ha <| C.bind_index hq <| C.bind (C_bisec_nz hi ra rq
      (by rw [rd]; cases f <;> simp) fun hH => ⟨mC hd' hH, mA ha hH, mA hq hH⟩)
      fun t ht => C.pure (hr.pushA ?_) fun hH => (hok hH.1).pushA hH.2
    rw [rd] at ht
    cases f <;> simpa using ht
  case assertEqualA i j =>
    obtain ⟨P, hP, Q, hQ, he⟩ := he
    obtain ⟨a, ha, ra⟩ := forall2_get' hr.affs hP
    obtain ⟨q, hq, rq⟩ := forall2_get' hr.affs hQ
    split at he
    · rename_i e
      subst e
      cases he
      exact C.bind_index ha <| C.bind_index hq <| C.bind (C_assert_equal_nz hi ra rq fun hH => ⟨mA ha hH, mA hq hH⟩)
        fun _ _ => C.pure hr fun hH => hok hH.1
    · cases he
  case downgrade i =>
    obtain ⟨P, hP, rfl⟩ := he
    obtain ⟨a, ha, ra⟩ := forall2_get' hr.affs hP
    exact C.bind_index ha <| C.bind (C_downgrade ra (mA ha)) fun t ht =>
      C.pure (hr.pushP ht) fun hH => (hok hH.1).pushP hH.2
  case toA i j =>
    obtain ⟨P, hP, Q, hQ, rfl⟩ := he
    obtain ⟨a, ha, ra⟩ := forall2_get' hr.pts hP
    obtain ⟨q, hq, rq⟩ := forall2_get' hr.affs hQ
    refine C.bind_index ha <| C.bind_index hq <| C.bind (C_bisec_to_nz hi ra rq fun hH => ⟨mP ha hH, mA hq hH⟩)
      fun t ht => C.pure (hr.pushA ?_) fun hH => (hok hH.1).pushA hH.2
    obtain ⟨⟨x, y, -, -, ⟨hz, h0⟩ | ⟨hz, h0⟩⟩, -⟩ := ra
    · rw [if_pos hz] at ht
      rwa [if_pos h0]
    · rw [if_neg (by rw [hz]; exact zero_ne_one)] at ht
      rwa [if_neg h0.ne_zero]
  case coordsA i =>
    obtain ⟨P, hP, v, hv, rfl⟩ := he
    obtain ⟨a, ha, ra⟩ := forall2_get' hr.affs hP
    obtain ⟨⟨x, y, hx, hy, h0⟩, t, t'⟩ := ra
    rw [Pt.xy_iff] at hv
    obtain ⟨rfl, rfl⟩ := hv.unique h0
    exact C.bind_index ha <| C.pure (hr.pushXY hx hy t t') fun hH => (hok hH).pushXY (mA ha hH).x (mA ha hH).y

end complete

/-- C54, completeness: every program whose honest run is defined is accepted: no panic, the results are the honest
ones, and the recorded witness satisfies the recorded circuit; from any context reached so far. -/
theorem C54_program_complete [Fact n.Prime] [Fact wm.Prime] (hi : RangeInfo.new wm n 18 6 = .ok info)
    (hd : info.d_bits % 108 ≠ 0) (hb : GoodCurve b) (order : ℕ) (ho : order % 2 = 1) (prog : List (PInstr b))
    (r : PRef b) (he : pevalAll prog ⟨⟨[], []⟩, [], [], []⟩ = some r) :
    Complete (pexecAll info order prog ⟨⟨[], []⟩, [], [], []⟩) (fun _ => True) (fun s => HRepPSt info s r) OkPSt := by
  intro c h
  have key : ∀ (prog : List (PInstr b)) (s : PSt n) (r r' : PRef b) (H : Prop), HRepPSt info s r →
      (H → OkPSt h s) → pevalAll prog r = some r' →
      C c h H (pexecAll info order prog s) (fun s' => HRepPSt info s' r') (fun s' => OkPSt h s') := by
    intro prog
    induction prog with
    | nil => intro s r r' H hr hok he; cases he; exact C.pure hr hok
    | cons i is ih =>
      intro s r r' H hr hok he
      simp only [pevalAll, Option.bind_eq_bind, Option.bind_eq_some_iff] at he
      obtain ⟨r1, h1, h2⟩ := he
      exact C.bind (pexec_complete hi hd hb ho i hr hok h1) fun s' hs' => ih s' r1 r' _ hs' (fun hH => hH.2) h2
  exact key prog _ _ r _ ⟨⟨.nil, .nil⟩, .nil, .nil, .nil⟩ (fun _ => ⟨⟨by simp, by simp⟩, by simp, by simp, by simp⟩) he

/-- The honest run is one of the runs the reference semantics allows. -/
theorem pevalAll_steps [Fact wm.Prime] {prog : List (PInstr b)} :
    ∀ {r r' : PRef b}, pevalAll prog r = some r' → PSteps prog r r' := by
  induction prog with
  | nil => intro r r' h; cases h; exact .nil
  | cons i is ih =>
    intro r r' he
    simp only [pevalAll, Option.bind_eq_bind, Option.bind_eq_some_iff] at he
    obtain ⟨r1, h1, h2⟩ := he
    refine .cons ?_ (ih h2)
    cases i <;> simp only [PInstr.eval, Option.bind_eq_bind, Option.bind_eq_some_iff, Option.some.injEq] at h1
    case int i =>
      obtain ⟨t, ht, rfl⟩ := h1
      have : evalAll [i] r.base = some t := by simp [evalAll, ht]
      cases evalAll_steps this with
      | cons k1 k2 => cases k2; exact .int k1
    case const => subst h1; exact .const _
    case assign => subst h1; exact .assign _ _
    case assignA =>
      split at h1
      · cases h1
      · rename_i h0; cases h1; exact .assignA _ _ h0
    case identity => subst h1; exact .identity
    case curv => obtain ⟨P, hP, rfl⟩ := h1; exact .curv hP
    case reduceCurv => obtain ⟨P, hP, rfl⟩ := h1; exact .reduceCurv hP
    case uncurv => obtain ⟨P, hP, rfl⟩ := h1; exact .uncurv hP
    case add => obtain ⟨P, hP, Q, hQ, rfl⟩ := h1; exact .add hP hQ
    case double => obtain ⟨P, hP, rfl⟩ := h1; exact .double hP
    case neg => obtain ⟨P, hP, rfl⟩ := h1; exact .neg hP
    case reduce => obtain ⟨P, hP, rfl⟩ := h1; exact .reduce hP
    case select => obtain ⟨f, hf, P, hP, Q, hQ, rfl⟩ := h1; exact .select hf hP hQ
    case selectCurv => obtain ⟨f, hf, P, hP, Q, hQ, rfl⟩ := h1; exact .selectCurv hf hP hQ
    case assertEqual =>
      obtain ⟨P, hP, Q, hQ, h1⟩ := h1
      split at h1
      · rename_i e; subst e; cases h1; exact .assertEqual hP hQ
      · cases h1
    case isIdentity => obtain ⟨P, hP, rfl⟩ := h1; exact .isIdentity hP
    case coords =>
      obtain ⟨P, hP, v, hv, rfl⟩ := h1
      exact .coords hP fun _ => Pt.xy_iff.1 hv
    case addA =>
      obtain ⟨P, hP, Q, hQ, h1⟩ := h1
      split at h1
      · rename_i e; cases h1; exact .addA hP hQ e.1 e.2
      · cases h1
    case doubleA =>
      obtain ⟨P, hP, h1⟩ := h1
      split at h1
      · rename_i e; cases h1; exact .doubleA hP e
      · cases h1
    case negA => obtain ⟨P, hP, rfl⟩ := h1; exact .negA hP
    case reduceA => obtain ⟨P, hP, rfl⟩ := h1; exact .reduceA hP
    case selectA => obtain ⟨f, hf, P, hP, Q, hQ, rfl⟩ := h1; exact .selectA hf hP hQ
    case assertEqualA =>
      obtain ⟨P, hP, Q, hQ, h1⟩ := h1
      split at h1
      · rename_i e; subst e; cases h1; exact .assertEqualA hP hQ
      · cases h1
    case downgrade => obtain ⟨P, hP, rfl⟩ := h1; exact .downgrade hP
    case toA => obtain ⟨P, hP, Q, hQ, rfl⟩ := h1; exact .toA hP hQ
    case coordsA =>
      obtain ⟨P, hP, v, hv, rfl⟩ := h1
      exact .coordsA hP (Pt.xy_iff.1 hv)

/-- A program on one point `G`: `2G` and `3G` by incomplete operations, `2G` and `G - G` by complete ones, checked
against each other, a selection on the flag of `G - G`, and the product of the coordinates of `G`. -/
def eccProg (G : Pt b) : List (PInstr b) :=
  [.assignA G, .doubleA 0, .addA 0 1, .downgrade 0, .curv 0, .double 0, .downgrade 1, .assertEqual 1 2, .neg 0,
    .add 0 3, .isIdentity 4, .int (.assertTrue 0), .select 0 1 0, .identity, .uncurv 1, .assertEqual 4 6,
    .selectCurv 0 0 1, .reduceCurv 5, .reduce 5, .toA 4 2, .assertEqualA 2 3, .negA 3, .reduceA 4, .selectA 0 5 4,
    .const G, .coordsA 0, .int (.mul 0 1), .coords 8, .int (.assertEqual 0 3)]

/-- The same with a call to `assign_point`. -/
def eccProg' (G : Pt b) : List (PInstr b) := eccProg G ++ [.assign G, .assertEqual 8 9]

section eval
variable [Fact wm.Prime] {s : PRef b} {P Q : Pt b} {i j : ℕ}

theorem pev_cons {is : List (PInstr b)} {i : PInstr b} {r r' r'' : PRef b} (h : i.eval r = some r')
    (h' : pevalAll is r' = some r'') : pevalAll (i :: is) r = some r'' := by
  rw [pevalAll, h]; exact h'

theorem pev_assignA (h : P ≠ 0) : (PInstr.assignA P).eval s = some (s.pushA P) := if_neg h
theorem pev_doubleA (h : s.affs[i]? = some P) (h' : P + P ≠ 0) :
    (PInstr.doubleA i).eval s = some (s.pushA (P + P)) := by rw [PInstr.eval, h]; exact if_pos h'
theorem pev_addA (h : s.affs[i]? = some P) (h' : s.affs[j]? = some Q) (h1 : P ≠ Q) (h2 : P ≠ -Q) :
    (PInstr.addA i j).eval s = some (s.pushA (P + Q)) := by rw [PInstr.eval, h, h']; exact if_pos ⟨h1, h2⟩
theorem pev_eq (h : s.pts[i]? = some P) (h' : s.pts[j]? = some Q) (h1 : P = Q) :
    (PInstr.assertEqual i j).eval s = some s := by rw [PInstr.eval, h, h']; exact if_pos h1
theorem pev_eqA (h : s.affs[i]? = some P) (h' : s.affs[j]? = some Q) (h1 : P = Q) :
    (PInstr.assertEqualA i j).eval s = some s := by rw [PInstr.eval, h, h']; exact if_pos h1
theorem pev_isIdentity (h : s.pts[i]? = some P) (h' : P = 0) :
    (PInstr.isIdentity i).eval s = some (s.pushC true) := by
  rw [PInstr.eval, h]; show some (s.pushC (decide (P = 0))) = _; rw [decide_eq_true h']
theorem pev_toA (h : s.pts[i]? = some P) (h' : s.affs[j]? = some Q) (h1 : P = 0) :
    (PInstr.toA i j).eval s = some (s.pushA Q) := by
  rw [PInstr.eval, h, h']; show some (s.pushA (if P = 0 then Q else P)) = _; rw [if_pos h1]
theorem pev_coords {v : ZMod wm × ZMod wm} (h : s.pts[i]? = some P) (h' : P.xy = some v) :
    (PInstr.coords i).eval s = some (s.pushXY v.1 v.2) := by rw [PInstr.eval, h]; show P.xy >>= _ = _; rw [h']; rfl
theorem pev_coordsA {v : ZMod wm × ZMod wm} (h : s.affs[i]? = some P) (h' : P.xy = some v) :
    (PInstr.coordsA i).eval s = some (s.pushXY v.1 v.2) := by rw [PInstr.eval, h]; show P.xy >>= _ = _; rw [h']; rfl
theorem pev_intEq {x y : ZMod wm} (h : s.base.vals[i]? = some x) (h' : s.base.vals[j]? = some y) (h1 : x = y) :
    (PInstr.int (.assertEqual i j)).eval s = some s := by
  rw [PInstr.eval, Instr.eval, h, h']; show (if x = y then some s.base else none) >>= _ = _; rw [if_pos h1]; rfl

theorem eccProg_eval {G : Pt b} {v : ZMod wm × ZMod wm} (ne0 : G + G ≠ 0) (ne1 : G ≠ 0) (ne2 : G ≠ -(G + G))
    (hxy : G.xy = some v) : ∃ r, pevalAll (eccProg G) ⟨⟨[], []⟩, [], [], []⟩ = some r ∧
      (∃ r', pevalAll (eccProg' G) ⟨⟨[], []⟩, [], [], []⟩ = some r') ∧ r.affs[2]? = some (G + (G + G)) := by
  have key : ∀ is, ∃ r : PRef b, (∀ r', pevalAll is r = some r' →
      pevalAll (eccProg G ++ is) ⟨⟨[], []⟩, [], [], []⟩ = some r') ∧
      r.pts[8]? = some G ∧ r.pts.length = 9 ∧ r.affs[2]? = some (G + (G + G)) := by
    intro is
    exact ⟨_, fun r' h => pev_cons (pev_assignA ne1) <| pev_cons (pev_doubleA rfl ne0) <|
        pev_cons (pev_addA rfl rfl (by simpa using ne1) ne2) <| pev_cons rfl <| pev_cons rfl <| pev_cons rfl <|
        pev_cons rfl <| pev_cons (pev_eq rfl rfl rfl) <| pev_cons rfl <| pev_cons rfl <|
        pev_cons (pev_isIdentity rfl (add_neg_cancel G)) <| pev_cons rfl <| pev_cons rfl <| pev_cons rfl <|
        pev_cons rfl <| pev_cons (pev_eq rfl rfl (add_neg_cancel G)) <| pev_cons rfl <| pev_cons rfl <|
        pev_cons rfl <| pev_cons (pev_toA rfl rfl (add_neg_cancel G)) <| pev_cons (pev_eqA rfl rfl rfl) <|
        pev_cons rfl <| pev_cons rfl <| pev_cons rfl <| pev_cons rfl <| pev_cons (pev_coordsA rfl hxy) <|
        pev_cons rfl <| pev_cons (pev_coords rfl hxy) <| pev_cons (pev_intEq rfl rfl rfl) h,
        rfl, rfl, rfl⟩
  obtain ⟨r, h3, -, -, h2⟩ := key []
  obtain ⟨r2, k2, k1, k3, -⟩ := key [.assign G, .assertEqual 8 9]
  refine ⟨r, by simpa using h3 r rfl, ⟨_, k2 _ (pev_cons rfl <| pev_cons (pev_eq (P := G) (Q := G) ?_ ?_ rfl) rfl)⟩, h2⟩
  · show (r2.pts ++ [G])[8]? = _
    rw [List.getElem?_append_left (by omega)]
    exact k1
  · show (r2.pts ++ [G])[9]? = _
    rw [List.getElem?_append_right (by omega), k3]
    rfl
end eval

/-- Non-vacuity of C54: the programs above on the generator of bn256 have an honest run and are accepted, so the
hypotheses are met by a program that uses every kind of call. -/
theorem eccProg_accepted : ∃ info : RangeInfo bnR, RangeInfo.new bnQ bnR 18 6 = .ok info ∧
    ∃ G : Pt (3 : ZMod bnQ), HasCoords G 1 2 ∧ ∃ r r', pevalAll (eccProg G) ⟨⟨[], []⟩, [], [], []⟩ = some r ∧
    pevalAll (eccProg' G) ⟨⟨[], []⟩, [], [], []⟩ = some r' ∧ r.affs[2]? = some (G + (G + G)) ∧
    Accepted (pexecAll info bnR (eccProg G) ⟨⟨[], []⟩, [], [], []⟩) (fun s => HRepPSt info s r) ∧
    Accepted (pexecAll info bnR (eccProg' G) ⟨⟨[], []⟩, [], [], []⟩) (fun s => HRepPSt info s r') := by
  obtain ⟨info, hs⟩ := Setup.of_summary summary_bnQ
  have hd : info.d_bits % 108 ≠ 0 := by
    have := hs.summary
    simp only [List.cons.injEq] at this
    omega
  obtain ⟨G, hG⟩ := bn_generator
  have hd2 := hG.double good_bn (l := 3 * 1 ^ 2 / (2 * 2)) (by decide +kernel) (by norm_num)
  have ne0 : G + G ≠ 0 := hd2.ne_zero
  have ne1 : G ≠ 0 := hG.ne_zero
  have ne2 : G ≠ -(G + G) := by
    intro e
    have e' : G + G = -G := by rw [eq_comm, neg_eq_iff_eq_neg]; exact e
    have := hd2.unique (e' ▸ hG.neg)
    revert this
    decide +kernel
  have hxy : G.xy = some (((1 : ℕ) : ZMod bnQ), ((2 : ℕ) : ZMod bnQ)) := Pt.xy_iff.2 hG
  obtain ⟨r, hr, ⟨r', hr'⟩, hr2⟩ := eccProg_eval ne0 ne1 ne2 hxy
  exact ⟨info, hs.new, G, by simpa using hG, r, r', hr, hr', hr2,
    Accepted.of_C (C54_program_complete hs.new hd good_bn bnR (by decide +kernel) _ r hr),
    Accepted.of_C (C54_program_complete hs.new hd good_bn bnR (by decide +kernel) _ r' hr')⟩

/-- Non-vacuity of the soundness side: the recorded witness of the demonstration program satisfies its circuit and
stands for a run of the reference semantics. -/
theorem eccProg_sound : ∃ info : RangeInfo bnR, RangeInfo.new bnQ bnR 18 6 = .ok info ∧
    ∃ G : Pt (3 : ZMod bnQ), HasCoords G 1 2 ∧
    ∃ s t usable, pexecAll info bnR (eccProg G) ⟨⟨[], []⟩, [], [], []⟩ (Context.new bnR) = .ok (s, t) ∧
      (t.circuit usable).Sat t.honest ∧
      ∃ r, PSteps (eccProg G) ⟨⟨[], []⟩, [], [], []⟩ r ∧ RepPSt info t.honest s r := by
  obtain ⟨info, hi, G, hG, r, -, -, -, -, ⟨s, t, h1, -, h2⟩, -⟩ := eccProg_accepted
  have hf : t.Fits (max t.base_offset (max t.range_offset t.select_offset)) := by
    constructor <;> omega
  refine ⟨info, hi, G, hG, s, t, _, h1, h2 _ hf, ?_⟩
  refine C54_end_to_end hi good_bn bnR _ ?_ ?_ s t h1 _ hf _ (h2 _ hf)
  · intro j k hk
    simp [eccProg] at hk
  · intro P hP
    simp [eccProg] at hP

end Verif
