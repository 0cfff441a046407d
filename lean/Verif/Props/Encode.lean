import Verif.Proof.Encode
import Verif.Props.Ecc

/-!
# C37: the encoding of points

With three limbs per coordinate the encoding separates points, in every satisfying assignment. It is not determined by
the point: reduced coordinates need not be canonical. With four limbs (BLS12-381) it does not separate points either.
-/

namespace Verif
variable {n wm : ℕ} {info : RangeInfo n} {b : ZMod wm}

/-- C37, what holds: in every satisfying assignment the triple is that of two numbers below `2 ^ w_ceil_bits`, congruent
to the coordinates of the point (both 0 for the identity). Missing: that they are the canonical ones
(`C37_violated_not_canonical`). -/
theorem C37_encode_sound_partial [Fact n.Prime] (h : RangeInfo.new wm n 18 6 = .ok info) (p : AssignedPoint n) :
    Sound (ecc_encode info p) (fun w r => ∀ P : Pt b, PRep info w p P → ∃ X Y, X < 2 ^ info.w_ceil_bits ∧
      Y < 2 ^ info.w_ceil_bits ∧ r.map (cv w) = encTriple n X Y ∧
      ((P = 0 ∧ X = 0 ∧ Y = 0) ∨ HasCoords P (X : ZMod wm) (Y : ZMod wm))) :=
  fun _ _ hw => S_ecc_encode (RangeInfo.new_valid h) hw p

/-- C37, injectivity, for base fields of three limbs: in every satisfying assignment, points with the same encoding are
equal. Missing: the base fields of four limbs (`C37_violated_collision`). -/
theorem C37_encode_injective_partial [Fact n.Prime] [Fact wm.Prime] (h : RangeInfo.new wm n 18 6 = .ok info)
    (hb : GoodCurve b) (h3 : info.limbs = 3) (p q : AssignedPoint n) :
    Sound (do let r ← ecc_encode info p; let s ← ecc_encode info q; pure (r, s)) (fun w r => ∀ P Q : Pt b,
      PRep info w p P → PRep info w q Q → r.1.map (cv w) = r.2.map (cv w) → P = Q) := by
  intro c w hw
  have hv := RangeInfo.new_valid h
  refine S.bind (S_ecc_encode (b := b) hv hw p) fun r => S.bind (S_ecc_encode (b := b) hv hw q) fun s => S.pure ?_
  intro hs hr P Q hP hQ e
  obtain ⟨X, Y, hX, hY, e1, d1⟩ := hr P hP
  obtain ⟨X', Y', hX', hY', e2, d2⟩ := hs Q hQ
  simp only at e
  rw [e1, e2] at e
  have hn : 2 ^ 216 ≤ n := by have := hv.n_big; omega
  obtain ⟨eX, eY⟩ := encTriple_inj hn e
  have hle : info.w_ceil_bits ≤ 324 := by have := hv.limbs_eq; omega
  have hpow : 2 ^ info.w_ceil_bits ≤ 2 ^ 324 := Nat.pow_le_pow_right (by norm_num) hle
  rw [Nat.mod_eq_of_lt (by omega), Nat.mod_eq_of_lt (by omega)] at eX eY
  subst eX eY
  have nz : ∀ P : Pt b, ¬ HasCoords P ((0 : ℕ) : ZMod wm) ((0 : ℕ) : ZMod wm) := by
    intro P hP
    have := hP.eqn
    simp only [Nat.cast_zero] at this
    exact hb.b_ne (by linear_combination -this)
  rcases d1 with ⟨rfl, rfl, rfl⟩ | d1
  · rcases d2 with ⟨rfl, -⟩ | d2
    · rfl
    · exact absurd d2 (nz Q)
  · rcases d2 with ⟨rfl, rfl, rfl⟩ | ⟨k, rfl⟩
    · exact absurd d1 (nz P)
    · obtain ⟨k', rfl⟩ := d1
      rfl

/-- The honest prover's triple: that of the canonical coordinates, zeros for the identity. -/
theorem C37_encode_complete [Fact wm.Prime] (h : RangeInfo.new wm n 18 6 = .ok info) (p : AssignedPoint n) (P : Pt b)
    (hP : HPRep info p P) :
    Complete (ecc_encode info p) (fun h => OkP h p) (fun r => (P = 0 → r.map AssignedValue.val = encTriple n 0 0) ∧
      ∀ x y, HasCoords P x y → r.map AssignedValue.val = encTriple n x.val y.val) (fun h r => ∀ x ∈ r, Ok h x) := by
  intro c k
  have hv := RangeInfo.new_valid h
  obtain ⟨⟨x, y, hx, hy, hP⟩, -⟩ := hP
  have hz : p.z.val = 1 ∨ p.z.val = 0 := by rcases hP with h | h; exacts [.inl h.1, .inr h.1]
  have h10 : (0 : ZMod n) ≠ 1 := by
    have : Fact (1 < n) := ⟨by have := hv.n_gt; omega⟩
    exact zero_ne_one
  refine (C_ecc_encode hv hx.reduced hy.reduced hz fun h => h).mono (fun r hr => ⟨?_, ?_⟩) fun _ _ _ q => q
  · rintro rfl
    rcases hP with ⟨h1, -⟩ | ⟨-, hP⟩
    · rw [hr, if_pos h1, if_pos h1]
    · exact absurd rfl hP.ne_zero
  · rintro x' y' ⟨k, rfl⟩
    rcases hP with ⟨-, hP⟩ | ⟨h1, ⟨k', e⟩⟩
    · exact absurd hP (WeierstrassCurve.Affine.Point.some_ne_zero _)
    · cases e
      rw [hr, if_neg (by rw [h1]; exact h10), if_neg (by rw [h1]; exact h10)]

/-- Assign a point and encode it. -/
def encodeDemo (info : RangeInfo n) (bb : ℕ) (p : Option (ℕ × ℕ)) : M n (AssignedPoint n × List (AssignedValue n)) := do
  let p ← assign_point info bb p
  let r ← ecc_encode info p
  pure (p, r)

theorem WF.of_shape {s s' : AssignedInteger n} (hs : sh True s s') {w : Advice n} (hok : OkI w s')
    (wf : WF info AssignedValue.val s') : WF info (cv w) s ∧ V (cv w) s = V AssignedValue.val s' := by
  have hl : ∀ i, limbAt (cv w) s.limbs_le i = limbAt AssignedValue.val s'.limbs_le i :=
    limbAt_shape hs.limbs hok.limb
  have hlen : s.limbs_le.length = s'.limbs_le.length := List.Forall₂.length_eq hs.limbs
  have hV : V (cv w) s = V AssignedValue.val s' := by
    unfold V VL
    rw [hlen]
    exact Finset.sum_congr rfl fun i _ => by rw [hl i]
  have ht := hs.times
  have hnat : cv w s.native = s'.native.val := by
    show w s.native.cell = _
    rw [hs.native trivial]; exact hok.native
  exact ⟨⟨by rw [hlen, wf.len], by rw [ht]; exact wf.times_pos, by rw [ht]; exact wf.times_lt,
    fun i => by rw [hl, ht]; exact wf.limb i, by rw [hV, ht]; exact wf.val, by rw [hnat, hV]; exact wf.native⟩, hV⟩

/-- Whatever representatives below `2 ^ w_ceil_bits` of its coordinates one likes, there is a satisfying assignment in
which the point is encoded by their triple. -/
theorem encode_any [Fact n.Prime] [Fact wm.Prime] (hi : RangeInfo.new wm n 18 6 = .ok info)
    (hd : info.d_bits % 108 ≠ 0) {bb : ℕ} (hbb : bb < wm) (hbe : (bb : ZMod wm) = b) (x y : ℕ)
    {P : Pt b} (hP : HasCoords P (x : ZMod wm) (y : ZMod wm)) {p : AssignedPoint n} {r : List (AssignedValue n)}
    {t : Context n} (hrun : encodeDemo info bb (some (x, y)) (.new n) = .ok ((p, r), t)) (X Y : ℕ)
    (hX : X < 2 ^ info.w_ceil_bits) (hY : Y < 2 ^ info.w_ceil_bits) (eX : (X : ZMod wm) = x) (eY : (Y : ZMod wm) = y) :
    ∀ usable, t.Fits usable → ∃ w, (t.circuit usable).Sat w ∧ PRep info w p P ∧ r.map (cv w) = encTriple n X Y := by
  have hv := RangeInfo.new_valid hi
  obtain ⟨⟨p', r'⟩, w, hsh, ⟨x1, x2, x3, y1, y2, y3, z1, hr⟩, hw⟩ := forge (m' := encodeDemo info bb (some (X, Y)))
    ((rel_assign_point info bb _ _).bind fun a a' ha => (rel_ecc_encode info ha).bind fun _ _ hr =>
      Runs2.pure (sh_pair ha hr)) hrun
    (P := fun r => WF info AssignedValue.val r.1.x ∧ r.1.x.times = 1 ∧ V AssignedValue.val r.1.x = X ∧
      WF info AssignedValue.val r.1.y ∧ r.1.y.times = 1 ∧ V AssignedValue.val r.1.y = Y ∧ r.1.z.val = 0 ∧
      r.2.map AssignedValue.val = encTriple n X Y)
    (Q := fun w r => OkP w r.1 ∧ ∀ v ∈ r.2, Ok w v) (by
      intro c h
      refine C.bind (C_assign_point_wf hi hd hbb hX hY ?_) fun p ⟨x1, x2, x3, y1, y2, y3, z1⟩ => ?_
      · rw [eX, eY, hP.eqn, hbe]
      refine C.bind (C_ecc_encode hv (.inr ⟨x1, x2, rfl⟩) (.inr ⟨y1, y2, rfl⟩) (.inr z1) fun hH => hH.2) fun r hr =>
        C.pure ⟨x1, x2, x3, y1, y2, y3, z1, ?_⟩ fun hH => ⟨hH.1.2, hH.2⟩
      rw [hr, z1, if_neg zero_ne_one, if_neg zero_ne_one, x3, y3])
  intro usable hf
  obtain ⟨h1, h2, h3⟩ := hw usable hf
  obtain ⟨hs1, hs2⟩ := hsh
  have kx := WF.of_shape hs1.x h2.x x1
  have ky := WF.of_shape hs1.y h2.y y1
  refine ⟨w, h1, ⟨x, y, ⟨kx.1, by rw [kx.2, x3, eX]⟩, ⟨ky.1, by rw [ky.2, y3, eY]⟩, .inr ⟨?_, hP⟩⟩, ?_⟩
  · rw [hs1.z trivial, ← z1]; exact h2.z
  · rw [← hr]
    have : ∀ {l l' : List (AssignedValue n)}, sh True l l' → (∀ v ∈ l', Ok w v) →
        l.map (cv w) = l'.map AssignedValue.val := by
      intro l l' hl hok
      induction hl with
      | nil => rfl
      | cons ha _ ih =>
        rename_i a a' l l' _
        have : cv w a = a'.val := by
          show w a.cell = _
          rw [ha trivial]; exact hok a' List.mem_cons_self
        rw [List.map_cons, List.map_cons, this, ih fun v hv => hok v (List.mem_cons_of_mem _ hv)]
    exact this hs2 h3

/-- **C37 fails**: the triple is not determined by the point. For every point whose `x` has a second representative
below `2 ^ w_ceil_bits`, the circuit that assigns and encodes it has two satisfying assignments with the same point and
different triples. -/
theorem C37_violated_not_canonical [Fact n.Prime] [Fact wm.Prime] (hi : RangeInfo.new wm n 18 6 = .ok info)
    (hd : info.d_bits % 108 ≠ 0) {bb : ℕ} (hbb : bb < wm) (hbe : (bb : ZMod wm) = b) (x y : ℕ)
    (hx : x + wm < 2 ^ info.w_ceil_bits) (hy : y < wm) {P : Pt b} (hP : HasCoords P (x : ZMod wm) (y : ZMod wm)) :
    ∃ p r t, encodeDemo info bb (some (x, y)) (.new n) = .ok ((p, r), t) ∧
      ∀ usable, t.Fits usable → ∃ w w', (t.circuit usable).Sat w ∧ (t.circuit usable).Sat w' ∧
        PRep info w p P ∧ PRep info w' p P ∧ r.map (cv w) ≠ r.map (cv w') := by
  have hv := RangeInfo.new_valid hi
  have hy' : y < 2 ^ info.w_ceil_bits := hy.trans_le hv.w_hi
  obtain ⟨⟨p, r⟩, t, hrun, -⟩ : Accepted (encodeDemo info bb (some (x, y))) (fun _ => True) :=
    Accepted.of_C (Q := fun _ _ => True) fun c h => C.bind (C_assign_point_wf hi hd hbb (by omega) hy' (by
      rw [hP.eqn, hbe])) fun p ⟨x1, x2, x3, y1, y2, y3, z1⟩ =>
      C.bind (C_ecc_encode hv (.inr ⟨x1, x2, rfl⟩) (.inr ⟨y1, y2, rfl⟩) (.inr z1) fun hH => hH.2) fun r hr =>
        C.pure trivial fun _ => trivial
  refine ⟨p, r, t, hrun, fun usable hf => ?_⟩
  obtain ⟨w, w1, w2, w3⟩ := encode_any hi hd hbb hbe x y hP hrun x y (by omega) hy' rfl rfl usable hf
  obtain ⟨w', v1, v2, v3⟩ := encode_any hi hd hbb hbe x y hP hrun (x + wm) y hx hy' (by simp) rfl usable hf
  refine ⟨w, w', w1, v1, w2, v2, ?_⟩
  rw [w3, v3]
  intro e
  have hn : 2 ^ 216 ≤ n := by have := hv.n_big; omega
  have e1 := (encTriple_inj hn e).1
  have h2 : wm % 2 = 0 := by omega
  rcases (Fact.out : wm.Prime).eq_two_or_odd with h | h
  · have := hv.w_lo
    have h3 := hv.lead_ge
    have : 2 ^ 2 ≤ 2 ^ (info.w_ceil_bits - 1) := Nat.pow_le_pow_right (by norm_num) (by omega)
    omega
  · omega

/-- In particular for the generator of bn256. -/
theorem C37_violated_bn256 : ∃ info : RangeInfo bnR, RangeInfo.new bnQ bnR 18 6 = .ok info ∧
    ∃ G : Pt (3 : ZMod bnQ), HasCoords G 1 2 ∧
    ∃ p r t, encodeDemo info 3 (some (1, 2)) (.new bnR) = .ok ((p, r), t) ∧
      ∀ usable, t.Fits usable → ∃ w w', (t.circuit usable).Sat w ∧ (t.circuit usable).Sat w' ∧
        PRep info w p G ∧ PRep info w' p G ∧ r.map (cv w) ≠ r.map (cv w') := by
  obtain ⟨info, hs⟩ := Setup.of_summary summary_bnQ
  have hsum := hs.summary
  simp only [List.cons.injEq] at hsum
  obtain ⟨G, hG⟩ := bn_generator
  refine ⟨info, hs.new, G, by simpa using hG, C37_violated_not_canonical hs.new (by omega) (bb := 3)
    (by decide +kernel) (by norm_num) 1 2 ?_ (by decide +kernel) hG⟩
  rw [← hsum.2.1]
  decide +kernel

/-! ## Four limbs -/

/-- Coordinates of a point of BLS12-381 such that adding `2 ^ 324` to both coordinates gives a point again. -/
def collX : ℕ := 0xf50fdaf9e8047eba8714f0cd4fb15c7c1c4c95c4dae490cb12d4f15edf179ab30d33a0d8a0a3151a5ec7862e03f35c0
def collY : ℕ := 0x7e875b37019bce0cc0b6a92132917e6a992e5049ecbc64e69347cf2672840de8486d3d1f15212deddd7e848abcdc6f1

/-- The circuit that assigns and encodes two points. -/
def encodeTwo (info : RangeInfo n) (bb : ℕ) (p q : Option (ℕ × ℕ)) :
    M n ((AssignedPoint n × AssignedPoint n) × (List (AssignedValue n) × List (AssignedValue n))) := do
  let p ← assign_point info bb p
  let q ← assign_point info bb q
  let r ← ecc_encode info p
  let s ← ecc_encode info q
  pure ((p, q), (r, s))

/-- **C37 fails** for BLS12-381 also in its first half: there are two different points of the curve that the honest
prover encodes by the same triple, and the circuit is satisfied. -/
theorem C37_violated_collision : ∃ info : RangeInfo bnR, RangeInfo.new blsQ bnR 18 6 = .ok info ∧
    ∃ P Q : Pt (4 : ZMod blsQ), P ≠ Q ∧
    Accepted (encodeTwo info 4 (some (collX, collY)) (some (collX + 2 ^ 324, collY + 2 ^ 324))) (fun r =>
      HPRep info r.1.1 P ∧ HPRep info r.1.2 Q ∧ r.2.1.map AssignedValue.val = r.2.2.map AssignedValue.val) := by
  obtain ⟨info, hs⟩ := Setup.of_summary summary_blsQ
  have hsum := hs.summary
  simp only [List.cons.injEq] at hsum
  have hd : info.d_bits % 108 ≠ 0 := by omega
  have l1 : collX < blsQ := by decide +kernel
  have l2 : collY < blsQ := by decide +kernel
  have l3 : collX + 2 ^ 324 < blsQ := by decide +kernel
  have l4 : collY + 2 ^ 324 < blsQ := by decide +kernel
  have eqn : ∀ x y : ℕ, y ^ 2 % blsQ = (x ^ 3 + 4) % blsQ → (y : ZMod blsQ) ^ 2 = (x : ZMod blsQ) ^ 3 + 4 := by
    intro x y h
    exact_mod_cast (ZMod.natCast_eq_natCast_iff' (y ^ 2) (x ^ 3 + 4) blsQ).2 h
  obtain ⟨P, hP⟩ := HasCoords.of_eqn good_bls (eqn collX collY (by decide +kernel))
  obtain ⟨Q, hQ⟩ := HasCoords.of_eqn good_bls (eqn (collX + 2 ^ 324) (collY + 2 ^ 324) (by decide +kernel))
  have val : ∀ x : ℕ, x < blsQ → (x : ZMod blsQ).val = x := fun x hx => ZMod.val_natCast_of_lt hx
  refine ⟨info, hs.new, P, Q, ?_, Accepted.of_C (Q := fun _ _ => True) fun c h => ?_⟩
  · rintro rfl
    obtain ⟨k, rfl⟩ := hP
    obtain ⟨k', e⟩ := hQ
    injection e with e1
    have := congrArg ZMod.val e1
    rw [val _ l1, val _ l3] at this
    omega
  · refine C.bind (C_assign_point hs.new hd (bb := 4) (by decide +kernel) (by norm_num)
      (.inr ⟨collX, collY, rfl, l1, l2, hP⟩)) fun p hp => ?_
    refine C.bind (C_assign_point hs.new hd (bb := 4) (by decide +kernel) (by norm_num)
      (.inr ⟨collX + 2 ^ 324, collY + 2 ^ 324, rfl, l3, l4, hQ⟩)) fun q hq => ?_
    refine C.bind ((C37_encode_complete hs.new p P hp.1 c h).weaken fun hH => hH.1.2) fun r hr =>
      C.bind ((C37_encode_complete hs.new q Q hq.1 c h).weaken fun hH => hH.1.2) fun s hs => ?_
    refine C.pure ⟨hp.1, hq.1, ?_⟩ fun _ => trivial
    simp only
    rw [hr.2 _ _ hP, hs.2 _ _ hQ, val _ l1, val _ l2, val _ l3, val _ l4]
    have ex : (collX + 2 ^ 324) % 2 ^ 324 = collX % 2 ^ 324 := by omega
    have : ∀ X Y X' Y' : ℕ, X % 2 ^ 324 = X' % 2 ^ 324 → Y % 2 ^ 324 = Y' % 2 ^ 324 →
        encTriple bnR X Y = encTriple bnR X' Y' := by
      intro X Y X' Y' e1 e2
      rw [encTriple, encTriple, show X % 2 ^ 216 = X' % 2 ^ 216 by omega,
        show X / 2 ^ 216 % 2 ^ 108 = X' / 2 ^ 216 % 2 ^ 108 by omega, show Y % 2 ^ 108 = Y' % 2 ^ 108 by omega,
        show Y / 2 ^ 108 % 2 ^ 216 = Y' / 2 ^ 108 % 2 ^ 216 by omega]
    exact this _ _ _ _ (by omega) (by omega)

end Verif
