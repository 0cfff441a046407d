import Verif.Proof.CounterApi
import Verif.Spec.Counters
import Verif.Props.IntegerFindings

/-!
# C68: counters

Every `AssignedInteger` carries a `u64` that bounds its limbs. The chips add and multiply these counters with the plain
operators of Rust, which panic on overflow in builds with debug assertions and wrap around in other builds. If a counter
wrapped around, an integer with large limbs would pass for a reduced one, and its limbs would overflow the native field in
the next multiplication.
-/

namespace Verif
variable {n : ℕ}

theorem small_ints {r : Tag n} {σ : Store n} (h : Small r σ) : ∀ a ∈ σ.ints, a.times ≤ 16 := by
  have h := storeSmall_iff.1 h
  have hi : ∀ {a : AssignedInteger n}, Small r a → a.times ≤ 16 := fun h => h ⟨_⟩ (List.mem_singleton.2 rfl)
  intro a ha
  unfold Store.ints at ha
  simp only [List.mem_append, List.mem_flatMap, List.mem_flatten] at ha
  rcases ha with (((((((ha | ⟨p, hp, ha⟩) | ⟨p, hp, ha⟩) | ⟨p, hp, ha⟩) | ⟨p, hp, ha⟩) | ⟨p, hp, ha⟩) | ⟨p, hp, ha⟩) |
    ⟨p, hp, ha⟩) | ⟨p, ⟨l, hl, hp⟩, ha⟩
  · exact hi (small_list_iff.1 h.i a ha)
  · have := small_list_iff.1 h.p p hp
    simp only [AssignedPoint.ints, List.mem_cons, List.not_mem_nil, or_false] at ha
    rcases ha with rfl | rfl
    exacts [hi (small_px this), hi (small_py this)]
  · have := small_list_iff.1 h.c p hp
    simp only [AssignedPointWithCurvature.ints, List.mem_cons, List.not_mem_nil, or_false] at ha
    rcases ha with rfl | rfl | rfl
    exacts [hi (small_pcx this), hi (small_pcy this), hi (small_cv (small_pcc this))]
  · have := small_list_iff.1 h.z p hp
    simp only [AssignedNonZeroPoint.ints, List.mem_cons, List.not_mem_nil, or_false] at ha
    rcases ha with rfl | rfl
    exacts [hi (small_nx this), hi (small_ny this)]
  · have := small_list_iff.1 h.f2 p hp
    simp only [AssignedFq2.ints, List.mem_cons, List.not_mem_nil, or_false] at ha
    rcases ha with rfl | rfl
    exacts [hi (small_fst this), hi (small_snd this)]
  · have := small_list_iff.1 h.f6 p hp
    simp only [AssignedFq6.ints, List.mem_cons, List.not_mem_nil, or_false] at ha
    rcases ha with rfl | rfl | rfl | rfl | rfl | rfl
    exacts [hi (small_fst (small_f60 this)), hi (small_snd (small_f60 this)), hi (small_fst (small_f61 this)),
      hi (small_snd (small_f61 this)), hi (small_fst (small_f62 this)), hi (small_snd (small_f62 this))]
  · have := small_list_iff.1 h.f12 p hp
    simp only [AssignedFq12.ints, AssignedFq6.ints, List.mem_append, List.mem_cons, List.not_mem_nil, or_false] at ha
    rcases ha with (rfl | rfl | rfl | rfl | rfl | rfl) | rfl | rfl | rfl | rfl | rfl | rfl
    · exact hi (small_fst (small_f60 (small_f120 this)))
    · exact hi (small_snd (small_f60 (small_f120 this)))
    · exact hi (small_fst (small_f61 (small_f120 this)))
    · exact hi (small_snd (small_f61 (small_f120 this)))
    · exact hi (small_fst (small_f62 (small_f120 this)))
    · exact hi (small_snd (small_f62 (small_f120 this)))
    · exact hi (small_fst (small_f60 (small_f121 this)))
    · exact hi (small_snd (small_f60 (small_f121 this)))
    · exact hi (small_fst (small_f61 (small_f121 this)))
    · exact hi (small_snd (small_f61 (small_f121 this)))
    · exact hi (small_fst (small_f62 (small_f121 this)))
    · exact hi (small_snd (small_f62 (small_f121 this)))
  · have := small_list_iff.1 h.g2 p hp
    simp only [AssignedG2Affine.ints, List.mem_cons, List.not_mem_nil, or_false] at ha
    rcases ha with rfl | rfl | rfl | rfl
    exacts [hi (small_fst (small_gax this)), hi (small_snd (small_gax this)), hi (small_fst (small_gay this)),
      hi (small_snd (small_gay this))]
  · have := small_list_iff.1 (small_list_iff.1 h.lines l hl) p hp
    simp only [LineCoeffs.ints, List.mem_cons, List.not_mem_nil, or_false] at ha
    rcases ha with rfl | rfl | rfl | rfl | rfl | rfl
    exacts [hi (small_fst (small_l0 this)), hi (small_snd (small_l0 this)), hi (small_fst (small_l1 this)),
      hi (small_snd (small_l1 this)), hi (small_fst (small_l2 this)), hi (small_snd (small_l2 this))]

theorem safe_client (A : Api n) {wm sm : ℕ} (h1 : RangeInfo.new wm n 18 6 = .ok A.info)
    (h2 : RangeInfo.new sm n 18 6 = .ok A.sinfo) (w : Witness n) (calls : List (Call n)) (pre : Option ℕ) :
    Safe ⟨⟩ (runCalls A w calls (.empty n pre)) Small :=
  haveI : Six A.info := ⟨(RangeInfo.new_valid h1).overflow_bits⟩
  haveI : Six A.sinfo := ⟨(RangeInfo.new_valid h2).overflow_bits⟩
  cnt_runCalls A w calls (small_none rfl)

/-- **C68.** Whatever moduli of the integer chip and of the scalars, whatever calls a client makes, whatever the witness
(also one that no honest prover would use) and from whatever state: no computation of a counter leaves the range of `u64`.
So builds with and without overflow checks record the same circuit. -/
theorem C68_no_overflow (A : Api n) {wm sm : ℕ} (h1 : RangeInfo.new wm n 18 6 = .ok A.info)
    (h2 : RangeInfo.new sm n 18 6 = .ok A.sinfo) (w : Witness n) (calls : List (Call n)) (pre : Option ℕ)
    (s : Context n) : runCalls A w calls (.empty n pre) s ≠ .error .overflow :=
  (safe_client A h1 h2 w calls pre s).1

/-- **C68.** All integers a client ever holds, alone or as part of a point, of an element of the tower or of the lines of
a pairing, have a counter of at most 16. -/
theorem C68_counters (A : Api n) {wm sm : ℕ} (h1 : RangeInfo.new wm n 18 6 = .ok A.info)
    (h2 : RangeInfo.new sm n 18 6 = .ok A.sinfo) (w : Witness n) (calls : List (Call n)) (pre : Option ℕ)
    {s : Context n} {τ : Store n} {t : Context n} (h : runCalls A w calls (.empty n pre) s = .ok (τ, t)) :
    ∀ a ∈ τ.ints, a.times ≤ 16 :=
  small_ints ((safe_client A h1 h2 w calls pre s).2 _ _ h)

/-! ## The bound is attained, and the check is not vacuous -/

variable {wm : ℕ} {info : RangeInfo n}

/-- Sums of at most 16 are not reduced. -/
theorem add_times (h : RangeInfo.new wm n 18 6 = .ok info) {a b : AssignedInteger n} (ht : a.times + b.times ≤ 16)
    {s t : Context n} {r : AssignedInteger n} (e : int_add info a b s = .ok (r, t)) : r.times = a.times + b.times := by
  unfold int_add at e
  obtain ⟨_, _, -, e⟩ := run_bind_ok.1 e
  obtain ⟨_, _, -, e⟩ := run_bind_ok.1 e
  obtain ⟨_, _, -, e⟩ := run_bind_ok.1 e
  unfold conditionally_reduce at e
  rw [(RangeInfo.new_valid h).overflow_bits, if_neg (by simpa using ht)] at e
  cases e
  rfl

theorem C_add_times (h : RangeInfo.new wm n 18 6 = .ok info) {a b : AssignedInteger n} (ht : a.times + b.times ≤ 16)
    {x y : ZMod wm} (ha : HRep wm info a x) (hb : HRep wm info b y) {c : Circuit n} {w : Advice n} {H : Prop}
    (hok : H → OkI w a ∧ OkI w b) :
    C c w H (int_add info a b) (fun r => HRep wm info r (x + y) ∧ r.times = a.times + b.times) (OkI w) := by
  have := (C12_add_complete h a b x y ha hb (by omega) c w).weaken hok
  intro s hs
  obtain ⟨r, t, e, h1, h2, h3, h4⟩ := this s hs
  exact ⟨r, t, e, h1, h2, ⟨h3.1, add_times h ht e⟩, h4⟩

theorem C_double_call (A : Api n) (h : RangeInfo.new wm n 18 6 = .ok A.info) (wit : Witness n) {σ : Store n} {k : ℕ}
    {a : AssignedInteger n} (hk : σ.i[k]? = some a) {x : ZMod wm} (ha : HRep wm A.info a x) (ht : a.times + a.times ≤ 16)
    {c : Circuit n} {w : Advice n} {H : Prop} (hok : H → ∀ r ∈ σ.i, OkI w r) :
    C c w H (runCall A wit σ (.int_add false k k))
      (fun τ => ∃ r, τ = σ.pushI r ∧ HRep wm A.info r (x + x) ∧ r.times = a.times + a.times)
      (fun τ => ∀ r ∈ τ.i, OkI w r) := by
  have hm := List.mem_of_getElem? hk
  have hx : (index σ.i k : M n (AssignedInteger n)) = pure a := by unfold index; rw [hk]
  show C c w H (index σ.i k >>= fun b => index σ.i k >>= fun d => int_add A.info b d >>= fun r => pure (σ.pushI r)) _ _
  rw [hx, pure_bind, pure_bind]
  refine C.bind (C_add_times h ht ha ha fun hH => ⟨hok hH a hm, hok hH a hm⟩) fun r hr => C.pure ⟨r, rfl, hr⟩ ?_
  intro hH q hq
  rcases List.mem_append.1 hq with hq | hq
  · exact hok hH.1 q hq
  · rw [List.mem_singleton.1 hq]
    exact hH.2

/-- The bound of `C68_counters` is attained in every set-up: by doubling an assigned integer four times. -/
theorem C68_attained (A : Api n) (h : RangeInfo.new wm n 18 6 = .ok A.info) (w : Witness n) (hw : w.nat 0 < wm) :
    ∃ τ t, runCalls A w [.assign_w false 0, .int_add false 0 0, .int_add false 1 1, .int_add false 2 2,
      .int_add false 3 3] (.empty n none) (.new n) = .ok (τ, t) ∧ τ.ints.map AssignedInteger.times = [1, 2, 4, 8, 16] := by
  obtain ⟨τ, t, e, -, hp, -⟩ := C.run_new (m := runCalls A w [.assign_w false 0, .int_add false 0 0, .int_add false 1 1,
    .int_add false 2 2, .int_add false 3 3] (.empty n none))
    (P := fun τ => τ.ints.map AssignedInteger.times = [1, 2, 4, 8, 16]) (Q := fun _ _ => True) fun c v => by
      have h0 : C c v True (runCall A w (.empty n none) (.assign_w false 0))
          (fun τ => ∃ r, τ = (Store.empty n none).pushI r ∧ HRep wm A.info r (w.nat 0) ∧ r.times = 1)
          (fun τ => ∀ r ∈ τ.i, OkI v r) := by
        unfold runCall
        refine C.bind (C11_assign_w_complete h _ hw c v) fun r hr => C.pure ⟨r, rfl, hr.1, hr.2.1⟩ ?_
        intro hH q hq
        rw [List.mem_singleton.1 hq]
        exact hH.2
      refine C.bind h0 ?_
      rintro _ ⟨r0, rfl, h1, t1⟩
      refine C.bind (C_double_call A h w rfl h1 (by omega) fun hH => hH.2) ?_
      rintro _ ⟨r1, rfl, h2, t2⟩
      refine C.bind (C_double_call A h w rfl h2 (by omega) fun hH => hH.2) ?_
      rintro _ ⟨r2, rfl, h3, t3⟩
      refine C.bind (C_double_call A h w rfl h3 (by omega) fun hH => hH.2) ?_
      rintro _ ⟨r3, rfl, h4, t4⟩
      refine C.bind (C_double_call A h w rfl h4 (by omega) fun hH => hH.2) ?_
      rintro _ ⟨r4, rfl, h5, t5⟩
      refine C.pure ?_ fun _ => trivial
      show [r0.times, r1.times, r2.times, r3.times, r4.times] = [1, 2, 4, 8, 16]
      rw [t5, t4, t3, t2, t1]
  exact ⟨τ, t, e, hp⟩

/-- The three supported set-ups have such a range info. -/
theorem C68_supported : ∀ wm ∈ [bnQ, blsR, blsQ], ∃ A : Api bnR, RangeInfo.new wm bnR 18 6 = .ok A.info ∧
    RangeInfo.new wm bnR 18 6 = .ok A.sinfo := by
  intro wm h
  obtain ⟨info, hi, -⟩ := C50_supported wm h
  exact ⟨⟨info, info, 0, 0, 0, (0, 0)⟩, hi, hi⟩

/-- The check is not vacuous: a client that could make up counters would overflow them. For every set-up there is an
integer, correct but for its counter, whose sum with itself overflows. -/
theorem C68_check_fails (h : RangeInfo.new wm n 18 6 = .ok info) (hw : 0 < wm) : ∃ (a : AssignedInteger n) (s : Context n),
    HRep wm info { a with times := 1 } (0 : ZMod wm) ∧ int_add info a a s = .error .overflow := by
  obtain ⟨a, t, e, -, ⟨ha, ht, -⟩, -⟩ := C.run_new (C11_assign_w_complete h 0 hw)
  obtain ⟨r, u, e', -⟩ := C12_add_complete h a a 0 0 (by simpa using ha) (by simpa using ha) (by omega)
    ⟨0, fun _ _ => 0, fun _ _ => 0, fun _ _ => 0, []⟩ (fun _ => 0) _ (Context.new_fresh (n := n))
  refine ⟨{ a with times := 2 ^ 63 }, .new n, ?_, ?_⟩
  · have : ({ a with times := 1 } : AssignedInteger n) = a := by rw [← ht]
    show HRep wm info { a with times := 1 } 0
    rw [this]
    simpa using ha
  · unfold int_add at e' ⊢
    obtain ⟨l, v, e1, -⟩ := run_bind_ok.1 e'
    rw [run_bind, e1]
    dsimp only
    rw [run_bind]
    have : (fits_u64 (2 ^ 63 + 2 ^ 63) : M n Unit) = panic .overflow := if_neg (by decide)
    rw [this]
    rfl

end Verif
