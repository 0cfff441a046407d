import Verif.Proof.Forge
import Verif.Props.Scalar

/-!
# C26 and C27 fail: the digits of a scalar can be forged

For every scalar, of every size and with every window size, the circuit recorded for its decomposition accepts an
assignment in which the scalar is the same and one of the "bits" is `-1`.
-/

namespace Verif
variable {n wm : ℕ} {info : RangeInfo n}

theorem neg_one_not_bit [Fact n.Prime] (hn : 2 < n) : (-1 : ZMod n) ≠ 0 ∧ (-1 : ZMod n) ≠ 1 := by
  haveI : Fact (2 < n) := ⟨hn⟩
  exact ⟨neg_ne_zero.2 one_ne_zero, ZMod.neg_one_ne_one⟩

theorem forged_cells {res res' : List (List (AssignedCondition n))} (h : sh True res res') {w : Advice n}
    (hok : ∀ win ∈ res', ∀ b ∈ win, Ok w b) {x : ZMod n} (hb : ∃ win ∈ res', ∃ b ∈ win, b.val = x) :
    ∃ win ∈ res, ∃ b ∈ win, w b.cell = x := by
  obtain ⟨win', h1, b', h2, h3⟩ := hb
  obtain ⟨i, hi⟩ := List.mem_iff_getElem?.1 h1
  obtain ⟨j, hj⟩ := List.mem_iff_getElem?.1 h2
  have hl : res.length = res'.length := List.Forall₂.length_eq h
  have hw := List.forall₂_iff_get.1 h
  have i1 : i < res'.length := (List.getElem?_eq_some_iff.1 hi).1
  have e1 : res'[i] = win' := (List.getElem?_eq_some_iff.1 hi).2
  have hwin : sh True (res[i]'(hl ▸ i1)) win' := by
    have := hw.2 i (hl ▸ i1) i1
    simp only [List.get_eq_getElem, e1] at this
    exact this
  have hl' := List.Forall₂.length_eq hwin
  have j1 : j < win'.length := (List.getElem?_eq_some_iff.1 hj).1
  have e2 : win'[j] = b' := (List.getElem?_eq_some_iff.1 hj).2
  have hbb : sh True ((res[i]'(hl ▸ i1))[j]'(hl' ▸ j1)) b' := by
    have := (List.forall₂_iff_get.1 hwin).2 j (hl' ▸ j1) j1
    simp only [List.get_eq_getElem, e2] at this
    exact this
  refine ⟨_, List.getElem_mem (hl ▸ i1), _, List.getElem_mem (hl' ▸ j1), ?_⟩
  rw [hbb trivial, ← h3]
  exact hok _ h1 _ h2

theorem not_windows [Fact n.Prime] (hn : 2 < n) {w : Advice n} {ws : ℕ} {res : List (List (AssignedCondition n))}
    (h : ∃ win ∈ res, ∃ b ∈ win, w b.cell = -1) : ¬ ∃ k, Windows (cv w) ws res k := by
  rintro ⟨k, hk⟩
  obtain ⟨win, h1, b, h2, h3⟩ := h
  have := hk.bit win h1 b h2
  simp only [cv, h3] at this
  rcases this with h | h
  · exact (neg_one_not_bit hn).1 h
  · exact (neg_one_not_bit hn).2 h

/-- **C26 fails** for every scalar, bit length and window size: the circuit has a satisfying assignment with the same
scalar in which the digits are not the binary expansion of any number. -/
theorem C26_violated [Fact n.Prime] (hn2 : 2 < n) (num_bits ws : ℕ) (hws : 1 ≤ ws) (hn : n ≤ 2 ^ num_bits) (v : ZMod n) :
    ∃ s res t, (do let s ← assign v; let r ← decompose_scalar_native num_bits ws s; pure (s, r) : M n _) (.new n) =
        .ok ((s, res), t) ∧
      ∀ usable, t.Fits usable → ∃ w, (t.circuit usable).Sat w ∧ w s.cell = v ∧
        (∃ win ∈ res, ∃ b ∈ win, w b.cell = -1) ∧ ¬ ∃ k, Windows (cv w) ws res k := by
  have hb : 2 ≤ num_bits := by
    by_contra hlt
    have : 2 ^ num_bits ≤ 2 ^ 1 := Nat.pow_le_pow_right (by norm_num) (by omega)
    omega
  obtain ⟨k, hk⟩ : ∃ k, num_bits / 2 = k + 1 := ⟨num_bits / 2 - 1, by omega⟩
  obtain ⟨⟨s, res⟩, t, hrun, -⟩ : Accepted (do
      let s ← assign v; let r ← decompose_scalar_native num_bits ws s; pure (s, r) : M n _) (fun _ => True) :=
    Accepted.of_C (Q := fun _ _ => True) fun c h => C.bind C_assign fun s hs =>
      C.bind (C_decompose_scalar_native (by omega) hn fun hH => hH.2) fun r hr => C.pure trivial fun _ => trivial
  refine ⟨s, res, t, hrun, ?_⟩
  obtain ⟨⟨s', res'⟩, w, hsh, ⟨hs, hbad⟩, hw⟩ := forge (m' := do
      let s ← assign v
      let r ← (do let r ← forge_native_bits s.val.val k s; finish_native num_bits ws r : M n _)
      pure (s, r))
    ((rel_assign v v).bind fun a a' ha => Runs2.bind (R := sh True)
        (by
          rw [decompose_scalar_native_eq, hk]
          exact (rel_forge_native_bits _ _ _ ha).bind fun _ _ hr => rel_finish_native _ _ hr)
        fun _ _ hr => Runs2.pure (sh_pair ha hr)) hrun
    (P := fun r => r.1.val = v ∧ ∃ win ∈ r.2, ∃ b ∈ win, b.val = -1)
    (Q := fun w r => Ok w r.1 ∧ ∀ win ∈ r.2, ∀ b ∈ win, Ok w b) (by
      intro c h
      refine C.bind C_assign fun s hs => ?_
      refine C.bind (P := fun res => ∃ win ∈ res, ∃ b ∈ win, b.val = -1)
        (Q := fun res => ∀ win ∈ res, ∀ b ∈ win, Ok h b) ?_ fun r hr => C.pure ⟨hs, hr⟩ fun hH => ⟨hH.1.2, hH.2⟩
      refine C.bind (C_forge_native_bits _ k (by simp) fun hH => hH.2) fun r hr => ?_
      rw [← hk] at hr
      exact C_finish_native (by omega) (lt_of_lt_of_le (ZMod.val_lt _) hn) hr.1 hr.2.1 hr.2.2 fun hH => hH.2)
  intro usable hf
  obtain ⟨h1, h2, h3⟩ := hw usable hf
  have hcell := forged_cells hsh.2 h3 hbad
  refine ⟨w, h1, ?_, hcell, not_windows hn2 hcell⟩
  have := hsh.1 trivial
  simp only at this
  rw [this, ← hs]; exact h2

theorem limbAt_shape {l l' : List (AssignedValue n)} (hl : sh True l l') {w : Advice n} (hok : ∀ x ∈ l', Ok w x) (i : ℕ) :
    limbAt (cv w) l i = limbAt AssignedValue.val l' i := by
  induction hl generalizing i with
  | nil => rfl
  | cons h _ ih =>
    rename_i x x' l l' _
    cases i with
    | zero =>
      show (w x.cell).val = x'.val.val
      rw [h trivial, hok x' List.mem_cons_self]
    | succ i => exact ih (fun y hy => hok y (List.mem_cons_of_mem _ hy)) i

/-- An integer with the cells of an honestly recorded one stands for the recorded element. -/
theorem HRep.rep_of_shape {s s' : AssignedInteger n} (hs : sh True s s') {w : Advice n} (hok : OkI w s') {x : ZMod wm}
    (h : HRep wm info s' x) : Rep wm info w s x := by
  have hl : ∀ i, limbAt (cv w) s.limbs_le i = limbAt AssignedValue.val s'.limbs_le i :=
    limbAt_shape hs.limbs hok.limb
  have hlen : s.limbs_le.length = s'.limbs_le.length := List.Forall₂.length_eq hs.limbs
  have hV : V (cv w) s = V AssignedValue.val s' := by
    unfold V VL
    rw [hlen]
    exact Finset.sum_congr rfl fun i _ => by rw [hl i]
  have ht := hs.times
  have hnat : cv w s.native = s'.native.val := by
    show w s.native.cell = _
    rw [hs.native trivial]; exact hok.native
  have wf := h.honest.wf
  exact ⟨⟨by rw [hlen, wf.len], by rw [ht]; exact wf.times_pos, by rw [ht]; exact wf.times_lt,
    fun i => by rw [hl, ht]; exact wf.limb i, by rw [hV, ht]; exact wf.val, by rw [hnat, hV]; exact wf.native⟩,
    by rw [hV]; exact h.eq⟩

/-- **C27 fails** for every scalar and window size. -/
theorem C27_violated [Fact n.Prime] (hi : RangeInfo.new wm n 18 6 = .ok info) (ws : ℕ) (hws : 1 ≤ ws) (x : ℕ)
    (hx : x < wm) :
    ∃ s res t, (do let s ← assign_w info x; let r ← decompose_scalar_general info ws s; pure (s, r) : M n _) (.new n) =
        .ok ((s, res), t) ∧
      ∀ usable, t.Fits usable → ∃ w, (t.circuit usable).Sat w ∧ Rep wm info w s (x : ZMod wm) ∧
        (∃ win ∈ res, ∃ b ∈ win, w b.cell = -1) ∧ ¬ ∃ k, Windows (cv w) ws res k := by
  have hv := RangeInfo.new_valid hi
  have hn2 : 2 < n := lt_of_le_of_lt (by norm_num) hv.n_gt
  obtain ⟨⟨s, res⟩, t, hrun, -⟩ : Accepted (do
      let s ← assign_w info x; let r ← decompose_scalar_general info ws s; pure (s, r) : M n _) (fun _ => True) :=
    Accepted.of_C (Q := fun _ _ => True) fun c h => C.bind (C_assign_w hv hx) fun s hs =>
      C.bind (C_decompose_scalar_general hv (by omega) hs.1 fun hH => hH.2) fun r hr => C.pure trivial fun _ => trivial
  refine ⟨s, res, t, hrun, ?_⟩
  obtain ⟨⟨s', res'⟩, w, hsh, ⟨hs, hbad⟩, hw⟩ := forge (m' := do
      let s ← assign_w info x
      let r ← forge_general info ws s
      pure (s, r))
    ((rel_assign_w info x x).bind fun a a' ha => (rel_forge_general (by rw [hv.limb_bits]; norm_num) ws ha).bind
        fun _ _ hr => Runs2.pure (sh_pair ha hr)) hrun
    (P := fun r => HRep wm info r.1 (x : ZMod wm) ∧ ∃ win ∈ r.2, ∃ b ∈ win, b.val = -1)
    (Q := fun w r => OkI w r.1 ∧ ∀ win ∈ r.2, ∀ b ∈ win, Ok w b) (by
      intro c h
      refine C.bind (C_assign_w hv hx) fun s hs => ?_
      exact C.bind (C_forge_general hv (by omega) hs.1 fun hH => hH.2) fun r hr =>
        C.pure ⟨⟨hs.1, by rw [hs.2.2.1]⟩, hr⟩ fun hH => ⟨hH.1.2, hH.2⟩)
  intro usable hf
  obtain ⟨h1, h2, h3⟩ := hw usable hf
  have hcell := forged_cells hsh.2 h3 hbad
  exact ⟨w, h1, hs.rep_of_shape hsh.1 h2, hcell, not_windows hn2 hcell⟩

/-- In particular, with the fields used by the library: a bn256 scalar in 254 native bits, windows of 4 bits. -/
example (v : ZMod bnR) : ∃ s res t,
    (do let s ← assign v; let r ← decompose_scalar_native 254 4 s; pure (s, r) : M bnR _) (.new bnR) =
        .ok ((s, res), t) ∧
      ∀ usable, t.Fits usable → ∃ w, (t.circuit usable).Sat w ∧ w s.cell = v ∧
        (∃ win ∈ res, ∃ b ∈ win, w b.cell = -1) ∧ ¬ ∃ k, Windows (cv w) 4 res k :=
  C26_violated (by decide +kernel) 254 4 (by norm_num) (by decide +kernel) v

end Verif
