import Verif.Proof.MsmTop
import Verif.Proof.SelectComplete
import Verif.Proof.ParallelComplete
import Verif.Proof.RelMsm

/-!
# Multi-scalar multiplication, completeness of the parts
-/

namespace Verif
variable {n wm : ℕ} {info : RangeInfo n} {b : ZMod wm} {c : Circuit n} {h : Advice n} {H : Prop} {σ : Type}

theorem C.tryB {α β : Type} {m : M n (Except UnsafeError α)} {k : α → M n (Except UnsafeError β)} {P Q : α → Prop}
    {P' Q' : Except UnsafeError β → Prop}
    (hm : C c h H m (fun r => ∃ a, r = .ok a ∧ P a) (fun r => ∀ a, r = .ok a → Q a))
    (hk : ∀ a, P a → C c h (H ∧ Q a) (k a) P' Q') : C c h H (tryB m k) P' Q' := by
  unfold Verif.tryB
  refine C.bind hm ?_
  rintro r ⟨a, rfl, hp⟩
  exact (hk a hp).weaken fun hH => ⟨hH.1, hH.2 a rfl⟩

/-- An affine point of an honest prover in reduced form. -/
def HRed (info : RangeInfo n) {b : ZMod wm} (p : AssignedNonZeroPoint n) (P : Pt b) : Prop :=
  HNRep info p P ∧ p.x.times = 1 ∧ p.y.times = 1

section
variable [Fact n.Prime] (hi : RangeInfo.new wm n 18 6 = .ok info)
include hi

omit [Fact n.Prime] in
theorem C_reduce_nz {a : AssignedNonZeroPoint n} {P : Pt b} (hP : HNRep info a P) (hok : H → OkN h a) :
    C c h H (ecc_reduce_non_zero info a) (fun r => HRed info r P) (OkN h) := by
  obtain ⟨⟨x, y, hx, hy, hP⟩, -, -⟩ := hP
  refine C.bind ((C13_reduce_complete hi a.x _ hx c h).weaken fun hH => (hok hH).x) fun rx h1 =>
    C.bind ((C13_reduce_complete hi a.y _ hy c h).weaken fun hH => (hok hH.1).y) fun ry h2 =>
    C.pure ⟨⟨⟨x, y, h1.1, h2.1, hP⟩, ?_, ?_⟩, h1.2.1, h2.2.1⟩ fun hH => ⟨hH.1.2, hH.2⟩
  · show rx.times ≤ 16
    have := h1.2.1
    omega
  · show ry.times ≤ 16
    have := h2.2.1
    omega

omit [Fact n.Prime] in
theorem C_neg_nz [Fact wm.Prime] {a : AssignedNonZeroPoint n} {P : Pt b} (hP : HNRep info a P) (hok : H → OkN h a) :
    C c h H (ecc_neg_non_zero info a) (fun r => HNRep info r (-P)) (OkN h) := by
  obtain ⟨⟨x, y, hx, hy, hP⟩, tx, ty⟩ := hP
  refine C.bind ((C12_neg_complete hi a.y y hy (by omega) c h).weaken fun hH => (hok hH).y) fun y' hy' =>
    C.pure ⟨⟨x, -y, hx, hy'.1, hP.neg⟩, tx, hy'.2⟩ fun hH => ⟨(hok hH.1).x, hH.2⟩

theorem C_bisec_nz {cond : AssignedCondition n} {p q : AssignedNonZeroPoint n} {P Q : Pt b} (hP : HNRep info p P)
    (hQ : HNRep info q Q) (hc : cond.val = 1 ∨ cond.val = 0) (hok : H → Ok h cond ∧ OkN h p ∧ OkN h q) :
    C c h H (ecc_bisec_non_zero_point info cond p q) (fun r => HNRep info r (if cond.val = 1 then P else Q)) (OkN h) := by
  obtain ⟨⟨x, y, hx, hy, hP⟩, tx, ty⟩ := hP
  obtain ⟨⟨x', y', hx', hy', hQ⟩, tx', ty'⟩ := hQ
  refine C.bind ((C17_bisec_int_complete hi cond p.x q.x x x' hx hx' hc c h).weaken fun hH =>
      ⟨(hok hH).1, (hok hH).2.1.x, (hok hH).2.2.x⟩) fun rx h1 =>
    C.bind ((C17_bisec_int_complete hi cond p.y q.y y y' hy hy' hc c h).weaken fun hH =>
      ⟨(hok hH.1).1, (hok hH.1).2.1.y, (hok hH.1).2.2.y⟩) fun ry h2 =>
    C.pure ⟨⟨_, _, h1.1, h2.1, ?_⟩, ?_, ?_⟩ fun hH => ⟨hH.1.2, hH.2⟩
  · split
    exacts [hP, hQ]
  · show rx.times ≤ 16
    have := h1.2
    omega
  · show ry.times ≤ 16
    have := h2.2
    omega

theorem C_bisec_to_nz {p : AssignedPoint n} {q : AssignedNonZeroPoint n} {P Q : Pt b} (hP : HPRep info p P)
    (hQ : HNRep info q Q) (hok : H → OkP h p ∧ OkN h q) :
    C c h H (ecc_bisec_to_non_zero_point info p q) (fun r => HNRep info r (if p.z.val = 1 then Q else P)) (OkN h) := by
  obtain ⟨⟨x, y, hx, hy, hP⟩, tx, ty⟩ := hP
  obtain ⟨⟨x', y', hx', hy', hQ⟩, tx', ty'⟩ := hQ
  have hc : p.z.val = 1 ∨ p.z.val = 0 := by rcases hP with h | h; exacts [.inl h.1, .inr h.1]
  refine C.bind ((C17_bisec_int_complete hi p.z q.x p.x x' x hx' hx hc c h).weaken fun hH =>
      ⟨(hok hH).1.z, (hok hH).2.x, (hok hH).1.x⟩) fun rx h1 =>
    C.bind ((C17_bisec_int_complete hi p.z q.y p.y y' y hy' hy hc c h).weaken fun hH =>
      ⟨(hok hH.1).1.z, (hok hH.1).2.y, (hok hH.1).1.y⟩) fun ry h2 =>
    C.pure ⟨⟨_, _, h1.1, h2.1, ?_⟩, ?_, ?_⟩ fun hH => ⟨hH.1.2, hH.2⟩
  · split
    · exact hQ
    · rename_i hz
      rcases hP with h | h
      exacts [absurd h.1 hz, h.2]
  · show rx.times ≤ 16
    have := h1.2
    omega
  · show ry.times ≤ 16
    have := h2.2
    omega

omit hi [Fact n.Prime] in
theorem C_downgrade {a : AssignedNonZeroPoint n} {P : Pt b} (hP : HNRep info a P) (hok : H → OkN h a) :
    C c h H (ecc_non_zero_point_downgrade a) (fun r => HPRep info r P) (OkP h) := by
  obtain ⟨⟨x, y, hx, hy, hP⟩, tx, ty⟩ := hP
  exact C.bind C_assign_constant fun z hz => C.pure ⟨⟨x, y, hx, hy, .inr ⟨hz, hP⟩⟩, tx, ty⟩ fun hH =>
    ⟨(hok hH.1).x, (hok hH.1).y, hH.2⟩

/-! ### Candidates without the select chip -/

theorem C_bisec_pairs {bit : AssignedCondition n} (hbit : bit.val = 0 ∨ bit.val = 1) :
    ∀ (m : ℕ) (cl : List (AssignedNonZeroPoint n)) (Q : ℕ → Pt b) {H : Prop}, cl.length = 2 * m →
    (∀ i p, cl[i]? = some p → HNRep info p (Q i)) → (H → Ok h bit ∧ ∀ p ∈ cl, OkN h p) →
    C c h H (bisec_pairs info bit cl) (fun r => r.length = m ∧ ∀ j p, r[j]? = some p → HNRep info p (Q (bit.val.val + 2 * j)))
      (fun r => ∀ p ∈ r, OkN h p)
  | 0, [], _, _, _, _, _ => by
    unfold bisec_pairs
    exact C.pure ⟨rfl, fun j p hp => by simp at hp⟩ fun _ p hp => by simp at hp
  | m + 1, a0 :: a1 :: rest, Q, H, hl, hQ, hok => by
    unfold bisec_pairs
    have h0 := hQ 0 a0 rfl
    have h1 := hQ 1 a1 rfl
    refine C.bind (C_bisec_nz hi h1 h0 hbit.symm fun hH => ⟨(hok hH).1, (hok hH).2 _ (by simp), (hok hH).2 _ (by simp)⟩)
      fun cell hcell => C.bind (C_bisec_pairs hbit m rest (fun i => Q (i + 2)) (by simp at hl; omega)
        (fun i p hp => hQ (i + 2) p (by simpa using hp)) fun hH => ⟨(hok hH.1).1, fun p hp => (hok hH.1).2 p (by simp [hp])⟩)
      fun next hnext => C.pure ⟨by simp [hnext.1], ?_⟩ fun hH p hp => ?_
    · rintro (_ | j) p hp
      · cases hp
        rcases hbit with e | e
        · rw [e, if_neg zero_ne_one] at hcell
          rw [e]
          simpa using hcell
        · rw [e, if_pos rfl] at hcell
          have : Fact (1 < n) := ⟨(Fact.out : n.Prime).one_lt⟩
          rw [e, ZMod.val_one n]
          exact hcell
      · have := hnext.2 j p (by simpa using hp)
        rwa [show bit.val.val + 2 * (j + 1) = bit.val.val + 2 * j + 2 by ring]
    · rcases List.mem_cons.1 hp with rfl | hp
      exacts [hH.1.2, hH.2 p hp]
  | 0, _ :: _, _, _, hl, _, _ => by simp at hl
  | m + 1, [], _, _, hl, _, _ => by simp at hl
  | m + 1, [_], _, _, hl, _, _ => by simp at hl; omega

theorem C_bisec_rounds : ∀ (bits : List (AssignedCondition n)) (cl : List (AssignedNonZeroPoint n)) (Q : ℕ → Pt b)
    {H : Prop}, cl.length = 2 ^ bits.length → (∀ i p, cl[i]? = some p → HNRep info p (Q i)) →
    (∀ x ∈ bits, x.val = 0 ∨ x.val = 1) → (H → (∀ x ∈ bits, Ok h x) ∧ ∀ p ∈ cl, OkN h p) →
    C c h H (bisec_rounds info cl bits) (fun r => r.length = 1 ∧
      ∀ p, r[0]? = some p → HNRep info p (Q (binVal AssignedValue.val bits))) (fun r => ∀ p ∈ r, OkN h p)
  | [], cl, Q, _, hl, hQ, _, hok => by
    unfold bisec_rounds
    exact C.pure ⟨by simpa using hl, fun p hp => by simpa [binVal] using hQ 0 p hp⟩ fun hH => (hok hH).2
  | bit :: bits, cl, Q, H, hl, hQ, hb, hok => by
    unfold bisec_rounds
    refine C.bind (C_bisec_pairs hi (hb bit (by simp)) (2 ^ bits.length) cl Q (by rw [hl, List.length_cons, pow_succ]; ring)
      hQ fun hH => ⟨(hok hH).1 _ (by simp), (hok hH).2⟩) fun next hn =>
      (C_bisec_rounds bits next (fun j => Q (bit.val.val + 2 * j)) hn.1 hn.2 (fun x hx => hb x (by simp [hx])) fun hH =>
        ⟨fun x hx => (hok hH.1).1 x (by simp [hx]), hH.2⟩).mono (fun r hr => hr) fun _ _ _ q => q

theorem C_bisec_candidate {bits : List (AssignedCondition n)} {cl : List (AssignedNonZeroPoint n)} {Q : ℕ → Pt b}
    (hl : cl.length = 2 ^ bits.length) (hQ : ∀ i p, cl[i]? = some p → HNRep info p (Q i))
    (hb : ∀ x ∈ bits, x.val = 0 ∨ x.val = 1) (hok : H → (∀ x ∈ bits, Ok h x) ∧ ∀ p ∈ cl, OkN h p) :
    C c h H (bisec_candidate_non_zero info cl bits) (fun r => HNRep info r (Q (binVal AssignedValue.val bits)))
      (OkN h) := by
  unfold bisec_candidate_non_zero
  refine C.bind (C_bisec_rounds hi bits cl Q hl hQ hb hok) fun r ⟨h1, h2⟩ => C.bind_rassert (by simpa using h1) ?_
  obtain ⟨p, rfl⟩ := List.length_eq_one_iff.1 h1
  unfold index
  exact C.pure (h2 p rfl) fun hH => hH.2 p (by simp)

/-! ### Choosing a candidate -/

/-- What is known of a list of candidates: candidate `i` stands for `Q i`, in reduced form. -/
def HCands (info : RangeInfo n) (cl : List (AssignedNonZeroPoint n)) (Q : ℕ → Pt b) : Prop :=
  ∀ i p, cl[i]? = some p → HRed info p (Q i)

/-- The candidates are recorded faithfully and cached (`K`). -/
def OkCands (h : Advice n) (K : ℕ → AssignedNonZeroPoint n → Prop) (cl : List (AssignedNonZeroPoint n)) : Prop :=
  ∀ i p, cl[i]? = some p → OkN h p ∧ K i p

/-- What the choice of a candidate has to satisfy, for groups of up to `B` points. -/
def PickComplete (c : Circuit n) (info : RangeInfo n) (h : Advice n) (b : ZMod wm) (B : ℕ)
    (K : ℕ → ℕ → AssignedNonZeroPoint n → Prop)
    (pick : List (List (AssignedNonZeroPoint n)) → ℕ → List (AssignedCondition n) → M n (AssignedNonZeroPoint n)) :
    Prop :=
  ∀ (cs : List (List (AssignedNonZeroPoint n))) g (bits : List (AssignedCondition n)) cl (Q : ℕ → Pt b) (H : Prop),
    cs[g]? = some cl → HCands info cl Q → cl.length = 2 ^ bits.length → bits ≠ [] → bits.length ≤ B →
    (∀ x ∈ bits, x.val = 0 ∨ x.val = 1) → (H → (∀ x ∈ bits, Ok h x) ∧ OkCands h (K g) cl) →
    C c h H (pick cs g bits) (fun r => HNRep info r (Q (binVal AssignedValue.val bits))) (OkN h)

theorem pickComplete_bisec (B : ℕ) : PickComplete c info h b B (fun _ _ _ => True) (pick_bisec info) := by
  intro cs g bits cl Q H hcl hQ hl _ _ hb hok
  unfold pick_bisec
  refine C.bind_index hcl (C_bisec_candidate hi hl (fun i p hp => (hQ i p hp).1) hb fun hH =>
    ⟨(hok hH).1, fun p hp => ?_⟩)
  obtain ⟨i, hi⟩ := List.mem_iff_getElem?.1 hp
  exact ((hok hH).2 i p hi).1

omit hi in
/-- The choice with the select chip needs an index in range, not bits. -/
theorem C_pick_select (pre : ℕ) (hn : 256 ≤ n) {cs : List (List (AssignedNonZeroPoint n))} {g : ℕ}
    {bits : List (AssignedCondition n)} {cl : List (AssignedNonZeroPoint n)} {Q : ℕ → Pt b} (hcl : cs[g]? = some cl)
    (hQ : HCands info cl Q) (hl : cl.length = 2 ^ bits.length) (hne : bits ≠ []) (hlen : bits.length ≤ 8)
    (hlt : binVal AssignedValue.val bits < 2 ^ bits.length)
    (hok : H → (∀ x ∈ bits, Ok h x) ∧ OkCands h (fun i p => CachedPoint c info h (g + pre) i p) cl) :
    C c h H (pick_select info pre cs g bits) (fun r => HNRep info r (Q (binVal AssignedValue.val bits))) (OkN h) := by
  have : NeZero n := ⟨by omega⟩
  unfold pick_select
  have h8 : 2 ^ bits.length ≤ 2 ^ 8 := Nat.pow_le_pow_right (by norm_num) hlen
  refine C.bind_index hcl (C.bind (P := fun r => r.1.val = (binVal AssignedValue.val bits : ZMod n) ∧
    cl[binVal AssignedValue.val bits]? = some r.2) (Q := fun r => Ok h r.1) ?_ ?_)
  · unfold pick_candidate_non_zero
    refine C.bind (C_sum _ none (by simpa using hne) ?_) fun idx hidx => ?_
    · intro hH e he
      obtain ⟨i, hi, rfl⟩ := List.mem_mapIdx.1 he
      exact (hok hH).1 _ (List.getElem_mem hi)
    · have e1 : idx.val = (binVal AssignedValue.val bits : ZMod n) := by
        rw [hidx]
        have := sumVal_bits bits 0
        simpa using this
      have e2 : idx.val.val % 256 = binVal AssignedValue.val bits := by
        rw [e1, ZMod.val_natCast, Nat.mod_eq_of_lt (show binVal AssignedValue.val bits < n by omega),
          Nat.mod_eq_of_lt (by omega)]
      have hlt' : binVal AssignedValue.val bits < cl.length := by omega
      rw [e2]
      exact C.bind_index (List.getElem?_eq_getElem hlt') (C.pure ⟨e1, List.getElem?_eq_getElem hlt'⟩ fun hH => hH.2)
  · rintro ⟨idx, ci⟩ ⟨e1, e2⟩
    obtain ⟨k1, k2, k3⟩ := hQ _ _ e2
    exact C_assign_selected_point _ k1 k2 k3 e1 fun hH =>
      ⟨hH.2, ((hok hH.1).2 _ _ e2).1, ((hok hH.1).2 _ _ e2).2⟩

omit hi in
theorem pickComplete_select (pre : ℕ) {B : ℕ} (hB : B ≤ 8) (hn : 256 ≤ n) :
    PickComplete c info h b B (fun g i p => CachedPoint c info h (g + pre) i p) (pick_select info pre) :=
  fun _ _ _ _ _ _ hcl hQ hl hne hlen hb hok => C_pick_select pre hn hcl hQ hl hne (hlen.trans hB)
    (binVal_lt (f := AssignedValue.val) hb) hok

/-! ### The candidates of a group -/

omit hi in
theorem tz_lt {k i l : ℕ} (h0 : i ≠ 0) (hk : i < 2 ^ k) (hl : i < 2 ^ l) : trailing_zeros k i < l := by
  have := tz_le k i h0 hk
  exact (Nat.pow_lt_pow_iff_right (by norm_num : 1 < 2)).1 (this.trans_lt hl)

/-- No addition made for the candidates of the group `Ps` with initial point `I` is exceptional. -/
def CandPos {G : Type} [AddCommGroup G] (I : G) (Ps : List G) : Prop :=
  ∀ i P, 1 ≤ i → i < 2 ^ Ps.length → Ps[trailing_zeros 32 i]? = some P →
    I + subsetSum Ps (i - 2 ^ trailing_zeros 32 i) ≠ P ∧ I + subsetSum Ps (i - 2 ^ trailing_zeros 32 i) ≠ -P

omit hi [Fact n.Prime] in
theorem HCands.snoc {cl : List (AssignedNonZeroPoint n)}
    {Q : ℕ → Pt b} (hcl : HCands info cl Q) {p : AssignedNonZeroPoint n} (hp : HRed info p (Q cl.length)) :
    HCands info (cl ++ [p]) Q := by
  intro i q hq
  rcases Nat.lt_trichotomy i cl.length with hi | hi | hi
  · rw [List.getElem?_append_left hi] at hq
    exact hcl i q hq
  · subst hi
    simp at hq
    subst hq
    exact hp
  · rw [List.getElem?_eq_none (by simp; omega)] at hq
    cases hq

omit hi [Fact n.Prime] in
theorem OkCands.snoc {K : ℕ → AssignedNonZeroPoint n → Prop} {cl : List (AssignedNonZeroPoint n)}
    (hcl : OkCands h K cl) {p : AssignedNonZeroPoint n} (hp : OkN h p) (hk : K cl.length p) :
    OkCands h K (cl ++ [p]) := by
  intro i q hq
  rcases Nat.lt_trichotomy i cl.length with hi | hi | hi
  · rw [List.getElem?_append_left hi] at hq
    exact hcl i q hq
  · subst hi
    simp at hq
    subst hq
    exact ⟨hp, hk⟩
  · rw [List.getElem?_eq_none (by simp; omega)] at hq
    cases hq

/-- What the cache has to satisfy. -/
def CacheComplete (c : Circuit n) (info : RangeInfo n) (h : Advice n) (b : ZMod wm)
    (K : ℕ → AssignedNonZeroPoint n → Prop) (cache : AssignedNonZeroPoint n → ℕ → M n Unit) : Prop :=
  ∀ (H : Prop) p i (P : Pt b), HRed info p P → (H → OkN h p) → C c h H (cache p i) (fun _ => True) (fun _ => K i p)

variable [Fact wm.Prime] (hd : info.d_bits % 108 ≠ 0)
include hd

theorem C_fill {cache : AssignedNonZeroPoint n → ℕ → M n Unit} {K : ℕ → AssignedNonZeroPoint n → Prop}
    (hK : CacheComplete c info h b K cache) {chunk : List (AssignedNonZeroPoint n)} {Ps : List (Pt b)}
    (hP : List.Forall₂ (HNRep info) chunk Ps) (h31 : chunk.length ≤ 31) {I : Pt b} (hpos : CandPos I Ps) :
    ∀ (m i : ℕ) (cl : List (AssignedNonZeroPoint n)) {H : Prop}, cl.length = i → 1 ≤ i → i + m ≤ 2 ^ chunk.length →
      HCands info cl (fun j => I + subsetSum Ps j) → (H → (∀ p ∈ chunk, OkN h p) ∧ OkCands h K cl) →
      C c h H (fill_candidates info cache chunk cl (List.range' i m)) (fun r => ∃ cl', r = .ok cl' ∧
        (cl'.length = i + m ∧ HCands info cl' (fun j => I + subsetSum Ps j))) (fun r => ∀ cl', r = .ok cl' → OkCands h K cl') := by
  intro m
  induction m with
  | zero =>
    intro i cl H hl _ _ hcl hok
    refine C.pure ⟨cl, rfl, hl, hcl⟩ fun hH cl' e => ?_
    cases e
    exact (hok hH).2
  | succ m ih =>
    intro i cl H hl h1 h2 hcl hok
    rw [List.range'_succ]
    unfold fill_candidates
    have h32 : 2 ^ chunk.length ≤ 2 ^ 31 := Nat.pow_le_pow_right (by norm_num) h31
    have hi2 : i < 2 ^ 32 := by
      have : (2 : ℕ) ^ 31 < 2 ^ 32 := by norm_num
      omega
    have htz : trailing_zeros 32 i < chunk.length := tz_lt (by omega) hi2 (by omega)
    have htp : 0 < 2 ^ trailing_zeros 32 i := by positivity
    have htz' : trailing_zeros 32 i < Ps.length := by rw [← hP.length_eq]; exact htz
    have hPq : Ps[trailing_zeros 32 i]? = some Ps[trailing_zeros 32 i] := List.getElem?_eq_getElem htz'
    have ha : cl[i - 2 ^ trailing_zeros 32 i]? = some (cl[i - 2 ^ trailing_zeros 32 i]'(by omega)) :=
      List.getElem?_eq_getElem _
    have hNq : HNRep info chunk[trailing_zeros 32 i] Ps[trailing_zeros 32 i] := hP.get htz htz'
    obtain ⟨p1, p2⟩ := hpos i _ h1 (by rw [← hP.length_eq]; omega) hPq
    have e : I + subsetSum Ps i = I + subsetSum Ps (i - 2 ^ trailing_zeros 32 i) + Ps[trailing_zeros 32 i] := by
      rw [subsetSum_step 32 i Ps _ (by omega) hi2 hPq, add_assoc]
    refine C.bind_index ha (C.bind_index (List.getElem?_eq_getElem htz) ?_)
    refine C.tryB (C_ecc_add_unsafe hi hd (hcl _ _ ha).1 hNq p1 p2 fun hH =>
      ⟨((hok hH).2 _ _ ha).1, (hok hH).1 _ (List.getElem_mem htz)⟩) fun p hp =>
      C.bind (C_reduce_nz hi hp fun hH => hH.2) fun r hr => C.bind (hK _ r i _ hr fun hH => hH.2) fun _ _ =>
      (ih (i + 1) (cl ++ [r]) (by simp [hl]) (by omega) (by omega) (hcl.snoc ?_) fun hH =>
        ⟨(hok hH.1.1.1).1, (hok hH.1.1.1).2.snoc hH.1.2 (hl ▸ hH.2)⟩).mono ?_ fun _ _ _ q => q
    · show HRed info r (I + subsetSum Ps cl.length)
      rw [hl, e]
      exact hr
    · rintro r ⟨cl', e1, e2, e3⟩
      exact ⟨cl', e1, by omega, e3⟩

theorem C_group_candidates {cache : ℕ → AssignedNonZeroPoint n → ℕ → M n Unit}
    {K : ℕ → ℕ → AssignedNonZeroPoint n → Prop} (hK : ∀ g, CacheComplete c info h b (K g) (cache g))
    {line line_neg : AssignedNonZeroPoint n} {L : Pt b} (hL : HRed info line L) (hL' : HRed info line_neg (-L))
    {l : List (List (AssignedNonZeroPoint n))} {Pss : List (List (Pt b))}
    (hP : List.Forall₂ (List.Forall₂ (HNRep info)) l Pss) :
    ∀ (g : ℕ) {H : Prop}, (∀ x ∈ l, x.length ≤ 31) → (∀ j Ps, Pss[j]? = some Ps → CandPos (signed L (g + j)) Ps) →
      (H → OkN h line ∧ OkN h line_neg ∧ ∀ x ∈ l, ∀ p ∈ x, OkN h p) →
      C c h H (group_candidates info cache line line_neg g l) (fun r => ∃ cs, r = .ok cs ∧ (cs.length = Pss.length ∧
        ∀ j cl Ps, cs[j]? = some cl → Pss[j]? = some Ps → cl.length = 2 ^ Ps.length ∧
          HCands info cl (fun i => signed L (g + j) + subsetSum Ps i)))
        (fun r => ∀ cs, r = .ok cs → ∀ j cl, cs[j]? = some cl → OkCands h (K (g + j)) cl) := by
  induction hP with
  | nil =>
    intro g H _ _ _
    unfold group_candidates
    exact C.pure ⟨[], rfl, rfl, fun j cl Ps h _ => by simp at h⟩ fun _ cs e j cl h => by cases e; simp at h
  | @cons chunk Ps l Pss hx _ ih =>
    intro g H hlen hpos hok
    have hlx := hlen chunk (by simp)
    unfold group_candidates
    have hinit : HRed info (if g % 2 = 0 then line else line_neg) (signed L g) := by
      unfold signed
      split
      exacts [hL, hL']
    have hinit' : H → OkN h (if g % 2 = 0 then line else line_neg) := fun hH => by
      split
      exacts [(hok hH).1, (hok hH).2.1]
    have h1 : 1 ≤ 2 ^ chunk.length := Nat.one_le_two_pow
    refine C.bind (hK g _ _ 0 _ hinit hinit') fun _ _ => ?_
    refine C.tryB (C_fill hi hd (hK g) hx hlx (hpos 0 Ps rfl) _ 1 [_] rfl le_rfl (by omega) ?_ ?_) fun cl hcl => ?_
    · intro i p hp
      rcases i with _ | i
      · simp at hp
        subst hp
        simp only [subsetSum_zero, add_zero]
        exact hinit
      · simp at hp
    · intro hH
      refine ⟨(hok hH.1).2.2 _ (by simp), fun i p hp => ?_⟩
      rcases i with _ | i
      · simp at hp
        subst hp
        exact ⟨hinit' hH.1, hH.2⟩
      · simp at hp
    · refine C.tryB (ih (g + 1) (fun x hx => hlen x (by simp [hx])) (fun j Ps' e => ?_) fun hH =>
        ⟨(hok hH.1.1).1, (hok hH.1.1).2.1, fun x hx => (hok hH.1.1).2.2 x (by simp [hx])⟩) fun cs hcs =>
        C.pure ⟨_, rfl, by simp [hcs.1], ?_⟩ fun hH cs' e => ?_
      · have := hpos (j + 1) Ps' (by simpa using e)
        rwa [show g + (j + 1) = g + 1 + j by ring] at this
      · rintro (_ | j) cl' Ps' e1 e2
        · simp at e1 e2
          subst e1
          subst e2
          refine ⟨?_, hcl.2⟩
          rw [← hx.length_eq]
          omega
        · simp at e1 e2
          have := hcs.2 j cl' Ps' e1 e2
          rwa [show g + 1 + j = g + (j + 1) by ring] at this
      · cases e
        rintro (_ | j) cl' e1
        · simp at e1
          subst e1
          exact hH.1.2
        · simp at e1
          have := hH.2 j cl' e1
          rwa [show g + 1 + j = g + (j + 1) by ring] at this

/-! ### A window -/

omit hi hd [Fact n.Prime] [Fact wm.Prime] in
theorem C_group_bits {wi : ℕ} {group : List (List (List (AssignedCondition n)))}
    (hg : ∀ bs ∈ group, wi < bs.length ∧ ∀ win ∈ bs, win.length = 1)
    (hok : H → ∀ bs ∈ group, ∀ win ∈ bs, ∀ x ∈ win, Ok h x) :
    C c h H (group_bits wi group) (fun r =>
      List.Forall₂ (fun bs x => ∃ win, bs[wi]? = some win ∧ win[0]? = some x) group r) (fun r => ∀ x ∈ r, Ok h x) := by
  unfold group_bits
  refine (C.mapM (P := fun bs x => ∃ win, bs[wi]? = some win ∧ win[0]? = some x) (Q := fun _ x => Ok h x)
    fun bs hbs => ?_).mono (fun _ h => h) fun r _ _ hr x hx => ?_
  · obtain ⟨h1, h2⟩ := hg bs hbs
    have h3 := h2 _ (List.getElem_mem h1)
    have h4 : 0 < bs[wi].length := by omega
    refine C.bind_index (List.getElem?_eq_getElem h1) ?_
    unfold index
    rw [List.getElem?_eq_getElem h4]
    exact C.pure ⟨_, List.getElem?_eq_getElem h1, List.getElem?_eq_getElem h4⟩ fun hH =>
      hok hH bs hbs _ (List.getElem_mem h1) _ (List.getElem_mem h4)
  · obtain ⟨i, hi, rfl⟩ := List.getElem_of_mem hx
    exact hr.get (by rw [hr.length_eq]; exact hi) hi

/-- No addition made in window `wi`, from group `g` and accumulator `Q` on, is exceptional. -/
def WindowPos {G : Type} [AddCommGroup G] (f : AssignedValue n → ZMod n) (wi : ℕ) (L : G) :
    ℕ → G → List (List (List (List (AssignedValue n)))) → List (List G) → Prop
  | g, Q, grp :: grps, Ps :: Pss => (signed L g + wsum f wi grp Ps ≠ Q ∧ signed L g + wsum f wi grp Ps ≠ -Q) ∧
      WindowPos f wi L (g + 1) (signed L g + wsum f wi grp Ps + Q) grps Pss
  | _, _, _, _ => True

theorem C_window_acc {B : ℕ} {K : ℕ → ℕ → AssignedNonZeroPoint n → Prop}
    {pick : List (List (AssignedNonZeroPoint n)) → ℕ → List (AssignedCondition n) → M n (AssignedNonZeroPoint n)}
    (hpick : PickComplete c info h b B K pick) {L : Pt b}
    {cs : List (List (AssignedNonZeroPoint n))} (wi : ℕ)
    {groups : List (List (List (List (AssignedCondition n))))} {Pss : List (List (Pt b))}
    (hl : List.Forall₂ (fun grp Ps => grp.length = Ps.length) groups Pss) :
    ∀ g acc (Q : Pt b) {H : Prop}, (∀ grp ∈ groups, ∀ bs ∈ grp, wi < bs.length ∧ ∀ win ∈ bs, win.length = 1 ∧
        ∀ x ∈ win, x.val = 0 ∨ x.val = 1) → (∀ grp ∈ groups, grp ≠ [] ∧ grp.length ≤ B) →
      cs.length = g + groups.length → (∀ j cl Ps, cs[g + j]? = some cl → Pss[j]? = some Ps → cl.length = 2 ^ Ps.length ∧
        HCands info cl (fun i => signed L (g + j) + subsetSum Ps i)) → HNRep info acc Q →
      WindowPos AssignedValue.val wi L g Q groups Pss →
      (H → (∀ grp ∈ groups, ∀ bs ∈ grp, ∀ win ∈ bs, ∀ x ∈ win, Ok h x) ∧
        (∀ j cl, cs[g + j]? = some cl → OkCands h (K (g + j)) cl) ∧ OkN h acc) →
      C c h H (window_acc info (pick cs) wi g groups acc) (fun r => ∃ p, r = .ok p ∧
        HNRep info p (Q + gsum AssignedValue.val wi L g groups Pss)) (fun r => ∀ p, r = .ok p → OkN h p) := by
  induction hl with
  | nil =>
    intro g acc Q H _ _ _ _ ha _ hok
    unfold window_acc
    refine C.pure ⟨acc, rfl, ?_⟩ fun hH p e => ?_
    · simpa [gsum] using ha
    · cases e
      exact (hok hH).2.2
  | @cons grp Ps groups Pss hx _ ih =>
    intro g acc Q H hbits hB hcl hcs ha hpos hok
    rw [List.length_cons] at hcl
    unfold window_acc
    obtain ⟨⟨p1, p2⟩, hpos⟩ := hpos
    refine C.bind (C_group_bits (wi := wi) (fun bs hbs => ⟨(hbits grp (by simp) bs hbs).1, fun win hw =>
      ((hbits grp (by simp) bs hbs).2 win hw).1⟩) fun hH => (hok hH).1 grp (by simp)) fun bits hbs => ?_
    have hbit : ∀ x ∈ bits, x.val = 0 ∨ x.val = 1 := by
      intro x hx
      obtain ⟨i, hi, rfl⟩ := List.getElem_of_mem hx
      have hi' : i < grp.length := by rw [hbs.length_eq]; exact hi
      obtain ⟨win, h1, h2⟩ := hbs.get hi' hi
      exact ((hbits grp (by simp) _ (List.getElem_mem hi')).2 win (List.mem_of_getElem? h1)).2 _ (List.mem_of_getElem? h2)
    have hg : cs[g]? = some (cs[g]'(by omega)) := List.getElem?_eq_getElem _
    obtain ⟨k1, k2⟩ := hcs 0 _ Ps hg rfl
    refine C.bind (hpick cs g bits _ _ _ hg k2 (by rw [k1, ← hx, hbs.length_eq]) ?_ ?_ hbit fun hH =>
      ⟨hH.2, (hok hH.1).2.1 0 _ hg⟩) fun ci hci => ?_
    · intro e
      have := hbs.length_eq
      rw [e] at this
      exact (hB grp (by simp)).1 (List.length_eq_zero_iff.1 this)
    · rw [← hbs.length_eq]
      exact (hB grp (by simp)).2
    · rw [subsetSum_binVal hbs hx hbit] at hci
      refine C.tryB (C_ecc_add_unsafe hi hd hci ha p1 p2 fun hH => ⟨hH.2, (hok hH.1.1).2.2⟩) fun p hp => ?_
      refine (ih (g + 1) p _ (fun grp hg => hbits grp (by simp [hg])) (fun grp hg => hB grp (by simp [hg])) (by omega)
        (fun j cl' Ps' e1 e2 => ?_) hp hpos fun hH => ⟨fun grp hg => (hok hH.1.1.1).1 grp (by simp [hg]),
          fun j cl' e1 => ?_, hH.2⟩).mono ?_ fun _ _ _ q => q
      · rw [show g + 1 + j = g + (j + 1) by ring] at e1 ⊢
        exact hcs (j + 1) cl' Ps' e1 e2
      · rw [show g + 1 + j = g + (j + 1) by ring] at e1 ⊢
        exact (hok hH.1.1.1).2.1 (j + 1) cl' e1
      · rintro r ⟨p, rfl, hp⟩
        refine ⟨p, rfl, ?_⟩
        have e : Q + gsum AssignedValue.val wi L g (grp :: groups) (Ps :: Pss) =
            signed L (g + 0) + wsum AssignedValue.val wi grp Ps + Q + gsum AssignedValue.val wi L (g + 1) groups Pss := by
          simp only [gsum, add_zero]
          abel
        rwa [e]

/-! ### Accumulating the windows -/

/-- No addition made when accumulating window `t` is exceptional. -/
structure AccPos {G : Type} [AddCommGroup G] (odd : Bool) (L A V S V' : G) : Prop where
  double : A + V + (A + V) ≠ 0
  ne : -A + (if odd then L else 0) + S ≠ A + V + (A + V)
  ne' : -A + (if odd then L else 0) + S ≠ -(A + V + (A + V))
  line : odd = true → A + V' + L ≠ L
  line' : odd = true → A + V' + L ≠ -L

theorem C_windows_acc (hb : GoodCurve b) {line_neg : AssignedNonZeroPoint n} {L A : Pt b}
    (hL : HNRep info line_neg (-L)) {V X : ℕ → Pt b} {W : ℕ} (hV : ∀ t < W, V (t + 1) = V t + V t + X t) (odd : Bool)
    (hpos : ∀ t < W, AccPos odd L A (V t) (X t)
      (V (t + 1))) :
    ∀ (l : List (AssignedNonZeroPoint n)) (t : ℕ) acc {H : Prop}, t + l.length ≤ W →
      (∀ j p, l[j]? = some p → HNRep info p (-A + (if odd then L else 0) + X (t + j))) →
      HNRep info acc (A + V t) →
      (H → OkN h line_neg ∧ (∀ (j : ℕ) p, l[j]? = some p → OkN h p) ∧ OkN h acc) →
      C c h H (windows_acc info odd line_neg l acc) (fun r => ∃ p, r = .ok p ∧
        HNRep info p (A + V (t + l.length))) (fun r => ∀ p, r = .ok p → OkN h p) := by
  intro l
  induction l with
  | nil =>
    intro t acc H _ _ ha hok
    unfold windows_acc
    refine C.pure ⟨acc, rfl, ha⟩ fun hH p e => ?_
    cases e
    exact (hok hH).2.2
  | cons x l ih =>
    intro t acc H ht hl ha hok
    simp only [List.length_cons] at ht
    unfold windows_acc
    have hx := hl 0 x rfl
    have hp := hpos t (by omega)
    have hv : V (t + 1) = _ := hV t (by omega)
    refine C.tryB (C_ecc_double_unsafe hi hd hb ha hp.double fun hH => (hok hH).2.2) fun a1 h1 => ?_
    refine C.tryB (C_ecc_add_unsafe hi hd hx h1 hp.ne hp.ne' fun hH => ⟨(hok hH.1).2.1 0 x rfl, hH.2⟩) fun a2 h2 => ?_
    refine C.tryB (P := fun p => HNRep info p (A + V (t + 1))) (Q := fun p => OkN h p) ?_
      fun a3 h3 => ?_
    · cases odd with
      | true =>
        have e0 : A + V (t + 1) + L = -A + (if true = true then L else 0) +
            X (t + 0) + (A + V t +
              (A + V t)) := by
          rw [hv, if_pos rfl, add_zero]; abel
        rw [← e0] at h2
        refine (C_ecc_add_unsafe hi hd h2 hL (hp.line' rfl) (by rw [neg_neg]; exact hp.line rfl) fun hH =>
          ⟨hH.2, (hok hH.1.1).1⟩).mono ?_ fun _ _ _ q => q
        rintro r ⟨p, rfl, hp⟩
        exact ⟨p, rfl, by rwa [add_neg_cancel_right] at hp⟩
      | false =>
        refine C.pure ⟨a2, rfl, ?_⟩ fun hH p e => ?_
        · have e : A + V (t + 1) = -A + (if false = true then L else 0) +
              X (t + 0) + (A + V t +
                (A + V t)) := by
            rw [hv, if_neg (by simp), add_zero, add_zero]; abel
          rwa [e]
        · cases e
          exact hH.2
    · refine (ih (t + 1) a3 (by omega) (fun j p hp => ?_) h3 fun hH => ⟨(hok hH.1.1.1).1, fun j p hj =>
        (hok hH.1.1.1).2.1 (j + 1) p (by simpa using hj), hH.2⟩).mono ?_ fun _ _ _ q => q
      · have := hl (j + 1) p (by simpa using hp)
        rwa [show t + (j + 1) = t + 1 + j by ring] at this
      · rintro r ⟨p, e, hp⟩
        refine ⟨p, e, ?_⟩
        rwa [List.length_cons, show t + (l.length + 1) = t + 1 + l.length by ring]

end
end Verif
