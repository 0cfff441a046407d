import Verif.Proof.Configure
import Verif.Props.Layout
import Verif.Props.Synthesis

/-!
# C66 and C67: the configured constraint system is the circuit of the proofs, and copy constraints are allowed in it
-/

namespace Verif
variable {n : ℕ}

/-! ## Copy constraints -/

theorem adviceOf_place {cfg : ChipsConfig} {cs : ConstraintSystem n} {c : Cell} {k : Column × ℕ}
    (h : cfg.place cs c = some k) (A : Assignment n) : adviceOf cfg A c = A k.1 k.2 := by
  unfold ChipsConfig.place at h
  unfold adviceOf
  cases e : cfg.advCol c.region c.col with
  | none => rw [e] at h; cases h
  | some i =>
    rw [e] at h
    change (if i ∈ cs.permutation then some (i, c.row) else none) = some k at h
    split at h
    · cases h; rfl
    · cases h

theorem constrain_all_cons {cfg : ChipsConfig} {cs : ConstraintSystem n} {p : Cell × Cell} {l : List (Cell × Cell)}
    {K : List ((Column × ℕ) × (Column × ℕ))} (h : constrain_all cfg cs (p :: l) = some K) :
    ∃ k k' K', cfg.place cs p.1 = some k ∧ cfg.place cs p.2 = some k' ∧ constrain_all cfg cs l = some K' ∧
      K = (k, k') :: K' := by
  unfold constrain_all at h
  cases e1 : cfg.place cs p.1 with
  | none => rw [e1] at h; cases h
  | some k =>
    cases e2 : cfg.place cs p.2 with
    | none => rw [e1, e2] at h; cases h
    | some k' =>
      cases e3 : constrain_all cfg cs l with
      | none => rw [e1, e2, e3] at h; cases h
      | some K' => rw [e1, e2, e3] at h; cases h; exact ⟨k, k', K', rfl, rfl, rfl, rfl⟩

theorem copies_iff {cfg : ChipsConfig} {cs : ConstraintSystem n} (A : Assignment n) : ∀ {l : List (Cell × Cell)}
    {K : List ((Column × ℕ) × (Column × ℕ))}, constrain_all cfg cs l = some K →
    ((∀ p ∈ K, A p.1.1 p.1.2 = A p.2.1 p.2.2) ↔ ∀ p ∈ l, adviceOf cfg A p.1 = adviceOf cfg A p.2)
  | [], K, h => by
    cases h
    simp only [List.not_mem_nil, false_implies, implies_true]
  | p :: l, K, h => by
    obtain ⟨k, k', K', e1, e2, e3, rfl⟩ := constrain_all_cons h
    rw [List.forall_mem_cons, List.forall_mem_cons, copies_iff A e3, adviceOf_place e1, adviceOf_place e2]

theorem constrain_all_of {cfg : ChipsConfig} {cs : ConstraintSystem n} : ∀ {l : List (Cell × Cell)},
    (∀ p ∈ l, cfg.place cs p.1 ≠ none ∧ cfg.place cs p.2 ≠ none) → ∃ K, constrain_all cfg cs l = some K
  | [], _ => ⟨[], rfl⟩
  | p :: l, h => by
    obtain ⟨h1, h2⟩ := h p List.mem_cons_self
    obtain ⟨k, e1⟩ := Option.ne_none_iff_exists'.1 h1
    obtain ⟨k', e2⟩ := Option.ne_none_iff_exists'.1 h2
    obtain ⟨K, e3⟩ := constrain_all_of fun q hq => h q (List.mem_cons_of_mem _ hq)
    exact ⟨(k, k') :: K, by unfold constrain_all; rw [e1, e2, e3]; rfl⟩

theorem place_of_constrain_all {cfg : ChipsConfig} {cs : ConstraintSystem n} : ∀ {l : List (Cell × Cell)}
    {K : List ((Column × ℕ) × (Column × ℕ))}, constrain_all cfg cs l = some K →
    ∀ p ∈ l, cfg.place cs p.1 ≠ none ∧ cfg.place cs p.2 ≠ none
  | [], _, _, p, hp => by cases hp
  | q :: l, K, h, p, hp => by
    obtain ⟨k, k', K', e1, e2, e3, rfl⟩ := constrain_all_cons h
    rcases List.mem_cons.1 hp with rfl | hp
    · exact ⟨e1 ▸ Option.some_ne_none _, e2 ▸ Option.some_ne_none _⟩
    · exact place_of_constrain_all e3 p hp

/-! ## C66 -/

/-- Without a select chip there is nothing to look up. -/
theorem selectRow_without {a f usable : ℕ} {L : Layout n} (h0 : ∀ r c, L.fix .select r c = none) (A : Assignment n) {r : ℕ}
    (hr : r < usable) : (L.circuit usable).SelectRow (adviceOf (chipsCfg false a f) A) r := by
  refine ⟨r, hr, rfl, ?_, ?_⟩
  · show 0 * 2 ^ 128 + (L.fix .select r 0).getD 0 = (L.fix .select r 0).getD 0
    rw [zero_mul, zero_add]
  · show 0 = (L.fix .select r 1).getD 0
    rw [h0]; rfl

/-- **C66.** The constraint system that `configure` builds, on top of whatever was there before, is the circuit that all
other theorems are about: an assignment whose fixed columns are what key generation puts there satisfies all polynomials
on all rows, all lookups and all copy constraints if and only if it satisfies what was there before and its advice cells
satisfy the synthesized circuit. The range table needs `2 ^ 19 - 1` usable rows, and two more rows are needed so that the
queries of the next rows do not wrap around. -/
theorem C66_configure (select : Bool) (cs : ConstraintSystem n) (L : Layout n)
    (hsel : select = false → ∀ r c, L.fix .select r c = none) (rows usable : ℕ) (hu : usable + 2 ≤ rows)
    (ht : 2 ^ 19 - 1 ≤ usable) (K : List ((Column × ℕ) × (Column × ℕ)))
    (hK : constrain_all (configure select cs).1 (configure select cs).2 L.copies = some K) (A : Assignment n)
    (hA : Carries (configure select cs).1 L usable A) :
    (configure select cs).2.Satisfied rows usable K A ↔
      cs.Satisfied rows usable [] A ∧ (L.circuit usable).Sat (adviceOf (configure select cs).1 A) := by
  have hc := copies_iff A hK
  obtain ⟨-, -, -, eg, el⟩ := configure_cs select cs
  rw [configure_cfg] at hA hc ⊢
  have hb := base_gate_iff hA hu
  have hg := range_gates_iff hA hu
  have hl := range_lookups_iff hA (by omega : usable ≤ rows) ht
  constructor
  · intro h
    have h1 := h.gates
    have h2 := h.lookups
    rw [eg, List.forall_mem_append, List.forall_mem_append, List.forall_mem_singleton, List.forall_mem_singleton] at h1
    rw [el, List.forall_mem_append, List.forall_mem_append] at h2
    refine ⟨⟨h1.1, h2.1, fun p hp => by cases hp⟩, hb.1 h1.2.1, fun r hr => ?_, fun r hr => ?_, hc.1 h.copies⟩
    · obtain ⟨g1, g2, g3⟩ := hg.1 h1.2.2 r hr
      obtain ⟨l1, l2⟩ := hl.1 h2.2.1 r hr
      exact ⟨l1, l2, g1, g2, g3⟩
    · cases select with
      | false => exact selectRow_without (hsel rfl) A hr
      | true => exact (select_lookup_iff hA (by omega)).1 (h2.2.2 _ List.mem_cons_self) r hr
  · intro ⟨h0, h⟩
    refine ⟨?_, ?_, hc.2 h.copy⟩
    · rw [eg, List.forall_mem_append, List.forall_mem_append, List.forall_mem_singleton, List.forall_mem_singleton]
      exact ⟨h0.gates, hb.2 h.base, hg.2 fun r hr => ⟨(h.range r hr).one, (h.range r hr).two, (h.range r hr).three⟩⟩
    · rw [el, List.forall_mem_append, List.forall_mem_append]
      refine ⟨h0.lookups, hl.2 fun r hr => ⟨(h.range r hr).tagged, (h.range r hr).common⟩, ?_⟩
      cases select with
      | false => intro l hl; cases hl
      | true => exact List.forall_mem_singleton.2 ((select_lookup_iff hA (by omega)).2 h.select)

/-- The range table has exactly `2 ^ 19 - 1` rows, one for each pair of a number of bits up to 18 and a value of so many
bits. -/
theorem C66_table : (init_table n).length = 2 ^ 19 - 1 ∧
    ∀ tag value : ZMod n, (tag, value) ∈ init_table n ↔
      ∃ t v : ℕ, t ≤ 18 ∧ v < 2 ^ t ∧ tag = (t : ZMod n) ∧ value = (v : ZMod n) :=
  ⟨by rw [← length_init_table (n := n), Nat.add_sub_cancel], mem_init_table⟩

/-! ### Assignments exist -/

/-- An assignment with these advice cells, and the columns of `B` before. -/
def assignmentOf (a f usable : ℕ) (L : Layout n) (w : Advice n) (B : Assignment n) : Assignment n
  | .advice i, r => if i < a then B (.advice i) r else if i < a + 5 then w ⟨.base, i - a, r⟩
      else if i < a + 8 then w ⟨.range, i - (a + 5), r⟩ else w ⟨.select, i - (a + 8), r⟩
  | .fixed j, r => if j < f then B (.fixed j) r
      else if j < f + 9 then (if r < usable then (L.fix .base r (j - f)).getD 0 else 0)
      else if j < f + 11 then (if r < usable then (L.fix .range r (j - (f + 9))).getD 0 else 0)
      else if j < f + 12 then ((init_table n)[r]?.getD ((init_table n).headD (0, 0))).1
      else if j < f + 13 then ((init_table n)[r]?.getD ((init_table n).headD (0, 0))).2
      else (if r < usable then (L.fix .select r (j - (f + 13))).getD 0 else 0)

theorem carries_assignmentOf (select : Bool) (a f usable : ℕ) (L : Layout n) (w : Advice n) (B : Assignment n) :
    Carries (chipsCfg select a f) L usable (assignmentOf a f usable L w B) := by
  refine ⟨?_, ?_, ?_⟩
  · intro chip col k hc hk r
    cases chip with
    | base =>
      have hk' : k = .fixed (f + col) := by
        change col < 9 at hc
        interval_cases col <;> (cases hk; rfl)
      subst hk'
      change col < 9 at hc
      unfold assignmentOf
      dsimp only
      rw [if_neg (by omega), if_pos (by omega), Nat.add_sub_cancel_left]
    | range =>
      have hk' : k = .fixed (f + 9 + col) := by
        change col < 2 at hc
        interval_cases col <;> (cases hk; rfl)
      subst hk'
      change col < 2 at hc
      unfold assignmentOf
      dsimp only
      rw [if_neg (by omega), if_neg (by omega), if_pos (by omega), Nat.add_sub_cancel_left]
    | select =>
      cases select with
      | false => cases hk
      | true =>
        have hk' : k = .fixed (f + 13 + col) := by
          change col < 2 at hc
          interval_cases col <;> (cases hk; rfl)
        subst hk'
        unfold assignmentOf
        dsimp only
        rw [if_neg (by omega), if_neg (by omega), if_neg (by omega), if_neg (by omega), if_neg (by omega),
          Nat.add_sub_cancel_left]
  · intro r _
    show assignmentOf a f usable L w B (.fixed (f + 9 + 2)) r = _
    unfold assignmentOf
    dsimp only
    rw [if_neg (by omega), if_neg (by omega), if_neg (by omega), if_pos (by omega)]
  · intro r _
    show assignmentOf a f usable L w B (.fixed (f + 9 + 3)) r = _
    unfold assignmentOf
    dsimp only
    rw [if_neg (by omega), if_neg (by omega), if_neg (by omega), if_neg (by omega), if_pos (by omega)]

theorem adviceOf_assignmentOf (select : Bool) (a f usable : ℕ) (L : Layout n) (w : Advice n) (B : Assignment n) (c : Cell)
    (hc : c.col < c.region.width) (hs : select = false → c.region ≠ .select) :
    adviceOf (chipsCfg select a f) (assignmentOf a f usable L w B) c = w c := by
  obtain ⟨chip, col, row⟩ := c
  cases chip with
  | base =>
    change col < 5 at hc
    have : (chipsCfg select a f).advCol .base col = some (.advice (a + col)) := by interval_cases col <;> rfl
    unfold adviceOf
    rw [this]
    show assignmentOf a f usable L w B (.advice (a + col)) row = _
    unfold assignmentOf
    dsimp only
    rw [if_neg (by omega), if_pos (by omega), Nat.add_sub_cancel_left]
  | range =>
    change col < 3 at hc
    have : (chipsCfg select a f).advCol .range col = some (.advice (a + 5 + col)) := by interval_cases col <;> rfl
    unfold adviceOf
    rw [this]
    show assignmentOf a f usable L w B (.advice (a + 5 + col)) row = _
    unfold assignmentOf
    dsimp only
    rw [if_neg (by omega), if_neg (by omega), if_pos (by omega), Nat.add_sub_cancel_left]
  | select =>
    change col < 2 at hc
    cases select with
    | false => exact absurd rfl (hs rfl)
    | true =>
      have : (chipsCfg true a f).advCol .select col = some (.advice (a + 8 + col)) := by interval_cases col <;> rfl
      unfold adviceOf
      rw [this]
      show assignmentOf a f usable L w B (.advice (a + 8 + col)) row = _
      unfold assignmentOf
      dsimp only
      rw [if_neg (by omega), if_neg (by omega), if_neg (by omega), Nat.add_sub_cancel_left]

/-- **C66**: no two cells of the chips share a column with each other, with the range table or with what was there before.
Whatever the fixed values, the advice values and the other columns are, there is an assignment that has them all. -/
theorem C66_columns (select : Bool) (cs : ConstraintSystem n) (L : Layout n) (usable : ℕ) (w : Advice n)
    (B : Assignment n) : ∃ A : Assignment n, Carries (configure select cs).1 L usable A ∧
      (∀ c : Cell, c.col < c.region.width → (select = false → c.region ≠ .select) →
        adviceOf (configure select cs).1 A c = w c) ∧
      (∀ i < cs.num_advice_columns, A (.advice i) = B (.advice i)) ∧
      ∀ j < cs.num_fixed_columns, A (.fixed j) = B (.fixed j) := by
  rw [configure_cfg]
  refine ⟨assignmentOf cs.num_advice_columns cs.num_fixed_columns usable L w B, carries_assignmentOf _ _ _ _ _ _ _,
    adviceOf_assignmentOf _ _ _ _ _ _ _, fun i hi => ?_, fun j hj => ?_⟩
  · funext r
    exact if_pos hi
  · funext r
    exact if_pos hj

/-! ## C67 -/

/-- The constraint system has been built properly: equality is enabled for existing columns only. -/
def ConstraintSystem.Proper (cs : ConstraintSystem n) : Prop :=
  ∀ c ∈ cs.permutation, (∃ i < cs.num_advice_columns, c = .advice i) ∨ ∃ j < cs.num_fixed_columns, c = .fixed j

/-- **C67**: the cells for which `constrain_equal` goes through are exactly those in the copyable columns: all five of the
base chip, the first of the range chip, and both of the select chip if it is there. -/
theorem C67_copyable (select : Bool) (cs : ConstraintSystem n) (hcs : cs.Proper) (c : Cell) :
    (configure select cs).1.place (configure select cs).2 c ≠ none ↔
      c.col < c.region.copyable ∧ (select = false → c.region ≠ .select) := by
  obtain ⟨-, -, ep, -, -⟩ := configure_cs select cs
  rw [configure_cfg]
  unfold ChipsConfig.place
  generalize (configure select cs).2.permutation = P at ep ⊢
  obtain ⟨chip, col, row⟩ := c
  have hold : ∀ k, Column.advice (cs.num_advice_columns + k) ∉ cs.permutation := by
    intro k hk
    rcases hcs _ hk with ⟨i, hi, e⟩ | ⟨j, -, e⟩
    · cases e; omega
    · cases e
  have key : ∀ k, (some (Column.advice (cs.num_advice_columns + k))).bind
        (fun k => if k ∈ P then some (k, row) else none) ≠ none ↔
      Column.advice (cs.num_advice_columns + k) ∈ copyCols select cs.num_advice_columns := by
    intro k
    rw [Option.bind_some, ite_ne_right_iff, ep]
    exact ⟨fun h => h.1.resolve_left (hold k), fun h => ⟨.inr h, Option.some_ne_none _⟩⟩
  have mem : ∀ k, Column.advice (cs.num_advice_columns + k) ∈ copyCols select cs.num_advice_columns ↔
      k < 6 ∨ select = true ∧ (k = 8 ∨ k = 9) := by
    intro k
    unfold copyCols
    cases select <;>
      simp only [List.mem_append, List.mem_cons, Column.advice.injEq, List.not_mem_nil, or_false, Bool.false_eq_true,
        if_false, if_true, false_and, true_and, Nat.add_eq_left, add_right_inj] <;> omega
  cases chip with
  | base =>
    show _ ↔ col < 5 ∧ _
    by_cases h : col < 5
    · have : (chipsCfg select cs.num_advice_columns cs.num_fixed_columns).advCol .base col =
          some (.advice (cs.num_advice_columns + col)) := by interval_cases col <;> rfl
      rw [this, key, mem]
      exact ⟨fun _ => ⟨h, fun _ e => by cases e⟩, fun _ => .inl (by omega)⟩
    · have : (chipsCfg select cs.num_advice_columns cs.num_fixed_columns).advCol .base col = none :=
        List.getElem?_eq_none (by show 5 ≤ col; omega)
      rw [this]
      exact ⟨fun h' => absurd rfl h', fun h' => absurd h'.1 h⟩
  | range =>
    show _ ↔ col < 1 ∧ _
    by_cases h : col < 3
    · have : (chipsCfg select cs.num_advice_columns cs.num_fixed_columns).advCol .range col =
          some (.advice (cs.num_advice_columns + (5 + col))) := by interval_cases col <;> rfl
      rw [this, key, mem]
      constructor
      · intro h'
        exact ⟨by omega, fun _ e => by cases e⟩
      · intro h'
        exact .inl (by omega)
    · have : (chipsCfg select cs.num_advice_columns cs.num_fixed_columns).advCol .range col = none :=
        List.getElem?_eq_none (by show 3 ≤ col; omega)
      rw [this]
      exact ⟨fun h' => absurd rfl h', fun h' => by omega⟩
  | select =>
    show _ ↔ col < 2 ∧ _
    cases select with
    | false => exact ⟨fun h' => absurd rfl h', fun h' => absurd rfl (h'.2 rfl)⟩
    | true =>
      by_cases h : col < 2
      · have : (chipsCfg true cs.num_advice_columns cs.num_fixed_columns).advCol .select col =
            some (.advice (cs.num_advice_columns + (8 + col))) := by interval_cases col <;> rfl
        rw [this, key, mem]
        exact ⟨fun _ => ⟨h, fun e => by cases e⟩, fun _ => .inr ⟨rfl, by omega⟩⟩
      · have : (chipsCfg true cs.num_advice_columns cs.num_fixed_columns).advCol .select col = none :=
          List.getElem?_eq_none (by show 2 ≤ col; omega)
        rw [this]
        exact ⟨fun h' => absurd rfl h', fun h' => absurd h'.1 h⟩

/-- Without a select chip, synthesis goes through only if there are no copies of cells of the select chip. -/
theorem lookup_of_permutation {of : Chip → ChipLayout n} : ∀ {l l' : List (Cell × Cell)},
    _assign_permutation of l = .ok l' → ∀ p ∈ l, lookup_cell (of p.1.region) p.1.col p.1.row = .ok () ∧
      lookup_cell (of p.2.region) p.2.col p.2.row = .ok ()
  | [], _, _, p, hp => by cases hp
  | q :: l, l', h, p, hp => by
    unfold _assign_permutation at h
    cases h1 : lookup_cell (of q.1.region) q.1.col q.1.row with
    | error e => rw [h1] at h; cases h
    | ok _ =>
      cases h2 : lookup_cell (of q.2.region) q.2.col q.2.row with
      | error e => rw [h1, h2] at h; cases h
      | ok _ =>
        cases h3 : _assign_permutation of l with
        | error e => rw [h1, h2, h3] at h; cases h
        | ok _ =>
          rcases List.mem_cons.1 hp with rfl | hp
          · exact ⟨h1, h2⟩
          · exact lookup_of_permutation h3 p hp

theorem without_select_of_ok {s : Records n} {max_rows : ℕ} {L : Layout n}
    (h : assign_all_without_select s max_rows = .ok L) : (∀ r c, L.fix .select r c = none) ∧
      ∀ p ∈ s.permutations, p.1.region ≠ .select ∧ p.2.region ≠ .select := by
  unfold assign_all_without_select at h
  cases h1 : _assign_to_base_chip s max_rows with
  | error e => rw [h1] at h; cases h
  | ok b =>
    cases h2 : _assign_to_range_chip s max_rows with
    | error e => rw [h1, h2] at h; cases h
    | ok r =>
      rw [h1, h2] at h
      simp only [bind, Except.bind] at h
      by_cases h0 : s.select_height = 0
      · rw [if_neg (not_not_intro h0)] at h
        simp only [pure, Except.pure] at h
        split at h
        · cases h
        · rename_i l hl
          cases h
          refine ⟨fun _ _ => rfl, fun p hp => ?_⟩
          obtain ⟨k1, k2⟩ := lookup_of_permutation hl p hp
          refine ⟨fun e => ?_, fun e => ?_⟩
          · rw [e] at k1; cases k1
          · rw [e] at k2; cases k2
      · rw [if_pos h0] at h; cases h

/-- What synthesis has assigned can be handed to the constraint system: `constrain_equal` goes through for all copy
constraints, if they are between copyable cells. -/
theorem constrain_all_ok {t : Context n} (hc : CopiesReady t.records) {select : Bool} (cs : ConstraintSystem n)
    (hcs : cs.Proper) {max_rows : ℕ} {L : Layout n} (hL : synthesize select t.records max_rows = .ok L)
    (hp : L.copies = t.records.permutations) :
    ∃ K, constrain_all (configure select cs).1 (configure select cs).2 L.copies = some K := by
  refine constrain_all_of fun p hm => ?_
  rw [hp] at hm
  obtain ⟨h1, h2⟩ := hc p hm
  have hs : select = false → p.1.region ≠ .select ∧ p.2.region ≠ .select := by
    rintro rfl
    exact (without_select_of_ok hL).2 p hm
  exact ⟨(C67_copyable select cs hcs p.1).2 ⟨h1.1, fun e => (hs e).1⟩,
    (C67_copyable select cs hcs p.2).2 ⟨h2.1, fun e => (hs e).2⟩⟩

/-- **C67.** Whatever a client does, if synthesis goes through then halo2 accepts all copy constraints: they are between
columns for which equality has been enabled. -/
theorem C67_copies_accepted (A : Api n) (w : Witness n) (calls : List (Call n)) (pre : Option ℕ) {τ : Store n}
    {t : Context n} (h : runCalls A w calls (.empty n pre) (.new n) = .ok (τ, t)) {max_rows : ℕ}
    (hm : ∀ chip, t.offs.at chip ≤ max_rows) {select : Bool} {L : Layout n}
    (hL : synthesize select t.records max_rows = .ok L) (cs : ConstraintSystem n) (hcs : cs.Proper) :
    ∃ K, constrain_all (configure select cs).1 (configure select cs).2 L.copies = some K := by
  refine constrain_all_ok (C36_copies_ready A w calls pre h) cs hcs hL ?_
  obtain ⟨h1, h2⟩ := rows_of_tidy (prog2_runCalls A w calls (.empty n pre)).tidy h
  have hrow : RowsBelow t.records := fun chip r c hc => lt_of_lt_of_le (h1 chip r c hc) (h2 chip)
  have hfit : RowsFit t.records max_rows := fun chip r c hc => lt_of_lt_of_le (h1 chip r c hc) (hm chip)
  cases select
  · exact (constraints_of_assign_all_without_select hrow hfit hL).2
  · exact (constraints_of_assign_all hrow hfit hL).2

/-- `configure` keeps constraint systems proper. -/
theorem C67_proper (select : Bool) (cs : ConstraintSystem n) (hcs : cs.Proper) : (configure select cs).2.Proper := by
  obtain ⟨e1, e2, e3, -, -⟩ := configure_cs select cs
  intro c hc
  rw [e1, e2]
  rcases (e3 c).1 hc with h | h
  · rcases hcs c h with ⟨i, hi, rfl⟩ | ⟨j, hj, rfl⟩
    · exact .inl ⟨i, by omega, rfl⟩
    · exact .inr ⟨j, by omega, rfl⟩
  · unfold copyCols at h
    cases select <;>
      simp only [List.mem_append, List.mem_cons, List.not_mem_nil, or_false, Bool.false_eq_true, if_false, if_true] at h ⊢
    · rcases h with rfl | rfl | rfl | rfl | rfl | rfl <;> exact .inl ⟨_, by omega, rfl⟩
    · rcases h with (rfl | rfl | rfl | rfl | rfl | rfl) | rfl | rfl <;> exact .inl ⟨_, by omega, rfl⟩

theorem proper_empty : (ConstraintSystem.empty n).Proper := fun c hc => absurd (show c ∈ [] from hc) List.not_mem_nil

end Verif
