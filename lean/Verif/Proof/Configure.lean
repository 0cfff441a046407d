import Verif.Spec.Plonk
import Mathlib.Tactic.Ring
import Mathlib.Tactic.LinearCombination

/-!
# The configured constraint system
-/

namespace Verif
variable {n : ℕ}

/-! ## What `configure` yields -/

/-- Columns for which equality has been enabled after these calls. -/
def enabled (p l : List Column) : List Column := l.foldl (fun p c => if c ∈ p then p else p ++ [c]) p

theorem mem_enabled {c : Column} {p l : List Column} : c ∈ enabled p l ↔ c ∈ p ∨ c ∈ l := by
  induction l generalizing p with
  | nil => simp [enabled]
  | cons a l ih =>
    show c ∈ enabled (if a ∈ p then p else p ++ [a]) l ↔ _
    rw [ih, List.mem_cons]
    split
    · rename_i h
      constructor
      · rintro (h1 | h1)
        · exact .inl h1
        · exact .inr (.inr h1)
      · rintro (h1 | rfl | h1)
        · exact .inl h1
        · exact .inl h
        · exact .inr h1
    · rw [List.mem_append, List.mem_singleton, or_assoc]

/-- The columns of the base chip, if `a` advice and `f` fixed columns were there before. -/
def baseCfg (a f : ℕ) : BaseChipConfig where
  base := [.advice a, .advice (a + 1), .advice (a + 2), .advice (a + 3), .advice (a + 4)]
  coeff := [.fixed f, .fixed (f + 1), .fixed (f + 2), .fixed (f + 3), .fixed (f + 4)]
  mul_coeff := [.fixed (f + 5), .fixed (f + 6)]
  next_coeff := .fixed (f + 7)
  constant := .fixed (f + 8)

def rangeCfg (a f : ℕ) : RangeChipConfig where
  range_tag_table_column := .fixed (f + 2)
  range_value_table_column := .fixed (f + 3)
  adv_cols := [.advice a, .advice (a + 1), .advice (a + 2)]
  fix_cols := [.fixed f, .fixed (f + 1)]

def selectCfg (a f : ℕ) : SelectChipConfig := ⟨.advice a, .advice (a + 1), .fixed f, .fixed (f + 1)⟩

def rangeLookups (c : RangeChipConfig) : List (List (Expression n × Expression n)) :=
  [[(.query (colAt c.fix_cols 1) 0, .query c.range_tag_table_column 0),
      (.query (colAt c.adv_cols 1) 0, .query c.range_value_table_column 0)],
    [(.constant (COMMON_RANGE_BITS : ℕ), .query c.range_tag_table_column 0),
      (.query (colAt c.adv_cols 2) 0, .query c.range_value_table_column 0)]]

def rangeGates (c : RangeChipConfig) : List (List (Expression n)) :=
  [[one_line_gate (colAt c.fix_cols 0) (colAt c.adv_cols 0) (colAt c.adv_cols 1)],
    [lines_gate 2 (colAt c.fix_cols 0) (colAt c.adv_cols 0) (colAt c.adv_cols 1) (colAt c.adv_cols 2)],
    [lines_gate 3 (colAt c.fix_cols 0) (colAt c.adv_cols 0) (colAt c.adv_cols 1) (colAt c.adv_cols 2)]]

def selectLookup (c : SelectChipConfig) : List (Expression n × Expression n) :=
  [(.query c.limb_info 0, .query c.limb_info 0),
    (.scaled (.query c.selector 0) ((1 <<< 128 : ℕ) : ZMod n) + .query c.encoded_offset 0, .query c.encoded_offset 0),
    (.constant 0, .query c.is_lookup 0)]

section
open ConstraintSystem
variable {α β : Type}

theorem meta_bind (m : Meta n α) (f : α → Meta n β) (cs : ConstraintSystem n) :
    (m >>= f) cs = f (m cs).1 (m cs).2 := rfl
theorem meta_pure (a : α) (cs : ConstraintSystem n) : (pure a : Meta n α) cs = (a, cs) := rfl

theorem advice_columns_eq (l : List ℕ) (cs : ConstraintSystem n) : l.mapM (fun _ => advice_column (n := n)) cs =
    ((List.range l.length).map fun i => .advice (cs.num_advice_columns + i),
      { cs with num_advice_columns := cs.num_advice_columns + l.length }) := by
  induction l generalizing cs with
  | nil => rfl
  | cons a l ih =>
    rw [List.mapM_cons, meta_bind, meta_bind, ih, meta_pure]
    unfold advice_column
    dsimp only
    rw [List.length_cons, List.range_succ_eq_map, List.map_cons, List.map_map, Nat.add_zero]
    congr 1
    · congr 1
      exact List.map_congr_left fun i _ => by show Column.advice _ = Column.advice _; congr 1; omega
    · congr 1
      omega

theorem fixed_columns_eq (l : List ℕ) (cs : ConstraintSystem n) : l.mapM (fun _ => fixed_column (n := n)) cs =
    ((List.range l.length).map fun i => .fixed (cs.num_fixed_columns + i),
      { cs with num_fixed_columns := cs.num_fixed_columns + l.length }) := by
  induction l generalizing cs with
  | nil => rfl
  | cons a l ih =>
    rw [List.mapM_cons, meta_bind, meta_bind, ih, meta_pure]
    unfold fixed_column
    dsimp only
    rw [List.length_cons, List.range_succ_eq_map, List.map_cons, List.map_map, Nat.add_zero]
    congr 1
    · congr 1
      exact List.map_congr_left fun i _ => by show Column.fixed _ = Column.fixed _; congr 1; omega
    · congr 1
      omega

theorem enable_eq (l : List Column) (cs : ConstraintSystem n) : l.forM (enable_equality (n := n)) cs =
    ((), { cs with permutation := enabled cs.permutation l }) := by
  induction l generalizing cs with
  | nil => rfl
  | cons a l ih =>
    show (enable_equality a >>= fun _ => l.forM enable_equality) cs = _
    rw [meta_bind, ih]; rfl
end

theorem base_configure_eq (cs : ConstraintSystem n) : base_configure cs =
    (baseCfg cs.num_advice_columns cs.num_fixed_columns,
      ⟨cs.num_advice_columns + 5, cs.num_fixed_columns + 9,
        enabled cs.permutation (baseCfg cs.num_advice_columns cs.num_fixed_columns).base,
        cs.gates ++ [[base_gate (baseCfg cs.num_advice_columns cs.num_fixed_columns)]], cs.lookups⟩) := by
  unfold base_configure
  simp only [meta_bind, advice_columns_eq, fixed_columns_eq, enable_eq, meta_pure, ConstraintSystem.fixed_column,
    ConstraintSystem.create_gate, List.length_range]
  rfl

theorem range_configure_eq (cs : ConstraintSystem n) : range_configure cs =
    (rangeCfg cs.num_advice_columns cs.num_fixed_columns,
      ⟨cs.num_advice_columns + 3, cs.num_fixed_columns + 4,
        enabled cs.permutation [.advice cs.num_advice_columns],
        cs.gates ++ rangeGates (rangeCfg cs.num_advice_columns cs.num_fixed_columns),
        cs.lookups ++ rangeLookups (rangeCfg cs.num_advice_columns cs.num_fixed_columns)⟩) := by
  unfold range_configure
  simp only [meta_bind, advice_columns_eq, fixed_columns_eq, meta_pure, ConstraintSystem.fixed_column,
    ConstraintSystem.create_gate, ConstraintSystem.lookup, ConstraintSystem.lookup_any, ConstraintSystem.lookup_table_column,
    ConstraintSystem.enable_equality, List.length_range, List.append_assoc]
  rfl

theorem select_configure_eq (cs : ConstraintSystem n) : select_configure cs =
    (selectCfg cs.num_advice_columns cs.num_fixed_columns,
      ⟨cs.num_advice_columns + 2, cs.num_fixed_columns + 2,
        enabled cs.permutation [.advice cs.num_advice_columns, .advice (cs.num_advice_columns + 1)],
        cs.gates, cs.lookups ++ [selectLookup (selectCfg cs.num_advice_columns cs.num_fixed_columns)]⟩) := rfl

/-! ## Evaluation -/

theorem rotated_add {rows r j : ℕ} (h : r + j < rows) : rotated rows r (j : ℤ) = r + j := by
  unfold rotated
  rw [Int.emod_eq_of_lt (by omega) (by omega)]
  omega

theorem rotated_zero {rows r : ℕ} (h : r < rows) : rotated rows r 0 = r := by
  have := rotated_add (rows := rows) (r := r) (j := 0) h
  simpa using this

section
variable {rows r : ℕ} {A : Assignment n}
theorem eval_add (a b : Expression n) : (a + b).eval rows A r = a.eval rows A r + b.eval rows A r := rfl
theorem eval_mul (a b : Expression n) : (a * b).eval rows A r = a.eval rows A r * b.eval rows A r := rfl
theorem eval_sub (a b : Expression n) : (a - b).eval rows A r = a.eval rows A r - b.eval rows A r := by
  rw [sub_eq_add_neg]; rfl
theorem eval_query (c : Column) (j : ℤ) : (Expression.query c j : Expression n).eval rows A r = A c (rotated rows r j) := rfl
theorem eval_constant (c : ZMod n) : (Expression.constant c).eval rows A r = c := rfl
theorem eval_scaled (e : Expression n) (c : ZMod n) : (Expression.scaled e c).eval rows A r = e.eval rows A r * c := rfl
end

theorem cast_shift (k : ℕ) : ((1 <<< k : ℕ) : ZMod n) = 2 ^ k := by
  rw [Nat.shiftLeft_eq, one_mul, Nat.cast_pow, Nat.cast_ofNat]

theorem eval_base_gate (a f rows r : ℕ) (A : Assignment n) :
    (base_gate (baseCfg a f)).eval rows A r =
      A (.fixed (f + 8)) (rotated rows r 0) + A (.advice (a + 4)) (rotated rows r 1) * A (.fixed (f + 7)) (rotated rows r 0)
      + A (.advice a) (rotated rows r 0) * A (.fixed f) (rotated rows r 0)
      + A (.advice (a + 1)) (rotated rows r 0) * A (.fixed (f + 1)) (rotated rows r 0)
      + A (.advice (a + 2)) (rotated rows r 0) * A (.fixed (f + 2)) (rotated rows r 0)
      + A (.advice (a + 3)) (rotated rows r 0) * A (.fixed (f + 3)) (rotated rows r 0)
      + A (.advice (a + 4)) (rotated rows r 0) * A (.fixed (f + 4)) (rotated rows r 0)
      + A (.advice a) (rotated rows r 0) * A (.advice (a + 1)) (rotated rows r 0) * A (.fixed (f + 5)) (rotated rows r 0)
      + A (.advice (a + 2)) (rotated rows r 0) * A (.advice (a + 3)) (rotated rows r 0) *
        A (.fixed (f + 6)) (rotated rows r 0) := rfl

theorem eval_switch (lines : ℕ) (l acc : Expression n) (rows r : ℕ) (A : Assignment n) :
    (switch_lines lines l acc).eval rows A r = acc.eval rows A r * l.eval rows A r *
      (if 1 ≠ lines then l.eval rows A r - 1 else 1) * (if 2 ≠ lines then l.eval rows A r - 2 else 1) *
      (if 3 ≠ lines then l.eval rows A r - 3 else 1) := by
  unfold switch_lines
  simp only [List.foldl_cons, List.foldl_nil]
  by_cases h1 : 1 = lines <;> by_cases h2 : 2 = lines <;> by_cases h3 : 3 = lines <;>
    simp only [ne_eq, h1, h2, h3, not_true_eq_false, not_false_eq_true, if_true, if_false, eval_mul, eval_sub, eval_constant,
      mul_one, Nat.cast_one, Nat.cast_ofNat]

theorem eval_one_line (k v t : Column) (rows r : ℕ) (A : Assignment n) :
    (one_line_gate k v t).eval rows A r = (A v (rotated rows r 0) - A t (rotated rows r 0)) * A k (rotated rows r 0) *
      (A k (rotated rows r 0) - 2) * (A k (rotated rows r 0) - 3) := by
  unfold one_line_gate
  rw [eval_switch, eval_sub, if_neg (by decide), if_pos (by decide), if_pos (by decide), mul_one]
  rfl

theorem eval_two_lines (k v t c : Column) (rows r : ℕ) (A : Assignment n) :
    (lines_gate 2 k v t c).eval rows A r =
      (A v (rotated rows r 0) - A c (rotated rows r 0) - A c (rotated rows r 1) * 2 ^ 18
        - A t (rotated rows r 0) * 2 ^ 36 - A t (rotated rows r 1) * 2 ^ 54) * A k (rotated rows r 0) *
      (A k (rotated rows r 0) - 1) * (A k (rotated rows r 0) - 3) := by
  unfold lines_gate sub_chunks
  rw [eval_switch, if_pos (by decide), if_neg (by decide), if_pos (by decide), mul_one]
  rw [show List.range 2 = [0, 1] from rfl]
  dsimp only [List.foldl_cons, List.foldl_nil]
  simp only [eval_sub, eval_mul, eval_query, eval_constant, cast_shift]
  rw [show COMMON_RANGE_BITS = 18 from rfl]
  simp only [Nat.cast_zero, Nat.cast_one, one_mul, mul_one, ← pow_add]

theorem eval_three_lines (k v t c : Column) (rows r : ℕ) (A : Assignment n) :
    (lines_gate 3 k v t c).eval rows A r =
      (A v (rotated rows r 0) - A c (rotated rows r 0) - A c (rotated rows r 1) * 2 ^ 18 - A c (rotated rows r 2) * 2 ^ 36
        - A t (rotated rows r 0) * 2 ^ 54 - A t (rotated rows r 1) * 2 ^ 72 - A t (rotated rows r 2) * 2 ^ 90) *
      A k (rotated rows r 0) * (A k (rotated rows r 0) - 1) * (A k (rotated rows r 0) - 2) := by
  unfold lines_gate sub_chunks
  rw [eval_switch, if_pos (by decide), if_pos (by decide), if_neg (by decide), mul_one]
  rw [show List.range 3 = [0, 1, 2] from rfl]
  simp only [List.foldl_cons, List.foldl_nil, eval_sub, eval_mul, eval_query, eval_constant, cast_shift]
  rw [show COMMON_RANGE_BITS = 18 from rfl]
  simp only [Nat.cast_zero, Nat.cast_one, Nat.cast_ofNat, one_mul, mul_one, ← pow_add]

/-! ## The range table -/

theorem mem_init_table (tag value : ZMod n) : (tag, value) ∈ init_table n ↔ Circuit.inRangeTable tag value := by
  unfold init_table Circuit.inRangeTable
  simp only [List.mem_flatMap, List.mem_range, List.mem_map, Prod.mk.injEq, Nat.shiftLeft_eq, one_mul]
  constructor
  · rintro ⟨t, ht, v, hv, rfl, rfl⟩
    exact ⟨t, v, by omega, hv, rfl, rfl⟩
  · rintro ⟨t, v, ht, hv, rfl, rfl⟩
    exact ⟨t, by omega, v, hv, rfl, rfl⟩

theorem length_tables (k : ℕ) : ((List.range k).flatMap fun tag : ℕ => (List.range (1 <<< tag)).map fun value : ℕ =>
    ((tag : ZMod n), (value : ZMod n))).length + 1 = 2 ^ k := by
  induction k with
  | zero => rfl
  | succ k ih =>
    rw [List.range_succ, List.flatMap_append, List.length_append, List.flatMap_singleton, List.length_map,
      List.length_range, Nat.shiftLeft_eq, one_mul, pow_succ]
    omega

theorem length_init_table : (init_table n).length + 1 = 2 ^ 19 := length_tables 19

/-! ## All chips -/

/-- The columns of all chips, if `a` advice and `f` fixed columns were there before. -/
def chipsCfg (select : Bool) (a f : ℕ) : ChipsConfig :=
  ⟨baseCfg a f, rangeCfg (a + 5) (f + 9), if select then some (selectCfg (a + 8) (f + 13)) else none⟩

/-- The columns for which equality is enabled. -/
def copyCols (select : Bool) (a : ℕ) : List Column :=
  [.advice a, .advice (a + 1), .advice (a + 2), .advice (a + 3), .advice (a + 4), .advice (a + 5)] ++
    if select then [.advice (a + 8), .advice (a + 9)] else []

theorem configure_cfg (select : Bool) (cs : ConstraintSystem n) :
    (configure select cs).1 = chipsCfg select cs.num_advice_columns cs.num_fixed_columns := by
  unfold configure
  cases select
  · simp only [meta_bind, meta_pure, base_configure_eq, range_configure_eq, Bool.false_eq_true, if_false]
    rfl
  · simp only [meta_bind, meta_pure, base_configure_eq, range_configure_eq, select_configure_eq, if_true]
    rfl

theorem configure_cs (select : Bool) (cs : ConstraintSystem n) :
    (configure select cs).2.num_advice_columns = cs.num_advice_columns + (if select then 10 else 8) ∧
    (configure select cs).2.num_fixed_columns = cs.num_fixed_columns + (if select then 15 else 13) ∧
    (∀ c, c ∈ (configure select cs).2.permutation ↔ c ∈ cs.permutation ∨ c ∈ copyCols select cs.num_advice_columns) ∧
    (configure select cs).2.gates = cs.gates ++ ([[base_gate (baseCfg cs.num_advice_columns cs.num_fixed_columns)]] ++
      rangeGates (rangeCfg (cs.num_advice_columns + 5) (cs.num_fixed_columns + 9))) ∧
    (configure select cs).2.lookups = cs.lookups ++
      (rangeLookups (rangeCfg (cs.num_advice_columns + 5) (cs.num_fixed_columns + 9)) ++
        if select then [selectLookup (selectCfg (cs.num_advice_columns + 8) (cs.num_fixed_columns + 13))] else []) := by
  unfold configure
  cases select
  · simp only [meta_bind, meta_pure, base_configure_eq, range_configure_eq, Bool.false_eq_true, if_false,
      List.append_assoc, List.append_nil, true_and, and_true]
    intro c
    rw [mem_enabled, mem_enabled, or_assoc, ← List.mem_append]
    rfl
  · simp only [meta_bind, meta_pure, base_configure_eq, range_configure_eq, select_configure_eq, if_true,
      List.append_assoc, true_and, and_true]
    intro c
    rw [mem_enabled, mem_enabled, mem_enabled, or_assoc, or_assoc, ← List.mem_append, ← List.mem_append]
    rfl

section
variable {a f rows usable : ℕ} {select : Bool} {L : Layout n} {A : Assignment n}

theorem Carries.at (h : Carries (chipsCfg select a f) L usable A) (hu : usable ≤ rows) {chip : Chip} {col : ℕ} {k : Column}
    (hc : col < chip.fixCols) (hk : (chipsCfg select a f).fixCol chip col = some k) {r : ℕ} (hr : r < usable) :
    A k (rotated rows r 0) = (L.fix chip r col).getD 0 := by
  rw [rotated_zero (by omega), h.fix chip col k hc hk, if_pos hr]

theorem Carries.out (h : Carries (chipsCfg select a f) L usable A) {chip : Chip} {col : ℕ} {k : Column}
    (hc : col < chip.fixCols) (hk : (chipsCfg select a f).fixCol chip col = some k) {r : ℕ} (hr : r < rows)
    (hn : ¬ r < usable) : A k (rotated rows r 0) = 0 := by
  rw [rotated_zero hr, h.fix chip col k hc hk, if_neg hn]

theorem base_gate_iff (h : Carries (chipsCfg select a f) L usable A) (hu : usable + 2 ≤ rows) :
    (∀ r < rows, (base_gate (baseCfg a f)).eval rows A r = 0) ↔
      ∀ r < usable, (L.circuit usable).baseGate (adviceOf (chipsCfg select a f) A) r = 0 := by
  have hin : ∀ r < usable, (base_gate (baseCfg a f)).eval rows A r =
      (L.circuit usable).baseGate (adviceOf (chipsCfg select a f) A) r := by
    intro r hr
    have e := fun (c : ℕ) (k : Column) (hc : c < 9) hk => h.at (rows := rows) (r := r) (by omega) (chip := .base) (col := c) (k := k) hc hk hr
    rw [eval_base_gate, e 0 (.fixed f) (by omega) rfl, e 1 (.fixed (f + 1)) (by omega) rfl, e 2 (.fixed (f + 2)) (by omega) rfl, e 3 (.fixed (f + 3)) (by omega) rfl,
      e 4 (.fixed (f + 4)) (by omega) rfl, e 5 (.fixed (f + 5)) (by omega) rfl, e 6 (.fixed (f + 6)) (by omega) rfl, e 7 (.fixed (f + 7)) (by omega) rfl, e 8 (.fixed (f + 8)) (by omega) rfl,
      rotated_zero (by omega), show (1 : ℤ) = ((1 : ℕ) : ℤ) from rfl, rotated_add (by omega)]
    rfl
  have hout : ∀ r < rows, ¬ r < usable → (base_gate (baseCfg a f)).eval rows A r = 0 := by
    intro r hr hn
    have e := fun (c : ℕ) (k : Column) (hc : c < 9) hk => h.out (chip := .base) (col := c) (k := k) hc hk hr hn
    rw [eval_base_gate, e 0 (.fixed f) (by omega) rfl, e 1 (.fixed (f + 1)) (by omega) rfl, e 2 (.fixed (f + 2)) (by omega) rfl, e 3 (.fixed (f + 3)) (by omega) rfl,
      e 4 (.fixed (f + 4)) (by omega) rfl, e 5 (.fixed (f + 5)) (by omega) rfl, e 6 (.fixed (f + 6)) (by omega) rfl, e 7 (.fixed (f + 7)) (by omega) rfl, e 8 (.fixed (f + 8)) (by omega) rfl]
    simp only [mul_zero, add_zero]
  constructor
  · intro H r hr
    rw [← hin r hr]; exact H r (by omega)
  · intro H r hr
    by_cases hn : r < usable
    · rw [hin r hn]; exact H r hn
    · exact hout r hr hn

theorem range_gates_iff (h : Carries (chipsCfg select a f) L usable A) (hu : usable + 2 ≤ rows) :
    (∀ g ∈ rangeGates (rangeCfg (a + 5) (f + 9)), ∀ p ∈ g, ∀ r < rows, p.eval rows A r = 0) ↔
      ∀ r < usable, (L.circuit usable).rangeGate1 (adviceOf (chipsCfg select a f) A) r = 0 ∧
        (L.circuit usable).rangeGate2 (adviceOf (chipsCfg select a f) A) r = 0 ∧
        (L.circuit usable).rangeGate3 (adviceOf (chipsCfg select a f) A) r = 0 := by
  have hin : ∀ r < usable,
      (one_line_gate (.fixed (f + 9)) (.advice (a + 5)) (.advice (a + 5 + 1))).eval rows A r =
        (L.circuit usable).rangeGate1 (adviceOf (chipsCfg select a f) A) r ∧
      (lines_gate 2 (.fixed (f + 9)) (.advice (a + 5)) (.advice (a + 5 + 1)) (.advice (a + 5 + 2))).eval rows A r =
        (L.circuit usable).rangeGate2 (adviceOf (chipsCfg select a f) A) r ∧
      (lines_gate 3 (.fixed (f + 9)) (.advice (a + 5)) (.advice (a + 5 + 1)) (.advice (a + 5 + 2))).eval rows A r =
        (L.circuit usable).rangeGate3 (adviceOf (chipsCfg select a f) A) r := by
    intro r hr
    have e := h.at (rows := rows) (by omega) (chip := .range) (col := 0) (k := .fixed (f + 9)) (by decide) rfl hr
    rw [eval_one_line, eval_two_lines, eval_three_lines, e, rotated_zero (by omega),
      show (1 : ℤ) = ((1 : ℕ) : ℤ) from rfl, rotated_add (by omega), show (2 : ℤ) = ((2 : ℕ) : ℤ) from rfl,
      rotated_add (by omega)]
    exact ⟨rfl, rfl, rfl⟩
  have hout : ∀ r < rows, ¬ r < usable →
      (one_line_gate (.fixed (f + 9)) (.advice (a + 5)) (.advice (a + 5 + 1))).eval rows A r = 0 ∧
      (lines_gate 2 (.fixed (f + 9)) (.advice (a + 5)) (.advice (a + 5 + 1)) (.advice (a + 5 + 2))).eval rows A r = 0 ∧
      (lines_gate 3 (.fixed (f + 9)) (.advice (a + 5)) (.advice (a + 5 + 1)) (.advice (a + 5 + 2))).eval rows A r = 0 := by
    intro r hr hn
    have e := h.out (rows := rows) (chip := .range) (col := 0) (k := .fixed (f + 9)) (by decide) rfl hr hn
    rw [eval_one_line, eval_two_lines, eval_three_lines, e]
    simp only [mul_zero, zero_mul, and_self]
  unfold rangeGates
  simp only [List.forall_mem_cons, List.not_mem_nil, false_implies, implies_true, and_true]
  constructor
  · intro ⟨h1, h2, h3⟩ r hr
    obtain ⟨e1, e2, e3⟩ := hin r hr
    exact ⟨e1 ▸ h1 r (by omega), e2 ▸ h2 r (by omega), e3 ▸ h3 r (by omega)⟩
  · intro H
    have key : ∀ r < rows, _ ∧ _ ∧ _ := fun r hr => by
      by_cases hn : r < usable
      · obtain ⟨e1, e2, e3⟩ := hin r hn
        obtain ⟨h1, h2, h3⟩ := H r hn
        exact ⟨e1.trans h1, e2.trans h2, e3.trans h3⟩
      · exact hout r hr hn
    exact ⟨fun r hr => (key r hr).1, fun r hr => (key r hr).2.1, fun r hr => (key r hr).2.2⟩

/-- What can be found in the range table. -/
theorem table_iff (h : Carries (chipsCfg select a f) L usable A) (hu : usable ≤ rows) (ht : 2 ^ 19 - 1 ≤ usable)
    (x y : ZMod n) : (∃ t < usable, x = A (.fixed (f + 9 + 2)) (rotated rows t 0) ∧
      y = A (.fixed (f + 9 + 3)) (rotated rows t 0)) ↔ Circuit.inRangeTable x y := by
  have hl := length_init_table (n := n)
  rw [← mem_init_table]
  have h1 := h.tag
  have h2 := h.value
  change ∀ r < usable, A (.fixed (f + 9 + 2)) r = _ at h1
  change ∀ r < usable, A (.fixed (f + 9 + 3)) r = _ at h2
  have hpos : 0 < (init_table n).length := by
    have : (1 : ℕ) < 2 ^ 19 := by decide
    omega
  have hd : (init_table n).headD (0, 0) ∈ init_table n := by
    cases e : init_table n with
    | nil => rw [e] at hpos; cases hpos
    | cons b l => exact List.mem_cons_self
  constructor
  · rintro ⟨t, ht, e1, e2⟩
    rw [rotated_zero (by omega), h1 t ht] at e1
    rw [rotated_zero (by omega), h2 t ht] at e2
    subst e1 e2
    cases e : (init_table n)[t]? with
    | none => exact hd
    | some p => exact List.mem_of_getElem? e
  · intro hm
    obtain ⟨t, hlt, e⟩ := List.getElem_of_mem hm
    have hlt' : t < usable := by omega
    refine ⟨t, hlt', ?_, ?_⟩
    · rw [rotated_zero (by omega), h1 t hlt', List.getElem?_eq_getElem hlt, e]; rfl
    · rw [rotated_zero (by omega), h2 t hlt', List.getElem?_eq_getElem hlt, e]; rfl

theorem range_lookups_iff (h : Carries (chipsCfg select a f) L usable A) (hu : usable ≤ rows) (ht : 2 ^ 19 - 1 ≤ usable) :
    (∀ l ∈ rangeLookups (rangeCfg (a + 5) (f + 9)), ∀ r < usable, ∃ t < usable, ∀ p ∈ l,
        p.1.eval rows A r = p.2.eval rows A t) ↔
      ∀ r < usable, Circuit.inRangeTable ((L.circuit usable).rangeFix r 1)
          (adviceOf (chipsCfg select a f) A ⟨.range, 1, r⟩) ∧
        Circuit.inRangeTable (n := n) (COMMON_RANGE_BITS : ℕ) (adviceOf (chipsCfg select a f) A ⟨.range, 2, r⟩) := by
  unfold rangeLookups
  simp only [List.forall_mem_cons, List.not_mem_nil, false_implies, implies_true, and_true, ← forall_and]
  refine forall_congr' fun r => imp_congr_right fun hr => ?_
  have e := h.at (rows := rows) hu (chip := .range) (col := 1) (k := .fixed (f + 9 + 1)) (by decide) rfl hr
  rw [← table_iff h hu ht, ← table_iff h hu ht]
  simp only [eval_query, eval_constant]
  have e' : A (colAt (rangeCfg (a + 5) (f + 9)).fix_cols 1) (rotated rows r 0) = (L.circuit usable).rangeFix r 1 := e
  rw [e', rotated_zero (by omega : r < rows)]
  rfl

theorem select_lookup_iff (h : Carries (chipsCfg true a f) L usable A) (hu : usable ≤ rows) :
    (∀ r < usable, ∃ t < usable, ∀ p ∈ selectLookup (selectCfg (a + 8) (f + 13)),
        p.1.eval rows A r = p.2.eval rows A t) ↔
      ∀ r < usable, (L.circuit usable).SelectRow (adviceOf (chipsCfg true a f) A) r := by
  refine forall_congr' fun r => imp_congr_right fun hr => exists_congr fun t => and_congr_right fun ht => ?_
  have e0 {r} (hr : r < usable) := h.at (rows := rows) hu (chip := .select) (col := 0) (k := .fixed (f + 13)) (by decide) rfl hr
  have e1 {r} (hr : r < usable) := h.at (rows := rows) hu (chip := .select) (col := 1) (k := .fixed (f + 13 + 1)) (by decide) rfl hr
  unfold selectLookup
  simp only [List.forall_mem_cons, List.not_mem_nil, false_implies, implies_true, and_true, eval_add, eval_query,
    eval_scaled, eval_constant, cast_shift]
  change (A (.advice (a + 8)) _ = A (.advice (a + 8)) _ ∧ A (.advice (a + 8 + 1)) _ * _ + A (.fixed (f + 13)) _ =
    A (.fixed (f + 13)) _ ∧ 0 = A (.fixed (f + 13 + 1)) _) ↔ _
  rw [e0 hr, e0 ht, e1 ht, rotated_zero (by omega), rotated_zero (by omega : t < rows)]
  rfl
end

end Verif
