import Verif.Props.Records
import Verif.Props.MsmGroup
import Verif.Proof.MsmForge

/-!
# C74: windows that run in parallel, and the memory they share
-/

namespace Verif
variable {n : ℕ} {α β ε : Type}

/-! ## Specification -/

/-- A memory location of the arrays that the clones share through `Arc::get_mut_unchecked`: the value of an advice cell, of a
fixed cell, or the flag of an advice cell. (`(Option<N>, bool)`, `src/context.rs:243-252`.) -/
inductive Loc where
  | adv (chip : Chip) (row col : ℕ)
  | fix (chip : Chip) (row col : ℕ)
  | flag (cell : Cell)

/-- The location that is written. Copy constraints and heights belong to the clone. -/
def Write.loc : Write n → Option Loc
  | .adv chip r c _ => some (.adv chip r c)
  | .fix chip r c _ => some (.fix chip r c)
  | .flag cell => some (.flag cell)
  | .perm _ _ => none
  | .height _ _ => none

/-- `logs` are the writes of the windows of a parallel run from `s` to `t`: those of window `i` at the offsets `O i`. -/
def WindowLogs (body : ℕ → M n (Except ε α)) (windows : ℕ) (s t : Context n) (logs : List (List (Write n))) : Prop :=
  logs.length = windows ∧ ∃ O : ℕ → Offsets, O 0 = s.offs ∧ O windows = t.offs ∧
    ∀ (i : ℕ) (l : List (Write n)), logs[i]? = some l → ∃ a, Performs (body i) (O i) (.ok a) l (O (i + 1))

/-- Two windows among those that run in parallel (all but the first, `src/circuit/ecc_chip.rs:169-195`, `310-340`) write to the
same location, and nothing orders the writes. -/
def Races (logs : List (List (Write n))) : Prop :=
  ∃ (i j : ℕ) (l l' : List (Write n)) (x y : Write n) (p : Loc), 1 ≤ i ∧ i < j ∧ logs[i]? = some l ∧ logs[j]? = some l' ∧
    x ∈ l ∧ y ∈ l' ∧ x.loc = some p ∧ y.loc = some p

/-! ## What is flagged -/

/-- A successful run of `m` ends with the flag of the cell set. -/
def Flags (cell : Cell) (m : M n α) : Prop :=
  ∀ s a t, s.Fresh → m s = .ok (a, t) → t.records.inner.permute_flag cell = true

theorem Flags.left {cell : Cell} {m : M n α} {k : α → M n β} (h : Flags cell m) (hm : Prog m) (hk : ∀ a, Prog (k a)) :
    Flags cell (m >>= k) := by
  intro s b u hs e
  obtain ⟨a, t, h1, h2⟩ := run_bind_ok.1 e
  exact ((hk a).raises t _ u (hm.growing s _ t hs h1).1 h2).flags _ (h s a t hs h1)

theorem Flags.right {cell : Cell} {m : M n α} {k : α → M n β} (hm : Prog m)
    (h : ∀ s a t, m s = .ok (a, t) → Flags cell (k a)) : Flags cell (m >>= k) := by
  intro s b u hs e
  obtain ⟨a, t, h1, h2⟩ := run_bind_ok.1 e
  exact h s a t h1 t b u (hm.growing s _ t hs h1).1 h2

theorem applyAll_flag {cell : Cell} {ws : List (Write n)} : ∀ {s : Records n}, .flag cell ∈ ws →
    (applyAll ws s).inner.permute_flag cell = true := by
  induction ws with
  | nil => intro s h; cases h
  | cons w ws ih =>
    intro s h
    rw [applyAll_cons]
    rcases List.mem_cons.1 h with rfl | h
    · refine (applyAll_grows ws _).flags _ ?_
      show (if cell = cell then true else _) = true
      rw [if_pos rfl]
    · exact ih h

theorem flag_applyAll {cell : Cell} : ∀ {ws : List (Write n)} {s : Records n},
    (applyAll ws s).inner.permute_flag cell = true → s.inner.permute_flag cell = true ∨ .flag cell ∈ ws
  | [], s, h => .inl h
  | w :: ws, s, h => by
    rw [applyAll_cons] at h
    rcases flag_applyAll h with h | h
    · rcases w with ⟨_ | _ | _, r', c', v⟩ | ⟨_ | _ | _, r', c', v⟩ | f | ⟨a, b⟩ | ⟨_ | _ | _, h'⟩ <;> first
        | exact .inl h
        | skip
      change (if cell = f then true else s.inner.permute_flag cell) = true at h
      by_cases e : cell = f
      · subst e; exact .inr List.mem_cons_self
      · rw [if_neg e] at h; exact .inl h
    · exact .inr (List.mem_cons_of_mem _ h)

theorem mem_cellsWrites {o : ℕ} {cell : Cell} {l : List (ValueSchema n × ZMod n)} : ∀ {i : ℕ} {b : ValueSchema n} {y : ZMod n},
    (b, y) ∈ l → b.cell = some cell → .flag cell ∈ cellsWrites o i l := by
  induction l with
  | nil => intro i b y h; cases h
  | cons x l ih =>
    intro i b y h hc
    obtain ⟨b', y'⟩ := x
    rw [cellsWrites, List.mem_append]
    rcases List.mem_cons.1 h with h | h
    · cases h
      refine .inl ?_
      rw [cellWrites, hc]
      simp
    · exact .inr (ih h hc)

theorem flags_one_line_with_last {pairs : List (ValueSchema n × ZMod n)} {last : ValueSchema n × ZMod n}
    {constant : Option (ZMod n)} {mul : List (ZMod n)} {next : Option (ZMod n)} {cell : Cell} {b : ValueSchema n} {y : ZMod n}
    (h : (b, y) ∈ pairs) (hc : b.cell = some cell) : Flags cell (one_line_with_last pairs last constant mul next) := by
  intro s a t hs e
  unfold one_line_with_last Records.one_line_with_last at e
  by_cases h0 : pairs.length ≤ VAR_COLUMNS - 1
  · rw [if_neg (not_not.2 h0)] at e
    cases h1 : s.records.one_line s.base_offset pairs constant mul next with
    | error p => rw [h1] at e; cases e
    | ok r =>
      rw [h1] at e
      cases e
      rw [records_one_line_eq h1]
      show ((applyAll _ s.records).line_cell _ _ _ _).inner.permute_flag cell = true
      rw [line_cell_eq]
      refine (applyAll_grows _ _).flags _ (applyAll_flag ?_)
      rw [lineWrites]
      simp only [List.mem_cons, List.mem_append]
      exact .inr (.inl (.inl (.inl (mem_cellsWrites h hc))))
  · rw [if_pos h0] at e; cases e

theorem flags_sum_with_constant {a b : AssignedValue n} {x y : ZMod n} {c : Option (ZMod n)} :
    Flags b.cell (sum_with_constant [(a, x), (b, y)] c) := by
  unfold sum_with_constant
  rw [if_pos (by show 2 < 5; omega)]
  unfold sum_with_constant_in_one_line
  refine Flags.right (by prog) fun _ _ _ _ => ?_
  rw [if_neg (by simp)]
  refine Flags.left ?_ (prog_one_line_with_last _ _ _ _ _) fun _ => .pure _
  exact flags_one_line_with_last (b := .assigned b) (y := y) (by simp [pairA]) rfl

theorem flags_mapM {ι : Type} {cell : Cell} {f : ι → M n β} (hp : ∀ i, Prog (f i)) {i : ι} (l : List ι)
    (h : Flags cell (f i)) : Flags cell ((i :: l).mapM f) := by
  rw [List.mapM_cons]
  exact h.left (hp i) fun a => by prog

theorem flags_int_sub {info : RangeInfo n} (hl : 0 < info.limbs) {a b : AssignedInteger n} {cell : Cell}
    (hv : ∀ v, b.limbs_le[0]? = some v → v.cell = cell) : Flags cell (int_sub info a b) := by
  unfold int_sub
  refine Flags.right (by prog) fun _ _ _ _ => Flags.right (by prog) fun _ u _ _ => Flags.left ?_ (by prog) fun _ => by prog
  obtain ⟨k, hk⟩ : ∃ k, info.limbs = k + 1 := ⟨info.limbs - 1, by omega⟩
  rw [hk, List.range_succ_eq_map]
  refine flags_mapM (by intro i; prog) _ ?_
  refine Flags.right (by prog) fun _ _ _ _ => Flags.right (by prog) fun s bi t e => Flags.right (by prog) fun _ _ _ _ => ?_
  obtain rfl : bi.cell = cell := by
    unfold index at e
    cases h0 : b.limbs_le[0]? with
    | none => rw [h0] at e; cases e
    | some v =>
      rw [h0] at e
      cases e
      exact hv _ h0
  exact flags_sum_with_constant

theorem flags_window_acc {info : RangeInfo n} (hl : 0 < info.limbs)
    {pick : ℕ → List (AssignedCondition n) → M n (AssignedNonZeroPoint n)} (hp : ∀ g l, Prog (pick g l)) (wi g : ℕ)
    {groups : List (List (List (List (AssignedCondition n))))} (hg : groups ≠ []) {acc : AssignedNonZeroPoint n}
    {cell : Cell} (hv : ∀ v, acc.x.limbs_le[0]? = some v → v.cell = cell) : Flags cell (window_acc info pick wi g groups acc) := by
  cases groups with
  | nil => exact absurd rfl hg
  | cons group rest =>
    unfold window_acc
    refine Flags.right (prog_group_bits _ _) fun _ _ _ _ => Flags.right (hp _ _) fun _ ci _ _ => ?_
    unfold tryB
    refine Flags.left ?_ (prog_ecc_add_unsafe _ _ _) fun r => ?_
    · unfold ecc_add_unsafe
      exact Flags.left (flags_int_sub hl hv) (prog_int_sub _ _ _) fun _ => by prog
    · cases r with
      | error e => exact .pure _
      | ok a => exact prog_window_acc hp _ _ _ _

/-- The writes of an operation that sets a flag contain the setting of the flag. -/
theorem Flags.mem {cell : Cell} {m : M n α} (h : Flags cell m) {o o' : Offsets} {a : α} {l : List (Write n)}
    (hp : Performs m o a l o') : .flag cell ∈ l := by
  have hs : (Context.mk' (Context.new n).records o).Fresh :=
    (fresh_iff' _).2 fun chip r c _ => by cases chip <;> exact ⟨rfl, rfl⟩
  have := h _ _ _ hs (hp (Context.mk' (Context.new n).records o) (hs.freshIn _) rfl)
  rcases flag_applyAll this with h | h
  · cases h
  · exact h

/-! ## C74 -/

/-- **C74**, partial: the windows of a parallel run have writes in the sense of `WindowLogs`, those of different windows have at
most flags in common, and their order does not matter. Missing: that they have no flags in common either, which is false
(`C74_violated`). -/
theorem C74_partial {windows : ℕ} {body : ℕ → M n (Except ε α)} (hw : 1 ≤ windows)
    (hb : ∀ i, Prog (body i)) (hne : ∀ i, NeverErr (body i)) {s t : Context n} {r : Except ε (List α)}
    (hs : s.Fresh) (h : windows_parallel windows body s = .ok (r, t)) :
    ∃ logs : List (List (Write n)), WindowLogs body windows s t logs ∧
      (∀ (i j : ℕ) (l l' : List (Write n)) (x y : Write n) (p : Loc), i < j → logs[i]? = some l → logs[j]? = some l' →
        x ∈ l → y ∈ l' → x.loc = some p → y.loc = some p → ∃ cell, x = .flag cell ∧ y = .flag cell) ∧
      ∀ zs, Interleaving logs zs → zs.foldl Write.applyInner s.records.inner = t.records.inner := by
  obtain ⟨O, as, ws, h1, h2, -, h4, h5, h6, -, -⟩ := windows_parallel_works hw (fun i => (hb i).logged) hne hs h
  refine ⟨ws, ⟨h5.length.symm.trans h4, O, h1, h2, fun i l hl => ?_⟩, fun i j l l' x y p hij hl hl' hx hy hp hq => ?_,
    fun zs hz => by rw [h5.interleave hz, h6]⟩
  · have hi : i < as.length := by
      rw [h5.length]
      exact (List.getElem?_eq_some_iff.1 hl).1
    obtain ⟨-, k⟩ := h5.index i as[i] l (List.getElem?_eq_getElem hi) hl
    rw [Nat.zero_add] at k
    exact ⟨_, k⟩
  · obtain ⟨hi, rfl⟩ := List.getElem?_eq_some_iff.1 hl
    obtain ⟨hj, rfl⟩ := List.getElem?_eq_some_iff.1 hl'
    have hd := List.pairwise_iff_getElem.1 h5.disjoint i j hi hj hij x hx y hy
    cases x <;> cases y <;> simp only [Write.loc, Option.some.injEq, reduceCtorEq] at hp hq <;> subst hp <;>
      simp only [Loc.adv.injEq, Loc.fix.injEq, Loc.flag.injEq, reduceCtorEq] at hq
    · obtain ⟨rfl, rfl, -⟩ := hq
      exact absurd rfl (hd _ rfl)
    · obtain ⟨rfl, rfl, -⟩ := hq
      exact absurd rfl (hd _ rfl)
    · subst hq
      exact ⟨_, rfl, rfl⟩

/-- Operations that set the flag of the same cell race when they run as windows. -/
theorem races_of_flags {windows : ℕ} {body : ℕ → M n (Except ε α)} (hw : 3 ≤ windows) {cell : Cell}
    (hf : ∀ i, Flags cell (body i)) {s t : Context n} {logs : List (List (Write n))}
    (h : WindowLogs body windows s t logs) :
    Races logs ∧ ∀ l ∈ logs, .flag cell ∈ l := by
  obtain ⟨h1, O, -, -, h2⟩ := h
  have key : ∀ (i : ℕ) (l : List (Write n)), logs[i]? = some l → .flag cell ∈ l := fun i l hl => by
    obtain ⟨a, ha⟩ := h2 i l hl
    exact (hf i).mem ha
  have e1 := List.getElem?_eq_getElem (l := logs) (i := 1) (by omega)
  have e2 := List.getElem?_eq_getElem (l := logs) (i := 2) (by omega)
  refine ⟨⟨1, 2, _, _, .flag cell, .flag cell, .flag cell, le_rfl, by omega, e1, e2, key _ _ e1, key _ _ e2, rfl, rfl⟩,
    fun l hl => ?_⟩
  obtain ⟨i, hi⟩ := List.getElem?_of_mem hl
  exact key i l hi

/-- **C74** fails: whenever the windows of a multi-scalar multiplication are run in parallel, with or without a select chip,
and there are three of them or more, they race: each of them sets the flag of the first limb of the accumulator they all
start from. -/
theorem C74_violated (info : RangeInfo n) (hl : 0 < info.limbs) (cs : List (List (AssignedNonZeroPoint n)))
    (pick : ℕ → List (AssignedCondition n) → M n (AssignedNonZeroPoint n))
    (hp : pick = pick_bisec info cs ∨ ∃ pre, pick = pick_select info pre cs) (windows : ℕ) (hw : 3 ≤ windows)
    (groups : List (List (List (List (AssignedCondition n))))) (hg : groups ≠ []) (acc : AssignedNonZeroPoint n)
    (cell : Cell) (hv : ∀ v, acc.x.limbs_le[0]? = some v → v.cell = cell) (s t : Context n)
    (r : Except UnsafeError (List (AssignedNonZeroPoint n))) (hs : s.Fresh)
    (h : windows_parallel windows (fun wi => window_acc info pick wi 0 groups acc) s = .ok (r, t)) :
    (∃ logs, WindowLogs (fun wi => window_acc info pick wi 0 groups acc) windows s t logs) ∧
    ∀ logs, WindowLogs (fun wi => window_acc info pick wi 0 groups acc) windows s t logs →
      Races logs ∧ ∀ l ∈ logs, .flag cell ∈ l := by
  have hpp : ∀ g l, Prog (pick g l) := fun g l => by
    rcases hp with rfl | ⟨pre, rfl⟩
    · exact prog_pick_bisec _ _ _
    · exact prog_pick_select _ _ _ _
  obtain ⟨logs, h1, -⟩ := C74_partial (by omega) (fun i => prog_window_acc hpp i _ _ _)
    (fun i => neverErr_window_acc i _ _ _) hs h
  exact ⟨⟨logs, h1⟩, fun logs h => races_of_flags hw (fun i => flags_window_acc hl hpp i 0 hg hv) h⟩

/-- A successful call of the multi-scalar multiplication runs its windows in parallel; if there are three, they race. -/
theorem msm_batch_races {σ : Type} (info : RangeInfo n) (hl : 0 < info.limbs) (b : ℕ) (ops : ScalarOps n σ) (best : ℕ)
    (hbest : 1 ≤ best) (before : M n Unit) (cache : ℕ → AssignedNonZeroPoint n → ℕ → M n Unit)
    (pick : List (List (AssignedNonZeroPoint n)) → ℕ → List (AssignedCondition n) → M n (AssignedNonZeroPoint n))
    (hd : ∀ s, Prog (ops.decompose s)) (hbef : Prog before) (hc : ∀ g p i, Prog (cache g p i))
    (hp : (∀ cs, pick cs = pick_bisec info cs) ∨ ∃ pre, ∀ cs, pick cs = pick_select info pre cs)
    (hW : ∀ x u res v, ops.decompose x u = .ok (res, v) → res = [] ∨ 3 ≤ res.length)
    (points : List (AssignedNonZeroPoint n)) (scalars : List σ) (acc_c line_c : Option (ℕ × ℕ)) (s t : Context n)
    (hs : s.Fresh) (p : AssignedPoint n)
    (h : msm_batch info b ops best before cache pick points scalars acc_c line_c s = .ok (.ok p, t)) :
    ∃ (windows : ℕ) (cs : List (List (AssignedNonZeroPoint n))) (groups : List (List (List (List (AssignedCondition n)))))
      (acc : AssignedNonZeroPoint n) (u v : Context n) (r : Except UnsafeError (List (AssignedNonZeroPoint n))),
      u.Fresh ∧ windows_parallel windows (fun wi => window_acc info (pick cs) wi 0 groups acc) u = .ok (r, v) ∧
      (∃ logs, WindowLogs (fun wi => window_acc info (pick cs) wi 0 groups acc) windows u v logs) ∧
      ∀ logs, WindowLogs (fun wi => window_acc info (pick cs) wi 0 groups acc) windows u v logs → Races logs := by
  rw [msm_batch_eq] at h
  obtain ⟨points', s1, h1, h⟩ := run_bind_ok.1 h
  have f1 := ((prog_mapM (fun _ => prog_ecc_reduce_non_zero _ _) _).growing _ _ _ hs h1).1
  obtain ⟨acc, s2, h2, h⟩ := run_bind_ok.1 h
  have f2 := ((prog_assign_non_zero_point ..).growing _ _ _ f1 h2).1
  obtain ⟨line, s3, h3, h⟩ := run_bind_ok.1 h
  have f3 := ((prog_assign_non_zero_point ..).growing _ _ _ f2 h3).1
  obtain ⟨a1, s4, h4, h⟩ := run_bind_ok.1 h
  have f4 := ((prog_ecc_neg_non_zero ..).growing _ _ _ f3 h4).1
  obtain ⟨acc_neg, s5, h5, h⟩ := run_bind_ok.1 h
  have f5 := ((prog_ecc_reduce_non_zero ..).growing _ _ _ f4 h5).1
  obtain ⟨l1, s6, h6, h⟩ := run_bind_ok.1 h
  have f6 := ((prog_ecc_neg_non_zero ..).growing _ _ _ f5 h6).1
  obtain ⟨line_neg, s7, h7, h⟩ := run_bind_ok.1 h
  have f7 := ((prog_ecc_reduce_non_zero ..).growing _ _ _ f6 h7).1
  obtain ⟨gs, s8, h8, h⟩ := run_bind_ok.1 h
  unfold div_rem at h8
  split_ifs at h8 with h0
  · cases h8
  cases h8
  obtain ⟨_, s9, h9, h⟩ := run_bind_ok.1 h
  have f9 := (hbef.growing _ _ _ f7 h9).1
  unfold tryB at h
  obtain ⟨rc, s10, h10, h⟩ := run_bind_ok.1 h
  have f10 := ((prog_group_candidates hc ..).growing _ _ _ f9 h10).1
  cases rc with
  | error e => cases h
  | ok cs =>
    dsimp only at h
    unfold msm_after at h
    obtain ⟨bits, s11, h11, h⟩ := run_bind_ok.1 h
    have f11 := ((prog_mapM hd _).growing _ _ _ f10 h11).1
    obtain ⟨bits0, s12, h12, h⟩ := run_bind_ok.1 h
    unfold index at h12
    cases hb0 : bits[0]? with
    | none => rw [hb0] at h12; cases h12
    | some b0 =>
      rw [hb0] at h12
      cases h12
      unfold tryB at h
      obtain ⟨r, v, h13, -⟩ := run_bind_ok.1 h
      have hk : (points'.length + (points'.length + best - 1) / best - 1) / ((points'.length + best - 1) / best) ≠ 0 :=
        Nat.one_le_iff_ne_zero.1 (group_size_bounds hbest h0).1
      have hbits : bits ≠ [] := by rintro rfl; cases hb0
      have hw : bits0 = [] ∨ 3 ≤ bits0.length := by
        cases scalars with
        | nil => cases h11; exact absurd rfl hbits
        | cons x xs =>
          rw [List.mapM_cons] at h11
          obtain ⟨y, u1, k1, k2⟩ := run_bind_ok.1 h11
          obtain ⟨ys, u2, k3, k4⟩ := run_bind_ok.1 k2
          cases k4
          cases hb0
          exact hW _ _ _ _ k1
      replace hw : 3 ≤ bits0.length := by
        refine hw.resolve_left fun h14 => ?_
        subst h14
        obtain ⟨e, he⟩ := windows_zero_panics (info := info) (pick := pick cs) hk hb0 acc_neg
          (s11.clone_with_offset ⟨0, 0, 0⟩)
        unfold windows_parallel at h13
        obtain ⟨r1, s1, h15, -⟩ := run_bind_ok.1 h13
        unfold predict at h15
        dsimp only at h15
        rw [he] at h15
        cases h15
      have key := C74_violated info hl cs (pick cs) (by
        rcases hp with hp | ⟨pre, hp⟩
        · exact .inl (hp cs)
        · exact .inr ⟨pre, hp cs⟩) bits0.length hw _ (chunks_ne_nil hk hbits) acc_neg
        ((acc_neg.x.limbs_le[0]?).elim ⟨.base, 0, 0⟩ AssignedValue.cell) (fun v hv => by rw [hv]; rfl) _ _ _ f11 h13
      exact ⟨_, cs, _, _, _, _, _, f11, h13, key.1, fun logs hlogs => (key.2 logs hlogs).1⟩

theorem native_bits_length (b : ℕ) : ∀ (l : List ℕ) (v : AssignedValue n) (u : Context n) r u',
    native_bits b l v u = .ok (r, u') → r.1.length = 2 * l.length
  | [], v, u, r, u', h => by cases h; rfl
  | i :: is, v, u, r, u', h => by
    unfold native_bits at h
    obtain ⟨_, _, -, h⟩ := run_bind_ok.1 h
    obtain ⟨_, _, -, h⟩ := run_bind_ok.1 h
    obtain ⟨_, _, -, h⟩ := run_bind_ok.1 h
    obtain ⟨_, _, -, h⟩ := run_bind_ok.1 h
    obtain ⟨r', u1, h1, h2⟩ := run_bind_ok.1 h
    cases h2
    have := native_bits_length b is _ _ _ _ h1
    simp only [List.length_cons]
    omega

theorem decompose_native_length (num_bits : ℕ) (x : AssignedValue n) (u : Context n) (res) (v : Context n)
    (h : decompose_scalar_native num_bits 1 x u = .ok (res, v)) : res.length = num_bits := by
  unfold decompose_scalar_native at h
  obtain ⟨r, u1, h1, h⟩ := run_bind_ok.1 h
  obtain ⟨bits, u2, h2, h⟩ := run_bind_ok.1 h
  obtain ⟨bits', u3, h3, h4⟩ := run_bind_ok.1 h
  cases h4
  unfold pad_bits at h3
  rw [if_neg (by omega)] at h3
  cases h3
  rw [List.length_reverse, chunks_one, List.length_map]
  have e := native_bits_length _ _ _ _ _ _ h1
  rw [List.length_range] at e
  by_cases ho : num_bits % 2 = 1
  · rw [if_pos ho] at h2
    obtain ⟨_, _, -, h5⟩ := run_bind_ok.1 h2
    cases h5
    simp only [List.length_append, List.length_singleton]
    omega
  · rw [if_neg ho] at h2
    obtain ⟨_, _, -, h5⟩ := run_bind_ok.1 h2
    cases h5
    omega

theorem limb_bits_loop_length (b : ℕ) : ∀ (l : List ℕ) (v : AssignedValue n) (u : Context n) r u',
    limb_bits_loop b l v u = .ok (r, u') → r.1.length = l.length
  | [], v, u, r, u', h => by cases h; rfl
  | j :: js, v, u, r, u', h => by
    unfold limb_bits_loop at h
    obtain ⟨_, _, -, h⟩ := run_bind_ok.1 h
    obtain ⟨_, _, -, h⟩ := run_bind_ok.1 h
    obtain ⟨r', u1, h1, h2⟩ := run_bind_ok.1 h
    cases h2
    have := limb_bits_loop_length b js _ _ _ _ h1
    simp only [List.length_cons]
    omega

theorem limbs_bits_length (info : RangeInfo n) : ∀ (l : List (AssignedValue n)) (u : Context n) r u',
    limbs_bits info l u = .ok (r, u') → r = [] ∨ info.limb_bits ≤ r.length
  | [], u, r, u', h => by cases h; exact .inl rfl
  | x :: l, u, r, u', h => by
    unfold limbs_bits at h
    obtain ⟨r1, _, h1, h⟩ := run_bind_ok.1 h
    obtain ⟨_, _, -, h⟩ := run_bind_ok.1 h
    obtain ⟨r2, _, -, h2⟩ := run_bind_ok.1 h
    cases h2
    have := limb_bits_loop_length _ _ _ _ _ _ h1
    rw [List.length_range] at this
    exact .inr (by rw [List.length_append]; omega)

theorem decompose_general_length (info : RangeInfo n) (x : AssignedInteger n) (u : Context n) (res) (v : Context n)
    (h : decompose_scalar_general info 1 x u = .ok (res, v)) : res = [] ∨ info.limb_bits ≤ res.length := by
  unfold decompose_scalar_general at h
  obtain ⟨y, u1, -, h⟩ := run_bind_ok.1 h
  obtain ⟨bits, u2, h2, h⟩ := run_bind_ok.1 h
  obtain ⟨bits', u3, h3, h⟩ := run_bind_ok.1 h
  obtain ⟨_, u4, -, h4⟩ := run_bind_ok.1 h
  cases h4
  unfold pad_bits at h3
  rw [if_neg (by omega)] at h3
  cases h3
  rw [List.length_reverse, chunks_one, List.length_map]
  rcases limbs_bits_length _ _ _ _ _ h2 with rfl | h5
  · exact .inl rfl
  · exact .inr h5

/-- **C74** fails in every successful multiplication with native scalars of three bits or more, without a select chip. -/
theorem C74_violated_bisec (info : RangeInfo n) (hl : 0 < info.limbs) (b num_bits : ℕ) (hn : 3 ≤ num_bits)
    (points : List (AssignedNonZeroPoint n)) (scalars : List (AssignedValue n)) (acc_c line_c : Option (ℕ × ℕ))
    (s t : Context n) (hs : s.Fresh) (p : AssignedPoint n)
    (h : msm_batch_without_select info b (nativeScalar num_bits) points scalars acc_c line_c s = .ok (.ok p, t)) :
    ∃ (windows : ℕ) (cs : List (List (AssignedNonZeroPoint n))) (groups : List (List (List (List (AssignedCondition n)))))
      (acc : AssignedNonZeroPoint n) (u v : Context n) (r : Except UnsafeError (List (AssignedNonZeroPoint n))),
      u.Fresh ∧ windows_parallel windows (fun wi => window_acc info (pick_bisec info cs) wi 0 groups acc) u = .ok (r, v) ∧
      (∃ logs, WindowLogs (fun wi => window_acc info (pick_bisec info cs) wi 0 groups acc) windows u v logs) ∧
      ∀ logs, WindowLogs (fun wi => window_acc info (pick_bisec info cs) wi 0 groups acc) windows u v logs → Races logs :=
  msm_batch_races info hl b (nativeScalar num_bits) 2 (by omega) (pure ()) (fun _ _ _ => pure ()) (pick_bisec info)
    (fun s => prog_decompose_scalar_native _ _ s) (.pure _) (fun _ _ _ => .pure _) (.inl fun _ => rfl)
    (fun x u res v e => .inr (by rw [decompose_native_length _ _ _ _ _ e]; exact hn)) points scalars acc_c line_c s t hs p h

/-- **C74** fails in every successful multiplication with native scalars of three bits or more, with a select chip. -/
theorem C74_violated_select (info : RangeInfo n) (hl : 0 < info.limbs) (b num_bits pre : ℕ) (hn : 3 ≤ num_bits)
    (points : List (AssignedNonZeroPoint n)) (scalars : List (AssignedValue n)) (acc_c line_c : Option (ℕ × ℕ))
    (s t : Context n) (hs : s.Fresh) (p : AssignedPoint n)
    (h : msm_batch_with_select info b (nativeScalar num_bits) pre points scalars acc_c line_c s = .ok (.ok p, t)) :
    ∃ (windows : ℕ) (cs : List (List (AssignedNonZeroPoint n))) (groups : List (List (List (List (AssignedCondition n)))))
      (acc : AssignedNonZeroPoint n) (u v : Context n) (r : Except UnsafeError (List (AssignedNonZeroPoint n))),
      u.Fresh ∧ windows_parallel windows (fun wi => window_acc info (pick_select info pre cs) wi 0 groups acc) u = .ok (r, v) ∧
      (∃ logs, WindowLogs (fun wi => window_acc info (pick_select info pre cs) wi 0 groups acc) windows u v logs) ∧
      ∀ logs, WindowLogs (fun wi => window_acc info (pick_select info pre cs) wi 0 groups acc) windows u v logs →
        Races logs := by
  unfold msm_batch_with_select at h
  obtain ⟨_, s1, h1, h⟩ := run_bind_ok.1 h
  have f1 := ((show Prog (rassert (n := n) (points.length ≤ MSM_PREFIX_OFFSET)) by prog).growing _ _ _ hs h1).1
  exact msm_batch_races info hl b (nativeScalar num_bits) 5 (by omega) _ _ (pick_select info pre)
    (fun s => prog_decompose_scalar_native _ _ s) (by prog) (fun _ _ _ => by prog) (.inr ⟨pre, fun _ => rfl⟩)
    (fun x u res v e => .inr (by rw [decompose_native_length _ _ _ _ _ e]; exact hn)) points scalars acc_c line_c s1 t f1 p h

/-- **C74** fails in every successful multiplication with scalars in another field, without a select chip. -/
theorem C74_violated_bisec_general (info : RangeInfo n) (hl : 0 < info.limbs) (b : ℕ) (sinfo : RangeInfo n) (hn : 3 ≤ sinfo.limb_bits)
    (points : List (AssignedNonZeroPoint n)) (scalars : List (AssignedInteger n)) (acc_c line_c : Option (ℕ × ℕ))
    (s t : Context n) (hs : s.Fresh) (p : AssignedPoint n)
    (h : msm_batch_without_select info b (generalScalar sinfo) points scalars acc_c line_c s = .ok (.ok p, t)) :
    ∃ (windows : ℕ) (cs : List (List (AssignedNonZeroPoint n))) (groups : List (List (List (List (AssignedCondition n)))))
      (acc : AssignedNonZeroPoint n) (u v : Context n) (r : Except UnsafeError (List (AssignedNonZeroPoint n))),
      u.Fresh ∧ windows_parallel windows (fun wi => window_acc info (pick_bisec info cs) wi 0 groups acc) u = .ok (r, v) ∧
      (∃ logs, WindowLogs (fun wi => window_acc info (pick_bisec info cs) wi 0 groups acc) windows u v logs) ∧
      ∀ logs, WindowLogs (fun wi => window_acc info (pick_bisec info cs) wi 0 groups acc) windows u v logs → Races logs :=
  msm_batch_races info hl b (generalScalar sinfo) 2 (by omega) (pure ()) (fun _ _ _ => pure ()) (pick_bisec info)
    (fun s => prog_decompose_scalar_general _ _ s) (.pure _) (fun _ _ _ => .pure _) (.inl fun _ => rfl)
    (fun x u res v e => (decompose_general_length _ _ _ _ _ e).imp_right fun h => hn.trans h) points scalars acc_c line_c s t hs p h

/-- **C74** fails in every successful multiplication with scalars in another field, with a select chip. -/
theorem C74_violated_select_general (info : RangeInfo n) (hl : 0 < info.limbs) (b pre : ℕ) (sinfo : RangeInfo n) (hn : 3 ≤ sinfo.limb_bits)
    (points : List (AssignedNonZeroPoint n)) (scalars : List (AssignedInteger n)) (acc_c line_c : Option (ℕ × ℕ))
    (s t : Context n) (hs : s.Fresh) (p : AssignedPoint n)
    (h : msm_batch_with_select info b (generalScalar sinfo) pre points scalars acc_c line_c s = .ok (.ok p, t)) :
    ∃ (windows : ℕ) (cs : List (List (AssignedNonZeroPoint n))) (groups : List (List (List (List (AssignedCondition n)))))
      (acc : AssignedNonZeroPoint n) (u v : Context n) (r : Except UnsafeError (List (AssignedNonZeroPoint n))),
      u.Fresh ∧ windows_parallel windows (fun wi => window_acc info (pick_select info pre cs) wi 0 groups acc) u = .ok (r, v) ∧
      (∃ logs, WindowLogs (fun wi => window_acc info (pick_select info pre cs) wi 0 groups acc) windows u v logs) ∧
      ∀ logs, WindowLogs (fun wi => window_acc info (pick_select info pre cs) wi 0 groups acc) windows u v logs →
        Races logs := by
  unfold msm_batch_with_select at h
  obtain ⟨_, s1, h1, h⟩ := run_bind_ok.1 h
  have f1 := ((show Prog (rassert (n := n) (points.length ≤ MSM_PREFIX_OFFSET)) by prog).growing _ _ _ hs h1).1
  exact msm_batch_races info hl b (generalScalar sinfo) 5 (by omega) _ _ (pick_select info pre)
    (fun s => prog_decompose_scalar_general _ _ s) (by prog) (fun _ _ _ => by prog) (.inr ⟨pre, fun _ => rfl⟩)
    (fun x u res v e => (decompose_general_length _ _ _ _ _ e).imp_right fun h => hn.trans h) points scalars acc_c line_c s1 t f1 p h

namespace Example

/-- A window that adds two given values. -/
def sumWindow (_ : ℕ) : M n (Except UnsafeError (AssignedValue n)) := do
  let y ← sum_with_constant [(⟨⟨.base, 0, 0⟩, 0⟩, 1), (⟨⟨.base, 1, 0⟩, 0⟩, 1)] none
  pure (.ok y)

theorem sumWindow_run : ∃ (r : Except UnsafeError (List (AssignedValue n))) (t : Context n),
    windows_parallel 3 sumWindow (.new n) = .ok (r, t) := ⟨_, _, rfl⟩

/-- Three windows that add to the same value succeed, and race. -/
theorem windows_race : ∃ (r : Except UnsafeError (List (AssignedValue n))) (t : Context n)
    (logs : List (List (Write n))), windows_parallel 3 sumWindow (.new n) = .ok (r, t) ∧
    WindowLogs sumWindow 3 (.new n) t logs ∧ Races logs := by
  obtain ⟨r, t, h⟩ := sumWindow_run (n := n)
  have hp : ∀ i, Prog (sumWindow i : M n _) := fun _ => by unfold sumWindow; prog
  obtain ⟨logs, h1, -⟩ := C74_partial (by omega) hp (fun _ => NeverErr.bind fun a => .pure a) fresh_new h
  exact ⟨r, t, logs, h, h1, (races_of_flags le_rfl (cell := ⟨.base, 1, 0⟩) (fun _ => flags_sum_with_constant.left
    (prog_sum_with_constant _ _) fun _ => .pure _) h1).1⟩

end Example

/-- The hypotheses of `C74_violated_bisec` and `C74_violated_select` are met: multiplications for bn256 that succeed. -/
theorem C74_case : ∃ (info : RangeInfo bnR) (b pre : ℕ) (points points' : List (AssignedNonZeroPoint bnR))
    (scalars scalars' : List (AssignedValue bnR)) (r1 r2 : Option (ℕ × ℕ)) (s t s' t' : Context bnR) (p p' : AssignedPoint bnR),
    0 < info.limbs ∧ s.Fresh ∧ s'.Fresh ∧
    msm_batch_without_select info b (nativeScalar 254) points scalars r1 r2 s = .ok (.ok p, t) ∧
    msm_batch_with_select info b (nativeScalar 254) pre points' scalars' r1 r2 s' = .ok (.ok p', t') := by
  obtain ⟨A, w, S, t, h, -, -, hn, hr, -⟩ := C29_case_group
  obtain ⟨S1, s1, e1, hr⟩ := run_bind_ok.1 hr
  have f1 := ((prog2_runCall ..).tidy.1 _ _ _ Context.new_fresh e1).1
  obtain ⟨S2, s2, e2, hr⟩ := run_bind_ok.1 hr
  have f2 := ((prog2_runCall ..).tidy.1 _ _ _ f1 e2).1
  obtain ⟨S3, s3, e3, hr⟩ := run_bind_ok.1 hr
  have f3 := ((prog2_runCall ..).tidy.1 _ _ _ f2 e3).1
  obtain ⟨S4, s4, e4, hr⟩ := run_bind_ok.1 hr
  have f4 := ((prog2_runCall ..).tidy.1 _ _ _ f3 e4).1
  obtain ⟨S5, s5, e5, -⟩ := run_bind_ok.1 hr
  unfold runCall at e3 e5
  rw [hn] at e3 e5
  obtain ⟨ps, u1, a1, e3⟩ := run_bind_ok.1 e3
  have g1 := ((prog_mapM (fun _ => prog_index _ _) _).growing _ _ _ f2 a1).1
  obtain ⟨vs, u2, a2, e3⟩ := run_bind_ok.1 e3
  have g2 := ((prog_mapM (fun _ => prog_index _ _) _).growing _ _ _ g1 a2).1
  obtain ⟨⟨r, pre⟩, u3, a3, -⟩ := run_bind_ok.1 e3
  obtain ⟨ps', v1, b1, e5⟩ := run_bind_ok.1 e5
  have k1 := ((prog_mapM (fun _ => prog_index _ _) _).growing _ _ _ f4 b1).1
  obtain ⟨vs', v2, b2, e5⟩ := run_bind_ok.1 e5
  have k2 := ((prog_mapM (fun _ => prog_index _ _) _).growing _ _ _ k1 b2).1
  obtain ⟨r', v3, b3, -⟩ := run_bind_ok.1 e5
  unfold groupBisec at b3
  obtain ⟨q', v4, b4, b5⟩ := run_bind_ok.1 b3
  unfold groupSelect at a3
  cases hpre : S2.msm_prefix with
  | none => rw [hpre] at a3; cases a3
  | some m =>
    rw [hpre] at a3
    obtain ⟨q, u4, a4, a5⟩ := run_bind_ok.1 a3
    cases q with
    | error e => cases a5
    | ok q =>
      cases q' with
      | error e => cases b5
      | ok q' =>
        have hl : 0 < A.info.limbs := by have := (RangeInfo.new_valid h).limbs_ge; omega
        exact ⟨A.info, A.b, m, _, _, _, _, _, _, _, _, _, _, _, _, hl, k2, g2, b4, a4⟩

/-- The hypotheses of the general variants are met: the multiplication of the generator by an integer modulo the base field. -/
theorem C74_case_general : ∃ (info : RangeInfo bnR) (b pre : ℕ) (points : List (AssignedNonZeroPoint bnR))
    (scalars : List (AssignedInteger bnR)) (r1 r2 : Option (ℕ × ℕ)) (s t s' t' : Context bnR) (p p' : AssignedPoint bnR),
    0 < info.limbs ∧ 3 ≤ info.limb_bits ∧ s.Fresh ∧ s'.Fresh ∧
    msm_batch_without_select info b (generalScalar info) points scalars r1 r2 s = .ok (.ok p, t) ∧
    msm_batch_with_select info b (generalScalar info) pre points scalars r1 r2 s' = .ok (.ok p', t') := by
  obtain ⟨info, hs⟩ := Setup.of_summary summary_bnQ
  have h := hs.new
  have hv := RangeInfo.new_valid h
  have hd : info.d_bits % 108 ≠ 0 := by
    have := hs.summary
    simp only [List.cons.injEq] at this
    omega
  have hlimbs : info.limbs = 3 := by
    have := hs.summary
    simp only [List.cons.injEq] at this
    omega
  obtain ⟨G, hG⟩ := bn_generator
  have : Finite (Pt (3 : ZMod bnQ)) := Nat.finite_of_card_ne_zero (by rw [bn_card]; decide +kernel)
  have hcard : 2 ^ 253 < Nat.card (Pt (3 : ZMod bnQ)) := by rw [bn_card]; decide +kernel
  have h0 : AtMost 1 fun P : Pt (3 : ZMod bnQ) => P = 0 := AtMost.one fun A B hA hB => hA.trans hB.symm
  have hg1 : groupCount 1 1 = 1 := rfl
  have hlen : [G].length = 1 := rfl
  have hr := C49_random_points (⊤ : AddSubgroup (Pt (3 : ZMod bnQ))) (fun P _ => (bn_no_small P).1)
    (fun P _ => (bn_no_small P).2) 324 1 le_rfl [(5 : ZMod bnQ).val] [G]
  rw [hlen, hg1] at hr
  obtain ⟨L, hL⟩ := (hr.or h0).exists_not (by omega)
  rw [not_or, not_not] at hL
  obtain ⟨P, hP⟩ := (hL.1.or h0).exists_not (by omega)
  rw [not_or] at hP
  obtain ⟨r1, hr1⟩ := constCoords_of_ne P hP.2
  obtain ⟨r2, hr2⟩ := constCoords_of_ne L hL.2
  have hpos : GeneralPosition (108 * info.limbs) 1 ([(5 : ZMod bnQ)].map ZMod.val) [G] P L := by
    rw [hlimbs]
    by_contra hc
    exact hP.1 ⟨trivial, hc⟩
  obtain ⟨p, s1, e1, f1, -, ⟨hp, -⟩, -⟩ := C_assign_non_zero_point (c := ⟨0, fun _ _ => 0, fun _ _ => 0, fun _ _ => 0, []⟩)
    (h := fun _ => 0) (H := True) h hd (bb := 3) (by decide +kernel) (by norm_num) (cx := 1) (cy := 2) (by decide +kernel)
    (by decide +kernel) hG _ Context.new_fresh
  obtain ⟨v, s2, e2, f2, -, ⟨hv1, hv2, hv3, -⟩, -⟩ := C_assign_w (c := ⟨0, fun _ _ => 0, fun _ _ => 0, fun _ _ => 0, []⟩)
    (h := fun _ => 0) (H := True) hv (x := 5) (by decide +kernel) s1 f1
  have hx : HRep bnQ info v (5 : ZMod bnQ) := ⟨hv1, by rw [hv3]; norm_num⟩
  have hg5 : groupSize 5 1 = 1 := rfl
  have hg2 : groupSize 2 1 = 1 := rfl
  obtain ⟨_, s3, e3, f3, -, ⟨q3, rfl, -⟩, -⟩ := C49_group_bisec_general_complete h hd good_bn 3 (by decide +kernel) (by norm_num)
    h [p] [v] [G] [5] (.cons hp .nil) (.cons hx .nil) rfl (by simp) r1 r2 P L hr1 hr2 (by rw [hlen, hg2]; exact hpos)
    ⟨0, fun _ _ => 0, fun _ _ => 0, fun _ _ => 0, []⟩ (fun _ => 0) s2 f2
  obtain ⟨_, s4, e4, f4, -, ⟨q4, rfl, -⟩, -⟩ := C49_group_select_general_complete h hd good_bn 3 (by decide +kernel) (by norm_num)
    h (by decide +kernel) 0 (by decide) [p] [v] [G] [5] (by show 1 ≤ 2 ^ 20; norm_num) (.cons hp .nil) (.cons hx .nil) rfl
    (by simp) r1 r2 P L hr1 hr2 (by rw [hlen, hg5]; exact hpos)
    ⟨0, fun _ _ => 0, fun _ _ => 0, fun _ _ => 0, []⟩ (fun _ => 0) s2 f2
  exact ⟨info, 3, 0, [p], [v], some r1, some r2, s2, s3, s2, s4, q3, q4, by omega, by rw [hv.limb_bits]; norm_num, f2, f2,
    e3, e4⟩

end Verif
