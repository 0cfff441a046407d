import Verif.Proof.ApiProg
import Verif.Spec.Keys

/-!
# Which keys an operation stores values under
-/

namespace Verif
variable {n : ℕ} {α β ε : Type}

/-- `m` caches no value. -/
def Quiet (m : M n α) : Prop := ∀ s a t, m s = .ok (a, t) → ∀ r k, t.records.inner.KeyRow r k → s.records.inner.KeyRow r k

theorem Quiet.pure (a : α) : Quiet (Pure.pure a : M n α) := by
  rintro s b t e r k h; cases e; exact h

theorem Quiet.bind {m : M n α} {f : α → M n β} (hm : Quiet m) (hf : ∀ a, Quiet (f a)) : Quiet (m >>= f) := by
  intro s b t e r k h
  obtain ⟨a, u, h1, h2⟩ := run_bind_ok.1 e
  exact hm _ _ _ h1 _ _ (hf a _ _ _ h2 _ _ h)

theorem quiet_of_writes {chip : Chip} (hc : chip ≠ .select) {o k : ℕ} {ws : List (Write n)} (h : OnRow chip o k ws)
    (s : Records n) (r : ℕ) (key : ZMod n) : (applyAll ws s).inner.KeyRow r key → s.inner.KeyRow r key := by
  have : ∀ c, (applyAll ws s).inner.select_fix_record r c = s.inner.select_fix_record r c := fun c =>
    (applyAll_other s (chip := .select) (r := r) c fun w hw e => hc (h w hw _ _ e).1.symm).1
  unfold RecordsInner.KeyRow
  rw [this, this]
  exact fun h => h

theorem quiet_one_line (pairs : List (ValueSchema n × ZMod n)) (constant : Option (ZMod n)) (mul : List (ZMod n))
    (next : Option (ZMod n)) : Quiet (one_line pairs constant mul next) := by
  intro s a t e r k h
  unfold one_line at e
  split at e
  · cases e
  · rename_i u hu
    cases e
    rw [records_one_line_eq hu] at h
    exact quiet_of_writes (chip := .base) (by decide) (onRow_line _ _ _ _ _) _ _ _ h

theorem quiet_one_line_with_last (pairs : List (ValueSchema n × ZMod n)) (last : ValueSchema n × ZMod n)
    (constant : Option (ZMod n)) (mul : List (ZMod n)) (next : Option (ZMod n)) :
    Quiet (one_line_with_last pairs last constant mul next) := by
  intro s a t e r k h
  unfold one_line_with_last at e
  split at e
  · cases e
  · rename_i u hu
    cases e
    unfold Records.one_line_with_last at hu
    split at hu
    · cases hu
    · cases h1 : s.records.one_line s.base_offset pairs constant mul next with
      | error p => rw [h1] at hu; cases hu
      | ok v =>
        rw [h1] at hu
        cases hu
        rw [line_cell_eq, records_one_line_eq h1] at h
        exact quiet_of_writes (chip := .base) (by decide) (onRow_line _ _ _ _ _) _ _ _ (quiet_of_writes (chip := .base) (by decide) (onRow_cell _ _ _ _) _ _ _ h)

theorem quiet_assign_range (v : ZMod n × List (ZMod n)) (bits : ℕ) : Quiet (assign_range v bits) := by
  intro s a t e r k h
  unfold assign_range at e
  rcases range_value_logged s.range_offset v.2 v.1 bits with ⟨p, hp⟩ | ⟨r, k, h, ws, h1, h2, h3, h4⟩
  · rw [hp] at e; cases e
  · rw [h4] at e; cases e
    exact quiet_of_writes (by decide) h1 _ _ _ h

theorem quiet_assign_common (bn : ℕ) : Quiet (assign_common bn : M n _) := by
  intro s a t e r k h
  unfold assign_common at e
  rcases one_line_range_logged s.range_offset [(bn : ZMod n)] (bn : ZMod n) COMMON_RANGE_BITS with
    ⟨p, hp⟩ | ⟨r, ws, h1, h2, h4⟩
  · rw [hp] at e; cases e
  · rw [h4] at e; cases e
    exact quiet_of_writes (by decide) h1 _ _ _ h

theorem quiet_assign_selected_value [Nontrivial (ZMod n)] (v : AssignedValue n) (offset g : ℕ)
    (selector : AssignedValue n) : Quiet (assign_selected_value v offset g selector) := by
  intro s a t e r k h
  cases e
  unfold Records.assign_select_value Records.assign_fix_cell_in_select_chip Records.assign_adv_cell_in_select_chip
    Records.enable_permute at h
  rw [raise_select] at h
  obtain ⟨h1, h2⟩ := h
  simp only [Write.apply, setCell] at h1 h2
  by_cases hr : r = s.select_offset
  · simp [hr] at h1
  · simp only [hr, false_and, if_false] at h1 h2
    exact ⟨h1, h2⟩

theorem Built.quiet [Nontrivial (ZMod n)] {m : M n α} (h : Built False m) : Quiet m := by
  induction h with
  | pure a => exact .pure a
  | bind _ _ hm hk => exact .bind hm hk
  | panic p => intro s a t e; cases e
  | one_line => exact quiet_one_line _ _ _ _
  | one_line_with_last => exact quiet_one_line_with_last _ _ _ _ _
  | assign_range => exact quiet_assign_range _ _
  | assign_common => exact quiet_assign_common _
  | assign_cache_value h => exact h.elim
  | assign_selected_value => exact quiet_assign_selected_value _ _ _ _

theorem quiet_clones {s : Context n} {diff : Offsets} {body : ℕ → M n (Except ε α)} (hb : ∀ i, Quiet (body i))
    (hne : ∀ i, NeverErr (body i)) : ∀ (is : List ℕ) (inner inner' : RecordsInner n) (l : Except ε (List (α × Context n))),
    run_clones s diff body inner is = .ok (l, inner') → ∀ r k, inner'.KeyRow r k → inner.KeyRow r k := by
  intro is
  induction is with
  | nil => intro inner inner' l h; cases h; exact fun _ _ h => h
  | cons i is ih =>
    intro inner inner' l h r k hk
    unfold run_clones at h
    dsimp only at h
    split at h
    · cases h
    · rename_i h1
      obtain ⟨a, h2, -⟩ := clone_body_ok (hne i) h1
      cases h2
    · rename_i a t h1
      obtain ⟨a', h2, h3, h4⟩ := clone_body_ok (hne i) h1
      have q := hb i _ _ _ h3 r k
      split at h
      · cases h
      · rename_i h5
        cases h
        exact q (ih _ _ _ h5 _ _ hk)
      · rename_i h5
        cases h
        exact q (ih _ _ _ h5 _ _ hk)

theorem quiet_windows_parallel {windows : ℕ} {body : ℕ → M n (Except ε α)} (hb : ∀ i, Quiet (body i))
    (hne : ∀ i, NeverErr (body i)) : Quiet (windows_parallel windows body) := by
  intro s r t h row k hk
  unfold windows_parallel at h
  obtain ⟨r1, s1, h1, h2⟩ := run_bind_ok.1 h
  obtain ⟨a, u, rfl, h3, rfl⟩ := predict_ok (hne 0) h1
  have q := hb 0 _ _ _ h3 row k
  dsimp only at h2
  obtain ⟨r2, s2, h4, h5⟩ := run_bind_ok.1 h2
  have hs2 : s2.records.inner.KeyRow row k := by
    cases r2 <;> cases h5 <;> exact hk
  apply q
  unfold rest_windows at h4
  split at h4
  · cases h4
  · rename_i h6
    cases h4
    exact quiet_clones hb hne _ _ _ _ h6 row k hs2
  · rename_i l inner h6
    cases h4
    refine quiet_clones hb hne _ _ _ _ h6 row k ?_
    obtain ⟨m1, -, -⟩ := foldl_merge (l.map Prod.snd)
      (Context.share (((s.share u.records.inner).merge u)) inner)
    rw [show inner = (Context.share (((s.share u.records.inner).merge u)) inner).records.inner from rfl, ← m1]
    exact hs2

theorem Built2.quiet [Nontrivial (ZMod n)] {m : M n α} (h : Built2 False m) : Quiet m := by
  induction h with
  | prog h => exact h.quiet
  | bind _ _ hm hk =>
    intro s b t e r k h
    obtain ⟨a, u, h1, h2⟩ := run_bind_ok.1 e
    exact hm _ _ _ h1 _ _ (hk a ⟨_, _, h1⟩ _ _ _ h2 _ _ h)
  | parallel windows body hb hne hw => exact quiet_windows_parallel (fun i => (hb i).quiet) hne

/-! ## Emitted keys -/

/-- `m` caches values under keys in `A` only, each key once. -/
def Emits (A : ZMod n → Prop) (m : M n α) : Prop := ∀ s a t, m s = .ok (a, t) →
  (∀ r k, t.records.inner.KeyRow r k → s.records.inner.KeyRow r k ∨ A k) ∧
  ((∀ r k, s.records.inner.KeyRow r k → ¬ A k) → s.records.inner.KeysDistinct → t.records.inner.KeysDistinct)

variable {A B : ZMod n → Prop}

theorem Quiet.emits {m : M n α} (h : Quiet m) : Emits A m := fun s a t e =>
  ⟨fun r k hk => .inl (h s a t e r k hk), fun _ hd r r' k h1 h2 => hd r r' k (h s a t e r k h1) (h s a t e r' k h2)⟩

theorem Emits.mono {m : M n α} (h : Emits A m) (hAB : ∀ k, A k → B k) : Emits B m := fun s a t e =>
  ⟨fun r k hk => ((h s a t e).1 r k hk).imp_right (hAB k),
    fun hd => (h s a t e).2 fun r k hk ha => hd r k hk (hAB k ha)⟩

theorem Emits.bind' {m : M n α} {f : α → M n β} (hm : Emits A m)
    (hf : ∀ a, (∃ s t, m s = .ok (a, t)) → Emits B (f a)) (hd : ∀ k, A k → ¬ B k) :
    Emits (fun k => A k ∨ B k) (m >>= f) := by
  intro s b t e
  obtain ⟨a, u, h1, h2⟩ := run_bind_ok.1 e
  obtain ⟨p1, p2⟩ := hm _ _ _ h1
  obtain ⟨q1, q2⟩ := hf a ⟨_, _, h1⟩ _ _ _ h2
  refine ⟨fun r k hk => ?_, fun hk hs => q2 (fun r k hu hb => ?_) (p2 (fun r k h ha => hk r k h (.inl ha)) hs)⟩
  · rcases q1 r k hk with h | h
    · rcases p1 r k h with h | h
      exacts [.inl h, .inr (.inl h)]
    · exact .inr (.inr h)
  · rcases p1 r k hu with h | h
    exacts [hk r k h (.inr hb), hd k h hb]

theorem Emits.bind {m : M n α} {f : α → M n β} (hm : Emits A m) (hf : ∀ a, Emits B (f a)) (hd : ∀ k, A k → ¬ B k) :
    Emits (fun k => A k ∨ B k) (m >>= f) := .bind' hm (fun a _ => hf a) hd

theorem Emits.after {m : M n α} {f : α → M n β} (hm : Quiet m) (hf : ∀ a, (∃ s t, m s = .ok (a, t)) → Emits A (f a)) :
    Emits A (m >>= f) :=
  (Emits.bind' (A := fun _ => False) hm.emits hf fun _ h => h.elim).mono fun _ h => h.resolve_left not_false

theorem Emits.then {m : M n α} {f : α → M n β} (hm : Emits A m) (hf : ∀ a, (∃ s t, m s = .ok (a, t)) → Quiet (f a)) :
    Emits A (m >>= f) :=
  (Emits.bind' (B := fun _ => False) hm (fun a h => (hf a h).emits) fun _ _ h => h).mono fun _ h => h.resolve_right not_false

theorem Emits.tryB {m : M n (Except UnsafeError α)} {f : α → M n (Except UnsafeError β)} (hm : Emits A m)
    (hf : ∀ a, Emits B (f a)) (hd : ∀ k, A k → ¬ B k) : Emits (fun k => A k ∨ B k) (Verif.tryB m f) := by
  unfold Verif.tryB
  refine .bind hm (fun r => ?_) hd
  cases r with
  | ok a => exact hf a
  | error e => exact (Quiet.pure _).emits

theorem emits_cache_value [Nontrivial (ZMod n)] (v : AssignedValue n) (offset g sel : ℕ) :
    Emits (fun k => k = encode_offset n g sel offset) (assign_cache_value v offset g sel) := by
  intro s a t e
  have hrow : ∀ r k, t.records.inner.KeyRow r k → (r = s.select_offset ∧ k = encode_offset n g sel offset) ∨
      (r ≠ s.select_offset ∧ s.records.inner.KeyRow r k) := by
    intro r k h
    cases e
    unfold Records.assign_cache_value Records.assign_fix_cell_in_select_chip Records.assign_adv_cell_in_select_chip
      Records.enable_permute at h
    rw [raise_select] at h
    obtain ⟨h1, h2⟩ := h
    simp only [Write.apply, setCell] at h1 h2
    by_cases hr : r = s.select_offset
    · simp [hr] at h2
      exact .inl ⟨hr, h2.symm⟩
    · simp only [hr, false_and, if_false] at h1 h2
      exact .inr ⟨hr, h1, h2⟩
  refine ⟨fun r k hk => ?_, fun hn hd r r' k h1 h2 => ?_⟩
  · rcases hrow r k hk with ⟨-, h⟩ | ⟨-, h⟩
    exacts [.inr h, .inl h]
  · rcases hrow r k h1 with ⟨e1, e2⟩ | ⟨-, h1⟩ <;> rcases hrow r' k h2 with ⟨e3, e4⟩ | ⟨-, h2⟩
    · rw [e1, e3]
    · exact absurd e2 (hn _ _ h2)
    · exact absurd e4 (hn _ _ h1)
    · exact hd _ _ _ h1 h2

/-! ## Multi-scalar multiplication -/

/-- The keys of group `g` with selector `sel` and limb offsets from `lo` up to `hi`. -/
def KeysIn (g sel lo hi : ℕ) (k : ZMod n) : Prop := ∃ l, lo ≤ l ∧ l < hi ∧ k = encode_offset n g sel l

/-- The triples that `encode_offset` keeps apart. -/
def KeyBound (g sel l : ℕ) : Prop := g < 2 ^ 64 ∧ sel < 2 ^ 125 ∧ l < 2 ^ 64

theorem encode_offset_injective (hn : 2 ^ 253 ≤ n) {g sel l g' sel' l' : ℕ} (h : KeyBound g sel l)
    (h' : KeyBound g' sel' l') (e : encode_offset n g sel l = encode_offset n g' sel' l') :
    g = g' ∧ sel = sel' ∧ l = l' := by
  obtain ⟨h1, h2, h3⟩ := h
  obtain ⟨h1', h2', h3'⟩ := h'
  unfold encode_offset at e
  rw [ZMod.natCast_eq_natCast_iff'] at e
  have b : ∀ g sel l : ℕ, g < 2 ^ 64 → sel < 2 ^ 125 → l < 2 ^ 64 → sel * 2 ^ 128 + g * 2 ^ 64 + l < n := by
    intro g sel l a b c
    refine lt_of_lt_of_le ?_ hn
    norm_num at a b c ⊢
    omega
  rw [Nat.mod_eq_of_lt (b _ _ _ h1 h2 h3), Nat.mod_eq_of_lt (b _ _ _ h1' h2' h3')] at e
  norm_num at h1 h2 h3 h1' h2' h3' e
  omega

variable [Nontrivial (ZMod n)]

theorem emits_cache_limbs (hn : 2 ^ 253 ≤ n) (limbs : List (AssignedValue n)) {sc g : ℕ} (hg : g < 2 ^ 64)
    (hs : sc < 2 ^ 125) : ∀ (k j offset : ℕ), offset + j + k < 2 ^ 64 →
    Emits (KeysIn g sc (offset + j) (offset + j + k)) (cache_limbs limbs sc g offset (List.range' j k)) := by
  intro k
  induction k with
  | zero => intro j offset _; exact (Quiet.pure _).emits
  | succ k ih =>
    intro j offset hb
    rw [List.range'_succ]
    unfold cache_limbs
    refine Emits.after (prog_index _ _).quiet fun v _ => ?_
    refine (Emits.bind (emits_cache_value v (offset + j) g sc) (fun _ => ih (j + 1) offset (by omega)) ?_).mono ?_
    · rintro key rfl ⟨l, h1, h2, e⟩
      have := (encode_offset_injective hn ⟨hg, hs, by omega⟩ ⟨hg, hs, by omega⟩ e).2.2
      omega
    · rintro key (rfl | ⟨l, h1, h2, e⟩)
      · exact ⟨offset + j, le_rfl, by omega, rfl⟩
      · exact ⟨l, by omega, by omega, e⟩

theorem emits_cache_integer (hn : 2 ^ 253 ≤ n) (info : RangeInfo n) (p : AssignedInteger n) {sc g offset : ℕ}
    (hg : g < 2 ^ 64) (hs : sc < 2 ^ 125) (ho : offset + info.limbs + 1 < 2 ^ 64) :
    Emits (KeysIn g sc offset (offset + info.limbs + 1)) (assign_cache_integer info p sc g offset) := by
  unfold assign_cache_integer
  refine Emits.after (prog_rassert _).quiet fun _ _ => ?_
  rw [List.range_eq_range']
  refine (Emits.bind (emits_cache_limbs hn p.limbs_le hg hs info.limbs 0 offset (by omega))
    (fun _ => emits_cache_value p.native (offset + info.limbs) g sc) ?_).mono ?_
  · rintro key ⟨l, h1, h2, e⟩ e'
    have := (encode_offset_injective hn ⟨hg, hs, by omega⟩ ⟨hg, hs, by omega⟩ (e.symm.trans e')).2.2
    omega
  · rintro key (⟨l, h1, h2, e⟩ | e)
    · exact ⟨l, by omega, by omega, e⟩
    · exact ⟨_, by omega, by omega, e⟩

theorem emits_cache_point_non_zero (hn : 2 ^ 253 ≤ n) (info : RangeInfo n) (hl : info.limbs ≤ 2 ^ 32)
    (p : AssignedNonZeroPoint n) {g sc : ℕ} (hg : g < 2 ^ 64) (hs : sc < 2 ^ 125) :
    Emits (KeysIn g sc 0 (2 ^ 63)) (assign_cache_point_non_zero info p g sc) := by
  unfold assign_cache_point_non_zero
  refine (Emits.bind (emits_cache_integer hn info p.x hg hs (by omega))
    (fun _ => emits_cache_integer hn info p.y (offset := info.limbs + 1) hg hs (by omega)) ?_).mono ?_
  · rintro key ⟨l, h1, h2, e⟩ ⟨l', h1', h2', e'⟩
    have := (encode_offset_injective hn ⟨hg, hs, by omega⟩ ⟨hg, hs, by omega⟩ (e.symm.trans e')).2.2
    omega
  · rintro key (⟨l, h1, h2, e⟩ | ⟨l, h1, h2, e⟩) <;> exact ⟨l, by omega, by omega, e⟩

/-- The keys of group `g` with selectors from `lo` up to `hi`. -/
def KeysSel (g lo hi : ℕ) (k : ZMod n) : Prop := ∃ sel, lo ≤ sel ∧ sel < hi ∧ KeysIn g sel 0 (2 ^ 63) k

/-- The keys of groups from `lo` up to `hi`. -/
def KeysGroup (lo hi : ℕ) (k : ZMod n) : Prop := ∃ g, lo ≤ g ∧ g < hi ∧ KeysSel g 0 (2 ^ 124) k

omit [Nontrivial (ZMod n)] in
theorem KeysIn.disjoint (hn : 2 ^ 253 ≤ n) {g sel g' sel' : ℕ} (hg : g < 2 ^ 64) (hs : sel < 2 ^ 125) (hg' : g' < 2 ^ 64)
    (hs' : sel' < 2 ^ 125) {k : ZMod n} (h : KeysIn g sel 0 (2 ^ 63) k) (h' : KeysIn g' sel' 0 (2 ^ 63) k) :
    g = g' ∧ sel = sel' := by
  obtain ⟨l, -, h2, e⟩ := h
  obtain ⟨l', -, h2', e'⟩ := h'
  have := encode_offset_injective hn ⟨hg, hs, by omega⟩ ⟨hg', hs', by omega⟩ (e.symm.trans e')
  exact ⟨this.1, this.2.1⟩

omit [Nontrivial (ZMod n)] in
theorem KeysGroup.disjoint (hn : 2 ^ 253 ≤ n) {lo hi lo' hi' : ℕ} (h : hi ≤ 2 ^ 64) (h' : hi' ≤ 2 ^ 64) (hd : hi ≤ lo')
    {k : ZMod n} (hk : KeysGroup lo hi k) (hk' : KeysGroup lo' hi' k) : False := by
  obtain ⟨g, h1, h2, sel, -, h4, h5⟩ := hk
  obtain ⟨g', h1', h2', sel', -, h4', h5'⟩ := hk'
  have := (h5.disjoint hn (by omega) (by omega) (by omega) (by omega) h5').1
  omega

theorem emits_fill_candidates (hn : 2 ^ 253 ≤ n) (info : RangeInfo n) (hl : info.limbs ≤ 2 ^ 32) {g : ℕ}
    (hg : g < 2 ^ 64) (chunk : List (AssignedNonZeroPoint n)) : ∀ (k i : ℕ) (cl : List (AssignedNonZeroPoint n)),
    i + k ≤ 2 ^ 124 →
    Emits (KeysSel g i (i + k))
      (fill_candidates info (fun p i => assign_cache_point_non_zero info p g i) chunk cl (List.range' i k)) := by
  intro k
  induction k with
  | zero => intro i cl _; exact (Quiet.pure _).emits
  | succ k ih =>
    intro i cl hk
    rw [List.range'_succ]
    unfold fill_candidates
    refine Emits.after (prog_index _ _).quiet fun a _ => Emits.after (prog_index _ _).quiet fun q _ => ?_
    unfold tryB
    refine Emits.after (prog_ecc_add_unsafe _ _ _).quiet fun r _ => ?_
    cases r with
    | error e => exact (Quiet.pure _).emits
    | ok p =>
      refine Emits.after (prog_ecc_reduce_non_zero _ _).quiet fun p _ => ?_
      refine (Emits.bind (emits_cache_point_non_zero hn info hl p hg (sc := i) (by omega))
        (fun _ => ih (i + 1) (cl ++ [p]) (by omega)) ?_).mono ?_
      · rintro key h ⟨sel, h1, h2, h'⟩
        have := (h.disjoint hn hg (by omega) hg (by omega) h').2
        omega
      · rintro key (h | ⟨sel, h1, h2, h⟩)
        · exact ⟨i, le_rfl, by omega, h⟩
        · exact ⟨sel, by omega, by omega, h⟩

theorem emits_group_candidates (hn : 2 ^ 253 ≤ n) (info : RangeInfo n) (hl : info.limbs ≤ 2 ^ 32) (pre : ℕ)
    (line line_neg : AssignedNonZeroPoint n) : ∀ (l : List (List (AssignedNonZeroPoint n))) (g : ℕ),
    (∀ c ∈ l, c.length ≤ 5) → pre + g + l.length ≤ 2 ^ 64 →
    Emits (KeysGroup (pre + g) (pre + g + l.length))
      (group_candidates info (fun g p i => assign_cache_point_non_zero info p (pre + g) i) line line_neg g l) := by
  intro l
  induction l with
  | nil => intro g _ _; exact (Quiet.pure _).emits
  | cons chunk rest ih =>
    intro g hc hb
    rw [List.length_cons] at hb
    unfold group_candidates
    dsimp only
    have h5 : 2 ^ chunk.length ≤ 2 ^ 5 := Nat.pow_le_pow_right (by norm_num) (hc chunk List.mem_cons_self)
    have hpos : 1 ≤ 2 ^ chunk.length := Nat.one_le_two_pow
    have hg : pre + g < 2 ^ 64 := by omega
    have first : ∀ init : AssignedNonZeroPoint n, Emits (KeysSel (pre + g) 0 (2 ^ 124)) (do
        assign_cache_point_non_zero info init (pre + g) 0
        fill_candidates info (fun p i => assign_cache_point_non_zero info p (pre + g) i) chunk [init]
          (List.range' 1 (2 ^ chunk.length - 1))) := by
      intro init
      refine (Emits.bind (emits_cache_point_non_zero hn info hl init hg (sc := 0) (by norm_num)) (fun _ =>
        emits_fill_candidates hn info hl hg chunk (2 ^ chunk.length - 1) 1 [init] (by omega)) ?_).mono ?_
      · rintro key h ⟨sel, h1, h2, h'⟩
        have := (h.disjoint hn hg (by norm_num) hg (by omega) h').2
        omega
      · rintro key (h | ⟨sel, h1, h2, h⟩)
        · exact ⟨0, le_rfl, by norm_num, h⟩
        · exact ⟨sel, by omega, by omega, h⟩
    have := Emits.tryB (first (if g % 2 = 0 then line else line_neg)) (fun cl => Emits.tryB
      (ih (g + 1) (fun c h => hc c (List.mem_cons_of_mem _ h)) (by omega))
      (fun cs => (Quiet.pure (.ok (cl :: cs) : Except UnsafeError _)).emits (A := fun _ => False)) fun _ _ h => h) ?_
    · unfold tryB at this ⊢
      rw [bind_assoc] at this
      refine this.mono ?_
      rintro key (⟨sel, h1, h2, h⟩ | ⟨g', h1, h2, h⟩ | h)
      · exact ⟨pre + g, le_rfl, by rw [List.length_cons]; omega, sel, h1, h2, h⟩
      · exact ⟨g', by omega, by rw [List.length_cons]; omega, h⟩
      · exact h.elim
    · rintro key ⟨sel, h1, h2, h⟩ (⟨g', h1', h2', sel', h3', h4', h5'⟩ | h')
      · have := (h.disjoint hn hg (by omega) (by omega) (by omega) h5').1
        omega
      · exact h'

end Verif
