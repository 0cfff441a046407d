import Verif.Proof.Low
import Verif.Props.Balance

/-!
# C65: heights and offsets, and small circuits that cannot be synthesized

The heights decide how much of the records is synthesized. They are determined by the offsets; so whether a circuit is
synthesized completely is determined by the numbers of rows that have been used.
-/

namespace Verif
variable {n : ℕ}

/-! ## C65 -/

/-- What a run on a new context leaves as heights. -/
theorem heights_of {α : Type} {m : M n α} (hm : Prog2 m) {a : α} {t : Context n} (h : m (.new n) = .ok (a, t)) :
    t.records.base_height = t.base_offset ∧ t.records.select_height = t.select_offset ∧
      t.range_offset ≤ t.records.range_height ∧ t.records.range_height ≤ max (t.range_offset + 1) t.select_offset := by
  have h1 := (rows_of_tidy hm.tidy h).2
  have h2 := (hm.lows.out _ _ _ h).2 ⟨Nat.zero_le _, Nat.zero_le _, Nat.zero_le _⟩
  exact ⟨le_antisymm h2.base (h1 .base), le_antisymm h2.select (h1 .select), h1 .range, h2.range⟩

/-- **C65.** Whatever a client does, also in parallel: the heights of the base chip and of the select chip are the numbers
of rows used, and the height of the range chip is at least the number of rows used and exceeds it by at most one, or is at
most the number of rows of the select chip (`merge` takes the wrong height). -/
theorem C65_heights (A : Api n) (w : Witness n) (calls : List (Call n)) (pre : Option ℕ) {τ : Store n} {t : Context n}
    (h : runCalls A w calls (.empty n pre) (.new n) = .ok (τ, t)) :
    t.records.base_height = t.base_offset ∧ t.records.select_height = t.select_offset ∧
      t.range_offset ≤ t.records.range_height ∧ t.records.range_height ≤ max (t.range_offset + 1) t.select_offset :=
  heights_of (prog2_runCalls A w calls (.empty n pre)) h

/-- **C65** with **C36**: whether synthesis assigns what is recorded depends only on the numbers of rows used. -/
theorem C65_exact (A : Api n) (w : Witness n) (calls : List (Call n)) (pre : Option ℕ) {τ : Store n}
    {t : Context n} (h : runCalls A w calls (.empty n pre) (.new n) = .ok (τ, t)) {max_rows : ℕ}
    (hm : ∀ chip, t.offs.at chip ≤ max_rows) :
    (∃ L, assign_all t.records max_rows = .ok L ∧ L.Is t.records) ↔
      1 ≤ t.base_offset ∧ t.range_offset ≤ 16 * ((t.base_offset + 15) / 16) ^ 2 := by
  rw [C36_exact_partial A w calls pre h hm, (C65_heights A w calls pre h).1]

/-- Concretely: after the assignment of a value and of a range checked value the height of the range chip is one more than
the number of rows. -/
theorem C65_case (A : Api n) (w : Witness n) : ∃ τ t,
    runCalls A w [.assign 0, .assign_common 0] (.empty n none) (.new n) = .ok (τ, t) ∧ t.base_offset = 1 ∧
      t.records.base_height = 1 ∧ t.range_offset = 1 ∧ t.records.range_height = 2 ∧ t.records.select_height = 0 :=
  ⟨_, _, rfl, rfl, rfl, rfl, rfl, rfl⟩

/-! ## C63: small circuits -/

/-- `m` uses `b` rows of the base chip and `r` rows of the range chip. -/
structure Uses (b r : ℕ) {α : Type} (m : M n α) : Prop where
  out : ∀ s a t, m s = .ok (a, t) → t.base_offset = s.base_offset + b ∧ t.range_offset = s.range_offset + r

theorem Uses.bind {α β : Type} {m : M n α} {k : α → M n β} {b r b' r' : ℕ} (hm : Uses b r m) (hk : ∀ a, Uses b' r' (k a)) :
    Uses (b + b') (r + r') (m >>= k) := ⟨fun s c t e => by
  obtain ⟨a, u, e1, e2⟩ := run_bind_ok.1 e
  obtain ⟨h1, h2⟩ := hm.out _ _ _ e1
  obtain ⟨k1, k2⟩ := (hk a).out _ _ _ e2
  omega⟩

theorem Uses.pure {α : Type} (a : α) : Uses 0 0 (Pure.pure a : M n α) := ⟨fun s c t e => by cases e; exact ⟨rfl, rfl⟩⟩

theorem Uses.mapM {α β : Type} {f : α → M n β} {b r : ℕ} (hf : ∀ a, Uses b r (f a)) (l : List α) :
    Uses (b * l.length) (r * l.length) (l.mapM f) := by
  induction l with
  | nil => rw [List.mapM_nil]; exact .pure _
  | cons x l ih =>
    rw [List.mapM_cons]
    have := (hf x).bind fun y => ih.bind fun ys => Uses.pure (n := n) (y :: ys)
    rw [List.length_cons, Nat.mul_add_one, Nat.mul_add_one, Nat.add_comm _ b, Nat.add_comm _ r]
    exact this

theorem uses_assign_range (v : ZMod n × List (ZMod n)) {bits : ℕ} (h1 : 36 ≤ bits) (h2 : bits ≤ 108) :
    Uses 0 (if bits ≤ 72 then 2 else 3) (assign_range v bits) := ⟨fun s a t e => by
  unfold Verif.assign_range at e
  split at e
  · cases e
  · rename_i res inc r h
    cases e
    refine ⟨rfl, ?_⟩
    unfold Records.assign_range_value at h
    rw [if_neg (by show ¬ bits ≤ 18; omega), if_neg (by show ¬ bits < 36; omega)] at h
    by_cases hb : bits ≤ 72
    · rw [if_pos (show bits ≤ 4 * COMMON_RANGE_BITS from hb)] at h
      rw [if_pos hb]
      cases h1 : s.records.assign_two_line_range_value s.range_offset (Records.resize v.2 4) v.1 bits with
      | error e => rw [h1] at h; cases h
      | ok x => rw [h1] at h; cases h; rfl
    · rw [if_neg (show ¬ bits ≤ 4 * COMMON_RANGE_BITS from hb),
        if_pos (show bits ≤ 6 * COMMON_RANGE_BITS from h2)] at h
      rw [if_neg hb]
      cases h1 : s.records.assign_three_line_range_value s.range_offset (Records.resize v.2 6) v.1 bits with
      | error e => rw [h1] at h; cases h
      | ok x => rw [h1] at h; cases h; rfl⟩

theorem assign_range_cell {v : ZMod n × List (ZMod n)} {s t : Context n} {a : AssignedValue n}
    (e : assign_range v 108 s = .ok (a, t)) : a.cell = ⟨.range, 0, s.range_offset⟩ := by
  unfold Verif.assign_range at e
  split at e
  · cases e
  · rename_i res inc r h
    cases e
    unfold Records.assign_range_value at h
    rw [if_neg (by decide), if_neg (by decide), if_neg (by decide), if_pos (by decide)] at h
    cases h1 : s.records.assign_three_line_range_value s.range_offset (Records.resize v.2 6) v.1 108 with
    | error e => rw [h1] at h; cases h
    | ok x =>
      rw [h1] at h
      cases h
      unfold Records.assign_three_line_range_value at h1
      rw [if_neg (by decide), if_neg (by decide)] at h1
      dsimp only [Bind.bind, Except.bind, Pure.pure, Except.pure] at h1
      split at h1
      · rw [← congrArg Prod.fst (Except.ok.inj h1)]
      · cases h1

theorem native_of_copies {info : RangeInfo n} {l : List (AssignedValue n)} {a : AssignedValue n} {s t : Context n}
    {x : AssignedValue n} {y : ZMod n} {ls : List (AssignedValue n × ZMod n)} (hz : l.zip info.limb_coeffs = (x, y) :: ls)
    (hl : ls.length ≤ 3) (e : native_of info l s = .ok (a, t)) : t.base_offset = s.base_offset + 1 ∧
      t.range_offset = s.range_offset ∧ (x.cell, ⟨.base, 0, s.base_offset⟩) ∈ t.records.permutations := by
  unfold native_of sum_with_constant at e
  rw [hz, if_pos (by rw [List.length_cons]; show _ < 5; omega)] at e
  unfold sum_with_constant_in_one_line at e
  obtain ⟨_, u, e1, e2⟩ := run_bind_ok.1 e
  unfold rassert at e1
  split at e1
  swap
  · cases e1
  cases e1
  obtain ⟨c, v, e3, e4⟩ := run_bind_ok.1 e2
  cases e4
  unfold one_line_with_last at e3
  split at e3
  · cases e3
  rename_i r h
  cases e3
  refine ⟨rfl, rfl, ?_⟩
  unfold Records.one_line_with_last at h
  split at h
  · cases h
  cases h1 : s.records.one_line s.base_offset ((((x, y) :: ls).map fun e => pairA e.1 e.2)) none [] none with
  | error p => rw [h1] at h; cases h
  | ok u =>
    rw [h1] at h
    cases h
    have := records_one_line_eq h1
    subst this
    show _ ∈ (Records.line_cell _ _ _ _ _).permutations
    rw [line_cell_eq, applyAll_perms, applyAll_perms]
    refine List.mem_append_left _ (List.mem_append_right _ ?_)
    rw [List.map_cons]
    exact List.mem_cons_self

/-- The rows and the first copy constraint of an assigned integer. -/
theorem assign_w_copies {info : RangeInfo n} {wm : ℕ} (hv : info.Valid wm) (h4 : info.limbs ≤ 4)
    (hl : info.w_ceil_bits % 108 ≤ 72) {w : ℕ} {a : AssignedInteger n} {s t : Context n}
    (e : assign_w info w s = .ok (a, t)) : t.base_offset = s.base_offset + 1 ∧
      t.range_offset = s.range_offset + (3 * (info.limbs - 1) + 2) ∧
      (⟨.range, 0, s.range_offset⟩, ⟨.base, 0, s.base_offset⟩) ∈ t.records.permutations := by
  obtain ⟨l, u, e1, e2⟩ := run_bind_ok.1 e
  obtain ⟨x, v, e3, e4⟩ := run_bind_ok.1 e2
  obtain ⟨y, z, e5, e6⟩ := run_bind_ok.1 e4
  cases e6
  have u1 := (Uses.mapM (fun i => (show Uses 0 3 (assign_nonleading_limb info (RangeInfo.limbOf info.limb_bits i w)) by
    unfold assign_nonleading_limb
    rw [hv.limb_bits]
    exact uses_assign_range (bits := 108) _ (by norm_num) (by norm_num))) (List.range (info.limbs - 1))).out _ _ _ e1
  have u2 := (show Uses 0 2 (assign_w_ceil_leading_limb info (RangeInfo.limbOf info.limb_bits (info.limbs - 1) w)) by
    unfold assign_w_ceil_leading_limb
    rw [hv.limb_bits]
    have := uses_assign_range (decompose_bn n (RangeInfo.limbOf 108 (info.limbs - 1) w) info.w_ceil_leading_decompose
      info.common_range_mask) hv.lead_ge (by omega)
    rwa [if_pos hl] at this).out _ _ _ e3
  obtain ⟨k, hk⟩ : ∃ k, info.limbs = k + 3 := ⟨info.limbs - 3, by have := hv.limbs_ge; omega⟩
  have hm : ∃ b l', l = b :: l' ∧ b.cell = ⟨.range, 0, s.range_offset⟩ ∧ l'.length = k + 1 := by
    rw [show info.limbs - 1 = (k + 1) + 1 by omega, List.range_succ_eq_map, List.mapM_cons] at e1
    obtain ⟨b, u', f1, f2⟩ := run_bind_ok.1 e1
    obtain ⟨l', u'', f3, f4⟩ := run_bind_ok.1 f2
    cases f4
    refine ⟨b, l', rfl, ?_, ?_⟩
    · unfold assign_nonleading_limb at f1
      rw [hv.limb_bits] at f1
      exact assign_range_cell f1
    · have : ∀ (is : List ℕ) (f : ℕ → M n (AssignedValue n)) (s t : Context n) (r : List (AssignedValue n)),
          is.mapM f s = .ok (r, t) → r.length = is.length := by
        intro is f
        induction is with
        | nil => intro s t r h; rw [List.mapM_nil] at h; cases h; rfl
        | cons i is ih =>
          intro s t r h
          rw [List.mapM_cons] at h
          obtain ⟨_, _, _, h2⟩ := run_bind_ok.1 h
          obtain ⟨_, _, h3, h4⟩ := run_bind_ok.1 h2
          cases h4
          rw [List.length_cons, ih _ _ _ h3, List.length_cons]
      rw [this _ _ _ _ _ f3]
      simp
  obtain ⟨b, l', rfl, hb, hlen⟩ := hm
  obtain ⟨y0, ys, hy, hys⟩ : ∃ y0 ys, info.limb_coeffs = y0 :: ys ∧ ys.length = k + 2 := by
    rw [hv.coeffs, hk, List.range_succ_eq_map]
    exact ⟨_, _, rfl, by simp⟩
  have hz : ((b :: l') ++ [x]).zip info.limb_coeffs = (b, y0) :: (l' ++ [x]).zip ys := by
    rw [hy]; rfl
  obtain ⟨n1, n2, n3⟩ := native_of_copies hz (by rw [List.length_zip, hys]; omega) e5
  rw [List.length_range] at u1
  refine ⟨by omega, by omega, ?_⟩
  rw [hb, u2.1, u1.1] at n3
  simpa using n3

/-! ### Programs that assign integers -/

/-- Assign integers, for bn256. -/
def xInts (xs : List (ZMod (pairQ .bn256))) : List XInstr := xs.map fun x => .tower (.pt (.int (.assign x)))

/-- Assign integers, for bls12_381. -/
def gInts (xs : List (ZMod (pairQ .bls12_381))) : List GInstr := xs.map fun x => .tower (.pt (.int (.assign x)))

theorem xInts_eval (xs : List (ZMod (pairQ .bn256))) : ∀ r, ∃ r', xevalAll (xInts xs) r = some r' := by
  induction xs with
  | nil => exact fun r => ⟨r, rfl⟩
  | cons x xs ih => exact fun r => ih _

theorem gInts_eval (xs : List (ZMod (pairQ .bls12_381))) : ∀ r, ∃ r', gevalAll (gInts xs) r = some r' := by
  induction xs with
  | nil => exact fun r => ⟨r, rfl⟩
  | cons x xs ih => exact fun r => ih _

/-- The rows used by assignments of integers, and a copy constraint of the last one. -/
structure IntRows (k rows : ℕ) (s t : Context n) : Prop where
  base : t.base_offset = s.base_offset + k
  range : t.range_offset = s.range_offset + rows * k
  last : k ≠ 0 → ∃ c, (⟨.range, 0, s.range_offset + rows * (k - 1)⟩, c) ∈ t.records.permutations

theorem IntRows.step {k rows : ℕ} {s u t : Context n} (hb : u.base_offset = s.base_offset + 1)
    (hr : u.range_offset = s.range_offset + rows)
    (hp : (⟨.range, 0, s.range_offset⟩, ⟨.base, 0, s.base_offset⟩) ∈ u.records.permutations) (h : IntRows k rows u t)
    (h0 : k = 0 → t = u) : IntRows (k + 1) rows s t := by
  refine ⟨by rw [h.base, hb]; omega, by rw [h.range, hr, Nat.mul_succ]; omega, fun _ => ?_⟩
  rcases Nat.eq_zero_or_pos k with e | e
  · cases h0 e
    subst e
    exact ⟨_, hp⟩
  · obtain ⟨c, hc⟩ := h.last (by omega)
    refine ⟨c, ?_⟩
    rw [hr] at hc
    have : s.range_offset + rows + rows * (k - 1) = s.range_offset + rows * (k + 1 - 1) := by
      obtain ⟨j, rfl⟩ : ∃ j, k = j + 1 := ⟨k - 1, by omega⟩
      show _ + rows + rows * j = _ + rows * (j + 1)
      ring
    rwa [this] at hc

theorem xInts_rows {info : RangeInfo bnR} (E : Env (pairQ .bn256) info) (order : ℕ) (xs : List (ZMod (pairQ .bn256))) :
    ∀ (σ σ' : XSt) (s t : Context bnR), xexecAll info order (xInts xs) σ s = .ok (σ', t) → IntRows xs.length 8 s t := by
  obtain ⟨hl, hw, -⟩ := limbs_bn E
  induction xs with
  | nil => intro σ σ' s t h; cases h; exact ⟨rfl, rfl, fun h => absurd rfl h⟩
  | cons x xs ih =>
    intro σ σ' s t h
    obtain ⟨a, u, e1, e2⟩ := run_bind_ok.1 h
    obtain ⟨_, _, f1, f2⟩ := run_bind_ok.1 e1
    obtain ⟨_, _, f3, f4⟩ := run_bind_ok.1 f1
    obtain ⟨_, _, f5, f6⟩ := run_bind_ok.1 f3
    obtain ⟨_, _, f7, f8⟩ := run_bind_ok.1 f5
    cases f8; cases f6; cases f4; cases f2
    obtain ⟨k1, k2, k3⟩ := assign_w_copies (RangeInfo.new_valid E.range) (by omega) (by rw [hw]; norm_num) f7
    rw [hl] at k2
    exact IntRows.step k1 k2 k3 (ih _ _ _ _ e2) fun h0 => by
      obtain rfl := List.length_eq_zero_iff.1 h0
      cases e2
      rfl

theorem gInts_rows {info sinfo : RangeInfo bnR} (E : Env (pairQ .bls12_381) info) (order : ℕ)
    (xs : List (ZMod (pairQ .bls12_381))) : ∀ (σ σ' : GSt) (s t : Context bnR),
    gexecAll info sinfo order (gInts xs) σ s = .ok (σ', t) → IntRows xs.length 11 s t := by
  obtain ⟨hl, hw⟩ := limbs_bls E
  induction xs with
  | nil => intro σ σ' s t h; cases h; exact ⟨rfl, rfl, fun h => absurd rfl h⟩
  | cons x xs ih =>
    intro σ σ' s t h
    obtain ⟨a, u, e1, e2⟩ := run_bind_ok.1 h
    obtain ⟨_, _, f1, f2⟩ := run_bind_ok.1 e1
    obtain ⟨_, _, f3, f4⟩ := run_bind_ok.1 f1
    obtain ⟨_, _, f5, f6⟩ := run_bind_ok.1 f3
    obtain ⟨_, _, f7, f8⟩ := run_bind_ok.1 f5
    cases f8; cases f6; cases f4; cases f2
    obtain ⟨k1, k2, k3⟩ := assign_w_copies (RangeInfo.new_valid E.range) (by omega) (by rw [hw]; norm_num) f7
    rw [hl] at k2
    exact IntRows.step k1 k2 k3 (ih _ _ _ _ e2) fun h0 => by
      obtain rfl := List.length_eq_zero_iff.1 h0
      cases e2
      rfl

theorem visited_of_synthesized {s : Records n} {select : Bool} {max_rows : ℕ} {L : Layout n}
    (h : synthesize select s max_rows = .ok L) :
    ∀ p ∈ s.permutations, p.1.region = .range → visited s max_rows p.1.row = true := by
  cases select with
  | true => exact visited_of_assigned h
  | false =>
    intro p hp hreg
    replace h : assign_all_without_select s max_rows = .ok L := h
    unfold assign_all_without_select at h
    cases h1 : _assign_to_base_chip s max_rows with
    | error e => rw [h1] at h; cases h
    | ok b =>
      cases h2 : _assign_to_range_chip s max_rows with
      | error e => rw [h1, h2] at h; cases h
      | ok r =>
        rw [h1, h2] at h
        simp only [bind, Except.bind] at h
        split at h
        · cases h
        · split at h
          · cases h
          · rename_i l hl
            have k := lookup_of_assigned hl p hp
            rw [hreg] at k
            dsimp only at k
            unfold lookup_cell at k
            split at k
            · cases k
            · split at k
              · rename_i hc
                unfold _assign_to_range_chip at h2
                by_cases c1 : chunk_size s = 0
                · rw [if_pos c1] at h2; cases h2
                rw [if_neg c1] at h2
                split at h2
                · cases h2
                · cases h2
                  simp only [Bool.and_eq_true] at hc
                  exact hc.1.1
              · cases k

theorem not_synthesized {α : Type} {m : M n α} (hm : Prog2 m) {a : α} {t : Context n} (h : m (.new n) = .ok (a, t))
    {k rows : ℕ} (hr : IntRows k rows (.new n) t) (hk : k ≠ 0) (hlt : 16 * ((k + 15) / 16) ^ 2 ≤ rows * (k - 1)) :
    ∀ (select : Bool) (max_rows : ℕ) (L : Layout n), synthesize select t.records max_rows ≠ .ok L := by
  intro select max_rows L hL
  obtain ⟨c, hc⟩ := hr.last hk
  have := visited_of_synthesized hL _ hc rfl
  rw [visited_iff, (heights_of hm h).1, hr.base] at this
  have h0 : (Context.new n).base_offset = 0 := rfl
  have h1 : (Context.new n).range_offset = 0 := rfl
  simp only [h0, h1, Nat.zero_add] at this
  exact absurd this.2 (not_lt.2 hlt)

/-- **C63** fails for small circuits: a program that assigns at least three and at most 96 integers is issued without a
panic and its witness satisfies the recorded circuit, but synthesis panics, with or without a select chip and whatever the
size of the arrays. -/
theorem C63_violated_bn256 {info : RangeInfo bnR} (E : Env (pairQ .bn256) info) (order : ℕ) (ho : order % 2 = 1)
    (xs : List (ZMod (pairQ .bn256))) (h3 : 3 ≤ xs.length) (h96 : xs.length ≤ 96) (pre : Option ℕ) :
    ∃ r s t, xevalAll (xInts xs) (XRef.empty, pre) = some r ∧
      xexecAll info order (xInts xs) (XSt.empty pre) (Context.new bnR) = .ok (s, t) ∧
      (∀ usable, t.Fits usable → (t.circuit usable).Sat t.honest) ∧
      ∀ (select : Bool) (max_rows : ℕ) (L : Layout bnR), synthesize select t.records max_rows ≠ .ok L := by
  obtain ⟨r, hr⟩ := xInts_eval xs (XRef.empty, pre)
  obtain ⟨s, t, hrun, hP, hsat⟩ := Accepted.of_C fun c h => C58_program_complete E order ho (xInts xs) pre r hr c h
  refine ⟨r, s, t, hr, hrun, hsat, not_synthesized (prog2_xexecAll info order _ _) hrun (xInts_rows E order xs _ _ _ _ hrun)
    (by omega) ?_⟩
  generalize xs.length = k at h3 h96
  interval_cases k <;> norm_num

/-- **C63** fails for bls12_381 as well, from three up to 128 integers. -/
theorem C63_violated_bls12_381 {info sinfo : RangeInfo bnR} (E : Env (pairQ .bls12_381) info) (F : Env blsR sinfo)
    (order : ℕ) (ho : order % 2 = 1) (xs : List (ZMod (pairQ .bls12_381))) (h3 : 3 ≤ xs.length) (h128 : xs.length ≤ 128)
    (pre : Option ℕ) :
    ∃ r s t, gevalAll (gInts xs) (GRef.empty, pre) = some r ∧
      gexecAll info sinfo order (gInts xs) (GSt.empty pre) (Context.new bnR) = .ok (s, t) ∧
      (∀ usable, t.Fits usable → (t.circuit usable).Sat t.honest) ∧
      ∀ (select : Bool) (max_rows : ℕ) (L : Layout bnR), synthesize select t.records max_rows ≠ .ok L := by
  obtain ⟨r, hr⟩ := gInts_eval xs (GRef.empty, pre)
  obtain ⟨s, t, hrun, hP, hsat⟩ := Accepted.of_C fun c h => C59_program_complete E F order ho (gInts xs) pre r hr c h
  refine ⟨r, s, t, hr, hrun, hsat, not_synthesized (prog2_gexecAll info sinfo order _ _) hrun
    (gInts_rows E order xs _ _ _ _ hrun) (by omega) ?_⟩
  generalize xs.length = k at h3 h128
  interval_cases k <;> norm_num

/-- Not vacuous: there are such parameters and programs. -/
theorem C63_violated_case : ∃ info : RangeInfo bnR, Env (pairQ .bn256) info ∧ ∃ s t,
    xexecAll info bnR (xInts [1, 2, 3]) (XSt.empty none) (Context.new bnR) = .ok (s, t) ∧
      ∀ (select : Bool) (max_rows : ℕ) (L : Layout bnR), synthesize select t.records max_rows ≠ .ok L := by
  obtain ⟨info, E⟩ := env_bn256
  obtain ⟨-, s, t, -, h1, -, h2⟩ := C63_violated_bn256 E bnR (by decide +kernel) [1, 2, 3] (by simp) (by simp) none
  exact ⟨info, E, s, t, h1, h2⟩

end Verif
