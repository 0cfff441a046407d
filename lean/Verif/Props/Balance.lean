import Verif.Props.Layout
import Verif.Proof.BalanceMsm
import Verif.Spec.Balance

/-!
# C64: circuits of some size are synthesized completely

Synthesis goes wrong when there are many rows of the range chip in comparison with the base chip (C36). No operation but
the bare assignment of a range checked value uses more than twelve rows of the range chip per row of the base chip, so
circuits with at least 208 rows of the base chip are not affected, unless they consist mostly of such assignments.
-/

namespace Verif
variable {n : ℕ}

/-! ## Programs -/

section
variable {crv : PairingCurve}

theorem bal_getM {A : Type} (l : List A) (is : List ℕ) : Bl (getM l is : M n (List A)) := by
  induction is with
  | nil => exact .pure _
  | cons i is ih => exact .bind (bal_index _ _) fun _ => .bind ih fun _ => .pure _

theorem bal_elemsM (l : List (AssignedValue n)) (es : List (ℕ × ZMod n)) : Bl (elemsM l es) := by
  induction es with
  | nil => exact .pure _
  | cons i is ih => exact .bind (bal_index _ _) fun _ => .bind ih fun _ => .pure _

theorem bal_termsM (l : List (AssignedValue n)) (ts : List (ℕ × ℕ × ℕ × ZMod n)) : Bl (termsM l ts) := by
  induction ts with
  | nil => exact .pure _
  | cons i is ih =>
    exact .bind (bal_index _ _) fun _ => .bind (bal_index _ _) fun _ => .bind (bal_index _ _) fun _ =>
      .bind ih fun _ => .pure _

theorem bal_nexec (i : NInstr n) (s : NSt n) (h : ∀ x, i ≠ .small x) : Bl (i.exec s) := by
  cases i
  case small x => exact absurd rfl (h x)
  all_goals unfold NInstr.exec; bal

theorem bal_fetchM (regs : (l : Lv) → List (l.T n)) : ∀ (ls : List Lv) (a : Args ls), Bl (fetchM regs ls a)
  | [], _ => .pure _
  | _ :: ls, a => .bind (bal_index _ _) fun _ => .bind (bal_fetchM regs ls a.2) fun _ => .pure _

theorem bal_inputsM (pts : List (AssignedPoint n)) (g2s : List (AssignedG2Affine n)) (ts : List (ℕ × ℕ)) :
    Bl (inputsM pts g2s ts) := by
  induction ts with
  | nil => exact .pure _
  | cons i is ih => exact .bind (bal_index _ _) fun _ => .bind (bal_index _ _) fun _ => .bind ih fun _ => .pure _

theorem bal_top (info : RangeInfo n) [Limbs4 info] {ls : List Lv} {l : Lv} (o : TOp crv ls l) (a : Tup (Lv.T n) ls) :
    Bl (o.run info a) := by
  cases o
  all_goals
    simp only [TOp.run]
    first
      | bal; done
      | cases l <;> simp only [Lv.zero, Lv.one, Lv.const, Lv.neg, Lv.double, Lv.square, Lv.reduce, Lv.inv, Lv.add, Lv.sub, Lv.mul,
          Lv.frob] <;> bal

theorem bal_iexec (info : RangeInfo n) [Limbs4 info] {wm : ℕ} (i : Instr wm) (s : St n) : Bl (i.exec info s) := by
  cases i <;> unfold Instr.exec <;> bal

theorem bal_pexec (info : RangeInfo n) [Limbs4 info] (order : ℕ) {wm : ℕ} {b : ZMod wm} (i : PInstr b) (s : PSt n) :
    Bl (i.exec info order s) := by
  cases i
  case int i => exact .bind (bal_iexec info i _) fun _ => .pure _
  all_goals unfold PInstr.exec; bal

theorem bal_texec (info : RangeInfo n) [Limbs4 info] (order : ℕ) (i : TInstr crv) (s : TSt n) :
    Bl (i.exec info order s) := by
  cases i
  case pt i => exact .bind (bal_pexec info order i _) fun _ => .pure _
  case op o args => exact .bind (bal_fetchM _ _ _) fun _ => .bind (bal_top _ _ _) fun _ => .pure _
  case assertEq l i j =>
    refine .bind (bal_index _ _) fun _ => .bind (bal_index _ _) fun _ => .bind ?_ fun _ => .pure _
    cases l <;> simp only [Lv.assertEq] <;> bal
  all_goals unfold TInstr.exec; bal


end

/-! ## API calls -/

theorem bal_elem (S : Store n) (e : ℕ × ZMod n) : Bl (S.elem e) := by unfold Store.elem; bal

theorem bal_term (S : Store n) (e : ℕ × ℕ × ℕ × ZMod n) : Bl (S.term e) := by unfold Store.term; bal

theorem bal_pairTerm (S : Store n) (e : ℕ × ℕ) : Bl (S.pairTerm e) := by unfold Store.pairTerm; bal

theorem bal_lineTerm (S : Store n) (e : ℕ × ℕ) : Bl (S.lineTerm e) := by unfold Store.lineTerm; bal

theorem bal_runTowerCall (A : Api n) [Limbs4 A.info] (S : Store n) (c : TowerCall) : Bl (runTowerCall A S c) := by
  cases c
  case fq2_reduce => exact .bind (bal_index _ _) fun _ => .bind (bal_fq2_reduce ..) fun _ => .pure _
  case fq2_assert_equal => exact .bind (bal_index _ _) fun _ => .bind (bal_index _ _) fun _ => .bind (bal_fq2_assert_equal ..) fun _ => .pure _
  case fq2_assign_zero => exact .bind (bal_fq2_assign_zero ..) fun _ => .pure _
  case fq2_assign_one => exact .bind (bal_fq2_assign_one ..) fun _ => .pure _
  case fq2_assign_constant => exact .bind (bal_fq2_assign_constant ..) fun _ => .pure _
  case fq2_add => exact .bind (bal_index _ _) fun _ => .bind (bal_index _ _) fun _ => .bind (bal_fq2_add ..) fun _ => .pure _
  case fq2_mul => exact .bind (bal_index _ _) fun _ => .bind (bal_index _ _) fun _ => .bind (bal_fq2_mul ..) fun _ => .pure _
  case fq2_sub => exact .bind (bal_index _ _) fun _ => .bind (bal_index _ _) fun _ => .bind (bal_fq2_sub ..) fun _ => .pure _
  case fq2_double => exact .bind (bal_index _ _) fun _ => .bind (bal_fq2_double ..) fun _ => .pure _
  case fq2_square => exact .bind (bal_index _ _) fun _ => .bind (bal_fq2_square ..) fun _ => .pure _
  case fq2_neg => exact .bind (bal_index _ _) fun _ => .bind (bal_fq2_neg ..) fun _ => .pure _
  case fq2_conjugate => exact .bind (bal_index _ _) fun _ => .bind (bal_fq2_conjugate ..) fun _ => .pure _
  case fq2_unsafe_invert => exact .bind (bal_index _ _) fun _ => .bind (bal_fq2_unsafe_invert ..) fun _ => .pure _
  case fq2_mul_by_nonresidue => exact .bind (bal_index _ _) fun _ => .bind (bal_fq2_mul_by_nonresidue ..) fun _ => .pure _
  case fq2_frobenius_map => exact .bind (bal_index _ _) fun _ => .bind (bal_fq2_frobenius_map ..) fun _ => .pure _
  case fq6_reduce => exact .bind (bal_index _ _) fun _ => .bind (bal_fq6_reduce ..) fun _ => .pure _
  case fq6_assert_equal => exact .bind (bal_index _ _) fun _ => .bind (bal_index _ _) fun _ => .bind (bal_fq6_assert_equal ..) fun _ => .pure _
  case fq6_assign_zero => exact .bind (bal_fq6_assign_zero ..) fun _ => .pure _
  case fq6_assign_one => exact .bind (bal_fq6_assign_one ..) fun _ => .pure _
  case fq6_assign_constant => exact .bind (bal_fq6_assign_constant ..) fun _ => .pure _
  case fq6_add => exact .bind (bal_index _ _) fun _ => .bind (bal_index _ _) fun _ => .bind (bal_fq6_add ..) fun _ => .pure _
  case fq6_mul => exact .bind (bal_index _ _) fun _ => .bind (bal_index _ _) fun _ => .bind (bal_fq6_mul ..) fun _ => .pure _
  case fq6_sub => exact .bind (bal_index _ _) fun _ => .bind (bal_index _ _) fun _ => .bind (bal_fq6_sub ..) fun _ => .pure _
  case fq6_double => exact .bind (bal_index _ _) fun _ => .bind (bal_fq6_double ..) fun _ => .pure _
  case fq6_square => exact .bind (bal_index _ _) fun _ => .bind (bal_fq6_square ..) fun _ => .pure _
  case fq6_neg => exact .bind (bal_index _ _) fun _ => .bind (bal_fq6_neg ..) fun _ => .pure _
  case fq6_unsafe_invert => exact .bind (bal_index _ _) fun _ => .bind (bal_fq6_unsafe_invert ..) fun _ => .pure _
  case fq6_mul_by_nonresidue => exact .bind (bal_index _ _) fun _ => .bind (bal_fq6_mul_by_nonresidue ..) fun _ => .pure _
  case fq6_frobenius_map => exact .bind (bal_index _ _) fun _ => .bind (bal_fq6_frobenius_map ..) fun _ => .pure _
  case fq12_reduce => exact .bind (bal_index _ _) fun _ => .bind (bal_fq12_reduce ..) fun _ => .pure _
  case fq12_assert_eq => exact .bind (bal_index _ _) fun _ => .bind (bal_index _ _) fun _ => .bind (bal_fq12_assert_eq ..) fun _ => .pure _
  case fq12_assign_zero => exact .bind (bal_fq12_assign_zero ..) fun _ => .pure _
  case fq12_assign_one => exact .bind (bal_fq12_assign_one ..) fun _ => .pure _
  case fq12_assert_one => exact .bind (bal_index _ _) fun _ => .bind (bal_fq12_assert_one ..) fun _ => .pure _
  case fq12_assign_constant => exact .bind (bal_fq12_assign_constant ..) fun _ => .pure _
  case fq12_add => exact .bind (bal_index _ _) fun _ => .bind (bal_index _ _) fun _ => .bind (bal_fq12_add ..) fun _ => .pure _
  case fq12_mul => exact .bind (bal_index _ _) fun _ => .bind (bal_index _ _) fun _ => .bind (bal_fq12_mul ..) fun _ => .pure _
  case fq12_sub => exact .bind (bal_index _ _) fun _ => .bind (bal_index _ _) fun _ => .bind (bal_fq12_sub ..) fun _ => .pure _
  case fq12_double => exact .bind (bal_index _ _) fun _ => .bind (bal_fq12_double ..) fun _ => .pure _
  case fq12_square => exact .bind (bal_index _ _) fun _ => .bind (bal_fq12_square ..) fun _ => .pure _
  case fq12_neg => exact .bind (bal_index _ _) fun _ => .bind (bal_fq12_neg ..) fun _ => .pure _
  case fq12_conjugate => exact .bind (bal_index _ _) fun _ => .bind (bal_fq12_conjugate ..) fun _ => .pure _
  case fq12_unsafe_invert => exact .bind (bal_index _ _) fun _ => .bind (bal_fq12_unsafe_invert ..) fun _ => .pure _
  case fq12_frobenius_map => exact .bind (bal_index _ _) fun _ => .bind (bal_fq12_frobenius_map ..) fun _ => .pure _
  case fq6_mul_by_1 => exact .bind (bal_index _ _) fun _ => .bind (bal_index _ _) fun _ => .bind (bal_fq6_mul_by_1 ..) fun _ => .pure _
  case fq6_mul_by_01 => exact .bind (bal_index _ _) fun _ => .bind (bal_index _ _) fun _ => .bind (bal_index _ _) fun _ => .bind (bal_fq6_mul_by_01 ..) fun _ => .pure _
  case fq12_mul_by_014 => exact .bind (bal_index _ _) fun _ => .bind (bal_index _ _) fun _ => .bind (bal_index _ _) fun _ => .bind (bal_index _ _) fun _ => .bind (bal_fq12_mul_by_014 ..) fun _ => .pure _
  case fq12_mul_by_034 => exact .bind (bal_index _ _) fun _ => .bind (bal_index _ _) fun _ => .bind (bal_index _ _) fun _ => .bind (bal_index _ _) fun _ => .bind (bal_fq12_mul_by_034 ..) fun _ => .pure _
  case fq12_cyclotomic_square => exact .bind (bal_index _ _) fun _ => .bind (bal_fq12_cyclotomic_square ..) fun _ => .pure _
  case g2_neg => exact .bind (bal_index _ _) fun _ => .bind (bal_g2_neg ..) fun _ => .pure _
  case prepare_g2 => exact .bind (bal_index _ _) fun _ => .bind (bal_prepare_g2 ..) fun _ => .pure _
  case multi_miller_loop => exact .bind (bal_mapM (bal_lineTerm S) _) fun _ => .bind (bal_multi_miller_loop ..) fun _ => .pure _
  case final_exponentiation => exact .bind (bal_index _ _) fun _ => .bind (bal_final_exponentiation ..) fun _ => .pure _
  case pairing => exact .bind (bal_mapM (bal_pairTerm S) _) fun _ => .bind (bal_pairing ..) fun _ => .pure _
  case check_pairing => exact .bind (bal_mapM (bal_pairTerm S) _) fun _ => .bind (bal_check_pairing ..) fun _ => .pure _
  case keccak_hash => exact .bind (bal_mapM (bal_index _) _) fun _ => .bind (bal_keccak_hash ..) fun _ => .pure _
  case decompose_scalar_as_u256_be => exact .bind (bal_index _ _) fun _ => .bind (bal_decompose_scalar_as_u256_be ..) fun _ => .pure _
  case compose_to_scalar_be => exact .bind (bal_mapM (bal_index _) _) fun _ => .bind (bal_compose_to_scalar_be ..) fun _ => .pure _
  all_goals
    unfold runTowerCall
    bal

theorem bal_groupSelect (A : Api n) [Limbs4 A.info] {ς : Type} {ops : ScalarOps n ς} (hp : ScalarBal ops) (r1 r2 : Option (ℕ × ℕ)) (pre : Option ℕ)
    (points : List (AssignedNonZeroPoint n)) (scalars : List ς) : Bl (groupSelect A ops r1 r2 pre points scalars) := by
  cases pre with
  | none => exact .panic _
  | some pre =>
    refine .bind (.bind (bal_rassert _) fun _ => bal_msm_batch hp.decompose (bal_rassert _)
      (fun _ _ _ => bal_assign_cache_point_non_zero ..) (bal_pick_select _) _ _ _ _ _) fun r => ?_
    cases r with
    | ok p => exact .pure _
    | error e => exact .panic _

theorem bal_groupBisec (A : Api n) [Limbs4 A.info] {ς : Type} {ops : ScalarOps n ς} (hp : ScalarBal ops) (r1 r2 : Option (ℕ × ℕ))
    (points : List (AssignedNonZeroPoint n)) (scalars : List ς) : Bl (groupBisec A ops r1 r2 points scalars) := by
  refine .bind (bal_msm_batch hp.decompose (.pure _) (fun _ _ _ => .pure _) bal_pick_bisec _ _ _ _ _) fun r => ?_
  cases r with
  | ok p => exact .pure _
  | error e => exact .panic _

/-- A bare call uses at most three rows of the range chip. -/
theorem bal_runCall (A : Api n) [Limbs4 A.info] [Limbs4 A.sinfo] (w : Witness n) (S : Store n) (c : Call n) :
    Bal (if c.isBare then 3 else 0) (runCall A w S c) := by
  have i1 : ∀ a, Limbs4 (A.infoOf a) := fun a => by cases a <;> (unfold Api.infoOf; infer_instance)
  cases c
  case msm_native ps ss r1 r2 =>
    exact (Bl.bind (bal_mapM (bal_index _) _) fun _ => .bind (bal_mapM (bal_index _) _) fun _ =>
      .bind (bal_msm (nativeScalar_bal _) _ _ _ _ _ _ _) fun _ => .pure _).out
  case msm_general ps ss r1 r2 =>
    exact (Bl.bind (bal_mapM (bal_index _) _) fun _ => .bind (bal_mapM (bal_index _) _) fun _ =>
      .bind (bal_msm (generalScalar_bal _) _ _ _ _ _ _ _) fun _ => .pure _).out
  case msm_with_select_native ps ss r1 r2 =>
    exact (Bl.bind (bal_mapM (bal_index _) _) fun _ => .bind (bal_mapM (bal_index _) _) fun _ =>
      .bind (bal_groupSelect A (nativeScalar_bal _) _ _ _ _ _) fun _ => .pure _).out
  case msm_with_select_general ps ss r1 r2 =>
    exact (Bl.bind (bal_mapM (bal_index _) _) fun _ => .bind (bal_mapM (bal_index _) _) fun _ =>
      .bind (bal_groupSelect A (generalScalar_bal _) _ _ _ _ _) fun _ => .pure _).out
  case msm_without_select_native ps ss r1 r2 =>
    exact (Bl.bind (bal_mapM (bal_index _) _) fun _ => .bind (bal_mapM (bal_index _) _) fun _ =>
      .bind (bal_groupBisec A (nativeScalar_bal _) _ _ _ _) fun _ => .pure _).out
  case msm_without_select_general ps ss r1 r2 =>
    exact (Bl.bind (bal_mapM (bal_index _) _) fun _ => .bind (bal_mapM (bal_index _) _) fun _ =>
      .bind (bal_groupBisec A (generalScalar_bal _) _ _ _ _) fun _ => .pure _).out
  case sum_with_constant_in_one_line => exact (Bl.bind (bal_mapM (bal_elem S) _) fun _ => by bal).out
  case sum_with_constant => exact (Bl.bind (bal_mapM (bal_elem S) _) fun _ => by bal).out
  case mul_add_with_next_line => exact (Bl.bind (bal_mapM (bal_term S) _) fun _ => by bal).out
  case tower c => exact (bal_runTowerCall A S c).out
  case assign_common => exact (Bal.bind (Bal.assign_common _) fun _ => (Bl.pure _).out).mono (by norm_num [Call.isBare])
  case assign_nonleading_limb => exact (Bal.bind (Bal.assign_range _ _) fun _ => (Bl.pure _).out).mono (by norm_num [Call.isBare])
  case assign_w_ceil_leading_limb => exact (Bal.bind (Bal.assign_range _ _) fun _ => (Bl.pure _).out).mono (by norm_num [Call.isBare])
  case assign_d_leading_limb => exact (Bal.bind (Bal.assign_range _ _) fun _ => (Bl.pure _).out).mono (by norm_num [Call.isBare])
  all_goals
    apply Bl.out
    unfold runCall
    bal

theorem bal_runCalls (A : Api n) [Limbs4 A.info] [Limbs4 A.sinfo] (w : Witness n) (cs : List (Call n)) (S : Store n) :
    Bal (3 * cs.countP Call.isBare) (runCalls A w cs S) := by
  induction cs generalizing S with
  | nil => exact (Bl.pure _).out.mono (by simp)
  | cons c cs ih =>
    refine (Bal.bind (bal_runCall A w S c) fun _ => ih _).mono ?_
    rw [List.countP_cons]
    push_cast
    split <;> omega

/-! ## Programs over all chips -/

theorem bal_xexec (info : RangeInfo bnR) [Limbs4 info] (order : ℕ) (i : XInstr) (s : XSt) :
    Bal (if i.isBare then 1 else 0) (i.exec info order s) := by
  cases i with
  | tower i => exact (Bl.bind (bal_texec info order i _) fun _ => .pure _).out
  | native i =>
    by_cases h : ∃ x, i = .small x
    · obtain ⟨x, rfl⟩ := h
      exact (Bal.bind (Bal.bind (Bal.assign_common _) fun _ => (Bl.pure _).out) fun _ => (Bl.pure _).out).mono
        (by norm_num [XInstr.isBare])
    · refine (Bl.bind (bal_nexec i _ fun x e => h ⟨x, e⟩) fun _ => .pure _).out.mono ?_
      split <;> norm_num
  | encode i => exact (Bl.bind (bal_index _ _) fun _ => .bind (bal_ecc_encode info _) fun _ => .pure _).out
  | msm ps ss A L =>
    exact (Bl.bind (bal_getM _ _) fun _ => .bind (bal_getM _ _) fun _ =>
      .bind (bal_msm (nativeScalar_bal _) _ _ _ _ _ _ _) fun _ => .pure _).out

theorem bal_xexecAll (info : RangeInfo bnR) [Limbs4 info] (order : ℕ) (prog : List XInstr) (s : XSt) :
    Bal (prog.countP XInstr.isBare) (xexecAll info order prog s) := by
  induction prog generalizing s with
  | nil => exact (Bl.pure _).out.mono (by simp)
  | cons i is ih =>
    refine (Bal.bind (bal_xexec info order i s) fun _ => ih _).mono ?_
    rw [List.countP_cons]
    push_cast
    split <;> omega

theorem bal_gexec (info sinfo : RangeInfo bnR) [Limbs4 info] [Limbs4 sinfo] (order : ℕ) (i : GInstr) (s : GSt) :
    Bal (if i.isBare then 1 else 0) (i.exec info sinfo order s) := by
  cases i with
  | tower i => exact (Bl.bind (bal_texec info order i _) fun _ => .pure _).out
  | native i =>
    by_cases h : ∃ x, i = .small x
    · obtain ⟨x, rfl⟩ := h
      exact (Bal.bind (Bal.bind (Bal.assign_common _) fun _ => (Bl.pure _).out) fun _ => (Bl.pure _).out).mono
        (by norm_num [GInstr.isBare])
    · refine (Bl.bind (bal_nexec i _ fun x e => h ⟨x, e⟩) fun _ => .pure _).out.mono ?_
      split <;> norm_num
  | scalar i => exact (Bl.bind (bal_iexec sinfo i _) fun _ => .pure _).out
  | encode i => exact (Bl.bind (bal_index _ _) fun _ => .bind (bal_ecc_encode info _) fun _ => .pure _).out
  | msm ps ss A L =>
    exact (Bl.bind (bal_getM _ _) fun _ => .bind (bal_getM _ _) fun _ =>
      .bind (bal_msm (generalScalar_bal _) _ _ _ _ _ _ _) fun _ => .pure _).out

theorem bal_gexecAll (info sinfo : RangeInfo bnR) [Limbs4 info] [Limbs4 sinfo] (order : ℕ) (prog : List GInstr) (s : GSt) :
    Bal (prog.countP GInstr.isBare) (gexecAll info sinfo order prog s) := by
  induction prog generalizing s with
  | nil => exact (Bl.pure _).out.mono (by simp)
  | cons i is ih =>
    refine (Bal.bind (bal_gexec info sinfo order i s) fun _ => ih _).mono ?_
    rw [List.countP_cons]
    push_cast
    split <;> omega

theorem Bal.new {α : Type} {m : M n α} {c : ℕ} (h : Bal c m) {a : α} {t : Context n} (e : m (.new n) = .ok (a, t)) :
    t.range_offset ≤ 12 * t.base_offset + c := by
  obtain ⟨-, -, h⟩ := h _ _ _ e
  have h1 : (Context.new n).base_offset = 0 := rfl
  have h2 : (Context.new n).range_offset = 0 := rfl
  rw [h1, h2] at h
  omega

/-- Enough rows of the base chip. -/
theorem balanced_of {t : Context n} {e : ℕ} (h : t.range_offset ≤ 12 * t.base_offset + e) (he : e ≤ t.base_offset)
    (hb : 208 ≤ t.base_offset) (hh : t.base_offset ≤ t.records.base_height) : Balanced t := by
  refine ⟨by omega, ?_⟩
  have h1 : t.records.base_height ≤ 16 * ((t.records.base_height + 15) / 16) := by omega
  have h2 : 13 ≤ (t.records.base_height + 15) / 16 := by omega
  generalize (t.records.base_height + 15) / 16 = q at *
  calc t.range_offset ≤ 13 * (16 * q) := by omega
    _ ≤ q * (16 * q) := Nat.mul_le_mul_right _ h2
    _ = 16 * q ^ 2 := by ring

/-! ## C64 -/

/-- **C64**, the rows: whatever a client does, the range chip has at most twelve rows per row of the base chip, and three
for every bare assignment of a range checked value. -/
theorem C64_rows (A : Api n) (h1 : A.info.limbs ≤ 4) (h2 : A.sinfo.limbs ≤ 4) (w : Witness n) (calls : List (Call n))
    (pre : Option ℕ) {τ : Store n} {t : Context n} (h : runCalls A w calls (.empty n pre) (.new n) = .ok (τ, t)) :
    t.range_offset ≤ 12 * t.base_offset + 3 * calls.countP Call.isBare :=
  haveI : Limbs4 A.info := ⟨h1⟩
  haveI : Limbs4 A.sinfo := ⟨h2⟩
  Bal.new (by exact_mod_cast bal_runCalls A w calls _) h

/-- **C64**, for everything a client can do: with at least 208 rows of the base chip and not more than a third as many bare
assignments, synthesis goes through and assigns exactly what is recorded. -/
theorem C64_client (A : Api n) (h1 : A.info.limbs ≤ 4) (h2 : A.sinfo.limbs ≤ 4) (w : Witness n) (calls : List (Call n))
    (pre : Option ℕ) {τ : Store n} {t : Context n} (h : runCalls A w calls (.empty n pre) (.new n) = .ok (τ, t))
    {max_rows : ℕ} (hm : ∀ chip, t.offs.at chip ≤ max_rows) (hb : 208 ≤ t.base_offset)
    (hs : 3 * calls.countP Call.isBare ≤ t.base_offset) : ∃ L, assign_all t.records max_rows = .ok L ∧ L.Is t.records := by
  have hbal := balanced_of (C64_rows A h1 h2 w calls pre h) hs hb ((C33_rows_below_height_new A w calls pre h).2 .base)
  exact C36_client_partial A w calls pre h hbal.1 hm hbal.2

/-- **C64** with **C58**: a program over all chips for bn256 whose reference run succeeds, that uses at least 208 rows of the
base chip and does not consist of more bare assignments of 18 bit values than that, is issued without a panic, synthesized
without a loss, and the witness satisfies the synthesized circuit. -/
theorem C64_complete_bn256 {info : RangeInfo bnR} (E : Env (pairQ .bn256) info) (order : ℕ) (ho : order % 2 = 1)
    (prog : List XInstr) (pre : Option ℕ) (r : XRef × Option ℕ) (he : xevalAll prog (XRef.empty, pre) = some r) :
    ∃ s t, xexecAll info order prog (XSt.empty pre) (Context.new bnR) = .ok (s, t) ∧ HRepXSt info s r ∧
      (208 ≤ t.base_offset → prog.countP XInstr.isBare ≤ t.base_offset → ∀ max_rows,
        (∀ chip, t.offs.at chip ≤ max_rows) → Handed true t max_rows ∧
          (t.records.select_height = 0 → Handed false t max_rows)) := by
  obtain ⟨s, t, h1, h2, h3⟩ := C63_complete_bn256_partial E order ho prog pre r he
  have : Limbs4 info := ⟨by rw [(limbs_bn E).1]; norm_num⟩
  exact ⟨s, t, h1, h2, fun hb hs => h3 (balanced_of (Bal.new (bal_xexecAll info order prog _) h1) hs hb
    ((rows_of_tidy (prog2_xexecAll info order prog _).tidy h1).2 .base))⟩

/-- **C64** with **C59**, for bls12_381. -/
theorem C64_complete_bls12_381 {info sinfo : RangeInfo bnR} (E : Env (pairQ .bls12_381) info) (F : Env blsR sinfo)
    (order : ℕ) (ho : order % 2 = 1) (prog : List GInstr) (pre : Option ℕ) (r : GRef × Option ℕ)
    (he : gevalAll prog (GRef.empty, pre) = some r) :
    ∃ s t, gexecAll info sinfo order prog (GSt.empty pre) (Context.new bnR) = .ok (s, t) ∧ HRepGSt info sinfo s r ∧
      (208 ≤ t.base_offset → prog.countP GInstr.isBare ≤ t.base_offset → ∀ max_rows,
        (∀ chip, t.offs.at chip ≤ max_rows) → Handed true t max_rows ∧
          (t.records.select_height = 0 → Handed false t max_rows)) := by
  obtain ⟨s, t, h1, h2, h3⟩ := C63_complete_bls12_381_partial E F order ho prog pre r he
  have : Limbs4 info := ⟨by rw [(limbs_bls E).1]⟩
  have : Limbs4 sinfo := ⟨by rw [limbs_blsR F]; norm_num⟩
  exact ⟨s, t, h1, h2, fun hb hs => h3 (balanced_of (Bal.new (bal_gexecAll info sinfo order prog _) h1) hs hb
    ((rows_of_tidy (prog2_gexecAll info sinfo order prog _).tidy h1).2 .base))⟩

/-! ### A case -/

theorem xexecAll_append (info : RangeInfo bnR) (order : ℕ) (p q : List XInstr) (s : XSt) :
    xexecAll info order (p ++ q) s = xexecAll info order p s >>= xexecAll info order q := by
  induction p generalizing s with
  | nil => exact (pure_bind _ _).symm
  | cons i p ih =>
    show i.exec info order s >>= _ = (i.exec info order s >>= _) >>= _
    rw [bind_assoc]
    exact congrArg _ (funext fun s => ih s)

theorem xevalAll_append {p : List XInstr} {r r' : XRef × Option ℕ} (h : xevalAll p r = some r') (q : List XInstr) :
    xevalAll (p ++ q) r = xevalAll q r' := by
  induction p generalizing r with
  | nil => cases h; rfl
  | cons i p ih =>
    rw [xevalAll] at h
    rw [List.cons_append, xevalAll]
    cases e : i.eval r with
    | none => rw [e] at h; cases h
    | some r => rw [e] at h; exact ih h

theorem base_of_assign {x : ZMod n} {t u : Context n} {a : AssignedValue n} (h : assign x t = .ok (a, u)) :
    u.base_offset = t.base_offset + 1 := by
  obtain ⟨b, v, e, e'⟩ := run_bind_ok.1 h
  have h1 : v.base_offset = t.base_offset + 1 := by
    unfold one_line_add one_line at e
    split at e
    · cases e
    · cases e; rfl
  unfold index at e'
  cases hb : b[0]? with
  | none => rw [hb] at e'; cases e'
  | some y => rw [hb] at e'; cases e'; exact h1

theorem base_of_assigns (info : RangeInfo bnR) (order : ℕ) (x : ZMod bnR) (k : ℕ) : ∀ (s s' : XSt) (t t' : Context bnR),
    xexecAll info order (List.replicate k (.native (.assign x))) s t = .ok (s', t') → t'.base_offset = t.base_offset + k := by
  induction k with
  | zero => intro s s' t t' h; cases h; rfl
  | succ k ih =>
    intro s s' t t' h
    rw [List.replicate_succ] at h
    obtain ⟨a, u, e1, e2⟩ := run_bind_ok.1 h
    rw [ih _ _ _ _ e2]
    obtain ⟨b, u', e3, e4⟩ := run_bind_ok.1 e1
    obtain ⟨b', u'', e5, e6⟩ := run_bind_ok.1 e3
    have := base_of_assign e5
    cases e6
    cases e4
    omega

theorem xeval_assigns (x : ZMod bnR) (k : ℕ) : ∀ r : XRef × Option ℕ,
    ∃ r', xevalAll (List.replicate k (.native (.assign x))) r = some r' := by
  induction k with
  | zero => exact fun r => ⟨r, rfl⟩
  | succ k ih => exact fun r => ih _

theorem bare_fullProg (G A L : BnPt) (k : ℕ) :
    (fullProg G A L ++ List.replicate k (XInstr.native (.assign 5))).countP XInstr.isBare = 0 := by
  rw [List.countP_eq_zero]
  intro i hi
  rcases List.mem_append.1 hi with h | h
  · simp only [fullProg, List.mem_cons, List.not_mem_nil, _root_.or_false] at h
    rcases h with rfl | rfl | rfl | rfl | rfl | rfl | rfl | rfl | rfl | rfl | rfl | rfl <;> exact Bool.false_ne_true
  · rw [List.eq_of_mem_replicate h]
    exact Bool.false_ne_true

/-- Not vacuous: the program of `C58_case`, with a multi-scalar multiplication by way of the select chip or without, and
some more values. -/
theorem C64_case (pre : Option ℕ) (hpre : ∀ p, pre = some p → p < 2 ^ 28) (k : ℕ) (hk : 208 ≤ k) :
    ∃ (info : RangeInfo bnR) (G A L : BnPt) (s : XSt) (t : Context bnR), Env (pairQ .bn256) info ∧ HasCoords G 1 2 ∧
      xexecAll info bnR (fullProg G A L ++ List.replicate k (.native (.assign 5))) (XSt.empty pre) (Context.new bnR) =
        .ok (s, t) ∧
      ∀ max_rows, (∀ chip, t.offs.at chip ≤ max_rows) → Handed true t max_rows := by
  obtain ⟨info, G, A, L, r, E, hG, he, -, -⟩ := C58_case pre hpre
  obtain ⟨r', he'⟩ := xeval_assigns 5 k r
  obtain ⟨s, t, h1, h2, h3⟩ := C64_complete_bn256 E bnR (by decide +kernel)
    (fullProg G A L ++ List.replicate k (.native (.assign 5))) pre r' ((xevalAll_append he _).trans he')
  have hb : k ≤ t.base_offset := by
    have := h1
    rw [xexecAll_append] at this
    obtain ⟨a, u, e1, e2⟩ := run_bind_ok.1 this
    rw [base_of_assigns _ _ _ _ _ _ _ _ e2]
    exact Nat.le_add_left _ _
  exact ⟨info, G, A, L, s, t, E, hG, h1, fun mr hm => (h3 (hk.trans hb) ((bare_fullProg G A L k).le.trans (Nat.zero_le _))
    mr hm).1⟩

end Verif
