import Verif.Proof.NoSelectMsm
import Verif.Proof.Marks
import Verif.Props.Balance
import Verif.Spec.NoSelect

/-!
# Which calls use rows of the select chip
-/

namespace Verif
variable {n : ℕ}

/-! ## Programs -/

section
variable {crv : PairingCurve}

theorem nsel_getM {A : Type} (l : List A) (is : List ℕ) : Ns (getM l is : M n (List A)) := by
  induction is with
  | nil => exact .pure _
  | cons i is ih => exact .bind (nsel_index _ _) fun _ => .bind ih fun _ => .pure _

theorem nsel_elemsM (l : List (AssignedValue n)) (es : List (ℕ × ZMod n)) : Ns (elemsM l es) := by
  induction es with
  | nil => exact .pure _
  | cons i is ih => exact .bind (nsel_index _ _) fun _ => .bind ih fun _ => .pure _

theorem nsel_termsM (l : List (AssignedValue n)) (ts : List (ℕ × ℕ × ℕ × ZMod n)) : Ns (termsM l ts) := by
  induction ts with
  | nil => exact .pure _
  | cons i is ih =>
    exact .bind (nsel_index _ _) fun _ => .bind (nsel_index _ _) fun _ => .bind (nsel_index _ _) fun _ =>
      .bind ih fun _ => .pure _

theorem nsel_nexec (i : NInstr n) (s : NSt n) : Ns (i.exec s) := by
  cases i
  all_goals unfold NInstr.exec; nsel

theorem nsel_fetchM (regs : (l : Lv) → List (l.T n)) : ∀ (ls : List Lv) (a : Args ls), Ns (fetchM regs ls a)
  | [], _ => .pure _
  | _ :: ls, a => .bind (nsel_index _ _) fun _ => .bind (nsel_fetchM regs ls a.2) fun _ => .pure _

theorem nsel_inputsM (pts : List (AssignedPoint n)) (g2s : List (AssignedG2Affine n)) (ts : List (ℕ × ℕ)) :
    Ns (inputsM pts g2s ts) := by
  induction ts with
  | nil => exact .pure _
  | cons i is ih => exact .bind (nsel_index _ _) fun _ => .bind (nsel_index _ _) fun _ => .bind ih fun _ => .pure _

theorem nsel_top (info : RangeInfo n) {ls : List Lv} {l : Lv} (o : TOp crv ls l) (a : Tup (Lv.T n) ls) :
    Ns (o.run info a) := by
  cases o
  all_goals
    simp only [TOp.run]
    first
      | nsel; done
      | cases l <;> simp only [Lv.zero, Lv.one, Lv.const, Lv.neg, Lv.double, Lv.square, Lv.reduce, Lv.inv, Lv.add, Lv.sub, Lv.mul,
          Lv.frob] <;> nsel

theorem nsel_iexec (info : RangeInfo n) {wm : ℕ} (i : Instr wm) (s : St n) : Ns (i.exec info s) := by
  cases i <;> unfold Instr.exec <;> nsel

theorem nsel_pexec (info : RangeInfo n) (order : ℕ) {wm : ℕ} {b : ZMod wm} (i : PInstr b) (s : PSt n) :
    Ns (i.exec info order s) := by
  cases i
  case int i => exact .bind (nsel_iexec info i _) fun _ => .pure _
  all_goals unfold PInstr.exec; nsel

theorem nsel_texec (info : RangeInfo n) (order : ℕ) (i : TInstr crv) (s : TSt n) :
    Ns (i.exec info order s) := by
  cases i
  case pt i => exact .bind (nsel_pexec info order i _) fun _ => .pure _
  case op o args => exact .bind (nsel_fetchM _ _ _) fun _ => .bind (nsel_top _ _ _) fun _ => .pure _
  case assertEq l i j =>
    refine .bind (nsel_index _ _) fun _ => .bind (nsel_index _ _) fun _ => .bind ?_ fun _ => .pure _
    cases l <;> simp only [Lv.assertEq] <;> nsel
  all_goals unfold TInstr.exec; nsel


end

/-! ## API calls -/

theorem nsel_elem (S : Store n) (e : ℕ × ZMod n) : Ns (S.elem e) := by unfold Store.elem; nsel

theorem nsel_term (S : Store n) (e : ℕ × ℕ × ℕ × ZMod n) : Ns (S.term e) := by unfold Store.term; nsel

theorem nsel_pairTerm (S : Store n) (e : ℕ × ℕ) : Ns (S.pairTerm e) := by unfold Store.pairTerm; nsel

theorem nsel_lineTerm (S : Store n) (e : ℕ × ℕ) : Ns (S.lineTerm e) := by unfold Store.lineTerm; nsel

theorem nsel_runTowerCall (A : Api n) (S : Store n) (c : TowerCall) : Ns (runTowerCall A S c) := by
  cases c
  case fq2_reduce => exact .bind (nsel_index _ _) fun _ => .bind (nsel_fq2_reduce ..) fun _ => .pure _
  case fq2_assert_equal => exact .bind (nsel_index _ _) fun _ => .bind (nsel_index _ _) fun _ => .bind (nsel_fq2_assert_equal ..) fun _ => .pure _
  case fq2_assign_zero => exact .bind (nsel_fq2_assign_zero ..) fun _ => .pure _
  case fq2_assign_one => exact .bind (nsel_fq2_assign_one ..) fun _ => .pure _
  case fq2_assign_constant => exact .bind (nsel_fq2_assign_constant ..) fun _ => .pure _
  case fq2_add => exact .bind (nsel_index _ _) fun _ => .bind (nsel_index _ _) fun _ => .bind (nsel_fq2_add ..) fun _ => .pure _
  case fq2_mul => exact .bind (nsel_index _ _) fun _ => .bind (nsel_index _ _) fun _ => .bind (nsel_fq2_mul ..) fun _ => .pure _
  case fq2_sub => exact .bind (nsel_index _ _) fun _ => .bind (nsel_index _ _) fun _ => .bind (nsel_fq2_sub ..) fun _ => .pure _
  case fq2_double => exact .bind (nsel_index _ _) fun _ => .bind (nsel_fq2_double ..) fun _ => .pure _
  case fq2_square => exact .bind (nsel_index _ _) fun _ => .bind (nsel_fq2_square ..) fun _ => .pure _
  case fq2_neg => exact .bind (nsel_index _ _) fun _ => .bind (nsel_fq2_neg ..) fun _ => .pure _
  case fq2_conjugate => exact .bind (nsel_index _ _) fun _ => .bind (nsel_fq2_conjugate ..) fun _ => .pure _
  case fq2_unsafe_invert => exact .bind (nsel_index _ _) fun _ => .bind (nsel_fq2_unsafe_invert ..) fun _ => .pure _
  case fq2_mul_by_nonresidue => exact .bind (nsel_index _ _) fun _ => .bind (nsel_fq2_mul_by_nonresidue ..) fun _ => .pure _
  case fq2_frobenius_map => exact .bind (nsel_index _ _) fun _ => .bind (nsel_fq2_frobenius_map ..) fun _ => .pure _
  case fq6_reduce => exact .bind (nsel_index _ _) fun _ => .bind (nsel_fq6_reduce ..) fun _ => .pure _
  case fq6_assert_equal => exact .bind (nsel_index _ _) fun _ => .bind (nsel_index _ _) fun _ => .bind (nsel_fq6_assert_equal ..) fun _ => .pure _
  case fq6_assign_zero => exact .bind (nsel_fq6_assign_zero ..) fun _ => .pure _
  case fq6_assign_one => exact .bind (nsel_fq6_assign_one ..) fun _ => .pure _
  case fq6_assign_constant => exact .bind (nsel_fq6_assign_constant ..) fun _ => .pure _
  case fq6_add => exact .bind (nsel_index _ _) fun _ => .bind (nsel_index _ _) fun _ => .bind (nsel_fq6_add ..) fun _ => .pure _
  case fq6_mul => exact .bind (nsel_index _ _) fun _ => .bind (nsel_index _ _) fun _ => .bind (nsel_fq6_mul ..) fun _ => .pure _
  case fq6_sub => exact .bind (nsel_index _ _) fun _ => .bind (nsel_index _ _) fun _ => .bind (nsel_fq6_sub ..) fun _ => .pure _
  case fq6_double => exact .bind (nsel_index _ _) fun _ => .bind (nsel_fq6_double ..) fun _ => .pure _
  case fq6_square => exact .bind (nsel_index _ _) fun _ => .bind (nsel_fq6_square ..) fun _ => .pure _
  case fq6_neg => exact .bind (nsel_index _ _) fun _ => .bind (nsel_fq6_neg ..) fun _ => .pure _
  case fq6_unsafe_invert => exact .bind (nsel_index _ _) fun _ => .bind (nsel_fq6_unsafe_invert ..) fun _ => .pure _
  case fq6_mul_by_nonresidue => exact .bind (nsel_index _ _) fun _ => .bind (nsel_fq6_mul_by_nonresidue ..) fun _ => .pure _
  case fq6_frobenius_map => exact .bind (nsel_index _ _) fun _ => .bind (nsel_fq6_frobenius_map ..) fun _ => .pure _
  case fq12_reduce => exact .bind (nsel_index _ _) fun _ => .bind (nsel_fq12_reduce ..) fun _ => .pure _
  case fq12_assert_eq => exact .bind (nsel_index _ _) fun _ => .bind (nsel_index _ _) fun _ => .bind (nsel_fq12_assert_eq ..) fun _ => .pure _
  case fq12_assign_zero => exact .bind (nsel_fq12_assign_zero ..) fun _ => .pure _
  case fq12_assign_one => exact .bind (nsel_fq12_assign_one ..) fun _ => .pure _
  case fq12_assert_one => exact .bind (nsel_index _ _) fun _ => .bind (nsel_fq12_assert_one ..) fun _ => .pure _
  case fq12_assign_constant => exact .bind (nsel_fq12_assign_constant ..) fun _ => .pure _
  case fq12_add => exact .bind (nsel_index _ _) fun _ => .bind (nsel_index _ _) fun _ => .bind (nsel_fq12_add ..) fun _ => .pure _
  case fq12_mul => exact .bind (nsel_index _ _) fun _ => .bind (nsel_index _ _) fun _ => .bind (nsel_fq12_mul ..) fun _ => .pure _
  case fq12_sub => exact .bind (nsel_index _ _) fun _ => .bind (nsel_index _ _) fun _ => .bind (nsel_fq12_sub ..) fun _ => .pure _
  case fq12_double => exact .bind (nsel_index _ _) fun _ => .bind (nsel_fq12_double ..) fun _ => .pure _
  case fq12_square => exact .bind (nsel_index _ _) fun _ => .bind (nsel_fq12_square ..) fun _ => .pure _
  case fq12_neg => exact .bind (nsel_index _ _) fun _ => .bind (nsel_fq12_neg ..) fun _ => .pure _
  case fq12_conjugate => exact .bind (nsel_index _ _) fun _ => .bind (nsel_fq12_conjugate ..) fun _ => .pure _
  case fq12_unsafe_invert => exact .bind (nsel_index _ _) fun _ => .bind (nsel_fq12_unsafe_invert ..) fun _ => .pure _
  case fq12_frobenius_map => exact .bind (nsel_index _ _) fun _ => .bind (nsel_fq12_frobenius_map ..) fun _ => .pure _
  case fq6_mul_by_1 => exact .bind (nsel_index _ _) fun _ => .bind (nsel_index _ _) fun _ => .bind (nsel_fq6_mul_by_1 ..) fun _ => .pure _
  case fq6_mul_by_01 => exact .bind (nsel_index _ _) fun _ => .bind (nsel_index _ _) fun _ => .bind (nsel_index _ _) fun _ => .bind (nsel_fq6_mul_by_01 ..) fun _ => .pure _
  case fq12_mul_by_014 => exact .bind (nsel_index _ _) fun _ => .bind (nsel_index _ _) fun _ => .bind (nsel_index _ _) fun _ => .bind (nsel_index _ _) fun _ => .bind (nsel_fq12_mul_by_014 ..) fun _ => .pure _
  case fq12_mul_by_034 => exact .bind (nsel_index _ _) fun _ => .bind (nsel_index _ _) fun _ => .bind (nsel_index _ _) fun _ => .bind (nsel_index _ _) fun _ => .bind (nsel_fq12_mul_by_034 ..) fun _ => .pure _
  case fq12_cyclotomic_square => exact .bind (nsel_index _ _) fun _ => .bind (nsel_fq12_cyclotomic_square ..) fun _ => .pure _
  case g2_neg => exact .bind (nsel_index _ _) fun _ => .bind (nsel_g2_neg ..) fun _ => .pure _
  case prepare_g2 => exact .bind (nsel_index _ _) fun _ => .bind (nsel_prepare_g2 ..) fun _ => .pure _
  case multi_miller_loop => exact .bind (nsel_mapM (nsel_lineTerm S) _) fun _ => .bind (nsel_multi_miller_loop ..) fun _ => .pure _
  case final_exponentiation => exact .bind (nsel_index _ _) fun _ => .bind (nsel_final_exponentiation ..) fun _ => .pure _
  case pairing => exact .bind (nsel_mapM (nsel_pairTerm S) _) fun _ => .bind (nsel_pairing ..) fun _ => .pure _
  case check_pairing => exact .bind (nsel_mapM (nsel_pairTerm S) _) fun _ => .bind (nsel_check_pairing ..) fun _ => .pure _
  case keccak_hash => exact .bind (nsel_mapM (nsel_index _) _) fun _ => .bind (nsel_keccak_hash ..) fun _ => .pure _
  case decompose_scalar_as_u256_be => exact .bind (nsel_index _ _) fun _ => .bind (nsel_decompose_scalar_as_u256_be ..) fun _ => .pure _
  case compose_to_scalar_be => exact .bind (nsel_mapM (nsel_index _) _) fun _ => .bind (nsel_compose_to_scalar_be ..) fun _ => .pure _
  all_goals
    unfold runTowerCall
    nsel


theorem nsel_groupBisec (A : Api n) {ς : Type} {ops : ScalarOps n ς} (hp : ScalarNs ops) (r1 r2 : Option (ℕ × ℕ))
    (points : List (AssignedNonZeroPoint n)) (scalars : List ς) : Ns (groupBisec A ops r1 r2 points scalars) := by
  refine .bind (nsel_msm_batch hp.decompose (.pure _) (fun _ _ _ => .pure _) nsel_pick_bisec _ _ _ _ _) fun r => ?_
  cases r with
  | ok p => exact .pure _
  | error e => exact .panic _

theorem nsel_runCall (A : Api n) (w : Witness n) (S : Store n) (c : Call n) (hc : c.UsesSelect S.msm_prefix.isSome = false) :
    Ns (runCall A w S c) := by
  cases c
  case msm_native ps ss r1 r2 =>
    have hn : S.msm_prefix = none := by simpa [Call.UsesSelect] using hc
    refine .bind (nsel_mapM (nsel_index _) _) fun _ => .bind (nsel_mapM (nsel_index _) _) fun _ => .bind ?_ fun _ => .pure _
    rw [hn]
    exact nsel_msm (nativeScalar_ns _) _ _ _ _ _ _
  case msm_general ps ss r1 r2 =>
    have hn : S.msm_prefix = none := by simpa [Call.UsesSelect] using hc
    refine .bind (nsel_mapM (nsel_index _) _) fun _ => .bind (nsel_mapM (nsel_index _) _) fun _ => .bind ?_ fun _ => .pure _
    rw [hn]
    exact nsel_msm (generalScalar_ns _) _ _ _ _ _ _
  case msm_without_select_native ps ss r1 r2 =>
    exact .bind (nsel_mapM (nsel_index _) _) fun _ => .bind (nsel_mapM (nsel_index _) _) fun _ =>
      .bind (nsel_groupBisec A (nativeScalar_ns _) _ _ _ _) fun _ => .pure _
  case msm_with_select_native => cases hc
  case msm_without_select_general ps ss r1 r2 =>
    exact .bind (nsel_mapM (nsel_index _) _) fun _ => .bind (nsel_mapM (nsel_index _) _) fun _ =>
      .bind (nsel_groupBisec A (generalScalar_ns _) _ _ _ _) fun _ => .pure _
  case msm_with_select_general => cases hc
  case sum_with_constant_in_one_line => exact .bind (nsel_mapM (nsel_elem S) _) fun _ => by nsel
  case sum_with_constant => exact .bind (nsel_mapM (nsel_elem S) _) fun _ => by nsel
  case mul_add_with_next_line => exact .bind (nsel_mapM (nsel_term S) _) fun _ => by nsel
  case tower c => exact nsel_runTowerCall A S c
  case assign_cache_value => cases hc
  case assign_selected_value => cases hc
  case assign_cache_integer => cases hc
  case assign_selected_integer => cases hc
  case assign_cache_point => cases hc
  case assign_selected_point => cases hc
  case assign_cache_point_non_zero => cases hc
  case assign_selected_point_non_zero => cases hc
  all_goals
    unfold runCall
    nsel

/-! ## Calls that do use the select chip -/

/-- `m` uses at least one row of the select chip. -/
def Adv {α : Type} (m : M n α) : Prop := ∀ s a t, s.Fresh → m s = .ok (a, t) → s.select_offset < t.select_offset

theorem Marks.adv {α : Type} {k : ZMod n} {m : M n α} (h : Marks k m) : Adv m := fun s a t hs e => by
  obtain ⟨r, h1, h2, -⟩ := h s a t hs e
  omega

theorem Adv.then {α β : Type} {m : M n α} {f : α → M n β} (hm : Adv m) (hg : Growing m) (hf : ∀ a, Growing (f a)) :
    Adv (m >>= f) := by
  intro s b t hs e
  obtain ⟨a, u, h1, h2⟩ := run_bind_ok.1 e
  exact lt_of_lt_of_le (hm _ _ _ hs h1) (hf a _ _ _ (hg _ _ _ hs h1).1 h2).2.selOff

theorem Adv.after {α β : Type} {m : M n α} {f : α → M n β} (hg : Growing m) (hf : ∀ a, Adv (f a)) : Adv (m >>= f) := by
  intro s b t hs e
  obtain ⟨a, u, h1, h2⟩ := run_bind_ok.1 e
  obtain ⟨fu, g⟩ := hg _ _ _ hs h1
  exact lt_of_le_of_lt g.selOff (hf a _ _ _ fu h2)

theorem adv_assign_selected_value (v : AssignedValue n) (offset g : ℕ) (sel : AssignedValue n) :
    Adv (assign_selected_value v offset g sel) := fun s a t _ e => by
  cases e
  exact Nat.lt_succ_self _

theorem adv_assign_selected_integer (info : RangeInfo n) (p : AssignedInteger n) (sc : AssignedValue n) (g offset : ℕ) :
    Adv (assign_selected_integer info p sc g offset) := by
  unfold assign_selected_integer
  refine .after (by prog : Prog _).growing fun _ =>
    .then (adv_assign_selected_value _ _ _ _) (by prog : Prog _).growing fun _ => Growing.pure _

theorem adv_runCall (A : Api n) (w : Witness n) (S : Store n) (c : Call n) (hc : c.UsesSelect S.msm_prefix.isSome = true) :
    Adv (runCall A w S c) := by
  by_cases hm : c.IsMsm = true
  · cases hp : S.msm_prefix with
    | none =>
      rw [hp] at hc
      cases c
      case msm_with_select_native =>
        unfold runCall
        rw [hp]
        exact .after (prog_mapM (prog_index _) _).growing fun _ => .after (prog_mapM (prog_index _) _).growing fun _ =>
          fun s a t _ e => nomatch e
      case msm_with_select_general =>
        unfold runCall
        rw [hp]
        exact .after (prog_mapM (prog_index _) _).growing fun _ => .after (prog_mapM (prog_index _) _).growing fun _ =>
          fun s a t _ e => nomatch e
      all_goals first | (cases hm; done) | cases hc
    | some p => exact (marks_runCall A w S c hm hp).adv
  · cases c
    case msm_native => exact absurd rfl hm
    case msm_general => exact absurd rfl hm
    case msm_with_select_native => exact absurd rfl hm
    case msm_with_select_general => exact absurd rfl hm
    case assign_cache_value =>
      exact .after (prog_index _ _).growing fun _ => .then (marks_cache_value _ _ _ _).adv
        (Built.assign_cache_value (cc := True) trivial _ _ _ _).growing fun _ => Growing.pure _
    case assign_selected_value =>
      exact .after (prog_index _ _).growing fun _ => .after (prog_index _ _).growing fun _ =>
        .then (adv_assign_selected_value _ _ _ _) (by prog : Prog _).growing fun _ => Growing.pure _
    case assign_cache_integer =>
      exact .after (prog_rassert _).growing fun _ => .after (prog_index _ _).growing fun _ =>
        .then (marks_cache_integer _ _ _ _ _).adv (prog_assign_cache_integer trivial .. : Prog _).growing fun _ => Growing.pure _
    case assign_selected_integer =>
      exact .after (prog_rassert _).growing fun _ => .after (prog_index _ _).growing fun _ =>
        .after (prog_index _ _).growing fun _ => .then (adv_assign_selected_integer _ _ _ _ _) (by prog : Prog _).growing
          fun _ => Growing.pure _
    case assign_cache_point =>
      refine .after (prog_rassert _).growing fun _ => .after (prog_index _ _).growing fun _ => .then ?_
        (prog_assign_cache_point trivial .. : Prog _).growing fun _ => Growing.pure _
      unfold assign_cache_point
      exact .then (marks_cache_integer _ _ _ _ _).adv (prog_assign_cache_integer trivial .. : Prog _).growing
        fun _ => (by prog : Prog _).growing
    case assign_selected_point =>
      refine .after (prog_rassert _).growing fun _ => .after (prog_index _ _).growing fun _ =>
        .after (prog_index _ _).growing fun _ => .then ?_ (by prog : Prog _).growing fun _ => Growing.pure _
      unfold assign_selected_point
      exact .then (adv_assign_selected_integer _ _ _ _ _) (by prog : Prog _).growing
        fun _ => (by prog : Prog _).growing
    case assign_cache_point_non_zero =>
      exact .after (prog_rassert _).growing fun _ => .after (prog_index _ _).growing fun _ =>
        .then (marks_cache_point_non_zero _ _ _ _).adv
          (prog_assign_cache_point_non_zero trivial .. : Prog _).growing fun _ => Growing.pure _
    case assign_selected_point_non_zero =>
      refine .after (prog_rassert _).growing fun _ => .after (prog_index _ _).growing fun _ =>
        .after (prog_index _ _).growing fun _ => .then ?_ (by prog : Prog _).growing fun _ => Growing.pure _
      unfold assign_selected_point_non_zero
      exact .then (adv_assign_selected_integer _ _ _ _ _) (by prog : Prog _).growing
        fun _ => (by prog : Prog _).growing
    all_goals cases hc

theorem prefix_isSome {A : Api n} {w : Witness n} {S S' : Store n} {c : Call n} {s t : Context n}
    (e : runCall A w S c s = .ok (S', t)) : S'.msm_prefix.isSome = S.msm_prefix.isSome := by
  rw [returns_runCall A w S c _ _ _ e]
  split
  · cases S.msm_prefix <;> rfl
  · rfl

/-- A run of calls uses rows of the select chip if and only if one of the calls does. -/
theorem select_runCalls (A : Api n) (w : Witness n) : ∀ (cs : List (Call n)) (S S' : Store n) (s t : Context n), s.Fresh →
    runCalls A w cs S s = .ok (S', t) →
    (t.select_offset = s.select_offset ↔ ∀ c ∈ cs, c.UsesSelect S.msm_prefix.isSome = false) := by
  intro cs
  induction cs with
  | nil =>
    intro S S' s t _ e
    cases e
    exact ⟨fun _ c hc => absurd hc List.not_mem_nil, fun _ => rfl⟩
  | cons c cs ih =>
    intro S S' s t hs e
    obtain ⟨S1, u, e1, e2⟩ := run_bind_ok.1 e
    obtain ⟨fu, g⟩ := (prog2_runCall A w S c).tidy.1 _ _ _ hs e1
    have h1 := ih S1 S' u t fu e2
    rw [prefix_isSome e1] at h1
    have g2 := ((prog2_runCalls A w cs S1).tidy.1 _ _ _ fu e2).2.selOff
    have g1 := g.selOff
    rw [List.forall_mem_cons]
    cases hc : c.UsesSelect S.msm_prefix.isSome with
    | true =>
      have := adv_runCall A w S c hc _ _ _ hs e1
      constructor
      · intro h; omega
      · intro h; cases h.1
    | false =>
      rw [(nsel_runCall A w S c hc).out _ _ _ e1] at h1
      rw [h1]
      exact ⟨fun h => ⟨rfl, h⟩, fun h => h.2⟩

end Verif
