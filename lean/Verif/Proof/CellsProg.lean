import Verif.Proof.CellsApi
import Verif.Spec.FullProg
import Verif.Spec.GeneralProg

/-!
# Every program hands out cells with values
-/

namespace Verif
variable {n : ℕ} {r : RecordsInner n}

instance : HasCells n (St n) := ⟨fun s => cells s.ints ++ cells s.conds⟩
instance : HasCells n (NSt n) := ⟨fun s => cells s.vals ++ cells s.conds⟩
instance : HasCells n (PSt n) := ⟨fun s => cells s.base ++ cells s.pts ++ (cells s.crvs ++ cells s.affs)⟩
instance hasCellsLv : (l : Lv) → HasCells n (l.T n)
  | .f2 => inferInstanceAs (HasCells n (AssignedFq2 n))
  | .f6 => inferInstanceAs (HasCells n (AssignedFq6 n))
  | .f12 => inferInstanceAs (HasCells n (AssignedFq12 n))
instance : HasCells n (TSt n) := ⟨fun s => cells s.base ++ cells s.g2s ++ (cells (s.regs .f2) ++ (cells (s.regs .f6) ++ cells (s.regs .f12)))⟩

theorem in_stI {s : St n} (h : In r s) : In r s.ints := (in_append_cells.1 h).1
theorem in_stC {s : St n} (h : In r s) : In r s.conds := (in_append_cells.1 h).2
theorem in_st {s : St n} (h1 : In r s.ints) (h2 : In r s.conds) : In r s := in_append_cells.2 ⟨h1, h2⟩
theorem in_stPushI {s : St n} {a : AssignedInteger n} (h : In r s) (ha : In r a) : In r (s.pushI a) :=
  in_st (in_append (in_stI h :) (in_cons ha in_nil)) (in_stC h :)
theorem in_stPushC {s : St n} {a : AssignedCondition n} (h : In r s) (ha : In r a) : In r (s.pushC a) :=
  in_st (in_stI h :) (in_append (in_stC h :) (in_cons ha in_nil))

theorem in_nstV {s : NSt n} (h : In r s) : In r s.vals := (in_append_cells.1 h).1
theorem in_nstC {s : NSt n} (h : In r s) : In r s.conds := (in_append_cells.1 h).2
theorem in_nst {s : NSt n} (h1 : In r s.vals) (h2 : In r s.conds) : In r s := in_append_cells.2 ⟨h1, h2⟩
theorem in_nstPushV {s : NSt n} {a : AssignedValue n} (h : In r s) (ha : In r a) : In r (s.pushV a) :=
  in_nst (in_append (in_nstV h :) (in_cons ha in_nil)) (in_nstC h :)
theorem in_nstPushC {s : NSt n} {a : AssignedCondition n} (h : In r s) (ha : In r a) : In r (s.pushC a) :=
  in_nst (in_nstV h :) (in_append (in_nstC h :) (in_cons ha in_nil))

theorem in_pst_iff {s : PSt n} : In r s ↔ In r s.base ∧ In r s.pts ∧ In r s.crvs ∧ In r s.affs := by
  show (∀ c ∈ (cells s.base ++ cells s.pts) ++ (cells s.crvs ++ cells s.affs), CellIn r c) ↔ _
  simp only [in_append_cells, and_assoc]
  rfl
theorem in_pstB {s : PSt n} (h : In r s) : In r s.base := (in_pst_iff.1 h).1
theorem in_pstP {s : PSt n} (h : In r s) : In r s.pts := (in_pst_iff.1 h).2.1
theorem in_pstK {s : PSt n} (h : In r s) : In r s.crvs := (in_pst_iff.1 h).2.2.1
theorem in_pstA {s : PSt n} (h : In r s) : In r s.affs := (in_pst_iff.1 h).2.2.2
theorem in_pstPushP {s : PSt n} {a : AssignedPoint n} (h : In r s) (ha : In r a) : In r (s.pushP a) :=
  in_pst_iff.2 ⟨(in_pstB h :), in_append (in_pstP h :) (in_cons ha in_nil), (in_pstK h :), (in_pstA h :)⟩
theorem in_pstPushK {s : PSt n} {a : AssignedPointWithCurvature n} (h : In r s) (ha : In r a) : In r (s.pushK a) :=
  in_pst_iff.2 ⟨(in_pstB h :), (in_pstP h :), in_append (in_pstK h :) (in_cons ha in_nil), (in_pstA h :)⟩
theorem in_pstPushA {s : PSt n} {a : AssignedNonZeroPoint n} (h : In r s) (ha : In r a) : In r (s.pushA a) :=
  in_pst_iff.2 ⟨(in_pstB h :), (in_pstP h :), (in_pstK h :), in_append (in_pstA h :) (in_cons ha in_nil)⟩
theorem in_pstPushC {s : PSt n} {a : AssignedCondition n} (h : In r s) (ha : In r a) : In r (s.pushC a) :=
  in_pst_iff.2 ⟨in_stPushC (in_pstB h :) ha, (in_pstP h :), (in_pstK h :), (in_pstA h :)⟩
theorem in_pstPushXY {s : PSt n} {x y : AssignedInteger n} (h : In r s) (hx : In r x) (hy : In r y) : In r (s.pushXY x y) :=
  in_pst_iff.2 ⟨in_stPushI (in_stPushI (in_pstB h :) hx) hy, (in_pstP h :), (in_pstK h :), (in_pstA h :)⟩
theorem in_pstBase {s : PSt n} (h : In r s) {b : St n} (hb : In r b) : In r { s with base := b } :=
  in_pst_iff.2 ⟨hb, (in_pstP h :), (in_pstK h :), (in_pstA h :)⟩

theorem in_tst_iff {s : TSt n} : In r s ↔ In r s.base ∧ In r s.g2s ∧ ∀ l : Lv, In r (s.regs l) := by
  show (∀ c ∈ (cells s.base ++ cells s.g2s) ++ (cells (s.regs .f2) ++ (cells (s.regs .f6) ++ cells (s.regs .f12))), CellIn r c) ↔ _
  simp only [in_append_cells, and_assoc]
  constructor
  · rintro ⟨h1, h2, h3, h4, h5⟩
    refine ⟨h1, h2, fun l => ?_⟩
    cases l
    exacts [h3, h4, h5]
  · rintro ⟨h1, h2, h3⟩
    exact ⟨h1, h2, h3 .f2, h3 .f6, h3 .f12⟩
theorem in_tstB {s : TSt n} (h : In r s) : In r s.base := (in_tst_iff.1 h).1
theorem in_tstG {s : TSt n} (h : In r s) : In r s.g2s := (in_tst_iff.1 h).2.1
theorem in_tstR {s : TSt n} (h : In r s) (l : Lv) : In r (s.regs l) := (in_tst_iff.1 h).2.2 l
theorem in_tst2 {s : TSt n} (h : In r s) : In (α := List (AssignedFq2 n)) r (s.regs .f2) := in_tstR h .f2
theorem in_tst12 {s : TSt n} (h : In r s) : In (α := List (AssignedFq12 n)) r (s.regs .f12) := in_tstR h .f12
theorem in_tstBase {s : TSt n} (h : In r s) {b : PSt n} (hb : In r b) : In r { s with base := b } :=
  in_tst_iff.2 ⟨hb, (in_tstG h :), (in_tstR h :)⟩
theorem in_tstPushG {s : TSt n} {a : AssignedG2Affine n} (h : In r s) (ha : In r a) : In r (s.pushG a) :=
  in_tst_iff.2 ⟨(in_tstB h :), in_append (in_tstG h :) (in_cons ha in_nil), (in_tstR h :)⟩
theorem in_tstPush {s : TSt n} (h : In r s) (l : Lv) {a : l.T n} (ha : In r a) : In r (s.push l a) := by
  refine in_tst_iff.2 ⟨(in_tstB h :), (in_tstG h :), fun k => ?_⟩
  cases l <;> cases k
  all_goals first
    | exact in_append (in_tstR h _) (in_cons ha in_nil)
    | exact in_tstR h _

theorem cel_getM {A : Type} [HasCells n A] {l : List A} (h : In r l) (is : List ℕ) : W r (getM l is : M n (List A)) In := by
  induction is generalizing r with
  | nil => exact .ret in_nil
  | cons i is ih =>
    exact (cel_index h _).bind fun _ _ l1 ha => (ih (h.mono l1)).bind fun _ _ l2 hb => .ret (in_cons (ha.mono l2) hb)

theorem cel_elemsM {l : List (AssignedValue n)} (h : In r l) (es : List (ℕ × ZMod n)) : W r (elemsM l es) In := by
  induction es generalizing r with
  | nil => exact .ret in_nil
  | cons i is ih =>
    exact (cel_index h _).bind fun _ _ l1 ha => (ih (h.mono l1)).bind fun _ _ l2 hb =>
      .ret (in_cons (in_pair (ha.mono l2) (in_field _)) hb)

theorem cel_termsM {l : List (AssignedValue n)} (h : In r l) (ts : List (ℕ × ℕ × ℕ × ZMod n)) : W r (termsM l ts) In := by
  induction ts generalizing r with
  | nil => exact .ret in_nil
  | cons i is ih =>
    exact (cel_index h _).bind fun _ _ l1 ha => (cel_index (h.mono l1) _).bind fun _ _ l2 hb =>
      (cel_index (h.mono (l1.trans l2)) _).bind fun _ _ l3 hc => (ih (h.mono ((l1.trans l2).trans l3))).bind fun _ _ l4 hd =>
        .ret (in_cons (in_term (ha.mono ((l2.trans l3).trans l4)) (hb.mono (l3.trans l4)) (hc.mono l4)) hd)

theorem cel_inputsM {pts : List (AssignedPoint n)} {g2s : List (AssignedG2Affine n)} (h : In r pts) (h' : In r g2s)
    (ts : List (ℕ × ℕ)) : W r (inputsM pts g2s ts) In := by
  induction ts generalizing r with
  | nil => exact .ret in_nil
  | cons i is ih =>
    exact (cel_index h _).bind fun _ _ l1 ha => (cel_index (h'.mono l1) _).bind fun _ _ l2 hb =>
      (ih (h.mono (l1.trans l2)) (h'.mono (l1.trans l2))).bind fun _ _ l3 hc =>
        .ret (in_cons (in_pair (ha.mono (l2.trans l3)) (hb.mono l3)) hc)

/-- `cellt` for programs. -/
macro "pcells" : tactic => `(tactic|
  repeat' first
    | with_reducible assumption
    | with_reducible exact trivial
    | with_reducible exact in_unit _
    | with_reducible exact in_nil
    | with_reducible apply in_stPushI
    | with_reducible apply in_stPushC
    | with_reducible apply in_nstPushV
    | with_reducible apply in_nstPushC
    | with_reducible apply in_pstPushP
    | with_reducible apply in_pstPushK
    | with_reducible apply in_pstPushA
    | with_reducible apply in_pstPushC
    | with_reducible apply in_pstPushXY
    | with_reducible apply in_tstPushG
    | with_reducible apply in_tstBase
    | with_reducible apply in_stI
    | with_reducible apply in_stC
    | with_reducible apply in_nstV
    | with_reducible apply in_nstC
    | with_reducible apply in_pstB
    | with_reducible apply in_pstP
    | with_reducible apply in_pstK
    | with_reducible apply in_pstA
    | with_reducible apply in_tstB
    | with_reducible apply in_tstG
    | with_reducible apply in_tst2
    | with_reducible apply in_tst12
    | with_reducible apply in_join
    | with_reducible apply in_cons
    | with_reducible apply in_append
    | with_reducible apply in_limbs
    | with_reducible apply in_native
    | with_reducible apply in_cv
    | with_reducible apply in_cz
    | with_reducible apply in_px
    | with_reducible apply in_py
    | with_reducible apply in_pz
    | with_reducible apply in_nx
    | with_reducible apply in_ny
    | with_reducible apply in_pcx
    | with_reducible apply in_pcy
    | with_reducible apply in_pcz
    | with_reducible apply in_pcc
    | with_reducible apply in_to_point
    | with_reducible apply in_f60
    | with_reducible apply in_f61
    | with_reducible apply in_f62
    | with_reducible apply in_f120
    | with_reducible apply in_f121
    | with_reducible apply in_gax
    | with_reducible apply in_gay
    | with_reducible apply in_gaz
    | with_reducible apply in_l0
    | with_reducible apply in_l1
    | with_reducible apply in_l2
    | with_reducible apply in_pair
    | with_reducible apply in_int
    | with_reducible apply in_point
    | with_reducible apply in_nz
    | with_reducible apply in_f6
    | with_reducible apply in_f12
    | with_reducible apply in_ga
    | with_reducible apply in_line
    | (with_reducible apply in_left; with_reducible assumption)
    | (with_reducible apply in_right; with_reducible assumption)
    | with_reducible apply in_fst
    | with_reducible apply in_snd)

macro "pcellt" : tactic => `(tactic|
  repeat' first
    | cintro
    | with_reducible assumption
    | with_reducible apply W.ret
    | with_reducible exact W.panic
    | with_reducible apply W.bindS
    | with_reducible apply W.bind
    | head_lemma cel
    | with_reducible apply cel_getM
    | with_reducible apply cel_elemsM
    | with_reducible apply cel_termsM
    | with_reducible apply cel_inputsM
    | (pcells; done)
    | dsimp only)


theorem cel_iexec (info : RangeInfo n) {wm : ℕ} (i : Instr wm) {s : St n} (hs : In r s) : W r (i.exec info s) In := by
  cases i <;> (unfold Instr.exec; pcellt)

theorem cel_nexec (i : NInstr n) {s : NSt n} (hs : In r s) : W r (i.exec s) In := by
  cases i <;> (unfold NInstr.exec; pcellt)

theorem cel_pexec (info : RangeInfo n) (order : ℕ) {wm : ℕ} {b : ZMod wm} (i : PInstr b) {s : PSt n} (hs : In r s) :
    W r (i.exec info order s) In := by
  cases i with
  | int i =>
    exact (cel_iexec info i (in_pstB hs)).bind fun _ _ l h => .ret (in_pstBase (hs.mono l) h)
  | addA i j =>
    unfold PInstr.exec
    refine (cel_index (in_pstA hs) _).bind fun x r1 l1 hx => ?_
    refine (cel_index (in_pstA (hs.mono l1)) _).bind fun y r2 l2 hy => ?_
    refine cel_unwrap_ok (cel_ecc_add_unsafe _ (hx.mono l2) hy) (fun z r3 l3 hz => ?_) fun _ _ => W.panic_bind
    exact .ret (in_pstPushA (hs.mono ((l1.trans l2).trans l3)) hz)
  | doubleA i =>
    unfold PInstr.exec
    refine (cel_index (in_pstA hs) _).bind fun x r1 l1 hx => ?_
    refine cel_unwrap_ok (cel_ecc_double_unsafe _ hx) (fun z r3 l3 hz => ?_) fun _ _ => W.panic_bind
    exact .ret (in_pstPushA (hs.mono (l1.trans l3)) hz)
  | _ => unfold PInstr.exec; pcellt

/-- All operands have cells with values. -/
def TupIn (r : RecordsInner n) : (ls : List Lv) → Tup (Lv.T n) ls → Prop
  | [], _ => True
  | _ :: ls, a => In r a.1 ∧ TupIn r ls a.2

theorem TupIn.mono {r' : RecordsInner n} (h : RLe r r') : ∀ {ls : List Lv} {a : Tup (Lv.T n) ls}, TupIn r ls a → TupIn r' ls a
  | [], _, _ => trivial
  | _ :: _, _, ha => ⟨ha.1.mono h, ha.2.mono h⟩

theorem cel_fetchM {regs : (l : Lv) → List (l.T n)} (h : ∀ l, In r (regs l)) : ∀ (ls : List Lv) (a : Args ls),
    W r (fetchM regs ls a) fun r x => TupIn r ls x := by
  intro ls
  induction ls generalizing r with
  | nil => exact fun _ => .pure fun _ _ => trivial
  | cons l ls ih =>
    exact fun a => (cel_index (h l) _).bind fun _ _ l1 hx => (ih (fun k => (h k).mono l1) a.2).bind fun _ _ l2 hy =>
      .pure fun _ l3 => ⟨hx.mono (l2.trans l3), hy.mono l3⟩

variable {crv : PairingCurve}

theorem cel_top (info : RangeInfo n) {ls : List Lv} {l : Lv} (o : TOp crv ls l) {a : Tup (Lv.T n) ls} (ha : TupIn r ls a) :
    W r (o.run info a) In := by
  cases o with
  | zero => cases l; exacts [cel_fq2_assign_zero info, cel_fq6_assign_zero info, cel_fq12_assign_zero info]
  | one => cases l; exacts [cel_fq2_assign_one info, cel_fq6_assign_one info, cel_fq12_assign_one info]
  | const _ x =>
    cases l
    exacts [cel_fq2_assign_constant info _, cel_fq6_assign_constant info _, cel_fq12_assign_constant info _]
  | neg => cases l; exacts [cel_fq2_neg info ha.1, cel_fq6_neg info ha.1, cel_fq12_neg info ha.1]
  | double => cases l; exacts [cel_fq2_double info ha.1, cel_fq6_double info ha.1, cel_fq12_double info ha.1]
  | square => cases l; exacts [cel_fq2_square info ha.1, cel_fq6_square info crv ha.1, cel_fq12_square info crv ha.1]
  | reduce => cases l; exacts [cel_fq2_reduce info ha.1, cel_fq6_reduce info ha.1, cel_fq12_reduce info ha.1]
  | inv =>
    cases l
    exacts [cel_fq2_unsafe_invert info ha.1, cel_fq6_unsafe_invert info crv ha.1, cel_fq12_unsafe_invert info crv ha.1]
  | add => cases l; exacts [cel_fq2_add info ha.1 ha.2.1, cel_fq6_add info ha.1 ha.2.1, cel_fq12_add info ha.1 ha.2.1]
  | sub => cases l; exacts [cel_fq2_sub info ha.1 ha.2.1, cel_fq6_sub info ha.1 ha.2.1, cel_fq12_sub info ha.1 ha.2.1]
  | mul =>
    cases l
    exacts [cel_fq2_mul info ha.1 ha.2.1, cel_fq6_mul info crv ha.1 ha.2.1, cel_fq12_mul info crv ha.1 ha.2.1]
  | frob _ k =>
    cases l
    exacts [cel_fq2_frobenius_map info crv ha.1 k, cel_fq6_frobenius_map info crv ha.1 k,
      cel_fq12_frobenius_map info crv ha.1 k]
  | conj2 => exact cel_fq2_conjugate info ha.1
  | conj12 => exact cel_fq12_conjugate info ha.1
  | xi2 => exact cel_fq2_mul_by_nonresidue info crv ha.1
  | xi6 => exact cel_fq6_mul_by_nonresidue info crv ha.1
  | mul1 => exact cel_fq6_mul_by_1 info crv ha.1 ha.2.1
  | mul01 => exact cel_fq6_mul_by_01 info crv ha.1 ha.2.1 ha.2.2.1
  | mul014 => exact cel_fq12_mul_by_014 info crv ha.1 ha.2.1 ha.2.2.1 ha.2.2.2.1
  | mul034 => exact cel_fq12_mul_by_034 info crv ha.1 ha.2.1 ha.2.2.1 ha.2.2.2.1
  | cyc => exact cel_fq12_cyclotomic_square info crv ha.1
  | finalExp => exact cel_final_exponentiation info crv ha.1
  | make6 => exact .ret (in_f6 ha.1 ha.2.1 ha.2.2.1)
  | make12 => exact .ret (in_f12 ha.1 ha.2.1)
  | part6 k => refine .ret ?_; fin_cases k; exacts [in_f60 ha.1, in_f61 ha.1, in_f62 ha.1]
  | part12 k => refine .ret ?_; fin_cases k; exacts [in_f120 ha.1, in_f121 ha.1]

theorem cel_texec (info : RangeInfo n) (order : ℕ) (i : TInstr crv) {s : TSt n} (hs : In r s) :
    W r (i.exec info order s) In := by
  cases i with
  | pt i => exact (cel_pexec info order i (in_tstB hs)).bind fun _ _ l h => .ret (in_tstBase (hs.mono l) h)
  | pair2 i j =>
    exact (cel_index (in_stI (in_pstB (in_tstB hs))) _).bind fun _ _ l1 hx =>
      (cel_index (in_stI (in_pstB (in_tstB (hs.mono l1)))) _).bind fun _ _ l2 hy =>
        .ret (in_tstPush (hs.mono (l1.trans l2)) .f2 (in_pair (hx.mono l2) hy))
  | parts2 i =>
    exact (cel_index (in_tst2 hs) _).bind fun _ _ l hx =>
      .ret (in_tstBase (hs.mono l) (in_pstPushXY (in_tstB (hs.mono l)) (in_fst hx) (in_snd hx)))
  | op o args =>
    exact (cel_fetchM (in_tstR hs) _ args).bind fun _ _ l1 ha => (cel_top info o ha).bind fun _ _ l2 hx =>
      .ret (in_tstPush (hs.mono (l1.trans l2)) _ hx)
  | assertEq l i j =>
    refine (cel_index (in_tstR hs l) i).bind fun x r1 l1 hx => (cel_index (in_tstR (hs.mono l1) l) j).bind fun y r2 l2 hy => ?_
    have key : W r2 (l.assertEq info x y) In := by
      cases l
      exacts [cel_fq2_assert_equal info (hx.mono l2) hy, cel_fq6_assert_equal info (hx.mono l2) hy,
        cel_fq12_assert_eq info (hx.mono l2) hy]
    exact key.bind fun _ _ l3 _ => .ret (hs.mono ((l1.trans l2).trans l3))
  | assertOne i =>
    exact (cel_index (in_tst12 hs) _).bind fun _ _ l1 hx => (cel_fq12_assert_one info hx).bind fun _ _ l2 _ =>
      .ret (hs.mono (l1.trans l2))
  | g2 x y z =>
    exact (cel_index (in_tst2 hs) _).bind fun _ _ l1 hx => (cel_index (in_tst2 (hs.mono l1)) _).bind fun _ _ l2 hy =>
      (cel_index (in_stC (in_pstB (in_tstB (hs.mono (l1.trans l2))))) _).bind fun _ _ l3 hz =>
        .ret (in_tstPushG (hs.mono ((l1.trans l2).trans l3)) (in_ga (hx.mono (l2.trans l3)) (hy.mono l3) hz))
  | negG2 i =>
    exact (cel_index (in_tstG hs) _).bind fun _ _ l1 hx => (cel_g2_neg info hx).bind fun _ _ l2 hy =>
      .ret (in_tstPushG (hs.mono (l1.trans l2)) hy)
  | pairing ts =>
    exact (cel_inputsM (in_pstP (in_tstB hs)) (in_tstG hs) ts).bind fun _ _ l1 hx =>
      (cel_pairing info crv hx).bind fun _ _ l2 hy => .ret (in_tstPush (hs.mono (l1.trans l2)) .f12 hy)
  | checkPairing ts =>
    exact (cel_inputsM (in_pstP (in_tstB hs)) (in_tstG hs) ts).bind fun _ _ l1 hx =>
      (cel_check_pairing info crv hx).bind fun _ _ l2 _ => .ret (hs.mono (l1.trans l2))

/-! ## Programs over all chips -/

theorem in_empty : In r (TSt.empty n) := by
  refine in_tst_iff.2 ⟨in_pst_iff.2 ⟨in_st in_nil in_nil, in_nil, in_nil, in_nil⟩, in_nil, fun _ => in_nil⟩

section x
variable {r : RecordsInner bnR}

instance : HasCells bnR XSt := ⟨fun s => cells s.base ++ cells s.vals⟩

theorem in_xB {s : XSt} (h : In r s) : In r s.base := (in_append_cells.1 h).1
theorem in_xV {s : XSt} (h : In r s) : In r s.vals := (in_append_cells.1 h).2
theorem in_x {b : TSt bnR} {v : List (AssignedValue bnR)} {p : Option ℕ} (h1 : In r b) (h2 : In r v) : In r (⟨b, v, p⟩ : XSt) := in_append_cells.2 ⟨h1, h2⟩
theorem in_conds {s : TSt bnR} (h : In r s) {l : List (AssignedCondition bnR)} (hl : In r l) :
    In r { s with base := { s.base with base := { s.base.base with conds := l } } } :=
  in_tstBase h (in_pstBase (in_tstB h) (in_st (s := ⟨s.base.base.ints, l⟩) (in_stI (in_pstB (in_tstB h)) :) hl))

theorem cel_xexec (info : RangeInfo bnR) (order : ℕ) (i : XInstr) {s : XSt} (hs : In r s) : W r (i.exec info order s) In := by
  cases i with
  | tower i => exact (cel_texec info order i (in_xB hs)).bind fun _ _ l h => .ret (in_x h (in_xV (hs.mono l)))
  | native i =>
    exact (cel_nexec i (s := s.native) (in_nst (in_xV hs) (in_stC (in_pstB (in_tstB (in_xB hs)))))).bind fun _ _ l h =>
      .ret (in_x (in_conds (in_xB (hs.mono l)) (in_nstC h)) (in_nstV h))
  | encode i =>
    exact (cel_index (in_pstP (in_tstB (in_xB hs))) _).bind fun _ _ l1 hp => (cel_ecc_encode info hp).bind fun _ _ l2 hv =>
      .ret (in_x (in_xB (hs.mono (l1.trans l2))) (in_append (in_xV (hs.mono (l1.trans l2))) hv))
  | msm ps ss A L =>
    unfold XInstr.exec
    refine (cel_getM (in_pstP (in_tstB (in_xB hs))) _).bind fun x r1 l1 hx => ?_
    refine (cel_getM (in_xV (hs.mono l1)) _).bind fun y r2 l2 hy => ?_
    refine (cel_msm _ _ (celOps_native _) _ _ _ _ (hx.mono l2) hy).bind fun z r3 l3 hz => ?_
    have h := hs.mono ((l1.trans l2).trans l3)
    exact .ret (in_x (in_tstBase (in_xB h) (in_pstPushP (in_tstB (in_xB h)) hz)) (in_xV h))

theorem cel_xexecAll (info : RangeInfo bnR) (order : ℕ) (prog : List XInstr) {s : XSt} (hs : In r s) :
    W r (xexecAll info order prog s) In := by
  induction prog generalizing r s with
  | nil => exact .ret hs
  | cons i is ih => exact (cel_xexec info order i hs).bind fun _ _ _ h => ih h

theorem in_xEmpty (pre : Option ℕ) : In r (XSt.empty pre) := in_x in_empty in_nil

instance : HasCells bnR GSt := ⟨fun s => cells s.base ++ cells s.vals ++ cells s.scalars⟩

theorem in_gB {s : GSt} (h : In r s) : In r s.base := (in_append_cells.1 (in_append_cells.1 h).1).1
theorem in_gV {s : GSt} (h : In r s) : In r s.vals := (in_append_cells.1 (in_append_cells.1 h).1).2
theorem in_gS {s : GSt} (h : In r s) : In r s.scalars := (in_append_cells.1 h).2
theorem in_gst {b : TSt bnR} {v : List (AssignedValue bnR)} {l : List (AssignedInteger bnR)} {p : Option ℕ} (h1 : In r b)
    (h2 : In r v) (h3 : In r l) : In r (⟨b, v, l, p⟩ : GSt) :=
  in_append_cells.2 ⟨in_append_cells.2 ⟨h1, h2⟩, h3⟩

theorem cel_gexec (info sinfo : RangeInfo bnR) (order : ℕ) (i : GInstr) {s : GSt} (hs : In r s) :
    W r (i.exec info sinfo order s) In := by
  cases i with
  | tower i =>
    exact (cel_texec info order i (in_gB hs)).bind fun _ _ l h => .ret (in_gst h (in_gV (hs.mono l)) (in_gS (hs.mono l)))
  | native i =>
    exact (cel_nexec i (s := s.native) (in_nst (in_gV hs :) (in_stC (in_pstB (in_tstB (in_gB hs))) :))).bind fun _ _ l h =>
      .ret (in_gst (in_conds (in_gB (hs.mono l)) (in_nstC h)) (in_nstV h) (in_gS (hs.mono l) :))
  | scalar i =>
    exact (cel_iexec sinfo i (s := s.scalar) (in_st (in_gS hs :) (in_stC (in_pstB (in_tstB (in_gB hs))) :))).bind fun _ _ l h =>
      .ret (in_gst (in_conds (in_gB (hs.mono l)) (in_stC h)) (in_gV (hs.mono l) :) (in_stI h))
  | encode i =>
    exact (cel_index (in_pstP (in_tstB (in_gB hs))) _).bind fun _ _ l1 hp => (cel_ecc_encode info hp).bind fun _ _ l2 hv =>
      have h := hs.mono (l1.trans l2)
      .ret (in_gst (in_gB h) (in_append (in_gV h) hv) (in_gS h))
  | msm ps ss A L =>
    unfold GInstr.exec
    refine (cel_getM (in_pstP (in_tstB (in_gB hs))) _).bind fun x r1 l1 hx => ?_
    refine (cel_getM (in_gS (hs.mono l1)) _).bind fun y r2 l2 hy => ?_
    refine (cel_msm _ _ (celOps_general _) _ _ _ _ (hx.mono l2) hy).bind fun z r3 l3 hz => ?_
    have h := hs.mono ((l1.trans l2).trans l3)
    exact .ret (in_gst (in_tstBase (in_gB h) (in_pstPushP (in_tstB (in_gB h)) hz)) (in_gV h) (in_gS h))

theorem cel_gexecAll (info sinfo : RangeInfo bnR) (order : ℕ) (prog : List GInstr) {s : GSt} (hs : In r s) :
    W r (gexecAll info sinfo order prog s) In := by
  induction prog generalizing r s with
  | nil => exact .ret hs
  | cons i is ih => exact (cel_gexec info sinfo order i hs).bind fun _ _ _ h => ih h

theorem in_gEmpty (pre : Option ℕ) : In r (GSt.empty pre) := in_gst in_empty in_nil in_nil

end x

end Verif
