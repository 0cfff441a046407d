import Verif.Proof.Calc

/-!
# The tower operations in the combined judgement
-/

namespace Verif
variable {n wm : ℕ} {info : RangeInfo n} {α β : Type}

def at2 (a : AssignedFq2 n) (x : Fq2 wm) : List (Atom n wm) := at1 a.1 x.re ++ at1 a.2 x.im

variable {crv : PairingCurve}

def at6 (a : AssignedFq6 n) (x : Fq6 wm crv) : List (Atom n wm) := at2 a.c0 x.c0 ++ (at2 a.c1 x.c1 ++ at2 a.c2 x.c2)

def at12 (a : AssignedFq12 n) (x : Fq12 wm crv) : List (Atom n wm) := at6 a.c0 x.re ++ at6 a.c1 x.im

section sub
variable {L : List (Atom n wm)}

theorem at2_iff {a : AssignedFq2 n} {x : Fq2 wm} : at2 a x ⊆ L ↔ at1 a.1 x.re ⊆ L ∧ at1 a.2 x.im ⊆ L :=
  List.append_subset
theorem at6_iff {a : AssignedFq6 n} {x : Fq6 wm crv} :
    at6 a x ⊆ L ↔ at2 a.c0 x.c0 ⊆ L ∧ at2 a.c1 x.c1 ⊆ L ∧ at2 a.c2 x.c2 ⊆ L :=
  List.append_subset.trans (and_congr_right fun _ => List.append_subset)
theorem at12_iff {a : AssignedFq12 n} {x : Fq12 wm crv} : at12 a x ⊆ L ↔ at6 a.c0 x.re ⊆ L ∧ at6 a.c1 x.im ⊆ L :=
  List.append_subset

theorem at2_re {a : AssignedFq2 n} {x : Fq2 wm} (h : at2 a x ⊆ L) : at1 a.1 x.re ⊆ L := (at2_iff.1 h).1
theorem at2_im {a : AssignedFq2 n} {x : Fq2 wm} (h : at2 a x ⊆ L) : at1 a.2 x.im ⊆ L := (at2_iff.1 h).2
theorem at6_c0 {a : AssignedFq6 n} {x : Fq6 wm crv} (h : at6 a x ⊆ L) : at2 a.c0 x.c0 ⊆ L := (at6_iff.1 h).1
theorem at6_c1 {a : AssignedFq6 n} {x : Fq6 wm crv} (h : at6 a x ⊆ L) : at2 a.c1 x.c1 ⊆ L := (at6_iff.1 h).2.1
theorem at6_c2 {a : AssignedFq6 n} {x : Fq6 wm crv} (h : at6 a x ⊆ L) : at2 a.c2 x.c2 ⊆ L := (at6_iff.1 h).2.2
theorem at12_re {a : AssignedFq12 n} {x : Fq12 wm crv} (h : at12 a x ⊆ L) : at6 a.c0 x.re ⊆ L := (at12_iff.1 h).1
theorem at12_im {a : AssignedFq12 n} {x : Fq12 wm crv} (h : at12 a x ⊆ L) : at6 a.c1 x.im ⊆ L := (at12_iff.1 h).2

theorem at2_mk {a b : AssignedInteger n} {x y : ZMod wm} (ha : at1 a x ⊆ L) (hb : at1 b y ⊆ L) :
    at2 (a, b) (⟨x, y⟩ : Fq2 wm) ⊆ L := at2_iff.2 ⟨ha, hb⟩
theorem at6_mk {a b c : AssignedFq2 n} {x y z : Fq2 wm} (ha : at2 a x ⊆ L) (hb : at2 b y ⊆ L) (hc : at2 c z ⊆ L) :
    at6 ⟨a, b, c⟩ (⟨x, y, z⟩ : Fq6 wm crv) ⊆ L := at6_iff.2 ⟨ha, hb, hc⟩
theorem at12_mk {a b : AssignedFq6 n} {x y : Fq6 wm crv} (ha : at6 a x ⊆ L) (hb : at6 b y ⊆ L) :
    at12 ⟨a, b⟩ (⟨x, y⟩ : Fq12 wm crv) ⊆ L := at12_iff.2 ⟨ha, hb⟩

theorem at2_congr {a : AssignedFq2 n} {x y : Fq2 wm} (h : at2 a x ⊆ L) (e : x = y) : at2 a y ⊆ L := e ▸ h
theorem at6_congr {a : AssignedFq6 n} {x y : Fq6 wm crv} (h : at6 a x ⊆ L) (e : x = y) : at6 a y ⊆ L := e ▸ h
theorem at12_congr {a : AssignedFq12 n} {x y : Fq12 wm crv} (h : at12 a x ⊆ L) (e : x = y) : at12 a y ⊆ L := e ▸ h

end sub

/-- Finds a fact in the list. -/
syntax "sub_find" : tactic
macro_rules
  | `(tactic| sub_find) => `(tactic| first
    | with_reducible assumption
    | with_reducible exact List.subset_append_left _ _
    | with_reducible exact List.Subset.refl _
    | (with_reducible refine sub_left ?_; sub_find)
    | (with_reducible refine sub_right ?_; sub_find)
    | (with_reducible refine sub_cons ?_; sub_find))

/-- Finds a fact in the list, or assembles it from its components, or finds the fact of which it is a component. -/
syntax "sub" : tactic

open Lean Elab Tactic Meta in
elab_rules : tactic | `(tactic| sub) => withMainContext do
  if ← (do evalTactic (← `(tactic| sub_find)); pure true) <|> pure false then return
  let tgt ← instantiateMVars (← getMainTarget)
  let some A := tgt.getAppArgs[2]? | throwError "sub: not an inclusion"
  let arg := A.getAppArgs.reverse
  let hd (e : Expr) : Name := e.getAppFn.constName?.getD .anonymous
  let go (x : TSyntax `tactic) : TacticM Unit := evalTactic x
  if hd A == ``HAppend.hAppend then
    go (← `(tactic| (with_reducible refine List.append_subset.2 ⟨?_, ?_⟩ <;> sub)))
  else
    let some a := arg[1]? | throwError "sub: unexpected fact"
    match (hd A, hd a) with
    | (``at1, ``Prod.fst) => go (← `(tactic| (with_reducible apply at2_re; sub)))
    | (``at1, ``Prod.snd) => go (← `(tactic| (with_reducible apply at2_im; sub)))
    | (``at2, ``Prod.mk) => go (← `(tactic| (with_reducible apply at2_mk <;> sub)))
    | (``at2, ``AssignedFq6.c0) => go (← `(tactic| (with_reducible apply at6_c0; sub)))
    | (``at2, ``AssignedFq6.c1) => go (← `(tactic| (with_reducible apply at6_c1; sub)))
    | (``at2, ``AssignedFq6.c2) => go (← `(tactic| (with_reducible apply at6_c2; sub)))
    | (``at6, ``AssignedFq6.mk) => go (← `(tactic| (with_reducible apply at6_mk <;> sub)))
    | (``at6, ``AssignedFq12.c0) => go (← `(tactic| (with_reducible apply at12_re; sub)))
    | (``at6, ``AssignedFq12.c1) => go (← `(tactic| (with_reducible apply at12_im; sub)))
    | (``at12, ``AssignedFq12.mk) => go (← `(tactic| (with_reducible apply at12_mk <;> sub)))
    | _ => throwError "sub: not found {tgt}"

/-- One operation of a straight-line program. -/
macro "step" : tactic => `(tactic| (refine J.bind (by head_lemma J <;> sub) fun _ => ?_))

/-- The end of a straight-line program; leaves the equations between values. -/
macro "fin2" : tactic => `(tactic| (refine J.pure (at2_congr (by sub) ?_)))
macro "fin6" : tactic => `(tactic| (refine J.pure (at6_congr (by sub) ?_)))
macro "fin12" : tactic => `(tactic| (refine J.pure (at12_congr (by sub) ?_)))

/-! ## Inverses and norms in coordinates -/

def norm2 (x : Fq2 wm) : ZMod wm := x.re ^ 2 + x.im ^ 2

def inv2 (x : Fq2 wm) : Fq2 wm := ⟨x.re * (norm2 x)⁻¹, -(x.im * (norm2 x)⁻¹)⟩

/-- The cofactor: `x * cof6 x = norm6 x`. -/
def cof6 (x : Fq6 wm crv) : Fq6 wm crv :=
  ⟨x.c0 * x.c0 - xi wm crv * x.c2 * x.c1, xi wm crv * (x.c2 * x.c2) - x.c0 * x.c1, x.c1 * x.c1 - x.c0 * x.c2⟩

def norm6 (x : Fq6 wm crv) : Fq2 wm :=
  (cof6 x).c0 * x.c0 + xi wm crv * ((cof6 x).c1 * x.c2 + (cof6 x).c2 * x.c1)

def inv6 (x : Fq6 wm crv) : Fq6 wm crv :=
  ⟨inv2 (norm6 x) * (cof6 x).c0, inv2 (norm6 x) * (cof6 x).c1, inv2 (norm6 x) * (cof6 x).c2⟩

def norm12 (x : Fq12 wm crv) : Fq6 wm crv := x.re * x.re - Cubic.v * (x.im * x.im)

def inv12 (x : Fq12 wm crv) : Fq12 wm crv := ⟨inv6 (norm12 x) * x.re, -(inv6 (norm12 x) * x.im)⟩

/-- Squaring in `Fq2[s]/(s² - ξ)`. -/
def sq4 (ξ a b : Fq2 wm) : Fq2 wm × Fq2 wm := (ξ * (b * b) + a * a, 2 * (a * b))

/-- What `fq12_cyclotomic_square` computes. -/
def cycSq (x : Fq12 wm crv) : Fq12 wm crv :=
  let ξ := xi wm crv
  let p := sq4 ξ x.re.c0 x.im.c1
  let q := sq4 ξ x.im.c0 x.re.c2
  let r := sq4 ξ x.re.c1 x.im.c2
  ⟨⟨3 * p.1 - 2 * x.re.c0, 3 * q.1 - 2 * x.re.c1, 3 * r.1 - 2 * x.re.c2⟩,
   ⟨3 * (ξ * r.2) + 2 * x.im.c0, 3 * p.2 + 2 * x.im.c1, 3 * q.2 + 2 * x.im.c2⟩⟩

section ops
variable {md : Mode n} {L : List (Atom n wm)} (E : Env wm info)
include E

theorem J_fq2_add {a b : AssignedFq2 n} {x y : Fq2 wm} (ha : at2 a x ⊆ L) (hb : at2 b y ⊆ L) :
    J info md L (fq2_add info a b) (fun r => at2 r (x + y)) := by
  unfold fq2_add
  repeat step
  fin2
  ext <;> simp

theorem J_fq2_sub {a b : AssignedFq2 n} {x y : Fq2 wm} (ha : at2 a x ⊆ L) (hb : at2 b y ⊆ L) :
    J info md L (fq2_sub info a b) (fun r => at2 r (x - y)) := by
  unfold fq2_sub
  repeat step
  fin2
  ext <;> simp

theorem J_fq2_neg {a : AssignedFq2 n} {x : Fq2 wm} (ha : at2 a x ⊆ L) :
    J info md L (fq2_neg info a) (fun r => at2 r (-x)) := by
  unfold fq2_neg
  repeat step
  fin2
  ext <;> simp

theorem J_fq2_double {a : AssignedFq2 n} {x : Fq2 wm} (ha : at2 a x ⊆ L) :
    J info md L (fq2_double info a) (fun r => at2 r (x + x)) := by
  unfold fq2_double
  repeat step
  fin2
  ext <;> simp

theorem J_fq2_reduce {a : AssignedFq2 n} {x : Fq2 wm} (ha : at2 a x ⊆ L) :
    J info md L (fq2_reduce info a) (fun r => at2 r (x)) := by
  unfold fq2_reduce
  repeat step
  fin2
  rfl

theorem J_fq2_assign_zero :
    J info md L (fq2_assign_zero info) (fun r => at2 r (0 : Fq2 wm)) := by
  unfold fq2_assign_zero
  have h0 : 0 < wm := E.prime_w.pos
  have h1 : 1 < wm := E.prime_w.one_lt
  repeat step
  fin2
  ext <;> simp

theorem J_fq2_assign_one :
    J info md L (fq2_assign_one info) (fun r => at2 r (1 : Fq2 wm)) := by
  unfold fq2_assign_one
  have h0 : 0 < wm := E.prime_w.pos
  have h1 : 1 < wm := E.prime_w.one_lt
  repeat step
  fin2
  ext
  · exact Nat.cast_one
  · exact Nat.cast_zero

theorem J_fq2_assign_constant {c : ℕ × ℕ} (h1 : c.1 < wm) (h2 : c.2 < wm) :
    J info md L (fq2_assign_constant info c) (fun r => at2 r (⟨c.1, c.2⟩ : Fq2 wm)) := by
  unfold fq2_assign_constant
  repeat step
  fin2
  rfl

theorem J_fq2_mul {a b : AssignedFq2 n} {x y : Fq2 wm} (ha : at2 a x ⊆ L) (hb : at2 b y ⊆ L) :
    J info md L (fq2_mul info a b) (fun r => at2 r (x * y)) := by
  unfold fq2_mul
  repeat step
  fin2
  ext <;> simp <;> ring

theorem J_fq2_square {a : AssignedFq2 n} {x : Fq2 wm} (ha : at2 a x ⊆ L) :
    J info md L (fq2_square info a) (fun r => at2 r (x * x)) := J_fq2_mul E ha ha

theorem J_fq2_conjugate {a : AssignedFq2 n} {x : Fq2 wm} (ha : at2 a x ⊆ L) :
    J info md L (fq2_conjugate info a) (fun r => at2 r ⟨x.re, -x.im⟩) := by
  unfold fq2_conjugate
  repeat step
  fin2
  rfl

theorem J_fq2_mul_by_nonresidue {a : AssignedFq2 n} {x : Fq2 wm} (ha : at2 a x ⊆ L) :
    J info md L (fq2_mul_by_nonresidue info crv a) (fun r => at2 r (xi wm crv * x)) := by
  unfold fq2_mul_by_nonresidue
  cases crv <;> dsimp only
  · repeat step
    fin2
    ext <;> simp [xi] <;> ring
  · repeat step
    fin2
    ext <;> simp [xi] <;> ring

theorem J_fq2_unsafe_invert {a : AssignedFq2 n} {x : Fq2 wm} (ha : at2 a x ⊆ L) (hx : md.Honest → norm2 x ≠ 0) :
    J info md L (fq2_unsafe_invert info a) (fun r => fct (norm2 x ≠ 0) ++ at2 r (inv2 x)) := by
  unfold fq2_unsafe_invert
  unfold norm2 at *
  repeat step
  refine J.pure (List.append_subset.2 ⟨by sub, at2_congr (by sub) ?_⟩)
  rfl

theorem J_fq6_add {a b : AssignedFq6 n} {x y : Fq6 wm crv} (ha : at6 a x ⊆ L) (hb : at6 b y ⊆ L) :
    J info md L (fq6_add info a b) (fun r => at6 r (x + y)) := by
  unfold fq6_add
  repeat step
  fin6
  ext1 <;> simp

theorem J_fq6_sub {a b : AssignedFq6 n} {x y : Fq6 wm crv} (ha : at6 a x ⊆ L) (hb : at6 b y ⊆ L) :
    J info md L (fq6_sub info a b) (fun r => at6 r (x - y)) := by
  unfold fq6_sub
  repeat step
  fin6
  ext1 <;> simp

theorem J_fq6_neg {a : AssignedFq6 n} {x : Fq6 wm crv} (ha : at6 a x ⊆ L) :
    J info md L (fq6_neg info a) (fun r => at6 r (-x)) := by
  unfold fq6_neg
  repeat step
  fin6
  ext1 <;> simp

theorem J_fq6_double {a : AssignedFq6 n} {x : Fq6 wm crv} (ha : at6 a x ⊆ L) :
    J info md L (fq6_double info a) (fun r => at6 r (x + x)) := by
  unfold fq6_double
  repeat step
  fin6
  ext1 <;> simp

theorem J_fq6_reduce {a : AssignedFq6 n} {x : Fq6 wm crv} (ha : at6 a x ⊆ L) :
    J info md L (fq6_reduce info a) (fun r => at6 r (x)) := by
  unfold fq6_reduce
  repeat step
  fin6
  rfl

theorem J_fq6_assign_zero :
    J info md L (fq6_assign_zero info) (fun r => at6 r (0 : Fq6 wm crv)) := by
  unfold fq6_assign_zero
  repeat step
  fin6
  ext1 <;> simp

theorem J_fq6_assign_one :
    J info md L (fq6_assign_one info) (fun r => at6 r (1 : Fq6 wm crv)) := by
  unfold fq6_assign_one
  repeat step
  fin6
  ext1 <;> simp

theorem J_fq6_assign_constant {c : (ℕ × ℕ) × (ℕ × ℕ) × (ℕ × ℕ)} (h0 : c.1.1 < wm ∧ c.1.2 < wm)
    (h1 : c.2.1.1 < wm ∧ c.2.1.2 < wm) (h2 : c.2.2.1 < wm ∧ c.2.2.2 < wm) :
    J info md L (fq6_assign_constant info c)
      (fun r => at6 r (⟨⟨c.1.1, c.1.2⟩, ⟨c.2.1.1, c.2.1.2⟩, ⟨c.2.2.1, c.2.2.2⟩⟩ : Fq6 wm crv)) := by
  unfold fq6_assign_constant
  refine J.bind (J_fq2_assign_constant E h0.1 h0.2) fun _ => ?_
  refine J.bind (J_fq2_assign_constant E h1.1 h1.2) fun _ => ?_
  refine J.bind (J_fq2_assign_constant E h2.1 h2.2) fun _ => ?_
  fin6
  rfl

theorem J_fq6_mul {a b : AssignedFq6 n} {x y : Fq6 wm crv} (ha : at6 a x ⊆ L) (hb : at6 b y ⊆ L) :
    J info md L (fq6_mul info crv a b) (fun r => at6 r (x * y)) := by
  unfold fq6_mul
  repeat step
  fin6
  ext1 <;> simp only [Cubic.c0_mul, Cubic.c1_mul, Cubic.c2_mul] <;> ring

theorem J_fq6_square {a : AssignedFq6 n} {x : Fq6 wm crv} (ha : at6 a x ⊆ L) :
    J info md L (fq6_square info crv a) (fun r => at6 r (x * x)) := J_fq6_mul E ha ha

theorem J_fq6_mul_by_nonresidue {a : AssignedFq6 n} {x : Fq6 wm crv} (ha : at6 a x ⊆ L) :
    J info md L (fq6_mul_by_nonresidue info crv a) (fun r => at6 r (Cubic.v * x)) := by
  unfold fq6_mul_by_nonresidue
  repeat step
  fin6
  ext1 <;> simp [Cubic.v]

theorem J_fq6_mul_by_1 {a : AssignedFq6 n} {b : AssignedFq2 n} {x : Fq6 wm crv} {y : Fq2 wm} (ha : at6 a x ⊆ L)
    (hb : at2 b y ⊆ L) : J info md L (fq6_mul_by_1 info crv a b) (fun r => at6 r (x * ⟨0, y, 0⟩)) := by
  unfold fq6_mul_by_1
  repeat step
  fin6
  ext1 <;> simp only [Cubic.c0_mul, Cubic.c1_mul, Cubic.c2_mul] <;> ring

theorem J_fq6_mul_by_01 {a : AssignedFq6 n} {b c : AssignedFq2 n} {x : Fq6 wm crv} {y z : Fq2 wm} (ha : at6 a x ⊆ L)
    (hb : at2 b y ⊆ L) (hc : at2 c z ⊆ L) :
    J info md L (fq6_mul_by_01 info crv a b c) (fun r => at6 r (x * ⟨y, z, 0⟩)) := by
  unfold fq6_mul_by_01
  repeat step
  fin6
  ext1 <;> simp only [Cubic.c0_mul, Cubic.c1_mul, Cubic.c2_mul] <;> ring

theorem J_fq6_unsafe_invert {a : AssignedFq6 n} {x : Fq6 wm crv} (ha : at6 a x ⊆ L)
    (hx : md.Honest → norm2 (norm6 x) ≠ 0) :
    J info md L (fq6_unsafe_invert info crv a) (fun r => fct (norm2 (norm6 x) ≠ 0) ++ at6 r (inv6 x)) := by
  unfold fq6_unsafe_invert
  iterate 18 step
  refine J.bind (J_fq2_unsafe_invert E (x := norm6 x) (at2_congr (by sub) ?_) hx) fun _ => ?_
  · simp only [norm6, cof6]; ring
  repeat step
  refine J.pure (List.append_subset.2 ⟨by sub, at6_congr (by sub) ?_⟩)
  ext1 <;> simp only [inv6, cof6] <;> ring

theorem J_fq12_add {a b : AssignedFq12 n} {x y : Fq12 wm crv} (ha : at12 a x ⊆ L) (hb : at12 b y ⊆ L) :
    J info md L (fq12_add info a b) (fun r => at12 r (x + y)) := by
  unfold fq12_add
  repeat step
  fin12
  ext1 <;> simp

theorem J_fq12_sub {a b : AssignedFq12 n} {x y : Fq12 wm crv} (ha : at12 a x ⊆ L) (hb : at12 b y ⊆ L) :
    J info md L (fq12_sub info a b) (fun r => at12 r (x - y)) := by
  unfold fq12_sub
  repeat step
  fin12
  ext1 <;> simp

theorem J_fq12_neg {a : AssignedFq12 n} {x : Fq12 wm crv} (ha : at12 a x ⊆ L) :
    J info md L (fq12_neg info a) (fun r => at12 r (-x)) := by
  unfold fq12_neg
  repeat step
  fin12
  ext1 <;> simp

theorem J_fq12_double {a : AssignedFq12 n} {x : Fq12 wm crv} (ha : at12 a x ⊆ L) :
    J info md L (fq12_double info a) (fun r => at12 r (x + x)) := by
  unfold fq12_double
  repeat step
  fin12
  ext1 <;> simp

theorem J_fq12_reduce {a : AssignedFq12 n} {x : Fq12 wm crv} (ha : at12 a x ⊆ L) :
    J info md L (fq12_reduce info a) (fun r => at12 r (x)) := by
  unfold fq12_reduce
  repeat step
  fin12
  rfl

theorem J_fq12_assign_zero :
    J info md L (fq12_assign_zero info) (fun r => at12 r (0 : Fq12 wm crv)) := by
  unfold fq12_assign_zero
  repeat step
  fin12
  ext1 <;> simp

theorem J_fq12_assign_one :
    J info md L (fq12_assign_one info) (fun r => at12 r (1 : Fq12 wm crv)) := by
  unfold fq12_assign_one
  repeat step
  fin12
  rfl

theorem J_fq12_assign_constant {c : ((ℕ × ℕ) × (ℕ × ℕ) × (ℕ × ℕ)) × ((ℕ × ℕ) × (ℕ × ℕ) × (ℕ × ℕ))}
    (h : (c.1.1.1 < wm ∧ c.1.1.2 < wm) ∧ (c.1.2.1.1 < wm ∧ c.1.2.1.2 < wm) ∧ c.1.2.2.1 < wm ∧ c.1.2.2.2 < wm)
    (h' : (c.2.1.1 < wm ∧ c.2.1.2 < wm) ∧ (c.2.2.1.1 < wm ∧ c.2.2.1.2 < wm) ∧ c.2.2.2.1 < wm ∧ c.2.2.2.2 < wm) :
    J info md L (fq12_assign_constant info c)
      (fun r => at12 r (⟨⟨⟨c.1.1.1, c.1.1.2⟩, ⟨c.1.2.1.1, c.1.2.1.2⟩, ⟨c.1.2.2.1, c.1.2.2.2⟩⟩,
        ⟨⟨c.2.1.1, c.2.1.2⟩, ⟨c.2.2.1.1, c.2.2.1.2⟩, ⟨c.2.2.2.1, c.2.2.2.2⟩⟩⟩ : Fq12 wm crv)) := by
  unfold fq12_assign_constant
  refine J.bind (J_fq6_assign_constant (crv := crv) E h.1 h.2.1 h.2.2) fun _ => ?_
  refine J.bind (J_fq6_assign_constant (crv := crv) E h'.1 h'.2.1 h'.2.2) fun _ => ?_
  fin12
  rfl

theorem J_fq12_mul {a b : AssignedFq12 n} {x y : Fq12 wm crv} (ha : at12 a x ⊆ L) (hb : at12 b y ⊆ L) :
    J info md L (fq12_mul info crv a b) (fun r => at12 r (x * y)) := by
  unfold fq12_mul
  repeat step
  fin12
  ext1
  · simp; ring
  · simp; ring

theorem J_fq12_square {a : AssignedFq12 n} {x : Fq12 wm crv} (ha : at12 a x ⊆ L) :
    J info md L (fq12_square info crv a) (fun r => at12 r (x * x)) := J_fq12_mul E ha ha

theorem J_fq12_conjugate {a : AssignedFq12 n} {x : Fq12 wm crv} (ha : at12 a x ⊆ L) :
    J info md L (fq12_conjugate info a) (fun r => at12 r ⟨x.re, -x.im⟩) := by
  unfold fq12_conjugate
  repeat step
  fin12
  rfl

theorem J_fq12_mul_by_014 {a : AssignedFq12 n} {b c d : AssignedFq2 n} {x : Fq12 wm crv} {y z t : Fq2 wm}
    (ha : at12 a x ⊆ L) (hb : at2 b y ⊆ L) (hc : at2 c z ⊆ L) (hd : at2 d t ⊆ L) :
    J info md L (fq12_mul_by_014 info crv a b c d) (fun r => at12 r (x * ⟨⟨y, z, 0⟩, ⟨0, t, 0⟩⟩)) := by
  unfold fq12_mul_by_014
  repeat step
  fin12
  ext1
  · simp; ring
  · ext1 <;> simp <;> ring

theorem J_fq12_mul_by_034 {a : AssignedFq12 n} {b c d : AssignedFq2 n} {x : Fq12 wm crv} {y z t : Fq2 wm}
    (ha : at12 a x ⊆ L) (hb : at2 b y ⊆ L) (hc : at2 c z ⊆ L) (hd : at2 d t ⊆ L) :
    J info md L (fq12_mul_by_034 info crv a b c d) (fun r => at12 r (x * ⟨⟨y, 0, 0⟩, ⟨z, t, 0⟩⟩)) := by
  unfold fq12_mul_by_034
  repeat step
  fin12
  ext1
  · ext1 <;> simp <;> ring
  · ext1 <;> simp <;> ring

theorem J_fp4_square {a b : AssignedFq2 n} {x y : Fq2 wm} (ha : at2 a x ⊆ L) (hb : at2 b y ⊆ L) :
    J info md L (fp4_square info crv a b) (fun r => at2 r.1 (sq4 (xi wm crv) x y).1 ++ at2 r.2 (sq4 (xi wm crv) x y).2) := by
  unfold fp4_square
  repeat step
  refine J.pure (List.append_subset.2 ⟨at2_congr (by sub) ?_, at2_congr (by sub) ?_⟩)
  · rfl
  · simp only [sq4]; ring

theorem J_fq12_cyclotomic_square {a : AssignedFq12 n} {x : Fq12 wm crv} (ha : at12 a x ⊆ L) :
    J info md L (fq12_cyclotomic_square info crv a) (fun r => at12 r (cycSq x)) := by
  unfold fq12_cyclotomic_square
  step
  refine J.bind (by head_lemma J <;> sub) ?_
  rintro ⟨t3, t4⟩
  dsimp only
  iterate 6 step
  refine J.bind (by head_lemma J <;> sub) ?_
  rintro ⟨t3, t4⟩
  refine J.bind (by head_lemma J <;> sub) ?_
  rintro ⟨t5, t6⟩
  dsimp only
  repeat step
  fin12
  simp only [cycSq]
  ext1 <;> ext1 <;> dsimp only <;> ring

theorem J_fq12_unsafe_invert {a : AssignedFq12 n} {x : Fq12 wm crv} (ha : at12 a x ⊆ L)
    (hx : md.Honest → norm2 (norm6 (norm12 x)) ≠ 0) :
    J info md L (fq12_unsafe_invert info crv a) (fun r => fct (norm2 (norm6 (norm12 x)) ≠ 0) ++ at12 r (inv12 x)) := by
  unfold fq12_unsafe_invert
  iterate 4 step
  refine J.bind (J_fq6_unsafe_invert E (x := norm12 x) (at6_congr (by sub) ?_) hx) fun _ => ?_
  · rfl
  repeat step
  refine J.pure (List.append_subset.2 ⟨by sub, at12_congr (by sub) ?_⟩)
  rfl

theorem J_fq2_assert_equal {a b : AssignedFq2 n} {x y : Fq2 wm} (ha : at2 a x ⊆ L) (hb : at2 b y ⊆ L)
    (hx : md.Honest → x = y) : J info md L (fq2_assert_equal info a b) (fun _ => fct (x = y)) := by
  unfold fq2_assert_equal
  refine J.bind (J_assert_int_equal E (by sub) (by sub) fun h => by rw [hx h]) fun _ => ?_
  refine J.post₂ (J_assert_int_equal E (by sub) (by sub) fun h => by rw [hx h]) (by sub) ?_
  exact fun h1 h2 => QuadraticAlgebra.ext h1 h2

theorem J_fq6_assert_equal {a b : AssignedFq6 n} {x y : Fq6 wm crv} (ha : at6 a x ⊆ L) (hb : at6 b y ⊆ L)
    (hx : md.Honest → x = y) : J info md L (fq6_assert_equal info a b) (fun _ => fct (x = y)) := by
  unfold fq6_assert_equal
  refine J.bind (J_fq2_assert_equal E (by sub) (by sub) fun h => by rw [hx h]) fun _ => ?_
  refine J.bind (J.post₂ (J_fq2_assert_equal E (by sub) (by sub) fun h => by rw [hx h]) (by sub) And.intro) fun _ => ?_
  refine J.post₂ (J_fq2_assert_equal E (by sub) (by sub) fun h => by rw [hx h]) (by sub) ?_
  exact fun h1 h2 => Cubic.ext h1.1 h1.2 h2

theorem J_fq12_assert_eq {a b : AssignedFq12 n} {x y : Fq12 wm crv} (ha : at12 a x ⊆ L) (hb : at12 b y ⊆ L)
    (hx : md.Honest → x = y) : J info md L (fq12_assert_eq info a b) (fun _ => fct (x = y)) := by
  unfold fq12_assert_eq
  refine J.bind (J_fq6_assert_equal E (by sub) (by sub) fun h => by rw [hx h]) fun _ => ?_
  refine J.post₂ (J_fq6_assert_equal E (by sub) (by sub) fun h => by rw [hx h]) (by sub) ?_
  exact fun h1 h2 => QuadraticAlgebra.ext h1 h2

theorem J_fq12_assert_one {a : AssignedFq12 n} {x : Fq12 wm crv} (ha : at12 a x ⊆ L)
    (hx : md.Honest → x = 1) : J info md L (fq12_assert_one info a) (fun _ => fct (x = 1)) := by
  unfold fq12_assert_one
  refine J.bind (J_fq12_assign_one (crv := crv) E) fun _ => ?_
  exact J_fq12_assert_eq E (by sub) (by sub) hx

end ops

/-! ## Inverses -/

theorem norm2_mul (x y : Fq2 wm) : norm2 (x * y) = norm2 x * norm2 y := by
  simp only [norm2, QuadraticAlgebra.re_mul, QuadraticAlgebra.im_mul]; ring

theorem norm2_one : norm2 (1 : Fq2 wm) = 1 := by
  show (1 : ZMod wm) ^ 2 + 0 ^ 2 = 1; ring

theorem mul_cof6 (x : Fq6 wm crv) : x * cof6 x = Cubic.of (norm6 x) := by
  ext1
  · simp only [Cubic.c0_mul, Cubic.of, norm6, cof6]; ring
  · simp only [Cubic.c1_mul, Cubic.of, cof6]; ring
  · simp only [Cubic.c2_mul, Cubic.of, cof6]; ring

theorem norm6_mul (x y : Fq6 wm crv) : norm6 (x * y) = norm6 x * norm6 y := by
  simp only [norm6, cof6, Cubic.c0_mul, Cubic.c1_mul, Cubic.c2_mul]; ring

theorem norm6_one : norm6 (1 : Fq6 wm crv) = 1 := by
  simp [norm6, cof6]

theorem norm12_mul (x y : Fq12 wm crv) : norm12 (x * y) = norm12 x * norm12 y := by
  simp only [norm12, QuadraticAlgebra.re_mul, QuadraticAlgebra.im_mul]; ring

theorem norm12_one : norm12 (1 : Fq12 wm crv) = 1 := by
  show (1 : Fq6 wm crv) * 1 - Cubic.v * (0 * 0) = 1; ring

theorem mul_inv2 [Fact wm.Prime] {x : Fq2 wm} (h : norm2 x ≠ 0) : x * inv2 x = 1 := by
  have h' := mul_inv_cancel₀ h
  ext
  · simp only [inv2, QuadraticAlgebra.re_mul]
    rw [← show norm2 x * (norm2 x)⁻¹ = QuadraticAlgebra.re (1 : Fq2 wm) from h']
    rw [norm2]; ring
  · simp only [inv2, QuadraticAlgebra.im_mul]
    show _ = (0 : ZMod wm)
    ring

theorem mul_inv6 [Fact wm.Prime] {x : Fq6 wm crv} (h : norm2 (norm6 x) ≠ 0) : x * inv6 x = 1 := by
  have e : inv6 x = cof6 x * Cubic.of (inv2 (norm6 x)) := by
    ext1 <;> simp [inv6, Cubic.of, _root_.mul_comm]
  rw [e, ← _root_.mul_assoc, mul_cof6]
  ext1 <;> simp [Cubic.of, mul_inv2 h]

theorem mul_inv12 [Fact wm.Prime] {x : Fq12 wm crv} (h : norm2 (norm6 (norm12 x)) ≠ 0) : x * inv12 x = 1 := by
  have h' := mul_inv6 h
  ext1
  · simp only [inv12, QuadraticAlgebra.re_mul]
    rw [← show norm12 x * inv6 (norm12 x) = QuadraticAlgebra.re (1 : Fq12 wm crv) from h']
    conv_rhs => lhs; rw [norm12]
    ring
  · simp only [inv12, QuadraticAlgebra.im_mul]
    show _ = (0 : Fq6 wm crv)
    ring

theorem norm2_ne_zero [Fact wm.Prime] {x y : Fq2 wm} (h : x * y = 1) : norm2 x ≠ 0 := by
  intro h0
  have := norm2_mul x y
  rw [h, h0, norm2_one, zero_mul] at this
  exact one_ne_zero this

theorem norm6_ne_zero [Fact wm.Prime] {x y : Fq6 wm crv} (h : x * y = 1) : norm2 (norm6 x) ≠ 0 :=
  norm2_ne_zero (y := norm6 y) (by rw [← norm6_mul, h, norm6_one])

theorem norm12_ne_zero [Fact wm.Prime] {x y : Fq12 wm crv} (h : x * y = 1) : norm2 (norm6 (norm12 x)) ≠ 0 :=
  norm6_ne_zero (y := norm12 y) (by rw [← norm12_mul, h, norm12_one])

theorem isUnit_iff2 [Fact wm.Prime] {x : Fq2 wm} : IsUnit x ↔ norm2 x ≠ 0 :=
  ⟨fun h => let ⟨_, hy⟩ := h.exists_right_inv; norm2_ne_zero hy, fun h => IsUnit.of_mul_eq_one _ (mul_inv2 h)⟩

theorem isUnit_iff6 [Fact wm.Prime] {x : Fq6 wm crv} : IsUnit x ↔ norm2 (norm6 x) ≠ 0 :=
  ⟨fun h => let ⟨_, hy⟩ := h.exists_right_inv; norm6_ne_zero hy, fun h => IsUnit.of_mul_eq_one _ (mul_inv6 h)⟩

theorem isUnit_iff12 [Fact wm.Prime] {x : Fq12 wm crv} : IsUnit x ↔ norm2 (norm6 (norm12 x)) ≠ 0 :=
  ⟨fun h => let ⟨_, hy⟩ := h.exists_right_inv; norm12_ne_zero hy, fun h => IsUnit.of_mul_eq_one _ (mul_inv12 h)⟩

end Verif
