import Verif.Model.Pairing
import Verif.Spec.Pairing
import Verif.Proof.Enc
import Verif.Proof.Frobenius

/-!
# The line steps and the Miller loop in the combined judgement
-/

namespace Verif
variable {n wm : ℕ} {info : RangeInfo n} {crv : PairingCurve}

/-! ## Values -/

section values
variable {K : Type} [CommRing K]

/-- What `doubling_step` computes. -/
def dblV (p : Jac K) : Line K × Jac K :=
  let rx := 9 * p.x ^ 4 - 8 * (p.x * p.y ^ 2)
  (⟨4 * (p.y * p.z ^ 3), -(6 * (p.x ^ 2 * p.z ^ 2)), 6 * p.x ^ 3 - 4 * p.y ^ 2⟩,
   ⟨rx, (4 * (p.x * p.y ^ 2) - rx) * (3 * p.x ^ 2) - 8 * p.y ^ 4, 2 * (p.y * p.z)⟩)

/-- What `addition_step` computes. -/
def addV (p : Jac K) (q : K × K) : Line K × Jac K :=
  let h := q.1 * p.z ^ 2 - p.x
  let s := 2 * (q.2 * p.z ^ 3 - p.y)
  let rx := s ^ 2 - 4 * h ^ 3 - 8 * h ^ 2 * p.x
  let rz := 2 * (p.z * h)
  (⟨2 * rz, -(2 * s), 2 * s * q.1 - 2 * (q.2 * rz)⟩, ⟨rx, s * (4 * h ^ 2 * p.x - rx) - 8 * h ^ 3 * p.y, rz⟩)

end values

/-! ## Facts -/

def atJ (a : AssignedG2 n) (p : Jac (Fq2 wm)) : List (Atom n wm) := at2 a.x p.x ++ (at2 a.y p.y ++ at2 a.z p.z)
def atLn (a : LineCoeffs n) (l : Line (Fq2 wm)) : List (Atom n wm) := at2 a.c0 l.c0 ++ (at2 a.c1 l.c1 ++ at2 a.c2 l.c2)

section
variable {md : Mode n} {L : List (Atom n wm)} (E : Env wm info)
include E

theorem J_doubling_step {pt : AssignedG2 n} {p : Jac (Fq2 wm)} (h : atJ pt p ⊆ L) :
    J info md L (doubling_step info pt) (fun r => atLn r.1 (dblV p).1 ++ atJ r.2 (dblV p).2) := by
  obtain ⟨hx, h⟩ := List.append_subset.1 h
  obtain ⟨hy, hz⟩ := List.append_subset.1 h
  unfold doubling_step
  repeat step
  refine J.pure (List.append_subset.2 ⟨List.append_subset.2 ⟨?_, List.append_subset.2 ⟨?_, ?_⟩⟩,
    List.append_subset.2 ⟨?_, List.append_subset.2 ⟨?_, ?_⟩⟩⟩) <;>
  refine at2_congr (by sub) ?_ <;> simp only [dblV] <;> ring

theorem J_addition_step {pt : AssignedG2 n} {p : Jac (Fq2 wm)} {pq : AssignedG2Affine n} {q : Fq2 wm × Fq2 wm}
    (h : atJ pt p ⊆ L) (hqx : at2 pq.x q.1 ⊆ L) (hqy : at2 pq.y q.2 ⊆ L) :
    J info md L (addition_step info pt pq) (fun r => atLn r.1 (addV p q).1 ++ atJ r.2 (addV p q).2) := by
  obtain ⟨hx, h⟩ := List.append_subset.1 h
  obtain ⟨hy, hz⟩ := List.append_subset.1 h
  unfold addition_step
  repeat step
  refine J.pure (List.append_subset.2 ⟨List.append_subset.2 ⟨?_, List.append_subset.2 ⟨?_, ?_⟩⟩,
    List.append_subset.2 ⟨?_, List.append_subset.2 ⟨?_, ?_⟩⟩⟩) <;>
  refine at2_congr (by sub) ?_ <;> simp only [addV] <;> ring

end

/-! ## Lists of facts -/

section lists
variable {A B X : Type}

/-- The facts of corresponding entries. -/
def atF (g : A → X → List (Atom n wm)) (as : List A) (xs : List X) : List (Atom n wm) := (List.zipWith g as xs).flatten

theorem atF_cons (g : A → X → List (Atom n wm)) (a : A) (as : List A) (x : X) (xs : List X) :
    atF g (a :: as) (x :: xs) = g a x ++ atF g as xs := rfl

/-- The lines `ls`, as many as there are coefficients. -/
def atLs (cs : List (LineCoeffs n)) (ls : List (Line (Fq2 wm))) : List (Atom n wm) :=
  if cs.length = ls.length then atF atLn cs ls else fct False

variable {L : List (Atom n wm)}

theorem atLs_pos {cs : List (LineCoeffs n)} {ls : List (Line (Fq2 wm))} (e : cs.length = ls.length) :
    atLs cs ls = atF atLn cs ls := if_pos e

theorem atLs_neg {cs : List (LineCoeffs n)} {ls : List (Line (Fq2 wm))} (e : ¬ cs.length = ls.length) :
    atLs cs ls = fct False := if_neg e

theorem atLs_nil : atLs (n := n) (wm := wm) [] [] ⊆ L := by
  intro x hx
  exact absurd hx (by simp [atLs, atF])

theorem atLs_snoc {cs : List (LineCoeffs n)} {ls : List (Line (Fq2 wm))} {c : LineCoeffs n} {l : Line (Fq2 wm)}
    (h : atLs cs ls ⊆ L) (hc : atLn c l ⊆ L) : atLs (cs ++ [c]) (ls ++ [l]) ⊆ L := by
  by_cases e : cs.length = ls.length
  · rw [atLs_pos e] at h
    rw [atLs_pos (by simpa using e)]
    have : atF atLn (cs ++ [c]) (ls ++ [l]) = atF atLn cs ls ++ atLn c l := by
      unfold atF
      rw [List.zipWith_append e]
      simp
    rw [this]
    exact List.append_subset.2 ⟨h, hc⟩
  · rw [atLs_neg e] at h
    rw [atLs_neg (by simpa using e)]
    exact h

theorem atLs_tail {cs : List (LineCoeffs n)} {l : Line (Fq2 wm)} {ls : List (Line (Fq2 wm))}
    (h : atLs cs (l :: ls) ⊆ L) : atLs cs.tail ls ⊆ L := by
  cases cs with
  | nil =>
    rw [atLs_neg (by simp)] at h
    cases ls with
    | nil => exact atLs_nil
    | cons l ls =>
      rw [atLs_neg (by simp)]
      exact h
  | cons c cs =>
    rw [List.tail_cons]
    by_cases e : cs.length = ls.length
    · rw [atLs_pos (by simpa using e), atF_cons] at h
      rw [atLs_pos e]
      exact (List.append_subset.1 h).2
    · rw [atLs_neg (by simpa using e)] at h
      rw [atLs_neg e]
      exact h

theorem J.absurd {md : Mode n} {r : A} {f : A → List (Atom n wm)} (h : fct False ⊆ L) :
    J info md L (Pure.pure r : M n A) f := by
  have h := h (List.mem_singleton.2 rfl)
  cases md with
  | sound c w hw => exact S.pure fun hL => (hL _ h).elim
  | honest c k => exact fun hL => (hL _ h).elim

theorem J_unwrap_head {md : Mode n} {cs : List (LineCoeffs n)} {l : Line (Fq2 wm)} {ls : List (Line (Fq2 wm))}
    (h : atLs cs (l :: ls) ⊆ L) : J info md L (unwrap cs.head?) (fun c => atLn c l) := by
  cases cs with
  | nil =>
    have h : fct False ⊆ L := by
      rwa [atLs_neg (by simp)] at h
    cases md with
    | sound c w hw =>
      intro s a t _ hr
      exact absurd hr (by simp [unwrap, panic])
    | honest c k => exact fun hL => (hL _ (h (List.mem_singleton.2 rfl))).elim
  | cons c cs =>
    by_cases e : (c :: cs).length = (l :: ls).length
    · rw [atLs_pos e, atF_cons] at h
      exact J.pure (List.append_subset.1 h).1
    · rw [atLs_neg e] at h
      exact J.absurd h

/-- Facts may be used to establish what the program needs statically, if it runs at all. -/
theorem J.assume' {md : Mode n} {m : M n A} {f : A → List (Atom n wm)} {p : Prop} (hp : fct p ⊆ L)
    (hm : p → J info md L m f) {L' : List (Atom n wm)} {f' : A → List (Atom n wm)} (hn : J info md L' m f') :
    J info md L m f := by
  cases md with
  | sound c w hw =>
    intro s a t hs h
    obtain ⟨h1, h2, -⟩ := hn s a t hs h
    refine ⟨h1, h2, fun he hL => ?_⟩
    exact (hm (hL _ (hp (List.mem_singleton.2 rfl))) s a t hs h).2.2 he hL
  | honest c k =>
    intro hL
    exact hm (hL _ (hp (List.mem_singleton.2 rfl))) hL

end lists

/-! ## Miller loops -/

/-- Coordinates of a point and lines. -/
abbrev TermV (wm : ℕ) := (ZMod wm × ZMod wm) × List (Line (Fq2 wm))

/-- The element `ell` multiplies by. -/
def evLine (crv : PairingCurve) (l : Line (Fq2 wm)) (P : ZMod wm × ZMod wm) : Fq12 wm crv :=
  match crv with
  | .bn256 => ⟨⟨⟨l.c0.re * P.2, l.c0.im * P.2⟩, 0, 0⟩, ⟨⟨l.c1.re * P.1, l.c1.im * P.1⟩, l.c2, 0⟩⟩
  | .bls12_381 => ⟨⟨l.c2, ⟨l.c1.re * P.1, l.c1.im * P.1⟩, 0⟩, ⟨0, ⟨l.c0.re * P.2, l.c0.im * P.2⟩, 0⟩⟩

def tailV (v : TermV wm) : TermV wm := (v.1, v.2.tail)
def headV (crv : PairingCurve) (v : TermV wm) : Fq12 wm crv := evLine crv (v.2.headD ⟨0, 0, 0⟩) v.1

/-- The facts of the terms of a pairing. -/
def atT (t : AssignedPoint n × List (LineCoeffs n)) (v : TermV wm) : List (Atom n wm) :=
  at1 t.1.x v.1.1 ++ (at1 t.1.y v.1.2 ++ atLs t.2 v.2)

/-- The first component of the result of `ell_pairs`. -/
def ells (info : RangeInfo n) (crv : PairingCurve) (f : AssignedFq12 n) :
    List (AssignedPoint n × List (LineCoeffs n)) → M n (AssignedFq12 n)
  | [] => pure f
  | (p, coeffs) :: pairs => do
    let c ← unwrap coeffs.head?
    let f ← ell info crv f c p
    ells info crv f pairs

theorem ell_pairs_eq (crv : PairingCurve) (ps : List (AssignedPoint n × List (LineCoeffs n))) : ∀ (f : AssignedFq12 n),
    ell_pairs info crv f ps = ells info crv f ps >>= fun f => pure (f, ps.map fun p => (p.1, p.2.tail)) := by
  induction ps with
  | nil => intro f; simp [ell_pairs, ells]
  | cons p ps ih => intro f; simp [ell_pairs, ells, ih]

section
variable {md : Mode n} {L : List (Atom n wm)} (E : Env wm info)
include E

theorem J_ell {f : AssignedFq12 n} {x : Fq12 wm crv} {c : LineCoeffs n} {l : Line (Fq2 wm)} {p : AssignedPoint n}
    {P : ZMod wm × ZMod wm} (hf : at12 f x ⊆ L) (hc : atLn c l ⊆ L) (hx : at1 p.x P.1 ⊆ L) (hy : at1 p.y P.2 ⊆ L) :
    J info md L (ell info crv f c p) (fun r => at12 r (x * evLine crv l P)) := by
  obtain ⟨h0, hc⟩ := List.append_subset.1 hc
  obtain ⟨h1, h2⟩ := List.append_subset.1 hc
  unfold ell
  iterate 4 step
  cases crv
  · refine J.mono (J_fq12_mul_by_034 E (x := x) (y := ⟨l.c0.re * P.2, l.c0.im * P.2⟩) (z := ⟨l.c1.re * P.1, l.c1.im * P.1⟩)
      (t := l.c2) (by sub) (by sub) (by sub) (by sub)) fun r => List.Subset.refl _
  · refine J.mono (J_fq12_mul_by_014 E (x := x) (y := l.c2) (z := ⟨l.c1.re * P.1, l.c1.im * P.1⟩)
      (t := ⟨l.c0.re * P.2, l.c0.im * P.2⟩) (by sub) (by sub) (by sub) (by sub)) fun r => List.Subset.refl _

theorem J_ells (ps : List (AssignedPoint n × List (LineCoeffs n))) : ∀ {L : List (Atom n wm)} {vs : List (TermV wm)}
    {f : AssignedFq12 n} {x : Fq12 wm crv}, ps.length = vs.length → (∀ v ∈ vs, v.2 ≠ []) → at12 f x ⊆ L → atF atT ps vs ⊆ L →
    J info md L (ells info crv f ps) (fun r => at12 r (x * (vs.map (headV crv)).prod)) := by
  induction ps with
  | nil =>
    intro L vs f x hl _ hf _
    obtain rfl := List.length_eq_zero_iff.1 hl.symm
    exact J.pure (at12_congr hf (by simp))
  | cons p ps ih =>
    intro L vs f x hl hv hf hp
    obtain ⟨v, vs, rfl⟩ := List.exists_cons_of_length_eq_add_one hl.symm
    rw [atF_cons] at hp
    obtain ⟨h1, h2⟩ := List.append_subset.1 hp
    obtain ⟨hx, h1⟩ := List.append_subset.1 h1
    obtain ⟨hy, hc⟩ := List.append_subset.1 h1
    obtain ⟨l, ls, e⟩ := List.exists_cons_of_ne_nil (hv v List.mem_cons_self)
    unfold ells
    refine J.bind (J_unwrap_head (l := l) (ls := ls) (e ▸ hc)) fun c => ?_
    refine J.bind (J_ell E (P := v.1) (sub_right hf) (by sub) (sub_right hx) (sub_right hy)) fun r => ?_
    refine J.mono (ih (x := x * evLine crv l v.1) (by simpa using hl) (fun v hv' => hv v (List.mem_cons_of_mem _ hv')) (by sub)
      (sub_right (sub_right h2))) fun r => at12_congr (List.Subset.refl _) ?_
    simp [headV, e, _root_.mul_assoc]

end

theorem atF_tail {L : List (Atom n wm)} (ps : List (AssignedPoint n × List (LineCoeffs n))) :
    ∀ {vs : List (TermV wm)}, (∀ v ∈ vs, v.2 ≠ []) → atF atT ps vs ⊆ L →
      atF atT (ps.map fun p => (p.1, p.2.tail)) (vs.map tailV) ⊆ L := by
  induction ps with
  | nil => intro vs _ _ x hx; exact absurd hx (by simp [atF])
  | cons p ps ih =>
    intro vs hv hp
    cases vs with
    | nil => intro x hx; exact absurd hx (by simp [atF])
    | cons v vs =>
      rw [atF_cons] at hp
      obtain ⟨h1, h2⟩ := List.append_subset.1 hp
      obtain ⟨hx, h1⟩ := List.append_subset.1 h1
      obtain ⟨hy, hc⟩ := List.append_subset.1 h1
      obtain ⟨l, ls, e⟩ := List.exists_cons_of_ne_nil (hv v List.mem_cons_self)
      rw [List.map_cons, List.map_cons, atF_cons]
      refine List.append_subset.2 ⟨List.append_subset.2 ⟨hx, List.append_subset.2 ⟨hy, ?_⟩⟩, 
        ih (fun v hv' => hv v (List.mem_cons_of_mem _ hv')) h2⟩
      rw [e] at hc
      simp only [tailV, e, List.tail_cons]
      exact atLs_tail hc

end Verif
