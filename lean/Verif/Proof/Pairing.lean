import Verif.Proof.Ate
import Verif.Proof.PairingLoop

/-!
# The pairing and the pairing check
-/

namespace Verif
variable {n : ℕ} {crv : PairingCurve} {info : RangeInfo n} {md : Mode n} {L : List (Atom n (pairQ crv))}

theorem J.fact_weak {wm : ℕ} {L : List (Atom n wm)} {A : Type} {m : M n A} {p q : Prop} {f : A → List (Atom n wm)}
    (hm : J info md L m (fun r => fct p ++ f r)) (h : p → q) : J info md L m (fun r => fct q ++ f r) := by
  cases md with
  | sound c w hw =>
    refine S.mono hm fun r hr hL A hA => ?_
    have := hr hL
    rcases List.mem_append.1 hA with hA | hA
    · cases List.mem_singleton.1 hA
      exact h (this _ (List.mem_append_left _ (List.mem_singleton.2 rfl)))
    · exact this _ (List.mem_append_right _ hA)
  | honest c k =>
    intro hL
    refine (hm hL).mono (fun r hr A hA => ?_) fun r _ _ hr A hA => ?_
    · rcases List.mem_append.1 hA with hA | hA
      · cases List.mem_singleton.1 hA
        exact h (hr _ (List.mem_append_left _ (List.mem_singleton.2 rfl)))
      · exact hr _ (List.mem_append_right _ hA)
    · rcases List.mem_append.1 hA with hA | hA
      · cases List.mem_singleton.1 hA
        exact _root_.trivial
      · exact hr _ (List.mem_append_right _ hA)

theorem norm_ne_zero_iff {x : Fq12 (pairQ crv) crv} : norm2 (norm6 (norm12 x)) ≠ 0 ↔ x ≠ 0 :=
  isUnit_iff12.symm.trans ((C38_tower_is_field crv).2.2 x)

theorem J_final_exponentiation (E : Env (pairQ crv) info) {a : AssignedFq12 n} {x : Fq12 (pairQ crv) crv} (ha : at12 a x ⊆ L)
    (hx : md.Honest → x ≠ 0) :
    J info md L (final_exponentiation info crv a) (fun r => fct (x ≠ 0) ++ at12 r (x ^ finalExponent crv)) := by
  have hx' := fun h => norm_ne_zero_iff.2 (hx h)
  cases crv
  · refine J.fact_weak (p := norm2 (norm6 (norm12 x)) ≠ 0) (J.post (J_bn_final_exponentiation E ha hx') fun hn r => ?_) norm_ne_zero_iff.1
    rw [bn_final_value hn]
    exact List.Subset.refl _
  · refine J.fact_weak (p := norm2 (norm6 (norm12 x)) ≠ 0) (J.post (J_bls_final_exponentiation E ha hx') fun hn r => ?_) norm_ne_zero_iff.1
    rw [bls_final_value hn]
    exact List.Subset.refl _

/-- The value of `multi_miller_loop`. -/
def millerOf (crv : PairingCurve) (vs : List (PairV n (pairQ crv))) : Fq12 (pairQ crv) crv :=
  millerV crv (vs.map (PairV.term crv))

theorem J_pairing (E : Env (pairQ crv) info) {ts : List (AssignedPoint n × AssignedG2Affine n)} {vs : List (PairV n (pairQ crv))}
    (hl : ts.length = vs.length) (hin : atF atIn ts vs ⊆ L)
    (hh : md.Honest → (∀ v ∈ vs, v.pz = 0 ∧ v.qz = 0) ∧ millerOf crv vs ≠ 0) :
    J info md L (pairing info crv ts) (fun r => fct ((∀ v ∈ vs, v.pz = 0 ∧ v.qz = 0) ∧ millerOf crv vs ≠ 0) ++
      at12 r (millerOf crv vs ^ finalExponent crv)) := by
  unfold pairing
  refine J.bind (J_prepare_terms E ts hl hin fun h v hv => ((hh h).1 v hv).2) fun r => ?_
  refine J.bind (f := fun r => fct (∀ b ∈ vs.map PairV.pz, b = 0) ++ at12 r (millerOf crv vs))
    (J.assumeS (p := r.length = vs.length) (by sub) (fun hr => ?_)
      (L' := atF atT r (r.map fun _ => ((0, 0), List.replicate (needOf crv) ⟨0, 0, 0⟩)) ++ atF atZ r (r.map fun _ => 0))
      (f' := fun f => fct (∀ b ∈ r.map fun _ => (0 : ZMod n), b = 0) ++
        at12 f (millerV crv (r.map fun _ => ((0, 0), List.replicate (needOf crv) ⟨0, 0, 0⟩)))) fun hn => ?_) fun f => ?_
  · exact J_multi_miller_loop E (by simpa using hr) (by simpa using hr)
      (by simp only [List.mem_map]; rintro _ ⟨v, -, rfl⟩; exact prepV_length crv _) (by sub) (by sub)
      (by intro h; simp only [List.mem_map]; rintro _ ⟨v, hv, rfl⟩; exact ((hh h).1 v hv).1)
  · exact J_multi_miller_loop E (by simp) (by simp)
      (by simp only [List.mem_map]; rintro _ ⟨v, -, rfl⟩; simp) (by sub) (by sub) fun h => absurd h hn
  · refine J.facts₂ (p := ∀ b ∈ vs.map PairV.pz, b = 0) (q := ∀ v ∈ vs, v.qz = 0) (r := ∀ v ∈ vs, v.pz = 0 ∧ v.qz = 0)
      (by sub) (by sub) (fun a b v hv => ⟨a _ (List.mem_map_of_mem hv), b v hv⟩) ?_
    by_cases hz : ∀ v ∈ vs, v.pz = 0 ∧ v.qz = 0
    · refine J.fact_weak (p := millerOf crv vs ≠ 0) (J_final_exponentiation E (by sub) fun h => (hh h).2) fun h => ⟨hz, h⟩
    · refine J.assumeS (p := ∀ v ∈ vs, v.pz = 0 ∧ v.qz = 0) (by sub) (fun h => absurd h hz)
        (L' := at12 f (millerOf crv vs)) fun hn => J_final_exponentiation E (List.Subset.refl _) fun h => absurd h hn

theorem J_check_pairing (E : Env (pairQ crv) info) {ts : List (AssignedPoint n × AssignedG2Affine n)} {vs : List (PairV n (pairQ crv))}
    (hl : ts.length = vs.length) (hin : atF atIn ts vs ⊆ L)
    (hh : md.Honest → (∀ v ∈ vs, v.pz = 0 ∧ v.qz = 0) ∧ millerOf crv vs ^ finalExponent crv = 1) :
    J info md L (check_pairing info crv ts) (fun _ => fct ((∀ v ∈ vs, v.pz = 0 ∧ v.qz = 0) ∧
      millerOf crv vs ^ finalExponent crv = 1)) := by
  unfold check_pairing
  have hN : finalExponent crv ≠ 0 := by cases crv <;> decide +kernel
  have h0 : millerOf crv vs ^ finalExponent crv = 1 → millerOf crv vs ≠ 0 := fun h e => by
    rw [e, zero_pow hN] at h
    exact zero_ne_one h
  refine J.bind (J_pairing E hl hin fun h => ⟨(hh h).1, h0 (hh h).2⟩) fun r => ?_
  exact J.post₂ (J_fq12_assert_one E (x := millerOf crv vs ^ finalExponent crv) (by sub) fun h => (hh h).2)
    (p := (∀ v ∈ vs, v.pz = 0 ∧ v.qz = 0) ∧ millerOf crv vs ≠ 0) (by sub) fun a b => ⟨a.1, b⟩

/-! ## In terms of the pairing -/

/-- The point of the twist of an input. -/
noncomputable def PairV.Q (v : PairV n (pairQ crv)) : (pairE crv).Point := untwist crv (v.qx, v.qy)
/-- The coordinates of the point of an input. -/
def PairV.P (v : PairV n (pairQ crv)) : ZMod (pairQ crv) × ZMod (pairQ crv) := (v.px, v.py)

theorem aat_untwist {q : Fq2 (pairQ crv) × Fq2 (pairQ crv)} (h : untwist crv q ≠ 0) :
    Aat (embHom (pairQ crv) crv) (untwistU crv) q (untwist crv q) := by
  unfold untwist at h ⊢
  split
  · next hn => exact ⟨hn, rfl⟩
  · next hn => rw [dif_neg hn] at h; exact absurd rfl h

theorem list_prod_pow {R : Type} [CommRing R] (l : List R) (k : ℕ) : l.prod ^ k = (l.map (· ^ k)).prod := by
  induction l with
  | nil => simp
  | cons a l ih => rw [List.prod_cons, mul_pow, ih, List.map_cons, List.prod_cons]

theorem millerOf_pow {vs : List (PairV n (pairQ crv))} (h : ∀ v ∈ vs, InG2 crv v.Q) :
    millerOf crv vs ^ finalExponent crv = (vs.map fun v => ate crv v.Q (embQ v.px, embQ v.py)).prod := by
  unfold millerOf
  rw [millerV_prod, list_prod_pow, List.map_map, List.map_map]
  congr 1
  refine List.map_congr_left fun v hv => ?_
  exact single_ate (aat_untwist (h v hv).ne_zero) (h v hv)

end Verif
