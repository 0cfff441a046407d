import Verif.Proof.RelMsm
import Verif.Proof.RelTower
import Verif.Proof.RelKeccak
import Verif.Spec.ApiShape

/-!
# Every sequence of API calls describes the same circuit for all witnesses
-/

namespace Verif
variable {n : ℕ} {st : Prop}

namespace Store
theorem sh_pushV {σ σ' : Store n} (h : sh st σ σ') {x x' : AssignedValue n} (hx : sh st x x') :
    sh st (σ.pushV x) (σ'.pushV x') := ⟨sh_append h.v (sh_cons hx sh_nil), h.i, h.p, h.c, h.z, h.f2, h.f6, h.f12, h.g2, h.lines, h.pre⟩
theorem sh_pushVs {σ σ' : Store n} (h : sh st σ σ') {x x' : List (AssignedValue n)} (hx : sh st x x') :
    sh st (σ.pushVs x) (σ'.pushVs x') := ⟨sh_append h.v hx, h.i, h.p, h.c, h.z, h.f2, h.f6, h.f12, h.g2, h.lines, h.pre⟩
theorem sh_pushI {σ σ' : Store n} (h : sh st σ σ') {x x' : AssignedInteger n} (hx : sh st x x') :
    sh st (σ.pushI x) (σ'.pushI x') := ⟨h.v, sh_append h.i (sh_cons hx sh_nil), h.p, h.c, h.z, h.f2, h.f6, h.f12, h.g2, h.lines, h.pre⟩
theorem sh_pushP {σ σ' : Store n} (h : sh st σ σ') {x x' : AssignedPoint n} (hx : sh st x x') :
    sh st (σ.pushP x) (σ'.pushP x') := ⟨h.v, h.i, sh_append h.p (sh_cons hx sh_nil), h.c, h.z, h.f2, h.f6, h.f12, h.g2, h.lines, h.pre⟩
theorem sh_pushC {σ σ' : Store n} (h : sh st σ σ') {x x' : AssignedPointWithCurvature n} (hx : sh st x x') :
    sh st (σ.pushC x) (σ'.pushC x') := ⟨h.v, h.i, h.p, sh_append h.c (sh_cons hx sh_nil), h.z, h.f2, h.f6, h.f12, h.g2, h.lines, h.pre⟩
theorem sh_pushN {σ σ' : Store n} (h : sh st σ σ') {x x' : AssignedNonZeroPoint n} (hx : sh st x x') :
    sh st (σ.pushN x) (σ'.pushN x') := ⟨h.v, h.i, h.p, h.c, sh_append h.z (sh_cons hx sh_nil), h.f2, h.f6, h.f12, h.g2, h.lines, h.pre⟩
theorem sh_pushQ {σ σ' : Store n} (h : sh st σ σ') {x x' : AssignedFq2 n} (hx : sh st x x') :
    sh st (σ.pushQ x) (σ'.pushQ x') := ⟨h.v, h.i, h.p, h.c, h.z, sh_append h.f2 (sh_cons hx sh_nil), h.f6, h.f12, h.g2, h.lines, h.pre⟩
theorem sh_pushS {σ σ' : Store n} (h : sh st σ σ') {x x' : AssignedFq6 n} (hx : sh st x x') :
    sh st (σ.pushS x) (σ'.pushS x') := ⟨h.v, h.i, h.p, h.c, h.z, h.f2, sh_append h.f6 (sh_cons hx sh_nil), h.f12, h.g2, h.lines, h.pre⟩
theorem sh_pushT {σ σ' : Store n} (h : sh st σ σ') {x x' : AssignedFq12 n} (hx : sh st x x') :
    sh st (σ.pushT x) (σ'.pushT x') := ⟨h.v, h.i, h.p, h.c, h.z, h.f2, h.f6, sh_append h.f12 (sh_cons hx sh_nil), h.g2, h.lines, h.pre⟩
theorem sh_pushG {σ σ' : Store n} (h : sh st σ σ') {x x' : AssignedG2Affine n} (hx : sh st x x') :
    sh st (σ.pushG x) (σ'.pushG x') := ⟨h.v, h.i, h.p, h.c, h.z, h.f2, h.f6, h.f12, sh_append h.g2 (sh_cons hx sh_nil), h.lines, h.pre⟩
theorem sh_pushL {σ σ' : Store n} (h : sh st σ σ') {x x' : List (LineCoeffs n)} (hx : sh st x x') :
    sh st (σ.pushL x) (σ'.pushL x') := ⟨h.v, h.i, h.p, h.c, h.z, h.f2, h.f6, h.f12, h.g2, sh_append h.lines (sh_cons hx sh_nil), h.pre⟩

theorem rel_pairTerm {σ σ' : Store n} (h : sh st σ σ') (e : ℕ × ℕ) : Runs2 st (σ.pairTerm e) (σ'.pairTerm e) (sh st) := by
  unfold pairTerm
  exact (rel_index h.p _).bind fun _ _ ha => (rel_index h.g2 _).bind fun _ _ hb => Runs2.pure (sh_pair ha hb)

theorem rel_lineTerm {σ σ' : Store n} (h : sh st σ σ') (e : ℕ × ℕ) : Runs2 st (σ.lineTerm e) (σ'.lineTerm e) (sh st) := by
  unfold lineTerm
  exact (rel_index h.p _).bind fun _ _ ha => (rel_index h.lines _).bind fun _ _ hb => Runs2.pure (sh_pair ha hb)

theorem rel_elem {σ σ' : Store n} (h : sh st σ σ') (e : ℕ × ZMod n) :
    Runs2 st (σ.elem e) (σ'.elem e) (ElemShape st) := by
  unfold elem
  exact (rel_index h.v _).bind fun _ _ ha => Runs2.pure (elem_mk _ ha)

theorem rel_elems {σ σ' : Store n} (h : sh st σ σ') (l : List (ℕ × ZMod n)) :
    Runs2 st (l.mapM σ.elem) (l.mapM σ'.elem) (List.Forall₂ (ElemShape st)) :=
  rel_mapM_gen (R := fun a a' => a = a') (List.forall₂_same.2 fun _ _ => rfl) fun a _ e => e ▸ rel_elem h a

theorem rel_term {σ σ' : Store n} (h : sh st σ σ') (e : ℕ × ℕ × ℕ × ZMod n) :
    Runs2 st (σ.term e) (σ'.term e) (sh st) := by
  unfold term
  refine (rel_index h.v _).bind fun _ _ ha => (rel_index h.v _).bind fun _ _ hb => ?_
  exact (rel_index h.v _).bind fun _ _ hc => Runs2.pure (sh_term _ ha hb hc)
end Store

theorem sh_flatten {α : Type} [Shaped α] {l l' : List (List α)} (h : sh st l l') : sh st l.flatten l'.flatten := by
  induction h with
  | nil => exact sh_nil
  | cons h _ ih => exact sh_append h ih

theorem rel_keccak_hash {l l' : List (AssignedValue n)} (hl : sh st l l') :
    Runs2 st (keccak_hash l) (keccak_hash l') (sh st) :=
  rel_hash_with hl (rel_mapM hl fun _ _ h => rel_decompose_u256_with _ _ h)

theorem rel_decompose_scalar_as_u256_be {a a' : AssignedValue n} (h : sh st a a') :
    Runs2 st (decompose_scalar_as_u256_be a) (decompose_scalar_as_u256_be a') (sh st) := rel_decompose_u256_with _ _ h

theorem rel_compose_to_scalar_be {l l' : List (AssignedValue n)} (hl : sh st l l') :
    Runs2 st (compose_to_scalar_be l) (compose_to_scalar_be l') (sh st) := rel_compose hl

theorem rel_runTowerCall (A : Api n) {σ σ' : Store n} (hσ : sh st σ σ') (c : TowerCall) :
    Runs2 st (runTowerCall A σ c) (runTowerCall A σ' c) (sh st) := by
  cases c with
  | fq2_reduce =>
    unfold runTowerCall
    refine (rel_index hσ.f2 _).bind fun _ _ h0 => ?_
    exact (rel_fq2_reduce _ h0).bind fun _ _ hr => Runs2.pure (Store.sh_pushQ hσ hr)
  | fq2_assert_equal =>
    unfold runTowerCall
    refine (rel_index hσ.f2 _).bind fun _ _ h0 => ?_
    refine (rel_index hσ.f2 _).bind fun _ _ h1 => ?_
    exact (rel_fq2_assert_equal _ h0 h1).bind fun _ _ _ => Runs2.pure hσ
  | fq2_assign_zero =>
    unfold runTowerCall
    exact (rel_fq2_assign_zero _).bind fun _ _ hr => Runs2.pure (Store.sh_pushQ hσ hr)
  | fq2_assign_one =>
    unfold runTowerCall
    exact (rel_fq2_assign_one _).bind fun _ _ hr => Runs2.pure (Store.sh_pushQ hσ hr)
  | fq2_assign_constant =>
    unfold runTowerCall
    exact (rel_fq2_assign_constant _ _).bind fun _ _ hr => Runs2.pure (Store.sh_pushQ hσ hr)
  | fq2_add =>
    unfold runTowerCall
    refine (rel_index hσ.f2 _).bind fun _ _ h0 => ?_
    refine (rel_index hσ.f2 _).bind fun _ _ h1 => ?_
    exact (rel_fq2_add _ h0 h1).bind fun _ _ hr => Runs2.pure (Store.sh_pushQ hσ hr)
  | fq2_mul =>
    unfold runTowerCall
    refine (rel_index hσ.f2 _).bind fun _ _ h0 => ?_
    refine (rel_index hσ.f2 _).bind fun _ _ h1 => ?_
    exact (rel_fq2_mul _ h0 h1).bind fun _ _ hr => Runs2.pure (Store.sh_pushQ hσ hr)
  | fq2_sub =>
    unfold runTowerCall
    refine (rel_index hσ.f2 _).bind fun _ _ h0 => ?_
    refine (rel_index hσ.f2 _).bind fun _ _ h1 => ?_
    exact (rel_fq2_sub _ h0 h1).bind fun _ _ hr => Runs2.pure (Store.sh_pushQ hσ hr)
  | fq2_double =>
    unfold runTowerCall
    refine (rel_index hσ.f2 _).bind fun _ _ h0 => ?_
    exact (rel_fq2_double _ h0).bind fun _ _ hr => Runs2.pure (Store.sh_pushQ hσ hr)
  | fq2_square =>
    unfold runTowerCall
    refine (rel_index hσ.f2 _).bind fun _ _ h0 => ?_
    exact (rel_fq2_square _ h0).bind fun _ _ hr => Runs2.pure (Store.sh_pushQ hσ hr)
  | fq2_neg =>
    unfold runTowerCall
    refine (rel_index hσ.f2 _).bind fun _ _ h0 => ?_
    exact (rel_fq2_neg _ h0).bind fun _ _ hr => Runs2.pure (Store.sh_pushQ hσ hr)
  | fq2_conjugate =>
    unfold runTowerCall
    refine (rel_index hσ.f2 _).bind fun _ _ h0 => ?_
    exact (rel_fq2_conjugate _ h0).bind fun _ _ hr => Runs2.pure (Store.sh_pushQ hσ hr)
  | fq2_unsafe_invert =>
    unfold runTowerCall
    refine (rel_index hσ.f2 _).bind fun _ _ h0 => ?_
    exact (rel_fq2_unsafe_invert _ h0).bind fun _ _ hr => Runs2.pure (Store.sh_pushQ hσ hr)
  | fq2_mul_by_nonresidue =>
    unfold runTowerCall
    refine (rel_index hσ.f2 _).bind fun _ _ h1 => ?_
    exact (rel_fq2_mul_by_nonresidue _ _ h1).bind fun _ _ hr => Runs2.pure (Store.sh_pushQ hσ hr)
  | fq2_frobenius_map =>
    unfold runTowerCall
    refine (rel_index hσ.f2 _).bind fun _ _ h1 => ?_
    exact (rel_fq2_frobenius_map _ _ h1 _).bind fun _ _ hr => Runs2.pure (Store.sh_pushQ hσ hr)
  | fq6_reduce =>
    unfold runTowerCall
    refine (rel_index hσ.f6 _).bind fun _ _ h0 => ?_
    exact (rel_fq6_reduce _ h0).bind fun _ _ hr => Runs2.pure (Store.sh_pushS hσ hr)
  | fq6_assert_equal =>
    unfold runTowerCall
    refine (rel_index hσ.f6 _).bind fun _ _ h0 => ?_
    refine (rel_index hσ.f6 _).bind fun _ _ h1 => ?_
    exact (rel_fq6_assert_equal _ h0 h1).bind fun _ _ _ => Runs2.pure hσ
  | fq6_assign_zero =>
    unfold runTowerCall
    exact (rel_fq6_assign_zero _).bind fun _ _ hr => Runs2.pure (Store.sh_pushS hσ hr)
  | fq6_assign_one =>
    unfold runTowerCall
    exact (rel_fq6_assign_one _).bind fun _ _ hr => Runs2.pure (Store.sh_pushS hσ hr)
  | fq6_assign_constant =>
    unfold runTowerCall
    exact (rel_fq6_assign_constant _ _).bind fun _ _ hr => Runs2.pure (Store.sh_pushS hσ hr)
  | fq6_add =>
    unfold runTowerCall
    refine (rel_index hσ.f6 _).bind fun _ _ h0 => ?_
    refine (rel_index hσ.f6 _).bind fun _ _ h1 => ?_
    exact (rel_fq6_add _ h0 h1).bind fun _ _ hr => Runs2.pure (Store.sh_pushS hσ hr)
  | fq6_mul =>
    unfold runTowerCall
    refine (rel_index hσ.f6 _).bind fun _ _ h1 => ?_
    refine (rel_index hσ.f6 _).bind fun _ _ h2 => ?_
    exact (rel_fq6_mul _ _ h1 h2).bind fun _ _ hr => Runs2.pure (Store.sh_pushS hσ hr)
  | fq6_sub =>
    unfold runTowerCall
    refine (rel_index hσ.f6 _).bind fun _ _ h0 => ?_
    refine (rel_index hσ.f6 _).bind fun _ _ h1 => ?_
    exact (rel_fq6_sub _ h0 h1).bind fun _ _ hr => Runs2.pure (Store.sh_pushS hσ hr)
  | fq6_double =>
    unfold runTowerCall
    refine (rel_index hσ.f6 _).bind fun _ _ h0 => ?_
    exact (rel_fq6_double _ h0).bind fun _ _ hr => Runs2.pure (Store.sh_pushS hσ hr)
  | fq6_square =>
    unfold runTowerCall
    refine (rel_index hσ.f6 _).bind fun _ _ h1 => ?_
    exact (rel_fq6_square _ _ h1).bind fun _ _ hr => Runs2.pure (Store.sh_pushS hσ hr)
  | fq6_neg =>
    unfold runTowerCall
    refine (rel_index hσ.f6 _).bind fun _ _ h0 => ?_
    exact (rel_fq6_neg _ h0).bind fun _ _ hr => Runs2.pure (Store.sh_pushS hσ hr)
  | fq6_unsafe_invert =>
    unfold runTowerCall
    refine (rel_index hσ.f6 _).bind fun _ _ h1 => ?_
    exact (rel_fq6_unsafe_invert _ _ h1).bind fun _ _ hr => Runs2.pure (Store.sh_pushS hσ hr)
  | fq6_mul_by_nonresidue =>
    unfold runTowerCall
    refine (rel_index hσ.f6 _).bind fun _ _ h1 => ?_
    exact (rel_fq6_mul_by_nonresidue _ _ h1).bind fun _ _ hr => Runs2.pure (Store.sh_pushS hσ hr)
  | fq6_frobenius_map =>
    unfold runTowerCall
    refine (rel_index hσ.f6 _).bind fun _ _ h1 => ?_
    exact (rel_fq6_frobenius_map _ _ h1 _).bind fun _ _ hr => Runs2.pure (Store.sh_pushS hσ hr)
  | fq12_reduce =>
    unfold runTowerCall
    refine (rel_index hσ.f12 _).bind fun _ _ h0 => ?_
    exact (rel_fq12_reduce _ h0).bind fun _ _ hr => Runs2.pure (Store.sh_pushT hσ hr)
  | fq12_assert_eq =>
    unfold runTowerCall
    refine (rel_index hσ.f12 _).bind fun _ _ h0 => ?_
    refine (rel_index hσ.f12 _).bind fun _ _ h1 => ?_
    exact (rel_fq12_assert_eq _ h0 h1).bind fun _ _ _ => Runs2.pure hσ
  | fq12_assign_zero =>
    unfold runTowerCall
    exact (rel_fq12_assign_zero _).bind fun _ _ hr => Runs2.pure (Store.sh_pushT hσ hr)
  | fq12_assign_one =>
    unfold runTowerCall
    exact (rel_fq12_assign_one _).bind fun _ _ hr => Runs2.pure (Store.sh_pushT hσ hr)
  | fq12_assert_one =>
    unfold runTowerCall
    refine (rel_index hσ.f12 _).bind fun _ _ h0 => ?_
    exact (rel_fq12_assert_one _ h0).bind fun _ _ _ => Runs2.pure hσ
  | fq12_assign_constant =>
    unfold runTowerCall
    exact (rel_fq12_assign_constant _ _).bind fun _ _ hr => Runs2.pure (Store.sh_pushT hσ hr)
  | fq12_add =>
    unfold runTowerCall
    refine (rel_index hσ.f12 _).bind fun _ _ h0 => ?_
    refine (rel_index hσ.f12 _).bind fun _ _ h1 => ?_
    exact (rel_fq12_add _ h0 h1).bind fun _ _ hr => Runs2.pure (Store.sh_pushT hσ hr)
  | fq12_mul =>
    unfold runTowerCall
    refine (rel_index hσ.f12 _).bind fun _ _ h1 => ?_
    refine (rel_index hσ.f12 _).bind fun _ _ h2 => ?_
    exact (rel_fq12_mul _ _ h1 h2).bind fun _ _ hr => Runs2.pure (Store.sh_pushT hσ hr)
  | fq12_sub =>
    unfold runTowerCall
    refine (rel_index hσ.f12 _).bind fun _ _ h0 => ?_
    refine (rel_index hσ.f12 _).bind fun _ _ h1 => ?_
    exact (rel_fq12_sub _ h0 h1).bind fun _ _ hr => Runs2.pure (Store.sh_pushT hσ hr)
  | fq12_double =>
    unfold runTowerCall
    refine (rel_index hσ.f12 _).bind fun _ _ h0 => ?_
    exact (rel_fq12_double _ h0).bind fun _ _ hr => Runs2.pure (Store.sh_pushT hσ hr)
  | fq12_square =>
    unfold runTowerCall
    refine (rel_index hσ.f12 _).bind fun _ _ h1 => ?_
    exact (rel_fq12_square _ _ h1).bind fun _ _ hr => Runs2.pure (Store.sh_pushT hσ hr)
  | fq12_neg =>
    unfold runTowerCall
    refine (rel_index hσ.f12 _).bind fun _ _ h0 => ?_
    exact (rel_fq12_neg _ h0).bind fun _ _ hr => Runs2.pure (Store.sh_pushT hσ hr)
  | fq12_conjugate =>
    unfold runTowerCall
    refine (rel_index hσ.f12 _).bind fun _ _ h0 => ?_
    exact (rel_fq12_conjugate _ h0).bind fun _ _ hr => Runs2.pure (Store.sh_pushT hσ hr)
  | fq12_unsafe_invert =>
    unfold runTowerCall
    refine (rel_index hσ.f12 _).bind fun _ _ h1 => ?_
    exact (rel_fq12_unsafe_invert _ _ h1).bind fun _ _ hr => Runs2.pure (Store.sh_pushT hσ hr)
  | fq12_frobenius_map =>
    unfold runTowerCall
    refine (rel_index hσ.f12 _).bind fun _ _ h1 => ?_
    exact (rel_fq12_frobenius_map _ _ h1 _).bind fun _ _ hr => Runs2.pure (Store.sh_pushT hσ hr)
  | fq6_mul_by_1 =>
    unfold runTowerCall
    refine (rel_index hσ.f6 _).bind fun _ _ h1 => ?_
    refine (rel_index hσ.f2 _).bind fun _ _ h2 => ?_
    exact (rel_fq6_mul_by_1 _ _ h1 h2).bind fun _ _ hr => Runs2.pure (Store.sh_pushS hσ hr)
  | fq6_mul_by_01 =>
    unfold runTowerCall
    refine (rel_index hσ.f6 _).bind fun _ _ h1 => ?_
    refine (rel_index hσ.f2 _).bind fun _ _ h2 => ?_
    refine (rel_index hσ.f2 _).bind fun _ _ h3 => ?_
    exact (rel_fq6_mul_by_01 _ _ h1 h2 h3).bind fun _ _ hr => Runs2.pure (Store.sh_pushS hσ hr)
  | fq12_mul_by_014 =>
    unfold runTowerCall
    refine (rel_index hσ.f12 _).bind fun _ _ h1 => ?_
    refine (rel_index hσ.f2 _).bind fun _ _ h2 => ?_
    refine (rel_index hσ.f2 _).bind fun _ _ h3 => ?_
    refine (rel_index hσ.f2 _).bind fun _ _ h4 => ?_
    exact (rel_fq12_mul_by_014 _ _ h1 h2 h3 h4).bind fun _ _ hr => Runs2.pure (Store.sh_pushT hσ hr)
  | fq12_mul_by_034 =>
    unfold runTowerCall
    refine (rel_index hσ.f12 _).bind fun _ _ h1 => ?_
    refine (rel_index hσ.f2 _).bind fun _ _ h2 => ?_
    refine (rel_index hσ.f2 _).bind fun _ _ h3 => ?_
    refine (rel_index hσ.f2 _).bind fun _ _ h4 => ?_
    exact (rel_fq12_mul_by_034 _ _ h1 h2 h3 h4).bind fun _ _ hr => Runs2.pure (Store.sh_pushT hσ hr)
  | fq12_cyclotomic_square =>
    unfold runTowerCall
    refine (rel_index hσ.f12 _).bind fun _ _ h1 => ?_
    exact (rel_fq12_cyclotomic_square _ _ h1).bind fun _ _ hr => Runs2.pure (Store.sh_pushT hσ hr)
  | g2_neg =>
    unfold runTowerCall
    refine (rel_index hσ.g2 _).bind fun _ _ h0 => ?_
    exact (rel_g2_neg _ h0).bind fun _ _ hr => Runs2.pure (Store.sh_pushG hσ hr)
  | prepare_g2 =>
    unfold runTowerCall
    refine (rel_index hσ.g2 _).bind fun _ _ h1 => ?_
    exact (rel_prepare_g2 _ _ h1).bind fun _ _ hr => Runs2.pure (Store.sh_pushL hσ hr)
  | multi_miller_loop =>
    unfold runTowerCall
    refine (rel_mapM_same _ fun e => Store.rel_lineTerm hσ e).bind fun _ _ h1 => ?_
    exact (rel_multi_miller_loop _ _ h1).bind fun _ _ hr => Runs2.pure (Store.sh_pushT hσ hr)
  | final_exponentiation =>
    unfold runTowerCall
    refine (rel_index hσ.f12 _).bind fun _ _ h1 => ?_
    exact (rel_final_exponentiation _ _ h1).bind fun _ _ hr => Runs2.pure (Store.sh_pushT hσ hr)
  | pairing =>
    unfold runTowerCall
    refine (rel_mapM_same _ fun e => Store.rel_pairTerm hσ e).bind fun _ _ h1 => ?_
    exact (rel_pairing _ _ h1).bind fun _ _ hr => Runs2.pure (Store.sh_pushT hσ hr)
  | check_pairing =>
    unfold runTowerCall
    refine (rel_mapM_same _ fun e => Store.rel_pairTerm hσ e).bind fun _ _ h1 => ?_
    exact (rel_check_pairing _ _ h1).bind fun _ _ _ => Runs2.pure hσ
  | keccak_hash =>
    unfold runTowerCall
    refine (rel_mapM_same _ fun e => rel_index hσ.v e).bind fun _ _ h0 => ?_
    exact (rel_keccak_hash h0).bind fun _ _ hr => Runs2.pure (Store.sh_pushV hσ hr)
  | decompose_scalar_as_u256_be =>
    unfold runTowerCall
    refine (rel_index hσ.v _).bind fun _ _ h0 => ?_
    exact (rel_decompose_scalar_as_u256_be h0).bind fun _ _ hr => Runs2.pure (Store.sh_pushVs hσ hr)
  | compose_to_scalar_be =>
    unfold runTowerCall
    refine (rel_mapM_same _ fun e => rel_index hσ.v e).bind fun _ _ h0 => ?_
    exact (rel_compose_to_scalar_be h0).bind fun _ _ hr => Runs2.pure (Store.sh_pushV hσ hr)
  | fq2_parts =>
    unfold runTowerCall
    exact (rel_index hσ.f2 _).bind fun _ _ h => Runs2.pure (Store.sh_pushI (Store.sh_pushI hσ (sh_fst h)) (sh_snd h))
  | fq6_parts =>
    unfold runTowerCall
    exact (rel_index hσ.f6 _).bind fun _ _ h => Runs2.pure
      (Store.sh_pushQ (Store.sh_pushQ (Store.sh_pushQ hσ (sh_f60 h)) (sh_f61 h)) (sh_f62 h))
  | fq12_parts =>
    unfold runTowerCall
    exact (rel_index hσ.f12 _).bind fun _ _ h => Runs2.pure (Store.sh_pushS (Store.sh_pushS hσ (sh_f120 h)) (sh_f121 h))
  | g2_parts =>
    unfold runTowerCall
    exact (rel_index hσ.g2 _).bind fun _ _ h => Runs2.pure
      (Store.sh_pushV (Store.sh_pushQ (Store.sh_pushQ hσ (sh_gax h)) (sh_gay h)) (sh_gaz h))
  | mk_fq2 =>
    unfold runTowerCall
    exact (rel_index hσ.i _).bind fun _ _ h1 => (rel_index hσ.i _).bind fun _ _ h2 =>
      Runs2.pure (Store.sh_pushQ hσ (sh_pair h1 h2))
  | mk_fq6 =>
    unfold runTowerCall
    exact (rel_index hσ.f2 _).bind fun _ _ h1 => (rel_index hσ.f2 _).bind fun _ _ h2 =>
      (rel_index hσ.f2 _).bind fun _ _ h3 => Runs2.pure (Store.sh_pushS hσ (sh_f6 h1 h2 h3))
  | mk_fq12 =>
    unfold runTowerCall
    exact (rel_index hσ.f6 _).bind fun _ _ h1 => (rel_index hσ.f6 _).bind fun _ _ h2 =>
      Runs2.pure (Store.sh_pushT hσ (sh_f12 h1 h2))
  | mk_g2 =>
    unfold runTowerCall
    exact (rel_index hσ.f2 _).bind fun _ _ h1 => (rel_index hσ.f2 _).bind fun _ _ h2 =>
      (rel_index hσ.v _).bind fun _ _ h3 => Runs2.pure (Store.sh_pushG hσ (sh_ga h1 h2 h3))

theorem rel_groupSelect (A : Api n) {ς : Type} [Shaped ς] {ops ops' : ScalarOps n ς} (ho : RelOps₂ st ops ops')
    (r1 r1' r2 r2' : Option (ℕ × ℕ)) (pre : Option ℕ) {points points' : List (AssignedNonZeroPoint n)}
    (h_points : sh st points points') {scalars scalars' : List ς} (h_scalars : sh st scalars scalars') :
    Runs2 st (groupSelect A ops r1 r2 pre points scalars) (groupSelect A ops' r1' r2' pre points' scalars')
      fun r r' => sh st r.1 r'.1 ∧ r.2 = r'.2 := by
  cases pre with
  | none => exact Runs2.panic (p' := .assertion)
  | some p =>
    refine (rel_msm_batch_with_select A.info A.b ho p h_points h_scalars r1 r1' r2 r2').bind ?_
    rintro _ _ ⟨a, a', rfl, rfl, ha⟩
    exact Runs2.pure ⟨ha, rfl⟩

theorem rel_groupBisec (A : Api n) {ς : Type} [Shaped ς] {ops ops' : ScalarOps n ς} (ho : RelOps₂ st ops ops')
    (r1 r1' r2 r2' : Option (ℕ × ℕ)) {points points' : List (AssignedNonZeroPoint n)}
    (h_points : sh st points points') {scalars scalars' : List ς} (h_scalars : sh st scalars scalars') :
    Runs2 st (groupBisec A ops r1 r2 points scalars) (groupBisec A ops' r1' r2' points' scalars') (sh st) := by
  refine (rel_msm_batch_without_select A.info A.b ho h_points h_scalars r1 r1' r2 r2').bind ?_
  rintro _ _ ⟨a, a', rfl, rfl, ha⟩
  exact Runs2.pure ha

theorem rel_runCall (A : Api n) (w w' : Witness n) {σ σ' : Store n} (hσ : sh st σ σ') (c : Call n) :
    Runs2 st (runCall A w σ c) (runCall A w' σ' c) (sh st) := by
  cases c with
  | sum_with_constant_in_one_line => 
    unfold runCall
    refine (Store.rel_elems hσ _).bind fun _ _ h1 => ?_
    exact (rel_sum_with_constant_in_one_line h1 _).bind fun _ _ hr => Runs2.pure (Store.sh_pushV hσ hr)
  | sum_with_constant => 
    unfold runCall
    refine (Store.rel_elems hσ _).bind fun _ _ h1 => ?_
    exact (rel_sum_with_constant h1 _).bind fun _ _ hr => Runs2.pure (Store.sh_pushV hσ hr)
  | add => 
    unfold runCall
    refine (rel_index hσ.v _).bind fun _ _ h1 => ?_
    refine (rel_index hσ.v _).bind fun _ _ h2 => ?_
    exact (rel_add h1 h2).bind fun _ _ hr => Runs2.pure (Store.sh_pushV hσ hr)
  | add_constant => 
    unfold runCall
    refine (rel_index hσ.v _).bind fun _ _ h1 => ?_
    exact (rel_add_constant h1 _).bind fun _ _ hr => Runs2.pure (Store.sh_pushV hσ hr)
  | sub => 
    unfold runCall
    refine (rel_index hσ.v _).bind fun _ _ h1 => ?_
    refine (rel_index hσ.v _).bind fun _ _ h2 => ?_
    exact (rel_sub h1 h2).bind fun _ _ hr => Runs2.pure (Store.sh_pushV hσ hr)
  | mul => 
    unfold runCall
    refine (rel_index hσ.v _).bind fun _ _ h1 => ?_
    refine (rel_index hσ.v _).bind fun _ _ h2 => ?_
    exact (rel_mul h1 h2).bind fun _ _ hr => Runs2.pure (Store.sh_pushV hσ hr)
  | mul_add_constant => 
    unfold runCall
    refine (rel_index hσ.v _).bind fun _ _ h1 => ?_
    refine (rel_index hσ.v _).bind fun _ _ h2 => ?_
    exact (rel_mul_add_constant h1 h2 _).bind fun _ _ hr => Runs2.pure (Store.sh_pushV hσ hr)
  | mul_add => 
    unfold runCall
    refine (rel_index hσ.v _).bind fun _ _ h1 => ?_
    refine (rel_index hσ.v _).bind fun _ _ h2 => ?_
    refine (rel_index hσ.v _).bind fun _ _ h3 => ?_
    exact (rel_mul_add h1 h2 _ h3 _).bind fun _ _ hr => Runs2.pure (Store.sh_pushV hσ hr)
  | mul_add_with_next_line => 
    unfold runCall
    refine (rel_mapM_same _ fun e => Store.rel_term hσ e).bind fun _ _ h1 => ?_
    exact (rel_mul_add_with_next_line h1).bind fun _ _ hr => Runs2.pure (Store.sh_pushV hσ hr)
  | invert_unsafe => 
    unfold runCall
    refine (rel_index hσ.v _).bind fun _ _ h1 => ?_
    exact (rel_invert_unsafe h1).bind fun _ _ hr => Runs2.pure (Store.sh_pushV hσ hr)
  | invert => 
    unfold runCall
    refine (rel_index hσ.v _).bind fun _ _ h1 => ?_
    exact (rel_invert h1).bindS fun _ _ _ _ hx hy => Runs2.pure (Store.sh_pushV (Store.sh_pushV hσ hx) hy)
  | is_zero => 
    unfold runCall
    refine (rel_index hσ.v _).bind fun _ _ h1 => ?_
    exact (rel_is_zero h1).bind fun _ _ hr => Runs2.pure (Store.sh_pushV hσ hr)
  | div_unsafe => 
    unfold runCall
    refine (rel_index hσ.v _).bind fun _ _ h1 => ?_
    refine (rel_index hσ.v _).bind fun _ _ h2 => ?_
    exact (rel_div_unsafe h1 h2).bind fun _ _ hr => Runs2.pure (Store.sh_pushV hσ hr)
  | assign_constant => 
    unfold runCall
    exact (rel_assign_constant _).bind fun _ _ hr => Runs2.pure (Store.sh_pushV hσ hr)
  | assign => 
    unfold runCall
    exact (rel_assign _ _).bind fun _ _ hr => Runs2.pure (Store.sh_pushV hσ hr)
  | assign_bit => 
    unfold runCall
    exact (rel_assign_bit _ _).bind fun _ _ hr => Runs2.pure (Store.sh_pushV hσ hr)
  | assert_equal => 
    unfold runCall
    refine (rel_index hσ.v _).bind fun _ _ h1 => ?_
    refine (rel_index hσ.v _).bind fun _ _ h2 => ?_
    exact (rel_assert_equal h1 h2).bind fun _ _ _ => Runs2.pure hσ
  | assert_constant => 
    unfold runCall
    refine (rel_index hσ.v _).bind fun _ _ h1 => ?_
    exact (rel_assert_constant h1 _).bind fun _ _ _ => Runs2.pure hσ
  | assert_bit => 
    unfold runCall
    refine (rel_index hσ.v _).bind fun _ _ h1 => ?_
    exact (rel_assert_bit h1).bind fun _ _ _ => Runs2.pure hσ
  | and => 
    unfold runCall
    refine (rel_index hσ.v _).bind fun _ _ h1 => ?_
    refine (rel_index hσ.v _).bind fun _ _ h2 => ?_
    exact (rel_and h1 h2).bind fun _ _ hr => Runs2.pure (Store.sh_pushV hσ hr)
  | not => 
    unfold runCall
    refine (rel_index hσ.v _).bind fun _ _ h1 => ?_
    exact (rel_not h1).bind fun _ _ hr => Runs2.pure (Store.sh_pushV hσ hr)
  | not_and => 
    unfold runCall
    refine (rel_index hσ.v _).bind fun _ _ h1 => ?_
    refine (rel_index hσ.v _).bind fun _ _ h2 => ?_
    exact (rel_not_and h1 h2).bind fun _ _ hr => Runs2.pure (Store.sh_pushV hσ hr)
  | or => 
    unfold runCall
    refine (rel_index hσ.v _).bind fun _ _ h1 => ?_
    refine (rel_index hσ.v _).bind fun _ _ h2 => ?_
    exact (rel_or h1 h2).bind fun _ _ hr => Runs2.pure (Store.sh_pushV hσ hr)
  | xor => 
    unfold runCall
    refine (rel_index hσ.v _).bind fun _ _ h1 => ?_
    refine (rel_index hσ.v _).bind fun _ _ h2 => ?_
    exact (rel_xor h1 h2).bind fun _ _ hr => Runs2.pure (Store.sh_pushV hσ hr)
  | xnor => 
    unfold runCall
    refine (rel_index hσ.v _).bind fun _ _ h1 => ?_
    refine (rel_index hσ.v _).bind fun _ _ h2 => ?_
    exact (rel_xnor h1 h2).bind fun _ _ hr => Runs2.pure (Store.sh_pushV hσ hr)
  | bisec => 
    unfold runCall
    refine (rel_index hσ.v _).bind fun _ _ h1 => ?_
    refine (rel_index hσ.v _).bind fun _ _ h2 => ?_
    refine (rel_index hσ.v _).bind fun _ _ h3 => ?_
    exact (rel_bisec h1 h2 h3).bind fun _ _ hr => Runs2.pure (Store.sh_pushV hσ hr)
  | bisec_cond => 
    unfold runCall
    refine (rel_index hσ.v _).bind fun _ _ h1 => ?_
    refine (rel_index hσ.v _).bind fun _ _ h2 => ?_
    refine (rel_index hσ.v _).bind fun _ _ h3 => ?_
    exact (rel_bisec_cond h1 h2 h3).bind fun _ _ hr => Runs2.pure (Store.sh_pushV hσ hr)
  | assert_true => 
    unfold runCall
    refine (rel_index hσ.v _).bind fun _ _ h1 => ?_
    exact (rel_assert_true h1).bind fun _ _ _ => Runs2.pure hσ
  | assert_false => 
    unfold runCall
    refine (rel_index hσ.v _).bind fun _ _ h1 => ?_
    exact (rel_assert_false h1).bind fun _ _ _ => Runs2.pure hσ
  | try_assert_false => 
    unfold runCall
    refine (rel_index hσ.v _).bind fun _ _ h1 => ?_
    exact (rel_try_assert_false h1).bind fun _ _ _ => (rel_rassert _ _).bind fun _ _ _ => Runs2.pure hσ
  | assign_common => 
    unfold runCall
    exact (rel_assign_common _ _).bind fun _ _ hr => Runs2.pure (Store.sh_pushV hσ hr)
  | assign_nonleading_limb => 
    unfold runCall
    exact (rel_assign_nonleading_limb _ _ _).bind fun _ _ hr => Runs2.pure (Store.sh_pushV hσ hr)
  | assign_w_ceil_leading_limb => 
    unfold runCall
    exact (rel_assign_w_ceil_leading_limb _ _ _).bind fun _ _ hr => Runs2.pure (Store.sh_pushV hσ hr)
  | assign_d_leading_limb => 
    unfold runCall
    exact (rel_assign_d_leading_limb _ _ _).bind fun _ _ hr => Runs2.pure (Store.sh_pushV hσ hr)
  | assign_w => 
    unfold runCall
    exact (rel_assign_w _ _ _).bind fun _ _ hr => Runs2.pure (Store.sh_pushI hσ hr)
  | assign_d => 
    unfold runCall
    exact (rel_assign_d _ _ _).bindS fun _ _ _ _ hx hy => Runs2.pure (Store.sh_pushV (Store.sh_pushVs hσ hx) hy)
  | reduce => 
    unfold runCall
    refine (rel_index hσ.i _).bind fun _ _ h1 => ?_
    exact (rel_reduce _ h1).bind fun _ _ hr => Runs2.pure (Store.sh_pushI hσ hr)
  | conditionally_reduce => 
    unfold runCall
    refine (rel_index hσ.i _).bind fun _ _ h1 => ?_
    exact (rel_conditionally_reduce _ h1).bind fun _ _ hr => Runs2.pure (Store.sh_pushI hσ hr)
  | int_add => 
    unfold runCall
    refine (rel_index hσ.i _).bind fun _ _ h1 => ?_
    refine (rel_index hσ.i _).bind fun _ _ h2 => ?_
    exact (rel_int_add _ h1 h2).bind fun _ _ hr => Runs2.pure (Store.sh_pushI hσ hr)
  | int_sub => 
    unfold runCall
    refine (rel_index hσ.i _).bind fun _ _ h1 => ?_
    refine (rel_index hσ.i _).bind fun _ _ h2 => ?_
    exact (rel_int_sub _ h1 h2).bind fun _ _ hr => Runs2.pure (Store.sh_pushI hσ hr)
  | int_neg => 
    unfold runCall
    refine (rel_index hσ.i _).bind fun _ _ h1 => ?_
    exact (rel_int_neg _ h1).bind fun _ _ hr => Runs2.pure (Store.sh_pushI hσ hr)
  | int_mul => 
    unfold runCall
    refine (rel_index hσ.i _).bind fun _ _ h1 => ?_
    refine (rel_index hσ.i _).bind fun _ _ h2 => ?_
    exact (rel_int_mul _ h1 h2).bind fun _ _ hr => Runs2.pure (Store.sh_pushI hσ hr)
  | is_pure_zero => 
    unfold runCall
    refine (rel_index hσ.i _).bind fun _ _ h1 => ?_
    exact (rel_is_pure_zero h1).bind fun _ _ hr => Runs2.pure (Store.sh_pushV hσ hr)
  | is_pure_w_modulus => 
    unfold runCall
    refine (rel_index hσ.i _).bind fun _ _ h1 => ?_
    exact (rel_is_pure_w_modulus _ h1).bind fun _ _ hr => Runs2.pure (Store.sh_pushV hσ hr)
  | is_int_zero => 
    unfold runCall
    refine (rel_index hσ.i _).bind fun _ _ h1 => ?_
    exact (rel_is_int_zero _ h1).bind fun _ _ hr => Runs2.pure (Store.sh_pushV hσ hr)
  | is_int_equal => 
    unfold runCall
    refine (rel_index hσ.i _).bind fun _ _ h1 => ?_
    refine (rel_index hσ.i _).bind fun _ _ h2 => ?_
    exact (rel_is_int_equal _ h1 h2).bind fun _ _ hr => Runs2.pure (Store.sh_pushV hσ hr)
  | int_div => 
    unfold runCall
    refine (rel_index hσ.i _).bind fun _ _ h1 => ?_
    refine (rel_index hσ.i _).bind fun _ _ h2 => ?_
    exact (rel_int_div _ h1 h2).bindS fun _ _ _ _ hx hy => Runs2.pure (Store.sh_pushI (Store.sh_pushV hσ hx) hy)
  | assign_int_constant => 
    unfold runCall
    exact (rel_assign_int_constant _ _).bind fun _ _ hr => Runs2.pure (Store.sh_pushI hσ hr)
  | int_unsafe_invert => 
    unfold runCall
    refine (rel_index hσ.i _).bind fun _ _ h1 => ?_
    exact (rel_int_unsafe_invert _ h1).bind fun _ _ hr => Runs2.pure (Store.sh_pushI hσ hr)
  | assert_int_equal => 
    unfold runCall
    refine (rel_index hσ.i _).bind fun _ _ h1 => ?_
    refine (rel_index hσ.i _).bind fun _ _ h2 => ?_
    exact (rel_assert_int_equal _ h1 h2).bind fun _ _ _ => Runs2.pure hσ
  | int_square => 
    unfold runCall
    refine (rel_index hσ.i _).bind fun _ _ h1 => ?_
    exact (rel_int_square _ h1).bind fun _ _ hr => Runs2.pure (Store.sh_pushI hσ hr)
  | int_mul_small_constant => 
    unfold runCall
    refine (rel_index hσ.i _).bind fun _ _ h1 => ?_
    exact (rel_int_mul_small_constant _ h1 _).bind fun _ _ hr => Runs2.pure (Store.sh_pushI hσ hr)
  | bisec_int => 
    unfold runCall
    refine (rel_index hσ.v _).bind fun _ _ h1 => ?_
    refine (rel_index hσ.i _).bind fun _ _ h2 => ?_
    refine (rel_index hσ.i _).bind fun _ _ h3 => ?_
    exact (rel_bisec_int _ h1 h2 h3).bind fun _ _ hr => Runs2.pure (Store.sh_pushI hσ hr)
  | assign_cache_value => 
    unfold runCall
    refine (rel_index hσ.v _).bind fun _ _ h1 => ?_
    exact (rel_assign_cache_value h1 _ _ _).bind fun _ _ _ => Runs2.pure hσ
  | assign_selected_value => 
    unfold runCall
    refine (rel_index hσ.v _).bind fun _ _ h1 => ?_
    refine (rel_index hσ.v _).bind fun _ _ h2 => ?_
    exact (rel_assign_selected_value _ _ _ _ h2).bind fun _ _ hr => Runs2.pure (Store.sh_pushV hσ hr)
  | assign_constant_point => 
    unfold runCall
    exact (rel_assign_constant_point _ _).bind fun _ _ hr => Runs2.pure (Store.sh_pushP hσ hr)
  | assign_point => 
    unfold runCall
    exact (rel_assign_point _ _ _ _).bind fun _ _ hr => Runs2.pure (Store.sh_pushP hσ hr)
  | assign_non_zero_point => 
    unfold runCall
    exact (rel_assign_non_zero_point _ _ _ _).bind fun _ _ hr => Runs2.pure (Store.sh_pushN hσ hr)
  | assign_identity => 
    unfold runCall
    exact (rel_assign_identity _).bind fun _ _ hr => Runs2.pure (Store.sh_pushC hσ hr)
  | bisec_point => 
    unfold runCall
    refine (rel_index hσ.v _).bind fun _ _ h1 => ?_
    refine (rel_index hσ.p _).bind fun _ _ h2 => ?_
    refine (rel_index hσ.p _).bind fun _ _ h3 => ?_
    exact (rel_bisec_point _ h1 h2 h3).bind fun _ _ hr => Runs2.pure (Store.sh_pushP hσ hr)
  | bisec_point_with_curvature => 
    unfold runCall
    refine (rel_index hσ.v _).bind fun _ _ h1 => ?_
    refine (rel_index hσ.c _).bind fun _ _ h2 => ?_
    refine (rel_index hσ.c _).bind fun _ _ h3 => ?_
    exact (rel_bisec_point_with_curvature _ h1 h2 h3).bind fun _ _ hr => Runs2.pure (Store.sh_pushC hσ hr)
  | lambda_to_point_non_zero => 
    unfold runCall
    refine (rel_index hσ.i _).bind fun _ _ h1 => ?_
    refine (rel_index hσ.z _).bind fun _ _ h2 => ?_
    refine (rel_index hσ.z _).bind fun _ _ h3 => ?_
    exact (rel_lambda_to_point_non_zero _ h1 h2 h3).bind fun _ _ hr => Runs2.pure (Store.sh_pushN hσ hr)
  | ecc_add => 
    unfold runCall
    refine (rel_index hσ.c _).bind fun _ _ h1 => ?_
    refine (rel_index hσ.p _).bind fun _ _ h2 => ?_
    exact (rel_ecc_add _ h1 h2).bind fun _ _ hr => Runs2.pure (Store.sh_pushP hσ hr)
  | ecc_double => 
    unfold runCall
    refine (rel_index hσ.c _).bind fun _ _ h1 => ?_
    exact (rel_ecc_double _ _ h1).bind fun _ _ hr => Runs2.pure (Store.sh_pushP hσ hr)
  | ecc_assert_equal => 
    unfold runCall
    refine (rel_index hσ.p _).bind fun _ _ h1 => ?_
    refine (rel_index hσ.p _).bind fun _ _ h2 => ?_
    exact (rel_ecc_assert_equal _ h1 h2).bind fun _ _ _ => Runs2.pure hσ
  | ecc_neg => 
    unfold runCall
    refine (rel_index hσ.p _).bind fun _ _ h1 => ?_
    exact (rel_ecc_neg _ h1).bind fun _ _ hr => Runs2.pure (Store.sh_pushP hσ hr)
  | ecc_reduce => 
    unfold runCall
    refine (rel_index hσ.p _).bind fun _ _ h1 => ?_
    exact (rel_ecc_reduce _ h1).bind fun _ _ hr => Runs2.pure (Store.sh_pushP hσ hr)
  | to_point_with_curvature => 
    unfold runCall
    refine (rel_index hσ.p _).bind fun _ _ h1 => ?_
    exact (rel_to_point_with_curvature _ h1).bind fun _ _ hr => Runs2.pure (Store.sh_pushC hσ hr)
  | ecc_reduce_with_curvature => 
    unfold runCall
    refine (rel_index hσ.p _).bind fun _ _ h1 => ?_
    exact (rel_ecc_reduce_with_curvature _ h1).bind fun _ _ hr => Runs2.pure (Store.sh_pushC hσ hr)
  | ecc_encode => 
    unfold runCall
    refine (rel_index hσ.p _).bind fun _ _ h1 => ?_
    exact (rel_ecc_encode _ h1).bind fun _ _ hr => Runs2.pure (Store.sh_pushVs hσ hr)
  | ecc_add_unsafe => 
    unfold runCall
    refine (rel_index hσ.z _).bind fun _ _ h1 => ?_
    refine (rel_index hσ.z _).bind fun _ _ h2 => ?_
    refine (rel_ecc_add_unsafe _ h1 h2).bind ?_
    rintro _ _ ⟨a, a', rfl, rfl, ha⟩
    exact Runs2.pure (Store.sh_pushN hσ ha)
  | ecc_double_unsafe => 
    unfold runCall
    refine (rel_index hσ.z _).bind fun _ _ h1 => ?_
    refine (rel_ecc_double_unsafe _ h1).bind ?_
    rintro _ _ ⟨a, a', rfl, rfl, ha⟩
    exact Runs2.pure (Store.sh_pushN hσ ha)
  | ecc_neg_non_zero => 
    unfold runCall
    refine (rel_index hσ.z _).bind fun _ _ h1 => ?_
    exact (rel_ecc_neg_non_zero _ h1).bind fun _ _ hr => Runs2.pure (Store.sh_pushN hσ hr)
  | ecc_reduce_non_zero => 
    unfold runCall
    refine (rel_index hσ.z _).bind fun _ _ h1 => ?_
    exact (rel_ecc_reduce_non_zero _ h1).bind fun _ _ hr => Runs2.pure (Store.sh_pushN hσ hr)
  | ecc_bisec_non_zero_point => 
    unfold runCall
    refine (rel_index hσ.v _).bind fun _ _ h1 => ?_
    refine (rel_index hσ.z _).bind fun _ _ h2 => ?_
    refine (rel_index hσ.z _).bind fun _ _ h3 => ?_
    exact (rel_ecc_bisec_non_zero_point _ h1 h2 h3).bind fun _ _ hr => Runs2.pure (Store.sh_pushN hσ hr)
  | bisec_candidate_non_zero => 
    unfold runCall
    refine (rel_mapM_same _ fun e => rel_index hσ.z e).bind fun _ _ h1 => ?_
    refine (rel_mapM_same _ fun e => rel_index hσ.v e).bind fun _ _ h2 => ?_
    exact (rel_bisec_candidate_non_zero _ h1 h2).bind fun _ _ hr => Runs2.pure (Store.sh_pushN hσ hr)
  | assign_cache_point => 
    unfold runCall
    refine (rel_rassert _ _).bind fun _ _ _ => ?_
    refine (rel_index hσ.c _).bind fun _ _ h1 => ?_
    exact (rel_assign_cache_point _ h1 _ _).bind fun _ _ _ => Runs2.pure hσ
  | assign_selected_point => 
    unfold runCall
    refine (rel_rassert _ _).bind fun _ _ _ => ?_
    refine (rel_index hσ.c _).bind fun _ _ h1 => ?_
    refine (rel_index hσ.v _).bind fun _ _ h2 => ?_
    exact (rel_assign_selected_point _ _ _ h2 _).bind fun _ _ hr => Runs2.pure (Store.sh_pushC hσ hr)
  | assign_cache_point_non_zero => 
    unfold runCall
    refine (rel_rassert _ _).bind fun _ _ _ => ?_
    refine (rel_index hσ.z _).bind fun _ _ h1 => ?_
    exact (rel_assign_cache_point_non_zero _ h1 _ _).bind fun _ _ _ => Runs2.pure hσ
  | assign_selected_point_non_zero => 
    unfold runCall
    refine (rel_rassert _ _).bind fun _ _ _ => ?_
    refine (rel_index hσ.z _).bind fun _ _ h1 => ?_
    refine (rel_index hσ.v _).bind fun _ _ h2 => ?_
    exact (rel_assign_selected_point_non_zero _ _ _ h2 _).bind fun _ _ hr => Runs2.pure (Store.sh_pushN hσ hr)
  | ecc_assert_equal_non_zero => 
    unfold runCall
    refine (rel_index hσ.z _).bind fun _ _ h1 => ?_
    refine (rel_index hσ.z _).bind fun _ _ h2 => ?_
    exact (rel_ecc_assert_equal_non_zero _ h1 h2).bind fun _ _ _ => Runs2.pure hσ
  | ecc_non_zero_point_downgrade => 
    unfold runCall
    refine (rel_index hσ.z _).bind fun _ _ h1 => ?_
    exact (rel_ecc_non_zero_point_downgrade h1).bind fun _ _ hr => Runs2.pure (Store.sh_pushP hσ hr)
  | ecc_bisec_to_non_zero_point => 
    unfold runCall
    refine (rel_index hσ.p _).bind fun _ _ h1 => ?_
    refine (rel_index hσ.z _).bind fun _ _ h2 => ?_
    exact (rel_ecc_bisec_to_non_zero_point _ h1 h2).bind fun _ _ hr => Runs2.pure (Store.sh_pushN hσ hr)
  | decompose_scalar_native => 
    unfold runCall
    refine (rel_index hσ.v _).bind fun _ _ h1 => ?_
    exact (rel_decompose_scalar_native _ _ h1).bind fun _ _ hr => Runs2.pure (Store.sh_pushVs hσ (sh_flatten hr))
  | decompose_scalar_general => 
    unfold runCall
    refine (rel_index hσ.i _).bind fun _ _ h1 => ?_
    exact (rel_decompose_scalar_general _ _ h1).bind fun _ _ hr => Runs2.pure (Store.sh_pushVs hσ (sh_flatten hr))
  | msm_native ps ss r1 r2 =>
    unfold runCall
    refine (rel_mapM_same _ fun e => rel_index hσ.p e).bind fun _ _ h1 => ?_
    refine (rel_mapM_same _ fun e => rel_index hσ.v e).bind fun _ _ h2 => ?_
    rw [hσ.pre]
    refine (rel_msm A.info A.b (relOps_native _) A.generator A.generator _ _ _ _ _ h1 h2).bind ?_
    rintro ⟨r, pre⟩ ⟨r', pre'⟩ ⟨hr, hpre⟩
    have h := Store.sh_pushP hσ hr
    exact Runs2.pure ⟨h.v, h.i, h.p, h.c, h.z, h.f2, h.f6, h.f12, h.g2, h.lines, hpre⟩
  | msm_general ps ss r1 r2 =>
    unfold runCall
    refine (rel_mapM_same _ fun e => rel_index hσ.p e).bind fun _ _ h1 => ?_
    refine (rel_mapM_same _ fun e => rel_index hσ.i e).bind fun _ _ h2 => ?_
    rw [hσ.pre]
    refine (rel_msm A.info A.b (relOps_general _) A.generator A.generator _ _ _ _ _ h1 h2).bind ?_
    rintro ⟨r, pre⟩ ⟨r', pre'⟩ ⟨hr, hpre⟩
    have h := Store.sh_pushP hσ hr
    exact Runs2.pure ⟨h.v, h.i, h.p, h.c, h.z, h.f2, h.f6, h.f12, h.g2, h.lines, hpre⟩
  | limbs =>
    unfold runCall
    exact (rel_index hσ.i _).bind fun _ _ h => Runs2.pure (Store.sh_pushVs hσ (sh_limbs h))
  | native =>
    unfold runCall
    exact (rel_index hσ.i _).bind fun _ _ h => Runs2.pure (Store.sh_pushV hσ (sh_native h))
  | point_parts =>
    unfold runCall
    exact (rel_index hσ.p _).bind fun _ _ h => Runs2.pure
      (Store.sh_pushV (Store.sh_pushI (Store.sh_pushI hσ (sh_px h)) (sh_py h)) (sh_pz h))
  | non_zero_parts =>
    unfold runCall
    exact (rel_index hσ.z _).bind fun _ _ h => Runs2.pure (Store.sh_pushI (Store.sh_pushI hσ (sh_nx h)) (sh_ny h))
  | curvature_parts =>
    unfold runCall
    exact (rel_index hσ.c _).bind fun _ _ h => Runs2.pure
      (Store.sh_pushV (Store.sh_pushI hσ (sh_cv (sh_pcc h))) (sh_cz (sh_pcc h)))
  | to_point =>
    unfold runCall
    exact (rel_index hσ.c _).bind fun _ _ h => Runs2.pure (Store.sh_pushP hσ (sh_to_point h))
  | mk_point =>
    unfold runCall
    exact (rel_index hσ.i _).bind fun _ _ h1 => (rel_index hσ.i _).bind fun _ _ h2 =>
      (rel_index hσ.v _).bind fun _ _ h3 => Runs2.pure (Store.sh_pushP hσ (sh_point h1 h2 h3))
  | mk_non_zero =>
    unfold runCall
    exact (rel_index hσ.i _).bind fun _ _ h1 => (rel_index hσ.i _).bind fun _ _ h2 =>
      Runs2.pure (Store.sh_pushN hσ (sh_nz h1 h2))
  | bisec_curvature =>
    unfold runCall
    refine (rel_index hσ.v _).bind fun _ _ h1 => ?_
    refine (rel_index hσ.i _).bind fun _ _ h2 => ?_
    refine (rel_index hσ.v _).bind fun _ _ h3 => ?_
    refine (rel_index hσ.i _).bind fun _ _ h4 => ?_
    refine (rel_index hσ.v _).bind fun _ _ h5 => ?_
    exact (rel_bisec_curvature _ h1 (sh_curv h2 h3) (sh_curv h4 h5)).bind fun _ _ hr =>
      Runs2.pure (Store.sh_pushV (Store.sh_pushI hσ (sh_cv hr)) (sh_cz hr))
  | lambda_to_point =>
    unfold runCall
    refine (rel_index hσ.i _).bind fun _ _ h1 => ?_
    refine (rel_index hσ.v _).bind fun _ _ h2 => ?_
    refine (rel_index hσ.p _).bind fun _ _ h3 => ?_
    refine (rel_index hσ.p _).bind fun _ _ h4 => ?_
    exact (rel_lambda_to_point _ (sh_curv h1 h2) h3 h4).bind fun _ _ hr => Runs2.pure (Store.sh_pushP hσ hr)
  | assign_cache_integer =>
    unfold runCall
    refine (rel_rassert _ _).bind fun _ _ _ => ?_
    refine (rel_index hσ.i _).bind fun _ _ h1 => ?_
    exact (rel_assign_cache_integer _ h1 _ _ _).bind fun _ _ _ => Runs2.pure hσ
  | assign_selected_integer =>
    unfold runCall
    refine (rel_rassert _ _).bind fun _ _ _ => ?_
    refine (rel_index hσ.i _).bind fun _ _ h1 => ?_
    refine (rel_index hσ.v _).bind fun _ _ h2 => ?_
    exact (rel_assign_selected_integer _ _ _ h2 _ _).bind fun _ _ hr => Runs2.pure (Store.sh_pushI hσ hr)
  | mk_curvature =>
    unfold runCall
    exact (rel_index hσ.i _).bind fun _ _ h1 => (rel_index hσ.i _).bind fun _ _ h2 =>
      (rel_index hσ.v _).bind fun _ _ h3 => (rel_index hσ.i _).bind fun _ _ h4 => (rel_index hσ.v _).bind fun _ _ h5 =>
        Runs2.pure (Store.sh_pushC hσ (sh_pc h1 h2 h3 (sh_curv h4 h5)))
  | msm_with_select_native ps ss r1 r2 =>
    unfold runCall
    refine (rel_mapM_same _ fun e => rel_index hσ.z e).bind fun _ _ h1 => ?_
    refine (rel_mapM_same _ fun e => rel_index hσ.v e).bind fun _ _ h2 => ?_
    rw [hσ.pre]
    refine (rel_groupSelect A (relOps_native _) _ _ _ _ _ h1 h2).bind ?_
    rintro ⟨r, pre⟩ ⟨r', pre'⟩ ⟨hr, hpre⟩
    have h := Store.sh_pushP hσ hr
    exact Runs2.pure ⟨h.v, h.i, h.p, h.c, h.z, h.f2, h.f6, h.f12, h.g2, h.lines, hpre⟩
  | msm_without_select_native ps ss r1 r2 =>
    unfold runCall
    refine (rel_mapM_same _ fun e => rel_index hσ.z e).bind fun _ _ h1 => ?_
    refine (rel_mapM_same _ fun e => rel_index hσ.v e).bind fun _ _ h2 => ?_
    exact (rel_groupBisec A (relOps_native _) _ _ _ _ h1 h2).bind fun _ _ hr => Runs2.pure (Store.sh_pushP hσ hr)
  | msm_with_select_general ps ss r1 r2 =>
    unfold runCall
    refine (rel_mapM_same _ fun e => rel_index hσ.z e).bind fun _ _ h1 => ?_
    refine (rel_mapM_same _ fun e => rel_index hσ.i e).bind fun _ _ h2 => ?_
    rw [hσ.pre]
    refine (rel_groupSelect A (relOps_general _) _ _ _ _ _ h1 h2).bind ?_
    rintro ⟨r, pre⟩ ⟨r', pre'⟩ ⟨hr, hpre⟩
    have h := Store.sh_pushP hσ hr
    exact Runs2.pure ⟨h.v, h.i, h.p, h.c, h.z, h.f2, h.f6, h.f12, h.g2, h.lines, hpre⟩
  | msm_without_select_general ps ss r1 r2 =>
    unfold runCall
    refine (rel_mapM_same _ fun e => rel_index hσ.z e).bind fun _ _ h1 => ?_
    refine (rel_mapM_same _ fun e => rel_index hσ.i e).bind fun _ _ h2 => ?_
    exact (rel_groupBisec A (relOps_general _) _ _ _ _ h1 h2).bind fun _ _ hr => Runs2.pure (Store.sh_pushP hσ hr)
  | tower c => exact rel_runTowerCall A hσ c

theorem rel_runCalls (A : Api n) (w w' : Witness n) (cs : List (Call n)) {σ σ' : Store n} (hσ : sh st σ σ') :
    Runs2 st (runCalls A w cs σ) (runCalls A w' cs σ') (sh st) := by
  induction cs generalizing σ σ' with
  | nil => exact Runs2.pure hσ
  | cons c cs ih => exact (rel_runCall A w w' hσ c).bind fun _ _ h => ih h

end Verif
