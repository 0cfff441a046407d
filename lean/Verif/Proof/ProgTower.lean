import Verif.Proof.Prog
import Verif.Model.Pairing
import Verif.Model.Keccak

/-!
# The tower, the pairing and Keccak are composed of the primitive writers
-/

namespace Verif
variable {n : ℕ} {cc : Prop}

theorem prog_foldlM {α β : Type} {f : α → β → M n α} (hf : ∀ a b, Built cc (f a b)) (l : List β) (a : α) :
    Built cc (l.foldlM f a) := by
  induction l generalizing a with
  | nil => exact .pure _
  | cons b l ih => rw [List.foldlM_cons]; exact .bind (hf a b) ih

theorem Built.ite {α : Type} {p : Prop} [Decidable p] {m k : M n α} (h : Built cc m) (h' : Built cc k) :
    Built cc (if p then m else k) := by
  split
  · exact h
  · exact h'

/-- `prog` with loops. -/
macro "tprog" : tactic => `(tactic|
  repeat' first
    | intro _
    | with_reducible exact Built.pure _
    | with_reducible assumption
    | with_reducible apply Built.bind
    | with_reducible apply prog_mapM
    | with_reducible apply prog_foldlM
    | head_lemma prog
    | with_reducible apply_assumption
    | split)

theorem prog_fq2_reduce (info : RangeInfo n) (x : AssignedFq2 n) :
    Built cc (fq2_reduce info x) := by
  unfold fq2_reduce; tprog

theorem prog_fq2_assert_equal (info : RangeInfo n) (x y : AssignedFq2 n) :
    Built cc (fq2_assert_equal info x y) := by
  unfold fq2_assert_equal; tprog

theorem prog_fq2_assign_zero (info : RangeInfo n) :
    Built cc (fq2_assign_zero info) := by
  unfold fq2_assign_zero; tprog

theorem prog_fq2_assign_one (info : RangeInfo n) :
    Built cc (fq2_assign_one info) := by
  unfold fq2_assign_one; tprog

theorem prog_fq2_assign_constant (info : RangeInfo n) (c : ℕ × ℕ) :
    Built cc (fq2_assign_constant info c) := by
  unfold fq2_assign_constant; tprog

theorem prog_fq2_add (info : RangeInfo n) (a b : AssignedFq2 n) :
    Built cc (fq2_add info a b) := by
  unfold fq2_add; tprog

theorem prog_fq2_mul (info : RangeInfo n) (a b : AssignedFq2 n) :
    Built cc (fq2_mul info a b) := by
  unfold fq2_mul; tprog

theorem prog_fq2_sub (info : RangeInfo n) (a b : AssignedFq2 n) :
    Built cc (fq2_sub info a b) := by
  unfold fq2_sub; tprog

theorem prog_fq2_double (info : RangeInfo n) (a : AssignedFq2 n) :
    Built cc (fq2_double info a) := by
  unfold fq2_double; tprog

theorem prog_fq2_square (info : RangeInfo n) (a : AssignedFq2 n) :
    Built cc (fq2_square info a) := by
  unfold fq2_square; tprog

theorem prog_fq2_neg (info : RangeInfo n) (a : AssignedFq2 n) :
    Built cc (fq2_neg info a) := by
  unfold fq2_neg; tprog

theorem prog_fq2_conjugate (info : RangeInfo n) (a : AssignedFq2 n) :
    Built cc (fq2_conjugate info a) := by
  unfold fq2_conjugate; tprog

theorem prog_fq2_unsafe_invert (info : RangeInfo n) (x : AssignedFq2 n) :
    Built cc (fq2_unsafe_invert info x) := by
  unfold fq2_unsafe_invert; tprog

theorem prog_fq2_mul_by_nonresidue (info : RangeInfo n) (crv : PairingCurve) (a : AssignedFq2 n) :
    Built cc (fq2_mul_by_nonresidue info crv a) := by
  unfold fq2_mul_by_nonresidue; tprog

theorem prog_fq6_reduce (info : RangeInfo n) (x : AssignedFq6 n) :
    Built cc (fq6_reduce info x) := by
  unfold fq6_reduce; tprog

theorem prog_fq6_assert_equal (info : RangeInfo n) (x y : AssignedFq6 n) :
    Built cc (fq6_assert_equal info x y) := by
  unfold fq6_assert_equal; tprog

theorem prog_fq6_assign_zero (info : RangeInfo n) :
    Built cc (fq6_assign_zero info) := by
  unfold fq6_assign_zero; tprog

theorem prog_fq6_assign_one (info : RangeInfo n) :
    Built cc (fq6_assign_one info) := by
  unfold fq6_assign_one; tprog

theorem prog_fq6_add (info : RangeInfo n) (a b : AssignedFq6 n) :
    Built cc (fq6_add info a b) := by
  unfold fq6_add; tprog

theorem prog_fq6_mul (info : RangeInfo n) (crv : PairingCurve) (a b : AssignedFq6 n) :
    Built cc (fq6_mul info crv a b) := by
  unfold fq6_mul; tprog

theorem prog_fq6_sub (info : RangeInfo n) (a b : AssignedFq6 n) :
    Built cc (fq6_sub info a b) := by
  unfold fq6_sub; tprog

theorem prog_fq6_double (info : RangeInfo n) (a : AssignedFq6 n) :
    Built cc (fq6_double info a) := by
  unfold fq6_double; tprog

theorem prog_fq6_square (info : RangeInfo n) (crv : PairingCurve) (a : AssignedFq6 n) :
    Built cc (fq6_square info crv a) := by
  unfold fq6_square; tprog

theorem prog_fq6_neg (info : RangeInfo n) (a : AssignedFq6 n) :
    Built cc (fq6_neg info a) := by
  unfold fq6_neg; tprog

theorem prog_fq6_mul_by_1 (info : RangeInfo n) (crv : PairingCurve) (a : AssignedFq6 n) (b1 : AssignedFq2 n) :
    Built cc (fq6_mul_by_1 info crv a b1) := by
  unfold fq6_mul_by_1; tprog

theorem prog_fq6_mul_by_01 (info : RangeInfo n) (crv : PairingCurve) (a : AssignedFq6 n) (b0 b1 : AssignedFq2 n) :
    Built cc (fq6_mul_by_01 info crv a b0 b1) := by
  unfold fq6_mul_by_01; tprog

theorem prog_fq6_unsafe_invert (info : RangeInfo n) (crv : PairingCurve) (x : AssignedFq6 n) :
    Built cc (fq6_unsafe_invert info crv x) := by
  unfold fq6_unsafe_invert; tprog

theorem prog_fq6_assign_constant (info : RangeInfo n) (c : (ℕ × ℕ) × (ℕ × ℕ) × (ℕ × ℕ)) :
    Built cc (fq6_assign_constant info c) := by
  unfold fq6_assign_constant; tprog

theorem prog_fq6_mul_by_nonresidue (info : RangeInfo n) (crv : PairingCurve) (a : AssignedFq6 n) :
    Built cc (fq6_mul_by_nonresidue info crv a) := by
  unfold fq6_mul_by_nonresidue; tprog

theorem prog_fq12_reduce (info : RangeInfo n) (x : AssignedFq12 n) :
    Built cc (fq12_reduce info x) := by
  unfold fq12_reduce; tprog

theorem prog_fq12_assert_eq (info : RangeInfo n) (x y : AssignedFq12 n) :
    Built cc (fq12_assert_eq info x y) := by
  unfold fq12_assert_eq; tprog

theorem prog_fq12_assign_zero (info : RangeInfo n) :
    Built cc (fq12_assign_zero info) := by
  unfold fq12_assign_zero; tprog

theorem prog_fq12_assign_one (info : RangeInfo n) :
    Built cc (fq12_assign_one info) := by
  unfold fq12_assign_one; tprog

theorem prog_fq12_assert_one (info : RangeInfo n) (x : AssignedFq12 n) :
    Built cc (fq12_assert_one info x) := by
  unfold fq12_assert_one; tprog

theorem prog_fq12_add (info : RangeInfo n) (a b : AssignedFq12 n) :
    Built cc (fq12_add info a b) := by
  unfold fq12_add; tprog

theorem prog_fq12_mul (info : RangeInfo n) (crv : PairingCurve) (a b : AssignedFq12 n) :
    Built cc (fq12_mul info crv a b) := by
  unfold fq12_mul; tprog

theorem prog_fq12_sub (info : RangeInfo n) (a b : AssignedFq12 n) :
    Built cc (fq12_sub info a b) := by
  unfold fq12_sub; tprog

theorem prog_fq12_double (info : RangeInfo n) (a : AssignedFq12 n) :
    Built cc (fq12_double info a) := by
  unfold fq12_double; tprog

theorem prog_fq12_square (info : RangeInfo n) (crv : PairingCurve) (a : AssignedFq12 n) :
    Built cc (fq12_square info crv a) := by
  unfold fq12_square; tprog

theorem prog_fq12_neg (info : RangeInfo n) (a : AssignedFq12 n) :
    Built cc (fq12_neg info a) := by
  unfold fq12_neg; tprog

theorem prog_fq12_conjugate (info : RangeInfo n) (x : AssignedFq12 n) :
    Built cc (fq12_conjugate info x) := by
  unfold fq12_conjugate; tprog

theorem prog_fq12_mul_by_014 (info : RangeInfo n) (crv : PairingCurve) (x : AssignedFq12 n) (c0 c1 c4 : AssignedFq2 n) :
    Built cc (fq12_mul_by_014 info crv x c0 c1 c4) := by
  unfold fq12_mul_by_014; tprog

theorem prog_fq12_mul_by_034 (info : RangeInfo n) (crv : PairingCurve) (x : AssignedFq12 n) (c0 c3 c4 : AssignedFq2 n) :
    Built cc (fq12_mul_by_034 info crv x c0 c3 c4) := by
  unfold fq12_mul_by_034; tprog

theorem prog_fp4_square (info : RangeInfo n) (crv : PairingCurve) (a0 a1 : AssignedFq2 n) :
    Built cc (fp4_square info crv a0 a1) := by
  unfold fp4_square; tprog

theorem prog_fq12_cyclotomic_square (info : RangeInfo n) (crv : PairingCurve) (x : AssignedFq12 n) :
    Built cc (fq12_cyclotomic_square info crv x) := by
  unfold fq12_cyclotomic_square; tprog

theorem prog_fq12_unsafe_invert (info : RangeInfo n) (crv : PairingCurve) (x : AssignedFq12 n) :
    Built cc (fq12_unsafe_invert info crv x) := by
  unfold fq12_unsafe_invert; tprog

theorem prog_fq12_assign_constant (info : RangeInfo n) (c : ((ℕ × ℕ) × (ℕ × ℕ) × (ℕ × ℕ)) × ((ℕ × ℕ) × (ℕ × ℕ) × (ℕ × ℕ))) :
    Built cc (fq12_assign_constant info c) := by
  unfold fq12_assign_constant; tprog

theorem prog_fq2_frobenius_map (info : RangeInfo n) (crv : PairingCurve) (x : AssignedFq2 n) (power : ℕ) :
    Built cc (fq2_frobenius_map info crv x power) := by
  unfold fq2_frobenius_map; tprog

theorem prog_fq6_frobenius_map (info : RangeInfo n) (crv : PairingCurve) (x : AssignedFq6 n) (power : ℕ) :
    Built cc (fq6_frobenius_map info crv x power) := by
  unfold fq6_frobenius_map; tprog

theorem prog_fq12_frobenius_map (info : RangeInfo n) (crv : PairingCurve) (x : AssignedFq12 n) (power : ℕ) :
    Built cc (fq12_frobenius_map info crv x power) := by
  unfold fq12_frobenius_map; tprog

theorem prog_doubling_step (info : RangeInfo n) (pt : AssignedG2 n) :
    Built cc (doubling_step info pt) := by
  unfold doubling_step; tprog

theorem prog_addition_step (info : RangeInfo n) (pt : AssignedG2 n) (pq : AssignedG2Affine n) :
    Built cc (addition_step info pt pq) := by
  unfold addition_step; tprog

theorem prog_g2affine_to_g2 (info : RangeInfo n) (g2 : AssignedG2Affine n) :
    Built cc (g2affine_to_g2 info g2) := by
  unfold g2affine_to_g2; tprog

theorem prog_g2_neg (info : RangeInfo n) (g2 : AssignedG2Affine n) :
    Built cc (g2_neg info g2) := by
  unfold g2_neg; tprog

theorem prog_ell (info : RangeInfo n) (crv : PairingCurve) (f : AssignedFq12 n) (coeffs : LineCoeffs n) (p : AssignedPoint n) :
    Built cc (ell info crv f coeffs p) := by
  unfold ell; tprog

theorem prog_ell_pairs (info : RangeInfo n) (crv : PairingCurve) (f : AssignedFq12 n)
    (l : List (AssignedPoint n × List (LineCoeffs n))) : Built cc (ell_pairs info crv f l) := by
  induction l generalizing f with
  | nil => exact .pure _
  | cons p l ih =>
    unfold ell_pairs
    exact .bind (prog_unwrap _) fun _ => .bind (prog_ell _ _ _ _ _) fun _ => .bind (ih _) fun _ => .pure _

theorem prog_assert_not_identity (l : List (AssignedPoint n × List (LineCoeffs n))) :
    Built cc (assert_not_identity l) := by
  induction l with
  | nil => exact .pure _
  | cons p l ih => exact .bind (prog_assert_false _) fun _ => ih

theorem prog_bn_prepare_step (info : RangeInfo n) (g2 neg_g2 : AssignedG2Affine n) (st : List (LineCoeffs n) × AssignedG2 n) (x : ℤ) :
    Built cc (bn_prepare_step info g2 neg_g2 st x) := by
  unfold bn_prepare_step
  exact .bind (prog_doubling_step ..) fun _ => .ite (.bind (prog_addition_step ..) fun _ => .pure _)
    (.ite (.bind (prog_addition_step ..) fun _ => .pure _) (.pure _))

theorem prog_bn_prepare_g2 (info : RangeInfo n) (g2 : AssignedG2Affine n) :
    Built cc (bn_prepare_g2 info g2) := by
  unfold bn_prepare_g2; tprog

theorem prog_bn_miller_loop (info : RangeInfo n) (xs : List ℤ) (first : Bool) (f : AssignedFq12 n)
    (l : List (AssignedPoint n × List (LineCoeffs n))) : Built cc (bn_miller_loop info first f l xs) := by
  induction xs generalizing first f l with
  | nil => unfold bn_miller_loop; exact .pure _
  | cons x xs ih =>
    unfold bn_miller_loop
    have step : ∀ g, Built cc (do
        let (f, pairs) ← ell_pairs info .bn256 g l
        let (f, pairs) ←
          if x = 1 then ell_pairs info .bn256 f pairs
          else if x = -1 then ell_pairs info .bn256 f pairs
          else pure (f, pairs)
        bn_miller_loop info false f pairs xs) := fun g =>
      .bind (prog_ell_pairs ..) fun _ => .ite (.bind (prog_ell_pairs ..) fun _ => ih ..)
        (.ite (.bind (prog_ell_pairs ..) fun _ => ih ..) (ih ..))
    exact .ite (.bind (.pure _) fun _ => step _) (.bind (prog_fq12_square ..) fun _ => step _)

theorem prog_bn_multi_miller_loop (info : RangeInfo n) (terms : List (AssignedPoint n × List (LineCoeffs n))) :
    Built cc (bn_multi_miller_loop info terms) := by
  unfold bn_multi_miller_loop; tprog

theorem prog_bn_exp_step (info : RangeInfo n) (f res : AssignedFq12 n) (bit : Bool) :
    Built cc (bn_exp_step info f res bit) := by
  unfold bn_exp_step; tprog

theorem prog_bn_exp_by_x (info : RangeInfo n) (f : AssignedFq12 n) :
    Built cc (bn_exp_by_x info f) := by
  unfold bn_exp_by_x; tprog

theorem prog_bn_final_exponentiation (info : RangeInfo n) (f : AssignedFq12 n) :
    Built cc (bn_final_exponentiation info f) := by
  unfold bn_final_exponentiation; tprog

theorem prog_bls_prepare_step (info : RangeInfo n) (g2 : AssignedG2Affine n) (st : Bool × List (LineCoeffs n) × AssignedG2 n) (i : Bool) :
    Built cc (bls_prepare_step info g2 st i) := by
  unfold bls_prepare_step
  exact .ite (.pure _) (.bind (prog_doubling_step ..) fun _ => .ite (.bind (prog_addition_step ..) fun _ => .pure _) (.pure _))

theorem prog_bls_prepare_g2 (info : RangeInfo n) (g2 : AssignedG2Affine n) :
    Built cc (bls_prepare_g2 info g2) := by
  unfold bls_prepare_g2; tprog

theorem prog_bls_miller_loop (info : RangeInfo n) (xs : List Bool) (found : Bool) (f : AssignedFq12 n)
    (l : List (AssignedPoint n × List (LineCoeffs n))) : Built cc (bls_miller_loop info found f l xs) := by
  induction xs generalizing found f l with
  | nil => unfold bls_miller_loop; exact .pure _
  | cons x xs ih =>
    unfold bls_miller_loop
    exact .ite (ih ..) (.bind (prog_ell_pairs ..) fun _ => .ite (.bind (prog_ell_pairs ..) fun _ =>
      .bind (prog_fq12_square ..) fun _ => ih ..) (.bind (.pure _) fun _ => .bind (prog_fq12_square ..) fun _ => ih ..))

theorem prog_bls_multi_miller_loop (info : RangeInfo n) (terms : List (AssignedPoint n × List (LineCoeffs n))) :
    Built cc (bls_multi_miller_loop info terms) := by
  unfold bls_multi_miller_loop; tprog

theorem prog_bls_exp_step (info : RangeInfo n) (f : AssignedFq12 n) (st : Bool × AssignedFq12 n) (i : Bool) :
    Built cc (bls_exp_step info f st i) := by
  unfold bls_exp_step
  have step : ∀ (b : Bool) (t : AssignedFq12 n), Built cc (if i then do
      let tmp ← fq12_mul info .bls12_381 t f
      pure (b, tmp)
    else pure (b, t)) := fun b t => .ite (.bind (prog_fq12_mul ..) fun _ => .pure _) (.pure _)
  exact .ite (.bind (prog_fq12_cyclotomic_square ..) fun _ => step _ _) (step _ _)

theorem prog_bls_cyclotomic_exp (info : RangeInfo n) (f : AssignedFq12 n) :
    Built cc (bls_cyclotomic_exp info f) := by
  unfold bls_cyclotomic_exp; tprog

theorem prog_bls_final_exponentiation (info : RangeInfo n) (f : AssignedFq12 n) :
    Built cc (bls_final_exponentiation info f) := by
  unfold bls_final_exponentiation; tprog

theorem prog_prepare_g2 (info : RangeInfo n) (crv : PairingCurve) (g2 : AssignedG2Affine n) :
    Built cc (prepare_g2 info crv g2) := by
  cases crv
  · exact prog_bn_prepare_g2 info g2
  · exact prog_bls_prepare_g2 info g2

theorem prog_multi_miller_loop (info : RangeInfo n) (crv : PairingCurve) (l : List (AssignedPoint n × List (LineCoeffs n))) :
    Built cc (multi_miller_loop info crv l) := by
  cases crv
  · exact prog_bn_multi_miller_loop info l
  · exact prog_bls_multi_miller_loop info l

theorem prog_final_exponentiation (info : RangeInfo n) (crv : PairingCurve) (f : AssignedFq12 n) :
    Built cc (final_exponentiation info crv f) := by
  cases crv
  · exact prog_bn_final_exponentiation info f
  · exact prog_bls_final_exponentiation info f

theorem prog_prepare_terms (info : RangeInfo n) (crv : PairingCurve) (l : List (AssignedPoint n × AssignedG2Affine n)) :
    Built cc (prepare_terms info crv l) := by
  induction l with
  | nil => exact .pure _
  | cons p l ih => exact .bind (prog_prepare_g2 ..) fun _ => .bind ih fun _ => .pure _

theorem prog_pairing (info : RangeInfo n) (crv : PairingCurve) (terms : List (AssignedPoint n × AssignedG2Affine n)) :
    Built cc (pairing info crv terms) := by
  unfold pairing; tprog

theorem prog_check_pairing (info : RangeInfo n) (crv : PairingCurve) (terms : List (AssignedPoint n × AssignedG2Affine n)) :
    Built cc (check_pairing info crv terms) := by
  unfold check_pairing; tprog

theorem prog_tabM {α : Type} : ∀ {k : ℕ} {f : Fin k → M n α}, (∀ i, Built cc (f i)) → Built cc (tabM f)
  | 0, _, _ => .pure _
  | _ + 1, _, h => .bind (h 0) fun _ => .bind (prog_tabM fun i => h i.succ) fun _ => .pure _

theorem prog_keccak_init  :
    Built cc (keccak_init : M n _) := by
  unfold keccak_init; tprog

theorem prog_theta_column (y : Fin 5 → Lane n) :
    Built cc (theta_column y) := by
  unfold theta_column; tprog

theorem prog_theta (state : KState n) :
    Built cc (theta state) := by
  unfold theta; tprog

theorem prog_keccak_xi (state : KState n) :
    Built cc (keccak_xi state) := by
  unfold keccak_xi; tprog

theorem prog_iota (state : KState n) (round : ℕ) :
    Built cc (iota state round) := by
  unfold iota; tprog

theorem prog_permute_rounds (is : List ℕ) (s : KState n) : Built cc (permute_rounds is s) := by
  induction is generalizing s with
  | nil => exact .pure _
  | cons i is ih =>
    exact .bind (prog_theta _) fun _ => .bind (prog_keccak_xi _) fun _ => .bind (prog_iota _ _) fun _ => ih _

theorem prog_permute (state : KState n) :
    Built cc (permute state) := by
  unfold permute; tprog

theorem prog_absorb (state : KState n) (input : List (AssignedCondition n)) :
    Built cc (absorb state input) := by
  unfold absorb; tprog

theorem prog_decompose_u256_with (s_bn : ℕ) (s : AssignedValue n) :
    Built cc (decompose_u256_with s_bn s) := by
  unfold decompose_u256_with; tprog

theorem prog_decompose_scalar_as_u256_be (s : AssignedValue n) :
    Built cc (decompose_scalar_as_u256_be s) := by
  unfold decompose_scalar_as_u256_be; tprog

theorem prog_compose_loop (l : List (AssignedCondition n)) (acc : AssignedValue n) : Built cc (compose_loop l acc) := by
  fun_induction compose_loop l acc with
  | case1 b1 b0 s acc ih => exact .bind (prog_sum_with_constant _ _) fun _ => ih _
  | case2 => exact .pure _

theorem prog_compose_to_scalar_be (s : List (AssignedCondition n)) :
    Built cc (compose_to_scalar_be s) := by
  unfold compose_to_scalar_be; tprog

theorem prog_hash_with {decompose : List (AssignedValue n) → M n (List (List (AssignedCondition n)))}
    (h : ∀ l, Built cc (decompose l)) (input : List (AssignedValue n)) : Built cc (hash_with decompose input) := by
  unfold hash_with
  exact .bind (prog_assign_constant _) fun _ => .bind (prog_assign_constant _) fun _ => .bind prog_keccak_init fun _ =>
    .bind (h _) fun _ => .bind (prog_foldlM prog_absorb _ _) fun _ => prog_compose_to_scalar_be _

theorem prog_keccak_hash (input : List (AssignedValue n)) :
    Built cc (keccak_hash input) := by
  unfold keccak_hash; tprog

end Verif
