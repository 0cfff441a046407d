import Verif.Spec.TowerProg
import Verif.Props.EccProg
import Verif.Props.Pairing

/-!
# The calls of the tower, under one heading

Preparation for C56 (`Props/TowerProg.lean`): every call that produces an element of the tower realises its reference meaning.
-/

namespace Verif
variable {n : ℕ} {crv : PairingCurve} {info : RangeInfo n}

/-! ## Every call realises its reference meaning -/

section ops
variable {A B X Y A' A₂ A₃ X' X₂ X₃ : Type} {cod : Enc n B Y} {e : Enc n A X} {e' : Enc n A' X'} {e₂ : Enc n A₂ X₂}
  {e₃ : Enc n A₃ X₃}

/-- One operand. -/
theorem Realises.un {m : A → M n B} {G : X → Y → Prop} (h : Realises e cod m G) :
    Realises (e.prod encU) cod (fun a => m a.1) (fun x y => G x.1 y) :=
  h.comap (dom' := e.prod encU) Prod.fst Prod.fst (fun _ _ _ h => h.1) (fun _ _ h => h.1) fun _ _ h => h.1

/-- Two operands. -/
theorem Realises.bin {m : A × A' → M n B} {G : X × X' → Y → Prop} (h : Realises (e.prod e') cod m G) :
    Realises (e.prod (e'.prod encU)) cod (fun a => m (a.1, a.2.1)) (fun x y => G (x.1, x.2.1) y) :=
  h.comap (dom' := e.prod (e'.prod encU)) (fun a => (a.1, a.2.1)) (fun x => (x.1, x.2.1))
    (fun _ _ _ h => ⟨h.1, h.2.1⟩) (fun _ _ h => ⟨h.1, h.2.1⟩) fun _ _ h => ⟨h.1, h.2.1⟩

/-- Three operands. -/
theorem Realises.ter {m : A × A' × A₂ → M n B} {G : X × X' × X₂ → Y → Prop} (h : Realises (e.prod (e'.prod e₂)) cod m G) :
    Realises (e.prod (e'.prod (e₂.prod encU))) cod (fun a => m (a.1, a.2.1, a.2.2.1))
      (fun x y => G (x.1, x.2.1, x.2.2.1) y) :=
  h.comap (dom' := e.prod (e'.prod (e₂.prod encU))) (fun a => (a.1, a.2.1, a.2.2.1)) (fun x => (x.1, x.2.1, x.2.2.1))
    (fun _ _ _ h => ⟨h.1, h.2.1, h.2.2.1⟩) (fun _ _ h => ⟨h.1, h.2.1, h.2.2.1⟩) fun _ _ h => ⟨h.1, h.2.1, h.2.2.1⟩

/-- Four operands. -/
theorem Realises.quat {m : A × A' × A₂ × A₃ → M n B} {G : X × X' × X₂ × X₃ → Y → Prop}
    (h : Realises (e.prod (e'.prod (e₂.prod e₃))) cod m G) :
    Realises (e.prod (e'.prod (e₂.prod (e₃.prod encU)))) cod (fun a => m (a.1, a.2.1, a.2.2.1, a.2.2.2.1))
      (fun x y => G (x.1, x.2.1, x.2.2.1, x.2.2.2.1) y) :=
  h.comap (dom' := e.prod (e'.prod (e₂.prod (e₃.prod encU)))) (fun a => (a.1, a.2.1, a.2.2.1, a.2.2.2.1))
    (fun x => (x.1, x.2.1, x.2.2.1, x.2.2.2.1)) (fun _ _ _ h => ⟨h.1, h.2.1, h.2.2.1, h.2.2.2.1⟩)
    (fun _ _ h => ⟨h.1, h.2.1, h.2.2.1, h.2.2.2.1⟩) fun _ _ h => ⟨h.1, h.2.1, h.2.2.1, h.2.2.2.1⟩

/-- Nothing but rearrangement. -/
theorem Realises.pure_ {dom : Enc n A X} (f : A → B) (g : X → Y)
    (h1 : ∀ w a x, dom.rep w a x → cod.rep w (f a) (g x)) (h2 : ∀ a x, dom.hrep a x → cod.hrep (f a) (g x))
    (h3 : ∀ k a, dom.ok k a → cod.ok k (f a)) : Computes dom cod (fun a => pure (f a)) g where
  sound a c w _ := S.pure fun x hx => ⟨_, rfl, h1 w a x hx⟩
  complete a x hx _ c k := C.pure ⟨_, rfl, h2 a x hx⟩ (h3 k a)

end ops

theorem frob_realises (E : Env (pairQ crv) info) (k : ℕ) (l : Lv) :
    Realises (l.enc info crv) (l.enc info crv) (fun a => l.frob info crv a k)
      (fun x y => crv = .bn256 ∨ k = 1 → y = x ^ pairQ crv ^ k) := by
  cases crv
  · cases l
    · exact (C40_bn256_fq2_frobenius E k).realises fun x _ => rfl
    · exact (C40_bn256_fq6_frobenius E k).realises fun x _ => rfl
    · exact (C40_bn256_fq12_frobenius E k).realises fun x _ => rfl
  · cases l
    · exact (C40_bls12_381_fq2_frobenius_partial E k).realises fun x h => by
        obtain h | rfl := h
        · cases h
        · rw [pow_one]; rfl
    · exact (C40_bls12_381_fq6_frobenius_partial E k).realises fun x h => by
        obtain h | rfl := h
        · cases h
        · rw [pow_one]; rfl
    · exact (C40_bls12_381_fq12_frobenius_partial E k).realises fun x h => by
        obtain h | rfl := h
        · cases h
        · rw [pow_one]; rfl

theorem nat2_lt (x : Fq2 (pairQ crv)) : (nat2 x).1 < pairQ crv ∧ (nat2 x).2 < pairQ crv :=
  have : NeZero (pairQ crv) := ⟨(Fact.out : (pairQ crv).Prime).ne_zero⟩
  ⟨ZMod.val_lt _, ZMod.val_lt _⟩

theorem nat2_cast (x : Fq2 (pairQ crv)) : (⟨((nat2 x).1 : ZMod (pairQ crv)), ((nat2 x).2 : ZMod (pairQ crv))⟩ : Fq2 (pairQ crv)) = x := by
  have : NeZero (pairQ crv) := ⟨(Fact.out : (pairQ crv).Prime).ne_zero⟩
  ext
  · exact ZMod.natCast_zmod_val _
  · exact ZMod.natCast_zmod_val _

theorem nat6_cast (x : Fq6 (pairQ crv) crv) : (⟨⟨(nat6 x).1.1, (nat6 x).1.2⟩, ⟨(nat6 x).2.1.1, (nat6 x).2.1.2⟩,
    ⟨(nat6 x).2.2.1, (nat6 x).2.2.2⟩⟩ : Fq6 (pairQ crv) crv) = x := by
  ext1
  · exact nat2_cast _
  · exact nat2_cast _
  · exact nat2_cast _

set_option maxHeartbeats 2000000 in
/-- Every call that produces an element of the tower realises its reference meaning. -/
theorem TOp.realises (E : Env (pairQ crv) info) {ls : List Lv} {l : Lv} (o : TOp crv ls l) :
    Realises (encTup info crv ls) (l.enc info crv) (o.run info) o.rel := by
  cases o with
  | zero l => cases l; exacts [C38_fq2_assign_zero E, C38_fq6_assign_zero E crv, C38_fq12_assign_zero E crv]
  | one l => cases l; exacts [C38_fq2_assign_one E, C38_fq6_assign_one E crv, C38_fq12_assign_one E crv]
  | const l x =>
    cases l
    · exact (C38_fq2_assign_constant E (nat2_lt x).1 (nat2_lt x).2).realises fun _ => nat2_cast x
    · exact (C38_fq6_assign_constant E crv (c := nat6 x) (nat2_lt _) (nat2_lt _) (nat2_lt _)).realises fun _ => nat6_cast x
    · refine (C38_fq12_assign_constant E crv (c := (nat6 x.re, nat6 x.im)) ⟨nat2_lt _, nat2_lt _, nat2_lt _⟩
        ⟨nat2_lt _, nat2_lt _, nat2_lt _⟩).realises fun _ => ?_
      ext1
      · exact nat6_cast x.re
      · exact nat6_cast x.im
  | neg l => cases l; exacts [(C38_fq2_neg E).un, (C38_fq6_neg E crv).un, (C38_fq12_neg E crv).un]
  | double l => cases l; exacts [(C38_fq2_double E).un, (C38_fq6_double E crv).un, (C38_fq12_double E crv).un]
  | square l =>
    cases l
    · exact (Computes.realises (G := fun x y => y = x ^ 2) (C38_fq2_square E) fun x => (sq x).symm).un
    · exact (Computes.realises (G := fun x y => y = x ^ 2) (C38_fq6_square E crv) fun x => (sq x).symm).un
    · exact (Computes.realises (G := fun x y => y = x ^ 2) (C38_fq12_square E crv) fun x => (sq x).symm).un
  | reduce l => cases l; exacts [(C38_fq2_reduce E).un, (C38_fq6_reduce E crv).un, (C38_fq12_reduce E crv).un]
  | add l => cases l; exacts [(C38_fq2_add E).bin, (C38_fq6_add E crv).bin, (C38_fq12_add E crv).bin]
  | sub l => cases l; exacts [(C38_fq2_sub E).bin, (C38_fq6_sub E crv).bin, (C38_fq12_sub E crv).bin]
  | mul l => cases l; exacts [(C38_fq2_mul E).bin, (C38_fq6_mul E crv).bin, (C38_fq12_mul E crv).bin]
  | inv l =>
    cases l
    exacts [(C38_fq2_unsafe_invert E).un, (C38_fq6_unsafe_invert E crv).un, (C38_fq12_unsafe_invert E crv).un]
  | frob l k => exact (frob_realises E k l).un
  | conj2 => exact (Computes.realises (G := fun x y => y.re = x.re ∧ y.im = -x.im) (C38_fq2_conjugate E) fun x => ⟨rfl, rfl⟩).un
  | conj12 => exact (Computes.realises (G := fun x y => y.re = x.re ∧ y.im = -x.im) (C38_fq12_conjugate E crv) fun x => ⟨rfl, rfl⟩).un
  | xi2 => exact (C38_fq2_mul_by_nonresidue E crv).un
  | xi6 => exact (C38_fq6_mul_by_nonresidue E crv).un
  | mul1 => exact (C38_fq6_mul_by_1 E crv).bin
  | mul01 => exact (C38_fq6_mul_by_01 E crv).ter
  | mul014 => exact (C38_fq12_mul_by_014 E crv).quat
  | mul034 => exact (C38_fq12_mul_by_034 E crv).quat
  | cyc =>
    refine (Computes.realises (G := fun x y => x ^ (pairQ crv ^ 4 - pairQ crv ^ 2 + 1) = 1 → y = x ^ 2)
      (C39_restriction_needed E).1 fun x h => ?_).un
    rw [cycSq_eq (towerOk crv) x (cyclotomic_of h), sq]
  | finalExp => cases crv; exacts [(C43_bn256_final_exponentiation E).un, (C43_bls12_381_final_exponentiation E).un]
  | make6 =>
    have h : Computes (encTup info crv [.f2, .f2, .f2]) (Lv.enc info crv .f6)
        (fun a => pure (⟨a.1, a.2.1, a.2.2.1⟩ : AssignedFq6 n)) (fun x => (⟨x.1, x.2.1, x.2.2.1⟩ : Fq6 (pairQ crv) crv)) :=
      Realises.pure_ _ _ (fun _ _ _ h => ⟨h.1, h.2.1, h.2.2.1⟩) (fun _ _ h => ⟨h.1, h.2.1, h.2.2.1⟩)
        fun _ _ h => ⟨h.1, h.2.1, h.2.2.1⟩
    exact h.realises fun x => ⟨rfl, rfl, rfl⟩
  | make12 =>
    have h : Computes (encTup info crv [.f6, .f6]) (Lv.enc info crv .f12)
        (fun a => pure (⟨a.1, a.2.1⟩ : AssignedFq12 n)) (fun x => (⟨x.1, x.2.1⟩ : Fq12 (pairQ crv) crv)) :=
      Realises.pure_ _ _ (fun _ _ _ h => ⟨h.1, h.2.1⟩) (fun _ _ h => ⟨h.1, h.2.1⟩) fun _ _ h => ⟨h.1, h.2.1⟩
    exact h.realises fun x => ⟨rfl, rfl⟩
  | part6 k =>
    refine Realises.pure_ _ _ (fun w a x h => ?_) (fun a x h => ?_) fun w a h => ?_
    · fin_cases k; exacts [h.1.c0, h.1.c1, h.1.c2]
    · fin_cases k; exacts [h.1.c0, h.1.c1, h.1.c2]
    · fin_cases k; exacts [h.1.1, h.1.2.1, h.1.2.2]
  | part12 k =>
    refine Realises.pure_ _ _ (fun w a x h => ?_) (fun a x h => ?_) fun w a h => ?_
    · fin_cases k; exacts [h.1.re, h.1.im]
    · fin_cases k; exacts [h.1.re, h.1.im]
    · fin_cases k; exacts [h.1.1, h.1.2]

theorem assertEq_realises (E : Env (pairQ crv) info) (l : Lv) :
    Realises ((l.enc info crv).prod (l.enc info crv)) encU (fun p => l.assertEq info p.1 p.2) (fun p _ => p.1 = p.2) := by
  cases l
  exacts [C38_fq2_assert_equal E, C38_fq6_assert_equal E crv, C38_fq12_assert_eq E crv]

end Verif
