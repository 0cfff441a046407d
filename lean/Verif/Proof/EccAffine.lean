import Verif.Proof.Ecc
import Verif.Proof.MsmMath

/-!
# Affine points: negation, reduction, selection among candidates (soundness)
-/

namespace Verif
variable {n wm : ℕ} {info : RangeInfo n} {b : ZMod wm}

section
variable [Fact n.Prime] (h : RangeInfo.new wm n 18 6 = .ok info) {c : Circuit n} {w : Advice n} (hw : c.Sat w)
include h hw

theorem S_neg_nz [Fact wm.Prime] (a : AssignedNonZeroPoint n) : S c (ecc_neg_non_zero info a) (fun r => ∀ P : Pt b,
    NRep info w a P → NRep info w r (-P)) :=
  S.bind (C12_neg_sound h a.y c w hw) fun _ => S.pure fun hy _ ⟨x, y, hx, hy', hP⟩ =>
    ⟨x, -y, hx, (hy _ hy').1, hP.neg⟩

theorem S_reduce_nz (a : AssignedNonZeroPoint n) : S c (ecc_reduce_non_zero info a) (fun r => ∀ P : Pt b,
    NRep info w a P → NRep info w r P ∧ r.x.times = 1 ∧ r.y.times = 1) :=
  S.bind (C13_reduce_sound h a.x c w hw) fun _ => S.bind (C13_reduce_sound h a.y c w hw) fun _ =>
    S.pure fun hy hx _ ⟨x, y, hx', hy', hP⟩ =>
      ⟨⟨x, y, (hx _ hx').1, (hy _ hy').1, hP⟩, (hx _ hx').2, (hy _ hy').2⟩

theorem S_bisec_nz (cond : AssignedCondition n) (p q : AssignedNonZeroPoint n) :
    S c (ecc_bisec_non_zero_point info cond p q) (fun r => ∀ P Q : Pt b, NRep info w p P → NRep info w q Q →
      (cv w cond = 1 → NRep info w r P) ∧ (cv w cond = 0 → NRep info w r Q)) :=
  S.bind (BG_sound h hw cond _ _) fun _ => S.bind (BG_sound h hw cond _ _) fun _ =>
    S.pure fun hy hx _ _ ⟨x, y, hx1, hy1, hP⟩ ⟨x', y', hx2, hy2, hQ⟩ =>
      ⟨fun hc => ⟨x, y, (hx _ _ hx1 hx2).1 hc, (hy _ _ hy1 hy2).1 hc, hP⟩,
       fun hc => ⟨x', y', (hx _ _ hx1 hx2).2 hc, (hy _ _ hy1 hy2).2 hc, hQ⟩⟩

theorem S_assert_equal_nz [Fact wm.Prime] (p q : AssignedNonZeroPoint n) :
    S c (ecc_assert_equal_non_zero info p q) (fun _ => ∀ P Q : Pt b, NRep info w p P → NRep info w q Q → P = Q) :=
  S.bind (C16_assert_int_equal_sound h p.x q.x c w hw) fun _ => (C16_assert_int_equal_sound h p.y q.y c w hw).mono
    fun _ hy hx _ _ ⟨x, y, hx1, hy1, hP⟩ ⟨x', y', hx2, hy2, hQ⟩ => by
      have e1 := hx _ _ hx1 hx2
      have e2 := hy _ _ hy1 hy2
      subst e1
      subst e2
      exact hP.inj hQ

omit [Fact n.Prime] h in
theorem S_downgrade (a : AssignedNonZeroPoint n) : S c (ecc_non_zero_point_downgrade a) (fun r => ∀ P : Pt b,
    NRep info w a P → PRep info w r P) :=
  S.bind (S_assign_constant hw 0) fun _ => S.pure fun hz _ ⟨x, y, hx, hy, hP⟩ => ⟨x, y, hx, hy, .inr ⟨hz, hP⟩⟩

theorem S_bisec_to_nz (p : AssignedPoint n) (q : AssignedNonZeroPoint n) :
    S c (ecc_bisec_to_non_zero_point info p q) (fun r => ∀ P Q : Pt b, PRep info w p P → NRep info w q Q →
      (cv w p.z = 1 → NRep info w r Q) ∧ (cv w p.z = 0 → NRep info w r P)) :=
  S.bind (BG_sound h hw p.z _ _) fun _ => S.bind (BG_sound h hw p.z _ _) fun _ =>
    S.pure fun hy hx _ _ ⟨x, y, hx1, hy1, hP⟩ ⟨x', y', hx2, hy2, hQ⟩ =>
      ⟨fun hc => ⟨x', y', (hx _ _ hx2 hx1).1 hc, (hy _ _ hy2 hy1).1 hc, hQ⟩,
       fun hc => ⟨x, y, (hx _ _ hx2 hx1).2 hc, (hy _ _ hy2 hy1).2 hc, by
        rcases hP with ⟨hz, -⟩ | ⟨-, hP⟩
        · exact absurd ((show w p.z.cell = 0 from hc).symm.trans hz) zero_ne_one
        · exact hP⟩⟩

/-! ### Candidates -/

theorem S_bisec_pairs (bit : AssignedCondition n) : ∀ cl : List (AssignedNonZeroPoint n),
    S c (bisec_pairs info bit cl) (fun r => ∀ Q : ℕ → Pt b, (∀ i p, cl[i]? = some p → NRep info w p (Q i)) →
      (cv w bit = 0 ∨ cv w bit = 1) →
      ∀ j p, r[j]? = some p → NRep info w p (Q ((cv w bit).val + 2 * j)))
  | [] => by unfold bisec_pairs; exact S.pure fun Q _ _ j p hp => by simp at hp
  | [_] => by unfold bisec_pairs; exact S.panic
  | a0 :: a1 :: rest => by
    unfold bisec_pairs
    refine S.bind (S_bisec_nz (b := b) h hw bit a1 a0) fun cell => S.bind (S_bisec_pairs bit rest) fun next =>
      S.pure fun hn hc Q hQ hb j p hp => ?_
    rcases j with _ | j
    · cases hp
      have h0 := hQ 0 a0 rfl
      have h1 := hQ 1 a1 rfl
      rcases hb with e | e
      · rw [e]; simpa using (hc _ _ h1 h0).2 e
      · rw [e, ZMod.val_one n]; exact (hc _ _ h1 h0).1 e
    · have := hn (fun i => Q (i + 2)) (fun i p hp => hQ (i + 2) p (by simpa using hp)) hb j p (by simpa using hp)
      rwa [show (cv w bit).val + 2 * (j + 1) = (cv w bit).val + 2 * j + 2 by ring]

theorem S_bisec_rounds : ∀ (bits : List (AssignedCondition n)) (cl : List (AssignedNonZeroPoint n)),
    S c (bisec_rounds info cl bits) (fun r => ∀ Q : ℕ → Pt b, (∀ i p, cl[i]? = some p → NRep info w p (Q i)) →
      (∀ x ∈ bits, cv w x = 0 ∨ cv w x = 1) →
      ∀ j p, r[j]? = some p → NRep info w p (Q (binVal (cv w) bits + 2 ^ bits.length * j)))
  | [], cl => by
    unfold bisec_rounds
    exact S.pure fun Q hQ _ j p hp => by simpa [binVal] using hQ j p hp
  | bit :: bits, cl => by
    unfold bisec_rounds
    refine S.bind (S_bisec_pairs (b := b) h hw bit cl) fun next => (S_bisec_rounds bits next).mono ?_
    intro r hr hn Q hQ hb j p hp
    have := hr _ (hn Q hQ (hb bit (by simp))) (fun x hx => hb x (by simp [hx])) j p hp
    rwa [show binVal (cv w) (bit :: bits) + 2 ^ (bit :: bits).length * j =
      (cv w bit).val + 2 * (binVal (cv w) bits + 2 ^ bits.length * j) by
        simp only [binVal, List.length_cons, pow_succ]; ring]

theorem S_bisec_candidate (cl : List (AssignedNonZeroPoint n)) (bits : List (AssignedCondition n)) :
    S c (bisec_candidate_non_zero info cl bits) (fun r => ∀ Q : ℕ → Pt b,
      (∀ i p, cl[i]? = some p → NRep info w p (Q i)) → (∀ x ∈ bits, cv w x = 0 ∨ cv w x = 1) →
      NRep info w r (Q (binVal (cv w) bits))) := by
  unfold bisec_candidate_non_zero
  refine S.bind (S_bisec_rounds (b := b) h hw bits cl) fun curr => S.bind_rassert fun _ => S.index.mono ?_
  intro r hr hc Q hQ hb
  simpa using hc Q hQ hb 0 r hr

end
end Verif
