import Verif.Proof.Scalar
import Verif.Props.Integer

/-!
# C26, C27: scalar decomposition

`Windows f ws res k`: `res` are windows of `ws` bits, most significant window first, forming the binary expansion of
`k`.

Both properties fail as stated, because the digits come from `assign_bit` (see C06): see `Verif.Props.ScalarForge` for the
forged digits. The theorems below hold for the advice assignments in which the two cells of every `assign_bit` row
agree (`BitRowsConsistent`), which is what the missing copy constraint would enforce.
-/

namespace Verif
variable {n wm : ℕ} {info : RangeInfo n}

/-- C26, partial. Full statement: without the hypothesis `hb`. Missing: the copy constraint in `assign_bit`. -/
theorem C26_partial [Fact n.Prime] (num_bits ws : ℕ) (hws : 1 ≤ ws) (s : AssignedValue n) (c : Circuit n)
    (w : Advice n) (hw : c.Sat w) (hb : c.BitRowsConsistent w) :
    S c (decompose_scalar_native num_bits ws s) (fun res =>
      ∃ k, Windows (cv w) ws res k ∧ res.length = (num_bits + ws - 1) / ws ∧ (k : ZMod n) = w s.cell) :=
  S_decompose_scalar_native hw hb (by omega) s

/-- C26, honest prover: every scalar is decomposed and the digits are those of its canonical representative. -/
theorem C26_complete [Fact n.Prime] (num_bits ws : ℕ) (hws : 1 ≤ ws) (hn : n ≤ 2 ^ num_bits) (s : AssignedValue n) :
    Complete (decompose_scalar_native num_bits ws s) (fun h => Ok h s)
      (fun res => Windows AssignedValue.val ws res s.val.val ∧ res.length = (num_bits + ws - 1) / ws)
      (fun h res => ∀ win ∈ res, ∀ b ∈ win, Ok h b) :=
  fun _ _ => C_decompose_scalar_native (by omega) hn fun h => h

/-- C27, partial. Full statement: without the hypothesis `hb`. Missing: the copy constraint in `assign_bit`. -/
theorem C27_partial [Fact n.Prime] (hi : RangeInfo.new wm n 18 6 = .ok info) (ws : ℕ) (hws : 1 ≤ ws)
    (s : AssignedInteger n) (c : Circuit n) (w : Advice n) (hw : c.Sat w) (hb : c.BitRowsConsistent w) :
    S c (decompose_scalar_general info ws s) (fun res => ∀ x, Rep wm info w s x →
      ∃ k, Windows (cv w) ws res k ∧ res.length = (108 * info.limbs + ws - 1) / ws ∧ (k : ZMod wm) = x) :=
  (S_decompose_scalar_general hw hb (RangeInfo.new_valid hi) (by omega) s).mono fun _ h x hx => by
    obtain ⟨k, h1, h2, h3⟩ := h hx.wf
    exact ⟨k, h1, h2, by rw [h3, hx.eq]⟩

/-- C27, honest prover: the digits are those of the canonical representative. -/
theorem C27_complete [Fact n.Prime] (hi : RangeInfo.new wm n 18 6 = .ok info) (ws : ℕ) (hws : 1 ≤ ws)
    (s : AssignedInteger n) (x : ZMod wm) (hx : HRep wm info s x) :
    Complete (decompose_scalar_general info ws s) (fun h => OkI h s)
      (fun res => Windows AssignedValue.val ws res x.val ∧ res.length = (108 * info.limbs + ws - 1) / ws)
      (fun h res => ∀ win ∈ res, ∀ b ∈ win, Ok h b) := fun _ _ =>
  (C_decompose_scalar_general (RangeInfo.new_valid hi) (by omega) hx.honest fun h => h).mono (fun r hr => by
    rw [← ZMod.val_natCast, hx.eq] at hr; exact hr) fun _ _ _ h => h

/-- Non-vacuity of C26 and C27: for the bn256 scalar field (254 bits) and for a bls12_381 scalar handled over it
(255 bits, three limbs), decompositions into windows of 1 and of 4 bits are accepted. -/
theorem scalarDemo_accepted (x : ZMod bnR) (y : ZMod blsR) :
    Accepted (do let s ← assign x; decompose_scalar_native 254 4 s : M bnR _)
      (fun res => Windows AssignedValue.val 4 res x.val ∧ res.length = 64) ∧
    ∃ info : RangeInfo bnR, RangeInfo.new blsR bnR 18 6 = .ok info ∧
      Accepted (do let s ← assign_w info y.val; decompose_scalar_general info 1 s : M bnR _)
        (fun res => Windows AssignedValue.val 1 res y.val ∧ res.length = 324) := by
  refine ⟨Accepted.of_C (Q := fun _ _ => True) fun c h => ?_, ?_⟩
  · refine C.bind C_assign fun s hs => (C_decompose_scalar_native (by omega) (by decide +kernel)
      fun hH => hH.2).mono (fun r hr => ?_) fun _ _ _ _ => trivial
    rw [hs] at hr
    exact hr
  · obtain ⟨info, hs⟩ := Setup.of_summary summary_blsR
    have hl : info.limbs = 3 := by
      have := hs.summary
      simp only [List.cons.injEq] at this
      omega
    haveI : NeZero blsR := ⟨by decide +kernel⟩
    refine ⟨info, hs.new, Accepted.of_C (Q := fun _ _ => True) fun c h => ?_⟩
    refine C.bind (C11_assign_w_complete hs.new _ (ZMod.val_lt y) c h) fun s hs' =>
      ((C27_complete hs.new 1 le_rfl s y (by rw [← ZMod.natCast_zmod_val y]; exact hs'.1) c h).weaken
      fun hH => hH.2).mono (fun r hr => ?_) fun _ _ _ _ => trivial
    rw [hl] at hr
    exact hr

end Verif
