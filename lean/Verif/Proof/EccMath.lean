import Verif.Proof.Curve

/-!
# Case analyses of the ECC chip

The part of the arguments that is the same for soundness and completeness: `R` says which field element an
assigned integer stands for and `f` gives the value of a cell, either under an advice assignment or as
recorded.
-/

namespace Verif
variable {n wm : ℕ} [Fact wm.Prime] {b : ZMod wm}
variable {R : AssignedInteger n → ZMod wm → Prop} {f : AssignedValue n → ZMod n}

/-- `PRep` and `HPRep` in general. -/
def PG (R : AssignedInteger n → ZMod wm → Prop) (f : AssignedValue n → ZMod n) (p : AssignedPoint n) (P : Pt b) :
    Prop :=
  ∃ x y, R p.x x ∧ R p.y y ∧ ((f p.z = 1 ∧ P = 0) ∨ (f p.z = 0 ∧ HasCoords P x y))

/-- `TangentRep` and `HTangentRep` in general. -/
def TG (R : AssignedInteger n → ZMod wm → Prop) (f : AssignedValue n → ZMod n) (l : AssignedCurvature n)
    (x y : ZMod wm) : Prop :=
  (y = 0 → f l.z = 1) ∧ (y ≠ 0 → f l.z = 0 ∧ R l.v (3 * x ^ 2 / (2 * y)))

/-- Selection between integers. -/
def BG (R : AssignedInteger n → ZMod wm → Prop) (k : ZMod n) (a b r : AssignedInteger n) : Prop :=
  ∀ x y, R a x → R b y → (k = 1 → R r x) ∧ (k = 0 → R r y)

theorem PG.bit {p : AssignedPoint n} {P : Pt b} (h : PG R f p P) : f p.z = 1 ∨ f p.z = 0 := by
  obtain ⟨_, _, _, _, h | h⟩ := h
  exacts [.inl h.1, .inr h.1]

/-- Selection between points whose coordinates are well formed. -/
theorem PG.bisec {k : ZMod n} {p q r : AssignedPoint n} {x y x' y' : ZMod wm}
    (hx : R p.x x) (hy : R p.y y) (hx' : R q.x x') (hy' : R q.y y')
    (bx : BG R k p.x q.x r.x) (by' : BG R k p.y q.y r.y) (bz : f r.z = k * f p.z + (1 - k) * f q.z) (P : Pt b) :
    (k = 1 → PG R f p P → PG R f r P) ∧ (k = 0 → PG R f q P → PG R f r P) := by
  constructor
  · rintro hk ⟨u, v, hu, hv, h⟩
    refine ⟨u, v, (bx _ _ hu hx').1 hk, (by' _ _ hv hy').1 hk, ?_⟩
    rw [bz, hk]
    simpa using h
  · rintro hk ⟨u, v, hu, hv, h⟩
    refine ⟨u, v, (bx _ _ hx hu).2 hk, (by' _ _ hy hv).2 hk, ?_⟩
    rw [bz, hk]
    simpa using h

/-- The case analysis of `ecc_add`. -/
theorem add_math (hb : GoodCurve b) {a : AssignedPointWithCurvature n} {q : AssignedPoint n} {P Q : Pt b}
    (hn : (0 : ZMod n) ≠ 1)
    {x₁ y₁ x₂ y₂ k t : ZMod wm} (hx₁ : R a.x x₁) (hy₁ : R a.y y₁) (hx₂ : R q.x x₂) (hy₂ : R q.y y₂)
    (hP : (f a.z = 1 ∧ P = 0) ∨ (f a.z = 0 ∧ HasCoords P x₁ y₁))
    (hQ : (f q.z = 1 ∧ Q = 0) ∨ (f q.z = 0 ∧ HasCoords Q x₂ y₂))
    (hk : R a.curvature.v k) (hkz : f a.curvature.z = 0 ∨ f a.curvature.z = 1)
    (hT : ∀ x y, HasCoords P x y → TG R f a.curvature x y)
    {xeq yeq eq lz : AssignedValue n} {tan lv : AssignedInteger n}
    (hxeq : (x₁ - x₂ = 0 → f xeq = 1) ∧ (x₁ - x₂ ≠ 0 → f xeq = 0 ∧ R tan ((y₁ - y₂) / (x₁ - x₂))))
    (ht : R tan t) (hyeq : (y₁ - y₂ = 0 → f yeq = 1) ∧ (y₁ - y₂ ≠ 0 → f yeq = 0))
    (heq : f eq = f xeq * f yeq) (hlv : BG R (f eq) a.curvature.v tan lv)
    (hlz : f lz = f eq * f a.curvature.z + (1 - f eq) * f xeq)
    {px py : AssignedInteger n} {r r' : AssignedPoint n}
    (hp : ∀ l, R lv l → R px (l ^ 2 - x₁ - x₂) ∧ R py ((x₁ - (l ^ 2 - x₁ - x₂)) * l - y₁))
    (bx : BG R (f a.z) q.x px r.x) (by' : BG R (f a.z) q.y py r.y)
    (bz : f r.z = f a.z * f q.z + (1 - f a.z) * f lz)
    (bx' : BG R (f q.z) a.x r.x r'.x) (by'' : BG R (f q.z) a.y r.y r'.y)
    (bz' : f r'.z = f q.z * f a.z + (1 - f q.z) * f r.z) : PG R f r' (P + Q) := by
  have hxb : f xeq = 0 ∨ f xeq = 1 := by
    by_cases h : x₁ - x₂ = 0
    exacts [.inr (hxeq.1 h), .inl (hxeq.2 h).1]
  have hyb : f yeq = 0 ∨ f yeq = 1 := by
    by_cases h : y₁ - y₂ = 0
    exacts [.inr (hyeq.1 h), .inl (hyeq.2 h)]
  have heb : f eq = 1 ∨ f eq = 0 := by
    rw [heq]
    rcases hxb with h | h <;> rcases hyb with h' | h' <;> rw [h, h'] <;> simp
  have hl : ∃ l, R lv l := by
    rcases heb with h | h
    exacts [⟨k, (hlv _ _ hk ht).1 h⟩, ⟨t, (hlv _ _ hk ht).2 h⟩]
  obtain ⟨l, hl⟩ := hl
  obtain ⟨hpx, hpy⟩ := hp l hl
  have haz : f a.z = 1 ∨ f a.z = 0 := by rcases hP with h | h; exacts [.inl h.1, .inr h.1]
  have hr : ∃ u v, R r.x u ∧ R r.y v := by
    rcases haz with h | h
    exacts [⟨_, _, (bx _ _ hx₂ hpx).1 h, (by' _ _ hy₂ hpy).1 h⟩, ⟨_, _, (bx _ _ hx₂ hpx).2 h, (by' _ _ hy₂ hpy).2 h⟩]
  obtain ⟨u, v, hu, hv⟩ := hr
  have first := fun W : Pt b => PG.bisec (f := f) (p := q) (q := ⟨px, py, lz⟩) (r := r) hx₂ hy₂ hpx hpy bx by' bz W
  have second := fun W : Pt b => PG.bisec (f := f) (p := a.to_point) (q := r) (r := r') hx₁ hy₁ hu hv bx' by'' bz' W
  have pa : PG R f a.to_point P := ⟨x₁, y₁, hx₁, hy₁, hP⟩
  have pq : PG R f q Q := ⟨x₂, y₂, hx₂, hy₂, hQ⟩
  rcases hQ with ⟨hqz, rfl⟩ | ⟨hqz, hQ⟩
  · rw [add_zero]
    exact (second P).1 hqz pa
  refine (second _).2 hqz ?_
  rcases hP with ⟨haz, rfl⟩ | ⟨haz, hP⟩
  · rw [zero_add]
    exact (first Q).1 haz pq
  refine (first _).2 haz ?_
  by_cases hx : x₁ - x₂ = 0
  · obtain rfl := sub_eq_zero.1 hx
    have h1 := hxeq.1 hx
    by_cases hy : y₁ - y₂ = 0
    · obtain rfl := sub_eq_zero.1 hy
      have he : f eq = 1 := by rw [heq, h1, hyeq.1 hy, one_mul]
      obtain rfl := hP.inj hQ
      have hT := hT _ _ hP
      rw [he] at hlz
      by_cases hy0 : y₁ = 0
      · refine ⟨_, _, hpx, hpy, .inl ⟨?_, ?_⟩⟩
        · show f lz = 1
          rw [hlz, hT.1 hy0]; ring
        · subst hy0
          exact hP.double_zero
      · obtain ⟨hz, hv⟩ := hT.2 hy0
        obtain ⟨hpx', hpy'⟩ := hp _ ((hlv _ _ hv ht).1 he)
        refine ⟨_, _, hpx', hpy', .inr ⟨?_, hP.double hb hy0 rfl⟩⟩
        show f lz = 0
        rw [hlz, hz]; ring
    · have he : f eq = 0 := by rw [heq, hyeq.2 hy, mul_zero]
      refine ⟨_, _, hpx, hpy, .inl ⟨?_, hP.opposite hQ fun e => hy (sub_eq_zero.2 e)⟩⟩
      show f lz = 1
      rw [hlz, he, h1]; ring
  · obtain ⟨h1, h2⟩ := hxeq.2 hx
    have he : f eq = 0 := by rw [heq, h1, zero_mul]
    obtain ⟨hpx', hpy'⟩ := hp _ ((hlv _ _ hk h2).2 he)
    refine ⟨_, _, hpx', hpy', .inr ⟨?_, hP.add hQ (fun e => hx (sub_eq_zero.2 e)) rfl⟩⟩
    show f lz = 0
    rw [hlz, he, h1]; ring

/-- The case analysis of `ecc_double`. -/
theorem double_math (hb : GoodCurve b) {a : AssignedPointWithCurvature n} {P : Pt b}
    {x y k : ZMod wm} (hP : (f a.z = 1 ∧ P = 0) ∨ (f a.z = 0 ∧ HasCoords P x y)) (hk : R a.curvature.v k)
    (hT : ∀ x y, HasCoords P x y → TG R f a.curvature x y) {r : AssignedPoint n}
    (hp : ∀ l, R a.curvature.v l → R r.x (l ^ 2 - x - x) ∧ R r.y ((x - (l ^ 2 - x - x)) * l - y))
    (hz : f r.z = f a.z * f a.z + (1 - f a.z) * f a.curvature.z) : PG R f r (P + P) := by
  obtain ⟨hpx, hpy⟩ := hp _ hk
  rcases hP with ⟨haz, rfl⟩ | ⟨haz, hP⟩
  · refine ⟨_, _, hpx, hpy, .inl ⟨by rw [hz, haz]; ring, by rw [add_zero]⟩⟩
  · have hT := hT _ _ hP
    by_cases hy : y = 0
    · refine ⟨_, _, hpx, hpy, .inl ⟨by rw [hz, haz, hT.1 hy]; ring, ?_⟩⟩
      subst hy
      exact hP.double_zero
    · obtain ⟨h1, h2⟩ := hT.2 hy
      obtain ⟨hpx', hpy'⟩ := hp _ h2
      exact ⟨_, _, hpx', hpy', .inr ⟨by rw [hz, haz, h1]; ring, hP.double hb hy rfl⟩⟩

/-- The case analysis of `ecc_assert_equal`. -/
theorem assert_equal_math {p q : AssignedPoint n} {P Q : Pt b} {x₁ y₁ x₂ y₂ : ZMod wm} (hn : (0 : ZMod n) ≠ 1)
    (hP : (f p.z = 1 ∧ P = 0) ∨ (f p.z = 0 ∧ HasCoords P x₁ y₁))
    (hQ : (f q.z = 1 ∧ Q = 0) ∨ (f q.z = 0 ∧ HasCoords Q x₂ y₂))
    {ex ey ez exy exyz both r : AssignedValue n}
    (hx : (x₁ = x₂ → f ex = 1) ∧ (x₁ ≠ x₂ → f ex = 0)) (hy : (y₁ = y₂ → f ey = 1) ∧ (y₁ ≠ y₂ → f ey = 0))
    (hz : f ez = 1 - f p.z - f q.z + 2 * f p.z * f q.z) (hxy : f exy = f ex * f ey) (hxyz : f exyz = f exy * f ez)
    (hboth : f both = f p.z * f q.z) (hr : f r = f exyz + f both - f exyz * f both) : f r = 1 ↔ P = Q := by
  rw [hr, hxyz, hboth, hxy, hz]
  rcases hP with ⟨haz, rfl⟩ | ⟨haz, hP⟩ <;> rcases hQ with ⟨hqz, rfl⟩ | ⟨hqz, hQ⟩
  · rw [haz, hqz]
    simp only [iff_true]; ring
  · rw [haz, hqz]
    exact ⟨fun h => absurd (by linear_combination h) hn, fun h => absurd h.symm hQ.ne_zero⟩
  · rw [haz, hqz]
    exact ⟨fun h => absurd (by linear_combination h) hn, fun h => absurd h hP.ne_zero⟩
  · rw [haz, hqz]
    constructor
    · intro h
      have h' : f ex * f ey = 1 := by linear_combination h
      have hxx : x₁ = x₂ := by
        by_contra hne
        rw [hx.2 hne, zero_mul] at h'
        exact hn h'
      have hyy : y₁ = y₂ := by
        by_contra hne
        rw [hy.2 hne, mul_zero] at h'
        exact hn h'
      subst hxx hyy
      exact hP.inj hQ
    · rintro rfl
      obtain ⟨rfl, rfl⟩ := hP.unique hQ
      rw [hx.1 rfl, hy.1 rfl]
      ring

end Verif
