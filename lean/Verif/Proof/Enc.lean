import Verif.Proof.Tower

/-!
# From the combined judgement to `Realises`
-/

namespace Verif
variable {n wm : ℕ} {info : RangeInfo n} {A B X Y : Type} {crv : PairingCurve}

/-- The encoding is described by a list of facts. -/
structure Enc.At (info : RangeInfo n) (e : Enc n A X) (f : A → X → List (Atom n wm)) : Prop where
  rep : ∀ w a x, e.rep w a x ↔ ∀ F ∈ f a x, F.In info w
  hrep : ∀ a x, e.hrep a x ↔ ∀ F ∈ f a x, F.Rec info
  ok : ∀ h a x, e.ok h a ↔ ∀ F ∈ f a x, F.Okay h

theorem Enc.At.prod {e : Enc n A X} {f : Enc n B Y} {g : A → X → List (Atom n wm)} {k : B → Y → List (Atom n wm)}
    (he : e.At info g) (hf : f.At info k) : (e.prod f).At info (fun a x => g a.1 x.1 ++ k a.2 x.2) where
  rep w a x := by simp only [List.forall_mem_append, ← he.rep, ← hf.rep]; rfl
  hrep a x := by simp only [List.forall_mem_append, ← he.hrep, ← hf.hrep]; rfl
  ok h a x := by simp only [List.forall_mem_append, ← he.ok, ← hf.ok]; rfl

theorem encU_at : (encU : Enc n Unit Unit).At info (fun _ _ => ([] : List (Atom n wm))) where
  rep w a x := by simp [encU]
  hrep a x := by simp [encU]
  ok h a x := by simp [encU]

theorem enc1_at : (enc1 wm info).At info at1 where
  rep w a x := by simp [enc1, at1, Atom.In]
  hrep a x := by simp [enc1, at1, Atom.Rec]
  ok h a x := by simp [enc1, at1, Atom.Okay]

theorem enc2_at : (enc2 wm info).At info at2 where
  rep w a x := by
    simp only [at2, List.forall_mem_append, ← enc1_at.rep]
    exact ⟨fun h => ⟨h.1, h.2⟩, fun h => ⟨h.1, h.2⟩⟩
  hrep a x := by
    simp only [at2, List.forall_mem_append, ← enc1_at.hrep]
    exact ⟨fun h => ⟨h.1, h.2⟩, fun h => ⟨h.1, h.2⟩⟩
  ok h a x := by
    simp only [at2, List.forall_mem_append, ← (enc1_at (info := info)).ok]
    exact Iff.rfl

theorem enc6_at : (enc6 wm info crv).At info at6 where
  rep w a x := by
    simp only [at6, List.forall_mem_append, ← enc2_at.rep]
    exact ⟨fun h => ⟨h.1, h.2, h.3⟩, fun h => ⟨h.1, h.2.1, h.2.2⟩⟩
  hrep a x := by
    simp only [at6, List.forall_mem_append, ← enc2_at.hrep]
    exact ⟨fun h => ⟨h.1, h.2, h.3⟩, fun h => ⟨h.1, h.2.1, h.2.2⟩⟩
  ok h a x := by
    simp only [at6, List.forall_mem_append, ← (enc2_at (info := info)).ok]
    exact Iff.rfl

theorem enc12_at : (enc12 wm info crv).At info at12 where
  rep w a x := by
    simp only [at12, List.forall_mem_append, ← enc6_at.rep]
    exact ⟨fun h => ⟨h.1, h.2⟩, fun h => ⟨h.1, h.2⟩⟩
  hrep a x := by
    simp only [at12, List.forall_mem_append, ← enc6_at.hrep]
    exact ⟨fun h => ⟨h.1, h.2⟩, fun h => ⟨h.1, h.2⟩⟩
  ok h a x := by
    simp only [at12, List.forall_mem_append, ← (enc6_at (info := info)).ok]
    exact Iff.rfl

theorem S.forall {ι : Type} [Nonempty ι] {c : Circuit n} {m : M n A} {P : ι → A → Prop} (h : ∀ i, S c m (P i)) :
    S c m (fun r => ∀ i, P i r) := by
  intro s a t hs hr
  obtain ⟨h1, h2, -⟩ := h (Classical.arbitrary ι) s a t hs hr
  exact ⟨h1, h2, fun he i => (h i s a t hs hr).2.2 he⟩

/-- A partial operation: `D` is its domain, `f` its value there. -/
theorem Realises.of_J [Nonempty X] {dom : Enc n A X} {cod : Enc n B Y} {m : A → M n B} {G : X → Y → Prop}
    {g : A → X → List (Atom n wm)} {k : B → Y → List (Atom n wm)} (hd : dom.At info g) (hc : cod.At info k)
    (D : X → Prop) (f : X → Y) (h1 : ∀ x, D x → G x (f x)) (h2 : ∀ x y, G x y → D x)
    (h : ∀ (md : Mode n) (a : A) (x : X), (md.Honest → D x) →
      J info md (g a x) (m a) (fun r => fct (D x) ++ k r (f x))) : Realises dom cod m G where
  sound a c w hw := by
    refine S.forall fun x => S.mono (h (.sound c w hw) a x (fun h => h.elim)) fun r hr hx => ?_
    have := hr ((hd.rep w a x).1 hx)
    rw [List.forall_mem_append] at this
    exact ⟨f x, h1 x (this.1 _ (List.mem_singleton.2 rfl)), (hc.rep w r _).2 this.2⟩
  complete a x hx hy c k := by
    obtain ⟨y, hy⟩ := hy
    have hD := h2 x y hy
    refine C.mono ((h (.honest c k) a x (fun _ => hD) ((hd.hrep a x).1 hx)).weaken fun ho => (hd.ok k a x).1 ho)
      (fun r hr => ?_) fun r _ _ hr => ?_
    · rw [List.forall_mem_append] at hr
      exact ⟨f x, h1 x hD, (hc.hrep r _).2 hr.2⟩
    · rw [List.forall_mem_append] at hr
      exact (hc.ok k r _).2 hr.2

theorem Computes.of_J [Nonempty X] {dom : Enc n A X} {cod : Enc n B Y} {m : A → M n B} {f : X → Y}
    {g : A → X → List (Atom n wm)} {k : B → Y → List (Atom n wm)} (hd : dom.At info g) (hc : cod.At info k)
    (h : ∀ (md : Mode n) (a : A) (x : X), J info md (g a x) (m a) (fun r => k r (f x))) : Computes dom cod m f where
  sound a c w hw := by
    refine S.forall fun x => S.mono (h (.sound c w hw) a x) fun r hr hx => ?_
    exact ⟨f x, rfl, (hc.rep w r _).2 (hr ((hd.rep w a x).1 hx))⟩
  complete a x hx _ c k := by
    refine C.mono ((h (.honest c k) a x ((hd.hrep a x).1 hx)).weaken fun ho => (hd.ok k a x).1 ho)
      (fun r hr => ?_) fun r _ _ hr => ?_
    · exact ⟨f x, rfl, (hc.hrep r _).2 hr⟩
    · exact (hc.ok k r _).2 hr

/-- Assertions. -/
theorem Realises.of_J_assert [Nonempty X] {dom : Enc n A X} {m : A → M n Unit} {D : X → Prop}
    {g : A → X → List (Atom n wm)} (hd : dom.At info g)
    (h : ∀ (md : Mode n) (a : A) (x : X), (md.Honest → D x) → J info md (g a x) (m a) (fun _ => fct (D x))) :
    Realises dom encU m (fun x _ => D x) :=
  Realises.of_J hd encU_at D (fun _ => ()) (fun _ h => h) (fun _ _ h => h) fun md a x hx => by
    simpa using h md a x hx

end Verif
