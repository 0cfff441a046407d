import Verif.Props.TowerOps

/-!
# C56: arbitrary programs over the integer, ECC, tower and pairing chips
-/

namespace Verif
variable {n : ℕ} {crv : PairingCurve} {info : RangeInfo n}

theorem good_pair (crv : PairingCurve) : GoodCurve (pairBq crv) := by
  cases crv
  · exact ⟨by decide +kernel, by decide +kernel, by decide +kernel⟩
  · exact ⟨by decide +kernel, by decide +kernel, by decide +kernel⟩

/-! ## Operands -/

section fetch
variable {c : Circuit n} {h : Advice n} {H : Prop} {A : Type} {P Q : A → Prop} {regs : (l : Lv) → List (l.T n)}

theorem S.bind_fetch {ls : List Lv} : ∀ {args : Args ls} {k : Tup (Lv.T n) ls → M n A},
    (∀ a, fetch regs ls args = some a → S c (k a) P) → S c (fetchM regs ls args >>= k) P := by
  induction ls with
  | nil => intro args k hk; exact hk () rfl
  | cons l ls ih =>
    intro args k hk
    rw [fetchM, bind_assoc]
    refine S.bind_index fun x hx => ?_
    rw [bind_assoc]
    exact ih fun xs hxs => hk (x, xs) (by rw [fetch, hx]; show fetch regs ls args.2 >>= _ = _; rw [hxs]; rfl)

theorem C.bind_fetch {ls : List Lv} : ∀ {args : Args ls} {k : Tup (Lv.T n) ls → M n A} {a : Tup (Lv.T n) ls},
    fetch regs ls args = some a → C c h H (k a) P Q → C c h H (fetchM regs ls args >>= k) P Q := by
  induction ls with
  | nil => intro args k a _ hk; exact hk
  | cons l ls ih =>
    intro args k a ha hk
    simp only [fetch, Option.bind_eq_bind, Option.bind_eq_some_iff, Option.some.injEq] at ha
    obtain ⟨x, hx, xs, hxs, rfl⟩ := ha
    rw [fetchM, bind_assoc]
    refine C.bind_index hx ?_
    rw [bind_assoc]
    exact ih hxs hk

theorem fetch_rep {w : Advice n} {vals : (l : Lv) → List (l.V crv)}
    (hr : ∀ l, List.Forall₂ ((l.enc info crv).rep w) (regs l) (vals l)) {ls : List Lv} :
    ∀ {args : Args ls} {a : Tup (Lv.T n) ls}, fetch regs ls args = some a →
      ∃ x, fetch vals ls args = some x ∧ (encTup info crv ls).rep w a x := by
  induction ls with
  | nil => intro args a _; exact ⟨(), rfl, trivial⟩
  | cons l ls ih =>
    intro args a ha
    simp only [fetch, Option.bind_eq_bind, Option.bind_eq_some_iff, Option.some.injEq] at ha
    obtain ⟨x, hx, xs, hxs, rfl⟩ := ha
    obtain ⟨y, hy, ry⟩ := forall2_get (hr l) hx
    obtain ⟨ys, hys, rys⟩ := ih hxs
    exact ⟨(y, ys), by rw [fetch, hy]; show fetch vals ls args.2 >>= _ = _; rw [hys]; rfl, ry, rys⟩

theorem fetch_hrep {vals : (l : Lv) → List (l.V crv)}
    (hr : ∀ l, List.Forall₂ (l.enc info crv).hrep (regs l) (vals l)) {ls : List Lv} :
    ∀ {args : Args ls} {x : Tup (Lv.V crv) ls}, fetch vals ls args = some x →
      ∃ a, fetch regs ls args = some a ∧ (encTup info crv ls).hrep a x := by
  induction ls with
  | nil => intro args a _; exact ⟨(), rfl, trivial⟩
  | cons l ls ih =>
    intro args a ha
    simp only [fetch, Option.bind_eq_bind, Option.bind_eq_some_iff, Option.some.injEq] at ha
    obtain ⟨x, hx, xs, hxs, rfl⟩ := ha
    obtain ⟨y, hy, ry⟩ := forall2_get' (hr l) hx
    obtain ⟨ys, hys, rys⟩ := ih hxs
    exact ⟨(y, ys), by rw [fetch, hy]; show fetch regs ls args.2 >>= _ = _; rw [hys]; rfl, ry, rys⟩

theorem fetch_ok (hr : ∀ l, ∀ a ∈ regs l, (l.enc info crv).ok h a) {ls : List Lv} :
    ∀ {args : Args ls} {a : Tup (Lv.T n) ls}, fetch regs ls args = some a → (encTup info crv ls).ok h a := by
  induction ls with
  | nil => intro args a _; trivial
  | cons l ls ih =>
    intro args a ha
    simp only [fetch, Option.bind_eq_bind, Option.bind_eq_some_iff, Option.some.injEq] at ha
    obtain ⟨x, hx, xs, hxs, rfl⟩ := ha
    exact ⟨hr l x (List.mem_of_getElem? hx), ih hxs⟩

variable {pts : List (AssignedPoint n)} {g2s : List (AssignedG2Affine n)}

/-- The results at the given indices. -/
def Found (pts : List (AssignedPoint n)) (g2s : List (AssignedG2Affine n)) :
    List (AssignedPoint n × AssignedG2Affine n) → List (ℕ × ℕ) → Prop :=
  List.Forall₂ fun a t => pts[t.1]? = some a.1 ∧ g2s[t.2]? = some a.2

theorem S.bind_inputs {ts : List (ℕ × ℕ)} : ∀ {k : List (AssignedPoint n × AssignedG2Affine n) → M n A},
    (∀ a, Found pts g2s a ts → S c (k a) P) → S c (inputsM pts g2s ts >>= k) P := by
  induction ts with
  | nil => intro k hk; exact hk [] .nil
  | cons t ts ih =>
    intro k hk
    rw [inputsM, bind_assoc]
    refine S.bind_index fun x hx => ?_
    rw [bind_assoc]
    refine S.bind_index fun y hy => ?_
    rw [bind_assoc]
    exact ih fun xs hxs => hk ((x, y) :: xs) (.cons ⟨hx, hy⟩ hxs)

theorem C.bind_inputs {ts : List (ℕ × ℕ)} : ∀ {k : List (AssignedPoint n × AssignedG2Affine n) → M n A} {a},
    Found pts g2s a ts → C c h H (k a) P Q → C c h H (inputsM pts g2s ts >>= k) P Q := by
  induction ts with
  | nil => intro k a ha hk; cases ha; exact hk
  | cons t ts ih =>
    intro k a ha hk
    cases ha with | cons ha has => ?_
    rw [inputsM, bind_assoc]
    refine C.bind_index ha.1 ?_
    rw [bind_assoc]
    refine C.bind_index ha.2 ?_
    rw [bind_assoc]
    exact ih has hk

end fetch

/-- An input of a pairing without flags. -/
def toV (n : ℕ) {q : ℕ} (v : (ZMod q × ZMod q) × (Fq2 q × Fq2 q)) : PairV n q := ⟨0, v.1.1, v.1.2, 0, v.2.1, v.2.2⟩

theorem inputsOk_toV {us : List ((ZMod (pairQ crv) × ZMod (pairQ crv)) × (Fq2 (pairQ crv) × Fq2 (pairQ crv)))} :
    InputsOk (us.map (toV n)) ↔ InSecond us := by
  constructor
  · intro h v hv
    exact h _ (List.mem_map_of_mem hv)
  · intro h v hv
    obtain ⟨u, hu, rfl⟩ := List.mem_map.1 hv
    exact h u hu

theorem pairProd_toV (us : List ((ZMod (pairQ crv) × ZMod (pairQ crv)) × (Fq2 (pairQ crv) × Fq2 (pairQ crv)))) :
    pairProd (us.map (toV n)) = ateProd us := by
  rw [pairProd, ateProd, List.map_map]; rfl

theorem noFlags_toV (us : List ((ZMod (pairQ crv) × ZMod (pairQ crv)) × (Fq2 (pairQ crv) × Fq2 (pairQ crv)))) :
    NoFlags (us.map (toV n)) := by
  intro v hv
  obtain ⟨u, hu, rfl⟩ := List.mem_map.1 hv
  exact ⟨rfl, rfl⟩

section sound
variable {w : Advice n} {s : TSt n} {r : TRef crv}

theorem pushAt_rel {F G : Lv → Type} {R : (l : Lv) → F l → G l → Prop} {f : (l : Lv) → List (F l)} {g : (l : Lv) → List (G l)}
    (h : ∀ l, List.Forall₂ (R l) (f l) (g l)) (l : Lv) {a : F l} {b : G l} (hab : R l a b) :
    ∀ l', List.Forall₂ (R l') (pushAt f l a l') (pushAt g l b l') := by
  intro l'
  cases l <;> cases l'
  all_goals first | exact forall2_snoc (h _) hab | exact h _

theorem pushAt_mem {F : Lv → Type} {R : (l : Lv) → F l → Prop} {f : (l : Lv) → List (F l)}
    (h : ∀ l, ∀ a ∈ f l, R l a) (l : Lv) {a : F l} (ha : R l a) : ∀ l', ∀ b ∈ pushAt f l a l', R l' b := by
  intro l'
  cases l <;> cases l'
  all_goals first | exact mem_snoc (h _) ha | exact h _

theorem RepTSt.push (h : RepTSt info w s r) {l : Lv} {a : l.T n} {x : l.V crv} (ha : (l.enc info crv).rep w a x) :
    RepTSt info w (s.push l a) (r.push l x) := ⟨h.base, pushAt_rel h.regs l ha, h.g2s⟩

theorem RepTSt.pushG (h : RepTSt info w s r) {a : AssignedG2Affine n} {v : Bool × Fq2 (pairQ crv) × Fq2 (pairQ crv)}
    (ha : Holds w a.z v.1 ∧ Rep2 (pairQ crv) info w a.x v.2.1 ∧ Rep2 (pairQ crv) info w a.y v.2.2) :
    RepTSt info w (s.pushG a) (r.pushG v) := ⟨h.base, h.regs, forall2_snoc h.g2s ha⟩

theorem found_rep [Fact n.Prime] (hr : RepTSt info w s r) {ts : List (ℕ × ℕ)} {as} (hf : Found s.base.pts s.g2s as ts) :
    ∃ vs : List (PairV n (pairQ crv)), (encPair (pairQ crv) info).list.rep w as vs ∧
      (NoFlags vs → ∃ us, r.inputs ts = some us ∧ vs = us.map (toV n)) := by
  induction hf with
  | nil => exact ⟨[], .nil, fun _ => ⟨[], rfl, rfl⟩⟩
  | @cons a t as ts ha _ ih =>
    obtain ⟨vs, h1, h2⟩ := ih
    obtain ⟨P, hP, x, y, rx, ry, hz⟩ := forall2_get hr.base.pts ha.1
    obtain ⟨⟨f, qx, qy⟩, hg, hzf, rqx, rqy⟩ := forall2_get hr.g2s ha.2
    refine ⟨⟨w a.1.z.cell, x, y, w a.2.z.cell, qx, qy⟩ :: vs, .cons ⟨⟨rfl, rx, ry⟩, rfl, rqx, rqy⟩ h1, fun hn => ?_⟩
    obtain ⟨us, hu, rfl⟩ := h2 fun v hv => hn v (List.mem_cons_of_mem _ hv)
    obtain ⟨z1, z2⟩ := hn _ List.mem_cons_self
    dsimp only at z1 z2
    have hc : HasCoords P x y := by
      rcases hz with ⟨e, -⟩ | ⟨-, e⟩
      · rw [z1] at e; exact absurd e zero_ne_one
      · exact e
    have hff : f = false := by
      cases f
      · rfl
      · rw [Holds, z2] at hzf; exact absurd hzf zero_ne_one
    subst hff
    refine ⟨((x, y), (qx, qy)) :: us, ?_, ?_⟩
    · have e1 : r.input t = some ((x, y), (qx, qy)) := by
        rw [TRef.input, hP]
        show P.xy >>= _ = _
        rw [Pt.xy_iff (v := (x, y)) |>.2 hc]
        show r.g2s[t.2]? >>= _ = _
        rw [hg]
        rfl
      rw [TRef.inputs, e1]
      show r.inputs ts >>= _ = _
      rw [hu]
      rfl
    · rw [List.map_cons, z1, z2]; rfl

theorem texec_sound (E : Env (pairQ crv) info) (order : ℕ) {c : Circuit n} (hw : c.Sat w) (i : TInstr crv) (s : TSt n)
    (hk : ∀ j k, i = .pt (.int (.smallMul j k)) → 1 ≤ k) (hbits : (∃ P, i = .pt (.assign P)) → c.BitRowsConsistent w) :
    S c (i.exec info order s) (fun s' => ∀ r : TRef crv, RepTSt info w s r →
      ∃ r', TStep i r r' ∧ RepTSt info w s' r') := by
  have hn : Fact n.Prime := ⟨E.prime_n⟩
  cases i with
  | pt i =>
    refine S.bind (pexec_sound E.range (good_pair crv) order hw i s.base (fun j k e => hk j k (by rw [e]))
      fun ⟨P, e⟩ => hbits ⟨P, by rw [e]⟩) fun t => S.pure fun ht r hr => ?_
    obtain ⟨r', k1, k2⟩ := ht _ hr.base
    exact ⟨_, .pt k1, k2, hr.regs, hr.g2s⟩
  | pair2 i j =>
    refine S.bind_index fun a ha => S.bind_index fun b hb => S.pure fun r hr => ?_
    obtain ⟨x, hx, rx⟩ := forall2_get hr.base.base.ints ha
    obtain ⟨y, hy, ry⟩ := forall2_get hr.base.base.ints hb
    exact ⟨_, .pair2 hx hy, hr.push (l := .f2) ⟨rx, ry⟩⟩
  | parts2 i =>
    refine S.bind_index fun a ha => S.pure fun r hr => ?_
    obtain ⟨x, hx, rx⟩ := forall2_get (hr.regs .f2) ha
    exact ⟨_, .parts2 hx, hr.base.pushXY rx.re rx.im, hr.regs, hr.g2s⟩
  | op o args =>
    refine S.bind_fetch fun a ha => S.bind ((o.realises E).sound a c w hw) fun b => S.pure fun hb r hr => ?_
    obtain ⟨x, hx, rx⟩ := fetch_rep hr.regs ha
    obtain ⟨y, hy, ry⟩ := hb x rx
    exact ⟨_, .op hx hy, hr.push ry⟩
  | assertEq l i j =>
    refine S.bind_index fun a ha => S.bind_index fun b hb => S.bind ((assertEq_realises E l).sound (a, b) c w hw)
      fun _ => S.pure fun ht r hr => ?_
    obtain ⟨x, hx, rx⟩ := forall2_get (hr.regs l) ha
    obtain ⟨y, hy, ry⟩ := forall2_get (hr.regs l) hb
    obtain ⟨-, e, -⟩ := ht (x, y) ⟨rx, ry⟩
    cases (show x = y from e)
    exact ⟨_, .assertEq hx hy, hr⟩
  | assertOne i =>
    refine S.bind_index fun a ha => S.bind ((C38_fq12_assert_one E crv).sound a c w hw) fun _ => S.pure fun ht r hr => ?_
    obtain ⟨x, hx, rx⟩ := forall2_get (hr.regs .f12) ha
    obtain ⟨-, rfl, -⟩ := ht x rx
    exact ⟨_, .assertOne hx, hr⟩
  | g2 i j k =>
    refine S.bind_index fun a ha => S.bind_index fun b hb => S.bind_index fun z hz => S.pure fun r hr => ?_
    obtain ⟨x, hx, rx⟩ := forall2_get (hr.regs .f2) ha
    obtain ⟨y, hy, ry⟩ := forall2_get (hr.regs .f2) hb
    obtain ⟨f, hf, rf⟩ := forall2_get hr.base.base.conds hz
    exact ⟨_, .g2 hx hy hf, hr.pushG ⟨rf, rx, ry⟩⟩
  | negG2 i =>
    refine S.bind_index fun a ha => ?_
    show S c ((fq2_neg info a.y >>= fun y => pure ⟨a.x, y, a.z⟩) >>= fun t => pure (s.pushG t)) _
    rw [bind_assoc]
    refine S.bind ((C38_fq2_neg E).sound a.y c w hw) fun y => S.pure fun hy r hr => ?_
    obtain ⟨⟨f, qx, qy⟩, hg, rf, rx, ry⟩ := forall2_get hr.g2s ha
    obtain ⟨_, rfl, ry'⟩ := hy qy ry
    exact ⟨_, .negG2 hg, hr.pushG (v := (f, qx, -qy)) ⟨rf, rx, ry'⟩⟩
  | pairing ts =>
    refine S.bind_inputs fun as has => S.bind ((pairing_realises E).sound as c w hw) fun y => S.pure fun hy r hr => ?_
    obtain ⟨vs, h1, h2⟩ := found_rep hr has
    obtain ⟨z, ⟨⟨hf, -⟩, rfl⟩, rz⟩ := hy vs h1
    obtain ⟨us, hu, rfl⟩ := h2 hf
    refine ⟨_, .pairing hu fun hin => ?_, hr.push (l := .f12) rz⟩
    rw [millerOf_prod (inputsOk_toV.2 hin), pairProd_toV]
  | checkPairing ts =>
    refine S.bind_inputs fun as has => S.bind ((check_pairing_realises E).sound as c w hw) fun y => S.pure fun hy r hr => ?_
    obtain ⟨vs, h1, h2⟩ := found_rep hr has
    obtain ⟨z, ⟨⟨hf, h3⟩, rfl⟩, rz⟩ := hy vs h1
    obtain ⟨us, hu, rfl⟩ := h2 hf
    refine ⟨_, .checkPairing hu fun hin => ?_, hr⟩
    rw [← h3, millerOf_prod (inputsOk_toV.2 hin), pairProd_toV]

/-- C56 (soundness): for every program of integer, point, tower and pairing calls and every satisfying assignment of a
circuit that contains what the program records, all results stand for the state reached by a run of the reference
semantics. -/
theorem C56_program_sound (E : Env (pairQ crv) info) (order : ℕ) (prog : List (TInstr crv))
    (hk : ∀ j k, TInstr.pt (.int (.smallMul j k)) ∈ prog → 1 ≤ k) (c : Circuit n) (w : Advice n) (hw : c.Sat w)
    (hbits : (∃ P, TInstr.pt (.assign P) ∈ prog) → c.BitRowsConsistent w) :
    S c (texecAll info order prog (TSt.empty n))
      (fun s => ∃ r : TRef crv, TSteps prog (TRef.empty crv) r ∧ RepTSt info w s r) := by
  have key : ∀ (prog : List (TInstr crv)) (s : TSt n), (∀ j k, TInstr.pt (.int (.smallMul j k)) ∈ prog → 1 ≤ k) →
      ((∃ P, TInstr.pt (.assign P) ∈ prog) → c.BitRowsConsistent w) →
      S c (texecAll info order prog s) (fun s' => ∀ r : TRef crv, RepTSt info w s r →
        ∃ r', TSteps prog r r' ∧ RepTSt info w s' r') := by
    intro prog
    induction prog with
    | nil => intro s _ _; exact S.pure fun r hr => ⟨r, .nil, hr⟩
    | cons i is ih =>
      intro s hk hbits
      refine S.bind (texec_sound E order hw i s (fun j k e => hk j k (e ▸ List.mem_cons_self))
        fun ⟨P, e⟩ => hbits ⟨P, e ▸ List.mem_cons_self⟩) fun s' => ?_
      refine (ih s' (fun j k e => hk j k (List.mem_cons_of_mem _ e))
        fun ⟨P, e⟩ => hbits ⟨P, List.mem_cons_of_mem _ e⟩).mono fun s'' h2 h1 r hr => ?_
      obtain ⟨r', k1, k2⟩ := h1 r hr
      obtain ⟨r'', k3, k4⟩ := h2 r' k2
      exact ⟨r'', .cons k1 k3, k4⟩
  exact (key prog _ hk hbits).mono fun s hs => hs _ ⟨⟨⟨.nil, .nil⟩, .nil, .nil, .nil⟩, fun _ => .nil, .nil⟩

/-- C56, end to end: a satisfying assignment of exactly the circuit recorded by a program is a run of the program. -/
theorem C56_end_to_end (E : Env (pairQ crv) info) (order : ℕ) (prog : List (TInstr crv))
    (hk : ∀ j k, TInstr.pt (.int (.smallMul j k)) ∈ prog → 1 ≤ k) (ha : ∀ P, TInstr.pt (.assign P) ∉ prog)
    (s : TSt n) (t : Context n) (hrun : texecAll info order prog (TSt.empty n) (Context.new n) = .ok (s, t)) (usable : ℕ)
    (hf : t.Fits usable) (w : Advice n) (hw : (t.circuit usable).Sat w) :
    ∃ r : TRef crv, TSteps prog (TRef.empty crv) r ∧ RepTSt info w s r :=
  S.run (fun c w hw => C56_program_sound E order prog hk c w hw fun ⟨P, hP⟩ => absurd hP (ha P))
    Context.new_fresh hrun hf hw

end sound

section complete
variable {s : TSt n} {r : TRef crv} {h : Advice n}

theorem HRepTSt.push (hs : HRepTSt info s r) {l : Lv} {a : l.T n} {x : l.V crv} (ha : (l.enc info crv).hrep a x) :
    HRepTSt info (s.push l a) (r.push l x) := ⟨hs.base, pushAt_rel hs.regs l ha, hs.g2s⟩

theorem HRepTSt.pushG (hs : HRepTSt info s r) {a : AssignedG2Affine n} {v : Bool × Fq2 (pairQ crv) × Fq2 (pairQ crv)}
    (ha : a.z.val = (if v.1 then 1 else 0) ∧ HRep2 (pairQ crv) info a.x v.2.1 ∧ HRep2 (pairQ crv) info a.y v.2.2) :
    HRepTSt info (s.pushG a) (r.pushG v) := ⟨hs.base, hs.regs, forall2_snoc hs.g2s ha⟩

theorem OkTSt.push (hs : OkTSt info crv h s) {l : Lv} {a : l.T n} (ha : (l.enc info crv).ok h a) :
    OkTSt info crv h (s.push l a) := ⟨hs.base, pushAt_mem hs.regs l ha, hs.g2s⟩

theorem OkTSt.pushG (hs : OkTSt info crv h s) {a : AssignedG2Affine n} (ha : Ok h a.z ∧ OkI2 h a.x ∧ OkI2 h a.y) :
    OkTSt info crv h (s.pushG a) := ⟨hs.base, hs.regs, mem_snoc hs.g2s ha⟩

theorem found_hrep (hr : HRepTSt info s r) {ts : List (ℕ × ℕ)} : ∀ {us}, r.inputs ts = some us →
    ∃ as, Found s.base.pts s.g2s as ts ∧ (encPair (pairQ crv) info).list.hrep as (us.map (toV n)) ∧
      ∀ v ∈ us.map (toV n), v.py ^ 2 = v.px ^ 3 + (pairB crv : ZMod (pairQ crv)) := by
  induction ts with
  | nil => intro us h; cases h; exact ⟨[], .nil, .nil, fun v hv => nomatch hv⟩
  | cons t ts ih =>
    intro us hu
    simp only [TRef.inputs, TRef.input, Option.bind_eq_bind, Option.bind_eq_some_iff, Option.some.injEq] at hu
    obtain ⟨u, ⟨P, hP, p, hp, g, hg, hu⟩, us, hus, rfl⟩ := hu
    split at hu
    · cases hu
    rename_i hz
    cases hu
    obtain ⟨as, h1, h2, h3⟩ := ih hus
    obtain ⟨a, ha, ⟨x, y, rx, ry, hc⟩, tx, ty⟩ := forall2_get' hr.base.pts hP
    obtain ⟨b, hb, rz, rqx, rqy⟩ := forall2_get' hr.g2s hg
    have hp' := Pt.xy_iff.1 hp
    obtain ⟨z0, hc⟩ : a.z.val = 0 ∧ HasCoords P x y := by
      rcases hc with ⟨-, e⟩ | e
      · exact absurd e hp'.ne_zero
      · exact e
    obtain ⟨rfl, rfl⟩ := hc.unique hp'
    refine ⟨(a, b) :: as, .cons ⟨ha, hb⟩ h1, .cons ⟨⟨z0, ⟨rx, tx⟩, ⟨ry, ty⟩⟩, ?_, rqx, rqy⟩ h2, ?_⟩
    · rw [rz, if_neg hz]; rfl
    · intro v hv
      rcases List.mem_cons.1 hv with rfl | hv
      · exact hp'.eqn
      · exact h3 v hv

theorem found_ok (hs : OkTSt info crv h s) {ts : List (ℕ × ℕ)} {as} (hf : Found s.base.pts s.g2s as ts) :
    (encPair (pairQ crv) info).list.ok h as := by
  induction hf with
  | nil => intro a ha; exact nomatch ha
  | cons ha _ ih =>
    intro b hb
    rcases List.mem_cons.1 hb with rfl | hb
    · have k := hs.base.pts _ (List.mem_of_getElem? ha.1)
      exact ⟨⟨k.z, k.x, k.y⟩, hs.g2s _ (List.mem_of_getElem? ha.2)⟩
    · exact ih b hb

theorem texec_complete (E : Env (pairQ crv) info) {order : ℕ} (ho : order % 2 = 1) {c : Circuit n} {H : Prop}
    (i : TInstr crv) {r' : TRef crv} (hr : HRepTSt info s r) (hok : H → OkTSt info crv h s) (he : i.eval r = some r') :
    C c h H (i.exec info order s) (fun s' => HRepTSt info s' r') (fun s' => OkTSt info crv h s') := by
  have hn : Fact n.Prime := ⟨E.prime_n⟩
  have mR : ∀ {l : Lv} {i a}, (s.regs l)[i]? = some a → H → (l.enc info crv).ok h a :=
    fun hg hH => (hok hH).regs _ _ (List.mem_of_getElem? hg)
  cases i with
  | pt i =>
    simp only [TInstr.eval, Option.bind_eq_bind, Option.bind_eq_some_iff, Option.some.injEq] at he
    obtain ⟨t, ht, rfl⟩ := he
    exact C.bind (pexec_complete E.range E.dbits (good_pair crv) ho i hr.base (fun hH => (hok hH).base) ht) fun s' hs' =>
      C.pure ⟨hs', hr.regs, hr.g2s⟩ fun hH => ⟨hH.2, (hok hH.1).regs, (hok hH.1).g2s⟩
  | pair2 i j =>
    simp only [TInstr.eval, Option.bind_eq_bind, Option.bind_eq_some_iff, Option.some.injEq] at he
    obtain ⟨x, hx, y, hy, rfl⟩ := he
    obtain ⟨a, ha, ra, -, ta⟩ := forall2_get' hr.base.base.ints hx
    obtain ⟨b, hb, rb, -, tb⟩ := forall2_get' hr.base.base.ints hy
    exact C.bind_index ha <| C.bind_index hb <| C.pure (hr.push (l := .f2) ⟨⟨ra, ta⟩, ⟨rb, tb⟩⟩) fun hH =>
      (hok hH).push (l := .f2) ⟨(hok hH).base.base.ints _ (List.mem_of_getElem? ha),
        (hok hH).base.base.ints _ (List.mem_of_getElem? hb)⟩
  | parts2 i =>
    simp only [TInstr.eval, Option.bind_eq_bind, Option.bind_eq_some_iff, Option.some.injEq] at he
    obtain ⟨x, hx, rfl⟩ := he
    obtain ⟨a, ha, ra⟩ := forall2_get' (hr.regs .f2) hx
    exact C.bind_index ha <| C.pure ⟨hr.base.pushXY ra.re.rep ra.im.rep ra.re.times ra.im.times, hr.regs, hr.g2s⟩ fun hH =>
      ⟨(hok hH).base.pushXY (mR ha hH).1 (mR ha hH).2, (hok hH).regs, (hok hH).g2s⟩
  | op o args =>
    simp only [TInstr.eval, Option.bind_eq_bind, Option.bind_eq_some_iff] at he
    obtain ⟨x, hx, he⟩ := he
    split at he
    · rename_i hy
      cases he
      obtain ⟨a, ha, ra⟩ := fetch_hrep hr.regs hx
      refine C.bind_fetch ha <| C.bind (((o.realises E).complete a x ra hy.exists c h).weaken fun hH =>
        fetch_ok (hok hH).regs ha) fun b hb => C.pure ?_ fun hH => (hok hH.1).push hH.2
      obtain ⟨y, h1, h2⟩ := hb
      exact hr.push (hy.unique h1 hy.choose_spec.1 ▸ h2)
    · cases he
  | assertEq l i j =>
    simp only [TInstr.eval, Option.bind_eq_bind, Option.bind_eq_some_iff] at he
    obtain ⟨x, hx, y, hy, he⟩ := he
    split at he
    · rename_i e
      cases he
      obtain ⟨a, ha, ra⟩ := forall2_get' (hr.regs l) hx
      obtain ⟨b, hb, rb⟩ := forall2_get' (hr.regs l) hy
      exact C.bind_index ha <| C.bind_index hb <| C.bind (((assertEq_realises E l).complete (a, b) (x, y) ⟨ra, rb⟩
        ⟨(), e⟩ c h).weaken fun hH => ⟨mR ha hH, mR hb hH⟩) fun _ _ => C.pure hr fun hH => hok hH.1
    · cases he
  | assertOne i =>
    simp only [TInstr.eval, Option.bind_eq_bind, Option.bind_eq_some_iff] at he
    obtain ⟨x, hx, he⟩ := he
    split at he
    · rename_i e
      cases he
      obtain ⟨a, ha, ra⟩ := forall2_get' (hr.regs .f12) hx
      exact C.bind_index ha <| C.bind (((C38_fq12_assert_one E crv).complete a x ra ⟨(), e⟩ c h).weaken fun hH => mR ha hH)
        fun _ _ => C.pure hr fun hH => hok hH.1
    · cases he
  | g2 i j k =>
    simp only [TInstr.eval, Option.bind_eq_bind, Option.bind_eq_some_iff, Option.some.injEq] at he
    obtain ⟨x, hx, y, hy, z, hz, rfl⟩ := he
    obtain ⟨a, ha, ra⟩ := forall2_get' (hr.regs .f2) hx
    obtain ⟨b, hb, rb⟩ := forall2_get' (hr.regs .f2) hy
    obtain ⟨f, hf, rf⟩ := forall2_get' hr.base.base.conds hz
    exact C.bind_index ha <| C.bind_index hb <| C.bind_index hf <| C.pure (hr.pushG (v := (z, x, y)) ⟨rf, ra, rb⟩) fun hH =>
      (hok hH).pushG ⟨(hok hH).base.base.conds _ (List.mem_of_getElem? hf), mR ha hH, mR hb hH⟩
  | negG2 i =>
    simp only [TInstr.eval, Option.bind_eq_bind, Option.bind_eq_some_iff, Option.some.injEq] at he
    obtain ⟨g, hg, rfl⟩ := he
    obtain ⟨a, ha, rz, rx, ry⟩ := forall2_get' hr.g2s hg
    refine C.bind_index ha ?_
    show C c h H ((fq2_neg info a.y >>= fun y => pure ⟨a.x, y, a.z⟩) >>= fun t => pure (s.pushG t)) _ _
    rw [bind_assoc]
    have ok := fun hH => (hok hH).g2s _ (List.mem_of_getElem? ha)
    refine C.bind (((C38_fq2_neg E).complete a.y g.2.2 ry ⟨_, rfl⟩ c h).weaken fun hH => (ok hH).2.2) fun y hy => ?_
    obtain ⟨_, rfl, ry'⟩ := hy
    exact C.pure (hr.pushG (v := (g.1, g.2.1, -g.2.2)) ⟨rz, rx, ry'⟩) fun hH =>
      (hok hH.1).pushG ⟨(ok hH.1).1, (ok hH.1).2.1, hH.2⟩
  | pairing ts =>
    simp only [TInstr.eval, Option.bind_eq_bind, Option.bind_eq_some_iff] at he
    obtain ⟨us, hu, he⟩ := he
    split at he
    · rename_i hin
      cases he
      obtain ⟨as, h1, h2, h3⟩ := found_hrep hr hu
      have hin' := inputsOk_toV (n := n).2 hin
      refine C.bind_inputs h1 <| C.bind (((pairing_realises E).complete as _ h2 ⟨_, ⟨noFlags_toV us,
        (millerOf_ne_zero hin').2 (C48_nonzero hin' h3)⟩, rfl⟩ c h).weaken fun hH => found_ok (hok hH) h1) fun b hb =>
        C.pure ?_ fun hH => (hok hH.1).push (l := .f12) hH.2
      obtain ⟨y, ⟨-, rfl⟩, ry⟩ := hb
      rw [millerOf_prod hin', pairProd_toV] at ry
      exact hr.push (l := .f12) ry
    · cases he
  | checkPairing ts =>
    simp only [TInstr.eval, Option.bind_eq_bind, Option.bind_eq_some_iff] at he
    obtain ⟨us, hu, he⟩ := he
    split at he
    · rename_i hin
      cases he
      obtain ⟨as, h1, h2, -⟩ := found_hrep hr hu
      have hin' := inputsOk_toV (n := n).2 hin.1
      exact C.bind_inputs h1 <| C.bind (((check_pairing_realises E).complete as _ h2 ⟨(), ⟨noFlags_toV us,
        by rw [millerOf_prod hin', pairProd_toV]; exact hin.2⟩, rfl⟩ c h).weaken fun hH => found_ok (hok hH) h1) fun _ _ =>
        C.pure hr fun hH => hok hH.1
    · cases he

/-- C56 (completeness): a program that stays within the domains of its calls does not panic, its recorded witness
satisfies everything it records, and all results carry the values of the reference run. -/
theorem C56_program_complete (E : Env (pairQ crv) info) (order : ℕ) (ho : order % 2 = 1) (prog : List (TInstr crv))
    (r : TRef crv) (he : tevalAll prog (TRef.empty crv) = some r) :
    Complete (texecAll info order prog (TSt.empty n)) (fun _ => True) (fun s => HRepTSt info s r) (OkTSt info crv) := by
  intro c h
  have key : ∀ (prog : List (TInstr crv)) (s : TSt n) (r r' : TRef crv) (H : Prop), HRepTSt info s r →
      (H → OkTSt info crv h s) → tevalAll prog r = some r' →
      C c h H (texecAll info order prog s) (fun s' => HRepTSt info s' r') (fun s' => OkTSt info crv h s') := by
    intro prog
    induction prog with
    | nil => intro s r r' H hr hok he; cases he; exact C.pure hr hok
    | cons i is ih =>
      intro s r r' H hr hok he
      simp only [tevalAll, Option.bind_eq_bind, Option.bind_eq_some_iff] at he
      obtain ⟨r1, h1, h2⟩ := he
      exact C.bind (texec_complete E ho i hr hok h1) fun s' hs' => ih s' r1 r' _ hs' (fun hH => hH.2) h2
  refine key prog _ _ r _ ⟨⟨⟨.nil, .nil⟩, .nil, .nil, .nil⟩, fun _ => .nil, .nil⟩ (fun _ => ⟨⟨⟨?_, ?_⟩, ?_, ?_, ?_⟩, ?_, ?_⟩) he
  all_goals simp [TSt.empty]

end complete

/-- The honest run is one of the runs the reference semantics allows. -/
theorem teval_step {i : TInstr crv} {r r' : TRef crv} (he : i.eval r = some r') : TStep i r r' := by
  cases i <;> simp only [TInstr.eval, Option.bind_eq_bind, Option.bind_eq_some_iff, Option.some.injEq] at he
  case pt i =>
    obtain ⟨t, ht, rfl⟩ := he
    have : pevalAll [i] r.base = some t := by rw [pevalAll, ht]; rfl
    cases pevalAll_steps this with
    | cons k1 k2 => cases k2; exact .pt k1
  case pair2 => obtain ⟨x, hx, y, hy, rfl⟩ := he; exact .pair2 hx hy
  case parts2 => obtain ⟨x, hx, rfl⟩ := he; exact .parts2 hx
  case op =>
    obtain ⟨x, hx, he⟩ := he
    split at he
    · rename_i hy; cases he; exact .op hx hy.choose_spec.1
    · cases he
  case assertEq =>
    obtain ⟨x, hx, y, hy, he⟩ := he
    split at he
    · rename_i e; cases he; subst e; exact .assertEq hx hy
    · cases he
  case assertOne =>
    obtain ⟨x, hx, he⟩ := he
    split at he
    · rename_i e; cases he; subst e; exact .assertOne hx
    · cases he
  case g2 => obtain ⟨x, hx, y, hy, z, hz, rfl⟩ := he; exact .g2 hx hy hz
  case negG2 => obtain ⟨g, hg, rfl⟩ := he; exact .negG2 hg
  case pairing =>
    obtain ⟨us, hu, he⟩ := he
    split at he
    · cases he; exact .pairing hu fun _ => rfl
    · cases he
  case checkPairing =>
    obtain ⟨us, hu, he⟩ := he
    split at he
    · rename_i h; cases he; exact .checkPairing hu fun _ => h.2
    · cases he

theorem tevalAll_steps {prog : List (TInstr crv)} : ∀ {r r' : TRef crv}, tevalAll prog r = some r' → TSteps prog r r' := by
  induction prog with
  | nil => intro r r' h; cases h; exact .nil
  | cons i is ih =>
    intro r r' he
    simp only [tevalAll, Option.bind_eq_bind, Option.bind_eq_some_iff] at he
    obtain ⟨r1, h1, h2⟩ := he
    exact .cons (teval_step h1) (ih h2)

/-! ### A case meeting the hypotheses -/

/-- A program on a point `G` and the generator `H` of the second group: `e(G, H) e(-G, H) = 1` by `check_pairing`, and
again by two calls to `pairing`, a product, `fq12_assert_one` and an inversion; and some calls on `Fq2`. -/
noncomputable def towerProg {crv : PairingCurve} (G : Pt (pairBq crv)) : List (TInstr crv) :=
  [.pt (.assignA G), .pt (.downgrade 0), .pt (.neg 0), .pt (.isIdentity 0), .op (.const .f2 (genQ crv).1) (),
    .op (.const .f2 (genQ crv).2) (), .g2 0 1 0, .checkPairing [(0, 0), (1, 0)], .pairing [(0, 0)], .pairing [(1, 0)],
    .op (.mul .f12) (0, 1, ()), .assertOne 2, .op (.inv .f12) (0, ()), .assertEq .f12 1 3, .op .cyc (2, ()),
    .op (.frob .f12 1) (0, ()), .parts2 0, .pair2 0 1, .assertEq .f2 0 2, .negG2 0]

section eval
variable {r r' r'' : TRef crv}

theorem tev_cons {is : List (TInstr crv)} {i : TInstr crv} (h : i.eval r = some r') (h' : tevalAll is r' = some r'') :
    tevalAll (i :: is) r = some r'' := by rw [tevalAll, h]; exact h'

theorem tev_pt {i : PInstr (pairBq crv)} {t} (h : i.eval r.base = some t) :
    (TInstr.pt i).eval r = some { r with base := t } := by rw [TInstr.eval, h]; rfl

theorem tev_op {ls : List Lv} {l : Lv} {o : TOp crv ls l} {args x} (hx : fetch r.regs ls args = some x) (y : l.V crv)
    (hy : ∀ y', o.rel x y' ↔ y' = y) : (TInstr.op o args).eval r = some (r.push l y) := by
  classical
  have h : ∃! y, o.rel x y := ⟨y, (hy y).2 rfl, fun y' h => (hy y').1 h⟩
  rw [TInstr.eval, hx]
  show (if h : ∃! y, o.rel x y then some (r.push l h.choose) else none) = _
  rw [dif_pos h, (hy _).1 h.choose_spec.1]

theorem tev_eq {l : Lv} {i j : ℕ} {x : l.V crv} (h : (r.regs l)[i]? = some x) (h' : (r.regs l)[j]? = some x) :
    (TInstr.assertEq l i j).eval r = some r := by rw [TInstr.eval, h, h']; exact if_pos rfl

theorem tev_one {i : ℕ} (h : (r.regs .f12)[i]? = some 1) : (TInstr.assertOne i).eval r = some r := by
  rw [TInstr.eval, h]; exact if_pos rfl

theorem tev_pairing {ts us} (h : r.inputs ts = some us) (h' : InSecond us) :
    (TInstr.pairing ts).eval r = some (r.push .f12 (ateProd us)) := by rw [TInstr.eval, h]; exact if_pos h'

theorem tev_check {ts us} (h : r.inputs ts = some us) (h' : InSecond us) (h1 : ateProd us = 1) :
    (TInstr.checkPairing ts).eval r = some r := by rw [TInstr.eval, h]; exact if_pos ⟨h', h1⟩

theorem inputs_cons {t ts us P p q} (hP : r.base.pts[t.1]? = some P) (hp : P.xy = some p)
    (hq : r.g2s[t.2]? = some (false, q)) (h : r.inputs ts = some us) : r.inputs (t :: ts) = some ((p, q) :: us) := by
  have e : r.input t = some (p, q) := by
    rw [TRef.input, hP]
    show P.xy >>= _ = _
    rw [hp]
    show r.g2s[t.2]? >>= _ = _
    rw [hq]
    rfl
  rw [TRef.inputs, e]
  show r.inputs ts >>= _ = _
  rw [h]
  rfl

/-- The honest run of `towerProg`. -/
theorem towerProg_eval {G : Pt (pairBq crv)} {x y : ZMod (pairQ crv)} (hG : HasCoords G x y) :
    ∃ r, tevalAll (towerProg G) (TRef.empty crv) = some r ∧
      (r.regs .f12)[0]? = some (ate crv (untwist crv (genQ crv)) (embQ x, embQ y)) := by
  have h1 : G.xy = some (x, y) := Pt.xy_iff.2 hG
  have h2 : (-G).xy = some (x, -y) := Pt.xy_iff.2 hG.neg
  have hy : y ≠ 0 := fun h0 => no_two_torsion crv x (by rw [← hG.eqn, h0]; ring)
  have hid : ∀ {s : PRef (pairBq crv)}, s.pts[0]? = some G → (PInstr.isIdentity 0).eval s = some (s.pushC false) := by
    intro s h
    rw [PInstr.eval, h]
    show some (s.pushC (decide (G = 0))) = _
    rw [decide_eq_false hG.ne_zero]
  have hin : ∀ us : List ((ZMod (pairQ crv) × ZMod (pairQ crv)) × (Fq2 (pairQ crv) × Fq2 (pairQ crv))),
      (∀ u ∈ us, u.2 = genQ crv) → InSecond us := fun us h v hv => by rw [h v hv]; exact gen_inG2 crv
  have hprod := ate_neg (gen_at crv) (gen_inG2 crv) x y hy
  have one : ∀ p, ateProd [(p, genQ crv)] = ate crv (untwist crv (genQ crv)) (embQ p.1, embQ p.2) := fun p => by
    simp [ateProd]
  have key : ateProd [((x, y), genQ crv)] * ateProd [((x, -y), genQ crv)] = 1 := by rw [one, one]; exact hprod
  refine ⟨_, tev_cons (tev_pt (pev_assignA hG.ne_zero)) <| tev_cons (tev_pt rfl) <| tev_cons (tev_pt rfl) <|
    tev_cons (tev_pt (hid rfl)) <| tev_cons (tev_op rfl _ fun _ => Iff.rfl) <| tev_cons (tev_op rfl _ fun _ => Iff.rfl) <|
    tev_cons rfl <|
    tev_cons (tev_check (us := [((x, y), genQ crv), ((x, -y), genQ crv)])
      (inputs_cons (q := genQ crv) rfl h1 rfl <| inputs_cons (q := genQ crv) rfl h2 rfl rfl) (hin _ (by simp))
      (by rw [ateProd]; simpa using hprod)) <|
    tev_cons (tev_pairing (inputs_cons (q := genQ crv) rfl h1 rfl rfl) (hin _ (by simp))) <|
    tev_cons (tev_pairing (inputs_cons (q := genQ crv) rfl h2 rfl rfl) (hin _ (by simp))) <|
    tev_cons (tev_op rfl 1 fun z => by
      show z = ateProd [((x, y), genQ crv)] * ateProd [((x, -y), genQ crv)] ↔ _
      rw [key]) <|
    tev_cons (tev_one rfl) <|
    tev_cons (tev_op rfl (ateProd [((x, -y), genQ crv)]) fun z => by
      show ateProd [((x, y), genQ crv)] * z = 1 ↔ _
      constructor
      · intro h
        have h0 : ateProd [((x, y), genQ crv)] ≠ 0 := left_ne_zero_of_mul_eq_one key
        exact mul_left_cancel₀ h0 (h.trans key.symm)
      · rintro rfl
        exact key) <|
    tev_cons (tev_eq rfl rfl) <|
    tev_cons (tev_op rfl 1 fun z => by
      show ((1 : Fq12 (pairQ crv) crv) ^ _ = 1 → z = 1 ^ 2) ↔ _
      rw [one_pow, one_pow]
      exact ⟨fun h => h rfl, fun h _ => h⟩) <|
    tev_cons (tev_op rfl (ateProd [((x, y), genQ crv)] ^ pairQ crv ^ 1) fun z =>
      ⟨fun h => h (.inr rfl), fun h _ => h⟩) <|
    tev_cons rfl <| tev_cons rfl <| tev_cons (tev_eq rfl rfl) <| tev_cons rfl rfl, ?_⟩
  exact congrArg some (one (x, y))

end eval

/-- C56: the hypotheses of the theorems above are met by `towerProg` on the generator of bn256; so the program runs, its
witness is accepted, and the recorded result of `pairing` is the pairing of the generators. -/
theorem C56_case : ∃ (info : RangeInfo bnR) (G : Pt (pairBq .bn256)) (r : TRef .bn256), Env bnQ info ∧
    HasCoords G 1 2 ∧ tevalAll (towerProg G) (TRef.empty .bn256) = some r ∧
    (r.regs .f12)[0]? = some (ate .bn256 (untwist .bn256 (genQ .bn256)) (embQ 1, embQ 2)) ∧
    Accepted (texecAll info bnR (towerProg G) (TSt.empty bnR)) (fun s => HRepTSt info s r) := by
  obtain ⟨info, E⟩ := env_bn256
  obtain ⟨G, hG'⟩ := HasCoords.of_eqn (good_pair .bn256) (x := 1) (y := 2) (by decide +kernel)
  obtain ⟨r, h1, h2⟩ := towerProg_eval (crv := .bn256) hG'
  exact ⟨info, G, r, E, hG', h1, h2, Accepted.of_C fun c h =>
    C56_program_complete (crv := .bn256) E bnR (by decide +kernel) _ r h1 c h⟩

end Verif
