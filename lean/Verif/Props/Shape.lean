import Verif.Proof.RelApi
import Verif.Spec.Circuit

/-!
# C32: the circuit does not depend on the witness
-/

namespace Verif
variable {n : ℕ}

/-- **C32.** Run the same sequence of API calls with two witnesses, from contexts with the same circuit. If neither run
panics, the fixed columns, permutation flags, copy constraints, heights and offsets are the same afterwards, and the
objects handed out refer to the same cells. -/
theorem C32_circuit_independent_of_witness (A : Api n) (calls : List (Call n)) (w w' : Witness n) {σ σ' τ τ' : Store n}
    {s s' t t' : Context n} (hσ : sh True σ σ') (hs : SameShape s s') (h : runCalls A w calls σ s = .ok (τ, t))
    (h' : runCalls A w' calls σ' s' = .ok (τ', t')) : SameShape t t' ∧ sh True τ τ' :=
  let r := rel_runCalls (st := True) A w w' calls hσ s s' τ t τ' t' (fun _ => hs) h h'
  ⟨r.2.1 trivial, r.2.2⟩

/-- **C32.** What is fixed at key generation is the same for all witnesses: a client program run on a new context
describes one circuit. -/
theorem C32_one_circuit (A : Api n) (calls : List (Call n)) (pre : Option ℕ) (w w' : Witness n) {τ τ' : Store n}
    {t t' : Context n} (h : runCalls A w calls (.empty n pre) (.new n) = .ok (τ, t))
    (h' : runCalls A w' calls (.empty n pre) (.new n) = .ok (τ', t')) (usable : ℕ) :
    t.circuit usable = t'.circuit usable ∧ t.records.inner.permute_flag = t'.records.inner.permute_flag ∧
      t.offs = t'.offs ∧ t.records.base_height = t'.records.base_height ∧
      t.records.range_height = t'.records.range_height ∧ t.records.select_height = t'.records.select_height := by
  have hσ : sh True (Store.empty n pre) (.empty n pre) := ⟨sh_nil, sh_nil, sh_nil, sh_nil, sh_nil, sh_nil, sh_nil, sh_nil, sh_nil, sh_nil, rfl⟩
  obtain ⟨H, -⟩ := C32_circuit_independent_of_witness A calls w w' hσ
    ⟨rfl, rfl, rfl, rfl, rfl, rfl, rfl, rfl, rfl, rfl, rfl⟩ h h'
  refine ⟨?_, H.flags, ?_, H.base_height, H.range_height, H.select_height⟩
  · unfold Context.circuit
    rw [H.base_fix, H.range_fix, H.select_fix, H.permutations]
  · unfold Context.offs
    rw [H.base_offset, H.range_offset, H.select_offset]

/-- **C32.** So the assignments accepted are the same: whatever witness the key was generated with, another one can be
proved. -/
theorem C32_same_proofs (A : Api n) (calls : List (Call n)) (pre : Option ℕ) (w w' : Witness n) {τ τ' : Store n}
    {t t' : Context n} (h : runCalls A w calls (.empty n pre) (.new n) = .ok (τ, t))
    (h' : runCalls A w' calls (.empty n pre) (.new n) = .ok (τ', t')) (usable : ℕ) (a : Advice n) :
    (t.circuit usable).Sat a ↔ (t'.circuit usable).Sat a := by
  rw [(C32_one_circuit A calls pre w w' h h' usable).1]

/-- **C32** for the composition of single operations: whatever a client computes from the objects handed out, two
operations with the same circuit can be continued by two operations with the same circuit. -/
theorem C32_sequencing {α β : Type} [Shaped α] [Shaped β] {m m' : M n α} {k k' : α → M n β} (h : SameCircuit m m')
    (hk : ∀ a a', sh True a a' → SameCircuit (k a) (k' a')) : SameCircuit (m >>= k) (m' >>= k') :=
  Runs2.bind h hk

namespace Example

/-- A client program using rows of several shapes and a range-checked value. -/
def calls (n : ℕ) : List (Call n) :=
  [.assign 0, .assign 1, .mul 0 1, .assign_common 0]

def api (n : ℕ) (info : RangeInfo n) : Api n := ⟨info, info, 3, 7, 254, (1, 2)⟩
def wit0 (n : ℕ) : Witness n := ⟨fun _ => 0, fun _ => 0, fun _ => none⟩
def wit1 (n : ℕ) : Witness n := ⟨fun i => (i + 5 : ℕ), fun _ => 77, fun _ => none⟩

/-- Neither run panics, and the witnesses are different. -/
theorem runs (n : ℕ) (info : RangeInfo n) : ∃ τ t τ' t',
    runCalls (api n info) (wit0 n) (calls n) (.empty n none) (.new n) = .ok (τ, t) ∧
    runCalls (api n info) (wit1 n) (calls n) (.empty n none) (.new n) = .ok (τ', t') ∧
    τ.v.head?.map (·.val) = some 0 ∧ τ'.v.head?.map (·.val) = some (5 : ℕ) :=
  ⟨_, _, _, _, rfl, rfl, rfl, rfl⟩

end Example

end Verif
