import Verif.Model.EccChip
import Verif.Model.Scalar
import Verif.Model.Parallel

/-!
# Multi-scalar multiplication

Model of `EccChipScalarOps`, `src/circuit/ecc_chip.rs:79-429`. The implementing context is given by its scalar
operations (`ScalarOps`); `b` is the curve constant; the random points are the coordinates given (`acc_c`, `line_c`).
-/

namespace Verif
variable {n : ℕ} {σ : Type}

/-- The operations a scalar context provides. -/
structure ScalarOps (n : ℕ) (σ : Type) where
  /-- `decompose_scalar::<1>` -/
  decompose : σ → M n (List (List (AssignedCondition n)))
  /-- `ecc_bisec_scalar` -/
  bisec : AssignedCondition n → σ → σ → M n σ
  /-- `ecc_assign_constant_zero_scalar` -/
  zero : M n σ

/-- `NativeScalarEccContext`, `src/circuit/native_scalar_ecc_chip.rs:97-171, 180-192`. -/
def nativeScalar (num_bits : ℕ) : ScalarOps n (AssignedValue n) where
  decompose := decompose_scalar_native num_bits 1
  bisec := bisec
  zero := assign_constant 0

/-- `GeneralScalarEccContext`, `src/circuit/general_scalar_ecc_chip.rs:96-147, 156-168`; `sinfo` is the range info of
the scalar field. -/
def generalScalar (sinfo : RangeInfo n) : ScalarOps n (AssignedInteger n) where
  decompose := decompose_scalar_general sinfo 1
  bisec := bisec_int sinfo
  zero := assign_int_constant sinfo 0

/-- `MSM_PREFIX_OFFSET`, `src/circuit/ecc_chip.rs:20`. -/
def MSM_PREFIX_OFFSET : ℕ := 2 ^ 20
/-- `MSM_LIMIT`, `src/circuit/ecc_chip.rs:21`. -/
def MSM_LIMIT : ℕ := 2 ^ 8 * MSM_PREFIX_OFFSET

/-- The number of trailing zeros of a number of `k` bits: `i.reverse_bits().leading_zeros()` for a `u32`
(`src/circuit/ecc_chip.rs:131`). -/
def trailing_zeros : ℕ → ℕ → ℕ
  | 0, _ => 0
  | k + 1, i => if i % 2 = 1 then 0 else 1 + trailing_zeros k (i / 2)

/-- The loop over `i` that fills the candidates of a chunk, `src/circuit/ecc_chip.rs:130-136` and `266-273`;
`cache` is `assign_cache_point_non_zero` with the select chip and does nothing without. -/
def fill_candidates (info : RangeInfo n) (cache : AssignedNonZeroPoint n → ℕ → M n Unit)
    (chunk : List (AssignedNonZeroPoint n)) :
    List (AssignedNonZeroPoint n) → List ℕ → M n (Except UnsafeError (List (AssignedNonZeroPoint n)))
  | cl, [] => pure (.ok cl)
  | cl, i :: is => do
    let pos := trailing_zeros 32 i
    let other := i - 2 ^ pos
    let a ← index cl other
    let q ← index chunk pos
    tryB (ecc_add_unsafe info a q) fun p => do
      let p ← ecc_reduce_non_zero info p
      cache p i
      fill_candidates info cache chunk (cl ++ [p]) is

/-- The loop over the chunks, `src/circuit/ecc_chip.rs:120-137` and `255-274`, from group `g` on. -/
def group_candidates (info : RangeInfo n) (cache : ℕ → AssignedNonZeroPoint n → ℕ → M n Unit)
    (line line_neg : AssignedNonZeroPoint n) :
    ℕ → List (List (AssignedNonZeroPoint n)) → M n (Except UnsafeError (List (List (AssignedNonZeroPoint n))))
  | _, [] => pure (.ok [])
  | g, chunk :: rest => do
    let init := if g % 2 = 0 then line else line_neg
    cache g init 0
    tryB (fill_candidates info (cache g) chunk [init] (List.range' 1 (2 ^ chunk.length - 1))) fun cl =>
      tryB (group_candidates info cache line line_neg (g + 1) rest) fun cs => pure (.ok (cl :: cs))

/-- The bits of a group in window `wi`, `src/circuit/ecc_chip.rs:157` and `181-184`: `bits[wi][0]` of each scalar. -/
def group_bits (wi : ℕ) (group : List (List (List (AssignedCondition n)))) : M n (List (AssignedCondition n)) :=
  group.mapM fun bits => do
    let win ← index bits wi
    index win 0

/-- The accumulation over the groups in one window, `src/circuit/ecc_chip.rs:155-162, 179-188` and `292-304, 321-336`,
from group `g` on; `pick` yields the candidate of the group. -/
def window_acc (info : RangeInfo n) (pick : ℕ → List (AssignedCondition n) → M n (AssignedNonZeroPoint n)) (wi : ℕ) :
    ℕ → List (List (List (List (AssignedCondition n)))) → AssignedNonZeroPoint n →
      M n (Except UnsafeError (AssignedNonZeroPoint n))
  | _, [], acc => pure (.ok acc)
  | g, group :: rest, acc => do
    let bits ← group_bits wi group
    let ci ← pick g bits
    tryB (ecc_add_unsafe info ci acc) fun acc => window_acc info pick wi (g + 1) rest acc

/-- Without the select chip: `src/circuit/ecc_chip.rs:158-159`. -/
def pick_bisec (info : RangeInfo n) (candidates : List (List (AssignedNonZeroPoint n))) (g : ℕ)
    (bits : List (AssignedCondition n)) : M n (AssignedNonZeroPoint n) := do
  let cl ← index candidates g
  bisec_candidate_non_zero info cl bits

/-- With the select chip: `src/circuit/ecc_chip.rs:295-301`. -/
def pick_select (info : RangeInfo n) (group_prefix : ℕ) (candidates : List (List (AssignedNonZeroPoint n))) (g : ℕ)
    (bits : List (AssignedCondition n)) : M n (AssignedNonZeroPoint n) := do
  let cl ← index candidates g
  let (index_cell, ci) ← pick_candidate_non_zero cl bits
  assign_selected_point_non_zero info ci index_cell (g + group_prefix)

/-- The final accumulation over the windows, `src/circuit/ecc_chip.rs:206-213` and `355-362`. -/
def windows_acc (info : RangeInfo n) (odd : Bool) (line_neg : AssignedNonZeroPoint n) :
    List (AssignedNonZeroPoint n) → AssignedNonZeroPoint n → M n (Except UnsafeError (AssignedNonZeroPoint n))
  | [], acc => pure (.ok acc)
  | l :: ls, acc =>
    tryB (ecc_double_unsafe info acc) fun acc =>
    tryB (ecc_add_unsafe info l acc) fun acc =>
    tryB (if odd then ecc_add_unsafe info acc line_neg else pure (.ok acc)) fun acc =>
    windows_acc info odd line_neg ls acc

/-- The shared text of `msm_batch_on_group_non_zero_without_select_chip`, `src/circuit/ecc_chip.rs:91-221`, and
`msm_batch_on_group_non_zero_with_select_chip`, `src/circuit/ecc_chip.rs:223-371`. `best` is `best_group_size`;
`before` is what happens between sizing the groups and building the candidates (taking the msm prefix). -/
def msm_batch (info : RangeInfo n) (b : ℕ) (ops : ScalarOps n σ) (best : ℕ) (before : M n Unit)
    (cache : ℕ → AssignedNonZeroPoint n → ℕ → M n Unit)
    (pick : List (List (AssignedNonZeroPoint n)) → ℕ → List (AssignedCondition n) → M n (AssignedNonZeroPoint n))
    (points : List (AssignedNonZeroPoint n)) (scalars : List σ) (acc_c line_c : Option (ℕ × ℕ)) :
    M n (Except UnsafeError (AssignedPoint n)) := do
  let points ← points.mapM (ecc_reduce_non_zero info)
  let acc ← assign_non_zero_point info b acc_c
  let line ← assign_non_zero_point info b line_c
  let acc_neg ← ecc_neg_non_zero info acc
  let acc_neg ← ecc_reduce_non_zero info acc_neg
  let line_neg ← ecc_neg_non_zero info line
  let line_neg ← ecc_reduce_non_zero info line_neg
  let n_group := (points.length + best - 1) / best
  let (group_size, _) ← div_rem (points.length + n_group - 1) n_group
  before
  tryB (group_candidates info cache line line_neg 0 (chunks group_size points)) fun candidates => do
    let bits ← scalars.mapM ops.decompose
    let groups := chunks group_size bits
    let bits0 ← index bits 0
    let windows := bits0.length
    tryB (windows_parallel windows fun wi => window_acc info (pick candidates) wi 0 groups acc_neg) fun line_acc =>
      tryB (windows_acc info (groups.length % 2 = 1) line_neg line_acc acc) fun acc => do
        let acc ← ecc_non_zero_point_downgrade acc
        let acc ← to_point_with_curvature info acc
        let carry ← ecc_non_zero_point_downgrade acc_neg
        let res ← ecc_add info acc carry
        pure (.ok res)

/-- `msm_batch_on_group_non_zero_without_select_chip`, `src/circuit/ecc_chip.rs:91-221`. -/
def msm_batch_without_select (info : RangeInfo n) (b : ℕ) (ops : ScalarOps n σ) :
    List (AssignedNonZeroPoint n) → List σ → Option (ℕ × ℕ) → Option (ℕ × ℕ) →
      M n (Except UnsafeError (AssignedPoint n)) :=
  msm_batch info b ops 2 (pure ()) (fun _ _ _ => pure ()) (pick_bisec info)

/-- `msm_batch_on_group_non_zero_with_select_chip`, `src/circuit/ecc_chip.rs:223-371`; `group_prefix` is the value of
`get_and_increase_msm_prefix` (`native_scalar_ecc_chip.rs:173-178`), which the caller advances. -/
def msm_batch_with_select (info : RangeInfo n) (b : ℕ) (ops : ScalarOps n σ) (group_prefix : ℕ)
    (points : List (AssignedNonZeroPoint n)) (scalars : List σ) (acc_c line_c : Option (ℕ × ℕ)) :
    M n (Except UnsafeError (AssignedPoint n)) := do
  rassert (points.length ≤ MSM_PREFIX_OFFSET)
  msm_batch info b ops 5 (rassert (group_prefix < MSM_LIMIT))
    (fun g p i => assign_cache_point_non_zero info p (group_prefix + g) i) (pick_select info group_prefix)
    points scalars acc_c line_c

/-- The loop of `msm_unsafe`, `src/circuit/ecc_chip.rs:386-391`. -/
def normalize (info : RangeInfo n) (ops : ScalarOps n σ) (s_zero : σ) (non_zero_p : AssignedNonZeroPoint n) :
    List (AssignedPoint n × σ) → M n (List (AssignedNonZeroPoint n × σ))
  | [] => pure []
  | (p, s) :: rest => do
    let s ← ops.bisec p.z s_zero s
    let p ← ecc_bisec_to_non_zero_point info p non_zero_p
    let r ← normalize info ops s_zero non_zero_p rest
    pure ((p, s) :: r)

/-- `msm_unsafe`, `src/circuit/ecc_chip.rs:373-408`. `msm_prefix` is the prefix state of the context, `none` if there is
no select chip; `generator` are the coordinates of `C::generator()`; `r1`, `r2` those of the random points. Returns the
result and the new prefix state. -/
def msm_unsafe (info : RangeInfo n) (b : ℕ) (ops : ScalarOps n σ) (generator : ℕ × ℕ) (r1 r2 : Option (ℕ × ℕ))
    (msm_prefix : Option ℕ) (points : List (AssignedPoint n)) (scalars : List σ) :
    M n (Except UnsafeError (AssignedPoint n) × Option ℕ) := do
  let non_zero_p ← assign_non_zero_point info b (some generator)
  let s_zero ← ops.zero
  let l ← normalize info ops s_zero non_zero_p (points.zip scalars)
  match msm_prefix with
  | some pre => do
    let r ← msm_batch_with_select info b ops pre (l.map Prod.fst) (l.map Prod.snd) r1 r2
    pure (r, some (pre + MSM_PREFIX_OFFSET))
  | none => do
    let r ← msm_batch_without_select info b ops (l.map Prod.fst) (l.map Prod.snd) r1 r2
    pure (r, none)

/-- `msm`, `src/circuit/ecc_chip.rs:410-416`. -/
def msm (info : RangeInfo n) (b : ℕ) (ops : ScalarOps n σ) (generator : ℕ × ℕ) (r1 r2 : Option (ℕ × ℕ))
    (msm_prefix : Option ℕ) (points : List (AssignedPoint n)) (scalars : List σ) :
    M n (AssignedPoint n × Option ℕ) := do
  let (r, pre) ← msm_unsafe info b ops generator r1 r2 msm_prefix points scalars
  match r with
  | .ok p => pure (p, pre)
  | .error _ => panic .unwrapNone

/-- `ecc_mul`, `src/circuit/ecc_chip.rs:418-420`. -/
def ecc_mul (info : RangeInfo n) (b : ℕ) (ops : ScalarOps n σ) (generator : ℕ × ℕ) (r1 r2 : Option (ℕ × ℕ))
    (msm_prefix : Option ℕ) (a : AssignedPoint n) (s : σ) : M n (AssignedPoint n × Option ℕ) :=
  msm info b ops generator r1 r2 msm_prefix [a] [s]

end Verif
