import Verif.Spec.Keys

/-!
# Two curve contexts on one native context

`GeneralScalarEccContext::new` (`src/context.rs:231-240`) takes a shared reference to the native context, so a client may
make several curve contexts, for one curve or for several, that record into one circuit. Each counts its own prefix.
-/

namespace Verif
variable {n : ℕ}

/-- Calls on two curve contexts with a common native context: `false` is a call on the first, `true` on the second. -/
def runBoth (A B : Api n) (w : Witness n) : List (Bool × Call n) → Store n × Store n → M n (Store n × Store n)
  | [], p => pure p
  | (false, c) :: cs, (S, T) => do
    let S ← runCall A w S c
    runBoth A B w cs (S, T)
  | (true, c) :: cs, (S, T) => do
    let T ← runCall B w T c
    runBoth A B w cs (S, T)

/-- The number of multi-scalar multiplications on one of the contexts. -/
def msmCount (b : Bool) (cs : List (Bool × Call n)) : ℕ := cs.countP fun x => x.1 == b && x.2.IsMsm

end Verif
