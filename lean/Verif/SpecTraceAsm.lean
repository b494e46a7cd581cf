import Verif.TraceAsm

/-
What it means that the memory accesses and the conditional jumps of a function of src/ntt_asm.S do not depend on
the data.
-/

namespace TraceAsm
open C
open Trace (Named)

/-- The run returns after the events `tr`. -/
def Events {α : Type} (run : TM α) (tr : List Event) : Prop := ∃ r, run = .ok (r, tr)

/-- `traced` is the function `f` with its events recorded: on every array it fails with the same error or
returns the same contents. -/
def Records (traced : Named Int → TM (Named Int)) (f : Array Int → M (Array Int)) : Prop :=
  ∀ name a, (traced ⟨name, a⟩).result.map Named.data = f a

/-- Any two runs that return, on arrays of any contents, have the same events.  `traced` and `traced'` are the same
function with different tables or scalars. -/
def SameEvents (traced traced' : Named Int → TM (Named Int)) : Prop :=
  ∀ name a a' tr tr', Events (traced ⟨name, a⟩) tr → Events (traced' ⟨name, a'⟩) tr' → tr = tr'

/-- The same for the products. -/
def Records3 (traced : Named Int → Named Int → Named Int → TM (Named Int × Named Int × Named Int))
    (f : Array Int → Array Int → Array Int → M (Array Int × Array Int × Array Int)) : Prop :=
  ∀ c a b, (traced ⟨"c", c⟩ ⟨"a", a⟩ ⟨"b", b⟩).result.map
    (fun r => (r.1.data, r.2.1.data, r.2.2.data)) = f c a b

def SameEvents3
    (traced traced' : Named Int → Named Int → Named Int → TM (Named Int × Named Int × Named Int)) : Prop :=
  ∀ c a b c' a' b' tr tr', Events (traced ⟨"c", c⟩ ⟨"a", a⟩ ⟨"b", b⟩) tr →
    Events (traced' ⟨"c", c'⟩ ⟨"a", a'⟩ ⟨"b", b'⟩) tr' → tr = tr'

end TraceAsm
