import Verif.Trace

/-
What it means that the array accesses of a function do not depend on the data.
-/

namespace Trace
open C

/-- The run returns after the accesses `tr`. -/
def Accesses {α : Type} (run : TM α) (tr : List Event) : Prop := ∃ r, run = .ok (r, tr)

/-- `traced` is the function `f` with its array accesses recorded: on every array it fails with the
same error or returns the same contents. -/
def Records (traced : Named Int → TM (Named Int)) (f : Array Int → M (Array Int)) : Prop :=
  ∀ name a, (traced ⟨name, a⟩).result.map Named.data = f a

/-- The accesses do not depend on the contents of the array (for any two runs that return), where
`traced`, `traced'` are the same function with different tables. -/
def SameAccesses (traced traced' : Named Int → TM (Named Int)) : Prop :=
  ∀ name a a' tr tr', Accesses (traced ⟨name, a⟩) tr → Accesses (traced' ⟨name, a'⟩) tr' → tr = tr'

/-- The same for the functions of three arrays. -/
def Records3 (traced : Named Int → Named Int → Named Int → TM (Named Int × Named Int × Named Int))
    (f : Array Int → Array Int → Array Int → M (Array Int × Array Int × Array Int)) : Prop :=
  ∀ c a b, (traced ⟨"c", c⟩ ⟨"a", a⟩ ⟨"b", b⟩).result.map
    (fun r => (r.1.data, r.2.1.data, r.2.2.data)) = f c a b

def SameAccesses3
    (traced traced' : Named Int → Named Int → Named Int → TM (Named Int × Named Int × Named Int)) :
    Prop :=
  ∀ c a b c' a' b' tr tr', Accesses (traced ⟨"c", c⟩ ⟨"a", a⟩ ⟨"b", b⟩) tr →
    Accesses (traced' ⟨"c", c'⟩ ⟨"a", a'⟩ ⟨"b", b'⟩) tr' → tr = tr'

end Trace
