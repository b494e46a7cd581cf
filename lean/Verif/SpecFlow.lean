import Verif.Flow

/-
What it means that the array accesses and the tests of a function written in C do not depend on the data.
-/

namespace Flow
open C
open Trace (Named)

/-- The run returns after the events `tr`. -/
def Events {α : Type} (run : TM α) (tr : List Event) : Prop := ∃ r, run = .ok (r, tr)

/-- `recorded` is the function `f` with its events recorded: on every array it fails with the same error or returns the same
contents. -/
def Records (recorded : Named Int → TM (Named Int)) (f : Array Int → M (Array Int)) : Prop :=
  ∀ name a, (recorded ⟨name, a⟩).result.map Named.data = f a

/-- Any two runs that return, on arrays of any contents, have the same events.  `f` and `f'` are the same function with
different tables or scalars. -/
def SameEvents (f f' : Named Int → TM (Named Int)) : Prop :=
  ∀ name a a' tr tr', Events (f ⟨name, a⟩) tr → Events (f' ⟨name, a'⟩) tr' → tr = tr'

/-- Two runs that return have the same events exactly if their arrays satisfy `P`. -/
def SameEventsIff (P : Array Int → Array Int → Prop) (f : Named Int → TM (Named Int)) : Prop :=
  ∀ name a a' tr tr', Events (f ⟨name, a⟩) tr → Events (f ⟨name, a'⟩) tr' → (tr = tr' ↔ P a a')

/-- The same for the products. -/
def Records3 (recorded : Named Int → Named Int → Named Int → TM (Named Int × Named Int × Named Int))
    (f : Array Int → Array Int → Array Int → M (Array Int × Array Int × Array Int)) : Prop :=
  ∀ c a b, (recorded ⟨"c", c⟩ ⟨"a", a⟩ ⟨"b", b⟩).result.map
    (fun r => (r.1.data, r.2.1.data, r.2.2.data)) = f c a b

def SameEvents3 (f f' : Named Int → Named Int → Named Int → TM (Named Int × Named Int × Named Int)) : Prop :=
  ∀ c a b c' a' b' tr tr', Events (f ⟨"c", c⟩ ⟨"a", a⟩ ⟨"b", b⟩) tr →
    Events (f' ⟨"c", c'⟩ ⟨"a", a'⟩ ⟨"b", b'⟩) tr' → tr = tr'

/-- Two runs of a product, possibly with different tables, have the same events exactly if `P` holds of the two first operands
and of the two second operands. -/
def SameEventsIff3 (P : Array Int → Array Int → Prop)
    (f f' : Named Int → Named Int → Named Int → TM (Named Int × Named Int × Named Int)) : Prop :=
  ∀ c a b c' a' b' tr tr', Events (f ⟨"c", c⟩ ⟨"a", a⟩ ⟨"b", b⟩) tr →
    Events (f' ⟨"c", c'⟩ ⟨"a", a'⟩ ⟨"b", b'⟩) tr' → (tr = tr' ↔ P a a' ∧ P b b')

/-- Among the first `n` elements of the two arrays the same ones are greater than 6144 = (Q-1)/2. -/
def SameUpperHalf (n : Nat) (a a' : Array Int) : Prop := ∀ i < n, (6144 < a.getD i 0 ↔ 6144 < a'.getD i 0)

/-- Among the first `n` elements of the two arrays the same ones are negative and not multiples of 12289. -/
def SameNegative (n : Nat) (a a' : Array Int) : Prop :=
  ∀ i < n, ((a.getD i 0 < 0 ∧ ¬ (12289 : Int) ∣ a.getD i 0) ↔ (a'.getD i 0 < 0 ∧ ¬ (12289 : Int) ∣ a'.getD i 0))

end Flow
