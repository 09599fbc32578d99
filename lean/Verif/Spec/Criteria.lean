import Verif.Spec.Queries
import Verif.Model.Misc
/- Specification vocabulary for combining and comparing search criteria, and for the attendee source. -/
namespace CalCore.Spec

/-- A value given as argument replaces one's own; None as argument leaves it. -/
def override {α : Type} (own arg : Option α) : Option α :=
  match arg with
  | some x => some x
  | none => own

/-- `fine` asks for no less than `coarse` in each of its parts: what `coarse` leaves open may be given,
and lists of alternatives may only get shorter.  (Status and role only matter together with attendees.) -/
structure Narrower (fine coarse : Criteria) : Prop where
  categories : ∀ cs, coarse.categories = some cs → ∃ cs', fine.categories = some cs' ∧ ∀ x ∈ cs', x ∈ cs
  organizer : ∀ o, coarse.organizer = some o → fine.organizer = some o
  attendees : ∀ l, coarse.attendees = some l →
    (∃ l', fine.attendees = some l' ∧ ∀ x ∈ l', x ∈ l) ∧
    (∀ st, coarse.status = some st → fine.status = some st) ∧
    (∀ r, coarse.role = some r → fine.role = some r)

/-- The period `(b, e)` lies inside `(b', e')`; None is unbounded. -/
def Inside (b e b' e' : Option Int) : Prop :=
  (∀ x, b' = some x → ∃ y, b = some y ∧ x ≤ y) ∧ (∀ x, e' = some x → ∃ y, e = some y ∧ y ≤ x)

end CalCore.Spec
