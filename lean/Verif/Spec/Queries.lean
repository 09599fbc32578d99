import Verif.Model.Storage
import Verif.Spec.Recurrence
/- Specification vocabulary for queries: when an event or occurrence belongs to a period, and when an
event satisfies search criteria.  Independent of the functions of the model (only the attributes of
events and criteria are used). -/
namespace CalCore.Spec

/-- The instant `t` is in the period; None means unbounded. -/
def InPeriod (t : Int) (b e : Option Int) : Prop :=
  (∀ b', b = some b' → b' ≤ t) ∧ (∀ e', e = some e' → t < e')

/-- Something lasting from `x` for `dur` belongs to the period: they have an instant in common, or it
has no length and lies inside the period. -/
def Shown (x dur : Int) (b e : Option Int) : Prop :=
  (∃ t, x ≤ t ∧ t < x + dur ∧ InPeriod t b e) ∨
    (dur = 0 ∧ (∀ b', b = some b' → b' < x) ∧ ∀ e', e = some e' → x < e')

/-- The period is not empty or inverted. -/
def ProperPeriod (b e : Option Int) : Prop := ∀ b' e', b = some b' → e = some e' → b' < e'

/-- The conditions of search criteria (interfaces.py, ISearchCriteria). -/
def Matches (c : Criteria) (e : Event) : Prop :=
  (∀ cs, c.categories = some cs → ∃ x ∈ cs, x ∈ e.categories) ∧
    (∀ o, c.organizer = some o → e.organizerId = some o) ∧
    (∀ l, c.attendees = some l → ∃ a ∈ l, ∃ st, Dict.get? e.pstate a = some st ∧
      (∀ s, c.status = some s → st = s) ∧ (∀ r, c.role = some r → Dict.get? e.prole a = some r))

/-- The event is in the store. -/
def Stored (s : Storage) (e : Event) : Prop := Dict.get? s.events e.uid = some e

/-- `a` attends the event. -/
def Attends (e : Event) (a : AttId) : Prop := ∃ st, Dict.get? e.pstate a = some st

/-- The start is a Python datetime, and the rule, if any, has a positive interval and a date as `until`. -/
def Regular (e : Event) : Prop :=
  dtInRange e.dtstart = true ∧ ∀ r, e.recurrence = some r → 1 ≤ r.interval ∧ UntilIsDate r

/-- An occurrence of the event starts at `x`: the event's own start, or a date of its rule at the time of
day of its start. -/
def StartsAt (e : Event) (x : Int) : Prop :=
  match e.recurrence with
  | none => x = e.dtstart
  | some r => ∃ d, IsDate r (dtDate e.dtstart) d ∧ x = combine d (dtTime e.dtstart)

/-- The event takes place at the instant `t`. -/
def OccursAt (e : Event) (t : Int) : Prop :=
  ∃ x dur, StartsAt e x ∧ e.duration = some dur ∧ x ≤ t ∧ t < x + dur

/-- The occurrence or segment takes place at the instant `t`. -/
def Covers {α : Type} (o : Occurrence α) (t : Int) : Prop := o.dtstart ≤ t ∧ t < o.dtstart + o.duration

instance {α : Type} (o : Occurrence α) (t : Int) : Decidable (Covers o t) :=
  inferInstanceAs (Decidable (_ ∧ _))

end CalCore.Spec
