import Verif.Model.Calendar
/- Specification vocabulary for import: what the imported data mean, independently of the code. -/
namespace CalCore.Spec

/-- `x` is the local floating time meant by a DTSTART or DTEND value: a DATE means midnight, a floating
time means itself, a time with a UTC offset means the local wall clock at that instant (`tz` gives the
local offset at a UTC instant).  All intermediate values have to be representable. -/
inductive Means (tz : LocalTz) : ICalTime → Int → Prop
  | date (d : Int) : Means tz (.date d) (d * DAY)
  | floating (t : Int) : Means tz (.naive t) t
  | zoned (t off : Int) (h1 : dtInRange (t - off) = true) (h2 : dtInRange (t - off + tz (t - off)) = true) :
      Means tz (.aware t off) (t - off + tz (t - off))

/-- The component is a DATE. -/
def IsDateValue : ICalTime → Prop
  | .date _ => True
  | _ => False

/-- Every newline is preceded by a carriage return. -/
def Repaired (t : List Char) : Prop :=
  ∀ pre post, t = pre ++ '\n' :: post → pre.getLast? = some '\r'

/-- The first newline of `t` is neither its first character nor preceded by a carriage return. -/
def FirstIsBare (t : List Char) : Prop :=
  ∃ pre post, t = pre ++ '\n' :: post ∧ '\n' ∉ pre ∧ pre ≠ [] ∧ pre.getLast? ≠ some '\r'

/-- The text without its carriage returns. -/
def withoutCR (t : List Char) : List Char := t.filter (· ≠ '\r')

/-- The event says what the component says, times and participation apart. -/
structure SaysWhat (v : VEvent) (ev : Event) : Prop where
  title : ev.title = v.summary.getD ""
  description : ev.description = v.description.getD ""
  location : ev.location = v.location.getD ""
  status : ev.status = v.status.getD "TENTATIVE"
  transparent : ev.transparent = true ↔ v.transp = some "TRANSPARENT"
  access : ev.access = v.cls.getD "PUBLIC"
  document : ev.document = v.attach
  categories : ∀ x, x ∈ ev.categories ↔
    ∃ l, (v.categories = .inline l ∨ v.categories = .multi l) ∧ x ∈ l
  recurs : ev.recurrence.isSome ↔ v.rrule.isSome

/-- The event is at the time the component says: it starts at the local time of DTSTART and lasts to that of
DTEND, or for DURATION, or for no time. -/
def AtTime (tz : LocalTz) (v : VEvent) (ev : Event) : Prop :=
  (∀ st, v.dtstart = some st → Means tz st ev.dtstart) ∧ ∃ dur, ev.duration = some dur ∧
    (∀ en, v.dtend = some en → Means tz en (ev.dtstart + dur)) ∧
    (v.dtend = none → ∀ d, v.duration = some d → dur = d) ∧
    (v.dtend = none → v.duration = none → dur = 0)

/-- The organizer of the component is an attendee known to the source. -/
def HasKnownOrganizer (src : Source) (v : VEvent) (a : AttId) : Prop :=
  v.organizer = some a ∧ a ∈ Dict.keys src

/-- The component concerns the calendar: it lists an attendee of the calendar, or its organizer is one, or it
has no organizer known to the source and the calendar has somebody to stand in. -/
def Concerns (src : Source) (c : Calendar) (v : VEvent) : Prop :=
  (∃ p ∈ v.attendees, p.addr ∈ Dict.keys c) ∨ (∃ a ∈ Dict.keys c, HasKnownOrganizer src v a) ∨
    ((¬ ∃ a, HasKnownOrganizer src v a) ∧ Dict.keys c ≠ [])

end CalCore.Spec
