import Verif.Spec.Written
import Verif.Spec.RepresentSpec
import Verif.Spec.Participation
/- What it means that a call changes objects, and what it leaves in an event. -/
namespace CalCore.Lang
variable [Source.Globals]

/-- Calling the method `m` of `o` leaves the object and the arguments as in `after` and sends the notifications `out`; it ends
with the exception `fin`, if any, or else returns `v`. -/
def Does (o : Val) (m : String) (args after out : List Val) (fin : Option Stop) (v : Val) : Prop :=
  Answers o m args (.ok (procVal after out fin v))

end CalCore.Lang

namespace CalCore.Spec

/-- An entry in the attendee list of a specification that can be set: the role exists and there is an attendee. -/
def CanSet (p : Option AttId × String × String) : Bool := decide (p.2.1 ∈ roles) && p.1.isSome

/-- The attendee entries that are set: those before the first one that cannot be. -/
def entriesSet (s : Spec) : List (Option AttId × String × String) := s.attendees.takeWhile CanSet

/-- The exception that the first entry that cannot be set raises. -/
def badEntry (s : Spec) : Option PyErr :=
  (s.attendees.find? (fun p => !CanSet p)).map (fun p => if p.2.1 ∈ roles then .AttributeError else .AssertionError)

/-- The event has the attributes that the specification says. -/
structure HasAttributes (s : Spec) (e : Event) : Prop where
  dtstart : e.dtstart = s.dtstart
  duration : e.duration = s.duration
  title : e.title = s.title
  description : e.description = s.description
  location : e.location = s.location
  status : e.status = s.status
  recurrence : e.recurrence = s.recurrence
  allday : e.allday = s.allday
  categories : e.categories = s.categories
  transparent : e.transparent = s.transparent
  access : e.access = s.access
  document : e.document = s.document

/-- The status an event has for somebody after a specification was set, when it was `old` before. -/
def statusAfter (s : Spec) (old : Option String) (a : AttId) : Option String :=
  ((lastEntry (entriesSet s) a).map (·.2)).or (if s.organizer = some a then some "ACCEPTED" else old)

/-- The role after a specification was set, when it was `old` before. -/
def roleAfter (s : Spec) (old : Option String) (a : AttId) : Option String :=
  ((lastEntry (entriesSet s) a).map (·.1)).or (if s.organizer = some a then some "REQ-PARTICIPANT" else old)

/-- An entry that `willModify` finds fulfilled: the status is the one asked for, the role is the usual one. -/
def Fulfilled (e : Event) (p : Option AttId × String × String) : Prop :=
  ∃ a, p.1 = some a ∧ e.getStatus a = some p.2.2 ∧ e.getRole a = some "REQ-PARTICIPANT"

/-- The number of days an all-day event takes: at least one for a duration of zero, and days that are begun count. -/
def daysTaken (d : TimeDelta) : Int := if d = 0 then 1 else -((-d) / DAY)

/-- What a new event is to look like: an all-day event begins at midnight and takes whole days. -/
def asMade (s : Spec) : Spec :=
  if s.allday then
    { s with
      dtstart := dtDate s.dtstart * DAY
      duration := some ((s.duration.map daysTaken).getD 1 * DAY) }
  else s

end CalCore.Spec
