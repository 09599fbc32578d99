import Verif.Model.Calendar
import Verif.Spec.Errors
/- Which data an import refuses, and with which exception. -/
namespace CalCore.Spec

/-- A time with an offset that has no local time in Python's calendar. -/
def TimeFault (tz : LocalTz) : ICalTime → Prop
  | .aware t off => dtInRange (t - off) = false ∨ dtInRange (t - off + tz (t - off)) = false
  | _ => False

/-- No DTSTART, or a time that cannot be converted. -/
def TimesFail (tz : LocalTz) (v : VEvent) (e : PyErr) : Prop :=
  v.dtstart = none ∧ e = .AssertionError ∨
  ∃ st, v.dtstart = some st ∧ (TimeFault tz st ∨ ∃ en, v.dtend = some en ∧ TimeFault tz en) ∧ e = .OverflowError

/-- The organizer is not known to the source and neither is the main attendee of the calendar. -/
def OrganizerFails (c : Calendar) (src : Source) (v : VEvent) (e : PyErr) : Prop :=
  (∀ a, v.organizer = some a → Dict.has src a = false) ∧ (∃ a, c.mainId = some a ∧ Dict.has src a = false) ∧
    e = .KeyError

/-- The first of INTERVAL, COUNT and UNTIL that is there has no value. -/
def FirstEmpty (rr : RRule) : Prop :=
  rr.interval = some [] ∨ rr.interval = none ∧ (rr.count = some [] ∨ rr.count = none ∧ rr.untl = some [])

/-- FREQ is missing or not one of four, or BYDAY does not fit.  (With another FREQ the exception depends on the parts that
follow.) -/
def KindFails (rr : RRule) (e : PyErr) : Prop :=
  rr.freq = none ∧ e = .KeyError ∨
  (∃ f, rr.freq = some f ∧ f ≠ "DAILY" ∧ f ≠ "YEARLY" ∧ f ≠ "WEEKLY" ∧ f ≠ "MONTHLY") ∧
    (FirstEmpty rr ∧ e = .IndexError ∨ ¬ FirstEmpty rr ∧ e = .UnboundLocalError) ∨
  rr.freq = some "WEEKLY" ∧ (∃ l, rr.byday = some l ∧ ∃ d ∈ l, d ∉ ["MO", "TU", "WE", "TH", "FR", "SA", "SU"]) ∧
    e = .ValueError ∨
  rr.freq = some "MONTHLY" ∧ (rr.byday = some [] ∨ ∃ rest, rr.byday = some ("" :: rest)) ∧ e = .IndexError

/-- The same, or one of INTERVAL, COUNT and UNTIL has no value. -/
def RuleFails (rr : RRule) (e : PyErr) : Prop :=
  KindFails rr e ∨
  (∀ e', ¬ KindFails rr e') ∧ (rr.interval = some [] ∨ rr.count = some [] ∨ rr.untl = some []) ∧ e = .IndexError

/-- A component cannot be read: because of its times, else its organizer, else its rule. -/
def ReadFails (tz : LocalTz) (c : Calendar) (src : Source) (v : VEvent) (e : PyErr) : Prop :=
  TimesFail tz v e ∨
  (∀ e', ¬ TimesFail tz v e') ∧ (OrganizerFails c src v e ∨
    (∀ e', ¬ OrganizerFails c src v e') ∧ ∃ rr, v.rrule = some rr ∧ RuleFails rr e)

/-- The attendee is known to the source and has a documented role, REQ-PARTICIPANT if it has none. -/
def AddressOk (src : Source) (p : CalAddress) : Prop :=
  Dict.has src p.addr = true ∧ RoleOk (p.role.getD "REQ-PARTICIPANT")

/-- The first attendee that is wrong has a wrong role, or a documented role and is not known. -/
def AddressFails (src : Source) (v : VEvent) (e : PyErr) : Prop :=
  ∃ pre p post, v.attendees = pre ++ p :: post ∧ (∀ y ∈ pre, AddressOk src y) ∧
    (¬ RoleOk (p.role.getD "REQ-PARTICIPANT") ∧ e = .AssertionError ∨
     RoleOk (p.role.getD "REQ-PARTICIPANT") ∧ Dict.has src p.addr = false ∧ e = .AttributeError)

/-- No event can be made from the component. -/
def ComponentFails (tz : LocalTz) (c : Calendar) (src : Source) (v : VEvent) (e : PyErr) : Prop :=
  v.uid = none ∧ e = .KeyError ∨
  v.uid ≠ none ∧ (ReadFails tz c src v e ∨ (∀ e', ¬ ReadFails tz c src v e') ∧ AddressFails src v e)

/-- No event can be made from one of the components; the first of them decides about the exception. -/
def FirstFails (tz : LocalTz) (c : Calendar) (src : Source) (vs : List VEvent) (e : PyErr) : Prop :=
  ∃ pre v post, vs = pre ++ v :: post ∧ (∀ y ∈ pre, ∀ e', ¬ ComponentFails tz c src y e') ∧ ComponentFails tz c src v e

end CalCore.Spec
