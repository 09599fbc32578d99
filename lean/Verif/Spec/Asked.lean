import Verif.Spec.Import
import Verif.Spec.ImportErrors
import Verif.Spec.RFC
/- What a VEVENT asks for. -/
namespace CalCore.Spec

/-- The class of rule that is made from FREQ and BYDAY.  A monthly rule looks at the first letter of BYDAY only. -/
def KindSays (rr : RRule) (k : RuleKind) : Prop :=
  rr.freq = some "DAILY" ∧ k = .daily ∨
  rr.freq = some "YEARLY" ∧ k = .yearly ∨
  rr.freq = some "WEEKLY" ∧ (∃ wds, k = .weekly wds ∧
    List.Forall₂ (fun s w => 0 ≤ w ∧ dayNames[w.toNat]? = some s.toList) (rr.byday.getD []) wds) ∨
  rr.freq = some "MONTHLY" ∧
    (rr.byday = none ∧ k = .monthly .monthday ∨
     ∃ s l, rr.byday = some (s :: l) ∧ (s.toList.head? = some '-' ∧ k = .monthly .lastweekday ∨
       s.toList.head? ≠ some '-' ∧ s ≠ "" ∧ k = .monthly .weekday))

/-- The rule that is made from RRULE: the class, and the first value of each other part. -/
structure RuleSays (rr : RRule) (r : Rule) : Prop where
  kind : KindSays rr r.kind
  interval : r.interval = ((rr.interval.getD []).head?).getD 1
  count : r.count = (rr.count.getD []).head?
  untl : r.untl = (rr.untl.getD []).head?
  exceptions : r.exceptions = []

/-- The times of a component: the start is the local time meant by DTSTART, all-day iff it is a DATE; the duration leads to
the local time meant by DTEND if there is one, else is DURATION if there is one, else is zero. -/
def TimesSay (tz : LocalTz) (v : VEvent) (x dur : Int) (allday : Bool) : Prop :=
  ∃ st, v.dtstart = some st ∧ Means tz st x ∧ (allday = true ↔ IsDateValue st) ∧
    (∀ en, v.dtend = some en → Means tz en (x + dur)) ∧
    (v.dtend = none → ∀ d, v.duration = some d → dur = d) ∧
    (v.dtend = none → v.duration = none → dur = 0)

/-- The specification asks for what the component says. -/
structure Asks (tz : LocalTz) (c : Calendar) (src : Source) (v : VEvent) (s : Spec) : Prop where
  times : ∃ dur, s.duration = some dur ∧ TimesSay tz v s.dtstart dur s.allday
  title : s.title = v.summary.getD ""
  description : s.description = v.description.getD ""
  location : s.location = v.location.getD ""
  status : s.status = v.status.getD "TENTATIVE"
  transparent : s.transparent = true ↔ v.transp = some "TRANSPARENT"
  access : s.access = v.cls.getD "PUBLIC"
  document : s.document = v.attach
  categories : ∀ x, x ∈ s.categories ↔ ∃ l, (v.categories = .inline l ∨ v.categories = .multi l) ∧ x ∈ l
  known : ∀ a, HasKnownOrganizer src v a → s.organizer = some a
  unknown : (¬ ∃ a, HasKnownOrganizer src v a) → s.organizer = (Dict.keys c).head?
  attendees : s.attendees = v.attendees.map (fun p =>
    (if p.addr ∈ Dict.keys src then some p.addr else none, p.role.getD "REQ-PARTICIPANT", p.partstat.getD "NEEDS-ACTION"))
  once : v.rrule = none → s.recurrence = none
  recurs : ∀ rr, v.rrule = some rr → ∃ r, s.recurrence = some r ∧ RuleSays rr r

end CalCore.Spec
