import Verif.Spec.RFC
import Verif.Spec.Import
/- The meaning according to RFC 2445 of the recurrence in a VEVENT: its RRULE, with the part BYMONTHDAY, and its EXDATE.
(The code looks neither at BYMONTHDAY nor at EXDATE, so they are no part of the model of a VEVENT.) -/
namespace CalCore.Spec

/-- FREQ -/
def freqOf (s : String) : Option RFreq :=
  if s = "DAILY" then some .daily
  else if s = "WEEKLY" then some .weekly
  else if s = "MONTHLY" then some .monthly
  else if s = "YEARLY" then some .yearly
  else none

/-- UNTIL: up to a moment or, if only a date is given, up to the end of that day. -/
def untilOf : Until → Int
  | .date u => u * 86400000000 + 86399999999
  | .datetime t => t

/-- The recurrence that is meant: parts that are not given have their default. -/
def meaning (rr : RRule) (bymonthday exdates : List Int) : Option Recur :=
  (rr.freq.bind freqOf).bind fun f =>
    ((rr.byday.getD []).mapM fun s => readDay s.toList).map fun days =>
      { freq := f, interval := ((rr.interval.getD []).head?).getD 1, count := (rr.count.getD []).head?
        untl := ((rr.untl.getD []).head?).map untilOf, byday := days, bymonthday, exdates }

/-- The recurrences that the code understands, for an event that starts on the date `s`: the BY parts say nothing but
what the start says. -/
def Understood (R : Recur) (s : Int) : Prop :=
  1 ≤ R.interval ∧
  match R.freq with
  | .daily => R.byday = [] ∧ R.bymonthday = []
  | .weekly => (R.byday = [] ∨ ∃ p ∈ R.byday, p.2 = weekday s) ∧ R.bymonthday = []
  | .monthly =>
    (R.byday = [] ∧ ∀ n ∈ R.bymonthday, n = dday s) ∨
    (R.byday = [((dday s - 1) / 7 + 1, weekday s)] ∧ dday s ≤ 28 ∧ R.bymonthday = []) ∨
    (R.byday = [(-1, weekday s)] ∧ daysInMonth (dyear s) (dmonth s) < dday s + 7 ∧ R.bymonthday = [])
  | .yearly => ¬ IsFeb29 s ∧ R.byday = [] ∧ R.bymonthday = []

/-- How long the component lasts, starting at `x`: to DTEND, or for DURATION; without them for the day if DTSTART is
a DATE, otherwise for no time (section 4.6.1). -/
def Lasts (tz : LocalTz) (v : VEvent) (x dur : Int) : Prop :=
  (∀ en, v.dtend = some en → Means tz en (x + dur)) ∧
  (v.dtend = none → ∀ d, v.duration = some d → dur = d) ∧
  (v.dtend = none → v.duration = none → ∀ st, v.dtstart = some st →
    (IsDateValue st → dur = DAY) ∧ (¬ IsDateValue st → dur = 0))

/-- The component, which starts at `x` and has no EXDATE, takes place at `t`. -/
def TakesPlace (v : VEvent) (bymonthday : List Int) (x t : Int) : Prop :=
  match v.rrule with
  | none => t = x
  | some rr => ∃ R d, meaning rr bymonthday [] = some R ∧ Recurs R x d ∧ t = combine d (dtTime x)

/-- The RRULE of the component, if it has one, is understood, and has no UNTIL with a time. -/
def HasUnderstood (v : VEvent) (bymonthday : List Int) (x : Int) : Prop :=
  ∀ rr, v.rrule = some rr → (∀ t l, rr.untl ≠ some (.datetime t :: l)) ∧
    ∃ R, meaning rr bymonthday [] = some R ∧ Understood R (dtDate x)

/-- What the code needs for all-day events: a new one lasts a number of days (otherwise it rounds), an update has a
DTEND or a DURATION (it does not know the default). -/
def CountedDays (v : VEvent) (new : Bool) (dur : Int) : Prop :=
  ∀ st, v.dtstart = some st → IsDateValue st →
    (new = true → DAY ∣ dur ∧ dur ≠ 0) ∧ (new = false → v.dtend ≠ none ∨ v.duration ≠ none)

end CalCore.Spec
