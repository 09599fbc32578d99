import Verif.Model.Recurrent
/- Specification vocabulary for recurrence rules: the bounds of a rule, ranks, validity.  Refers only
to the attributes of a rule, not to the functions generating dates. -/
namespace CalCore.Spec

/-- The `until` attribute is a date (as documented, interfaces.py:434-443), not a datetime. -/
def UntilIsDate (r : Rule) : Prop := ∀ t, r.untl ≠ some (.datetime t)

/-- The date `d`, being number `k` (from 0) of the sequence, is within enddate, count and until. -/
def Within (r : Rule) (enddate : Option Int) (d : Int) (k : Nat) : Prop :=
  (∀ e, enddate = some e → d ≤ e) ∧ (∀ c, r.count = some c → (k : Int) < c) ∧
    (∀ u, r.untl = some (.date u) → d ≤ u)

/-- Number of indices below `k` at which the sequence of candidates is defined. -/
def rank (cand : Nat → Option Int) (k : Nat) : Nat :=
  (List.range k).countP (fun j => (cand j).isSome)

/-- `l` is exactly the increasing list of the candidates within the bounds of the rule that are not
excepted. -/
def Generates (r : Rule) (enddate : Option Int) (cand : Nat → Option Int) (l : List Int) : Prop :=
  l.Pairwise (· < ·) ∧
    ∀ d, d ∈ l ↔ ∃ k, cand k = some d ∧ Within r enddate d (rank cand k) ∧ d ∉ r.exceptions

/-- The conditions of the constructors (interfaces.py:413-443, 464-483). -/
def ValidRule (r : Rule) : Prop :=
  1 ≤ r.interval ∧ (r.count = none ∨ r.untl = none) ∧
    ∀ l, r.kind = .weekly l → ∀ w ∈ l, 0 ≤ w ∧ w ≤ 6

/-- The month with number `n` (12 * year + month - 1). -/
def monthYear (n : Int) : Int := n / 12
/-- Month 1..12 of the month with number `n`. -/
def monthMonth (n : Int) : Int := n % 12 + 1
/-- Number of the month of a date. -/
def monthNr (d : Int) : Int := 12 * dyear d + dmonth d - 1

/-- The calendar date `y-m-d` as an ordinal, when it exists and is in Python's range. -/
def dateOf (y m d : Int) : Option Int :=
  if 1 ≤ y ∧ y ≤ 9999 ∧ 1 ≤ m ∧ m ≤ 12 ∧ 1 ≤ d ∧ d ≤ daysInMonth y m then some (ymd2ord y m d)
  else none

/-- Every `interval` days from the start, up to the last representable date. -/
def dailySeq (start interval : Int) (k : Nat) : Option Int :=
  if start + k * interval ≤ MAXORD then some (start + k * interval) else none

/-- Same month and day every `interval` years. -/
def yearlySeq (start interval : Int) (k : Nat) : Option Int :=
  dateOf (dyear start + k * interval) (dmonth start) (dday start)

/-- The Monday of the week of a date. -/
def mondayOf (d : Int) : Int := d - weekday d

/-- Day `k` after the start, if its week is a multiple of `interval` weeks after the week of the
start, and its weekday is one of `wds` or the weekday of the start. -/
def weeklySeq (start interval : Int) (wds : List Int) (k : Nat) : Option Int :=
  if start + k ≤ MAXORD ∧ 7 * interval ∣ mondayOf (start + k) - mondayOf start ∧
      (weekday (start + k) ∈ wds ∨ weekday (start + k) = weekday start)
  then some (start + k) else none

/-- The day of the month of the start, in month number `j * interval` after the start's month, if
that month has such a day. -/
def monthdaySeq (start interval : Int) (j : Nat) : Option Int :=
  let n := monthNr start + j * interval
  dateOf (monthYear n) (monthMonth n) (dday start)

/-- The dates of a month falling on weekday `wd`, in order; empty outside years 1..9999. -/
def weekdaysOfMonth (n wd : Int) : List Int :=
  if 1 ≤ monthYear n ∧ monthYear n ≤ 9999 then
    ((List.range (daysInMonth (monthYear n) (monthMonth n)).toNat).map
      (fun k : Nat => ymd2ord (monthYear n) (monthMonth n) ((k : Int) + 1))).filter
        (fun d => weekday d = wd)
  else []

/-- In month `j * interval` after the start's month, the date that has the start's weekday and the
same place among the dates of its month with this weekday, counted from the first. -/
def weekdaySeq (start interval : Int) (j : Nat) : Option Int :=
  (weekdaysOfMonth (monthNr start + j * interval) (weekday start))[
    (weekdaysOfMonth (monthNr start) (weekday start)).idxOf start]?

/-- The same, the place being counted from the last. -/
def lastWeekdaySeq (start interval : Int) (j : Nat) : Option Int :=
  (weekdaysOfMonth (monthNr start + j * interval) (weekday start)).reverse[
    (weekdaysOfMonth (monthNr start) (weekday start)).reverse.idxOf start]?

/-- In month `j * interval` after the start's month, the date `p` weeks after the first date with the
start's weekday, where `p` is the place of the start.  Unlike `weekdaySeq`, this leaves the month when
the month has only four such weekdays and `p` is 4. -/
def weekdayDriftSeq (start interval : Int) (j : Nat) : Option Int :=
  (weekdaysOfMonth (monthNr start + j * interval) (weekday start)).head?.bind (fun x =>
    let d := x + 7 * ((weekdaysOfMonth (monthNr start) (weekday start)).idxOf start : Nat)
    if d ≤ MAXORD then some d else none)

/-- The same counted back from the last date with the start's weekday. -/
def lastWeekdayDriftSeq (start interval : Int) (j : Nat) : Option Int :=
  (weekdaysOfMonth (monthNr start + j * interval) (weekday start)).getLast?.map (fun x =>
    x - 7 * ((weekdaysOfMonth (monthNr start) (weekday start)).reverse.idxOf start : Nat))

/-- A sequence cut at its first undefined element. -/
def initial (f : Nat → Option Int) (k : Nat) : Option Int :=
  if ∀ j ≤ k, (f j).isSome = true then f k else none

/-- The sequence of dates belonging to a rule class, before count, until and exceptions are considered.
For the monthly weekday classes this is the sequence of the code, which leaves the month in the fifth
week (see C12, C13), and for 'lastweekday' it ends before December 9999. -/
def ruleSeq (r : Rule) (start : Int) : Nat → Option Int :=
  match r.kind with
  | .no => fun k => if k = 0 then some start else none
  | .basic => dailySeq start r.interval
  | .daily => dailySeq start r.interval
  | .yearly => initial (yearlySeq start r.interval)
  | .weekly wds => weeklySeq start r.interval wds
  | .monthly .monthday => monthdaySeq start r.interval
  | .monthly .weekday => weekdayDriftSeq start r.interval
  | .monthly .lastweekday => fun j =>
      if monthNr start + j * r.interval < 12 * 9999 + 11 then lastWeekdayDriftSeq start r.interval j
      else none

/-- `d` is one of the dates of the rule, without an enddate.  For `NoRecurrenceRule` it is the start. -/
def IsDate (r : Rule) (start d : Int) : Prop :=
  if r.kind = .no then d = start
  else ∃ k, ruleSeq r start k = some d ∧ Within r none d (rank (ruleSeq r start) k) ∧ d ∉ r.exceptions

/-- The rule makes `apply` loop for ever (on an event starting at `dt`, up to `en`). -/
def Hangs (r : Rule) (dt : Int) (en : Option Int) : Prop :=
  r.interval = 0 ∧ r.kind ≠ .no ∧ (∀ l, r.kind ≠ .weekly l) ∧ UntilIsDate r ∧ r.count = none ∧
    Within r en (dtDate dt) 0 ∧
    ¬ (r.kind = .monthly .lastweekday ∧ dyear (dtDate dt) = 9999 ∧ dmonth (dtDate dt) = 12)

/-- The 29th of February. -/
def IsFeb29 (d : Int) : Prop := dmonth d = 2 ∧ dday d = 29

/-- December 9999, the last month of Python's calendar. -/
def InLastMonth (d : Int) : Prop := dyear d = 9999 ∧ dmonth d = 12

end CalCore.Spec
