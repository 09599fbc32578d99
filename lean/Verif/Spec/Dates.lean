import Verif.Model.DateTime
/- Specification vocabulary for ISO weeks and weekdays of a month.  It only uses the calendar itself
(ordinals, `ymd2ord`, `weekday`), not the modelled code. -/
namespace CalCore.Spec

/-- `m` is the Monday of the week that contains the date `d`. -/
def IsMondayOf (m d : Int) : Prop := weekday m = 0 ∧ m ≤ d ∧ d < m + 7

/-- `m` is the Monday of ISO week 1 of `year`: the week containing January 4th (ISO 8601). -/
def IsWeek1Monday (year m : Int) : Prop := IsMondayOf m (ymd2ord year 1 4)

/-- `d` is day `wd` (1..7) of ISO week `week` of ISO year `year`. -/
def IsIsoDay (year week wd d : Int) : Prop :=
  ∃ m, IsWeek1Monday year m ∧ d = m + 7 * (week - 1) + (wd - 1)

/-- Number of days `1..n` of a month that fall on weekday `wd`. -/
def countWeekday (year month wd : Int) (n : Nat) : Nat :=
  (List.range n).countP (fun k : Nat => weekday (ymd2ord year month ((k : Int) + 1)) = wd)

end CalCore.Spec
