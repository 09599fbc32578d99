import Verif.Model.DateTime
/- Model of /repo/src/calcore/util.py and /repo/src/calcore/isoweek.py. -/
namespace CalCore

/-- Comparison of Python tuples `(start, end)`, lexicographic; used by `sequence.sort()`
(util.py:31). -/
def lexLe (a b : Int × Int) : Bool := a.1 < b.1 || (a.1 = b.1 && a.2 ≤ b.2)

/-- One insertion of the sort below. -/
def insertLex (a : Int × Int) : List (Int × Int) → List (Int × Int)
  | [] => [a]
  | b :: l => if lexLe a b then a :: b :: l else b :: insertLex a l

/-- `sequence.sort()` (util.py:31).  Tuples that compare equal are identical, so every sorting
algorithm gives the same list; insertion sort is used.  (The Python code sorts the caller's list in
place; the callers pass a temporary list, the side effect is not modelled.) -/
def sortLex : List (Int × Int) → List (Int × Int)
  | [] => []
  | a :: l => insertLex a (sortLex l)

/-- The loop of `removeOverlaps` (util.py:33-50) with its variables `last_start`, `last_end`. -/
def overlapLoop : Int → Int → List (Int × Int) → List (Int × Int)
  | ls, le, [] => [(ls, le)]
  | ls, le, (s, e) :: rest =>
    if s ≤ le then
      if e ≤ le then overlapLoop ls le rest      -- complete overlap
      else overlapLoop ls e rest                 -- half overlap, extend
    else (ls, le) :: overlapLoop s e rest

/-- `util.removeOverlaps` (util.py:22-50).  Only called with pairs of datetimes. -/
def removeOverlaps (l : List (Int × Int)) : List (Int × Int) :=
  match sortLex l with
  | [] => []
  | (s, e) :: rest => overlapLoop s e rest

/-- `datetime(y, m, d)` at midnight. -/
def mkDateTime (y m d : Int) : Res DateTime := do
  let o ← mkDate y m d
  .ok (combine o 0)

/-- `isoweek.getWeeksInYear` (isoweek.py:25-31). -/
def getWeeksInYear (year : Int) : Res Int := do
  let jan1 ← mkDateTime year 1 1
  let dec31 ← mkDateTime year 12 31
  if weekday (dtDate jan1) + 1 = 4 ∨ weekday (dtDate dec31) + 1 = 4 then .ok 53 else .ok 52

/-- `isoweek.weeknr2datetime` (isoweek.py:33-57). -/
def weeknr2datetime (year weeknr : Int) (wd : Option Int) : Res DateTime := do
  let jan4 ← mkDateTime year 1 4
  let week1 ← if (isocalendar (dtDate jan4)).2.1 = 1 then Except.ok jan4 else dtAdd jan4 (7 * DAY)
  let week1 ← dtAdd week1 (-(weekday (dtDate week1)) * DAY)
  let result ← dtAdd week1 (7 * (weeknr - 1) * DAY)
  match wd with
  | none => .ok result
  | some w => dtAdd result ((w - 1) * DAY)

end CalCore
