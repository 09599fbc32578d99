import Verif.Model.Recurrent
/- Model of `__repr__` of the rule classes, from /repo/src/calcore/recurrent.py, with Python's `repr` of the
values that occur in it: int, None, date, datetime without tzinfo, tuple, and the three strings. -/
namespace CalCore

/-- `repr` of an int. -/
def pyInt (n : Int) : String := toString n

/-- `repr` of an optional value: `None`, or the `repr` of the value. -/
def pyOption {α : Type} (f : α → String) : Option α → String
  | none => "None"
  | some x => f x

/-- The elements of a tuple or argument list after the first, and the closing parenthesis. -/
def pyMore {α : Type} (f : α → String) : List α → String
  | [] => ")"
  | x :: rest => ", " ++ f x ++ pyMore f rest

/-- `repr` of a tuple: `()`, `(x,)`, `(x, y)` and so on. -/
def pyTuple {α : Type} (f : α → String) : List α → String
  | [] => "()"
  | [x] => "(" ++ f x ++ ",)"
  | x :: y :: rest => "(" ++ f x ++ pyMore f (y :: rest)

/-- `repr` of a date. -/
def pyDate (d : Date) : String :=
  "datetime.date(" ++ pyInt (dyear d) ++ pyMore pyInt [dmonth d, dday d]

/-- The arguments in the `repr` of a datetime after the year: seconds and microseconds are left out when they
and everything after them are zero. -/
def pyDateTimeArgs (t : DateTime) : List Int :=
  let s := dtTime t / 1000000 % 60
  let us := dtTime t % 1000000
  [dmonth (dtDate t), dday (dtDate t), dtTime t / 3600000000, dtTime t / 60000000 % 60] ++
    (if us ≠ 0 then [s, us] else if s ≠ 0 then [s] else [])

/-- `repr` of a datetime. -/
def pyDateTime (t : DateTime) : String :=
  "datetime.datetime(" ++ pyInt (dyear (dtDate t)) ++ pyMore pyInt (pyDateTimeArgs t)

/-- `repr` of `until`. -/
def pyUntil : Until → String
  | .date d => pyDate d
  | .datetime t => pyDateTime t

/-- `repr` of `monthly`. -/
def pyMonthly : MonthlyKind → String
  | .monthday => "'monthday'"
  | .weekday => "'weekday'"
  | .lastweekday => "'lastweekday'"

/-- `__repr__` (recurrent.py:86-89, 223-226, 308-311). -/
def Rule.repr (r : Rule) : String :=
  r.kind.className ++ "(" ++ pyInt r.interval ++ ", " ++ pyOption pyInt r.count ++ ", " ++
    pyOption pyUntil r.untl ++ ", " ++ pyTuple pyDate r.exceptions ++
    (match r.kind with
     | .weekly w => ", " ++ pyTuple pyInt w
     | .monthly m => ", " ++ pyMonthly m
     | _ => "") ++ ")"

end CalCore
