import Verif.Model.Recurrent
/- recurrent.py for arguments of any type.

`Rule` (Model/Recurrent.lean) has attributes of the documented types.  Python checks some of them in `_validate` and none of
them elsewhere.  Here the attributes are Python objects of the kinds that occur in practice (None, booleans, integers, long
integers, strings, dates, datetimes; not floats, nor instances of other classes), and every operation does what Python 2 does
with them. -/
namespace CalCore

/-- A Python object. -/
inductive PyObj where
  | none
  | bool (b : Bool)
  | int (n : Int)
  | long (n : Int)
  | str (s : String)
  | date (d : Date)
  | datetime (t : DateTime)
  deriving DecidableEq, Repr

/-- The value of a number; `True` and `False` are 1 and 0. -/
def PyObj.num? : PyObj → Option Int
  | .bool b => some (if b then 1 else 0)
  | .int n => some n
  | .long n => some n
  | _ => Option.none

/-- Truth value; dates are always true. -/
def PyObj.truthy : PyObj → Bool
  | .none => false
  | .bool b => b
  | .int n => decide (n ≠ 0)
  | .long n => decide (n ≠ 0)
  | .str s => decide (s ≠ "")
  | .date _ => true
  | .datetime _ => true

/-- `x >= n` for an integer `n`.  In Python 2 None is less than everything and a string is greater than every number;
comparing a date with a number raises. -/
def PyObj.geInt (x : PyObj) (n : Int) : Res Bool :=
  match x.num? with
  | some m => .ok (decide (m ≥ n))
  | Option.none => match x with
    | .none => .ok false
    | .str _ => .ok true
    | _ => raise .TypeError

/-- `n >= x` for an integer `n`. -/
def PyObj.intGe (n : Int) (x : PyObj) : Res Bool :=
  match x.num? with
  | some m => .ok (decide (n ≥ m))
  | Option.none => match x with
    | .none => .ok true
    | .str _ => .ok false
    | _ => raise .TypeError

/-- `d > x` for a date `d`: only dates that are not datetimes can be compared. -/
def PyObj.dateGt (d : Date) : PyObj → Res Bool
  | .date u => .ok (decide (d > u))
  | _ => raise .TypeError

/-- `x` in an arithmetic expression with an integer, or multiplied with a timedelta. -/
def PyObj.asInt (x : PyObj) : Res Int :=
  match x.num? with
  | some n => .ok n
  | Option.none => raise .TypeError

/-- `isinstance(x, datetime.date)`: datetime is a subclass of date. -/
def PyObj.isDate : PyObj → Bool
  | .date _ => true
  | .datetime _ => true
  | _ => false

/-- `isinstance(x, int)`: bool is a subclass of int, long is not. -/
def PyObj.isInt : PyObj → Bool
  | .bool _ => true
  | .int _ => true
  | _ => false

/-- An argument that is converted with `tuple(...)`. -/
inductive PyIter where
  | notIterable
  | items (l : List PyObj)
  deriving DecidableEq, Repr

/-- `tuple(x)` -/
def PyIter.tuple : PyIter → Res (List PyObj)
  | .notIterable => raise .TypeError
  | .items l => .ok l

/-- The classes with their class specific attributes. -/
inductive UKind where
  | basic
  | no
  | daily
  | yearly
  | weekly (weekdays : List PyObj)
  | monthly (monthly : PyObj)
  deriving DecidableEq, Repr

/-- An instance of a rule class (recurrent.py:54-59, 214-221, 299-306). -/
structure URule where
  kind : UKind
  interval : PyObj
  count : PyObj
  untl : PyObj
  exceptions : List PyObj
  deriving DecidableEq, Repr

/-- `not isinstance(dow, int) or not 0 <= dow <= 6`, negated (recurrent.py:231). -/
def PyObj.isWeekday (x : PyObj) : Bool :=
  x.isInt && (match x.num? with
    | some n => decide (0 ≤ n) && decide (n ≤ 6)
    | Option.none => false)

/-- `_validate` (recurrent.py:61-72, 228-233, 313-317). -/
def URule.validate (r : URule) : Res Unit := do
  if r.count ≠ .none ∧ r.untl ≠ .none then raise .ValueError
  if !(← r.interval.geInt 1) then raise .ValueError
  if !(r.exceptions.all PyObj.isDate) then raise .ValueError
  match r.kind with
  | .weekly wds => if wds.all PyObj.isWeekday then .ok () else raise .ValueError
  | .monthly m => if m ∈ [.str "monthday", .str "weekday", .str "lastweekday"] then .ok () else raise .ValueError
  | _ => .ok ()

/-- The class that is called, with its last argument. -/
inductive UClass where
  | basic | no | daily | yearly
  | weekly (weekdays : PyIter)
  | monthly (monthly : PyObj)
  deriving DecidableEq, Repr

/-- The attributes from the last argument (recurrent.py:220, 305). -/
def UClass.kind : UClass → Res UKind
  | .basic => .ok .basic
  | .no => .ok .no
  | .daily => .ok .daily
  | .yearly => .ok .yearly
  | .weekly w => do .ok (.weekly (← w.tuple))
  | .monthly m => .ok (.monthly m)

/-- `__init__` (recurrent.py:54-59, 214-221, 299-306). -/
def URule.new (cls : UClass) (interval count untl : PyObj) (exceptions : PyIter) : Res URule := do
  let exceptions ← exceptions.tuple
  let kind ← cls.kind
  let r : URule := { kind, interval, count, untl, exceptions }
  r.validate
  .ok r

/-- The stop test (recurrent.py:123-125, 264-266, 375-377, 398-400). -/
def URule.stops (r : URule) (enddate : PyObj) (cur : Date) (count : Nat) : Res Bool := do
  if enddate.truthy then
    if (← PyObj.dateGt cur enddate) then return true
  if r.count ≠ .none then
    if (← PyObj.intGe count r.count) then return true
  if r.untl.truthy then PyObj.dateGt cur r.untl
  else return false

/-- `if cur not in self.exceptions: yield cur`.  A date is different from every datetime. -/
def URule.emit (r : URule) (cur : Date) : Option Date := if PyObj.date cur ∈ r.exceptions then Option.none else some cur

/-- `_nextRecurrence` (recurrent.py:132-134, 194-197, 337-347). -/
def URule.nextRecurrence (r : URule) (d : Date) : Res Date := do
  let interval ← r.interval.asInt
  match r.kind with
  | .yearly => mkDate (dyear d + interval) (dmonth d) (dday d)
  | .monthly _ => nextMonthlyLoop interval (dday d) nextMonthFuel (dyear d) (dmonth d)
  | _ => dateAdd d interval

/-- Loop body of `BasicRecurrenceRule.apply` (recurrent.py:122-130). -/
def URule.basicStep (r : URule) (enddate : PyObj) (s : Date × Nat) : Step (Date × Nat) :=
  match r.stops enddate s.1 s.2 with
  | .error e => .fail e
  | .ok true => .stop
  | .ok false => .yield (r.emit s.1) ((r.nextRecurrence s.1).map (fun c => (c, s.2 + 1)))

/-- `cur.weekday() in weekdays` (recurrent.py:259-260, 271): equal numbers are equal, whatever their type. -/
def inWeekdays (wds : List PyObj) (start cur : Date) : Bool :=
  decide (weekday cur = weekday start) || wds.any (fun x => x.num? == some (weekday cur))

/-- `weekspan(start, cur) % self.interval == 0 and cur.weekday() in weekdays` (recurrent.py:270-271). -/
def URule.weeklyHit (r : URule) (wds : List PyObj) (start cur : Date) : Res Bool := do
  let w ← weekspan start cur
  let interval ← r.interval.asInt
  if interval = 0 then raise .ZeroDivisionError
  else .ok (decide (w % interval = 0) && inWeekdays wds start cur)

/-- Loop body of `WeeklyRecurrenceRule.apply` (recurrent.py:263-275). -/
def URule.weeklyStep (r : URule) (wds : List PyObj) (start : Date) (enddate : PyObj)
    (s : Date × Nat) : Step (Date × Nat) :=
  match r.stops enddate s.1 s.2 with
  | .error e => .fail e
  | .ok true => .stop
  | .ok false =>
    match r.weeklyHit wds start s.1 with
    | .error e => .fail e
    | .ok true => .yield (r.emit s.1) ((dateAdd s.1 1).map (fun c => (c, s.2 + 1)))
    | .ok false => .yield Option.none ((dateAdd s.1 1).map (fun c => (c, s.2)))

/-- Loop body of `_applyWeekday` and `_applyLastWeekday` (recurrent.py:373-384, 396-407). -/
def URule.monthStep (r : URule) (index wd : Int) (enddate : PyObj) (s : Int × Int × Nat) :
    Step (Int × Int × Nat) :=
  match monthindex s.1 s.2.1 index wd with
  | .error e => .fail e
  | .ok cur =>
    match r.stops enddate cur s.2.2 with
    | .error e => .fail e
    | .ok true => .stop
    | .ok false => .yield (r.emit cur) (do
        let interval ← r.interval.asInt
        let n := s.1 * 12 + s.2.1 + interval - 1
        .ok (n / 12, n % 12 + 1, s.2.2 + 1))

/-- The assertions about `enddate` (recurrent.py:116-119, 255-258, 350-353). -/
def enddateOk (enddate : PyObj) : Bool :=
  !enddate.truthy || (match enddate with | .date _ => true | _ => false)

/-- `apply(event, enddate)` (recurrent.py:114-130, 174-176, 253-275, 349-407), run for `fuel` loop iterations.  The assertions
are evaluated when the first date is asked for. -/
def URule.applyRun (r : URule) (dtstart : DateTime) (enddate : PyObj) (fuel : Nat) : List Date × Status :=
  let start := dtDate dtstart
  if r.kind = .no then ([start], .finished)
  else if fuel = 0 then ([], .running)
  else if enddateOk enddate = false then ([], .raised (.py .AssertionError))
  else match r.kind with
    | .weekly wds => runGen (r.weeklyStep wds start enddate) fuel (start, 0)
    | .monthly m =>
      if m = .str "monthday" then runGen (r.basicStep enddate) fuel (start, 0)
      else if m = .str "weekday" then
        runGen (r.monthStep ((dday start - 1) / 7 + 1) (weekday start) enddate) fuel (dyear start, dmonth start, 0)
      else if m = .str "lastweekday" then
        runGen (r.monthStep ((dday start - daysInMonth (dyear start) (dmonth start) - 1) / 7)
          (weekday start) enddate) fuel (dyear start, dmonth start, 0)
      else ([], .finished)
    | _ => runGen (r.basicStep enddate) fuel (start, 0)

end CalCore
