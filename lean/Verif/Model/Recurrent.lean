import Verif.Model.DateTime
/- Model of /repo/src/calcore/recurrent.py (Python 2: `/` on ints is floor division). -/
namespace CalCore

/-- The `until` attribute of a rule: documented as a date (interfaces.py:434-443), but `import_`
stores whatever the RRULE contained (cal.py:870-872), possibly a datetime. -/
inductive Until where
  | date (d : Date)
  | datetime (t : DateTime)
  deriving DecidableEq, Repr

/-- Values of the `monthly` argument (recurrent.py:315). -/
inductive MonthlyKind where
  | monthday | weekday | lastweekday
  deriving DecidableEq, Repr

/-- The rule classes (recurrent.py:40, 170, 181, 188, 205, 288) with their class specific
attributes. -/
inductive RuleKind where
  | basic
  | no
  | daily
  | yearly
  | weekly (weekdays : List Int)
  | monthly (monthly : MonthlyKind)
  deriving DecidableEq, Repr

/-- An instance of a rule class (recurrent.py:54-59, 214-221, 299-306).  Attributes are public and
can be reassigned after construction. -/
structure Rule where
  kind : RuleKind
  interval : Int
  count : Option Int
  untl : Option Until
  exceptions : List Date
  deriving DecidableEq, Repr

/-- `_validate` (recurrent.py:61-72, 228-233, 313-317).  The `isinstance` checks on exceptions and
weekdays are enforced by the types here; the `monthly` check is in `monthlyKindOf`. -/
def Rule.validate (r : Rule) : Res Unit :=
  if r.count.isSome ∧ r.untl.isSome then raise .ValueError
  else if ¬ (r.interval ≥ 1) then raise .ValueError
  else match r.kind with
    | .weekly wds => if wds.all (fun w => 0 ≤ w && w ≤ 6) then .ok () else raise .ValueError
    | _ => .ok ()

/-- `__init__` (recurrent.py:54-59, 214-221, 299-306): store the attributes, then validate. -/
def Rule.new (kind : RuleKind) (interval : Int := 1) (count : Option Int := none)
    (untl : Option Until := none) (exceptions : List Date := []) : Res Rule := do
  let r : Rule := { kind, interval, count, untl, exceptions }
  r.validate
  .ok r

/-- The `monthly` string check of `MonthlyRecurrenceRule._validate` (recurrent.py:315-317). -/
def monthlyKindOf (s : String) : Res MonthlyKind :=
  if s = "monthday" then .ok .monthday
  else if s = "weekday" then .ok .weekday
  else if s = "lastweekday" then .ok .lastweekday
  else raise .ValueError

/-- `MonthlyRecurrenceRule.__init__` taking the string (recurrent.py:299-306). -/
def newMonthly (interval : Int) (count : Option Int) (untl : Option Until) (exceptions : List Date)
    (monthly : String) : Res Rule := do
  let k ← monthlyKindOf monthly
  Rule.new (.monthly k) interval count untl exceptions

/-- `replace` (recurrent.py:74-84, 235-247, 319-331).  An argument `none` stands for `Unchanged`.
`weekdays` only exists for weekly rules and `monthly` is only used by monthly ones; passing one to
another class is either ignored or a TypeError in Python and not modelled (ignored). -/
def Rule.replace (r : Rule) (interval : Option Int := none) (count : Option (Option Int) := none)
    (untl : Option (Option Until) := none) (exceptions : Option (List Date) := none)
    (weekdays : Option (List Int) := none) (monthly : Option MonthlyKind := none) : Res Rule :=
  let kind := match r.kind with
    | .weekly w => .weekly (weekdays.getD w)
    | .monthly m => .monthly (monthly.getD m)
    | k => k
  Rule.new kind (interval.getD r.interval) (count.getD r.count) (untl.getD r.untl)
    (exceptions.getD r.exceptions)

/-- `self.__class__.__name__` -/
def RuleKind.className : RuleKind → String
  | .basic => "BasicRecurrenceRule"
  | .no => "NoRecurrenceRule"
  | .daily => "DailyRecurrenceRule"
  | .yearly => "YearlyRecurrenceRule"
  | .weekly _ => "WeeklyRecurrenceRule"
  | .monthly _ => "MonthlyRecurrenceRule"

/-- The last component of `_tupleForComparison`, absent for the simple classes. -/
inductive ExtraKey where
  | none | weekdays (l : List Int) | monthly (m : MonthlyKind)
  deriving DecidableEq, Repr

/-- `_tupleForComparison` (recurrent.py:91-93, 249-251, 333-335). -/
def Rule.key (r : Rule) : String × Int × Option Int × Option Until × List Date × ExtraKey :=
  (r.kind.className, r.interval, r.count, r.untl, r.exceptions,
    match r.kind with
    | .weekly w => .weekdays w
    | .monthly m => .monthly m
    | _ => .none)

/-- `__eq__` between two rules (recurrent.py:95-100). -/
def Rule.eq (a b : Rule) : Bool := a.key = b.key

/-- `__ne__` (recurrent.py:102-104). -/
def Rule.ne (a b : Rule) : Bool := !(a.eq b)

/-- `__hash__` (recurrent.py:106-112): Python's tuple hash is a parameter. -/
def Rule.hash (h : String × Int × Option Int × Option Until × List Date × ExtraKey → Int)
    (r : Rule) : Int := h r.key

/-- `weekspan` (recurrent.py:427-435). -/
def weekspan (first second : Date) : Res Int := do
  let firstmonday ← dateAdd first (-(weekday first))
  let secondmonday ← dateAdd second (-(weekday second))
  .ok ((secondmonday - firstmonday) / 7)

/-- The search for the first matching weekday in `monthindex` (recurrent.py:453-455):
`for day in range(1, 8): if date(year, month, day).weekday() == weekday: break`.  The argument list
is the rest of the range; if nothing matches, `day` keeps its last value. -/
def firstWeekdayLoop (year month wd : Int) : Int → List Int → Res Int
  | last, [] => .ok last
  | _, day :: rest => do
    let d ← mkDate year month day
    if weekday d = wd then .ok day else firstWeekdayLoop year month wd day rest

/-- `monthindex` (recurrent.py:438-461). -/
def monthindex (year month index wd : Int) : Res Date := do
  let year' := if index < 0 then year + month / 12 else year
  let month' := if index < 0 then month % 12 + 1 else month
  let index' := if index < 0 then index + 1 else index
  let day ← firstWeekdayLoop year' month' wd 0 [1, 2, 3, 4, 5, 6, 7]
  let d ← mkDate year' month' day
  dateAdd d ((index' - 1) * 7)

/-- The loop of `MonthlyRecurrenceRule._nextRecurrence` (recurrent.py:341-347): months that do not
have the day, or are outside years 1..9999, raise ValueError, which is swallowed.  `fuel` bounds
the number of iterations; `nextMonthFuel` is enough (theorem `nextMonthly_ne_diverge`), because a
year that does not fit a C int raises OverflowError, which is not swallowed. -/
def nextMonthlyLoop (interval day : Int) : Nat → Int → Int → Res Date
  | 0, _, _ => .error .diverge
  | fuel + 1, year, month =>
    let n := year * 12 + month - 1 + interval
    let year' := n / 12
    let month' := n % 12 + 1
    match mkDate year' month' day with
    | .error (.py .ValueError) => nextMonthlyLoop interval day fuel year' month'
    | r => r

/-- More than the number of months in the range of a C int. -/
def nextMonthFuel : Nat := 60000000000

/-- `_nextRecurrence` (recurrent.py:132-134, 194-197, 337-347); for weekly rules see `weeklyStep`. -/
def Rule.nextRecurrence (r : Rule) (d : Date) : Res Date :=
  match r.kind with
  | .yearly => mkDate (dyear d + r.interval) (dmonth d) (dday d)
  | .monthly _ => nextMonthlyLoop r.interval (dday d) nextMonthFuel (dyear d) (dmonth d)
  | _ => dateAdd d r.interval

/-- The stop test shared by all `apply` loops (recurrent.py:123-125, 264-266, 375-377, 398-400).
Comparing a date with a datetime raises TypeError. -/
def Rule.stops (r : Rule) (enddate : Option Date) (cur : Date) (count : Nat) : Res Bool :=
  if (match enddate with | some e => decide (cur > e) | none => false) then .ok true
  else if (match r.count with | some c => decide ((count : Int) ≥ c) | none => false) then .ok true
  else match r.untl with
    | none => .ok false
    | some (.date u) => .ok (decide (cur > u))
    | some (.datetime _) => raise .TypeError

/-- What one iteration of a generator loop does. -/
inductive Step (σ : Type) where
  /-- leave the loop -/
  | stop
  /-- raise before yielding -/
  | fail (e : Fault)
  /-- maybe yield a date; then compute the next loop state, which may raise -/
  | yield (out : Option Date) (next : Res σ)

/-- State of a generator after a number of loop iterations. -/
inductive Status where
  | finished
  | raised (e : Fault)
  | running
  deriving DecidableEq, Repr

/-- `n` iterations of a generator loop: the dates yielded so far, and the status. -/
def runGen {σ : Type} (step : σ → Step σ) : Nat → σ → List Date × Status
  | 0, _ => ([], .running)
  | n + 1, s =>
    match step s with
    | .stop => ([], .finished)
    | .fail e => ([], .raised e)
    | .yield out (.error e) => (out.toList, .raised e)
    | .yield out (.ok s') =>
      let r := runGen step n s'
      (out.toList ++ r.1, r.2)

/-- `if cur not in self.exceptions: yield cur` -/
def Rule.emit (r : Rule) (cur : Date) : Option Date := if cur ∈ r.exceptions then none else some cur

/-- Loop body of `BasicRecurrenceRule.apply` (recurrent.py:122-130); state `(cur, count)`. -/
def Rule.basicStep (r : Rule) (enddate : Option Date) (s : Date × Nat) : Step (Date × Nat) :=
  match r.stops enddate s.1 s.2 with
  | .error e => .fail e
  | .ok true => .stop
  | .ok false => .yield (r.emit s.1) ((r.nextRecurrence s.1).map (fun c => (c, s.2 + 1)))

/-- `weekspan(start, cur) % self.interval == 0 and cur.weekday() in weekdays`
(recurrent.py:270-271).  Divisibility does not depend on the sign convention of `%`. -/
def Rule.weeklyHit (r : Rule) (wds : List Int) (start cur : Date) : Res Bool := do
  let w ← weekspan start cur
  if r.interval = 0 then raise .ZeroDivisionError
  else .ok (decide (w % r.interval = 0) && decide (weekday cur ∈ wds))

/-- Loop body of `WeeklyRecurrenceRule.apply` (recurrent.py:263-275); state `(cur, count)`;
`wds` is `Set(self.weekdays)` plus the weekday of the start. -/
def Rule.weeklyStep (r : Rule) (wds : List Int) (start : Date) (enddate : Option Date)
    (s : Date × Nat) : Step (Date × Nat) :=
  match r.stops enddate s.1 s.2 with
  | .error e => .fail e
  | .ok true => .stop
  | .ok false =>
    match r.weeklyHit wds start s.1 with
    | .error e => .fail e
    | .ok true => .yield (r.emit s.1) ((dateAdd s.1 1).map (fun c => (c, s.2 + 1)))
    | .ok false => .yield none ((dateAdd s.1 1).map (fun c => (c, s.2)))

/-- Loop body of `_applyWeekday` and `_applyLastWeekday` (recurrent.py:373-384, 396-407), which
differ only in `index`; state `(year, month, count)`. -/
def Rule.monthStep (r : Rule) (index wd : Int) (enddate : Option Date) (s : Int × Int × Nat) :
    Step (Int × Int × Nat) :=
  match monthindex s.1 s.2.1 index wd with
  | .error e => .fail e
  | .ok cur =>
    match r.stops enddate cur s.2.2 with
    | .error e => .fail e
    | .ok true => .stop
    | .ok false =>
      let n := s.1 * 12 + s.2.1 + r.interval - 1
      .yield (r.emit cur) (.ok (n / 12, n % 12 + 1, s.2.2 + 1))

/-- `apply(event, enddate)` (recurrent.py:114-130, 174-176, 253-275, 349-407), run for `fuel` loop
iterations.  Only `event.dtstart` is used.  The assertions that `enddate` is a date are enforced by
the type. -/
def Rule.applyRun (r : Rule) (dtstart : DateTime) (enddate : Option Date) (fuel : Nat) :
    List Date × Status :=
  let start := dtDate dtstart
  match r.kind with
  | .no => ([start], .finished)
  | .weekly wds => runGen (r.weeklyStep (wds ++ [weekday start]) start enddate) fuel (start, 0)
  | .monthly .weekday =>
    runGen (r.monthStep ((dday start - 1) / 7 + 1) (weekday start) enddate) fuel
      (dyear start, dmonth start, 0)
  | .monthly .lastweekday =>
    runGen (r.monthStep ((dday start - daysInMonth (dyear start) (dmonth start) - 1) / 7)
      (weekday start) enddate) fuel (dyear start, dmonth start, 0)
  | _ => runGen (r.basicStep enddate) fuel (start, 0)

/-- A number of iterations after which every loop has ended unless it never ends (theorem
`apply_fuel_adequate`): one per day of the datetime range, plus `count`. -/
def Rule.fuel (r : Rule) : Nat := 3652100 + (r.count.getD 0).toNat

/-- Consuming the whole generator `apply(event, enddate)`: the dates yielded, and how it ended. -/
def Rule.apply (r : Rule) (dtstart : DateTime) (enddate : Option Date) : List Date × Res Unit :=
  let x := r.applyRun dtstart enddate r.fuel
  (x.1, match x.2 with
    | .finished => .ok ()
    | .raised e => .error e
    | .running => .error .diverge)

/-! ### iCalendar text of a rule -/

/-- `'%.<k>d' % n` for `n ≥ 0`: decimal with at least `k` digits. -/
def padNat (k : Nat) (n : Nat) : String :=
  let s := toString n
  String.ofList (List.replicate (k - s.length) '0') ++ s

/-- `value.strftime("%Y%m%d")` (recurrent.py:467-473).  Python 2 raises ValueError for years before
1900. -/
def icalDate (d : Date) : Res String :=
  if dyear d < 1900 then raise .ValueError
  else .ok (padNat 4 (dyear d).toNat ++ padNat 2 (dmonth d).toNat ++ padNat 2 (dday d).toNat)

/-- `%H%M%S` of a time of day -/
def icalTime (t : Time) : String :=
  padNat 2 (t / 3600000000).toNat ++ padNat 2 (t / 60000000 % 60).toNat
    ++ padNat 2 (t / 1000000 % 60).toNat

/-- `ical_datetime(self.until)` (recurrent.py:475-482); a date formats with time 000000. -/
def icalDateTime : Until → Res String
  | .date d => do .ok ((← icalDate d) ++ "T" ++ icalTime 0)
  | .datetime t => do .ok ((← icalDate (dtDate t)) ++ "T" ++ icalTime (dtTime t))

/-- `ical_weekdays` (recurrent.py:465) -/
def icalWeekdays : List String := ["MO", "TU", "WE", "TH", "FR", "SA", "SU"]

/-- `ical_weekdays[w]` (negative indices, which cannot occur for validated rules, are treated as
out of range). -/
def icalWeekday (w : Int) : Res String :=
  if w < 0 then raise .IndexError
  else match icalWeekdays[w.toNat]? with
    | some s => .ok s
    | none => raise .IndexError

/-- `_iCalArgs(dtstart)` (recurrent.py:161-168, 199-202, 281-285, 409-419). -/
def Rule.icalArgs (r : Rule) (dtstart : DateTime) : Res (Option String) :=
  let d := dtDate dtstart
  match r.kind with
  | .weekly wds =>
    if wds = [] then .ok none
    else do
      let names ← wds.mapM icalWeekday
      .ok (some ("BYDAY=" ++ String.intercalate "," names))
  | .monthly .monthday => .ok (some ("BYMONTHDAY=" ++ toString (dday d)))
  | .monthly .weekday => do
      .ok (some ("BYDAY=" ++ toString ((dday d - 1) / 7 + 1) ++ (← icalWeekday (weekday d))))
  | .monthly .lastweekday => do .ok (some ("BYDAY=-1" ++ (← icalWeekday (weekday d))))
  | _ => .ok none

/-- `ical_freq` (recurrent.py:52, 185, 192, 212, 297) -/
def RuleKind.icalFreq : RuleKind → Option String
  | .basic => none
  | .no => none
  | .daily => some "DAILY"
  | .yearly => some "YEARLY"
  | .weekly _ => some "WEEKLY"
  | .monthly _ => some "MONTHLY"

/-- The `COUNT=`/`UNTIL=` part of `iCalRepresentation` (recurrent.py:140-145); a zero count is
falsy. -/
def Rule.icalBound (r : Rule) : Res String :=
  match r.count with
  | some c =>
    if c ≠ 0 then .ok ("COUNT=" ++ toString c ++ ";")
    else match r.untl with
      | some u => do .ok ("UNTIL=" ++ (← icalDateTime u) ++ ";")
      | none => .ok ""
  | none => match r.untl with
    | some u => do .ok ("UNTIL=" ++ (← icalDateTime u) ++ ";")
    | none => .ok ""

/-- `iCalRepresentation` (recurrent.py:136-159). -/
def Rule.icalRepresentation (r : Rule) (dtstart : DateTime) : Res (List String) :=
  match r.kind.icalFreq with
  | none => raise .AssertionError
  | some freq => do
    let bound ← r.icalBound
    let extra ← r.icalArgs dtstart
    let args := match extra with
      | some x => bound ++ x ++ ";"
      | none => bound
    let line := "RRULE:FREQ=" ++ freq ++ ";" ++ args ++ "INTERVAL=" ++ toString r.interval
    if r.exceptions = [] then .ok [line]
    else do
      let dates ← r.exceptions.mapM icalDate
      .ok [line, "EXDATE;VALUE=DATE:" ++ String.intercalate "," dates]

end CalCore
