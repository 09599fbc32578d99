import Verif.Model.Recurrent
/- A small evaluator of Python expressions: integers, None, strings without escapes, tuples, and calls of the constructors
of dates and recurrence rules with positional arguments.  It knows nothing of `__repr__`. -/
namespace CalCore.Spec

/-- Python expressions. -/
inductive PyExpr where
  | int (n : Int)
  | name (s : List Char)
  | str (s : List Char)
  | tuple (l : List PyExpr)
  | call (f : List Char) (args : List PyExpr)

/-- Characters of names with dots. -/
def nameChar (c : Char) : Bool := c.isAlpha || c == '.' || c == '_'

mutual
/-- Read one expression from the front of a text (`fuel` bounds the nesting). -/
def parseExpr : Nat → List Char → Option (PyExpr × List Char)
  | 0, _ => none
  | _ + 1, [] => none
  | fuel + 1, c :: r =>
    if c = '(' then
      match parseArgs fuel r with
      | some ([e], false, r') => some (e, r')
      | some (l, _, r') => some (.tuple l, r')
      | none => none
    else if c = '\'' then
      match r.dropWhile (· ≠ '\'') with
      | [] => none
      | _ :: r' => some (.str (r.takeWhile (· ≠ '\'')), r')
    else if c = '-' then
      if (r.takeWhile Char.isDigit) = [] then none
      else some (.int (-(Nat.ofDigitChars 10 (r.takeWhile Char.isDigit) 0 : Nat)), r.dropWhile Char.isDigit)
    else if c.isDigit then
      some (.int (Nat.ofDigitChars 10 ((c :: r).takeWhile Char.isDigit) 0 : Nat), (c :: r).dropWhile Char.isDigit)
    else if nameChar c then
      match (c :: r).dropWhile nameChar with
      | '(' :: r' =>
        match parseArgs fuel r' with
        | some (l, _, r'') => some (.call ((c :: r).takeWhile nameChar) l, r'')
        | none => none
      | r' => some (.name ((c :: r).takeWhile nameChar), r')
    else none

/-- Read expressions separated by commas up to the closing parenthesis; was there a comma before it? -/
def parseArgs : Nat → List Char → Option (List PyExpr × Bool × List Char)
  | 0, _ => none
  | fuel + 1, s =>
    match s with
    | ')' :: r => some ([], false, r)
    | _ =>
      match parseExpr fuel s with
      | none => none
      | some (e, ')' :: r) => some ([e], false, r)
      | some (e, ',' :: ')' :: r) => some ([e], true, r)
      | some (e, ',' :: ' ' :: r) =>
        match parseArgs fuel r with
        | some (l, t, r') => some (e :: l, t, r')
        | none => none
      | some _ => none
end

/-- Read a whole text. -/
def parsePy (s : String) : Option PyExpr :=
  match parseExpr s.length s.toList with
  | some (e, []) => some e
  | _ => none

/-- An integer. -/
def evalInt : PyExpr → Option Int
  | .int n => some n
  | _ => none

/-- None or an integer. -/
def evalCount : PyExpr → Option (Option Int)
  | .int n => some (some n)
  | .name n => if n = "None".toList then some none else none
  | _ => none

/-- `datetime.date(y, m, d)`. -/
def evalDate : PyExpr → Option Date
  | .call f [.int y, .int m, .int d] => if f = "datetime.date".toList then (mkDate y m d).toOption else none
  | _ => none

/-- A time of day. -/
def timeOf (h m s us : Int) : Option Time :=
  if 0 ≤ h ∧ h < 24 ∧ 0 ≤ m ∧ m < 60 ∧ 0 ≤ s ∧ s < 60 ∧ 0 ≤ us ∧ us < 1000000 then
    some (((h * 60 + m) * 60 + s) * 1000000 + us)
  else none

/-- The arguments of `datetime.datetime` after the date; seconds and microseconds are optional. -/
def evalTime : List PyExpr → Option Time
  | [.int h, .int m] => timeOf h m 0 0
  | [.int h, .int m, .int s] => timeOf h m s 0
  | [.int h, .int m, .int s, .int us] => timeOf h m s us
  | _ => none

/-- `datetime.datetime(y, m, d, hour, minute, second, microsecond)`. -/
def evalDateTime : PyExpr → Option DateTime
  | .call f (.int y :: .int m :: .int d :: t) =>
    if f = "datetime.datetime".toList then do
      let o ← (mkDate y m d).toOption
      let t ← evalTime t
      some (o * DAY + t)
    else none
  | _ => none

/-- None, a date or a datetime. -/
def evalUntil (e : PyExpr) : Option (Option Until) :=
  match e with
  | .name n => if n = "None".toList then some none else none
  | _ =>
    match evalDate e with
    | some d => some (some (.date d))
    | none => (evalDateTime e).map fun t => some (.datetime t)

/-- A tuple of dates. -/
def evalDates : PyExpr → Option (List Date)
  | .tuple l => l.mapM evalDate
  | _ => none

/-- A tuple of integers. -/
def evalInts : PyExpr → Option (List Int)
  | .tuple l => l.mapM evalInt
  | _ => none

/-- A string. -/
def evalStr : PyExpr → Option String
  | .str s => some (String.ofList s)
  | _ => none

/-- A call of the constructor of a rule class: `Class(interval, count, until, exceptions)`, with `weekdays` (weekly rules) or
`monthly` (monthly rules) as fifth argument. -/
def evalRule : PyExpr → Option Rule
  | .call f [i, c, u, x] => do
    let i ← evalInt i
    let c ← evalCount c
    let u ← evalUntil u
    let x ← evalDates x
    if f = "BasicRecurrenceRule".toList then (Rule.new .basic i c u x).toOption
    else if f = "NoRecurrenceRule".toList then (Rule.new .no i c u x).toOption
    else if f = "DailyRecurrenceRule".toList then (Rule.new .daily i c u x).toOption
    else if f = "YearlyRecurrenceRule".toList then (Rule.new .yearly i c u x).toOption
    else none
  | .call f [i, c, u, x, y] => do
    let i ← evalInt i
    let c ← evalCount c
    let u ← evalUntil u
    let x ← evalDates x
    if f = "WeeklyRecurrenceRule".toList then do
      let w ← evalInts y
      (Rule.new (.weekly w) i c u x).toOption
    else if f = "MonthlyRecurrenceRule".toList then do
      let m ← evalStr y
      (newMonthly i c u x m).toOption
    else none
  | _ => none

/-- A rule some constructor returns, whose dates are dates of Python. -/
structure ProperRule (r : Rule) : Prop where
  made : Rule.new r.kind r.interval r.count r.untl r.exceptions = .ok r
  exceptions : ∀ d ∈ r.exceptions, 1 ≤ d ∧ d ≤ MAXORD
  untl_date : ∀ d, r.untl = some (.date d) → 1 ≤ d ∧ d ≤ MAXORD
  untl_datetime : ∀ t, r.untl = some (.datetime t) → dtInRange t = true

end CalCore.Spec
