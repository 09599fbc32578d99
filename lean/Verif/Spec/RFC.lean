import Verif.Spec.Recurrence
/- RFC 2445, as far as the texts of rules use it: a reader of RRULE and EXDATE lines (sections 4.3.10, 4.8.5)
and the dates such a rule stands for.  Independent of the rule classes; only the calendar of Model/DateTime is used. -/
namespace CalCore.Spec

/-- FREQ -/
inductive RFreq | daily | weekly | monthly | yearly
  deriving DecidableEq

/-- The parts of a recurrence.  `byday` has pairs of an ordinal (0: none given) and a weekday (0 is Monday). -/
structure Recur where
  freq : RFreq
  interval : Int := 1
  count : Option Int := none
  untl : Option Int := none
  byday : List (Int × Int) := []
  bymonthday : List Int := []
  exdates : List Int := []
  deriving DecidableEq

/-! ### reading -/

/-- A sequence of decimal digits. -/
def readNat (l : List Char) : Option Nat :=
  if l ≠ [] ∧ l.all Char.isDigit = true then some (l.foldl (fun n c => 10 * n + (c.toNat - 48)) 0) else none

/-- An optional sign and digits. -/
def readInt (l : List Char) : Option Int :=
  match l with
  | '-' :: l => (readNat l).map fun n : Nat => -(n : Int)
  | '+' :: l => (readNat l).map fun n : Nat => (n : Int)
  | l => (readNat l).map fun n : Nat => (n : Int)

/-- DATE: YYYYMMDD. -/
def readDate (l : List Char) : Option Int :=
  if l.length = 8 then
    (readNat (l.take 4)).bind fun y => (readNat ((l.drop 4).take 2)).bind fun m =>
      (readNat (l.drop 6)).bind fun d => dateOf y m d
  else none

/-- DATE-TIME: YYYYMMDDTHHMMSS, in microseconds. -/
def readDateTime (l : List Char) : Option Int :=
  match l.splitOn 'T' with
  | [d, t] =>
    if t.length = 6 then
      (readDate d).bind fun d => (readNat (t.take 2)).bind fun h => (readNat ((t.drop 2).take 2)).bind fun m =>
        (readNat (t.drop 4)).bind fun s =>
          if h < 24 ∧ m < 60 ∧ s < 60 then some (d * 86400000000 + (((h * 60 + m) * 60 + s : Nat) : Int) * 1000000)
          else none
    else none
  | _ => none

/-- The names of the weekdays. -/
def dayNames : List (List Char) := [['M', 'O'], ['T', 'U'], ['W', 'E'], ['T', 'H'], ['F', 'R'], ['S', 'A'], ['S', 'U']]

/-- A weekday, possibly with an ordinal before it. -/
def readDay (l : List Char) : Option (Int × Int) :=
  let name := l.drop (l.length - 2)
  let nr := l.take (l.length - 2)
  if name ∈ dayNames then
    (if nr = [] then some 0 else readInt nr).map fun n => (n, (dayNames.idxOf name : Nat))
  else none

/-- One part of the rule. -/
def readPart (R : Recur) (part : List Char) : Option Recur :=
  match part.splitOn '=' with
  | [key, value] =>
    if key = "INTERVAL".toList then (readNat value).map fun n : Nat => { R with interval := n }
    else if key = "COUNT".toList then (readNat value).map fun n : Nat => { R with count := some (n : Int) }
    else if key = "UNTIL".toList then (readDateTime value).map fun t => { R with untl := some t }
    else if key = "BYDAY".toList then ((value.splitOn ',').mapM readDay).map fun l => { R with byday := l }
    else if key = "BYMONTHDAY".toList then ((value.splitOn ',').mapM readInt).map fun l => { R with bymonthday := l }
    else none
  | _ => none

/-- The frequency part, which comes first. -/
def readFreq (part : List Char) : Option RFreq :=
  if part = "FREQ=DAILY".toList then some .daily
  else if part = "FREQ=WEEKLY".toList then some .weekly
  else if part = "FREQ=MONTHLY".toList then some .monthly
  else if part = "FREQ=YEARLY".toList then some .yearly
  else none

/-- The RRULE line. -/
def readRRule (l : List Char) : Option Recur :=
  if "RRULE:".toList <+: l then
    match (l.drop 6).splitOn ';' with
    | [] => none
    | f :: parts => (readFreq f).bind fun f => parts.foldlM readPart { freq := f }
  else none

/-- The EXDATE line. -/
def readExdates (l : List Char) : Option (List Int) :=
  if "EXDATE;VALUE=DATE:".toList <+: l then ((l.drop 18).splitOn ',').mapM readDate else none

/-- A recurrence: an RRULE line and possibly an EXDATE line. -/
def readText : List String → Option Recur
  | [line] => readRRule line.toList
  | [line, ex] => (readRRule line.toList).bind fun R =>
      (readExdates ex.toList).map fun x => { R with exdates := x }
  | _ => none

/-! ### meaning -/

/-- The date `d` has one of the weekdays, at the right place of its month: counted from the first of the month for
a positive ordinal, from the last for a negative one. -/
def OnDay (p : Int × Int) (d : Int) : Prop :=
  weekday d = p.2 ∧ (p.1 = 0 ∨ p.1 = (dday d - 1) / 7 + 1 ∨
    p.1 = -((daysInMonth (dyear d) (dmonth d) - dday d) / 7 + 1))

instance (p : Int × Int) (d : Int) : Decidable (OnDay p d) := by unfold OnDay; infer_instance

/-- The same with the ordinal counted within the year. -/
def OnYearDay (p : Int × Int) (d : Int) : Prop :=
  weekday d = p.2 ∧ (p.1 = 0 ∨ p.1 = (d - ymd2ord (dyear d) 1 1) / 7 + 1 ∨
    p.1 = -((ymd2ord (dyear d) 12 31 - d) / 7 + 1))

instance (p : Int × Int) (d : Int) : Decidable (OnYearDay p d) := by unfold OnYearDay; infer_instance

/-- The date `d` is day `n` of its month, counted from the end if `n` is negative. -/
def OnMonthday (n d : Int) : Prop := n = dday d ∨ n = dday d - daysInMonth (dyear d) (dmonth d) - 1

instance (n d : Int) : Decidable (OnMonthday n d) := by unfold OnMonthday; infer_instance

/-- BYMONTHDAY, if given, contains the day. -/
def ByMonthday (R : Recur) (d : Int) : Prop := R.bymonthday = [] ∨ ∃ n ∈ R.bymonthday, OnMonthday n d

instance (R : Recur) (d : Int) : Decidable (ByMonthday R d) := by unfold ByMonthday; infer_instance

/-- `d` is in a period selected by FREQ and INTERVAL, counted from the start `s`, and on a day selected by the BY parts;
what they leave open is taken from the start. -/
def Selected (R : Recur) (s d : Int) : Prop :=
  match R.freq with
  | .daily => R.interval ∣ d - s ∧ (R.byday = [] ∨ ∃ p ∈ R.byday, weekday d = p.2) ∧ ByMonthday R d
  | .weekly => 7 * R.interval ∣ mondayOf d - mondayOf s ∧
      (if R.byday = [] then weekday d = weekday s else ∃ p ∈ R.byday, weekday d = p.2) ∧ ByMonthday R d
  | .monthly => R.interval ∣ monthNr d - monthNr s ∧
      (if R.byday = [] ∧ R.bymonthday = [] then dday d = dday s
       else (R.byday = [] ∨ ∃ p ∈ R.byday, OnDay p d) ∧ ByMonthday R d)
  | .yearly => R.interval ∣ dyear d - dyear s ∧
      (if R.byday = [] ∧ R.bymonthday = [] then dmonth d = dmonth s ∧ dday d = dday s
       else (R.byday = [] ∨ ∃ p ∈ R.byday, OnYearDay p d) ∧ ByMonthday R d)

instance (R : Recur) (s d : Int) : Decidable (Selected R s d) := by
  unfold Selected; split <;> infer_instance

/-- The recurrence set without COUNT, UNTIL and EXDATE; the start always belongs to it. -/
def InSet (R : Recur) (s d : Int) : Prop := s ≤ d ∧ d ≤ MAXORD ∧ (d = s ∨ Selected R s d)

instance (R : Recur) (s d : Int) : Decidable (InSet R s d) := by unfold InSet; infer_instance

/-- The event starting at the datetime `dt` occurs on the date `d`. -/
def Recurs (R : Recur) (dt d : Int) : Prop :=
  InSet R (dtDate dt) d ∧
    (∀ c, R.count = some c →
      ((List.range (d - dtDate dt).toNat).countP (fun j => InSet R (dtDate dt) (dtDate dt + (j : Nat))) : Int) < c) ∧
    (∀ u, R.untl = some u → combine d (dtTime dt) ≤ u) ∧ d ∉ R.exdates

end CalCore.Spec
