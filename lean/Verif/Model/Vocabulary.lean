import Verif.Model.Calendar
/- The vocabularies of the forms (cal.py:1164-1183). -/
namespace CalCore

/-- `SimpleTerm(value, token, title)` of zope.schema; the translated title is not modelled. -/
structure Term (α : Type) where
  value : α
  token : String
  deriving DecidableEq

/-- `SimpleVocabulary(terms)` of zope.schema: ValueError for a value or a token that appears twice.  The first
argument has the terms seen so far. -/
def simpleVocabulary {α : Type} [DecidableEq α] (seen : List (Term α)) : List (Term α) → Res (List (Term α))
  | [] => .ok seen
  | t :: rest =>
    if seen.any (fun u => decide (u.value = t.value)) then raise .ValueError
    else if seen.any (fun u => decide (u.token = t.token)) then raise .ValueError
    else simpleVocabulary (seen ++ [t]) rest

/-- `CalendarVocabularyFactory(list)` (cal.py:1164-1168). -/
def calendarVocabularyFactory (l : List String) : Res (List (Term String)) :=
  simpleVocabulary [] (l.map fun item => ⟨item, item⟩)

/-- `CalendarEventStatusVocabulary` (cal.py:1170-1171). -/
def calendarEventStatusVocabulary : Res (List (Term String)) :=
  calendarVocabularyFactory ["TENTATIVE", "CONFIRMED", "CANCELED"]

/-- `CalendarEventAccessVocabulary` (cal.py:1173-1174). -/
def calendarEventAccessVocabulary : Res (List (Term String)) :=
  calendarVocabularyFactory ["PUBLIC", "PRIVATE", "CONFIDENTIAL"]

/-- `CalendarMontlyRecurrenceTypeVocabulary` (cal.py:1176-1177). -/
def calendarMonthlyVocabulary : Res (List (Term String)) :=
  calendarVocabularyFactory ["monthday", "weekday", "lastweekday"]

/-- `CalendarWeekdaysVocabulary` (cal.py:1179-1183); the token of a number is its decimal notation. -/
def calendarWeekdaysVocabulary : Res (List (Term Int)) :=
  simpleVocabulary [] ((List.range 7).map fun (day : Nat) => ⟨(day : Int), toString day⟩)

end CalCore
