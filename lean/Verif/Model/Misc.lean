import Verif.Model.Calendar
/- Model of the remaining functions of SimpleAttendeeSource, of `Period`, `sameDay`, `getRecentYears`
and of the vocabularies, from /repo/src/calcore/cal.py. -/
namespace CalCore

/-- `attendee.getName()`: neither `AttendeeBase` (cal.py:592-644) nor `Attendee` (cal.py:646-654)
defines it. -/
def Attendee.getName (_ : Attendee) : Res String := raise .AttributeError

/-- The loop of `findByName` (cal.py:1048-1054).  The type is compared with `is not`; equal strings are
taken to be the same object. -/
def findByNameLoop (query : List Char) (type : Option String) : Source → Res (List AttId)
  | [] => .ok []
  | (id, a) :: rest => do
    let name ← a.getName
    let here := decide (query <:+: name.toList) &&
      (match type with | some t => decide (a.type = t) | none => true)
    let more ← findByNameLoop query type rest
    .ok (if here then id :: more else more)

/-- `findByName(query_str, attendee_type)` (cal.py:1046-1055). -/
def Source.findByName (s : Source) (query : String) (type : Option String) : Res (List AttId) :=
  findByNameLoop query.toList type s

/-- `getAttendeesOfType(attendee_type)` (cal.py:1057-1062): the attribute is called `_attendees`
(cal.py:1010), so `self.attendees` raises. -/
def Source.getAttendeesOfType (_ : Source) (_type : String) : Res (List AttId) := raise .AttributeError

/-- `getAttendeeTypes()` (cal.py:1064-1065): defined without `self`, so calling it on a source passes one
argument too many. -/
def Source.getAttendeeTypes (_ : Source) : Res (List String) := raise .TypeError

/-- `Period(dtstart, duration)` (cal.py:1071-1072): the pair of a datetime and a timedelta. -/
def periodOf (dtstart : DateTime) (minutes : Int) : DateTime × TimeDelta :=
  (dtstart, minutes * 60000000)

/-- `inPeriod(o, (b, e))` (cal.py:1074-1088) when `e` is a timedelta: comparing a datetime with it
raises TypeError. -/
def inPeriodDelta (dtstart : DateTime) (dur : Option TimeDelta) (p : DateTime × TimeDelta) : Res Bool :=
  match dur with
  | none => raise .TypeError
  | some d => do
    let en ← dtAdd dtstart d
    if en ≤ p.1 then .ok false
    else raise .TypeError

/-- The list comprehension of `getEvents` (cal.py:289) for such a pair. -/
def filterInPeriodDelta (p : DateTime × TimeDelta) : List Event → Res (List Event)
  | [] => .ok []
  | ev :: rest => do
    let keep ← inPeriodDelta ev.dtstart ev.duration p
    let more ← filterInPeriodDelta p rest
    .ok (if keep then ev :: more else more)

/-- `getEvents(Period(dtstart, minutes), search_criteria)` (cal.py:287-289, 1071-1072). -/
def Storage.getEventsPeriod (s : Storage) (dtstart : DateTime) (minutes : Int) (c : Option Criteria) :
    Res (List Event) := filterInPeriodDelta (periodOf dtstart minutes) (s.matching c)

/-- `sameDay(dt, dt2)` (cal.py:1090-1091). -/
def sameDay (t u : DateTime) : Bool := decide (dtDate t = dtDate u)

/-- `getRecentYears()` (cal.py:956-962); `today` is the date `getToday` returns. -/
def recentYears (today : Date) : List Int := [dyear today - 1, dyear today, dyear today + 1]

end CalCore
