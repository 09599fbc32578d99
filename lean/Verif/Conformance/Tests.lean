import Verif.Model.History
/- Validation of the model, not proofs of properties: the expected values of the tests in
/repo/src/calcore/tests and of the doctests in /repo/doc, evaluated on the model by the kernel.  A
failing test would mean that the model disagrees with what the authors of the code observed.

Tests that change the exported iCalendar text change the exported components here, because the text
syntax is not modelled. -/
namespace CalCore.Conformance
open CalCore

/-- `datetime(y, mo, d, h, mi)` -/
def dt (y mo d : Int) (h mi : Int := 0) : Int := combine (ymd2ord y mo d) (h * 3600000000 + mi * 60000000)
/-- `date(y, mo, d)` -/
def day (y mo d : Int) : Int := ymd2ord y mo d
/-- `timedelta(hours=n)` -/
def hours (n : Int) : Int := n * 3600000000
/-- `timedelta(minutes=n)` -/
def minutes (n : Int) : Int := n * 60000000
/-- `timedelta(days=n)` -/
def days (n : Int) : Int := n * DAY
/-- The clock reading used for generated ids. -/
def now : Int := dt 2005 1 1

/-! ### tests/test_util.py -/

example : removeOverlaps [(5, 7), (6, 12)] = [(5, 12)] := by decide +kernel
example : removeOverlaps [(5, 7), (7, 12)] = [(5, 12)] := by decide +kernel
example : removeOverlaps [(5, 12), (10, 11)] = [(5, 12)] := by decide +kernel
example : removeOverlaps [(5, 12), (5, 12)] = [(5, 12)] := by decide +kernel
example : removeOverlaps [(5, 12), (5, 7)] = [(5, 12)] := by decide +kernel
example : removeOverlaps [(5, 12), (7, 12)] = [(5, 12)] := by decide +kernel
example : removeOverlaps [] = [] := by decide +kernel
example : removeOverlaps [(5, 10), (7, 10), (7, 12), (14, 18), (20, 23)] = [(5, 12), (14, 18), (20, 23)] := by
  decide +kernel

/-! ### tests/test_isoweek.py -/

example : [2004, 2005, 2006, 2007, 2008, 2009].map getWeeksInYear = [.ok 53, .ok 52, .ok 52, .ok 52, .ok 52, .ok 53] := by
  decide +kernel
example : weeknr2datetime 2005 6 (some 1) = .ok (dt 2005 2 7) := by decide +kernel
example : [1, 2, 3, 4, 5, 6].map (fun w => weeknr2datetime 2005 6 (some w)) =
    [7, 8, 9, 10, 11, 12].map (fun d => .ok (dt 2005 2 d)) := by decide +kernel

/-! ### doctests of recurrent.py -/

example : icalDate (day 2004 3 4) = .ok "20040304" := by decide +kernel
example : icalDateTime (.datetime (dt 2004 12 16 10 45 + 7000000)) = .ok "20041216T104507" := by decide +kernel

/-! ### tests/test_segmenting.py -/

/-- The segments of one list of occurrences, as (start, duration). -/
def segs (b e : Int) (l : List (Int × Int)) : Res (List (Int × Int)) :=
  (segmentOccurrences b e (l.map (fun x => (⟨x.1, x.2, "payload"⟩ : Occurrence String)))).map
    (fun l => (l.map (fun o => (o.dtstart, o.duration))))

/-- (the code yields the segments of an occurrence in reverse order; the tests sort) -/
example : segs (dt 2005 1 1) (dt 2005 2 1) [(dt 2005 1 2 17, hours 14)] =
    .ok [(dt 2005 1 3, hours 7), (dt 2005 1 2 17, hours 7)] := by decide +kernel
example : segs (dt 2005 1 1) (dt 2005 2 1) [(dt 2005 1 2 17, hours 34)] =
    .ok [(dt 2005 1 4, hours 3), (dt 2005 1 3, days 1), (dt 2005 1 2 17, hours 7)] := by decide +kernel
example : segs (dt 2005 1 1) (dt 2005 2 1) [(dt 2005 1 2 17, hours 1)] = .ok [(dt 2005 1 2 17, hours 1)] := by
  decide +kernel
example : segs (dt 2005 1 1) (dt 2005 2 1) [(dt 2005 1 2 17, hours 34), (dt 2005 1 3 14, hours 24)] =
    .ok [(dt 2005 1 4, hours 3), (dt 2005 1 3, hours 24), (dt 2005 1 2 17, hours 7),
         (dt 2005 1 4, hours 14), (dt 2005 1 3 14, hours 10)] := by decide +kernel
example : segs (dt 2005 1 2 19) (dt 2005 2 1) [(dt 2005 1 2 17, hours 34)] =
    .ok [(dt 2005 1 4, hours 3), (dt 2005 1 3, hours 24), (dt 2005 1 2 19, hours 5)] := by decide +kernel
example : segs (dt 2005 1 1) (dt 2005 1 3 17) [(dt 2005 1 2 17, hours 34)] =
    .ok [(dt 2005 1 3, hours 17), (dt 2005 1 2 17, hours 7)] := by decide +kernel
example : segs (dt 2005 1 2 18) (dt 2005 1 2 19) [(dt 2005 1 2 17, hours 3)] = .ok [(dt 2005 1 2 18, hours 1)] := by
  decide +kernel
example : segs (dt 2005 1 2 17) (dt 2005 1 2 20) [(dt 2005 1 2 10, hours 3)] = .ok [] := by decide +kernel
example : segs (dt 2005 1 1 17) (dt 2005 1 2 17) [(dt 2005 1 2 18, hours 14)] = .ok [] := by decide +kernel
example : segs (dt 2005 4 13) (dt 2005 4 14) [(dt 2005 4 13 14, hours 23)] = .ok [(dt 2005 4 13 14, hours 10)] := by
  decide +kernel
example : segs (dt 2005 4 14) (dt 2005 4 15) [(dt 2005 4 13 14, hours 23)] = .ok [(dt 2005 4 14, hours 13)] := by
  decide +kernel
example : segs (dt 2005 4 13 15) (dt 2005 4 13 16) [(dt 2005 4 13 14, hours 5)] = .ok [(dt 2005 4 13 15, hours 1)] := by
  decide +kernel

/-! ### worlds -/

/-- `SimpleAttendeeSource` with the attendees of the tests. -/
def src : Source :=
  [("martijn", ⟨"Martijn", "INDIVIDUAL"⟩), ("lennart", ⟨"Lennart", "INDIVIDUAL"⟩), ("florent", ⟨"Florent", "INDIVIDUAL"⟩),
   ("eric", ⟨"Eric", "INDIVIDUAL"⟩), ("bob", ⟨"Bob", "INDIVIDUAL"⟩), ("room1", ⟨"Room 1", "ROOM"⟩)]

/-- `MemoryStorage('storage')` after some calls. -/
def after (ops : List Op) : World := (freshWorld "storage" "host").run ops

/-- A call of `attendee.createEvent`. -/
def by_ (a : AttId) (dtstart duration : Int) (title : String := "") (recurrence : Option Rule := none)
    (allday : Bool := false) (categories : Finset String := ∅) (transparent : Bool := false) : Op :=
  .attendeeCreate now a { dtstart, duration := some duration, title, recurrence, allday, categories, transparent }

/-- The id generated when `n` events are stored. -/
def uid (n : Nat) : Uid := addrspecUniqueId now ("storage-" ++ toString n) "host"

/-- Titles of a query result. -/
def titles (r : Res (List Event)) : Res (List String) := r.map (fun l => l.map (·.title))
/-- Starts of a query result. -/
def starts (r : Res (List (Occurrence Event))) : Res (List Int) := r.map (fun l => l.map (·.dtstart))
/-- Number of results. -/
def count {α : Type} (r : Res (List α)) : Res Nat := r.map List.length

/-! ### tests/test_segmenting.py, test_occurrences_in_day -/

def long := after [by_ "martijn" (dt 2005 4 13 14) (hours 23) "Long meeting"]
def mcal : Calendar := [("martijn", ())]

example : (mcal.getOccurrencesInDay src long.store (day 2005 4 13) none).map (fun l => l.map (fun o => (o.dtstart, o.duration))) =
    .ok [(dt 2005 4 13 14, hours 10)] := by decide +kernel
example : (mcal.getOccurrencesInDay src long.store (day 2005 4 14) none).map (fun l => l.map (fun o => (o.dtstart, o.duration))) =
    .ok [(dt 2005 4 14, hours 13)] := by decide +kernel

/-! ### tests/test_cal.py -/

def ten := after [by_ "martijn" (dt 2005 4 10 16) (hours 10) "Martijn's Meeting"]

example : count (ten.store.attendeeGetOccurrences "martijn" (some (dt 2005 4 11)) (some (dt 2005 4 14)) none) = .ok 1 := by
  decide +kernel
example : count (ten.store.attendeeGetOccurrences "martijn" (some (dt 2005 4 7)) (some (dt 2005 4 11)) none) = .ok 1 := by
  decide +kernel

/-- test_attendeeManagement -/
example :
    let c := Calendar.add (Calendar.add [] "martijn") "guido"
    c.mainId = some "martijn" ∧ (c.remove "martijn").1.mainId = some "guido" := by decide +kernel

/-- test_searchCriteria -/
def two := after [by_ "martijn" (dt 2005 4 10 16) (minutes 60), by_ "guido" (dt 2005 4 10 16) (minutes 60)]

example : count (two.store.getEvents none none (some { attendees := some ["martijn"] })) = .ok 1 := by decide +kernel
example : count (two.store.getEvents none none (some { attendees := some ["martijn", "guido"] })) = .ok 2 := by decide +kernel

/-! ### doc/usecase.txt -/

def meeting0 := after [by_ "florent" (dt 2005 4 10 16) (minutes 60) "Florent's Meeting"]
def meeting1 := meeting0.run [.invite (uid 0) ["room1", "martijn", "bob"]]
def meeting2 := meeting1.run [.setStatus (uid 0) "martijn" (some "ACCEPTED")]
def meeting3 := meeting2.run [.invite (uid 0) ["martijn"]]
/-- The period April 2005. -/
def april (w : World) (a : AttId) (c : Option Criteria := none) : Res (List String) :=
  titles (w.store.attendeeGetEvents a (some (dt 2005 4 1)) (some (dt 2005 5 1)) c)

example : april meeting0 "florent" = .ok ["Florent's Meeting"] := by decide +kernel
example : (meeting0.store.getEvent (uid 0)).map (·.getStatus "florent") = .ok (some "ACCEPTED") := by decide +kernel
example : ["martijn", "bob", "room1"].map (fun a => april meeting0 a) = [.ok [], .ok [], .ok []] := by decide +kernel
example : ["martijn", "bob", "room1"].map (fun a => april meeting1 a) =
    [.ok ["Florent's Meeting"], .ok ["Florent's Meeting"], .ok ["Florent's Meeting"]] := by decide +kernel
example : (meeting1.store.getEvent (uid 0)).map (fun e => ["martijn", "bob"].map e.getStatus) =
    .ok [some "NEEDS-ACTION", some "NEEDS-ACTION"] := by decide +kernel
example : april meeting1 "martijn" (some { status := some "NEEDS-ACTION" }) = .ok ["Florent's Meeting"] := by decide +kernel
example : (meeting2.store.getEvent (uid 0)).map (·.getStatus "martijn") = .ok (some "ACCEPTED") := by decide +kernel
example : april meeting2 "martijn" (some { status := some "NEEDS-ACTION" }) = .ok [] := by decide +kernel
example : (meeting3.store.getEvent (uid 0)).map (·.getStatus "martijn") = .ok (some "ACCEPTED") := by decide +kernel
example : titles (meeting3.store.getOrganizedEvents "florent" none) = .ok ["Florent's Meeting"] := by decide +kernel
example : titles ((meeting3.run [.delete (uid 0)]).store.getOrganizedEvents "florent" none) = .ok [] := by decide +kernel

/-! ### doc/attendee.txt -/

def att0 := after [by_ "martijn" (dt 2005 2 10 14) (minutes 60) "An event"]
def att1 := att0.run [.setRole (uid 0) "martijn" "CHAIR"]
def att2 := att1.run [.invite (uid 0) ["lennart"]]
def att3 := att2.run [.setStatus (uid 0) "lennart" none]
/-- `event.getAttendeeIds(status, role)` of the only event -/
def ids (w : World) (ps pr : Option String := none) : Res (List AttId) := do
  let e ← w.store.getEvent (uid 0)
  e.getAttendeeIds ps pr
/-- `event.getParticipationRole(a)` -/
def role (w : World) (a : AttId) : Res (Option String) := (w.store.getEvent (uid 0)).map (·.getRole a)

example : role att0 "martijn" = .ok (some "REQ-PARTICIPANT") := by decide +kernel
example : ids att0 = .ok ["martijn"] := by decide +kernel
example : ids att0 none (some "REQ-PARTICIPANT") = .ok ["martijn"] := by decide +kernel
example : ids att0 (some "ACCEPTED") none = .ok ["martijn"] := by decide +kernel
example : role att0 "lennart" = .ok none := by decide +kernel
example : role att1 "martijn" = .ok (some "CHAIR") := by decide +kernel
example : ids att1 none (some "REQ-PARTICIPANT") = .ok [] := by decide +kernel
example : ids att1 none (some "CHAIR") = .ok ["martijn"] := by decide +kernel
example : role att2 "lennart" = .ok (some "REQ-PARTICIPANT") := by decide +kernel
example : ids att2 = .ok ["martijn", "lennart"] := by decide +kernel
example : ids att2 none (some "REQ-PARTICIPANT") = .ok ["lennart"] := by decide +kernel
example : (att3.store.getEvent (uid 0)).map (fun e => (e.hasAttendee "lennart", e.getStatus "lennart", e.getRole "lennart")) =
    .ok (false, none, none) := by decide +kernel
example : ids att3 = .ok ["martijn"] := by decide +kernel

/-! ### doc/calendar.txt -/

def cal0 := after [by_ "martijn" (dt 2005 2 23 10) (minutes 60) "Event A"]
def cal1 := cal0.run [.invite (uid 0) ["lennart"]]
def cal2 := cal1.run [by_ "lennart" (dt 2005 2 24 10) (minutes 60) "Event B", by_ "martijn" (dt 2005 2 25 10) (minutes 60) "Event C"]
def lcal : Calendar := [("lennart", ())]
def both : Calendar := Calendar.add (Calendar.add [] "lennart") "martijn"
/-- `calendar.getEvents(february)` -/
def february (c : Calendar) (w : World) : Res (List String) :=
  titles (c.getEvents src w.store (some (dt 2005 2 1)) (some (dt 2005 3 1)) none)

example : february mcal cal0 = .ok ["Event A"] := by decide +kernel
example : titles (mcal.getEventsInDay src cal0.store (day 2005 2 23) none) = .ok ["Event A"] := by decide +kernel
example : february lcal cal1 = .ok ["Event A"] := by decide +kernel
example : february mcal cal2 = .ok ["Event A", "Event C"] := by decide +kernel
example : february lcal cal2 = .ok ["Event A", "Event B"] := by decide +kernel
example : february both cal2 = .ok ["Event A", "Event B", "Event C"] := by decide +kernel

/-! ### doc/category.txt -/

def cat := after [
  by_ "martijn" (dt 2005 2 10 14) (minutes 60) "An Event" (categories := {"APPOINTMENT"}),
  by_ "martijn" (dt 2005 2 10 15) (minutes 60) "Second Event" (categories := {"HOLIDAY"}),
  by_ "martijn" (dt 2005 2 10 16) (minutes 60) "Third Event" (categories := {"APPOINTMENT"}),
  by_ "martijn" (dt 2005 2 10 17) (minutes 60) "Fourth Event" (categories := {"HOLIDAY", "APPOINTMENT"}),
  by_ "martijn" (dt 2005 2 10 18) (minutes 60) "Fifth Event"]
/-- `martijn.getEvents(february, criteria)` -/
def catq (c : Option Criteria) : Res (List String) :=
  titles (cat.store.attendeeGetEvents "martijn" (some (dt 2005 2 1)) (some (dt 2005 3 1)) c)

example : catq (some { categories := some ["HOLIDAY"] }) = .ok ["Second Event", "Fourth Event"] := by decide +kernel
example : catq (some { categories := some ["APPOINTMENT"] }) = .ok ["An Event", "Third Event", "Fourth Event"] := by
  decide +kernel
example : catq (some { categories := some ["APPOINTMENT", "HOLIDAY"] }) =
    .ok ["An Event", "Second Event", "Third Event", "Fourth Event"] := by decide +kernel
example : catq none = .ok ["An Event", "Second Event", "Third Event", "Fourth Event", "Fifth Event"] := by decide +kernel
example : catq (some {}) = .ok ["An Event", "Second Event", "Third Event", "Fourth Event", "Fifth Event"] := by decide +kernel

/-! ### doc/recurrence.txt -/

def rec0 := after [by_ "martijn" (dt 2005 3 2 16) (minutes 60) "An event",
  by_ "martijn" (dt 2005 3 1 15) (minutes 60) "Recurrent event" (recurrence := some ⟨.daily, 1, none, some (.date (day 2005 3 31)), []⟩)]
def rec1 := rec0.run [by_ "martijn" (dt 2005 4 3 15) (minutes 30) "Recurrent event (2)"
  (recurrence := some ⟨.weekly [], 1, none, some (.date (day 2005 5 1)), []⟩)]
/-- `len(martijn.getOccurrences(day))` for consecutive days -/
def perDay (w : World) (y m : Int) (n : Nat) : List (Res Nat) := (List.range n).map (fun i =>
  count (w.store.attendeeGetOccurrences "martijn" (some (dt y m (i + 1))) (some (dt y m (i + 1) + DAY)) none))

example : count (rec0.store.attendeeGetEvents "martijn" (some (dt 2005 3 1)) (some (dt 2005 4 1)) none) = .ok 2 := by
  decide +kernel
example : count (rec0.store.attendeeGetOccurrences "martijn" (some (dt 2005 3 1)) (some (dt 2005 4 1)) none) = .ok 32 := by
  decide +kernel
example : perDay rec0 2005 3 31 =
    [1, 2, 1, 1, 1, 1, 1, 1, 1, 1, 1, 1, 1, 1, 1, 1, 1, 1, 1, 1, 1, 1, 1, 1, 1, 1, 1, 1, 1, 1, 1].map .ok := by decide +kernel
example : perDay rec1 2005 4 30 =
    [0, 0, 1, 0, 0, 0, 0, 0, 0, 1, 0, 0, 0, 0, 0, 0, 1, 0, 0, 0, 0, 0, 0, 1, 0, 0, 0, 0, 0, 0].map .ok := by decide +kernel

/-! ### doc/allday.txt -/

def ad0 := after [.attendeeCreate now "martijn"
  { dtstart := dt 2005 4 10, duration := none, title := "All day extravaganza", allday := true }]
def ad1 := ad0.run [by_ "martijn" (dt 2005 5 1) (days 1) "Entire day" (allday := true)]
def ad2 := ad1.run [by_ "martijn" (dt 2006 10 1) (days 3) "New" (allday := true)]
def ad3 := ad2.run [by_ "martijn" (dt 2005 6 5) (days 1) "Sunday" (allday := true) (recurrence := some ⟨.weekly [], 1, none, none, []⟩)]
/-- Titles and durations of `martijn.getEvents(period)` -/
def adq (w : World) (b e : Int) : Res (List (String × Option Int)) :=
  (w.store.attendeeGetEvents "martijn" (some b) (some e) none).map (fun l => l.map (fun e => (e.title, e.duration)))

example : adq ad0 (dt 2005 4 1) (dt 2005 4 12) = .ok [("All day extravaganza", some (days 1))] := by decide +kernel
example : adq ad0 (dt 2005 4 10) (dt 2005 4 11) = .ok [("All day extravaganza", some (days 1))] := by decide +kernel
example : adq ad0 (dt 2005 4 1) (dt 2005 4 10) = .ok [] := by decide +kernel
example : adq ad0 (dt 2005 4 11) (dt 2005 4 12) = .ok [] := by decide +kernel
example : adq ad1 (dt 2005 5 1) (dt 2005 5 2) = .ok [("Entire day", some (days 1))] := by decide +kernel
example : (ad1.store.attendeeGetOccurrences "martijn" (some (dt 2005 4 1)) (some (dt 2005 6 1)) none).map
    (fun l => l.map (·.original.title)) = .ok ["All day extravaganza", "Entire day"] := by decide +kernel
example : adq ad2 (dt 2006 9 1) (dt 2006 11 1) = .ok [("New", some (days 3))] := by decide +kernel
example : starts (ad3.store.attendeeGetOccurrences "martijn" (some (dt 2005 6 1)) (some (dt 2005 7 1)) none) =
    .ok [dt 2005 6 5, dt 2005 6 12, dt 2005 6 19, dt 2005 6 26] := by decide +kernel

/-! ### doc/meeting.txt -/

def meet := after [
  by_ "martijn" (dt 2005 3 10) (days 1) "Martijn's day off",
  by_ "florent" (dt 2005 3 9 15) (minutes 120) "Some meeting",
  by_ "eric" (dt 2005 3 9 10) (minutes 90) "Another meeting",
  by_ "lennart" (dt 2005 3 11 11) (minutes 60) "Yet another meeting",
  by_ "martijn" (dt 2005 3 9 15 30) (minutes 30) "Another overlapping meeting",
  .invite (uid 2) ["lennart", "florent"], .invite (uid 3) ["florent"]]

example : meet.store.getBlockedPeriods ["martijn", "lennart", "florent", "eric"] (dt 2005 3 9) (dt 2005 3 12) (hours 9) (hours 17) =
    .ok [(dt 2005 3 9, dt 2005 3 9 9), (dt 2005 3 9 10, dt 2005 3 9 11 30), (dt 2005 3 9 15, dt 2005 3 11 9),
         (dt 2005 3 11 11, dt 2005 3 11 12), (dt 2005 3 11 17, dt 2005 3 12)] := by decide +kernel
example : meet.store.getFreePeriods ["martijn", "lennart", "florent", "eric"] (dt 2005 3 9) (dt 2005 3 12) (hours 9) (hours 17) none =
    .ok [(dt 2005 3 9 9, dt 2005 3 9 10), (dt 2005 3 9 11 30, dt 2005 3 9 15), (dt 2005 3 11 9, dt 2005 3 11 11),
         (dt 2005 3 11 12, dt 2005 3 11 17)] := by decide +kernel

def meetB := meet.run [.delete (uid 0), .delete (uid 1), .delete (uid 2), .delete (uid 3), .delete (uid 4)]
example : titles (meetB.store.getEvents (some (dt 2005 3 9)) (some (dt 2005 3 12)) none) = .ok [] := by decide +kernel

def meetC := meetB.run [
  by_ "martijn" (dt 2005 3 9 9) (minutes 60) "A", by_ "martijn" (dt 2005 3 9 10 15) (minutes 60) "B",
  by_ "martijn" (dt 2005 3 9 12) (minutes 90) "C", by_ "martijn" (dt 2005 3 9 16) (minutes 120) "D"]
/-- `m.getFreePeriods([martijn], (b, e), (time(9, 0), time(17, 0)), md)` -/
def free (w : World) (b e : Int) (md : Option Int := none) : Res (List (Int × Int)) :=
  w.store.getFreePeriods ["martijn"] b e (hours 9) (hours 17) md

example : free meetC (dt 2005 3 9) (dt 2005 3 10) =
    .ok [(dt 2005 3 9 10, dt 2005 3 9 10 15), (dt 2005 3 9 11 15, dt 2005 3 9 12), (dt 2005 3 9 13 30, dt 2005 3 9 16)] := by
  decide +kernel
example : free meetC (dt 2005 3 9) (dt 2005 3 10) (some (minutes 30)) =
    .ok [(dt 2005 3 9 11 15, dt 2005 3 9 12), (dt 2005 3 9 13 30, dt 2005 3 9 16)] := by decide +kernel
example : free meetC (dt 2005 3 9) (dt 2005 3 10) (some (minutes 60)) = .ok [(dt 2005 3 9 13 30, dt 2005 3 9 16)] := by
  decide +kernel
example : free meetC (dt 2005 3 9) (dt 2005 3 10) (some (minutes 180)) = .ok [] := by decide +kernel

def meetD := meetC.run [by_ "martijn" (dt 2005 6 9 11) (minutes 60) "A" (recurrence := some ⟨.daily, 1, none, none, []⟩)]
example : free meetD (dt 2005 6 9) (dt 2005 6 11) =
    .ok [(dt 2005 6 9 9, dt 2005 6 9 11), (dt 2005 6 9 12, dt 2005 6 9 17), (dt 2005 6 10 9, dt 2005 6 10 11),
         (dt 2005 6 10 12, dt 2005 6 10 17)] := by decide +kernel

def meetE := (meetD.run [.delete (uid 4)]).run [
  by_ "martijn" (dt 2005 7 9 11) (minutes 60) "A", by_ "martijn" (dt 2005 7 11) (days 1) "B" (allday := true)]
example : free meetE (dt 2005 7 9) (dt 2005 7 13) =
    .ok [(dt 2005 7 9 9, dt 2005 7 9 11), (dt 2005 7 9 12, dt 2005 7 9 17), (dt 2005 7 10 9, dt 2005 7 10 17),
         (dt 2005 7 12 9, dt 2005 7 12 17)] := by decide +kernel

def meetF := meetE.run [by_ "martijn" (dt 2005 8 9 14) (hours 23) "A", by_ "martijn" (dt 2005 9 9 14) (hours 47) "A",
  by_ "martijn" (dt 2006 1 1 14) (hours 4) "A" (transparent := true)]
example : free meetF (dt 2005 8 9) (dt 2005 8 12) =
    .ok [(dt 2005 8 9 9, dt 2005 8 9 14), (dt 2005 8 10 13, dt 2005 8 10 17), (dt 2005 8 11 9, dt 2005 8 11 17)] := by
  decide +kernel
example : free meetF (dt 2005 9 9) (dt 2005 9 12) =
    .ok [(dt 2005 9 9 9, dt 2005 9 9 14), (dt 2005 9 11 13, dt 2005 9 11 17)] := by decide +kernel
example : free meetF (dt 2006 1 1) (dt 2006 1 2) = .ok [(dt 2006 1 1 9, dt 2006 1 1 17)] := by decide +kernel

end CalCore.Conformance
