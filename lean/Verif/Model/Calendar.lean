import Verif.Model.Storage
/- Model of CalendarBase (import/export), EventBase.export and SimpleAttendeeSource, from
/repo/src/calcore/cal.py.  The icalendar library is replaced by the data it decodes to: the text
parser is a parameter. -/
namespace CalCore

/-- Decoded DTSTART/DTEND: a date, a floating datetime, or a datetime with a UTC offset. -/
inductive ICalTime where
  | date (d : Date)
  | naive (t : DateTime)
  | aware (t : DateTime) (utcoffset : TimeDelta)
  deriving DecidableEq, Repr

/-- A parsed RRULE: values are lists, as in `icalendar.vRecur`. -/
structure RRule where
  freq : Option String
  byday : Option (List String) := none
  interval : Option (List Int) := none
  count : Option (List Int) := none
  untl : Option (List Until) := none
  deriving DecidableEq

/-- ORGANIZER/ATTENDEE values with their parameters. -/
structure CalAddress where
  addr : AttId
  partstat : Option String := none
  role : Option String := none
  deriving DecidableEq

/-- CATEGORIES: none, one line, or several lines (cal.py:875-890). -/
inductive Categories where
  | absent
  | inline (l : List String)
  | multi (l : List String)
  deriving DecidableEq

/-- The properties of a VEVENT component that the code looks at, decoded. -/
structure VEvent where
  uid : Option Uid
  dtstart : Option ICalTime
  dtend : Option ICalTime := none
  duration : Option TimeDelta := none
  summary : Option String := none
  description : Option String := none
  location : Option String := none
  status : Option String := none
  organizer : Option AttId := none
  attendees : List CalAddress := []
  categories : Categories := .absent
  transp : Option String := none
  cls : Option String := none
  attach : Option String := none
  rrule : Option RRule := none
  deriving DecidableEq

/-- The offset (to be added to UTC) of the local timezone at a UTC instant; `LocalTimezone` of the
icalendar library is a parameter. -/
abbrev LocalTz := DateTime → TimeDelta

/-- `float_datetime(dt)` (cal.py:1101-1107). -/
def floatDatetime (tz : LocalTz) : ICalTime → Res DateTime
  | .date d => .ok (combine d 0)      -- not called on dates
  | .naive t => .ok t
  | .aware t off => do
    let utc ← dtAdd t (-off)
    dtAdd utc (tz utc)

/-- Start conversion of `_getDtstartDuration` (cal.py:820-824): the datetime and the all-day flag. -/
def importStart (tz : LocalTz) : ICalTime → Res (DateTime × Bool)
  | .date d => .ok (combine d 0, true)
  | t => do .ok (← floatDatetime tz t, false)

/-- End conversion of `_getDtstartDuration` (cal.py:826-829). -/
def importEnd (tz : LocalTz) : ICalTime → Res DateTime
  | .date d => .ok (combine d 0)
  | t => floatDatetime tz t

/-- `_getDtstartDuration` (cal.py:802-839).  With DTEND, DURATION is ignored; with neither, the test
`type(dtstart) is date` of line 834 is never true, because `dtstart` was converted to a datetime, so
the duration is zero. -/
def getDtstartDuration (tz : LocalTz) (v : VEvent) : Res (DateTime × TimeDelta × Bool) :=
  match v.dtstart with
  | none => raise .AssertionError
  | some st => do
    let (dtstart, allday) ← importStart tz st
    match v.dtend with
    | some en => do
      let dtend ← importEnd tz en
      .ok (dtstart, dtend - dtstart, allday)
    | none =>
      match v.duration with
      | some dur => .ok (dtstart, dur, allday)
      | none => .ok (dtstart, dtstart - dtstart, allday)

/-- `ical_weekdays.index(day)` (cal.py:656, 852). -/
def weekdayIndex (s : String) : Res Int :=
  match icalWeekdays.findIdx? (· = s) with
  | some i => .ok i
  | none => raise .ValueError

/-- `for day in byday: weekdays.append(ical_weekdays.index(day))` (cal.py:851-852). -/
def weekdayIndexes : List String → Res (List Int)
  | [] => .ok []
  | s :: rest => do
    let i ← weekdayIndex s
    let more ← weekdayIndexes rest
    .ok (i :: more)

/-- What `_getRecurrenceRule` raises if the variable `r` is not bound (cal.py:864-873).  The first of INTERVAL, COUNT and
UNTIL that is there decides: its first value is read before `r` is. -/
def unboundRule (rr : RRule) : PyErr :=
  match rr.interval, rr.count, rr.untl with
  | some [], _, _ => .IndexError
  | none, some [], _ => .IndexError
  | none, none, some [] => .IndexError
  | _, _, _ => .UnboundLocalError

/-- The class dispatch of `_getRecurrenceRule` (cal.py:842-863); for an unknown FREQ the variable
`r` stays unbound. -/
def ruleOfFreq (rr : RRule) (freq : String) : Res Rule :=
  if freq = "DAILY" then Rule.new .daily
  else if freq = "YEARLY" then Rule.new .yearly
  else if freq = "WEEKLY" then do
    let wds ← weekdayIndexes (rr.byday.getD [])
    Rule.new (.weekly wds)
  else if freq = "MONTHLY" then
    match rr.byday with
    | none => Rule.new (.monthly .monthday)
    | some l =>
      match l with
      | [] => raise .IndexError
      | s :: _ =>
        match s.toList with
        | [] => raise .IndexError
        | ch :: _ => Rule.new (.monthly (if ch = '-' then .lastweekday else .weekday))
  else raise (unboundRule rr)

/-- `x[0]` where `x` is the value of an optional RRULE part. -/
def firstOf {α : Type} : Option (List α) → Res (Option α)
  | none => .ok none
  | some [] => raise .IndexError
  | some (x :: _) => .ok (some x)

/-- `_getRecurrenceRule(rrule)` (cal.py:841-873): interval, count and until are assigned after
construction, without validation. -/
def getRecurrenceRule (rr : RRule) : Res Rule :=
  match rr.freq with
  | none => raise .KeyError
  | some freq => do
    let r ← ruleOfFreq rr freq
    let interval ← firstOf rr.interval
    let count ← firstOf rr.count
    let untl ← firstOf rr.untl
    .ok { r with
      interval := interval.getD r.interval
      count := count.or r.count
      untl := untl.or r.untl }

/-- `_getCategories` (cal.py:875-890). -/
def getCategories : Categories → Finset String
  | .absent => ∅
  | .inline l => l.toFinset
  | .multi l => l.toFinset

/-- `_repairText(text)` (cal.py:892-899) on the list of characters.
`'\r\n'.join(text.split('\n'))` replaces every '\n' by '\r\n'. -/
def repairText (text : List Char) : List Char :=
  match text.findIdx? (· = '\n') with
  | none => text
  | some i =>
    if i > 0 then
      if text[i - 1]? ≠ some '\r' then
        text.flatMap (fun c => if c = '\n' then ['\r', '\n'] else [c])
      else text
    else text

/-- An attendee of `SimpleAttendeeSource`. -/
structure Attendee where
  name : String
  type : String

/-- `SimpleAttendeeSource._attendees` (cal.py:1006-1069); `createIndividual`/`createRoom` set an
entry. -/
abbrev Source := Dict AttId Attendee

/-- `createIndividual` (cal.py:1019-1024) -/
def Source.createIndividual (s : Source) (id : AttId) (name : String) : Source :=
  Dict.set s id ⟨name, "INDIVIDUAL"⟩

/-- `createRoom` (cal.py:1026-1031) -/
def Source.createRoom (s : Source) (id : AttId) (name : String) : Source :=
  Dict.set s id ⟨name, "ROOM"⟩

/-- `source.getAttendee(id)` (cal.py:1035-1036); attendees are represented by their id. -/
def Source.getAttendee (s : Source) (a : AttId) : Res AttId :=
  if Dict.has s a then .ok a else raise .KeyError

/-- `getAttendeeFromSpec(vcaladdress)` (cal.py:1067-1069). -/
def Source.fromSpec (s : Source) (addr : AttId) : Option AttId :=
  if Dict.has s addr then some addr else none

/-- `CalendarBase._attendees` (cal.py:663-667). -/
abbrev Calendar := Dict AttId Unit

/-- `addAttendee` (cal.py:671-672) -/
def Calendar.add (c : Calendar) (a : AttId) : Calendar := Dict.set c a ()

/-- `removeAttendee` (cal.py:674-675) -/
def Calendar.remove (c : Calendar) (a : AttId) : Calendar × Res Unit :=
  if Dict.has c a then (Dict.del c a, .ok ()) else (c, raise .KeyError)

/-- `getMainAttendeeId` (cal.py:677-681): the first key in dictionary order. -/
def Calendar.mainId (c : Calendar) : Option AttId := (Dict.keys c).head?

/-- `getMainAttendee` (cal.py:683-688), also `_getDefaultOrganizer` (cal.py:796-797). -/
def Calendar.main (c : Calendar) (src : Source) : Res (Option AttId) :=
  match c.mainId with
  | none => .ok none
  | some a => do .ok (some (← src.getAttendee a))

/-- Lookup loop of `getAttendees` (cal.py:970-971). -/
def lookupAll (src : Source) : List AttId → Res (List AttId)
  | [] => .ok []
  | a :: rest => do
    let x ← src.getAttendee a
    let more ← lookupAll src rest
    .ok (x :: more)

/-- `CalendarBase.getAttendees` (cal.py:967-972). -/
def Calendar.getAttendees (c : Calendar) (src : Source) : Res (List AttId) :=
  lookupAll src (Dict.keys c)

/-- The criteria of the calendar queries (cal.py:914-918, 923-927). -/
def Calendar.criteria (c : Calendar) (src : Source) (cr : Option Criteria) : Res Criteria := do
  let l ← c.getAttendees src
  match cr with
  | some cr => .ok (cr.clone (attendees := some l))
  | none => .ok { attendees := some l }

/-- `CalendarBase.getEvents` (cal.py:912-919). -/
def Calendar.getEvents (c : Calendar) (src : Source) (s : Storage) (b e : Option DateTime)
    (cr : Option Criteria) : Res (List Event) := do
  let cr ← c.criteria src cr
  s.getEvents b e (some cr)

/-- `CalendarBase.getOccurrences` (cal.py:921-928). -/
def Calendar.getOccurrences (c : Calendar) (src : Source) (s : Storage) (b e : Option DateTime)
    (cr : Option Criteria) : Res (List (Occurrence Event)) := do
  let cr ← c.criteria src cr
  s.getOccurrences b e (some cr)

/-- `CalendarBase.getOccurrencesSegmented` (cal.py:930-935). -/
def Calendar.getOccurrencesSegmented (c : Calendar) (src : Source) (s : Storage)
    (b e : Option DateTime) (cr : Option Criteria) : Res (List (Occurrence Event)) := do
  let occs ← c.getOccurrences src s b e cr
  match b, e with
  | some b, some e => segmentOccurrences b e occs
  | _, _ => raise .AssertionError        -- unreachable: `getOccurrences` has raised

/-- `getEventsInDay(date)` (cal.py:937-941). -/
def Calendar.getEventsInDay (c : Calendar) (src : Source) (s : Storage) (d : Date)
    (cr : Option Criteria) : Res (List Event) := do
  let en ← dtAdd (combine d 0) DAY
  c.getEvents src s (some (combine d 0)) (some en) cr

/-- `getOccurrencesInDay(date)` (cal.py:943-954). -/
def Calendar.getOccurrencesInDay (c : Calendar) (src : Source) (s : Storage) (d : Date)
    (cr : Option Criteria) : Res (List (Occurrence Event)) := do
  let en ← dtAdd (combine d 0) DAY
  c.getOccurrencesSegmented src s (some (combine d 0)) (some en) cr

/-- The attendee tuples of `_importEventSpecification` (cal.py:778-782). -/
def importAttendee (src : Source) (a : CalAddress) : Option AttId × String × String :=
  (src.fromSpec a.addr, a.role.getD "REQ-PARTICIPANT", a.partstat.getD "NEEDS-ACTION")

/-- The organizer of `_importEventSpecification` (cal.py:763-769). -/
def importOrganizer (c : Calendar) (src : Source) (v : VEvent) : Res (Option AttId) :=
  match v.organizer.bind src.fromSpec with
  | some a => .ok (some a)
  | none => c.main src

/-- The RRULE part of `_importEventSpecification` (cal.py:789-793). -/
def importRule : Option RRule → Res (Option Rule)
  | none => .ok none
  | some rr => do .ok (some (← getRecurrenceRule rr))

/-- `_importEventSpecification(e)` (cal.py:748-794). -/
def importSpec (tz : LocalTz) (c : Calendar) (src : Source) (v : VEvent) : Res Spec := do
  let (dtstart, duration, allday) ← getDtstartDuration tz v
  let organizer ← importOrganizer c src v
  let recurrence ← importRule v.rrule
  .ok {
    dtstart, duration := some duration, allday
    title := v.summary.getD "", description := v.description.getD ""
    location := v.location.getD "", status := v.status.getD "TENTATIVE"
    organizer
    attendees := v.attendees.map (importAttendee src)
    categories := getCategories v.categories
    transparent := decide (v.transp.getD "OPAQUE" = "TRANSPARENT")
    access := v.cls.getD "PUBLIC", document := v.attach
    recurrence }

/-- `_importExistingEvent(uid, e)` (cal.py:736-741). -/
def World.importExisting (w : World) (tz : LocalTz) (c : Calendar) (src : Source) (uid : Uid)
    (v : VEvent) : World × Res Unit :=
  match w.store.getEvent uid with
  | .error f => (w, .error f)
  | .ok e =>
    match importSpec tz c src v with
    | .error f => (w, .error f)
    | .ok spec =>
      match spec.willModify e with
      | .error f => (w, .error f)
      | .ok false => (w, .ok ())
      | .ok true =>
        match spec.setOnObject e with
        | (e', r) =>
          let s := { w.store with events := Dict.set w.store.events uid e' }
          match r with
          | .error f => ({ w with store := s }, .error f)
          | .ok () => ({ store := s, log := w.log ++ [.modified e'.uid] }, .ok ())

/-- `_importNewEvent(uid, e)` (cal.py:743-746).  The clock is not read when the uid is given. -/
def World.importNew (w : World) (tz : LocalTz) (c : Calendar) (src : Source) (uid : Uid)
    (v : VEvent) : World × Res Unit :=
  match importSpec tz c src v with
  | .error f => (w, .error f)
  | .ok spec =>
    match w.createEvent 0 (some uid) spec with
    | (w', .ok _) => (w', .ok ())
    | (w', .error f) => (w', .error f)

/-- The loop over the VEVENTs (cal.py:713-728).  On success returns the set `ical_uids`. -/
def World.importLoop (tz : LocalTz) (c : Calendar) (src : Source) (known : List Uid) :
    World → List VEvent → World × Res (List Uid)
  | w, [] => (w, .ok [])
  | w, v :: rest =>
    match v.uid with
    | none => (w, raise .KeyError)
    | some uid =>
      let x :=
        if uid ∈ known then w.importExisting tz c src uid v
        else if ¬ w.store.hasEvent uid then w.importNew tz c src uid v
        else (w, .ok ())
      match x with
      | (w', .error f) => (w', .error f)
      | (w', .ok ()) =>
        match World.importLoop tz c src known w' rest with
        | (w'', .ok uids) => (w'', .ok (uid :: uids))
        | (w'', .error f) => (w'', .error f)

/-- The deletion loop (cal.py:733-734): `self._deleteEvent(self.getEvent(uid))`. -/
def World.removeLoop : World → List Uid → World × Res Unit
  | w, [] => (w, .ok ())
  | w, uid :: rest =>
    match w.store.getEvent uid with
    | .error f => (w, .error f)
    | .ok e =>
      match w.deleteEvent e.uid with
      | (w', .error f) => (w', .error f)
      | (w', .ok ()) => World.removeLoop w' rest

/-- `import_(text, period, search_criteria, synchronize)` (cal.py:690-734).  `parse` stands for
`icalendar.Calendar.from_string` followed by `walk('VEVENT')` and decoding; `none` is its result
None.  The sets of uids are lists without repetition; their order is arbitrary. -/
def World.import_ (w : World) (parse : List Char → Res (Option (List VEvent))) (tz : LocalTz)
    (c : Calendar) (src : Source) (text : List Char) (b e : Option DateTime)
    (cr : Option Criteria) (sync : Bool) : World × Res Unit :=
  let text := repairText text
  match c.getEvents src w.store b e cr with
  | .error f => (w, .error f)
  | .ok events =>
    let known := (events.map (·.uid)).dedup
    match parse text with
    | .error f => (w, .error f)
    | .ok none => (w, .ok ())
    | .ok (some vs) =>
      match World.importLoop tz c src known w vs with
      | (w', .error f) => (w', .error f)
      | (w', .ok uids) =>
        if sync then World.removeLoop w' (known.filter (fun u => u ∉ uids))
        else (w', .ok ())

/-! ### export -/

/-- The RRULE of `export` (cal.py:543-550): frequency, interval, count, until — nothing else. -/
def exportRule (r : Rule) : RRule :=
  { freq := r.kind.icalFreq, interval := some [r.interval]
    count := r.count.map (fun c => [c]), untl := r.untl.map (fun u => [u]) }

/-- `EventBase.export(private)` (cal.py:517-572), as the properties it puts on the component.
`categories` is added when the set is non-empty; `list(self.categories)` is a list with these
elements in some order, a parameter here (`order`). -/
def Event.export (e : Event) (priv : Bool) (order : Finset String → List String) : Res VEvent :=
  match e.duration with
  | none => raise .TypeError
  | some dur => do
    let dtend ← dtAdd e.dtstart dur
    let base : VEvent := {
      uid := some e.uid
      dtstart := some (if e.allday then .date (dtDate e.dtstart) else .naive e.dtstart)
      dtend := some (if e.allday then .date (dtDate dtend) else .naive dtend)
      rrule := e.recurrence.map exportRule
      transp := some (if e.transparent then "TRANSPARENT" else "OPAQUE")
      cls := some e.access }
    if priv then .ok { base with summary := some "Private Event" }
    else .ok { base with
      summary := some e.title
      description := if e.description = "" then none else some e.description
      location := if e.location = "" then none else some e.location
      categories := if e.categories = ∅ then .absent else .inline (order e.categories)
      attach := match e.document with
        | some d => if d = "" then none else some d
        | none => none
      status := some e.status }

/-- Export loop (cal.py:980-982). -/
def exportAll (order : Finset String → List String) : List Event → Res (List VEvent)
  | [] => .ok []
  | e :: rest => do
    let v ← e.export false order
    let more ← exportAll order rest
    .ok (v :: more)

/-- `CalendarBase.export` (cal.py:974-985), up to serialisation to text. -/
def Calendar.export (c : Calendar) (src : Source) (s : Storage) (b e : Option DateTime)
    (cr : Option Criteria) (order : Finset String → List String) : Res (List VEvent) := do
  let events ← c.getEvents src s b e cr
  exportAll order events

end CalCore
