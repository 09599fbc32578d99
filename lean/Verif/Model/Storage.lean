import Verif.Model.Event
import Verif.Model.Util
/- Model of SearchCriteria, StorageBase/MemoryStorage, StorageManagerBase, AttendeeBase and the free
functions used by them, from /repo/src/calcore/cal.py. -/
namespace CalCore

/-- `SearchCriteria` (cal.py:318-334).  `attendees` and `organizer` are given by their ids. -/
structure Criteria where
  attendees : Option (List AttId) := none
  status : Option String := none
  role : Option String := none
  categories : Option (List String) := none
  organizer : Option AttId := none
  deriving DecidableEq

/-- Python `a or b` where `None` and `[]` are false. -/
def orList {α : Type} (a b : Option (List α)) : Option (List α) :=
  match a with
  | some (_ :: _) => a
  | _ => b

/-- Python `a or b` where `None` and `''` are false. -/
def orStr (a b : Option String) : Option String :=
  match a with
  | some s => if s = "" then b else a
  | none => b

/-- `SearchCriteria.clone` (cal.py:336-348).  Attendee objects are always true. -/
def Criteria.clone (c : Criteria) (attendees : Option (List AttId) := none)
    (status : Option String := none) (role : Option String := none)
    (categories : Option (List String) := none) (organizer : Option AttId := none) : Criteria :=
  { attendees := orList c.attendees attendees
    status := orStr c.status status
    role := orStr c.role role
    categories := orList c.categories categories
    organizer := c.organizer.or organizer }

/-- The `for attendee in self.attendees` loop of `_match` (cal.py:367-385). -/
def matchAttendees (st rl : Option String) (e : Event) : List AttId → Bool
  | [] => false
  | a :: rest =>
    if ¬ e.hasAttendee a then matchAttendees st rl e rest
    else if (match st with | some s => decide (some s ≠ e.getStatus a) | none => false) then
      matchAttendees st rl e rest
    else if (match rl with | some r => decide (some r ≠ e.getRole a) | none => false) then
      matchAttendees st rl e rest
    else true

/-- `SearchCriteria._match(event)` (cal.py:352-385). -/
def Criteria.match (c : Criteria) (e : Event) : Bool :=
  if (match c.categories with | some cs => !cs.any e.inCategory | none => false) then false
  else if (match c.organizer with | some o => decide (e.organizerId ≠ some o) | none => false) then
    false
  else match c.attendees with
    | none => true
    | some l => matchAttendees c.status c.role e l

/-- `iso8601(dt)` (cal.py:1119-1121). -/
def iso8601 (t : DateTime) : String :=
  let d := dtDate t
  padNat 4 (dyear d).toNat ++ padNat 2 (dmonth d).toNat ++ padNat 2 (dday d).toNat ++ "T"
    ++ icalTime (dtTime t)

/-- `addrspec_unique_id(unique_maker, hostname)` (cal.py:1113-1117); the clock reading
`datetime.now()` is a parameter. -/
def addrspecUniqueId (now : DateTime) (maker host : String) : String :=
  iso8601 now ++ "-" ++ maker ++ "@" ++ host

/-- `MemoryStorage` (cal.py:250-316). -/
structure Storage where
  id : String
  host : String
  events : Dict Uid Event

/-- The unique id chosen by `createEvent` (cal.py:268-271). -/
def Storage.autoId (s : Storage) (now : DateTime) : Uid :=
  addrspecUniqueId now (s.id ++ "-" ++ toString s.events.length) s.host

/-- `StorageBase.createEvent` (cal.py:267-274). -/
def Storage.createEvent (s : Storage) (now : DateTime) (uid : Option Uid) (spec : Spec) :
    Storage × Res Event :=
  let uid := uid.getD (s.autoId now)
  match newEvent uid spec with
  | .error f => (s, .error f)
  | .ok e => ({ s with events := Dict.set s.events uid e }, .ok e)

/-- `StorageBase.deleteEvent(event)` (cal.py:276-277), given `event.unique_id`. -/
def Storage.deleteEvent (s : Storage) (uid : Uid) : Storage × Res Unit :=
  if Dict.has s.events uid then ({ s with events := Dict.del s.events uid }, .ok ())
  else (s, raise .KeyError)

/-- `StorageBase.getEvent` (cal.py:284-285). -/
def Storage.getEvent (s : Storage) (uid : Uid) : Res Event :=
  match Dict.get? s.events uid with
  | some e => .ok e
  | none => raise .KeyError

/-- `StorageManagerBase.hasEvent` (cal.py:157-162). -/
def Storage.hasEvent (s : Storage) (uid : Uid) : Bool :=
  match s.getEvent uid with
  | .ok _ => true
  | .error _ => false

/-- `_getMatchingEvents` (cal.py:301-309); `NullSearchCriteria` (cal.py:388-390) is the default. -/
def Storage.matching (s : Storage) (c : Option Criteria) : List Event :=
  (Dict.values s.events).filter (fun e => (c.getD {}).match e)

/-- The list comprehension of `getEvents` (cal.py:289). -/
def filterInPeriod (b e : Option DateTime) : List Event → Res (List Event)
  | [] => .ok []
  | ev :: rest => do
    let keep ← inPeriod ev.dtstart ev.duration b e
    let more ← filterInPeriod b e rest
    .ok (if keep then ev :: more else more)

/-- `getEvents(period, search_criteria)` (cal.py:164-165, 287-289). -/
def Storage.getEvents (s : Storage) (b e : Option DateTime) (c : Option Criteria) :
    Res (List Event) := filterInPeriod b e (s.matching c)

/-- The loop of `getOccurrences` (cal.py:294-297). -/
def expandAll (b e : DateTime) : List Event → Res (List (Occurrence Event))
  | [] => .ok []
  | ev :: rest => do
    let here ← ev.expand b e
    let more ← expandAll b e rest
    .ok (here ++ more)

/-- `getOccurrences(period, search_criteria)` (cal.py:167-168, 291-297) with
`assertPeriodBounded` (cal.py:1109-1111). -/
def Storage.getOccurrences (s : Storage) (b e : Option DateTime) (c : Option Criteria) :
    Res (List (Occurrence Event)) :=
  match b, e with
  | some b, some e => expandAll b e (s.matching c)
  | _, _ => raise .AssertionError

/-! ### segmenting -/

/-- The `while 1` loop computing the day borders (cal.py:1139-1143).  `fuel` bounds the iterations;
`segmentOne` gives enough (theorem `borders_ne_diverge`). -/
def borderLoop (en y : DateTime) : Nat → DateTime → Res (List DateTime)
  | 0, _ => .error .diverge
  | fuel + 1, x => do
    let x' ← dtAdd (combine (dtDate x) 0) DAY
    if x' > en ∨ x' > y then .ok []
    else do
      let more ← borderLoop en y fuel x'
      .ok (x' :: more)

/-- The loop popping borders from the end of the list (cal.py:1156-1161); the second list is the
borders in reverse order. -/
def popLoop {α : Type} (b en : DateTime) (orig : α) : DateTime → List DateTime →
    Res (List (Occurrence α))
  | _, [] => .ok []
  | e, s :: rest => do
    let keep ← inPeriod s (some (e - s)) (some b) (some en)
    let more ← popLoop b en orig s rest
    .ok (if keep then ⟨s, e - s, orig⟩ :: more else more)

/-- The list `borders` before popping (cal.py:1145-1153). -/
def bordersOf (b en x0 y : DateTime) (inner : List DateTime) : List DateTime :=
  let front :=
    if b > x0 then b :: inner
    else if inner = [] ∨ inner.head? ≠ some x0 then x0 :: inner
    else inner
  front ++ [if en < y then en else y]

/-- One iteration of the loop of `segmentOccurrences` (cal.py:1132-1161). -/
def segmentOne {α : Type} (b en : DateTime) (occ : Occurrence α) : Res (List (Occurrence α)) := do
  let x := if occ.dtstart < b then b else occ.dtstart
  let y ← dtAdd occ.dtstart occ.duration
  let inner ← borderLoop en y ((en / DAY - x / DAY).toNat + 2) x
  match (bordersOf b en occ.dtstart y inner).reverse with
  | [] => .ok []                         -- unreachable: the list ends with `end` or `y`
  | e :: rest => popLoop b en occ.original e rest

/-- `segmentOccurrences(period, occurrences)` (cal.py:1123-1162). -/
def segmentOccurrences {α : Type} (b en : DateTime) :
    List (Occurrence α) → Res (List (Occurrence α))
  | [] => .ok []
  | occ :: rest => do
    let here ← segmentOne b en occ
    let more ← segmentOccurrences b en rest
    .ok (here ++ more)

/-- `getOccurrencesSegmented` (cal.py:170-172). -/
def Storage.getOccurrencesSegmented (s : Storage) (b e : Option DateTime) (c : Option Criteria) :
    Res (List (Occurrence Event)) := do
  let occs ← s.getOccurrences b e c
  match b, e with
  | some b, some e => segmentOccurrences b e occs
  | _, _ => raise .AssertionError        -- unreachable: `getOccurrences` has raised

/-! ### blocked and free periods -/

/-- Does this segment block the attendee?  (cal.py:184-190) -/
def blocks (e : Event) (a : AttId) : Bool :=
  !(e.transparent || decide (e.status = "CANCELED"))
  && !(decide (e.getStatus a = some "DECLINED") || decide (e.getStatus a = some "DELEGATED"))

/-- The loop over the segments of one attendee (cal.py:182-204).  The dictionary keys are collected
in a list without repetition. -/
def blockLoop (b en : DateTime) (tb te : Time) (a : AttId) :
    List (Occurrence Event) → List (DateTime × DateTime) → Res (List (DateTime × DateTime))
  | [], acc => .ok acc
  | occ :: rest, acc =>
    if ¬ blocks occ.original a then blockLoop b en tb te a rest acc
    else do
      let dtend ← dtAdd occ.dtstart occ.duration
      if dtend < b then blockLoop b en tb te a rest acc
      else if occ.dtstart ≥ en then blockLoop b en tb te a rest acc
      else
        let dayStart := combine (dtDate occ.dtstart) tb
        let dtstart := if occ.dtstart < dayStart then dayStart else occ.dtstart
        let dayEnd := combine (dtDate dtstart) te
        let dtend := if dtend ≥ dayEnd then dayEnd else dtend
        blockLoop b en tb te a rest
          (if (dtstart, dtend) ∈ acc then acc else acc ++ [(dtstart, dtend)])

/-- The loop over the attendees (cal.py:180-204). -/
def Storage.attendeeBlocks (s : Storage) (b en : DateTime) (tb te : Time) :
    List AttId → List (DateTime × DateTime) → Res (List (DateTime × DateTime))
  | [], acc => .ok acc
  | a :: rest, acc => do
    let segs ← s.getOccurrencesSegmented (some b) (some en) (some { attendees := some [a] })
    let acc ← blockLoop b en tb te a segs acc
    s.attendeeBlocks b en tb te rest acc

/-- The loop blocking the time outside the window, day by day (cal.py:211-217).  `fuel` bounds the
iterations; `getBlockedPeriods` gives enough (theorem `windowLoop_ne_diverge`). -/
def windowLoop (tb te : Time) (endD : Date) : Nat → Date → Res (List (DateTime × DateTime))
  | 0, _ => .error .diverge
  | fuel + 1, d =>
    if d ≤ endD then do
      let next ← dateAdd d 1
      let more ← windowLoop tb te endD fuel next
      .ok ((combine d 0, combine d tb) :: (combine d te, combine next 0) :: more)
    else .ok []

/-- `getBlockedPeriods(attendees, period, time_period)` (cal.py:174-218) for a bounded period. -/
def Storage.getBlockedPeriods (s : Storage) (atts : List AttId) (b en : DateTime) (tb te : Time) :
    Res (List (DateTime × DateTime)) := do
  let blocked ← s.attendeeBlocks b en tb te atts []
  let d := dtDate b
  let endD ← if dtTime en = 0 then dateAdd (dtDate en) (-1) else Except.ok (dtDate en)
  let window ← windowLoop tb te endD ((endD - d).toNat + 2) d
  .ok (removeOverlaps (blocked ++ window))

/-- `minimal_duration is None or td >= minimal_duration` (cal.py:237-238, 242-243). -/
def longEnough (md : Option TimeDelta) (td : TimeDelta) : Bool :=
  match md with
  | none => true
  | some m => decide (td ≥ m)

/-- The loop of `getFreePeriods` (cal.py:235-244) with its variable `last_block_begins`. -/
def freeLoop (tb : Time) (ends : DateTime) (md : Option TimeDelta) :
    DateTime → List (DateTime × DateTime) → List (DateTime × DateTime)
  | last, [] => if last ≠ ends ∧ longEnough md (ends - last) = true then [(last, ends)] else []
  | last, (s, e) :: rest =>
    if dtTime s ≥ tb ∧ last ≠ s ∧ longEnough md (s - last) = true then
      (last, s) :: freeLoop tb ends md e rest
    else freeLoop tb ends md e rest

/-- `getFreePeriods(attendees, period, time_period, minimal_duration)` (cal.py:221-245). -/
def Storage.getFreePeriods (s : Storage) (atts : List AttId) (b en : DateTime) (tb te : Time)
    (md : Option TimeDelta) : Res (List (DateTime × DateTime)) := do
  let blocked ← s.getBlockedPeriods atts b en tb te
  let begins := if b < combine (dtDate b) tb then combine (dtDate b) tb else b
  let ends := if en > combine (dtDate en) te then combine (dtDate en) te else en
  .ok (freeLoop tb ends md begins blocked)

/-! ### the storage manager and its notifications -/

/-- The storage behind the storage manager, and everything passed to `notify` so far. -/
structure World where
  store : Storage
  log : List Note

/-- `createEventFromSpecification` (cal.py:139-146). -/
def World.createEvent (w : World) (now : DateTime) (uid : Option Uid) (spec : Spec) :
    World × Res Event :=
  match w.store.createEvent now uid spec with
  | (s, .ok e) => ({ store := s, log := w.log ++ [.created e.uid] }, .ok e)
  | (s, .error f) => ({ w with store := s }, .error f)

/-- `StorageManagerBase.deleteEvent(event)` (cal.py:148-150), given `event.unique_id`. -/
def World.deleteEvent (w : World) (uid : Uid) : World × Res Unit :=
  match w.store.deleteEvent uid with
  | (s, .ok ()) => ({ store := s, log := w.log ++ [.deleted uid] }, .ok ())
  | (s, .error f) => ({ w with store := s }, .error f)

/-- A method call on the event object stored under `uid` (obtained with `getEvent`): objects are
shared, so the stored event changes, even if the method raises half-way. -/
def World.onEvent (w : World) (uid : Uid) (f : Event → Event × List Note × Res Unit) :
    World × Res Unit :=
  match w.store.getEvent uid with
  | .error x => (w, .error x)
  | .ok e =>
    match f e with
    | (e', notes, r) =>
      ({ store := { w.store with events := Dict.set w.store.events uid e' }
         log := w.log ++ notes }, r)

/-! ### attendees -/

/-- `AttendeeBase.createEvent` (cal.py:607-609): the keyword `organizer` is overwritten. -/
def World.attendeeCreateEvent (w : World) (now : DateTime) (a : AttId) (spec : Spec) :
    World × Res Event := w.createEvent now none { spec with organizer := some a }

/-- The criteria used by the attendee queries (cal.py:620-623, 628-631). -/
def attendeeCriteria (a : AttId) (c : Option Criteria) : Criteria :=
  match c with
  | none => { attendees := some [a] }
  | some c => c.clone (attendees := some [a])

/-- `AttendeeBase.getEvents` (cal.py:619-625). -/
def Storage.attendeeGetEvents (s : Storage) (a : AttId) (b e : Option DateTime)
    (c : Option Criteria) : Res (List Event) := s.getEvents b e (some (attendeeCriteria a c))

/-- `AttendeeBase.getOccurrences` (cal.py:627-633). -/
def Storage.attendeeGetOccurrences (s : Storage) (a : AttId) (b e : Option DateTime)
    (c : Option Criteria) : Res (List (Occurrence Event)) :=
  s.getOccurrences b e (some (attendeeCriteria a c))

/-- `AttendeeBase.getOrganizedEvents` (cal.py:635-641). -/
def Storage.getOrganizedEvents (s : Storage) (a : AttId) (c : Option Criteria) :
    Res (List Event) :=
  s.getEvents none none (some (match c with
    | none => { organizer := some a }
    | some c => c.clone (organizer := some a)))

end CalCore
