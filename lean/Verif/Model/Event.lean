import Mathlib.Data.Finset.Basic
import Verif.Model.Recurrent
/- Model of the event part of /repo/src/calcore/cal.py: EventSpecification, EventBase, Occurrence,
inPeriod, roundtimedelta. -/
namespace CalCore

/-- Event ids and attendee ids are strings. -/
abbrev Uid := String
/-- `attendee.getAttendeeId()`; the code uses attendee objects only through their id. -/
abbrev AttId := String

/-- `EventSpecification` (cal.py:47-85).  `attendees` is a list of (attendee, role, status); the
attendee can be Python's None, because `getAttendeeFromSpec` returns None for unknown addresses
(cal.py:778-783, 1067-1069).  `categories` is a `sets.Set`. -/
structure Spec where
  dtstart : DateTime
  duration : Option TimeDelta
  title : String := ""
  description : String := ""
  location : String := ""
  status : String := "TENTATIVE"
  organizer : Option AttId := none
  recurrence : Option Rule := none
  allday : Bool := false
  categories : Finset String := ∅
  transparent : Bool := false
  access : String := "PUBLIC"
  document : Option String := none
  attendees : List (Option AttId × String × String) := []
  deriving DecidableEq

/-- `EventBase`/`Event` (cal.py:392-573, 582-587): the public attributes set from the specification,
and the private participation dictionaries. -/
structure Event where
  uid : Uid
  dtstart : DateTime
  duration : Option TimeDelta
  title : String
  description : String
  location : String
  status : String
  recurrence : Option Rule
  allday : Bool
  categories : Finset String
  transparent : Bool
  access : String
  document : Option String
  organizerId : Option AttId
  pstate : Dict AttId String
  prole : Dict AttId String
  deriving DecidableEq

/-- Notifications sent through `zope.event.notify` (events.py:25-56), recorded in a log; the event
object is identified by its uid.  Subscribers are not modelled. -/
inductive Note where
  | created (uid : Uid)
  | deleted (uid : Uid)
  | modified (uid : Uid)
  | participation (uid : Uid) (attendee : AttId) (old new : Option String)
  deriving DecidableEq, Repr

/-- `getParticipationStatus(attendee)` (cal.py:479-481) -/
def Event.getStatus (e : Event) (a : AttId) : Option String := Dict.get? e.pstate a

/-- `getParticipationRole(attendee)` (cal.py:483-485) -/
def Event.getRole (e : Event) (a : AttId) : Option String := Dict.get? e.prole a

/-- `hasAttendee(attendee)` (cal.py:476-477) -/
def Event.hasAttendee (e : Event) (a : AttId) : Bool := (e.getStatus a).isSome

/-- `inCategory(category)` (cal.py:460-461) -/
def Event.inCategory (e : Event) (c : String) : Bool := decide (c ∈ e.categories)

/-- `_setParticipationStatus(attendee, status)` (cal.py:428-435): deleting an attendee deletes both
dictionary entries, raising KeyError if one is missing — after the first was already deleted. -/
def Event.setStatusRaw (e : Event) (a : AttId) (status : Option String) : Event × Res Unit :=
  match status with
  | none =>
    if Dict.has e.pstate a then
      let e := { e with pstate := Dict.del e.pstate a }
      if Dict.has e.prole a then ({ e with prole := Dict.del e.prole a }, .ok ())
      else (e, raise .KeyError)
    else (e, raise .KeyError)
  | some s => ({ e with pstate := Dict.set e.pstate a s }, .ok ())

/-- The statuses accepted by `setParticipationStatus` (cal.py:420-421). -/
def statuses : List (Option String) :=
  [none, some "NEEDS-ACTION", some "ACCEPTED", some "DECLINED", some "TENTATIVE", some "DELEGATED"]

/-- `setParticipationStatus(attendee, status)` (cal.py:419-426). -/
def Event.setStatus (e : Event) (a : AttId) (status : Option String) :
    Event × List Note × Res Unit :=
  if status ∉ statuses then (e, [], raise .AssertionError)
  else
    let old := e.getStatus a
    if old = status then (e, [], .ok ())
    else match e.setStatusRaw a status with
      | (e', .ok ()) => (e', [.participation e.uid a old status], .ok ())
      | (e', .error f) => (e', [], .error f)

/-- The roles accepted by `setParticipationRole` (cal.py:438-439). -/
def roles : List String := ["CHAIR", "REQ-PARTICIPANT", "OPT-PARTICIPANT", "NON-PARTICIPANT"]

/-- `setParticipationRole(attendee, role)` (cal.py:437-440). -/
def Event.setRole (e : Event) (a : AttId) (role : String) : Event × Res Unit :=
  if role ∉ roles then (e, raise .AssertionError)
  else ({ e with prole := Dict.set e.prole a role }, .ok ())

/-- One iteration of `invite` (cal.py:415-417). -/
def Event.inviteOne (e : Event) (a : AttId) : Event × List Note × Res Unit :=
  if e.getStatus a = none then
    match e.setStatus a (some "NEEDS-ACTION") with
    | (e', n, .error f) => (e', n, .error f)
    | (e', n, .ok ()) =>
      match e'.setRole a "REQ-PARTICIPANT" with
      | (e'', r) => (e'', n, r)
  else (e, [], .ok ())

/-- `invite(attendees)` (cal.py:413-417). -/
def Event.invite (e : Event) : List AttId → Event × List Note × Res Unit
  | [] => (e, [], .ok ())
  | a :: rest =>
    match e.inviteOne a with
    | (e', n, .error f) => (e', n, .error f)
    | (e', n, .ok ()) =>
      match e'.invite rest with
      | (e'', n', r) => (e'', n ++ n', r)

/-- `getAttendeeIds(participation_status, participation_role)` (cal.py:463-474); the role lookup
raises KeyError for an attendee without role. -/
def getAttendeeIdsLoop (role : Dict AttId String) (ps pr : Option String) :
    Dict AttId String → Res (List AttId)
  | [] => .ok []
  | (a, s) :: rest =>
    if (match ps with | some p => decide (p ≠ s) | none => false) then
      getAttendeeIdsLoop role ps pr rest
    else match pr with
      | none => do .ok (a :: (← getAttendeeIdsLoop role ps pr rest))
      | some q => match Dict.get? role a with
        | none => raise .KeyError
        | some q' =>
          if q ≠ q' then getAttendeeIdsLoop role ps pr rest
          else do .ok (a :: (← getAttendeeIdsLoop role ps pr rest))

/-- `getAttendeeIds` (cal.py:463-474). -/
def Event.getAttendeeIds (e : Event) (ps pr : Option String) : Res (List AttId) :=
  getAttendeeIdsLoop e.prole ps pr e.pstate

/-- `alldayAdjust()` (cal.py:442-453).  `duration.days` is floor division. -/
def Event.alldayAdjust (e : Event) : Event :=
  { e with
    dtstart := combine (dtDate e.dtstart) 0
    duration := match e.duration with
      | none => some DAY
      | some dur =>
        let days := dur / DAY
        let rest := dur - days * DAY
        let days := if rest ≠ 0 ∨ days = 0 then days + 1 else days
        some (days * DAY) }

/-- The attribute part of `setOnObject` (cal.py:90-94): every attribute of the specification except
organizer and attendees is assigned when different, i.e. the attribute ends up equal. -/
def Spec.setAttrs (s : Spec) (o : Event) : Event :=
  { o with
    dtstart := s.dtstart, duration := s.duration, title := s.title, description := s.description
    location := s.location, status := s.status, recurrence := s.recurrence, allday := s.allday
    categories := s.categories, transparent := s.transparent, access := s.access
    document := s.document }

/-- The organizer part of `setOnObject` (cal.py:95-100). -/
def Spec.setOrganizer (s : Spec) (o : Event) : Event :=
  match s.organizer with
  | some a =>
    { o with pstate := Dict.set o.pstate a "ACCEPTED", prole := Dict.set o.prole a "REQ-PARTICIPANT"
             organizerId := some a }
  | none => { o with organizerId := none }

/-- The attendee loop of `setOnObject` (cal.py:102-105): role first, then status; a bad role raises
AssertionError, a None attendee AttributeError, leaving what was set so far. -/
def setAttendeesLoop (o : Event) : List (Option AttId × String × String) → Event × Res Unit
  | [] => (o, .ok ())
  | (a, role, status) :: rest =>
    if role ∉ roles then (o, raise .AssertionError)
    else match a with
      | none => (o, raise .AttributeError)
      | some a =>
        setAttendeesLoop
          { o with prole := Dict.set o.prole a role, pstate := Dict.set o.pstate a status } rest

/-- `EventSpecification.setOnObject` (cal.py:87-105). -/
def Spec.setOnObject (s : Spec) (o : Event) : Event × Res Unit :=
  setAttendeesLoop (s.setOrganizer (s.setAttrs o)) s.attendees

/-- `getattr(o, name, _marker) != value` for some attribute name (cal.py:110-113). -/
def Spec.attrsDiffer (s : Spec) (o : Event) : Bool :=
  decide (o.dtstart ≠ s.dtstart) || decide (o.duration ≠ s.duration) || decide (o.title ≠ s.title)
  || decide (o.description ≠ s.description) || decide (o.location ≠ s.location)
  || decide (o.status ≠ s.status) || decide (o.recurrence ≠ s.recurrence)
  || decide (o.allday ≠ s.allday) || decide (o.categories ≠ s.categories)
  || decide (o.transparent ≠ s.transparent) || decide (o.access ≠ s.access)
  || decide (o.document ≠ s.document)

/-- The attendee loop of `willModify` (cal.py:120-124); note that it compares the event's role with
the constant 'REQ-PARTICIPANT', not with the specified role. -/
def willModifyLoop (o : Event) : List (Option AttId × String × String) → Res Bool
  | [] => .ok false
  | (a, _role, status) :: rest =>
    match a with
    | none => raise .AttributeError
    | some a =>
      if o.getStatus a ≠ some status ∨ o.getRole a ≠ some "REQ-PARTICIPANT" then .ok true
      else willModifyLoop o rest

/-- `EventSpecification.willModify` (cal.py:107-124): with no organizer the participation lookups
of line 116 raise AttributeError on None. -/
def Spec.willModify (s : Spec) (o : Event) : Res Bool :=
  if s.attrsDiffer o then .ok true
  else match s.organizer with
    | none => raise .AttributeError
    | some a =>
      if o.organizerId ≠ some a ∨ o.getStatus a ≠ some "ACCEPTED"
          ∨ o.getRole a ≠ some "REQ-PARTICIPANT" then .ok true
      else willModifyLoop o s.attendees

/-- The event object before `spec.setOnObject(self)` in `EventBase.__init__` (cal.py:396-398);
attributes that do not exist yet are given dummy values, all of which are overwritten. -/
def blankEvent (uid : Uid) : Event :=
  { uid, dtstart := 0, duration := none, title := "", description := "", location := ""
    status := "", recurrence := none, allday := false, categories := ∅, transparent := false
    access := "", document := none, organizerId := none, pstate := [], prole := [] }

/-- `Event(unique_id, spec)` (cal.py:395-403): raises what `setOnObject` raises. -/
def newEvent (uid : Uid) (s : Spec) : Res Event :=
  match s.setOnObject (blankEvent uid) with
  | (_, .error f) => .error f
  | (e, .ok ()) => .ok (if e.allday then e.alldayAdjust else e)

/-- `inPeriod(o, (b, e))` (cal.py:1075-1088) for an object with the given start and duration:
`dtstart + duration` is computed only when `b` is not None; it can overflow, or raise TypeError when
the duration is None. -/
def inPeriod (dtstart : DateTime) (duration : Option TimeDelta) (b e : Option DateTime) :
    Res Bool := do
  match b with
  | some b =>
    match duration with
    | none => raise .TypeError
    | some dur =>
      let y ← dtAdd dtstart dur
      if y ≤ b then .ok false
      else match e with
        | some e => .ok (decide (¬ dtstart ≥ e))
        | none => .ok true
  | none =>
    match e with
    | some e => .ok (decide (¬ dtstart ≥ e))
    | none => .ok true

/-- `Occurrence` (cal.py:589-595), polymorphic in the original object. -/
structure Occurrence (α : Type) where
  dtstart : DateTime
  duration : TimeDelta
  original : α
  deriving DecidableEq

/-- Candidate occurrence of `e` at `t` (cal.py:502-504, 512-514). -/
def Event.occAt (e : Event) (t : DateTime) (b en : DateTime) : Res (List (Occurrence Event)) := do
  if ← inPeriod t e.duration (some b) (some en) then
    match e.duration with
    | some dur => .ok [⟨t, dur, e⟩]
    | none => raise .TypeError          -- unreachable: `inPeriod` has raised already
  else .ok []

/-- The loop of `expand` over the recurrence dates (cal.py:508-514). -/
def Event.expandLoop (e : Event) (b en : DateTime) : List Date → Res (List (Occurrence Event))
  | [] => .ok []
  | d :: rest => do
    let here ← e.occAt (combine d (dtTime e.dtstart)) b en
    let more ← e.expandLoop b en rest
    .ok (here ++ more)

/-- `expand(period)` (cal.py:498-515) for a bounded period (the only caller checks
`assertPeriodBounded`).  An exception of the generator surfaces after the dates already yielded have
been processed. -/
def Event.expand (e : Event) (b en : DateTime) : Res (List (Occurrence Event)) :=
  match e.recurrence with
  | none => e.occAt e.dtstart b en
  | some r => do
    let x := r.apply e.dtstart (some (dtDate en))
    let l ← e.expandLoop b en x.1
    x.2
    .ok l

/-- Three-way comparison of Python. -/
def pyCmp (a b : Int) : Int := if a < b then -1 else if a > b then 1 else 0

/-- `EventBase.__cmp__(self, other)` between events (cal.py:490-496).  The second components of the
two tuples are both `self.unique_id`, so only `dtstart` matters. -/
def Event.cmp (self other : Event) (cmpStr : String → String → Int) : Int :=
  let c := pyCmp self.dtstart other.dtstart
  if c ≠ 0 then c else cmpStr self.uid self.uid

/-- `roundtimedelta(td)` (cal.py:1093-1099).  `td.days` is floor division; `td.seconds` and
`td.microseconds` are both zero exactly when the remainder is zero. -/
def roundtimedelta (td : TimeDelta) : TimeDelta :=
  if td % DAY > 0 then (td / DAY + 1) * DAY else td

end CalCore
