import Verif.Model.History
/- Renaming attendees: every attendee id in events, specifications, criteria, calls and so on is replaced. -/
namespace CalCore.Spec

/-- Replace the keys of a dictionary. -/
def renameKeys {ν : Type} (f : AttId → AttId) (d : Dict AttId ν) : Dict AttId ν := d.map (fun p => (f p.1, p.2))

/-- Replace the attendees of an event. -/
def renameEvent (f : AttId → AttId) (e : Event) : Event :=
  { e with pstate := renameKeys f e.pstate, prole := renameKeys f e.prole, organizerId := e.organizerId.map f }

/-- Replace the attendees of a specification. -/
def renameSpec (f : AttId → AttId) (s : Spec) : Spec :=
  { s with organizer := s.organizer.map f, attendees := s.attendees.map (fun x => (x.1.map f, x.2)) }

/-- Replace the attendee of a notification. -/
def renameNote (f : AttId → AttId) : Note → Note
  | .participation u a old new => .participation u (f a) old new
  | n => n

/-- Replace the attendees of criteria. -/
def renameCriteria (f : AttId → AttId) (c : Criteria) : Criteria :=
  { c with attendees := c.attendees.map (·.map f), organizer := c.organizer.map f }

/-- Replace the addresses in iCalendar data. -/
def renameVEvent (f : AttId → AttId) (v : VEvent) : VEvent :=
  { v with organizer := v.organizer.map f, attendees := v.attendees.map (fun a => { a with addr := f a.addr }) }

/-- Replace the attendees of all stored events. -/
def renameStore (f : AttId → AttId) (s : Storage) : Storage :=
  { s with events := s.events.map (fun p => (p.1, renameEvent f p.2)) }

/-- Replace the attendees of a store and the notifications sent so far. -/
def renameWorld (f : AttId → AttId) (w : World) : World := ⟨renameStore f w.store, w.log.map (renameNote f)⟩

/-- Replace the attendees in a call. -/
def renameOp (f : AttId → AttId) : Op → Op
  | .create now uid spec => .create now uid (renameSpec f spec)
  | .attendeeCreate now a spec => .attendeeCreate now (f a) (renameSpec f spec)
  | .delete uid => .delete uid
  | .setStatus uid a st => .setStatus uid (f a) st
  | .setRole uid a role => .setRole uid (f a) role
  | .invite uid atts => .invite uid (atts.map f)
  | .alldayAdjust uid => .alldayAdjust uid
  | .edit uid spec => .edit uid (renameSpec f spec)
  | .import_ tz c src vs b e cr sync =>
    .import_ tz (renameKeys f c) (renameKeys f src) (vs.map (renameVEvent f)) b e (cr.map (renameCriteria f)) sync

/-- Replace the attendees of the event an occurrence belongs to. -/
def renameOcc (f : AttId → AttId) (o : Occurrence Event) : Occurrence Event := { o with original := renameEvent f o.original }

end CalCore.Spec
