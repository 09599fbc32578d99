import Verif.Model.Calendar
/- Sequences of API calls, used to state properties over all histories.  Every operation is one of
the modelled functions; nothing here models further code of /repo. -/
namespace CalCore

/-- One call of the API.  Events are addressed by the uid under which they are stored (the caller
obtains the object with `getEvent`). -/
inductive Op where
  /-- `manager.createEvent(unique_id=uid, **spec)` (cal.py:139-146) -/
  | create (now : DateTime) (uid : Option Uid) (spec : Spec)
  /-- `attendee.createEvent(**spec)` (cal.py:607-609) -/
  | attendeeCreate (now : DateTime) (a : AttId) (spec : Spec)
  /-- `manager.deleteEvent(manager.getEvent(uid))` (cal.py:148-150) -/
  | delete (uid : Uid)
  /-- `event.setParticipationStatus(a, st)` (cal.py:419-426) -/
  | setStatus (uid : Uid) (a : AttId) (st : Option String)
  /-- `event.setParticipationRole(a, role)` (cal.py:437-440) -/
  | setRole (uid : Uid) (a : AttId) (role : String)
  /-- `event.invite(atts)` (cal.py:413-417) -/
  | invite (uid : Uid) (atts : List AttId)
  /-- `event.alldayAdjust()` (cal.py:442-453) -/
  | alldayAdjust (uid : Uid)
  /-- `spec.setOnObject(event)` (cal.py:87-105) -/
  | edit (uid : Uid) (spec : Spec)
  /-- `calendar.import_(...)` (cal.py:690-734); the parsed data are given directly -/
  | import_ (tz : LocalTz) (c : Calendar) (src : Source) (vs : List VEvent)
      (b e : Option DateTime) (cr : Option Criteria) (sync : Bool)

/-- Forget the value returned by a call. -/
def dropRes {α : Type} (x : World × Res α) : World × Res Unit := (x.1, x.2.map (fun _ => ()))

/-- Execute one call. -/
def World.step (w : World) : Op → World × Res Unit
  | .create now uid spec => dropRes (w.createEvent now uid spec)
  | .attendeeCreate now a spec => dropRes (w.attendeeCreateEvent now a spec)
  | .delete uid =>
    match w.store.getEvent uid with
    | .error f => (w, .error f)
    | .ok e => w.deleteEvent e.uid
  | .setStatus uid a st => w.onEvent uid (fun e => e.setStatus a st)
  | .setRole uid a role =>
    w.onEvent uid (fun e => let x := e.setRole a role; (x.1, [], x.2))
  | .invite uid atts => w.onEvent uid (fun e => e.invite atts)
  | .alldayAdjust uid => w.onEvent uid (fun e => (e.alldayAdjust, [], .ok ()))
  | .edit uid spec =>
    w.onEvent uid (fun e => let x := spec.setOnObject e; (x.1, [], x.2))
  | .import_ tz c src vs b e cr sync =>
    w.import_ (fun _ => .ok (some vs)) tz c src [] b e cr sync

/-- Execute a sequence of calls; a call that raises does not stop the client. -/
def World.run (w : World) : List Op → World
  | [] => w
  | op :: rest => World.run (w.step op).1 rest

/-- A new `MemoryStorage` behind a new storage manager. -/
def freshWorld (id host : String) : World := { store := { id, host, events := [] }, log := [] }

end CalCore
