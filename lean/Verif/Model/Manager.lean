import Verif.Model.History
/- The storage manager and the storages it may be switched between (cal.py:127-316).  `World` is a manager whose
storage was set once, before everything else; here storages can be made and set at any time. -/
namespace CalCore

/-- A `StorageManager`: the storage it uses, None at first (cal.py:131-132); all storages made so far, addressed by
their position; and everything passed to `notify`. -/
structure Manager where
  current : Option Nat
  stores : List Storage
  log : List Note

/-- `StorageManager()` (cal.py:131-132) -/
def newManager : Manager := ⟨none, [], []⟩

/-- One call of a client. -/
inductive ManagerOp where
  /-- `MemoryStorage(id, host)` (cal.py:255-258) -/
  | newStorage (id host : String)
  /-- `manager.setStorage(storage)` (cal.py:136-137), None allowed -/
  | setStorage (i : Option Nat)
  /-- a call of the manager, or of an event just fetched from it, an attendee or a calendar -/
  | call (op : Op)
  /-- `manager.deleteEvent(event)` (cal.py:148-150) with an event object of any storage, given its `unique_id` -/
  | discard (uid : Uid)
  /-- a method of an event object that belongs to storage `i`, whether or not the manager uses that storage -/
  | object (i : Nat) (op : Op)

/-- What a call does when no storage is set: `self._storage` is None and has no methods.  An import looks up the
attendees of the calendar first (cal.py:912-919). -/
def noStorage : Op → Res Unit
  | .import_ _ c src _ _ _ cr _ => do
    let _ ← c.criteria src cr
    raise .AttributeError
  | _ => raise .AttributeError

/-- Methods of event objects. -/
def isMethod : Op → Bool
  | .setStatus .. => true
  | .setRole .. => true
  | .invite .. => true
  | .alldayAdjust .. => true
  | .edit .. => true
  | _ => false

/-- Let a call work on storage `i`. -/
def Manager.on (m : Manager) (i : Nat) (f : World → World × Res Unit) : Manager × Res Unit :=
  match m.stores[i]? with
  | none => (m, raise .AttributeError)          -- does not happen: references are valid
  | some s =>
    let x := f ⟨s, m.log⟩
    ({ m with stores := m.stores.set i x.1.store, log := x.1.log }, x.2)

/-- Execute one call.  References to storages that do not exist, and other calls than methods of events on objects, are
ignored: no client can make them. -/
def Manager.step (m : Manager) : ManagerOp → Manager × Res Unit
  | .newStorage id host => ({ m with stores := m.stores ++ [⟨id, host, []⟩] }, .ok ())
  | .setStorage none => ({ m with current := none }, .ok ())
  | .setStorage (some i) => if i < m.stores.length then ({ m with current := some i }, .ok ()) else (m, .ok ())
  | .call op =>
    match m.current with
    | none => (m, noStorage op)
    | some i => m.on i (fun w => w.step op)
  | .discard uid =>
    match m.current with
    | none => (m, raise .AttributeError)
    | some i => m.on i (fun w => w.deleteEvent uid)
  | .object i op =>
    if i < m.stores.length ∧ isMethod op = true then m.on i (fun w => w.step op) else (m, .ok ())

/-- Execute a sequence of calls. -/
def Manager.run (m : Manager) : List ManagerOp → Manager
  | [] => m
  | op :: rest => Manager.run (m.step op).1 rest

/-- A query of the manager that consists of a query of its storage (cal.py:154-168): `getEvent`, `hasEvent`,
`getEvents`, `getOccurrences`, `getOccurrencesSegmented`. -/
def Manager.query {α : Type} (m : Manager) (f : Storage → Res α) : Res α :=
  match m.current.bind (fun i => m.stores[i]?) with
  | none => raise .AttributeError
  | some s => f s

/-- `getBlockedPeriods` (cal.py:174-217): without attendees the storage is not asked. -/
def Manager.getBlockedPeriods (m : Manager) (atts : List AttId) (b e : DateTime) (tb te : Time) :
    Res (List (DateTime × DateTime)) :=
  match atts with
  | [] => (⟨"", "", []⟩ : Storage).getBlockedPeriods [] b e tb te
  | _ => m.query (fun s => s.getBlockedPeriods atts b e tb te)

end CalCore
