import Verif.Model.History
/- Event objects with identity, and subscribers of notifications.

`World` (Model/Storage.lean) treats an event as the value stored under its uid.  Here an event is an object with
an address, the storage maps uids to addresses, methods are called on objects whether they are stored or not,
and every `notify` (`zope.event.notify`, imported by cal.py:36) runs arbitrary code that may call the API again
before the caller goes on.  The functions below are those of Model/Event.lean, Storage.lean, Calendar.lean
with the reads and writes of the object, and the notifications, at the places where the Python code has them. -/
namespace CalCore

/-- The address of an event object. -/
abbrev Ref := Nat

/-- A notification with the object it is about (events.py:25-56: attribute `event`). -/
structure HNote where
  ref : Ref
  note : Note

/-- The event objects, the storage (cal.py:255-258), and everything passed to `notify` so far.
Addresses from `next` on are unused. -/
structure Heap where
  id : String
  host : String
  obj : Ref → Event
  next : Ref
  events : Dict Uid Ref
  log : List HNote

/-- What `notify` does. -/
abbrev Notifier := Heap → HNote → Heap × Res Unit

/-- Assignment to attributes of the object at `r`. -/
def Heap.put (h : Heap) (r : Ref) (e : Event) : Heap :=
  { h with obj := fun r' => if r' = r then e else h.obj r' }

/-- A new object, stored under `uid`: `self._events[unique_id] = event` (cal.py:272-273). -/
def Heap.add (h : Heap) (uid : Uid) (e : Event) : Heap :=
  { h.put h.next e with next := h.next + 1, events := Dict.set h.events uid h.next }

/-- The storage as the queries see it: they read the attributes of the stored objects (cal.py:287-309). -/
def Heap.store (h : Heap) : Storage :=
  { id := h.id, host := h.host, events := h.events.map (fun p => (p.1, h.obj p.2)) }

/-- The heap as a `World`. -/
def Heap.world (h : Heap) : World := { store := h.store, log := h.log.map (·.note) }

/-- `getEvent(event_id)` (cal.py:154-155, 284-285). -/
def Heap.getEvent (h : Heap) (uid : Uid) : Res Ref :=
  match Dict.get? h.events uid with
  | some r => .ok r
  | none => raise .KeyError

section
variable (notify : Notifier)

/-- `createEventFromSpecification` (cal.py:143-146) with `StorageBase.createEvent` (cal.py:267-274).  If the
constructor raises, nobody has a reference to the object. -/
def Heap.createEvent (h : Heap) (now : DateTime) (uid : Option Uid) (spec : Spec) : Heap × Res Ref :=
  let uid := uid.getD (addrspecUniqueId now (h.id ++ "-" ++ toString h.events.length) h.host)
  match newEvent uid spec with
  | .error f => (h, .error f)
  | .ok e =>
    let r := h.next
    match notify (h.add uid e) ⟨r, .created e.uid⟩ with
    | (h, .ok ()) => (h, .ok r)
    | (h, .error f) => (h, .error f)

/-- `StorageManagerBase.deleteEvent(event)` (cal.py:148-150, 276-277). -/
def Heap.deleteEvent (h : Heap) (r : Ref) : Heap × Res Unit :=
  let uid := (h.obj r).uid
  if Dict.has h.events uid then
    notify { h with events := Dict.del h.events uid } ⟨r, .deleted uid⟩
  else (h, raise .KeyError)

/-- `event.setParticipationStatus(a, status)` (cal.py:419-426). -/
def Heap.setStatus (h : Heap) (r : Ref) (a : AttId) (status : Option String) : Heap × Res Unit :=
  if status ∉ statuses then (h, raise .AssertionError)
  else
    let old := (h.obj r).getStatus a
    if old = status then (h, .ok ())
    else match (h.obj r).setStatusRaw a status with
      | (e, .error f) => (h.put r e, .error f)
      | (e, .ok ()) => notify (h.put r e) ⟨r, .participation (h.obj r).uid a old status⟩

/-- `event.setParticipationRole(a, role)` (cal.py:437-440). -/
def Heap.setRole (h : Heap) (r : Ref) (a : AttId) (role : String) : Heap × Res Unit :=
  (h.put r ((h.obj r).setRole a role).1, ((h.obj r).setRole a role).2)

/-- One iteration of `invite` (cal.py:415-417): subscribers run between the status and the role. -/
def Heap.inviteOne (h : Heap) (r : Ref) (a : AttId) : Heap × Res Unit :=
  if (h.obj r).getStatus a = none then
    match h.setStatus notify r a (some "NEEDS-ACTION") with
    | (h, .error f) => (h, .error f)
    | (h, .ok ()) => h.setRole r a "REQ-PARTICIPANT"
  else (h, .ok ())

/-- `event.invite(attendees)` (cal.py:413-417). -/
def Heap.invite (h : Heap) (r : Ref) : List AttId → Heap × Res Unit
  | [] => (h, .ok ())
  | a :: rest =>
    match h.inviteOne notify r a with
    | (h, .error f) => (h, .error f)
    | (h, .ok ()) => h.invite r rest

/-- `event.alldayAdjust()` (cal.py:442-453). -/
def Heap.alldayAdjust (h : Heap) (r : Ref) : Heap × Res Unit := (h.put r (h.obj r).alldayAdjust, .ok ())

/-- `spec.setOnObject(event)` (cal.py:87-105): no notifications, because it uses `_setParticipationStatus`. -/
def Heap.edit (h : Heap) (r : Ref) (spec : Spec) : Heap × Res Unit :=
  (h.put r (spec.setOnObject (h.obj r)).1, (spec.setOnObject (h.obj r)).2)

/-- `_importExistingEvent(uid, e)` (cal.py:736-741). -/
def Heap.importExisting (h : Heap) (tz : LocalTz) (c : Calendar) (src : Source) (uid : Uid) (v : VEvent) :
    Heap × Res Unit :=
  match h.getEvent uid with
  | .error f => (h, .error f)
  | .ok r =>
    match importSpec tz c src v with
    | .error f => (h, .error f)
    | .ok spec =>
      match spec.willModify (h.obj r) with
      | .error f => (h, .error f)
      | .ok false => (h, .ok ())
      | .ok true =>
        match h.edit r spec with
        | (h, .error f) => (h, .error f)
        | (h, .ok ()) => notify h ⟨r, .modified (h.obj r).uid⟩

/-- `_importNewEvent(uid, e)` (cal.py:743-746). -/
def Heap.importNew (h : Heap) (tz : LocalTz) (c : Calendar) (src : Source) (uid : Uid) (v : VEvent) :
    Heap × Res Unit :=
  match importSpec tz c src v with
  | .error f => (h, .error f)
  | .ok spec =>
    match h.createEvent notify 0 (some uid) spec with
    | (h, .ok _) => (h, .ok ())
    | (h, .error f) => (h, .error f)

/-- The body of the loop over the VEVENTs (cal.py:718-728). -/
def Heap.importOne (h : Heap) (tz : LocalTz) (c : Calendar) (src : Source) (known : List Uid) (uid : Uid)
    (v : VEvent) : Heap × Res Unit :=
  if uid ∈ known then h.importExisting notify tz c src uid v
  else if ¬ Dict.has h.events uid then h.importNew notify tz c src uid v
  else (h, .ok ())

/-- The loop over the VEVENTs (cal.py:713-728). -/
def Heap.importLoop (tz : LocalTz) (c : Calendar) (src : Source) (known : List Uid) :
    Heap → List VEvent → Heap × Res (List Uid)
  | h, [] => (h, .ok [])
  | h, v :: rest =>
    match v.uid with
    | none => (h, raise .KeyError)
    | some uid =>
      match h.importOne notify tz c src known uid v with
      | (h, .error f) => (h, .error f)
      | (h, .ok ()) =>
        match Heap.importLoop tz c src known h rest with
        | (h, .ok uids) => (h, .ok (uid :: uids))
        | (h, .error f) => (h, .error f)

/-- The deletion loop (cal.py:733-734). -/
def Heap.removeLoop : Heap → List Uid → Heap × Res Unit
  | h, [] => (h, .ok ())
  | h, uid :: rest =>
    match h.getEvent uid with
    | .error f => (h, .error f)
    | .ok r =>
      match h.deleteEvent notify r with
      | (h, .error f) => (h, .error f)
      | (h, .ok ()) => Heap.removeLoop h rest

/-- `import_` (cal.py:690-734), given the parsed data. -/
def Heap.import_ (h : Heap) (tz : LocalTz) (c : Calendar) (src : Source) (vs : List VEvent)
    (b e : Option DateTime) (cr : Option Criteria) (sync : Bool) : Heap × Res Unit :=
  match c.getEvents src h.store b e cr with
  | .error f => (h, .error f)
  | .ok events =>
    let known := (events.map (·.uid)).dedup
    match Heap.importLoop notify tz c src known h vs with
    | (h, .error f) => (h, .error f)
    | (h, .ok uids) =>
      if sync then Heap.removeLoop notify h (known.filter (fun u => u ∉ uids))
      else (h, .ok ())

/-- One call of the API, methods being called on objects. -/
inductive Call where
  | create (now : DateTime) (uid : Option Uid) (spec : Spec)
  | delete (r : Ref)
  | setStatus (r : Ref) (a : AttId) (st : Option String)
  | setRole (r : Ref) (a : AttId) (role : String)
  | invite (r : Ref) (atts : List AttId)
  | alldayAdjust (r : Ref)
  | edit (r : Ref) (spec : Spec)
  | import_ (tz : LocalTz) (c : Calendar) (src : Source) (vs : List VEvent)
      (b e : Option DateTime) (cr : Option Criteria) (sync : Bool)

/-- Execute one call. -/
def Heap.call (h : Heap) : Call → Heap × Res Unit
  | .create now uid spec =>
    match h.createEvent notify now uid spec with
    | (h, .ok _) => (h, .ok ())
    | (h, .error f) => (h, .error f)
  | .delete r => h.deleteEvent notify r
  | .setStatus r a st => h.setStatus notify r a st
  | .setRole r a role => h.setRole r a role
  | .invite r atts => h.invite notify r atts
  | .alldayAdjust r => h.alldayAdjust r
  | .edit r spec => h.edit r spec
  | .import_ tz c src vs b e cr sync => h.import_ notify tz c src vs b e cr sync

end

/-- The code of a client or subscriber: it makes calls, depending on everything it has seen, may catch their
exceptions, and ends normally or by raising. -/
inductive Prog where
  | done
  | fail (e : PyErr)
  | call (c : Call) (k : Heap → Res Unit → Prog)

/-- Execute client code.  A loop that never ends (`diverge`) cannot be caught. -/
def Heap.exec (notify : Notifier) : Heap → Prog → Heap × Res Unit
  | h, .done => (h, .ok ())
  | h, .fail e => (h, raise e)
  | h, .call c k =>
    match h.call notify c with
    | (h', .error .diverge) => (h', .error .diverge)
    | (h', r) => Heap.exec notify h' (k h' r)

/-- `notify` when nobody has subscribed. -/
def quiet : Notifier := fun h n => ({ h with log := h.log ++ [n] }, .ok ())

/-- `notify` with a subscriber, whose calls notify the subscriber again, at most `fuel` levels deep; deeper
nesting counts as never ending.  (Several subscribers called in turn are one subscriber.) -/
def react (sub : Heap → HNote → Prog) : Nat → Notifier
  | 0 => fun h _ => (h, .error .diverge)
  | fuel + 1 => fun h n =>
    let h := { h with log := h.log ++ [n] }
    Heap.exec (react sub fuel) h (sub h n)

/-- A new storage, without any objects. -/
def freshHeap (id host : String) : Heap :=
  { id, host, obj := blankEvent ∘ fun _ => "", next := 0, events := [], log := [] }

end CalCore
