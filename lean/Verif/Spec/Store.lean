import Verif.Model.History
/- Specification of the store as a map from uids to events, of the notification log, and of generated
ids. -/
namespace CalCore.Spec

/-- A map from uids to events. -/
abbrev EventMap := Uid → Option Event

/-- Replace the value at `u`. -/
def EventMap.put (m : EventMap) (u : Uid) (v : Option Event) : EventMap := fun k => if k = u then v else m k

/-- A method call on the event under `u`; KeyError if there is none. -/
def EventMap.on (m : EventMap) (u : Uid) (f : Event → Event × Res Unit) : EventMap × Res Unit :=
  match m u with
  | none => (m, .error (.py .KeyError))
  | some e => (m.put u (some (f e).1), (f e).2)

/-- Creating an event: nothing happens if the constructor raises. -/
def EventMap.create (m : EventMap) (u : Uid) (spec : Spec) : EventMap × Res Unit :=
  match newEvent u spec with
  | .ok e => (m.put u (some e), .ok ())
  | .error f => (m, .error f)

/-- What a call other than `import_` means for a map; `auto` is the id generated, if one is needed. -/
def EventMap.step (m : EventMap) (auto : Uid) : Op → EventMap × Res Unit
  | .create _ uid spec => m.create (uid.getD auto) spec
  | .attendeeCreate _ a spec => m.create auto { spec with organizer := some a }
  | .delete uid =>
    match m uid with
    | none => (m, .error (.py .KeyError))
    | some _ => (m.put uid none, .ok ())
  | .setStatus uid a st => m.on uid (fun e => ((e.setStatus a st).1, (e.setStatus a st).2.2))
  | .setRole uid a role => m.on uid (fun e => e.setRole a role)
  | .invite uid atts => m.on uid (fun e => ((e.invite atts).1, (e.invite atts).2.2))
  | .alldayAdjust uid => m.on uid (fun e => (e.alldayAdjust, .ok ()))
  | .edit uid spec => m.on uid (fun e => spec.setOnObject e)
  | .import_ .. => (m, .ok ())

/-- Not an import. -/
def NoImport : Op → Prop
  | .import_ .. => False
  | _ => True

/-- The clock reading of a call that generates an id. -/
def clock : Op → DateTime
  | .create now _ _ => now
  | .attendeeCreate now _ _ => now
  | _ => 0

/-- A sequence of calls on a map, with the ids generated. -/
def EventMap.run (m : EventMap) : List (Op × Uid) → EventMap
  | [] => m
  | (op, auto) :: rest => EventMap.run (m.step auto op).1 rest

/-- The uids held by a subscriber that adds on `created` and removes on `deleted`. -/
def subscriber : List Note → Uid → Bool
  | [], _ => false
  | n :: older, u =>
    match n with
    | .created v => if u = v then true else subscriber older u
    | .deleted v => if u = v then false else subscriber older u
    | _ => subscriber older u

/-- `u` looks like an id generated by the storage `id` on `host`, with number `n`. -/
def GeneratedId (id host : String) (u : Uid) (n : Nat) : Prop :=
  ∃ now, dtInRange now = true ∧ u = addrspecUniqueId now (id ++ "-" ++ toString n) host

/-- A call that deletes nothing, reads a proper clock, and does not use an explicit id that looks like a
generated one. -/
def KeepsIds (id host : String) : Op → Prop
  | .create now none _ => dtInRange now = true
  | .create _ (some u) _ => ∀ n, ¬ GeneratedId id host u n
  | .attendeeCreate now _ _ => dtInRange now = true
  | .delete _ => False
  | .import_ .. => False
  | _ => True

end CalCore.Spec
