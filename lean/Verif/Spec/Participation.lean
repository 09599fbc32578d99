import Verif.Model.History
/- Specification vocabulary for participation: what is observed of an event's participants, and what the
attendee list of an event specification says about somebody. -/
namespace CalCore.Spec

/-- Everybody with a status has a role, and conversely. -/
def Consistent (e : Event) : Prop :=
  ∀ a, (∃ s, Dict.get? e.pstate a = some s) ↔ ∃ r, Dict.get? e.prole a = some r

/-- Nothing but statuses and roles differs. -/
def SameButParticipation (e e' : Event) : Prop := { e' with pstate := e.pstate, prole := e.prole } = e

/-- The last entry for `a` in the attendee list of a specification: role and status. -/
def lastEntry (l : List (Option AttId × String × String)) (a : AttId) : Option (String × String) :=
  ((l.filter (fun p => p.1 = some a)).getLast?).map (·.2)

/-- The event under `uid`, if any, has the attendee `a`. -/
def AttendeeOf (w : World) (uid : Uid) (a : AttId) : Prop :=
  ∀ e, Dict.get? w.store.events uid = some e → ∃ s, Dict.get? e.pstate a = some s

/-- A call that sets a status or role only for somebody who already is an attendee (who was invited, or
listed when the event was created). -/
def Polite (w : World) : Op → Prop
  | .setStatus uid a (some _) => AttendeeOf w uid a
  | .setRole uid a _ => AttendeeOf w uid a
  | _ => True

/-- A history of polite calls. -/
def PoliteRun (w : World) : List Op → Prop
  | [] => True
  | op :: rest => Polite w op ∧ PoliteRun (w.step op).1 rest

end CalCore.Spec
