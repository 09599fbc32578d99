import Mathlib.Data.List.Forall2
import Verif.Model.History
/- The same data with dictionaries walked in another order.  Python 2 does not specify the order, and every change of a
dictionary may change it. -/
namespace CalCore.Spec

/-- The same list in another order, where entries correspond by `R`. -/
def Reordered {α β : Type} (R : α → β → Prop) (l : List α) (l' : List β) : Prop :=
  ∃ m, l.Perm m ∧ List.Forall₂ R m l'

/-- The same event, its participation dictionaries being in another order. -/
structure SameEvent (e f : Event) : Prop where
  attributes : { f with pstate := e.pstate, prole := e.prole } = e
  status : e.pstate.Perm f.pstate
  role : e.prole.Perm f.prole

/-- The same storage, all dictionaries being in another order. -/
structure SameStore (s t : Storage) : Prop where
  id : s.id = t.id
  host : s.host = t.host
  events : Reordered (fun p q : Uid × Event => p.1 = q.1 ∧ SameEvent p.2 q.2) s.events t.events

/-- The same occurrence of the same event. -/
structure SameOccurrence (o p : Occurrence Event) : Prop where
  dtstart : o.dtstart = p.dtstart
  duration : o.duration = p.duration
  original : SameEvent o.original p.original

/-- Both answers are lists with the same entries, or both calls fail (the order may decide which of several
exceptions is raised). -/
def SameAnswer {α β : Type} (R : α → β → Prop) (r : Res (List α)) (r' : Res (List β)) : Prop :=
  (∃ l l', r = .ok l ∧ r' = .ok l' ∧ Reordered R l l') ∨ ∃ f f', r = .error f ∧ r' = .error f'

/-- The same calendar, its dictionary being in another order with the same attendee first (who is the default
organizer of imported events). -/
def SameCalendar (c c' : Calendar) : Prop := c.Perm c' ∧ c.mainId = c'.mainId

/-- The same call; calendars may be reordered. -/
def SameCall : Op → Op → Prop
  | .import_ tz c src vs b e cr sync, .import_ tz' c' src' vs' b' e' cr' sync' =>
    SameCalendar c c' ∧ tz = tz' ∧ src = src' ∧ vs = vs' ∧ b = b' ∧ e = e' ∧ cr = cr' ∧ sync = sync'
  | op, op' => op = op'

/-- No import that deletes. -/
def NoSync : Op → Prop
  | .import_ _ _ _ _ _ _ _ sync => sync = false
  | _ => True

/-- `w'` can be reached from `w` by the calls if all dictionaries are reordered arbitrarily before each call. -/
inductive ShuffledRun : World → List Op → World → Prop
  | done (w : World) : ShuffledRun w [] w
  | call {w : World} {t : Storage} {op op' : Op} {ops : List Op} {w' : World} :
      SameStore w.store t → SameCall op op' → ShuffledRun (World.step ⟨t, w.log⟩ op').1 ops w' →
      ShuffledRun w (op :: ops) w'

end CalCore.Spec
