import Verif.Model.Storage
import Verif.Props.Translate
/- Moving everything in a store by a number of days. -/
namespace CalCore.Spec

/-- The event `D` days later, with the days its rule names. -/
def moveEvent (D : Int) (e : Event) : Event :=
  { e with dtstart := e.dtstart + D * DAY, recurrence := e.recurrence.map (movedRule · D) }

/-- All stored events `D` days later. -/
def moveStore (D : Int) (s : Storage) : Storage := { s with events := s.events.map (fun p => (p.1, moveEvent D p.2)) }

/-- An occurrence, or a part of one, `D` days later. -/
def moveOcc (D : Int) (o : Occurrence Event) : Occurrence Event := ⟨o.dtstart + D * DAY, o.duration, moveEvent D o.original⟩

/-- A period `D` days later. -/
def movePeriod (D : Int) (p : DateTime × DateTime) : DateTime × DateTime := (p.1 + D * DAY, p.2 + D * DAY)

/-- Rules that look the same `D` days later: every rule after multiples of 400 years, weekly rules also after
weeks, and daily rules after any number of days. -/
def FitsRule (D : Int) (r : Rule) : Prop :=
  match r.kind with
  | .no | .daily | .basic => True
  | .weekly _ => D % 7 = 0
  | .yearly | .monthly _ => D % 146097 = 0

/-- An event that can be moved by `D` days: both dates exist, and the rule has a positive interval and looks the
same `D` days later. -/
def FitsEvent (D : Int) (e : Event) : Prop :=
  ∀ r, e.recurrence = some r →
    1 ≤ r.interval ∧ FitsRule D r ∧ dtInRange e.dtstart = true ∧ dtInRange (e.dtstart + D * DAY) = true

end CalCore.Spec
