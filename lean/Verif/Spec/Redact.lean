import Verif.Model.History
/- Blotting out texts: title, description, location, access class, document and categories of events. -/
namespace CalCore.Spec

/-- Blot out the texts of an event. -/
def redactEvent (e : Event) : Event :=
  { e with title := "", description := "", location := "", access := "", document := none, categories := ∅ }

/-- Blot out the texts of a specification. -/
def redactSpec (s : Spec) : Spec :=
  { s with title := "", description := "", location := "", access := "", document := none, categories := ∅ }

/-- Blot out the texts of all stored events. -/
def redactStore (s : Storage) : Storage := { s with events := s.events.map (fun p => (p.1, redactEvent p.2)) }

/-- Blot out the texts in a world; notifications contain none. -/
def redactWorld (w : World) : World := ⟨redactStore w.store, w.log⟩

/-- Blot out the texts in a call. -/
def redactOp : Op → Op
  | .create now uid spec => .create now uid (redactSpec spec)
  | .attendeeCreate now a spec => .attendeeCreate now a (redactSpec spec)
  | .edit uid spec => .edit uid (redactSpec spec)
  | op => op

/-- Blot out the texts of the event an occurrence belongs to. -/
def redactOcc (o : Occurrence Event) : Occurrence Event := { o with original := redactEvent o.original }

end CalCore.Spec
