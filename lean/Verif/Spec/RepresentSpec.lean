import Verif.Spec.RepresentCal
/- How specifications of events, notifications and the ends of calls are represented as values of the interpreter. -/
namespace CalCore.Lang

/-- An attendee with a role and a status in a specification. -/
def ofInvited (L : Listing) (x : Option AttId × String × String) : Val :=
  .tuple [ofOption (ofAttendee L) x.1, .str x.2.1, .str x.2.2]

/-- The attributes of a specification, in the order in which `__init__` sets them. -/
def specAttrs (L : Listing) (s : CalCore.Spec) : List (String × Val) :=
  [("dtstart", .datetime s.dtstart), ("duration", ofOption .delta s.duration), ("title", .str s.title),
   ("description", .str s.description), ("status", .str s.status), ("location", .str s.location),
   ("organizer", ofOption (ofAttendee L) s.organizer), ("recurrence", ofOption ofRule s.recurrence), ("allday", .bool s.allday),
   ("categories", .set ((L.cats s.categories).map .str)), ("transparent", .bool s.transparent), ("access", .str s.access),
   ("document", ofOption .str s.document), ("attendees", .list (s.attendees.map (ofInvited L)))]

/-- A specification of an event. -/
def ofSpec (L : Listing) (s : CalCore.Spec) : Val := .obj "EventSpecification" (specAttrs L s)

/-- How a call ends. -/
def endOf {α : Type} : Res α → Option Stop
  | .ok _ => Option.none
  | .error f => some (ofFault f)

/-- What a call returns, if anything. -/
def given {α : Type} (g : α → Val) : Res α → Val
  | .ok a => g a
  | .error _ => .none

/-- The notification `n` about the event `e`. -/
def ofNote (L : Listing) (e : Event) : Note → Val
  | .created _ => .obj "EventCreatedEvent" [("event", ofEvent L e)]
  | .deleted _ => .obj "EventDeletedEvent" [("event", ofEvent L e)]
  | .modified _ => .obj "EventModifiedEvent" [("event", ofEvent L e)]
  | .participation _ a old new => .obj "EventParticipationChangeEvent" [("event", ofEvent L e), ("attendee", ofAttendee L a),
      ("old_status", ofOption .str old), ("new_status", ofOption .str new)]

/-- The id of the event a notification is about. -/
def Note.uid : Note → Uid
  | .created u => u
  | .deleted u => u
  | .modified u => u
  | .participation u _ _ _ => u

/-- The value `v` is the notification `n`, about some state of the event it names. -/
def Reports (L : Listing) (v : Val) (n : Note) : Prop := ∃ e : Event, v = ofNote L e n ∧ e.uid = Note.uid n

end CalCore.Lang
