import Verif.Spec.Represent
import Verif.Model.Calendar
/- How events, occurrences, criteria and storages of the model are represented as objects of the interpreter. -/
namespace CalCore.Lang

/-- What the model leaves open: in which order a set lists its elements, and the attributes of an attendee other than
its id. -/
structure Listing where
  cats : Finset String → List String
  person : AttId → List (String × Val)

/-- Every set is listed with exactly its elements. -/
def Listing.Faithful (L : Listing) : Prop := ∀ s c, c ∈ L.cats s ↔ c ∈ s

/-- A dictionary from strings to strings. -/
def ofDict (d : Dict String String) : Val := .dict (d.map (fun p => (.str p.1, .str p.2)))

/-- An attendee. -/
def ofAttendee (L : Listing) (a : AttId) : Val := .obj "Attendee" (("_attendee_id", .str a) :: L.person a)

/-- The attributes of an event. -/
def eventAttrs (L : Listing) (e : Event) : List (String × Val) :=
  [("unique_id", .str e.uid), ("_participation_state", ofDict e.pstate), ("_participation_role", ofDict e.prole),
   ("dtstart", .datetime e.dtstart), ("duration", ofOption .delta e.duration), ("title", .str e.title),
   ("description", .str e.description), ("status", .str e.status), ("location", .str e.location),
   ("recurrence", ofOption ofRule e.recurrence), ("allday", .bool e.allday),
   ("categories", .set ((L.cats e.categories).map .str)), ("transparent", .bool e.transparent),
   ("access", .str e.access), ("document", ofOption .str e.document), ("_organizer_id", ofOption .str e.organizerId)]

/-- An event. -/
def ofEvent (L : Listing) (e : Event) : Val := .obj "Event" (eventAttrs L e)

/-- An occurrence, of any kind of original. -/
def ofOcc {α : Type} (f : α → Val) (o : Occurrence α) : Val :=
  .obj "Occurrence" [("dtstart", .datetime o.dtstart), ("duration", .delta o.duration), ("original", f o.original)]

/-- A period. -/
def ofPeriod (b e : Option DateTime) : Val := .tuple [ofOption .datetime b, ofOption .datetime e]

/-- The attributes of criteria. -/
def criteriaAttrs (L : Listing) (c : Criteria) : List (String × Val) :=
  [("attendees", ofOption (fun l => .list (l.map (ofAttendee L))) c.attendees),
   ("participation_status", ofOption .str c.status), ("participation_role", ofOption .str c.role),
   ("categories", ofOption (fun l => .list (l.map .str)) c.categories), ("organizer", ofOption (ofAttendee L) c.organizer)]

/-- Criteria. -/
def ofCriteria (L : Listing) (c : Criteria) : Val := .obj "SearchCriteria" (criteriaAttrs L c)

/-- A storage. -/
def ofStorage (L : Listing) (s : Storage) : Val :=
  .obj "MemoryStorage" [("_storage_id", .str s.id), ("_events", .dict (s.events.map (fun p => (.str p.1, ofEvent L p.2)))),
    ("_hostname", .str s.host)]

/-- A storage manager that uses the storage. -/
def ofManager (L : Listing) (s : Storage) : Val := .obj "StorageManager" [("_storage", ofStorage L s)]

/-- An attendee source whose attendees use the storage manager. -/
def ofSource (L : Listing) (s : Storage) (src : CalCore.Source) : Val :=
  .obj "SimpleAttendeeSource" [("_storage_manager", ofManager L s),
    ("_attendees", .dict (src.map (fun p => (.str p.1, ofAttendee L p.1))))]

/-- A calendar of some attendees. -/
def ofCalendar (L : Listing) (s : Storage) (src : CalCore.Source) (c : Calendar) : Val :=
  .obj "Calendar" [("_attendees", .dict (c.map (fun p => (.str p.1, .none)))), ("_storage_manager", ofManager L s),
    ("_attendee_source", ofSource L s src)]

/-- Attendees use the storage manager. -/
def Listing.Uses (L : Listing) (s : Storage) (a : AttId) : Prop :=
  getAttr "_storage_manager" (L.person a) = .ok (ofManager L s)

end CalCore.Lang
