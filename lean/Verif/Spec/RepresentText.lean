import Verif.Spec.RepresentExport
/- Representation of what `CalendarBase.export` (cal.py:974-985) builds: the object of the iCalendar library for a whole calendar,
with the properties of the calendar and one component per event, and its text. -/
namespace CalCore.Lang

/-- An `icalendar.Calendar`: its own properties, and the components in it. -/
def ofParts (props : Dict String Val) (comps : List Val) : Val :=
  .obj "icalendar.Calendar" [("props", .list (props.map (fun p => .tuple [.str p.1, p.2]))), ("components", .list comps)]

/-- The text that the iCalendar library makes of an `icalendar.Calendar`: what it is made of is all that is said about it. -/
def textOf (v : Val) : Val := .obj "iCalendar text" [("of", v)]

/-- The text of a calendar with these events, with the properties that every calendar has (cal.py:977-978). -/
def calendarText (vs : List VEvent) : Val :=
  textOf (ofParts [("prodid", .str "-//CalCore //nuxeo.com//"), ("version", .str "2.0")] (vs.map (fun v => ofWritten (writtenProps v))))

end CalCore.Lang
