import Verif.Spec.RepresentSpec
import Verif.Model.Calendar
/- How parsed iCalendar data are represented as values of the interpreter. -/
namespace CalCore.Lang

/-- What `astimezone` gives for a datetime with a timezone. -/
def inLocal : Res DateTime → Val
  | .ok t => .gen [.datetime t] Option.none
  | .error f => .gen [] (some (ofFault f))

/-- The value of DTSTART or DTEND; `tz` gives the local offset at a UTC instant. -/
def ofTime (tz : LocalTz) : ICalTime → Val
  | .date d => .date d
  | .naive t => .datetime t
  | .aware t off => .obj "AwareDatetime" [("local", inLocal (do
      let utc ← dtAdd t (-off)
      dtAdd utc (tz utc)))]

/-- A dictionary with strings as keys. -/
def ofMap (d : Dict String Val) : Val := .dict (d.map (fun p => (.str p.1, p.2)))

/-- A component with its properties. -/
def ofComponent (d : Dict String Val) : Val := .obj "Component" [("props", ofMap d)]

/-- The value of ATTENDEE: an address, with parameters. -/
def IsAddress (a : CalAddress) (v : Val) : Prop :=
  ∃ ps : Dict String Val, v = .obj "vCalAddress" [("value", .str a.addr), ("params", ofMap ps)] ∧
    Dict.get? ps "PARTSTAT" = a.partstat.map .str ∧ Dict.get? ps "ROLE" = a.role.map .str

/-- The value of RRULE: its parts. -/
structure IsRule (rr : RRule) (d : Dict String Val) : Prop where
  freq : Dict.get? d "FREQ" = rr.freq.map (fun f => .list [.str f])
  byday : Dict.get? d "BYDAY" = rr.byday.map (fun l => .list (l.map .str))
  interval : Dict.get? d "INTERVAL" = rr.interval.map (fun l => .list (l.map .int))
  count : Dict.get? d "COUNT" = rr.count.map (fun l => .list (l.map .int))
  untl : Dict.get? d "UNTIL" = rr.untl.map (fun l => .list (l.map ofUntil))

/-- The value of CATEGORIES: one line, or several. -/
def ofCategories : Categories → Option Val
  | .absent => Option.none
  | .inline l => some (.obj "vInline" [("value", .list (l.map .str))])
  | .multi l => some (.list (l.map .str))

/-- The properties `d` say what `v` says.  There may be others; their order does not matter. -/
structure Parsed (tz : LocalTz) (v : VEvent) (d : Dict String Val) : Prop where
  uid : Dict.get? d "UID" = v.uid.map .str
  dtstart : Dict.get? d "DTSTART" = v.dtstart.map (ofTime tz)
  dtend : Dict.get? d "DTEND" = v.dtend.map (ofTime tz)
  duration : Dict.get? d "DURATION" = v.duration.map .delta
  summary : Dict.get? d "SUMMARY" = v.summary.map .str
  description : Dict.get? d "DESCRIPTION" = v.description.map .str
  location : Dict.get? d "LOCATION" = v.location.map .str
  status : Dict.get? d "STATUS" = v.status.map .str
  organizer : (v.organizer = none ∧ Dict.get? d "ORGANIZER" = none) ∨
    ∃ a ps, v.organizer = some a ∧ Dict.get? d "ORGANIZER" = some (.obj "vCalAddress" (("value", .str a) :: ps))
  attendees : (v.attendees = [] ∧ Dict.get? d "ATTENDEE" = none) ∨
    (∃ a x, v.attendees = [a] ∧ Dict.get? d "ATTENDEE" = some x ∧ IsAddress a x) ∨
    ∃ xs, Dict.get? d "ATTENDEE" = some (.list xs) ∧ List.Forall₂ IsAddress v.attendees xs
  categories : Dict.get? d "CATEGORIES" = ofCategories v.categories
  transp : Dict.get? d "TRANSP" = v.transp.map .str
  cls : Dict.get? d "CLASS" = v.cls.map .str
  attach : Dict.get? d "ATTACH" = v.attach.map .str
  rrule : (v.rrule = none ∧ Dict.get? d "RRULE" = none) ∨
    ∃ rr dr, v.rrule = some rr ∧ Dict.get? d "RRULE" = some (ofMap dr) ∧ IsRule rr dr

end CalCore.Lang
