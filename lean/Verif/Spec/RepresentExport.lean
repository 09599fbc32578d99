import Verif.Spec.RepresentImport
/- How components that are written are represented as values of the interpreter. -/
namespace CalCore.Lang

/-- A property, if it is given. -/
def putting (k : String) (o : Option Val) : Dict String Val := (o.map (fun v => (k, v))).toList

/-- A date with the parameter `VALUE=DATE`. -/
def dayProp (d : Date) : Val :=
  .obj "vDate" [("dt", .date d), ("params", .dict [(.str "VALUE", .obj "vText" [("text", .str "DATE")])])]

/-- The value of DTSTART or DTEND.  (Times with a timezone are not written by the program.) -/
def writtenTime : ICalTime → Val
  | .date d => dayProp d
  | .naive t => .datetime t
  | .aware t off => .tuple [.datetime t, .delta off]

/-- The parts of RRULE.  (A rule without a frequency is written with the frequency `None`; BYDAY is not written.) -/
def writtenParts (rr : RRule) : Dict String Val :=
  putting "freq" (some (.list [ofOption .str rr.freq])) ++ putting "interval" (rr.interval.map (fun l => .list (l.map .int))) ++
  putting "count" (rr.count.map (fun l => .list (l.map .int))) ++ putting "until" (rr.untl.map (fun l => .list (l.map ofUntil)))

/-- The value of RRULE. -/
def writtenRule (rr : RRule) : Val := .obj "vRecur" [("parts", ofMap (writtenParts rr))]

/-- The value of CATEGORIES. -/
def writtenCategories : Categories → Option Val
  | .inline l => some (.obj "vInline" [("list", .list (l.map .str))])
  | _ => Option.none

/-- The properties of a component that is written, in the order in which the program writes them. -/
def writtenProps (v : VEvent) : Dict String Val :=
  putting "dtstart" (v.dtstart.map writtenTime) ++ putting "dtend" (v.dtend.map writtenTime) ++
  putting "rrule" (v.rrule.map writtenRule) ++ putting "transp" (v.transp.map .str) ++ putting "uid" (v.uid.map .str) ++
  putting "class" (v.cls.map .str) ++ putting "summary" (v.summary.map .str) ++ putting "description" (v.description.map .str) ++
  putting "location" (v.location.map .str) ++ putting "categories" (writtenCategories v.categories) ++
  putting "attach" (v.attach.map .str) ++ putting "status" (v.status.map .str)

/-- A component that is written: a list of properties. -/
def ofWritten (d : Dict String Val) : Val :=
  .obj "icalendar.Event" [("props", .list (d.map (fun p => .tuple [.str p.1, p.2])))]

/-! ### reading again -/

/-- The names of properties and of the parts of RRULE, as they are read. -/
def readName : String → String
  | "dtstart" => "DTSTART" | "dtend" => "DTEND" | "rrule" => "RRULE" | "transp" => "TRANSP" | "uid" => "UID"
  | "class" => "CLASS" | "summary" => "SUMMARY" | "description" => "DESCRIPTION" | "location" => "LOCATION"
  | "categories" => "CATEGORIES" | "attach" => "ATTACH" | "status" => "STATUS" | "freq" => "FREQ" | "interval" => "INTERVAL"
  | "count" => "COUNT" | "until" => "UNTIL" | x => x

/-- What the iCalendar library is assumed to give back for a value that was written: days, categories and rules in the form in
which they are parsed, everything else unchanged. -/
def readValue : Val → Val
  | .obj "vDate" [("dt", .date d), ("params", _)] => .date d
  | .obj "vInline" [("list", .list l)] => .obj "vInline" [("value", .list l)]
  | .obj "vRecur" [("parts", .dict l)] => .dict (l.map (fun p => (match p.1 with
      | .str k => .str (readName k)
      | k => k, p.2)))
  | v => v

/-- What the iCalendar library is assumed to give back for properties that were written. -/
def reread (d : Dict String Val) : Dict String Val := d.map (fun p => (readName p.1, readValue p.2))

end CalCore.Lang
