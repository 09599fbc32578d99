import Verif.Spec.Changes
import Verif.Spec.RepresentImport
import Verif.Spec.RepresentCal
import Verif.Model.Calendar
/- What the parser makes of a text, and what it means that the calendar imports a text. -/
namespace CalCore.Lang

/-- What `icalendar.Calendar.from_string` can do with a text: raise, return None, or find components with these properties. -/
inductive Outcome where
  | fails (f : Fault)
  | nothing
  | components (ds : List (Dict String Val))

/-- A parser that does `o` with this text. -/
def parserFor (text : String) : Outcome → Val
  | .fails f => .dict [(.str text, .gen [] (some (ofFault f)))]
  | .nothing => .dict [(.str text, .gen [.none] none)]
  | .components ds => .dict [(.str text, .gen [.obj "ParsedCalendar" [("VEVENT", .list (ds.map ofComponent))]] none)]

/-- The properties `d` say what `v` says, its categories are listed as they are written, and `timedelta` can hold the duration of
a whole-day event in days. -/
structure Component (L : Listing) (tz : LocalTz) (c : Calendar) (src : CalCore.Source) (v : VEvent) (d : Dict String Val) : Prop where
  parsed : Parsed tz v d
  listed : ∀ l, v.categories = .inline l ∨ v.categories = .multi l → L.cats l.toFinset = l
  fits : ∀ s, importSpec tz c src v = .ok s → s.allday = true → ∀ x, s.duration = some x → -(999999999 * DAY) ≤ x ∧ x ≤ 999999999 * DAY

/-- The data `r` are what the parser found. -/
inductive Means (L : Listing) (tz : LocalTz) (c : Calendar) (src : CalCore.Source) : Res (Option (List VEvent)) → Outcome → Prop
  | fails (f : Fault) : Means L tz c src (.error f) (.fails f)
  | nothing : Means L tz c src (.ok none) .nothing
  | components (vs : List VEvent) (ds : List (Dict String Val)) (h : List.Forall₂ (Component L tz c src) vs ds) :
      Means L tz c src (.ok (some vs)) (.components ds)

/-- Calling `import_` as written, when the parser does `o` with the repaired text, turns the store `st` into `st'`, sends the
notifications `out`, and ends with the exception `fin`, if any. -/
def Imports (o : Outcome) (L : Listing) (src : CalCore.Source) (c : Calendar) (text : String) (b e : Option Int) (cr : Option Criteria)
    (sync : Val) (st st' : Storage) (out : List Val) (fin : Option Stop) : Prop :=
  @Does (Source.reading (parserFor (String.ofList (repairText text.toList)) o)) (ofCalendar L st src c) "import_"
    [.str text, ofPeriod b e, ofOption (ofCriteria L) cr, sync]
    [ofCalendar L st' src c, .str (String.ofList (repairText text.toList)), ofPeriod b e, ofOption (ofCriteria L) cr, sync] out fin .none

end CalCore.Lang
