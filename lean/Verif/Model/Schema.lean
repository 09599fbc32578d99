import Verif.Model.Vocabulary
import Verif.Model.History
/- The schemas of interfaces.py (lines 403-670) and of schema.py, and what the fields of zope.schema accept.  The
fields are given as data.  Titles, descriptions and error classes are not modelled: a field accepts a value or refuses
it.  Text is one type here; zope.schema wants `unicode` and refuses byte strings. -/
namespace CalCore

/-- A value of an attribute, as a field sees it. -/
inductive AttrValue where
  | none
  | text (s : String)
  | int (n : Int)
  | bool (b : Bool)
  | date (d : Date)
  | datetime (t : DateTime)
  | timedelta (d : TimeDelta)
  /-- a `sets.Set` of strings -/
  | textSet (s : Finset String)
  /-- a `sets.Set` of numbers -/
  | intSet (s : Finset Int)
  /-- a tuple of numbers -/
  | tuple (l : List Int)
  /-- an instance of a rule class -/
  | rule (r : Rule)
  /-- an event -/
  | event (e : Event)
  deriving DecidableEq

/-- The field types that the schemas use (zope.schema; `Timedelta` is schema.py:30-33). -/
inductive FieldType where
  | int (min : Option Int)
  | date
  | datetime
  | timedelta
  | textLine
  | text
  | bool
  | choice (vocabulary : String)
  /-- `Set(value_type=Text())` -/
  | textSet
  /-- `Set(value_type=Choice(vocabulary=...))` -/
  | choiceSet (vocabulary : String)
  /-- `Object(schema=IRecurrenceRule)` -/
  | ruleObject
  /-- `Object(schema=ICalendarEvent)` -/
  | eventObject

/-- A field of a schema; `required` is true unless the declaration says otherwise. -/
structure SchemaField where
  name : String
  type : FieldType
  required : Bool := true

/-- `IBasicRecurrenceRule` (interfaces.py:411-443); `IRecurrenceRule` has no fields (367-406). -/
def IBasicRecurrenceRuleFields : List SchemaField :=
  [{ name := "interval", type := .int (some 1) },
   { name := "count", type := .int none, required := false },
   { name := "until", type := .date, required := false }]

/-- `IWeeklyRecurrenceRule` (interfaces.py:465-490). -/
def IWeeklyRecurrenceRuleFields : List SchemaField :=
  IBasicRecurrenceRuleFields ++ [{ name := "weekdays", type := .choiceSet "CalendarWeekdays" }]

/-- `IMonthlyRecurrenceRule` (interfaces.py:492-517). -/
def IMonthlyRecurrenceRuleFields : List SchemaField :=
  IBasicRecurrenceRuleFields ++ [{ name := "monthly", type := .choice "CalendarMontlyRecurrenceType" }]

/-- `ITimed` (interfaces.py:519-536). -/
def ITimedFields : List SchemaField :=
  [{ name := "dtstart", type := .datetime }, { name := "duration", type := .timedelta }]

/-- `ICalendarEvent` (interfaces.py:538-582). -/
def ICalendarEventFields : List SchemaField :=
  ITimedFields ++
  [{ name := "unique_id", type := .textLine },
   { name := "title", type := .textLine },
   { name := "description", type := .text, required := false },
   { name := "recurrence", type := .ruleObject, required := false },
   { name := "location", type := .textLine, required := false },
   { name := "allday", type := .bool, required := false }]

/-- `ICalendarOccurrence` (interfaces.py:621-632). -/
def ICalendarOccurrenceFields : List SchemaField :=
  ITimedFields ++ [{ name := "original", type := .eventObject }]

/-- `IExtendedCalendarEvent` (interfaces.py:634-672). -/
def IExtendedCalendarEventFields : List SchemaField :=
  ICalendarEventFields ++
  [{ name := "categories", type := .textSet, required := false },
   { name := "status", type := .choice "CalendarEventStatus" },
   { name := "transparent", type := .bool, required := false },
   { name := "access", type := .choice "CalendarEventAccess" },
   { name := "document", type := .textLine, required := false }]

/-- Is the string a value of the named vocabulary?  The repository has no registration of the names; the factory
`CalendarXVocabulary` (cal.py:1170-1183) is taken for the name `CalendarX`. -/
def inVocabulary (name : String) (s : String) : Bool :=
  let voc := if name = "CalendarEventStatus" then calendarEventStatusVocabulary
    else if name = "CalendarEventAccess" then calendarEventAccessVocabulary
    else if name = "CalendarMontlyRecurrenceType" then calendarMonthlyVocabulary
    else .ok []
  match voc with
  | .ok terms => terms.any (fun t => decide (t.value = s))
  | .error _ => false

/-- The same for a vocabulary of numbers. -/
def inIntVocabulary (name : String) (n : Int) : Bool :=
  match (if name = "CalendarWeekdays" then calendarWeekdaysVocabulary else .ok []) with
  | .ok terms => terms.any (fun t => decide (t.value = n))
  | .error _ => false

/-- The attribute of an event (cal.py:392-403). -/
def Event.attr (e : Event) (name : String) : AttrValue :=
  if name = "unique_id" then .text e.uid
  else if name = "dtstart" then .datetime e.dtstart
  else if name = "duration" then (match e.duration with | some d => .timedelta d | none => .none)
  else if name = "title" then .text e.title
  else if name = "description" then .text e.description
  else if name = "location" then .text e.location
  else if name = "status" then .text e.status
  else if name = "recurrence" then (match e.recurrence with | some r => .rule r | none => .none)
  else if name = "allday" then .bool e.allday
  else if name = "categories" then .textSet e.categories
  else if name = "transparent" then .bool e.transparent
  else if name = "access" then .text e.access
  else if name = "document" then (match e.document with | some d => .text d | none => .none)
  else .none

/-- The attribute of a rule (recurrent.py:54-59, 214-221, 299-306).  `weekdays` is a tuple (recurrent.py:220). -/
def Rule.attr (r : Rule) (name : String) : AttrValue :=
  if name = "interval" then .int r.interval
  else if name = "count" then (match r.count with | some n => .int n | none => .none)
  else if name = "until" then
    (match r.untl with | some (.date d) => .date d | some (.datetime t) => .datetime t | none => .none)
  else if name = "weekdays" then (match r.kind with | .weekly l => .tuple l | _ => .none)
  else if name = "monthly" then
    (match r.kind with
     | .monthly .monthday => .text "monthday"
     | .monthly .weekday => .text "weekday"
     | .monthly .lastweekday => .text "lastweekday"
     | _ => .none)
  else .none

/-- The attribute of an occurrence (cal.py:589-595). -/
def Occurrence.attr (o : Occurrence Event) (name : String) : AttrValue :=
  if name = "dtstart" then .datetime o.dtstart
  else if name = "duration" then .timedelta o.duration
  else if name = "original" then .event o.original
  else .none

/-- `field._validate(value)` of zope.schema for a value other than None, without objects: the type, the bounds, the
vocabulary, no line breaks in a `TextLine`.  A bool is an int in Python.  A datetime is a date in Python; a `Date` field
refuses it only in newer versions of zope.schema, given by `strict`. -/
def FieldType.acceptsPlain (strict : Bool) : FieldType → AttrValue → Bool
  | .int min, .int n => (match min with | some m => decide (m ≤ n) | none => true)
  | .int min, .bool b => (match min with | some m => decide (m ≤ if b then 1 else 0) | none => true)
  | .date, .date _ => true
  | .date, .datetime _ => !strict
  | .datetime, .datetime _ => true
  | .timedelta, .timedelta _ => true
  | .textLine, .text s => !(s.toList.contains '\n') && !(s.toList.contains '\r')
  | .text, .text _ => true
  | .bool, .bool _ => true
  | .choice v, .text s => inVocabulary v s
  | .textSet, .textSet _ => true
  | .choiceSet v, .intSet s => decide (∀ n ∈ s, inIntVocabulary v n = true)
  | .ruleObject, .rule _ => true
  | _, _ => false

/-- `field.validate(value)`: None is refused only by a required field. -/
def SchemaField.acceptsPlain (strict : Bool) (f : SchemaField) (v : AttrValue) : Bool :=
  if v = .none then !f.required else f.type.acceptsPlain strict v

/-- `Object` fields validate the fields of the schema on the object (zope.schema `Object._validate`). -/
def SchemaField.accepts (strict : Bool) (f : SchemaField) (v : AttrValue) : Bool :=
  match f.type, v with
  | .eventObject, .event e => ICalendarEventFields.all (fun g => g.acceptsPlain strict (e.attr g.name))
  | _, _ => f.acceptsPlain strict v

/-- All fields of the schema accept the attributes of the object. -/
def validates (strict : Bool) (fields : List SchemaField) (attr : String → AttrValue) : Bool :=
  fields.all (fun f => f.accepts strict (attr f.name))

/-- The fields of the interfaces that the class of the rule implements (recurrent.py:43, 172, 183, 190, 208, 293).
`INoRecurrenceRule` has no fields, but the class inherits the declaration of `BasicRecurrenceRule`. -/
def RuleKind.schema : RuleKind → List SchemaField
  | .weekly _ => IWeeklyRecurrenceRuleFields
  | .monthly _ => IMonthlyRecurrenceRuleFields
  | _ => IBasicRecurrenceRuleFields

end CalCore
