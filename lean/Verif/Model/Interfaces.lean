import Verif.Model.Py

/-!
# Interfaces and classes

interfaces.py, and the signatures in cal.py, recurrent.py and events.py: which methods and attributes an
interface promises, and which ones the classes that declare the interface (`implements(...)`) have.

A signature is the list of its parameters as in the `def`.  A method of a class has `self` among them,
a method of an interface has not (the convention of zope.interface).  Default values are not
recorded; what the methods do is modelled elsewhere.  The attributes of a class are those that `__init__`
assigns (for `EventBase` through `EventSpecification.setOnObject`, cal.py:87-105).
-/

namespace CalCore

/-- The parameters of a `def`: without default, with default, and whether there is a `**kw`.  (No
function in /repo/src/calcore has `*args`.) -/
structure Sig where
  required : List String
  optional : List String
  kwargs : Bool
deriving DecidableEq, Repr

/-- All named parameters in order. -/
def Sig.params (s : Sig) : List String := s.required ++ s.optional

/-- The arguments of a call: by position and by keyword. -/
structure CallArgs (α : Type) where
  pos : List α
  kw : List (String × α)

/-- Binding the keyword arguments one after the other (Python 2.4 reference manual 5.3.4): a second
value for a name and an unknown name are TypeErrors. -/
def Sig.bindKw {α : Type} (s : Sig) : List (String × α) → List (String × α) → Res (List (String × α))
  | b, [] => .ok b
  | b, (k, v) :: rest =>
    if b.any (fun p => p.1 == k) then raise .TypeError
    else if s.params.contains k || s.kwargs then s.bindKw (b ++ [(k, v)]) rest
    else raise .TypeError

/-- What a call binds: names with values, for parameters as for entries of `**kw`.  Too many
positional arguments and missing arguments are TypeErrors. -/
def Sig.call {α : Type} (s : Sig) (c : CallArgs α) : Res (List (String × α)) :=
  if s.params.length < c.pos.length then raise .TypeError
  else do
    let b ← s.bindKw (s.params.zip c.pos) c.kw
    if s.required.all (fun r => b.any (fun p => p.1 == r)) then pure b else raise .TypeError

/-- An interface: its bases, the attributes and the methods it declares itself. -/
structure Decl where
  name : String
  bases : List String
  attrs : List String
  methods : List (String × Sig)

/-- A class: its base class, the interfaces in its `implements`, the attributes that instances get
in `__init__`, and the methods it defines itself. -/
structure ClassDecl where
  name : String
  base : Option String
  implements : List String
  attrs : List String
  methods : List (String × Sig)

/-- interfaces.py:31 ff., class IStorageManager. -/
def IStorageManagerDecl : Decl where
  name := "IStorageManager"
  bases := []
  attrs := []
  methods :=
    [("setStorage", ⟨["storage_id"], [], false⟩),
     ("createEvent", ⟨["unique_id", "dtstart", "duration", "title"], ["description", "location",
       "status", "organizer", "allday", "transparent", "access"], false⟩),
     ("deleteEvent", ⟨["event"], [], false⟩),
     ("getEvent", ⟨["event_id"], [], false⟩),
     ("hasEvent", ⟨["event_id"], [], false⟩),
     ("getEvents", ⟨["period"], ["search_criteria"], false⟩),
     ("getOccurrences", ⟨["period"], ["search_criteria"], false⟩),
     ("getOccurrencesSegmented", ⟨["period"], ["search_criteria"], false⟩),
     ("getBlockedPeriods", ⟨["attendees", "period", "time_period"], [], false⟩),
     ("getFreePeriods", ⟨["attendees", "period", "time_period"], ["minimum_duration"], false⟩)]

/-- interfaces.py:135 ff., class IStorage. -/
def IStorageDecl : Decl where
  name := "IStorage"
  bases := []
  attrs := []
  methods :=
    [("createEvent", ⟨["unique_id", "spec"], [], false⟩),
     ("deleteEvent", ⟨["event"], [], false⟩),
     ("getStorageId", ⟨[], [], false⟩),
     ("getEvent", ⟨["event_id"], [], false⟩),
     ("getEvents", ⟨["period", "search_criteria"], [], false⟩),
     ("getOccurrences", ⟨["period", "search_criteria"], [], false⟩)]

/-- interfaces.py:174 ff., class ISearchCriteria. -/
def ISearchCriteriaDecl : Decl where
  name := "ISearchCriteria"
  bases := []
  attrs := ["attendee", "participation_status", "participation_role", "categories", "organizer"]
  methods :=
    [("clone", ⟨[], ["attendee", "participation_status", "participation_role", "categories",
       "organizer"], false⟩)]

/-- interfaces.py:193 ff., class IAttendee. -/
def IAttendeeDecl : Decl where
  name := "IAttendee"
  bases := []
  attrs := []
  methods :=
    [("createEvent", ⟨[], [], true⟩),
     ("getAttendeeId", ⟨[], [], false⟩),
     ("getAttendeeType", ⟨[], [], false⟩),
     ("getEvents", ⟨["period"], ["search_criteria"], false⟩),
     ("getOccurrences", ⟨["period"], ["search_criteria"], false⟩),
     ("getOrganizedEvents", ⟨[], [], false⟩)]

/-- interfaces.py:240 ff., class IAttendeeSource. -/
def IAttendeeSourceDecl : Decl where
  name := "IAttendeeSource"
  bases := []
  attrs := []
  methods :=
    [("getAttendee", ⟨["attendee_id"], [], false⟩),
     ("getCurrentUserAttendeeId", ⟨[], [], false⟩),
     ("getCurrentUserAttendee", ⟨[], [], false⟩),
     ("findByName", ⟨["query_str"], ["attendee_type"], false⟩),
     ("getAttendeesOfType", ⟨["attendee_type"], [], false⟩),
     ("getAttendeeTypes", ⟨[], [], false⟩),
     ("getAttendeeFromSpec", ⟨["vcaladdress"], [], false⟩)]

/-- interfaces.py:287 ff., class ICalendar. -/
def ICalendarDecl : Decl where
  name := "ICalendar"
  bases := []
  attrs := []
  methods :=
    [("addAttendee", ⟨["attendee"], [], false⟩),
     ("removeAttendee", ⟨["attendee"], [], false⟩),
     ("getMainAttendeeId", ⟨[], [], false⟩),
     ("getMainAttendee", ⟨[], [], false⟩),
     ("import_", ⟨["self", "text"], ["period", "search_criteria"], false⟩),
     ("getEvent", ⟨["event_id"], [], false⟩),
     ("hasEvent", ⟨["event_id"], [], false⟩),
     ("getEvents", ⟨["period", "search_criteria"], [], false⟩),
     ("getOccurrences", ⟨["period", "search_criteria"], [], false⟩),
     ("getEventsInDay", ⟨["date"], [], false⟩),
     ("getRecentYears", ⟨[], [], false⟩),
     ("getCurrentYear", ⟨[], [], false⟩),
     ("getToday", ⟨[], [], false⟩),
     ("export", ⟨[], ["period", "search_criteria"], false⟩)]

/-- interfaces.py:367 ff., class IRecurrenceRule. -/
def IRecurrenceRuleDecl : Decl where
  name := "IRecurrenceRule"
  bases := []
  attrs := []
  methods :=
    [("replace", ⟨[], ["interval", "count", "until", "exceptions"], false⟩),
     ("__eq__", ⟨["other"], [], false⟩),
     ("__ne__", ⟨["other"], [], false⟩),
     ("apply", ⟨["event"], ["enddate"], false⟩),
     ("iCalRepresentation", ⟨["dtstart"], [], false⟩)]

/-- interfaces.py:408 ff., class INoRecurrenceRule. -/
def INoRecurrenceRuleDecl : Decl where
  name := "INoRecurrenceRule"
  bases := ["IRecurrenceRule"]
  attrs := []
  methods :=
    []

/-- interfaces.py:411 ff., class IBasicRecurrenceRule. -/
def IBasicRecurrenceRuleDecl : Decl where
  name := "IBasicRecurrenceRule"
  bases := ["IRecurrenceRule"]
  attrs := ["interval", "count", "until"]
  methods :=
    []

/-- interfaces.py:457 ff., class IDailyRecurrenceRule. -/
def IDailyRecurrenceRuleDecl : Decl where
  name := "IDailyRecurrenceRule"
  bases := ["IBasicRecurrenceRule"]
  attrs := []
  methods :=
    []

/-- interfaces.py:461 ff., class IYearlyRecurrenceRule. -/
def IYearlyRecurrenceRuleDecl : Decl where
  name := "IYearlyRecurrenceRule"
  bases := ["IBasicRecurrenceRule"]
  attrs := []
  methods :=
    []

/-- interfaces.py:465 ff., class IWeeklyRecurrenceRule. -/
def IWeeklyRecurrenceRuleDecl : Decl where
  name := "IWeeklyRecurrenceRule"
  bases := ["IBasicRecurrenceRule"]
  attrs := ["weekdays"]
  methods :=
    [("replace", ⟨[], ["interval", "count", "until", "exceptions", "weekdays"], false⟩)]

/-- interfaces.py:492 ff., class IMonthlyRecurrenceRule. -/
def IMonthlyRecurrenceRuleDecl : Decl where
  name := "IMonthlyRecurrenceRule"
  bases := ["IBasicRecurrenceRule"]
  attrs := ["monthly"]
  methods :=
    [("replace", ⟨[], ["interval", "count", "until", "exceptions", "monthly"], false⟩)]

/-- interfaces.py:519 ff., class ITimed. -/
def ITimedDecl : Decl where
  name := "ITimed"
  bases := []
  attrs := ["dtstart", "duration"]
  methods :=
    []

/-- interfaces.py:538 ff., class ICalendarEvent. -/
def ICalendarEventDecl : Decl where
  name := "ICalendarEvent"
  bases := ["ITimed"]
  attrs := ["unique_id", "title", "description", "recurrence", "location", "allday"]
  methods :=
    [("export", ⟨[], ["private"], false⟩)]

/-- interfaces.py:621 ff., class ICalendarOccurrence. -/
def ICalendarOccurrenceDecl : Decl where
  name := "ICalendarOccurrence"
  bases := ["ITimed"]
  attrs := ["original"]
  methods :=
    []

/-- interfaces.py:634 ff., class IExtendedCalendarEvent. -/
def IExtendedCalendarEventDecl : Decl where
  name := "IExtendedCalendarEvent"
  bases := ["ICalendarEvent"]
  attrs := ["categories", "status", "transparent", "access", "document"]
  methods :=
    []

/-- interfaces.py:674 ff., class IEventSpecification. -/
def IEventSpecificationDecl : Decl where
  name := "IEventSpecification"
  bases := ["IExtendedCalendarEvent"]
  attrs := []
  methods :=
    [("setOnObject", ⟨["o"], [], false⟩),
     ("willModify", ⟨["o"], [], false⟩)]

/-- interfaces.py:699 ff., class IInvitableCalendarEvent. -/
def IInvitableCalendarEventDecl : Decl where
  name := "IInvitableCalendarEvent"
  bases := ["IExtendedCalendarEvent"]
  attrs := []
  methods :=
    [("invite", ⟨["attendees"], [], false⟩),
     ("setParticipationStatus", ⟨["attendee", "status"], [], false⟩),
     ("setParticipationRole", ⟨["attendee", "role"], [], false⟩),
     ("getStorageId", ⟨[], [], false⟩),
     ("getEventId", ⟨[], [], false⟩),
     ("getOrganizerId", ⟨[], [], false⟩),
     ("inCategory", ⟨["category"], [], false⟩),
     ("getAttendeeIds", ⟨[], ["participation_status", "participation_role"], false⟩),
     ("hasAttendee", ⟨["attendee"], [], false⟩),
     ("getParticipationStatus", ⟨["attendee"], [], false⟩),
     ("getParticipationRole", ⟨["attendee"], [], false⟩),
     ("__hash__", ⟨[], [], false⟩)]

/-- interfaces.py:789 ff., class IEventEvent. -/
def IEventEventDecl : Decl where
  name := "IEventEvent"
  bases := []
  attrs := ["event"]
  methods :=
    []

/-- interfaces.py:794 ff., class IEventCreatedEvent. -/
def IEventCreatedEventDecl : Decl where
  name := "IEventCreatedEvent"
  bases := ["IEventEvent"]
  attrs := []
  methods :=
    []

/-- interfaces.py:797 ff., class IEventModifiedEvent. -/
def IEventModifiedEventDecl : Decl where
  name := "IEventModifiedEvent"
  bases := ["IEventEvent"]
  attrs := []
  methods :=
    []

/-- interfaces.py:800 ff., class IEventDeletedEvent. -/
def IEventDeletedEventDecl : Decl where
  name := "IEventDeletedEvent"
  bases := ["IEventEvent"]
  attrs := []
  methods :=
    []

/-- interfaces.py:803 ff., class IEventParticipationChangeEvent. -/
def IEventParticipationChangeEventDecl : Decl where
  name := "IEventParticipationChangeEvent"
  bases := ["IEventModifiedEvent"]
  attrs := ["attendee", "old_status"]
  methods :=
    []

/-- All interfaces of interfaces.py. -/
def interfaces : List Decl := [IStorageManagerDecl, IStorageDecl, ISearchCriteriaDecl, IAttendeeDecl,
  IAttendeeSourceDecl, ICalendarDecl, IRecurrenceRuleDecl, INoRecurrenceRuleDecl,
  IBasicRecurrenceRuleDecl, IDailyRecurrenceRuleDecl, IYearlyRecurrenceRuleDecl,
  IWeeklyRecurrenceRuleDecl, IMonthlyRecurrenceRuleDecl, ITimedDecl, ICalendarEventDecl,
  ICalendarOccurrenceDecl, IExtendedCalendarEventDecl, IEventSpecificationDecl,
  IInvitableCalendarEventDecl, IEventEventDecl, IEventCreatedEventDecl, IEventModifiedEventDecl,
  IEventDeletedEventDecl, IEventParticipationChangeEventDecl]

/-- cal.py:47 class EventSpecification. -/
def EventSpecificationClass : ClassDecl where
  name := "EventSpecification"
  base := none
  implements := ["IEventSpecification"]
  attrs := ["dtstart", "duration", "title", "description", "status", "location", "organizer",
    "recurrence", "allday", "categories", "transparent", "access", "document", "attendees"]
  methods :=
    [("__init__", ⟨["self", "dtstart", "duration"], ["title", "description", "location", "status",
       "organizer", "recurrence", "allday", "categories", "transparent", "access", "document",
       "attendees"], false⟩),
     ("setOnObject", ⟨["self", "o"], [], false⟩),
     ("willModify", ⟨["self", "o"], [], false⟩)]

/-- cal.py:127 class StorageManagerBase. -/
def StorageManagerBaseClass : ClassDecl where
  name := "StorageManagerBase"
  base := none
  implements := ["IStorageManager"]
  attrs := []
  methods :=
    [("__init__", ⟨["self"], [], false⟩),
     ("setStorage", ⟨["self", "storage"], [], false⟩),
     ("createEvent", ⟨["self"], ["unique_id"], true⟩),
     ("createEventFromSpecification", ⟨["self", "unique_id", "spec"], [], false⟩),
     ("deleteEvent", ⟨["self", "event"], [], false⟩),
     ("getEvent", ⟨["self", "event_id"], [], false⟩),
     ("hasEvent", ⟨["self", "event_id"], [], false⟩),
     ("getEvents", ⟨["self", "period"], ["search_criteria"], false⟩),
     ("getOccurrences", ⟨["self", "period"], ["search_criteria"], false⟩),
     ("getOccurrencesSegmented", ⟨["self", "period"], ["search_criteria"], false⟩),
     ("getBlockedPeriods", ⟨["self", "attendees", "period", "time_period"], [], false⟩),
     ("getFreePeriods", ⟨["self", "attendees", "period", "time_period"], ["minimal_duration"], false⟩)]

/-- cal.py:247 class StorageManager. -/
def StorageManagerClass : ClassDecl where
  name := "StorageManager"
  base := some "StorageManagerBase"
  implements := []
  attrs := []
  methods :=
    []

/-- cal.py:250 class StorageBase. -/
def StorageBaseClass : ClassDecl where
  name := "StorageBase"
  base := none
  implements := ["IStorage"]
  attrs := []
  methods :=
    [("__init__", ⟨["self", "storage_id"], ["hostname"], false⟩),
     ("_initEvents", ⟨["self"], [], false⟩),
     ("_eventFactory", ⟨["self", "event_id", "spec"], [], false⟩),
     ("createEvent", ⟨["self", "unique_id", "spec"], [], false⟩),
     ("deleteEvent", ⟨["self", "event"], [], false⟩),
     ("getStorageId", ⟨["self"], [], false⟩),
     ("getEvent", ⟨["self", "event_id"], [], false⟩),
     ("getEvents", ⟨["self", "period", "search_criteria"], [], false⟩),
     ("getOccurrences", ⟨["self", "period", "search_criteria"], [], false⟩),
     ("_getMatchingEvents", ⟨["self", "search_criteria"], [], false⟩)]

/-- cal.py:311 class MemoryStorage. -/
def MemoryStorageClass : ClassDecl where
  name := "MemoryStorage"
  base := some "StorageBase"
  implements := []
  attrs := []
  methods :=
    [("_initEvents", ⟨["self"], [], false⟩),
     ("_eventFactory", ⟨["self", "event_id", "spec"], [], false⟩)]

/-- cal.py:318 class SearchCriteria. -/
def SearchCriteriaClass : ClassDecl where
  name := "SearchCriteria"
  base := none
  implements := ["ISearchCriteria"]
  attrs := ["attendees", "participation_status", "participation_role", "categories", "organizer"]
  methods :=
    [("__init__", ⟨["self"], ["attendees", "participation_status", "participation_role", "categories",
       "organizer"], false⟩),
     ("clone", ⟨["self"], ["attendees", "participation_status", "participation_role", "categories",
       "organizer"], false⟩),
     ("_match", ⟨["self", "event"], [], false⟩)]

/-- cal.py:388 class NullSearchCriteria. -/
def NullSearchCriteriaClass : ClassDecl where
  name := "NullSearchCriteria"
  base := some "SearchCriteria"
  implements := []
  attrs := ["attendees", "participation_status", "participation_role", "categories", "organizer"]
  methods :=
    [("__init__", ⟨["self"], [], false⟩)]

/-- cal.py:392 class EventBase. -/
def EventBaseClass : ClassDecl where
  name := "EventBase"
  base := none
  implements := ["IInvitableCalendarEvent"]
  attrs := ["unique_id", "dtstart", "duration", "title", "description", "status", "location",
    "recurrence", "allday", "categories", "transparent", "access", "document"]
  methods :=
    [("__init__", ⟨["self", "unique_id", "spec"], [], false⟩),
     ("_initParticipationState", ⟨["self"], [], false⟩),
     ("_initParticipationRole", ⟨["self"], [], false⟩),
     ("invite", ⟨["self", "attendees"], [], false⟩),
     ("setParticipationStatus", ⟨["self", "attendee", "status"], [], false⟩),
     ("_setParticipationStatus", ⟨["self", "attendee", "status"], [], false⟩),
     ("setParticipationRole", ⟨["self", "attendee", "role"], [], false⟩),
     ("alldayAdjust", ⟨["self"], [], false⟩),
     ("getOrganizerId", ⟨["self"], [], false⟩),
     ("inCategory", ⟨["self", "category"], [], false⟩),
     ("getAttendeeIds", ⟨["self"], ["participation_status", "participation_role"], false⟩),
     ("hasAttendee", ⟨["self", "attendee"], [], false⟩),
     ("getParticipationStatus", ⟨["self", "attendee"], [], false⟩),
     ("getParticipationRole", ⟨["self", "attendee"], [], false⟩),
     ("__hash__", ⟨["self"], [], false⟩),
     ("__cmp__", ⟨["self", "other"], [], false⟩),
     ("expand", ⟨["self", "period"], [], false⟩),
     ("export", ⟨["self"], ["private"], false⟩)]

/-- cal.py:575 class Timed. -/
def TimedClass : ClassDecl where
  name := "Timed"
  base := none
  implements := ["ITimed"]
  attrs := ["dtstart", "duration"]
  methods :=
    [("__init__", ⟨["self", "dtstart", "duration"], [], false⟩)]

/-- cal.py:582 class Event. -/
def EventClass : ClassDecl where
  name := "Event"
  base := some "EventBase"
  implements := []
  attrs := []
  methods :=
    [("_initParticipationState", ⟨["self"], [], false⟩),
     ("_initParticipationRole", ⟨["self"], [], false⟩)]

/-- cal.py:589 class Occurrence. -/
def OccurrenceClass : ClassDecl where
  name := "Occurrence"
  base := none
  implements := ["ICalendarOccurrence"]
  attrs := ["dtstart", "duration", "original"]
  methods :=
    [("__init__", ⟨["self", "dtstart", "duration", "original"], [], false⟩)]

/-- cal.py:597 class AttendeeBase. -/
def AttendeeBaseClass : ClassDecl where
  name := "AttendeeBase"
  base := none
  implements := ["IAttendee"]
  attrs := []
  methods :=
    [("__init__", ⟨["self", "attendee_id", "name", "attendee_type"], [], false⟩),
     ("createEvent", ⟨["self"], [], true⟩),
     ("getAttendeeId", ⟨["self"], [], false⟩),
     ("getAttendeeType", ⟨["self"], [], false⟩),
     ("getEvents", ⟨["self", "period"], ["search_criteria"], false⟩),
     ("getOccurrences", ⟨["self", "period"], ["search_criteria"], false⟩),
     ("getOrganizedEvents", ⟨["self"], ["search_criteria"], false⟩),
     ("_getStorageManager", ⟨["self"], [], false⟩)]

/-- cal.py:646 class Attendee. -/
def AttendeeClass : ClassDecl where
  name := "Attendee"
  base := some "AttendeeBase"
  implements := []
  attrs := []
  methods :=
    [("__init__", ⟨["self", "storage_manager", "attendee_id", "name", "attendee_type"], [], false⟩),
     ("_getStorageManager", ⟨["self"], [], false⟩)]

/-- cal.py:658 class CalendarBase. -/
def CalendarBaseClass : ClassDecl where
  name := "CalendarBase"
  base := none
  implements := ["ICalendar"]
  attrs := []
  methods :=
    [("__init__", ⟨["self"], [], false⟩),
     ("_initAttendees", ⟨["self"], [], false⟩),
     ("addAttendee", ⟨["self", "attendee"], [], false⟩),
     ("removeAttendee", ⟨["self", "attendee"], [], false⟩),
     ("getMainAttendeeId", ⟨["self"], [], false⟩),
     ("getMainAttendee", ⟨["self"], [], false⟩),
     ("import_", ⟨["self", "text"], ["period", "search_criteria", "synchronize"], false⟩),
     ("_importExistingEvent", ⟨["self", "uid", "e"], [], false⟩),
     ("_importNewEvent", ⟨["self", "uid", "e"], [], false⟩),
     ("_importEventSpecification", ⟨["self", "e"], [], false⟩),
     ("_getDefaultOrganizer", ⟨["self"], [], false⟩),
     ("_deleteEvent", ⟨["self", "event"], [], false⟩),
     ("_getDtstartDuration", ⟨["self", "component"], [], false⟩),
     ("_getRecurrenceRule", ⟨["self", "rrule"], [], false⟩),
     ("_getCategories", ⟨["self", "e"], [], false⟩),
     ("_repairText", ⟨["self", "text"], [], false⟩),
     ("getEvent", ⟨["self", "event_id"], [], false⟩),
     ("hasEvent", ⟨["self", "event_id"], [], false⟩),
     ("getEvents", ⟨["self", "period"], ["search_criteria"], false⟩),
     ("getOccurrences", ⟨["self", "period"], ["search_criteria"], false⟩),
     ("getOccurrencesSegmented", ⟨["self", "period"], ["search_criteria"], false⟩),
     ("getEventsInDay", ⟨["self", "date"], ["search_criteria"], false⟩),
     ("getOccurrencesInDay", ⟨["self", "date"], ["search_criteria"], false⟩),
     ("getRecentYears", ⟨["self"], [], false⟩),
     ("getCurrentYear", ⟨["self"], [], false⟩),
     ("getToday", ⟨["self"], [], false⟩),
     ("getAttendees", ⟨["self"], [], false⟩),
     ("export", ⟨["self"], ["period", "search_criteria"], false⟩),
     ("_getStorageManager", ⟨["self"], [], false⟩),
     ("_getAttendeeSource", ⟨["self"], [], false⟩)]

/-- cal.py:994 class Calendar. -/
def CalendarClass : ClassDecl where
  name := "Calendar"
  base := some "CalendarBase"
  implements := []
  attrs := []
  methods :=
    [("__init__", ⟨["self", "storage_manager", "attendee_source"], [], false⟩),
     ("_getStorageManager", ⟨["self"], [], false⟩),
     ("_getAttendeeSource", ⟨["self"], [], false⟩)]

/-- cal.py:1006 class SimpleAttendeeSource. -/
def SimpleAttendeeSourceClass : ClassDecl where
  name := "SimpleAttendeeSource"
  base := none
  implements := ["IAttendeeSource"]
  attrs := []
  methods :=
    [("__init__", ⟨["self", "storage_manager"], [], false⟩),
     ("createIndividual", ⟨["self", "attendee_id", "name"], [], false⟩),
     ("createRoom", ⟨["self", "attendee_id", "name"], [], false⟩),
     ("getAttendee", ⟨["self", "attendee_id"], [], false⟩),
     ("getCurrentUserAttendeeId", ⟨["self"], [], false⟩),
     ("getCurrentUserAttendee", ⟨["self"], [], false⟩),
     ("findByName", ⟨["self", "query_str"], ["attendee_type"], false⟩),
     ("getAttendeesOfType", ⟨["self", "attendee_type"], [], false⟩),
     ("getAttendeeTypes", ⟨[], [], false⟩),
     ("getAttendeeFromSpec", ⟨["self", "vcaladdress"], [], false⟩)]

/-- recurrent.py:40 class BasicRecurrenceRule. -/
def BasicRecurrenceRuleClass : ClassDecl where
  name := "BasicRecurrenceRule"
  base := none
  implements := ["IBasicRecurrenceRule"]
  attrs := ["interval", "count", "until", "exceptions"]
  methods :=
    [("__init__", ⟨["self"], ["interval", "count", "until", "exceptions"], false⟩),
     ("_validate", ⟨["self"], [], false⟩),
     ("replace", ⟨["self"], ["interval", "count", "until", "exceptions"], false⟩),
     ("__repr__", ⟨["self"], [], false⟩),
     ("_tupleForComparison", ⟨["self"], [], false⟩),
     ("__eq__", ⟨["self", "other"], [], false⟩),
     ("__ne__", ⟨["self", "other"], [], false⟩),
     ("__hash__", ⟨["self"], [], false⟩),
     ("apply", ⟨["self", "event"], ["enddate"], false⟩),
     ("_nextRecurrence", ⟨["self", "date"], [], false⟩),
     ("iCalRepresentation", ⟨["self", "dtstart"], [], false⟩),
     ("_iCalArgs", ⟨["self", "dtstart"], [], false⟩)]

/-- recurrent.py:170 class NoRecurrenceRule. -/
def NoRecurrenceRuleClass : ClassDecl where
  name := "NoRecurrenceRule"
  base := some "BasicRecurrenceRule"
  implements := ["INoRecurrenceRule"]
  attrs := []
  methods :=
    [("apply", ⟨["self", "event"], ["enddate"], false⟩)]

/-- recurrent.py:181 class DailyRecurrenceRule. -/
def DailyRecurrenceRuleClass : ClassDecl where
  name := "DailyRecurrenceRule"
  base := some "BasicRecurrenceRule"
  implements := ["IDailyRecurrenceRule"]
  attrs := []
  methods :=
    []

/-- recurrent.py:188 class YearlyRecurrenceRule. -/
def YearlyRecurrenceRuleClass : ClassDecl where
  name := "YearlyRecurrenceRule"
  base := some "BasicRecurrenceRule"
  implements := ["IYearlyRecurrenceRule"]
  attrs := []
  methods :=
    [("_nextRecurrence", ⟨["self", "date"], [], false⟩),
     ("_iCalArgs", ⟨["self", "dtstart"], [], false⟩)]

/-- recurrent.py:205 class WeeklyRecurrenceRule. -/
def WeeklyRecurrenceRuleClass : ClassDecl where
  name := "WeeklyRecurrenceRule"
  base := some "BasicRecurrenceRule"
  implements := ["IWeeklyRecurrenceRule"]
  attrs := ["interval", "count", "until", "exceptions", "weekdays"]
  methods :=
    [("__init__", ⟨["self"], ["interval", "count", "until", "exceptions", "weekdays"], false⟩),
     ("__repr__", ⟨["self"], [], false⟩),
     ("_validate", ⟨["self"], [], false⟩),
     ("replace", ⟨["self"], ["interval", "count", "until", "exceptions", "weekdays", "monthly"], false⟩),
     ("_tupleForComparison", ⟨["self"], [], false⟩),
     ("apply", ⟨["self", "event"], ["enddate"], false⟩),
     ("_nextRecurrence", ⟨["self", "date"], [], false⟩),
     ("_iCalArgs", ⟨["self", "dtstart"], [], false⟩)]

/-- recurrent.py:288 class MonthlyRecurrenceRule. -/
def MonthlyRecurrenceRuleClass : ClassDecl where
  name := "MonthlyRecurrenceRule"
  base := some "BasicRecurrenceRule"
  implements := ["IMonthlyRecurrenceRule"]
  attrs := ["interval", "count", "until", "exceptions", "monthly"]
  methods :=
    [("__init__", ⟨["self"], ["interval", "count", "until", "exceptions", "monthly"], false⟩),
     ("__repr__", ⟨["self"], [], false⟩),
     ("_validate", ⟨["self"], [], false⟩),
     ("replace", ⟨["self"], ["interval", "count", "until", "exceptions", "weekdays", "monthly"], false⟩),
     ("_tupleForComparison", ⟨["self"], [], false⟩),
     ("_nextRecurrence", ⟨["self", "date"], [], false⟩),
     ("apply", ⟨["self", "event"], ["enddate"], false⟩),
     ("_applyWeekday", ⟨["self", "event"], ["enddate"], false⟩),
     ("_applyLastWeekday", ⟨["self", "event"], ["enddate"], false⟩),
     ("_iCalArgs", ⟨["self", "dtstart"], [], false⟩)]

/-- events.py:25 class EventEvent. -/
def EventEventClass : ClassDecl where
  name := "EventEvent"
  base := none
  implements := ["IEventEvent"]
  attrs := ["event"]
  methods :=
    [("__init__", ⟨["self", "event"], [], false⟩)]

/-- events.py:33 class EventCreatedEvent. -/
def EventCreatedEventClass : ClassDecl where
  name := "EventCreatedEvent"
  base := some "EventEvent"
  implements := ["IEventCreatedEvent"]
  attrs := []
  methods :=
    []

/-- events.py:38 class EventModifiedEvent. -/
def EventModifiedEventClass : ClassDecl where
  name := "EventModifiedEvent"
  base := some "EventEvent"
  implements := ["IEventModifiedEvent"]
  attrs := []
  methods :=
    []

/-- events.py:43 class EventDeletedEvent. -/
def EventDeletedEventClass : ClassDecl where
  name := "EventDeletedEvent"
  base := some "EventEvent"
  implements := ["IEventDeletedEvent"]
  attrs := []
  methods :=
    []

/-- events.py:48 class EventParticipationChangeEvent. -/
def EventParticipationChangeEventClass : ClassDecl where
  name := "EventParticipationChangeEvent"
  base := some "EventModifiedEvent"
  implements := ["IEventParticipationChangeEvent"]
  attrs := ["event", "attendee", "old_status", "new_status"]
  methods :=
    [("__init__", ⟨["self", "event", "attendee", "old_status", "new_status"], [], false⟩)]

/-- All classes of cal.py, recurrent.py and events.py. -/
def classes : List ClassDecl := [EventSpecificationClass, StorageManagerBaseClass, StorageManagerClass,
  StorageBaseClass, MemoryStorageClass, SearchCriteriaClass, NullSearchCriteriaClass, EventBaseClass,
  TimedClass, EventClass, OccurrenceClass, AttendeeBaseClass, AttendeeClass, CalendarBaseClass,
  CalendarClass, SimpleAttendeeSourceClass, BasicRecurrenceRuleClass, NoRecurrenceRuleClass,
  DailyRecurrenceRuleClass, YearlyRecurrenceRuleClass, WeeklyRecurrenceRuleClass,
  MonthlyRecurrenceRuleClass, EventEventClass, EventCreatedEventClass, EventModifiedEventClass,
  EventDeletedEventClass, EventParticipationChangeEventClass]

/-- An interface with all its bases, nearest first (`n` bounds the depth). -/
def ifaceChain : Nat → String → List Decl
  | 0, _ => []
  | n + 1, name =>
    match interfaces.find? (fun d => d.name == name) with
    | none => []
    | some d => d :: d.bases.flatMap (ifaceChain n)

/-- A class with its base classes, nearest first. -/
def classChain : Nat → String → List ClassDecl
  | 0, _ => []
  | n + 1, name =>
    match classes.find? (fun d => d.name == name) with
    | none => []
    | some d => d :: (match d.base with
      | none => []
      | some b => classChain n b)

/-- More than the depth of either hierarchy. -/
def hierarchyDepth : Nat := 6

/-- Attribute lookup on a class: the nearest definition. -/
def classMethod (cls m : String) : Option Sig :=
  (classChain hierarchyDepth cls).findSome? (fun d => d.methods.lookup m)

/-- What an interface says about a method: the nearest declaration. -/
def ifaceMethod (iface m : String) : Option Sig :=
  (ifaceChain hierarchyDepth iface).findSome? (fun d => d.methods.lookup m)

/-- The interfaces that instances of a class provide by `implements`, its own and inherited ones. -/
def provided (cls : String) : List String :=
  (classChain hierarchyDepth cls).flatMap (·.implements)

/-- The attributes an instance has after `__init__`: those of the nearest class with an `__init__`. -/
def instanceAttrs (cls : String) : List String :=
  ((classChain hierarchyDepth cls).find? (fun d => (d.methods.lookup "__init__").isSome)).elim []
    (·.attrs)

/-- Calling a method of an instance: the instance is the first positional argument.  A missing method is
an AttributeError. -/
def methodCall {α : Type} (cls m : String) (self : α) (c : CallArgs α) : Res (List (String × α)) :=
  match classMethod cls m with
  | none => raise .AttributeError
  | some s => s.call ⟨self :: c.pos, c.kw⟩

/-- All pairs of a class and a method that an interface provided by it promises. -/
def promisedMethods : List (String × String × String) :=
  classes.flatMap fun c => (provided c.name).flatMap fun i =>
    (ifaceChain hierarchyDepth i).flatMap fun d => d.methods.map fun m => (c.name, i, m.1)

/-- All pairs of a class and an attribute that an interface provided by it promises. -/
def promisedAttrs : List (String × String) :=
  classes.flatMap fun c => (provided c.name).flatMap fun i =>
    (ifaceChain hierarchyDepth i).flatMap fun d => d.attrs.map fun a => (c.name, a)

end CalCore
