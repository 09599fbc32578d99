import Verif.Model.Interfaces
/- The classes and interfaces of /repo/src/calcore, written by tools/translate.py: do not edit. -/
namespace CalCore.Lang.Source

/-- The classes: name, base classes, the interfaces in `implements`, and the methods. -/
def classes : List (String × List String × List String × List (String × Sig)) := [
  -- cal.py line 47
  ("EventSpecification", [], ["IEventSpecification"], [("__init__", ⟨["self", "dtstart", "duration"], ["title", "description", "location", "status", "organizer", "recurrence", "allday", "categories", "transparent", "access", "document", "attendees"], false⟩),
    ("setOnObject", ⟨["self", "o"], [], false⟩),
    ("willModify", ⟨["self", "o"], [], false⟩)]),
  -- cal.py line 127
  ("StorageManagerBase", [], ["IStorageManager"], [("__init__", ⟨["self"], [], false⟩),
    ("setStorage", ⟨["self", "storage"], [], false⟩),
    ("createEvent", ⟨["self"], ["unique_id"], true⟩),
    ("createEventFromSpecification", ⟨["self", "unique_id", "spec"], [], false⟩),
    ("deleteEvent", ⟨["self", "event"], [], false⟩),
    ("getEvent", ⟨["self", "event_id"], [], false⟩),
    ("hasEvent", ⟨["self", "event_id"], [], false⟩),
    ("getEvents", ⟨["self", "period"], ["search_criteria"], false⟩),
    ("getOccurrences", ⟨["self", "period"], ["search_criteria"], false⟩),
    ("getOccurrencesSegmented", ⟨["self", "period"], ["search_criteria"], false⟩),
    ("getBlockedPeriods", ⟨["self", "attendees", "period", "time_period"], [], false⟩),
    ("getFreePeriods", ⟨["self", "attendees", "period", "time_period"], ["minimal_duration"], false⟩)]),
  -- cal.py line 247
  ("StorageManager", ["StorageManagerBase"], [], []),
  -- cal.py line 250
  ("StorageBase", [], ["IStorage"], [("__init__", ⟨["self", "storage_id"], ["hostname"], false⟩),
    ("_initEvents", ⟨["self"], [], false⟩),
    ("_eventFactory", ⟨["self", "event_id", "spec"], [], false⟩),
    ("createEvent", ⟨["self", "unique_id", "spec"], [], false⟩),
    ("deleteEvent", ⟨["self", "event"], [], false⟩),
    ("getStorageId", ⟨["self"], [], false⟩),
    ("getEvent", ⟨["self", "event_id"], [], false⟩),
    ("getEvents", ⟨["self", "period", "search_criteria"], [], false⟩),
    ("getOccurrences", ⟨["self", "period", "search_criteria"], [], false⟩),
    ("_getMatchingEvents", ⟨["self", "search_criteria"], [], false⟩)]),
  -- cal.py line 311
  ("MemoryStorage", ["StorageBase"], [], [("_initEvents", ⟨["self"], [], false⟩),
    ("_eventFactory", ⟨["self", "event_id", "spec"], [], false⟩)]),
  -- cal.py line 318
  ("SearchCriteria", [], ["ISearchCriteria"], [("__init__", ⟨["self"], ["attendees", "participation_status", "participation_role", "categories", "organizer"], false⟩),
    ("clone", ⟨["self"], ["attendees", "participation_status", "participation_role", "categories", "organizer"], false⟩),
    ("_match", ⟨["self", "event"], [], false⟩)]),
  -- cal.py line 388
  ("NullSearchCriteria", ["SearchCriteria"], [], [("__init__", ⟨["self"], [], false⟩)]),
  -- cal.py line 392
  ("EventBase", [], ["IInvitableCalendarEvent"], [("__init__", ⟨["self", "unique_id", "spec"], [], false⟩),
    ("_initParticipationState", ⟨["self"], [], false⟩),
    ("_initParticipationRole", ⟨["self"], [], false⟩),
    ("invite", ⟨["self", "attendees"], [], false⟩),
    ("setParticipationStatus", ⟨["self", "attendee", "status"], [], false⟩),
    ("_setParticipationStatus", ⟨["self", "attendee", "status"], [], false⟩),
    ("setParticipationRole", ⟨["self", "attendee", "role"], [], false⟩),
    ("alldayAdjust", ⟨["self"], [], false⟩),
    ("getOrganizerId", ⟨["self"], [], false⟩),
    ("inCategory", ⟨["self", "category"], [], false⟩),
    ("getAttendeeIds", ⟨["self"], ["participation_status", "participation_role"], false⟩),
    ("hasAttendee", ⟨["self", "attendee"], [], false⟩),
    ("getParticipationStatus", ⟨["self", "attendee"], [], false⟩),
    ("getParticipationRole", ⟨["self", "attendee"], [], false⟩),
    ("__hash__", ⟨["self"], [], false⟩),
    ("__cmp__", ⟨["self", "other"], [], false⟩),
    ("expand", ⟨["self", "period"], [], false⟩),
    ("export", ⟨["self"], ["private"], false⟩)]),
  -- cal.py line 575
  ("Timed", [], ["ITimed"], [("__init__", ⟨["self", "dtstart", "duration"], [], false⟩)]),
  -- cal.py line 582
  ("Event", ["EventBase"], [], [("_initParticipationState", ⟨["self"], [], false⟩),
    ("_initParticipationRole", ⟨["self"], [], false⟩)]),
  -- cal.py line 589
  ("Occurrence", [], ["ICalendarOccurrence"], [("__init__", ⟨["self", "dtstart", "duration", "original"], [], false⟩)]),
  -- cal.py line 597
  ("AttendeeBase", [], ["IAttendee"], [("__init__", ⟨["self", "attendee_id", "name", "attendee_type"], [], false⟩),
    ("createEvent", ⟨["self"], [], true⟩),
    ("getAttendeeId", ⟨["self"], [], false⟩),
    ("getAttendeeType", ⟨["self"], [], false⟩),
    ("getEvents", ⟨["self", "period"], ["search_criteria"], false⟩),
    ("getOccurrences", ⟨["self", "period"], ["search_criteria"], false⟩),
    ("getOrganizedEvents", ⟨["self"], ["search_criteria"], false⟩),
    ("_getStorageManager", ⟨["self"], [], false⟩)]),
  -- cal.py line 646
  ("Attendee", ["AttendeeBase"], [], [("__init__", ⟨["self", "storage_manager", "attendee_id", "name", "attendee_type"], [], false⟩),
    ("_getStorageManager", ⟨["self"], [], false⟩)]),
  -- cal.py line 658
  ("CalendarBase", [], ["ICalendar"], [("__init__", ⟨["self"], [], false⟩),
    ("_initAttendees", ⟨["self"], [], false⟩),
    ("addAttendee", ⟨["self", "attendee"], [], false⟩),
    ("removeAttendee", ⟨["self", "attendee"], [], false⟩),
    ("getMainAttendeeId", ⟨["self"], [], false⟩),
    ("getMainAttendee", ⟨["self"], [], false⟩),
    ("import_", ⟨["self", "text"], ["period", "search_criteria", "synchronize"], false⟩),
    ("_importExistingEvent", ⟨["self", "uid", "e"], [], false⟩),
    ("_importNewEvent", ⟨["self", "uid", "e"], [], false⟩),
    ("_importEventSpecification", ⟨["self", "e"], [], false⟩),
    ("_getDefaultOrganizer", ⟨["self"], [], false⟩),
    ("_deleteEvent", ⟨["self", "event"], [], false⟩),
    ("_getDtstartDuration", ⟨["self", "component"], [], false⟩),
    ("_getRecurrenceRule", ⟨["self", "rrule"], [], false⟩),
    ("_getCategories", ⟨["self", "e"], [], false⟩),
    ("_repairText", ⟨["self", "text"], [], false⟩),
    ("getEvent", ⟨["self", "event_id"], [], false⟩),
    ("hasEvent", ⟨["self", "event_id"], [], false⟩),
    ("getEvents", ⟨["self", "period"], ["search_criteria"], false⟩),
    ("getOccurrences", ⟨["self", "period"], ["search_criteria"], false⟩),
    ("getOccurrencesSegmented", ⟨["self", "period"], ["search_criteria"], false⟩),
    ("getEventsInDay", ⟨["self", "date"], ["search_criteria"], false⟩),
    ("getOccurrencesInDay", ⟨["self", "date"], ["search_criteria"], false⟩),
    ("getRecentYears", ⟨["self"], [], false⟩),
    ("getCurrentYear", ⟨["self"], [], false⟩),
    ("getToday", ⟨["self"], [], false⟩),
    ("getAttendees", ⟨["self"], [], false⟩),
    ("export", ⟨["self"], ["period", "search_criteria"], false⟩),
    ("_getStorageManager", ⟨["self"], [], false⟩),
    ("_getAttendeeSource", ⟨["self"], [], false⟩)]),
  -- cal.py line 994
  ("Calendar", ["CalendarBase"], [], [("__init__", ⟨["self", "storage_manager", "attendee_source"], [], false⟩),
    ("_getStorageManager", ⟨["self"], [], false⟩),
    ("_getAttendeeSource", ⟨["self"], [], false⟩)]),
  -- cal.py line 1006
  ("SimpleAttendeeSource", [], ["IAttendeeSource"], [("__init__", ⟨["self", "storage_manager"], [], false⟩),
    ("createIndividual", ⟨["self", "attendee_id", "name"], [], false⟩),
    ("createRoom", ⟨["self", "attendee_id", "name"], [], false⟩),
    ("getAttendee", ⟨["self", "attendee_id"], [], false⟩),
    ("getCurrentUserAttendeeId", ⟨["self"], [], false⟩),
    ("getCurrentUserAttendee", ⟨["self"], [], false⟩),
    ("findByName", ⟨["self", "query_str"], ["attendee_type"], false⟩),
    ("getAttendeesOfType", ⟨["self", "attendee_type"], [], false⟩),
    ("getAttendeeTypes", ⟨[], [], false⟩),
    ("getAttendeeFromSpec", ⟨["self", "vcaladdress"], [], false⟩)]),
  -- recurrent.py line 40
  ("BasicRecurrenceRule", [], ["IBasicRecurrenceRule"], [("__init__", ⟨["self"], ["interval", "count", "until", "exceptions"], false⟩),
    ("_validate", ⟨["self"], [], false⟩),
    ("replace", ⟨["self"], ["interval", "count", "until", "exceptions"], false⟩),
    ("__repr__", ⟨["self"], [], false⟩),
    ("_tupleForComparison", ⟨["self"], [], false⟩),
    ("__eq__", ⟨["self", "other"], [], false⟩),
    ("__ne__", ⟨["self", "other"], [], false⟩),
    ("__hash__", ⟨["self"], [], false⟩),
    ("apply", ⟨["self", "event"], ["enddate"], false⟩),
    ("_nextRecurrence", ⟨["self", "date"], [], false⟩),
    ("iCalRepresentation", ⟨["self", "dtstart"], [], false⟩),
    ("_iCalArgs", ⟨["self", "dtstart"], [], false⟩)]),
  -- recurrent.py line 170
  ("NoRecurrenceRule", ["BasicRecurrenceRule"], ["INoRecurrenceRule"], [("apply", ⟨["self", "event"], ["enddate"], false⟩)]),
  -- recurrent.py line 181
  ("DailyRecurrenceRule", ["BasicRecurrenceRule"], ["IDailyRecurrenceRule"], []),
  -- recurrent.py line 188
  ("YearlyRecurrenceRule", ["BasicRecurrenceRule"], ["IYearlyRecurrenceRule"], [("_nextRecurrence", ⟨["self", "date"], [], false⟩),
    ("_iCalArgs", ⟨["self", "dtstart"], [], false⟩)]),
  -- recurrent.py line 205
  ("WeeklyRecurrenceRule", ["BasicRecurrenceRule"], ["IWeeklyRecurrenceRule"], [("__init__", ⟨["self"], ["interval", "count", "until", "exceptions", "weekdays"], false⟩),
    ("__repr__", ⟨["self"], [], false⟩),
    ("_validate", ⟨["self"], [], false⟩),
    ("replace", ⟨["self"], ["interval", "count", "until", "exceptions", "weekdays", "monthly"], false⟩),
    ("_tupleForComparison", ⟨["self"], [], false⟩),
    ("apply", ⟨["self", "event"], ["enddate"], false⟩),
    ("_nextRecurrence", ⟨["self", "date"], [], false⟩),
    ("_iCalArgs", ⟨["self", "dtstart"], [], false⟩)]),
  -- recurrent.py line 288
  ("MonthlyRecurrenceRule", ["BasicRecurrenceRule"], ["IMonthlyRecurrenceRule"], [("__init__", ⟨["self"], ["interval", "count", "until", "exceptions", "monthly"], false⟩),
    ("__repr__", ⟨["self"], [], false⟩),
    ("_validate", ⟨["self"], [], false⟩),
    ("replace", ⟨["self"], ["interval", "count", "until", "exceptions", "weekdays", "monthly"], false⟩),
    ("_tupleForComparison", ⟨["self"], [], false⟩),
    ("_nextRecurrence", ⟨["self", "date"], [], false⟩),
    ("apply", ⟨["self", "event"], ["enddate"], false⟩),
    ("_applyWeekday", ⟨["self", "event"], ["enddate"], false⟩),
    ("_applyLastWeekday", ⟨["self", "event"], ["enddate"], false⟩),
    ("_iCalArgs", ⟨["self", "dtstart"], [], false⟩)]),
  -- events.py line 25
  ("EventEvent", [], ["IEventEvent"], [("__init__", ⟨["self", "event"], [], false⟩)]),
  -- events.py line 33
  ("EventCreatedEvent", ["EventEvent"], ["IEventCreatedEvent"], []),
  -- events.py line 38
  ("EventModifiedEvent", ["EventEvent"], ["IEventModifiedEvent"], []),
  -- events.py line 43
  ("EventDeletedEvent", ["EventEvent"], ["IEventDeletedEvent"], []),
  -- events.py line 48
  ("EventParticipationChangeEvent", ["EventModifiedEvent"], ["IEventParticipationChangeEvent"], [("__init__", ⟨["self", "event", "attendee", "old_status", "new_status"], [], false⟩)])]

/-- The interfaces: name, bases, attributes, and the methods. -/
def interfaces : List (String × List String × List String × List (String × Sig)) := [
  -- interfaces.py line 31
  ("IStorageManager", [], [], [("setStorage", ⟨["storage_id"], [], false⟩),
    ("createEvent", ⟨["unique_id", "dtstart", "duration", "title"], ["description", "location", "status", "organizer", "allday", "transparent", "access"], false⟩),
    ("deleteEvent", ⟨["event"], [], false⟩),
    ("getEvent", ⟨["event_id"], [], false⟩),
    ("hasEvent", ⟨["event_id"], [], false⟩),
    ("getEvents", ⟨["period"], ["search_criteria"], false⟩),
    ("getOccurrences", ⟨["period"], ["search_criteria"], false⟩),
    ("getOccurrencesSegmented", ⟨["period"], ["search_criteria"], false⟩),
    ("getBlockedPeriods", ⟨["attendees", "period", "time_period"], [], false⟩),
    ("getFreePeriods", ⟨["attendees", "period", "time_period"], ["minimum_duration"], false⟩)]),
  -- interfaces.py line 135
  ("IStorage", [], [], [("createEvent", ⟨["unique_id", "spec"], [], false⟩),
    ("deleteEvent", ⟨["event"], [], false⟩),
    ("getStorageId", ⟨[], [], false⟩),
    ("getEvent", ⟨["event_id"], [], false⟩),
    ("getEvents", ⟨["period", "search_criteria"], [], false⟩),
    ("getOccurrences", ⟨["period", "search_criteria"], [], false⟩)]),
  -- interfaces.py line 174
  ("ISearchCriteria", [], ["attendee", "participation_status", "participation_role", "categories", "organizer"], [("clone", ⟨[], ["attendee", "participation_status", "participation_role", "categories", "organizer"], false⟩)]),
  -- interfaces.py line 193
  ("IAttendee", [], [], [("createEvent", ⟨[], [], true⟩),
    ("getAttendeeId", ⟨[], [], false⟩),
    ("getAttendeeType", ⟨[], [], false⟩),
    ("getEvents", ⟨["period"], ["search_criteria"], false⟩),
    ("getOccurrences", ⟨["period"], ["search_criteria"], false⟩),
    ("getOrganizedEvents", ⟨[], [], false⟩)]),
  -- interfaces.py line 240
  ("IAttendeeSource", [], [], [("getAttendee", ⟨["attendee_id"], [], false⟩),
    ("getCurrentUserAttendeeId", ⟨[], [], false⟩),
    ("getCurrentUserAttendee", ⟨[], [], false⟩),
    ("findByName", ⟨["query_str"], ["attendee_type"], false⟩),
    ("getAttendeesOfType", ⟨["attendee_type"], [], false⟩),
    ("getAttendeeTypes", ⟨[], [], false⟩),
    ("getAttendeeFromSpec", ⟨["vcaladdress"], [], false⟩)]),
  -- interfaces.py line 287
  ("ICalendar", [], [], [("addAttendee", ⟨["attendee"], [], false⟩),
    ("removeAttendee", ⟨["attendee"], [], false⟩),
    ("getMainAttendeeId", ⟨[], [], false⟩),
    ("getMainAttendee", ⟨[], [], false⟩),
    ("import_", ⟨["self", "text"], ["period", "search_criteria"], false⟩),
    ("getEvent", ⟨["event_id"], [], false⟩),
    ("hasEvent", ⟨["event_id"], [], false⟩),
    ("getEvents", ⟨["period", "search_criteria"], [], false⟩),
    ("getOccurrences", ⟨["period", "search_criteria"], [], false⟩),
    ("getEventsInDay", ⟨["date"], [], false⟩),
    ("getRecentYears", ⟨[], [], false⟩),
    ("getCurrentYear", ⟨[], [], false⟩),
    ("getToday", ⟨[], [], false⟩),
    ("export", ⟨[], ["period", "search_criteria"], false⟩)]),
  -- interfaces.py line 367
  ("IRecurrenceRule", [], [], [("replace", ⟨[], ["interval", "count", "until", "exceptions"], false⟩),
    ("__eq__", ⟨["other"], [], false⟩),
    ("__ne__", ⟨["other"], [], false⟩),
    ("apply", ⟨["event"], ["enddate"], false⟩),
    ("iCalRepresentation", ⟨["dtstart"], [], false⟩)]),
  -- interfaces.py line 408
  ("INoRecurrenceRule", ["IRecurrenceRule"], [], []),
  -- interfaces.py line 411
  ("IBasicRecurrenceRule", ["IRecurrenceRule"], ["interval", "count", "until"], []),
  -- interfaces.py line 457
  ("IDailyRecurrenceRule", ["IBasicRecurrenceRule"], [], []),
  -- interfaces.py line 461
  ("IYearlyRecurrenceRule", ["IBasicRecurrenceRule"], [], []),
  -- interfaces.py line 465
  ("IWeeklyRecurrenceRule", ["IBasicRecurrenceRule"], ["weekdays"], [("replace", ⟨[], ["interval", "count", "until", "exceptions", "weekdays"], false⟩)]),
  -- interfaces.py line 492
  ("IMonthlyRecurrenceRule", ["IBasicRecurrenceRule"], ["monthly"], [("replace", ⟨[], ["interval", "count", "until", "exceptions", "monthly"], false⟩)]),
  -- interfaces.py line 519
  ("ITimed", [], ["dtstart", "duration"], []),
  -- interfaces.py line 538
  ("ICalendarEvent", ["ITimed"], ["unique_id", "title", "description", "recurrence", "location", "allday"], [("export", ⟨[], ["private"], false⟩)]),
  -- interfaces.py line 621
  ("ICalendarOccurrence", ["ITimed"], ["original"], []),
  -- interfaces.py line 634
  ("IExtendedCalendarEvent", ["ICalendarEvent"], ["categories", "status", "transparent", "access", "document"], []),
  -- interfaces.py line 674
  ("IEventSpecification", ["IExtendedCalendarEvent"], [], [("setOnObject", ⟨["o"], [], false⟩),
    ("willModify", ⟨["o"], [], false⟩)]),
  -- interfaces.py line 699
  ("IInvitableCalendarEvent", ["IExtendedCalendarEvent"], [], [("invite", ⟨["attendees"], [], false⟩),
    ("setParticipationStatus", ⟨["attendee", "status"], [], false⟩),
    ("setParticipationRole", ⟨["attendee", "role"], [], false⟩),
    ("getStorageId", ⟨[], [], false⟩),
    ("getEventId", ⟨[], [], false⟩),
    ("getOrganizerId", ⟨[], [], false⟩),
    ("inCategory", ⟨["category"], [], false⟩),
    ("getAttendeeIds", ⟨[], ["participation_status", "participation_role"], false⟩),
    ("hasAttendee", ⟨["attendee"], [], false⟩),
    ("getParticipationStatus", ⟨["attendee"], [], false⟩),
    ("getParticipationRole", ⟨["attendee"], [], false⟩),
    ("__hash__", ⟨[], [], false⟩)]),
  -- interfaces.py line 789
  ("IEventEvent", [], ["event"], []),
  -- interfaces.py line 794
  ("IEventCreatedEvent", ["IEventEvent"], [], []),
  -- interfaces.py line 797
  ("IEventModifiedEvent", ["IEventEvent"], [], []),
  -- interfaces.py line 800
  ("IEventDeletedEvent", ["IEventEvent"], [], []),
  -- interfaces.py line 803
  ("IEventParticipationChangeEvent", ["IEventModifiedEvent"], ["attendee", "old_status", "old_status"], [])]

end CalCore.Lang.Source
