import Verif.Source.Util
import Verif.Source.Isoweek
import Verif.Source.Recurrent
import Verif.Source.Events
import Verif.Source.Cal
/- The program made of the syntax trees, written by tools/translate.py: do not edit. -/
namespace CalCore.Lang.Source

/-- The functions by name. -/
def funs : List (String × FunDef) := [
  ("removeOverlaps", removeOverlaps),
  ("getWeeksInYear", getWeeksInYear),
  ("weeknr2datetime", weeknr2datetime),
  ("weekspan", weekspan),
  ("monthindex", monthindex),
  ("BasicRecurrenceRule.__init__", BasicRecurrenceRule_init),
  ("BasicRecurrenceRule._validate", BasicRecurrenceRule_validate),
  ("BasicRecurrenceRule.replace", BasicRecurrenceRule_replace),
  ("BasicRecurrenceRule.apply", BasicRecurrenceRule_apply),
  ("BasicRecurrenceRule._nextRecurrence", BasicRecurrenceRule_nextRecurrence),
  ("NoRecurrenceRule.apply", NoRecurrenceRule_apply),
  ("YearlyRecurrenceRule._nextRecurrence", YearlyRecurrenceRule_nextRecurrence),
  ("WeeklyRecurrenceRule.__init__", WeeklyRecurrenceRule_init),
  ("WeeklyRecurrenceRule._validate", WeeklyRecurrenceRule_validate),
  ("WeeklyRecurrenceRule.replace", WeeklyRecurrenceRule_replace),
  ("WeeklyRecurrenceRule.apply", WeeklyRecurrenceRule_apply),
  ("WeeklyRecurrenceRule._nextRecurrence", WeeklyRecurrenceRule_nextRecurrence),
  ("MonthlyRecurrenceRule.__init__", MonthlyRecurrenceRule_init),
  ("MonthlyRecurrenceRule._validate", MonthlyRecurrenceRule_validate),
  ("MonthlyRecurrenceRule.replace", MonthlyRecurrenceRule_replace),
  ("MonthlyRecurrenceRule._nextRecurrence", MonthlyRecurrenceRule_nextRecurrence),
  ("MonthlyRecurrenceRule.apply", MonthlyRecurrenceRule_apply),
  ("MonthlyRecurrenceRule._applyWeekday", MonthlyRecurrenceRule_applyWeekday),
  ("MonthlyRecurrenceRule._applyLastWeekday", MonthlyRecurrenceRule_applyLastWeekday),
  ("BasicRecurrenceRule._tupleForComparison", BasicRecurrenceRule_tupleForComparison),
  ("BasicRecurrenceRule.__eq__", BasicRecurrenceRule__eq_),
  ("BasicRecurrenceRule.__ne__", BasicRecurrenceRule__ne_),
  ("WeeklyRecurrenceRule._tupleForComparison", WeeklyRecurrenceRule_tupleForComparison),
  ("MonthlyRecurrenceRule._tupleForComparison", MonthlyRecurrenceRule_tupleForComparison),
  ("ical_date", ical_date),
  ("ical_datetime", ical_datetime),
  ("BasicRecurrenceRule.iCalRepresentation", BasicRecurrenceRule_iCalRepresentation),
  ("BasicRecurrenceRule._iCalArgs", BasicRecurrenceRule_iCalArgs),
  ("YearlyRecurrenceRule._iCalArgs", YearlyRecurrenceRule_iCalArgs),
  ("WeeklyRecurrenceRule._iCalArgs", WeeklyRecurrenceRule_iCalArgs),
  ("MonthlyRecurrenceRule._iCalArgs", MonthlyRecurrenceRule_iCalArgs),
  ("BasicRecurrenceRule.__repr__", BasicRecurrenceRule__repr_),
  ("WeeklyRecurrenceRule.__repr__", WeeklyRecurrenceRule__repr_),
  ("MonthlyRecurrenceRule.__repr__", MonthlyRecurrenceRule__repr_),
  ("BasicRecurrenceRule.__hash__", BasicRecurrenceRule__hash_),
  ("EventEvent.__init__", EventEvent_init),
  ("EventParticipationChangeEvent.__init__", EventParticipationChangeEvent_init),
  ("inPeriod", inPeriod),
  ("sameDay", sameDay),
  ("roundtimedelta", roundtimedelta),
  ("assertPeriodBounded", assertPeriodBounded),
  ("segmentOccurrences", segmentOccurrences),
  ("Timed.__init__", Timed_init),
  ("Occurrence.__init__", Occurrence_init),
  ("SearchCriteria.__init__", SearchCriteria_init),
  ("SearchCriteria.clone", SearchCriteria_clone),
  ("SearchCriteria._match", SearchCriteria_match),
  ("NullSearchCriteria.__init__", NullSearchCriteria_init),
  ("EventBase.getOrganizerId", EventBase_getOrganizerId),
  ("EventBase.inCategory", EventBase_inCategory),
  ("EventBase.getAttendeeIds", EventBase_getAttendeeIds),
  ("EventBase.hasAttendee", EventBase_hasAttendee),
  ("EventBase.getParticipationStatus", EventBase_getParticipationStatus),
  ("EventBase.getParticipationRole", EventBase_getParticipationRole),
  ("EventBase.expand", EventBase_expand),
  ("AttendeeBase.getAttendeeId", AttendeeBase_getAttendeeId),
  ("AttendeeBase.getAttendeeType", AttendeeBase_getAttendeeType),
  ("StorageBase.getEvent", StorageBase_getEvent),
  ("StorageBase.getEvents", StorageBase_getEvents),
  ("StorageBase.getOccurrences", StorageBase_getOccurrences),
  ("StorageBase._getMatchingEvents", StorageBase_getMatchingEvents),
  ("StorageManagerBase.getEvent", StorageManagerBase_getEvent),
  ("StorageManagerBase.hasEvent", StorageManagerBase_hasEvent),
  ("StorageManagerBase.getEvents", StorageManagerBase_getEvents),
  ("StorageManagerBase.getOccurrences", StorageManagerBase_getOccurrences),
  ("StorageManagerBase.getOccurrencesSegmented", StorageManagerBase_getOccurrencesSegmented),
  ("StorageManagerBase.getBlockedPeriods", StorageManagerBase_getBlockedPeriods),
  ("StorageManagerBase.getFreePeriods", StorageManagerBase_getFreePeriods),
  ("Period", Period),
  ("float_datetime", float_datetime),
  ("iso8601", iso8601),
  ("EventSpecification.__init__", EventSpecification_init),
  ("EventSpecification.setOnObject", EventSpecification_setOnObject),
  ("EventSpecification.willModify", EventSpecification_willModify),
  ("EventBase.__init__", EventBase_init),
  ("EventBase._initParticipationState", EventBase_initParticipationState),
  ("EventBase._initParticipationRole", EventBase_initParticipationRole),
  ("Event._initParticipationState", Event_initParticipationState),
  ("Event._initParticipationRole", Event_initParticipationRole),
  ("EventBase.invite", EventBase_invite),
  ("EventBase.setParticipationStatus", EventBase_setParticipationStatus),
  ("EventBase._setParticipationStatus", EventBase_setParticipationStatus_),
  ("EventBase.setParticipationRole", EventBase_setParticipationRole),
  ("EventBase.alldayAdjust", EventBase_alldayAdjust),
  ("EventBase.export", EventBase_export),
  ("StorageManagerBase.__init__", StorageManagerBase_init),
  ("StorageManagerBase.setStorage", StorageManagerBase_setStorage),
  ("StorageManagerBase.createEventFromSpecification", StorageManagerBase_createEventFromSpecification),
  ("StorageManagerBase.deleteEvent", StorageManagerBase_deleteEvent),
  ("StorageBase._initEvents", StorageBase_initEvents),
  ("StorageBase._eventFactory", StorageBase_eventFactory),
  ("StorageBase.deleteEvent", StorageBase_deleteEvent),
  ("StorageBase.getStorageId", StorageBase_getStorageId),
  ("MemoryStorage._initEvents", MemoryStorage_initEvents),
  ("MemoryStorage._eventFactory", MemoryStorage_eventFactory),
  ("StorageBase.createEvent", StorageBase_createEvent),
  ("AttendeeBase.__init__", AttendeeBase_init),
  ("AttendeeBase.getEvents", AttendeeBase_getEvents),
  ("AttendeeBase.getOccurrences", AttendeeBase_getOccurrences),
  ("AttendeeBase.getOrganizedEvents", AttendeeBase_getOrganizedEvents),
  ("AttendeeBase._getStorageManager", AttendeeBase_getStorageManager),
  ("Attendee.__init__", Attendee_init),
  ("Attendee._getStorageManager", Attendee_getStorageManager),
  ("CalendarBase.__init__", CalendarBase_init),
  ("CalendarBase._initAttendees", CalendarBase_initAttendees),
  ("CalendarBase.addAttendee", CalendarBase_addAttendee),
  ("CalendarBase.removeAttendee", CalendarBase_removeAttendee),
  ("CalendarBase.getMainAttendeeId", CalendarBase_getMainAttendeeId),
  ("CalendarBase.getMainAttendee", CalendarBase_getMainAttendee),
  ("CalendarBase._importEventSpecification", CalendarBase_importEventSpecification),
  ("CalendarBase._getDefaultOrganizer", CalendarBase_getDefaultOrganizer),
  ("CalendarBase._getDtstartDuration", CalendarBase_getDtstartDuration),
  ("CalendarBase._getRecurrenceRule", CalendarBase_getRecurrenceRule),
  ("CalendarBase._getCategories", CalendarBase_getCategories),
  ("CalendarBase._repairText", CalendarBase_repairText),
  ("CalendarBase.import_", CalendarBase_import_),
  ("CalendarBase._importExistingEvent", CalendarBase_importExistingEvent),
  ("CalendarBase._importNewEvent", CalendarBase_importNewEvent),
  ("CalendarBase._deleteEvent", CalendarBase_deleteEvent),
  ("CalendarBase.getEvent", CalendarBase_getEvent),
  ("CalendarBase.hasEvent", CalendarBase_hasEvent),
  ("CalendarBase.getEvents", CalendarBase_getEvents),
  ("CalendarBase.getOccurrences", CalendarBase_getOccurrences),
  ("CalendarBase.getOccurrencesSegmented", CalendarBase_getOccurrencesSegmented),
  ("CalendarBase.getEventsInDay", CalendarBase_getEventsInDay),
  ("CalendarBase.getOccurrencesInDay", CalendarBase_getOccurrencesInDay),
  ("CalendarBase.getAttendees", CalendarBase_getAttendees),
  ("CalendarBase._getStorageManager", CalendarBase_getStorageManager),
  ("CalendarBase._getAttendeeSource", CalendarBase_getAttendeeSource),
  ("Calendar.__init__", Calendar_init),
  ("Calendar._getStorageManager", Calendar_getStorageManager),
  ("Calendar._getAttendeeSource", Calendar_getAttendeeSource),
  ("SimpleAttendeeSource.__init__", SimpleAttendeeSource_init),
  ("SimpleAttendeeSource.createIndividual", SimpleAttendeeSource_createIndividual),
  ("SimpleAttendeeSource.createRoom", SimpleAttendeeSource_createRoom),
  ("SimpleAttendeeSource.getAttendee", SimpleAttendeeSource_getAttendee),
  ("SimpleAttendeeSource.getCurrentUserAttendeeId", SimpleAttendeeSource_getCurrentUserAttendeeId),
  ("SimpleAttendeeSource.getCurrentUserAttendee", SimpleAttendeeSource_getCurrentUserAttendee),
  ("SimpleAttendeeSource.findByName", SimpleAttendeeSource_findByName),
  ("SimpleAttendeeSource.getAttendeesOfType", SimpleAttendeeSource_getAttendeesOfType),
  ("CalendarBase.export", CalendarBase_export),
  ("SimpleAttendeeSource.getAttendeeTypes", SimpleAttendeeSource_getAttendeeTypes),
  ("SimpleAttendeeSource.getAttendeeFromSpec", SimpleAttendeeSource_getAttendeeFromSpec),
  ("StorageManagerBase.createEvent", StorageManagerBase_createEvent),
  ("StorageBase.__init__", StorageBase_init),
  ("EventBase.__hash__", EventBase__hash_),
  ("EventBase.__cmp__", EventBase__cmp_),
  ("CalendarVocabularyFactory", CalendarVocabularyFactory),
  ("CalendarEventStatusVocabulary", CalendarEventStatusVocabulary),
  ("CalendarEventAccessVocabulary", CalendarEventAccessVocabulary),
  ("CalendarMontlyRecurrenceTypeVocabulary", CalendarMontlyRecurrenceTypeVocabulary),
  ("CalendarWeekdaysVocabulary", CalendarWeekdaysVocabulary),
  ("addrspec_unique_id", addrspec_unique_id),
  ("CalendarBase.getToday", CalendarBase_getToday),
  ("CalendarBase.getCurrentYear", CalendarBase_getCurrentYear),
  ("CalendarBase.getRecentYears", CalendarBase_getRecentYears),
  ("AttendeeBase.createEvent", AttendeeBase_createEvent)]

/-- The base classes. -/
def bases : List (String × String) := [
  ("NoRecurrenceRule", "BasicRecurrenceRule"),
  ("DailyRecurrenceRule", "BasicRecurrenceRule"),
  ("YearlyRecurrenceRule", "BasicRecurrenceRule"),
  ("WeeklyRecurrenceRule", "BasicRecurrenceRule"),
  ("MonthlyRecurrenceRule", "BasicRecurrenceRule"),
  ("EventCreatedEvent", "EventEvent"),
  ("EventModifiedEvent", "EventEvent"),
  ("EventDeletedEvent", "EventEvent"),
  ("EventParticipationChangeEvent", "EventModifiedEvent"),
  ("StorageManager", "StorageManagerBase"),
  ("MemoryStorage", "StorageBase"),
  ("NullSearchCriteria", "SearchCriteria"),
  ("Event", "EventBase"),
  ("Attendee", "AttendeeBase"),
  ("Calendar", "CalendarBase")]

/-- The global variables. -/
def globals : List (String × Val) := [
  ("ical_weekdays", (.list [(.str "MO"), (.str "TU"), (.str "WE"), (.str "TH"), (.str "FR"), (.str "SA"), (.str "SU")]))]

/-- The attributes of classes. -/
def consts : List (String × Val) := [
  ("BasicRecurrenceRule.ical_freq", .none),
  ("DailyRecurrenceRule.ical_freq", (.str "DAILY")),
  ("YearlyRecurrenceRule.ical_freq", (.str "YEARLY")),
  ("WeeklyRecurrenceRule.ical_freq", (.str "WEEKLY")),
  ("MonthlyRecurrenceRule.ical_freq", (.str "MONTHLY"))]

/-- The functions that are not translated. -/
def others : List String := [
]

/-- The values of the global variables. -/
class Globals where
  vars : List (String × Val)

/-- Those of the text, if nothing else is said.  The clock and the name of the host are not among them. -/
instance : Globals := ⟨globals⟩

/-- Those of the text, the clock and the name of the host, at a time on a host. -/
@[reducible] def world (now : Int) (host : String) : Globals := ⟨("clock", .datetime now) :: ("fqdn", .str host) :: globals⟩

/-- Those of the text, and what the parser does with texts (see `parseWith`). -/
@[reducible] def reading (parser : Val) : Globals := ⟨("parser", parser) :: globals⟩

/-- The program. -/
def prog [G : Globals] : Prog := ⟨funs, bases, G.vars, consts, others⟩

end CalCore.Lang.Source
