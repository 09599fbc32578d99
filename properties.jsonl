{"id": "C01", "title": "removeOverlaps preserves the covered time", "statement": "For every list of (start, end) tuples passed to util.removeOverlaps, a point t lies in some half-open tuple [start, end) of the result exactly when it lies in some tuple of the argument.", "quantifier": "every list of tuples, of any length, in any order, with duplicates, empty and inverted tuples", "why_tests_cant": "Tests try seven literal lists; merging errors appear only for particular overlap patterns of which there are unboundedly many.", "anchors": ["src/calcore/util.py:removeOverlaps"]}
{"id": "C02", "title": "removeOverlaps returns sorted, strictly separated tuples", "statement": "For every argument, consecutive tuples of the result satisfy end_i < start_{i+1} (no overlap and no touching) and starts are non-decreasing; if all argument tuples have start <= end so have all result tuples; the empty list gives the empty list.", "quantifier": "every list of tuples", "why_tests_cant": "Any missed merge shows only on a specific interleaving of tuples; lists are unbounded.", "anchors": ["src/calcore/util.py:removeOverlaps"]}
{"id": "C03", "title": "removeOverlaps is a canonical form", "statement": "For lists of non-empty tuples (start < end), two arguments covering the same set of points give the identical result list; in particular the result does not depend on the order or repetition of the argument and the function is idempotent.", "quantifier": "every pair of lists of non-empty tuples covering the same points", "why_tests_cant": "Relates two runs on arbitrary inputs; a sample of pairs cannot establish it.", "anchors": ["src/calcore/util.py:removeOverlaps"]}
{"id": "C04", "title": "weeknr2datetime inverts isocalendar", "statement": "For every year, every week number the year has and every weekday 1..7, if weeknr2datetime(year, week, weekday) returns a datetime then its isocalendar() is (year, week, weekday) and its time of day is midnight; it raises only when that day is outside the datetime range; with weekday omitted it is the Monday.", "quantifier": "every year 1..9999, every week 1..getWeeksInYear(year), every weekday", "why_tests_cant": "Leap-year and 53-week patterns repeat with a period of 400 years; the tests check one week of 2005.", "anchors": ["src/calcore/isoweek.py:weeknr2datetime"]}
{"id": "C05", "title": "getWeeksInYear is the number of ISO weeks", "statement": "For every year, getWeeksInYear(year) is 53 exactly when the ISO year has 53 weeks (the Monday of week 1 of the next year is 53 weeks after the Monday of week 1 of this year) and 52 otherwise.", "quantifier": "every year 1..9998 (and the arithmetic for all integers)", "why_tests_cant": "The tests check six years of the 400-year cycle.", "anchors": ["src/calcore/isoweek.py:getWeeksInYear"]}
{"id": "C06", "title": "weekspan counts ISO-week boundaries", "statement": "For all dates, weekspan(a, b) is the number of weeks between the Mondays of their ISO weeks: 0 exactly when they lie in the same ISO week, additive along chains, antisymmetric, and shifted by one when b moves by seven days.", "quantifier": "every pair (triple) of dates", "why_tests_cant": "Holds for all pairs of dates; no unit test exercises it at all.", "anchors": ["src/calcore/recurrent.py:weekspan"]}
{"id": "C07", "title": "monthindex returns the n-th weekday of the month", "statement": "For index 1..4 (or -4..-1), monthindex(year, month, index, weekday) is a date of that month, falls on that weekday, and exactly index-1 (or -index-1) earlier (later) days of the month fall on that weekday; for index 5 or -5 it still has the right weekday and lies 28 or 35 days after (before) but may leave the month.", "quantifier": "every year, month, weekday and index", "why_tests_cant": "Depends on month length, leap years and weekday alignment jointly; only exhaustive reasoning covers all combinations and year boundaries.", "anchors": ["src/calcore/recurrent.py:monthindex"]}
{"id": "C08", "title": "Daily recurrence generates exactly start + k*interval", "statement": "For every validated daily rule, event start and end date, apply() yields, in increasing order, exactly the dates start + k*interval that are <= enddate, <= until, with k < count, and not listed in exceptions.", "quantifier": "every start date, interval >= 1, count, until, exceptions, enddate within the datetime range", "why_tests_cant": "Unbounded in interval, number of steps and bounds.", "anchors": ["src/calcore/recurrent.py:BasicRecurrenceRule.apply", "src/calcore/recurrent.py:DailyRecurrenceRule"]}
{"id": "C09", "title": "Yearly recurrence keeps month and day", "statement": "For every validated yearly rule, apply() yields exactly the dates with the month and day of the start in the years start.year + k*interval, subject to count, until, enddate and exceptions, and never raises.", "quantifier": "every start date including 29 February, interval, count, until, exceptions, enddate", "why_tests_cant": "Leap-day behaviour depends on the year arithmetic over centuries.", "anchors": ["src/calcore/recurrent.py:YearlyRecurrenceRule._nextRecurrence", "src/calcore/recurrent.py:BasicRecurrenceRule.apply"]}
{"id": "C10", "title": "Weekly recurrence generates exactly the chosen weekdays of every interval-th ISO week", "statement": "For every validated weekly rule, apply() yields in order exactly the dates d >= start whose ISO week is a multiple of interval weeks after the start's week and whose weekday is in weekdays or is the start's weekday, restricted to the first count of these, d <= until, d <= enddate, and d not in exceptions.", "quantifier": "every start, interval, weekday set, count, until, exceptions, enddate", "why_tests_cant": "Interaction of week phase, weekday set and count over unbounded ranges.", "anchors": ["src/calcore/recurrent.py:WeeklyRecurrenceRule.apply", "src/calcore/recurrent.py:weekspan"]}
{"id": "C11", "title": "Monthly 'monthday' recurrence keeps the day of the month", "statement": "For every validated monthly rule with monthly='monthday', apply() yields in order exactly the dates with the start's day number in the months start+j*interval that have such a day, subject to count (counting generated dates only), until, enddate and exceptions.", "quantifier": "every start date incl. days 29-31, every interval, bounds", "why_tests_cant": "Month skipping depends on leap years and on interval mod 12.", "anchors": ["src/calcore/recurrent.py:MonthlyRecurrenceRule._nextRecurrence", "src/calcore/recurrent.py:MonthlyRecurrenceRule.apply"]}
{"id": "C12", "title": "Monthly 'weekday' recurrence stays on the same week and weekday of the month", "statement": "For every validated monthly rule with monthly='weekday', the j-th generated date is the n-th weekday of month start+j*interval where n and weekday are those of the start, and it lies inside that month.", "quantifier": "every start date, interval, count, until, exceptions, enddate", "why_tests_cant": "Depends on weekday alignment of every month.", "anchors": ["src/calcore/recurrent.py:MonthlyRecurrenceRule._applyWeekday", "src/calcore/recurrent.py:monthindex"]}
{"id": "C13", "title": "Monthly 'lastweekday' recurrence counts from the end of the month", "statement": "For every validated monthly rule with monthly='lastweekday', the j-th generated date is the n-th-last weekday of month start+j*interval where n and weekday are those of the start, and it lies inside that month; the first one is the start itself.", "quantifier": "every start date, interval, count, until, exceptions, enddate", "why_tests_cant": "Depends on month lengths and weekday alignment of every month, including negative floor division.", "anchors": ["src/calcore/recurrent.py:MonthlyRecurrenceRule._applyLastWeekday", "src/calcore/recurrent.py:monthindex"]}
{"id": "C14", "title": "Recurrence dates are strictly increasing and begin at the event", "statement": "For every rule of every class with interval >= 1, the dates generated by apply() are strictly increasing (hence no date twice), none precedes the event's start date, and the start date itself is generated first unless it is excepted or cut off by a bound.", "quantifier": "every rule class, rule parameters, start and enddate, and every prefix of the generation", "why_tests_cant": "Must hold at every step of an unbounded generator.", "anchors": ["src/calcore/recurrent.py:BasicRecurrenceRule.apply", "src/calcore/recurrent.py:WeeklyRecurrenceRule.apply", "src/calcore/recurrent.py:MonthlyRecurrenceRule.apply"]}
{"id": "C15", "title": "Recurrence bounds are respected", "statement": "For every rule (validated or not) and every prefix of apply(): no date exceeds enddate, none exceeds until, none is in exceptions, and at most count dates are generated.", "quantifier": "every rule of every class incl. rules mutated after construction, every start, every prefix of the generation", "why_tests_cant": "Quantifies over all prefixes of an unbounded generator and all parameter values.", "anchors": ["src/calcore/recurrent.py:BasicRecurrenceRule.apply", "src/calcore/recurrent.py:WeeklyRecurrenceRule.apply", "src/calcore/recurrent.py:MonthlyRecurrenceRule._applyWeekday", "src/calcore/recurrent.py:MonthlyRecurrenceRule._applyLastWeekday"]}
{"id": "C16", "title": "enddate only truncates", "statement": "For every validated rule, apply(event, e1) is exactly the part of apply(event, e2) that is <= e1, whenever e1 <= e2 and both complete.", "quantifier": "every rule, start and pair of end dates", "why_tests_cant": "Relates two runs with arbitrary parameters.", "anchors": ["src/calcore/recurrent.py:BasicRecurrenceRule.apply", "src/calcore/recurrent.py:WeeklyRecurrenceRule.apply", "src/calcore/recurrent.py:MonthlyRecurrenceRule.apply"]}
{"id": "C17", "title": "Expansion terminates", "statement": "For every recurrence rule an event can carry (built by a constructor or by import_), apply() with an enddate stops after finitely many steps, so getOccurrences returns or raises instead of hanging.", "quantifier": "every rule obtainable through constructors, attribute assignment or iCalendar import; every start and enddate", "why_tests_cant": "Non-termination cannot be observed by a test.", "anchors": ["src/calcore/recurrent.py:BasicRecurrenceRule.apply", "src/calcore/recurrent.py:MonthlyRecurrenceRule._nextRecurrence", "src/calcore/cal.py:CalendarBase._getRecurrenceRule"]}
{"id": "C18", "title": "Rule equality, hash and replace agree", "statement": "Two rules compare equal exactly when they are of the same class with the same interval, count, until, exceptions (and weekdays/monthly); equality is an equivalence; equal rules have equal hash; replace() without arguments returns an equal rule and replace(field=v) changes exactly that field or raises ValueError when the constructor would.", "quantifier": "every pair of rules of every class, every replacement", "why_tests_cant": "Relational property over all rules.", "anchors": ["src/calcore/recurrent.py:BasicRecurrenceRule.__eq__", "src/calcore/recurrent.py:BasicRecurrenceRule.replace", "src/calcore/recurrent.py:WeeklyRecurrenceRule.replace", "src/calcore/recurrent.py:MonthlyRecurrenceRule.replace"]}
{"id": "C19", "title": "Every rule an event carries is valid", "statement": "Rule constructors succeed exactly on interval >= 1, not both count and until, weekdays within 0..6, monthly one of the three names, and raise ValueError otherwise; every rule created by import_ satisfies the same conditions.", "quantifier": "every constructor argument tuple and every imported RRULE", "why_tests_cant": "All argument combinations and all imported RRULEs.", "anchors": ["src/calcore/recurrent.py:BasicRecurrenceRule._validate", "src/calcore/recurrent.py:WeeklyRecurrenceRule._validate", "src/calcore/recurrent.py:MonthlyRecurrenceRule._validate", "src/calcore/cal.py:CalendarBase._getRecurrenceRule"]}
{"id": "C20", "title": "getEvents uses half-open overlap", "statement": "getEvents(period, criteria) returns exactly the stored events that satisfy the criteria and whose half-open interval [dtstart, dtstart+duration) meets [begin, end) (either end may be None meaning unbounded), each once; a zero-length event counts when begin < dtstart < end.", "quantifier": "every storage content, period (incl. None ends) and criteria", "why_tests_cant": "All histories of the store and all periods.", "anchors": ["src/calcore/cal.py:inPeriod", "src/calcore/cal.py:StorageBase.getEvents", "src/calcore/cal.py:StorageManagerBase.getEvents"]}
{"id": "C21", "title": "Segmenting preserves time exactly", "statement": "For every period and list of occurrences, the segments returned by segmentOccurrences cover a point t of the period exactly as many times as the occurrences do and cover nothing outside the period: no time is lost, invented or counted twice; each segment refers to the original of an occurrence covering it.", "quantifier": "every period, every list of occurrences of any length and duration", "why_tests_cant": "Unbounded number of day borders and occurrences; tests check a dozen literals.", "anchors": ["src/calcore/cal.py:segmentOccurrences"]}
{"id": "C22", "title": "Each segment fits in one day and in the period", "statement": "Every segment returned by segmentOccurrences starts and ends within one calendar day (its end is at most the following midnight), lies within the period, and is non-empty when the occurrence is.", "quantifier": "every period and list of occurrences", "why_tests_cant": "Boundary cases at midnight for any duration.", "anchors": ["src/calcore/cal.py:segmentOccurrences"]}
{"id": "C23", "title": "Period queries are mutually consistent", "statement": "For every store, criteria and bounded periods p inside q, getOccurrences(p) is exactly the part of getOccurrences(q) that overlaps p.", "quantifier": "every store content (incl. recurring events of every class), criteria, pair of nested periods", "why_tests_cant": "Relates two queries over arbitrary stores.", "anchors": ["src/calcore/cal.py:EventBase.expand", "src/calcore/cal.py:StorageBase.getOccurrences"]}
{"id": "C24", "title": "getOccurrences is sound and complete for recurring events", "statement": "For every event with a validated rule and every bounded period, the occurrences are exactly one per recurrence date of the (unbounded) rule whose interval (that date at the event's time of day, with the event's duration) overlaps the period; for an event without rule, the event itself when it overlaps.", "quantifier": "every event, rule class, bounded period", "why_tests_cant": "The unbounded rule has infinitely many dates; enddate cut-off must not lose any.", "anchors": ["src/calcore/cal.py:EventBase.expand", "src/calcore/recurrent.py:BasicRecurrenceRule.apply"]}
{"id": "C25", "title": "Blocked periods are sorted and disjoint", "statement": "For all attendees, period and time window, the list returned by getBlockedPeriods is sorted, its periods do not overlap or touch, and each has begin <= end.", "quantifier": "every store, attendee list, period, time window", "why_tests_cant": "Clipping to the day window creates inverted intervals for some inputs; all combinations matter.", "anchors": ["src/calcore/cal.py:StorageManagerBase.getBlockedPeriods", "src/calcore/util.py:removeOverlaps"]}
{"id": "C26", "title": "Blocked periods are exactly the busy time plus out-of-window time", "statement": "For every instant t of the period: t is in a blocked period exactly when t's time of day is outside [time_begins, time_ends) or some given attendee has an occurrence covering t of an event that is not transparent, not canceled, and which the attendee has not declined or delegated.", "quantifier": "every store (incl. recurring and multi-day events), attendee list, period, time window, instant", "why_tests_cant": "A pointwise statement for all instants and stores.", "anchors": ["src/calcore/cal.py:StorageManagerBase.getBlockedPeriods", "src/calcore/cal.py:segmentOccurrences"]}
{"id": "C27", "title": "Blocked and free periods do not depend on iteration order", "statement": "getBlockedPeriods and getFreePeriods return the identical list for any reordering or repetition of the attendees argument and any iteration order of the storage's event dictionary.", "quantifier": "every permutation of attendees and of the stored events", "why_tests_cant": "Dictionary order is unspecified in Python 2; tests see one order.", "anchors": ["src/calcore/cal.py:StorageManagerBase.getBlockedPeriods", "src/calcore/cal.py:StorageManagerBase.getFreePeriods"]}
{"id": "C28", "title": "More attendees never free up time", "statement": "Adding attendees to the query can only add blocked time: every instant blocked for a list of attendees is blocked for every list containing it.", "quantifier": "every store, pair of attendee lists with inclusion, instant", "why_tests_cant": "Relates two runs over arbitrary stores.", "anchors": ["src/calcore/cal.py:StorageManagerBase.getBlockedPeriods"]}
{"id": "C29", "title": "Free periods are exactly the unblocked window time of the period", "statement": "For every period, time window and attendees, an instant t is in some period returned by getFreePeriods (no minimal duration) exactly when t lies in the period, its time of day is inside the window, and no attendee is busy at t; every returned period has begin < end.", "quantifier": "every store, attendee list, period (any begin and end time), time window, instant", "why_tests_cant": "A pointwise statement for all instants; boundary combinations of period and window are unbounded.", "anchors": ["src/calcore/cal.py:StorageManagerBase.getFreePeriods"]}
{"id": "C30", "title": "Minimal duration only filters", "statement": "getFreePeriods with a minimal duration returns exactly those periods of the unrestricted answer that last at least that long, in the same order.", "quantifier": "every store, attendee list, period, window, minimal duration", "why_tests_cant": "Relates two runs over arbitrary stores.", "anchors": ["src/calcore/cal.py:StorageManagerBase.getFreePeriods"]}
{"id": "C31", "title": "A free slot can be booked", "statement": "No period returned by getFreePeriods overlaps an occurrence of a blocking event of any given attendee.", "quantifier": "every store, attendee list, period, window", "why_tests_cant": "Safety property over all stores and instants.", "anchors": ["src/calcore/cal.py:StorageManagerBase.getFreePeriods", "src/calcore/cal.py:StorageManagerBase.getBlockedPeriods"]}
{"id": "C32", "title": "The store behaves like a map from uid to event", "statement": "For every sequence of createEvent, deleteEvent, event mutations and queries through the storage manager, getEvent(uid) returns the latest state of the event last created under uid and not deleted since, hasEvent agrees, and getEvent/deleteEvent raise KeyError exactly when there is none.", "quantifier": "every operation sequence", "why_tests_cant": "All histories.", "anchors": ["src/calcore/cal.py:StorageManagerBase", "src/calcore/cal.py:StorageBase.createEvent", "src/calcore/cal.py:StorageBase.deleteEvent", "src/calcore/cal.py:StorageBase.getEvent"]}
{"id": "C33", "title": "Generated ids are fresh", "statement": "createEvent without a unique_id never reuses the id of an event present in the store, so it never replaces an existing event.", "quantifier": "every history of creations (with and without explicit ids) and deletions, every clock reading", "why_tests_cant": "All histories and clock readings.", "anchors": ["src/calcore/cal.py:StorageBase.createEvent", "src/calcore/cal.py:addrspec_unique_id", "src/calcore/cal.py:iso8601"]}
{"id": "C34", "title": "Notifications mirror the store", "statement": "A subscriber that adds uids on created and removes them on deleted notifications always holds exactly the uids in the store; failed operations notify nothing.", "quantifier": "every history of storage manager operations", "why_tests_cant": "All histories.", "anchors": ["src/calcore/cal.py:StorageManagerBase.createEventFromSpecification", "src/calcore/cal.py:StorageManagerBase.deleteEvent", "src/calcore/events.py"]}
{"id": "C35", "title": "Each event is reported once", "statement": "getEvents never reports the same uid twice and getOccurrences never reports the same (event, start) twice.", "quantifier": "every history, period and criteria", "why_tests_cant": "All histories.", "anchors": ["src/calcore/cal.py:StorageBase.getEvents", "src/calcore/cal.py:StorageBase.getOccurrences"]}
{"id": "C36", "title": "Search criteria are a conjunction", "statement": "An event matches SearchCriteria exactly when: categories is None or shares an element with the event's; organizer is None or is the event's organizer; and attendees is None or one of them attends with the requested status (if given) and role (if given).", "quantifier": "every event and criteria", "why_tests_cant": "All combinations of optional fields and attendee lists.", "anchors": ["src/calcore/cal.py:SearchCriteria._match"]}
{"id": "C37", "title": "Attendee and calendar queries only show their own events", "statement": "attendee.getEvents(period, criteria) returns only events the attendee attends, and calendar.getEvents(period, criteria) only events attended by an attendee of that calendar, whatever the criteria.", "quantifier": "every store, attendee, calendar, period, criteria", "why_tests_cant": "All criteria objects and stores.", "anchors": ["src/calcore/cal.py:AttendeeBase.getEvents", "src/calcore/cal.py:CalendarBase.getEvents", "src/calcore/cal.py:SearchCriteria.clone"]}
{"id": "C38", "title": "Failed operations change nothing", "statement": "If createEvent, deleteEvent or setParticipationStatus raises, the observable state (events, statuses, roles, notifications) is as before the call.", "quantifier": "every state and argument", "why_tests_cant": "All states and failure points.", "anchors": ["src/calcore/cal.py:StorageManagerBase", "src/calcore/cal.py:EventBase._setParticipationStatus", "src/calcore/cal.py:EventSpecification.setOnObject"]}
{"id": "C39", "title": "getOrganizedEvents is exact", "statement": "attendee.getOrganizedEvents() returns exactly the stored events whose organizer is that attendee, whatever their date, including those whose duration is unset.", "quantifier": "every store and attendee", "why_tests_cant": "All histories.", "anchors": ["src/calcore/cal.py:AttendeeBase.getOrganizedEvents"]}
{"id": "C40", "title": "Inviting is idempotent and never demotes", "statement": "event.invite(list) leaves status and role of every existing attendee unchanged, gives every new one NEEDS-ACTION and REQ-PARTICIPANT, touches nobody else, and inviting again changes nothing and notifies nobody.", "quantifier": "every event state and attendee list, with repetitions", "why_tests_cant": "All event states and lists.", "anchors": ["src/calcore/cal.py:EventBase.invite"]}
{"id": "C41", "title": "Status changes notify exactly once", "statement": "setParticipationStatus emits exactly one notification carrying the old and the new status when the status changes, none otherwise, and afterwards getParticipationStatus returns the new status; other attendees are unaffected.", "quantifier": "every event state, attendee, status", "why_tests_cant": "All states and histories.", "anchors": ["src/calcore/cal.py:EventBase.setParticipationStatus"]}
{"id": "C42", "title": "Setting status None removes the attendee", "statement": "After setParticipationStatus(attendee, None) returns, the attendee is absent from hasAttendee, getAttendeeIds, getParticipationStatus/Role; and the call succeeds for every attendee of the event.", "quantifier": "every event state reachable by any sequence of participation operations", "why_tests_cant": "All histories.", "anchors": ["src/calcore/cal.py:EventBase._setParticipationStatus", "src/calcore/cal.py:EventBase.getAttendeeIds"]}
{"id": "C43", "title": "getAttendeeIds filters exactly", "statement": "getAttendeeIds(status, role) returns exactly the attendees with that status and role (None meaning any), each once, and never raises.", "quantifier": "every event state reachable by any sequence of participation operations, every filter", "why_tests_cant": "All histories.", "anchors": ["src/calcore/cal.py:EventBase.getAttendeeIds"]}
{"id": "C44", "title": "The organizer attends what they organize", "statement": "After attendee.createEvent(...), the event's organizer is that attendee with status ACCEPTED and role REQ-PARTICIPANT, the event is in getOrganizedEvents and in getEvents of every period it overlaps.", "quantifier": "every store, attendee and event data", "why_tests_cant": "All stores and arguments.", "anchors": ["src/calcore/cal.py:AttendeeBase.createEvent", "src/calcore/cal.py:EventSpecification.setOnObject"]}
{"id": "C45", "title": "All-day events cover whole days", "statement": "An event created with allday=True starts at midnight of its start day and lasts a whole number of days, the least that is >= 1 and >= the given duration (1 if none); the adjustment is idempotent; and every all-day event in the store stays so.", "quantifier": "every start, duration and history of imports", "why_tests_cant": "All durations; all histories.", "anchors": ["src/calcore/cal.py:EventBase.alldayAdjust", "src/calcore/cal.py:CalendarBase._importExistingEvent"]}
{"id": "C46", "title": "Import never touches foreign events", "statement": "import_ leaves every stored event that is not in the calendar's getEvents(period, criteria) unchanged and present, even when its uid occurs in the imported data, and even if the import raises half-way.", "quantifier": "every store, calendar, imported data, period, criteria and failure point", "why_tests_cant": "All stores, data and crash points.", "anchors": ["src/calcore/cal.py:CalendarBase.import_"]}
{"id": "C47", "title": "Synchronizing import deletes exactly the missing events", "statement": "import_ with synchronize deletes exactly the calendar's events whose uid is not in the data; without synchronize it deletes nothing; every uid of the data exists afterwards.", "quantifier": "every store, calendar and imported data", "why_tests_cant": "All stores and data.", "anchors": ["src/calcore/cal.py:CalendarBase.import_"]}
{"id": "C48", "title": "Importing the same data twice equals importing it once", "statement": "A second import_ of the same data leaves every event's observable state as after the first.", "quantifier": "every store, calendar and imported data", "why_tests_cant": "Relates two runs on arbitrary data.", "anchors": ["src/calcore/cal.py:CalendarBase.import_", "src/calcore/cal.py:CalendarBase._importExistingEvent", "src/calcore/cal.py:EventSpecification.setOnObject"]}
{"id": "C49", "title": "Export followed by import into an empty store reproduces the event", "statement": "Exporting an event and importing the result under a fresh store recreates dtstart, duration, all-day flag, title, description, location, status, categories, transparency, access, document and recurrence.", "quantifier": "every event", "why_tests_cant": "All field values incl. empty strings, all-day and recurring events.", "anchors": ["src/calcore/cal.py:EventBase.export", "src/calcore/cal.py:CalendarBase._importEventSpecification", "src/calcore/cal.py:CalendarBase._getDtstartDuration"]}
{"id": "C50", "title": "Re-importing one's own export changes nothing", "statement": "Exporting a calendar and importing the result into the same calendar leaves all events unchanged and sends no notification.", "quantifier": "every store and calendar", "why_tests_cant": "All stores; organizers, attendees and rules matter.", "anchors": ["src/calcore/cal.py:CalendarBase.export", "src/calcore/cal.py:CalendarBase.import_", "src/calcore/cal.py:EventSpecification.willModify"]}
{"id": "C51", "title": "Private export leaks nothing but times", "statement": "event.export(private=True) depends only on times, recurrence, transparency, uid and access: two events equal in these give identical output whatever their title, description, location, categories, document, status and participants.", "quantifier": "every pair of events", "why_tests_cant": "Non-interference relates two runs.", "anchors": ["src/calcore/cal.py:EventBase.export"]}
{"id": "C52", "title": "Imported start and duration follow the data", "statement": "For every VEVENT with a start: DTEND (if any) determines the end and overrides DURATION; otherwise DURATION is used; with neither the duration is zero (one day for a new all-day event); a DATE start makes the event all-day at midnight; zoned times become local floating times.", "quantifier": "every combination of DTSTART/DTEND/DURATION kinds and values, every local timezone", "why_tests_cant": "All combinations and values.", "anchors": ["src/calcore/cal.py:CalendarBase._getDtstartDuration", "src/calcore/cal.py:float_datetime"]}
{"id": "C53", "title": "Line-ending repair", "statement": "For every text, _repairText returns a text in which every newline is preceded by a carriage return, unchanged if it already was so; repairing twice equals repairing once.", "quantifier": "every text", "why_tests_cant": "All strings.", "anchors": ["src/calcore/cal.py:CalendarBase._repairText"]}
{"id": "C54", "title": "willModify is exact", "statement": "When willModify(event) is false, setOnObject(event) changes nothing, and when it is true the event differs afterwards; after setOnObject the event carries exactly the specification.", "quantifier": "every event and specification", "why_tests_cant": "All pairs of event and specification.", "anchors": ["src/calcore/cal.py:EventSpecification.willModify", "src/calcore/cal.py:EventSpecification.setOnObject"]}
{"id": "C55", "title": "Events are ordered by start then id", "statement": "Comparison of events is a total order: first by dtstart, then by unique_id; two events compare equal only if they have the same uid, consistently with their hash.", "quantifier": "every pair and triple of events", "why_tests_cant": "Relational.", "anchors": ["src/calcore/cal.py:EventBase.__cmp__", "src/calcore/cal.py:EventBase.__hash__"]}
{"id": "C56", "title": "roundtimedelta rounds up to whole days", "statement": "roundtimedelta(td) is a whole number of days, at least td and less than td plus one day; whole-day values are unchanged.", "quantifier": "every timedelta, negative ones included", "why_tests_cant": "All values.", "anchors": ["src/calcore/cal.py:roundtimedelta"]}
{"id": "C57", "title": "The iCalendar text of a rule determines the rule", "statement": "iCalRepresentation(dtstart) determines frequency, interval, count, until, weekday selection and exceptions: rules with the same text for the same start generate the same dates.", "quantifier": "every pair of rules and start", "why_tests_cant": "Relates two rules.", "anchors": ["src/calcore/recurrent.py:BasicRecurrenceRule.iCalRepresentation", "src/calcore/recurrent.py:WeeklyRecurrenceRule._iCalArgs", "src/calcore/recurrent.py:MonthlyRecurrenceRule._iCalArgs"]}
{"id": "C58", "title": "A calendar shows the union of its attendees", "statement": "calendar.getEvents(period) is exactly the set of events shown by getEvents(period) of at least one of its attendees; an empty calendar shows nothing; adding/removing an attendee only adds/removes that attendee's view.", "quantifier": "every store, calendar and history of addAttendee/removeAttendee", "why_tests_cant": "All histories.", "anchors": ["src/calcore/cal.py:CalendarBase.getEvents", "src/calcore/cal.py:CalendarBase.addAttendee", "src/calcore/cal.py:CalendarBase.removeAttendee"]}
{"id": "C59", "title": "One event cannot break everybody's queries", "statement": "getOccurrences over a period of years 1900-2100 returns normally for every store whose events were accepted by createEvent with validated rules.", "quantifier": "every store content", "why_tests_cant": "One poisonous event among arbitrarily many.", "anchors": ["src/calcore/cal.py:StorageBase.getOccurrences", "src/calcore/recurrent.py:YearlyRecurrenceRule._nextRecurrence"]}
{"id": "C60", "title": "Every event shows up in the day view of its days", "statement": "An occurrence is shown by getOccurrencesInDay(d) for every day d it touches, including zero-length events on the day of their start.", "quantifier": "every store, event and day", "why_tests_cant": "All times including midnight boundaries.", "anchors": ["src/calcore/cal.py:CalendarBase.getOccurrencesInDay", "src/calcore/cal.py:inPeriod"]}
{"id": "C61", "title": "Generated ids have the documented shape", "statement": "iso8601 gives the 15 characters YYYYMMDDTHHMMSS; addrspec_unique_id gives timestamp-storage-count@host; for one host and storage, ids generated for different counts differ.", "quantifier": "every datetime, storage id, count, host", "why_tests_cant": "All values.", "anchors": ["src/calcore/cal.py:iso8601", "src/calcore/cal.py:addrspec_unique_id"]}
{"id": "C62", "title": "Import is all or nothing", "statement": "If import_ raises, the store is as before the call.", "quantifier": "every store, data and failure point", "why_tests_cant": "All crash points.", "anchors": ["src/calcore/cal.py:CalendarBase.import_"]}
{"id": "C63", "title": "Exceptions only remove dates", "statement": "The dates a rule generates are those of the same rule without exceptions, minus the exceptions; generation ends the same way, and an excepted date still uses up one of count.", "quantifier": "every rule, event, enddate and number of iterations", "why_tests_cant": "Needs every rule class combined with every set of exceptions.", "anchors": ["src/calcore/recurrent.py:BasicRecurrenceRule.apply", "src/calcore/recurrent.py:WeeklyRecurrenceRule.apply", "src/calcore/recurrent.py:MonthlyRecurrenceRule.apply"]}
{"id": "C64", "title": "Count takes the first dates", "statement": "A rule with count c and no exceptions generates the first c dates of the same rule without count.", "quantifier": "every rule, count, event, enddate and number of iterations", "why_tests_cant": "All rules and counts.", "anchors": ["src/calcore/recurrent.py:BasicRecurrenceRule.apply", "src/calcore/recurrent.py:WeeklyRecurrenceRule.apply", "src/calcore/recurrent.py:MonthlyRecurrenceRule.apply"]}
{"id": "C65", "title": "Until acts like an enddate", "statement": "A rule with an until date generates what the same rule without it generates up to the earlier of enddate and until.", "quantifier": "every rule, until date, event and enddate", "why_tests_cant": "All combinations of the two bounds.", "anchors": ["src/calcore/recurrent.py:BasicRecurrenceRule.apply", "src/calcore/recurrent.py:WeeklyRecurrenceRule.apply", "src/calcore/recurrent.py:MonthlyRecurrenceRule.apply"]}
{"id": "C66", "title": "Multiplying the interval only removes dates", "statement": "Without count, every date generated with m times the interval is generated with the interval.", "quantifier": "every rule class, interval, m, event and enddate", "why_tests_cant": "Unbounded intervals and multiples.", "anchors": ["src/calcore/recurrent.py:DailyRecurrenceRule", "src/calcore/recurrent.py:YearlyRecurrenceRule", "src/calcore/recurrent.py:WeeklyRecurrenceRule", "src/calcore/recurrent.py:MonthlyRecurrenceRule"]}
{"id": "C67", "title": "Equivalent rules give the same dates", "statement": "Weekly without weekdays is daily with 7 times the interval; weekly on all weekdays is daily; the order and repetition of weekdays do not matter; yearly is monthly on the same day with 12 times the interval.", "quantifier": "every interval, count, until, exceptions, event and enddate", "why_tests_cant": "Compares rule classes for all parameters.", "anchors": ["src/calcore/recurrent.py:DailyRecurrenceRule", "src/calcore/recurrent.py:YearlyRecurrenceRule", "src/calcore/recurrent.py:WeeklyRecurrenceRule", "src/calcore/recurrent.py:MonthlyRecurrenceRule"]}
{"id": "C68", "title": "A series can be cut at one of its dates", "statement": "For a rule without count, generating from one of its dates on gives exactly the dates of the rule from there on.", "quantifier": "every rule, event, date of the rule and enddate", "why_tests_cant": "All start dates and cut points.", "anchors": ["src/calcore/recurrent.py:BasicRecurrenceRule.apply", "src/calcore/recurrent.py:WeeklyRecurrenceRule.apply", "src/calcore/recurrent.py:MonthlyRecurrenceRule.apply"]}
{"id": "C69", "title": "Adjacent periods neither lose nor invent occurrences", "statement": "Cutting a period in two shows the same occurrences: each occurrence of the whole period is shown by one of the halves, by both exactly if it runs across the cut, and the halves show nothing else.", "quantifier": "every store, period, cut inside it and criteria", "why_tests_cant": "Every cut point and every store; the failure is at one instant.", "anchors": ["src/calcore/cal.py:StorageBase.getOccurrences", "src/calcore/cal.py:inPeriod", "src/calcore/cal.py:EventBase.expand"]}
{"id": "C70", "title": "Day views tile a view of several days", "statement": "The segments of a view over several whole days are, day by day, exactly the segments of the views of the single days.", "quantifier": "every store, range of days and criteria", "why_tests_cant": "All ranges and all recurrences; compares two queries.", "anchors": ["src/calcore/cal.py:StorageManagerBase.getOccurrencesSegmented", "src/calcore/cal.py:segmentOccurrences"]}
{"id": "C71", "title": "Listing events and listing occurrences agree", "statement": "An event is listed by getEvents for a bounded period exactly if getOccurrences shows an occurrence of it.", "quantifier": "every store, period and criteria", "why_tests_cant": "Compares two queries for all stores and periods.", "anchors": ["src/calcore/cal.py:StorageBase.getEvents", "src/calcore/cal.py:StorageBase.getOccurrences"]}
{"id": "C72", "title": "Blocked time depends only on the events the attendees attend", "statement": "Two stores that hold the same events among those attended by the given attendees give the same blocked and free periods, and one call returns exactly if the other does.", "quantifier": "every pair of stores, attendees, period, window and minimal duration", "why_tests_cant": "A noninterference statement over pairs of stores.", "anchors": ["src/calcore/cal.py:StorageManagerBase.getBlockedPeriods", "src/calcore/cal.py:StorageManagerBase.getFreePeriods"]}
{"id": "C73", "title": "Events that take no time have no influence on blocked time", "statement": "Transparent, cancelled, declined and delegated events do not change the blocked periods; creating a transparent event leaves everybody's blocked periods as they were.", "quantifier": "every store, attendees, period and window", "why_tests_cant": "Quantifies over all stores that differ in such events.", "anchors": ["src/calcore/cal.py:StorageManagerBase.getBlockedPeriods"]}
{"id": "C74", "title": "Calls about different events can be exchanged", "statement": "Two calls (create with an id, delete, change of status or role, invite, edit, all-day adjustment) about different uids give the same stored events and the same outcomes in either order.", "quantifier": "every reachable store and pair of calls", "why_tests_cant": "Every pair of calls on every state.", "anchors": ["src/calcore/cal.py:StorageManagerBase.createEvent", "src/calcore/cal.py:StorageBase.deleteEvent", "src/calcore/cal.py:EventBase"]}
{"id": "C75", "title": "ISO weeks tile the calendar", "statement": "Every date lies in exactly one of the weeks counted by getWeeksInYear and started by weeknr2datetime, and consecutive weeks, also across new year, start seven days apart.", "quantifier": "every date of the years 1 to 9999", "why_tests_cant": "Three and a half million dates, and the two ends of the range.", "anchors": ["src/calcore/isoweek.py:weeknr2datetime", "src/calcore/isoweek.py:getWeeksInYear"]}
{"id": "C76", "title": "clone overrides what is given", "statement": "SearchCriteria.clone returns criteria in which every part given as an argument is overridden and every other part is kept.", "quantifier": "every criteria object and all arguments", "why_tests_cant": "All combinations of set, unset and empty parts.", "anchors": ["src/calcore/cal.py:SearchCriteria.clone", "src/calcore/interfaces.py:ISearchCriteria.clone"]}
{"id": "C77", "title": "Narrowing a query never adds results", "statement": "With criteria at least as narrow, and for getEvents a period inside the other, a query returns a subset of the wider answer, occurrences in the same order, and it returns at all if the wider one did.", "quantifier": "every well-formed store, pair of periods and pair of criteria", "why_tests_cant": "Unbounded stores, rules and criteria.", "anchors": ["src/calcore/cal.py:StorageBase.getEvents", "src/calcore/cal.py:StorageBase.getOccurrences", "src/calcore/cal.py:SearchCriteria._match"]}
{"id": "C78", "title": "Stored roles and statuses are documented ones", "statement": "After any history every role and every status of every attendee of every stored event is one of the documented values.", "quantifier": "every history of calls", "why_tests_cant": "Unbounded histories, including imports of arbitrary data.", "anchors": ["src/calcore/cal.py:EventBase.setParticipationRole", "src/calcore/cal.py:EventBase.setParticipationStatus", "src/calcore/cal.py:EventSpecification.setOnObject"]}
{"id": "C79", "title": "Careful input keeps every query usable", "statement": "After any history of calls that give or import only events with reasonable times and rules, every query for occurrences, blocked or free periods up to the year 2100 returns.", "quantifier": "every history of such calls and every query", "why_tests_cant": "Unbounded histories times all queries.", "anchors": ["src/calcore/cal.py:StorageBase.getOccurrences", "src/calcore/cal.py:StorageManagerBase.getBlockedPeriods", "src/calcore/cal.py:CalendarBase.import_"]}
{"id": "C80", "title": "The attendee source is a searchable map", "statement": "After any calls, the source holds under each id the attendee created last with it, getAttendee and getAttendeeFromSpec find exactly these, and findByName, getAttendeesOfType and getAttendeeTypes answer from them.", "quantifier": "every sequence of creations and every query", "why_tests_cant": "Unbounded sequences of creations.", "anchors": ["src/calcore/cal.py:SimpleAttendeeSource", "src/calcore/interfaces.py:IAttendeeSource"]}
{"id": "C81", "title": "Period can be used as a query period", "statement": "A query for the period Period(start, minutes) shows what a query from start to start plus that many minutes shows.", "quantifier": "every store, start and number of minutes", "why_tests_cant": "All stores and periods.", "anchors": ["src/calcore/cal.py:Period", "src/calcore/cal.py:inPeriod"]}
{"id": "C82", "title": "Imported data win", "statement": "After an import that returned, every component of the data, the uids being different, is stored with its summary, description, location, status, transparency, class, attachment, categories, organizer, attendees and time.", "quantifier": "every reachable store, calendar, period, criteria and data", "why_tests_cant": "All data against all stores.", "anchors": ["src/calcore/cal.py:CalendarBase.import_", "src/calcore/cal.py:EventSpecification.setOnObject", "src/calcore/cal.py:EventSpecification.willModify"]}
{"id": "C83", "title": "The order of the data does not matter", "statement": "For data with different uids an import of any permutation of the components returns if the import of the components does, and leaves the same events, also with synchronization.", "quantifier": "every store, data and permutation", "why_tests_cant": "Factorially many orders of unbounded data.", "anchors": ["src/calcore/cal.py:CalendarBase.import_"]}
{"id": "C84", "title": "What a calendar imports, it shows", "statement": "After an import that returned, the importing calendar shows every component of the data.", "quantifier": "every store, calendar and data", "why_tests_cant": "All data against all stores and calendars.", "anchors": ["src/calcore/cal.py:CalendarBase.import_", "src/calcore/cal.py:CalendarBase.getEvents"]}
{"id": "C85", "title": "Event objects behave as values for clients that fetch them from the store", "statement": "A client that gets an event from the store before calling a method of it observes, after every history of calls, the same stored events, notifications and outcomes as if the store held plain values keyed by uid.", "quantifier": "every history of API calls, every argument", "why_tests_cant": "Aliasing bugs appear only for particular interleavings of unboundedly many calls.", "anchors": ["src/calcore/cal.py:StorageBase", "src/calcore/cal.py:StorageManagerBase", "src/calcore/cal.py:EventBase"]}
{"id": "C86", "title": "No client and no subscriber can corrupt the store", "statement": "Whatever calls clients make on whatever event objects, and whatever calls subscribers make in whatever nesting, every event is stored under its own uid, uids are unique, distinct uids have distinct objects, and no event has an undocumented role.", "quantifier": "every client and subscriber program, every depth of nesting", "why_tests_cant": "Quantifies over all programs.", "anchors": ["src/calcore/cal.py:StorageBase", "src/calcore/cal.py:EventBase", "src/calcore/events.py"]}
{"id": "C87", "title": "Notifications are truthful when sent", "statement": "When a notification is sent, what it says is so: the uid is that of the event object it carries, a created event is stored, a deleted one is not, and the new status of a participation change differs from the old one and is the status the event shows. (Whether a modification changed anything is C54.)", "quantifier": "every client and subscriber program, every notification sent", "why_tests_cant": "Needs every state in which a notification can be sent, including nested ones.", "anchors": ["src/calcore/events.py", "src/calcore/cal.py:EventBase.setParticipationStatus", "src/calcore/cal.py:StorageManagerBase"]}
{"id": "C88", "title": "Subscribers that make no calls do not influence the calls they observe", "statement": "A subscriber that only looks changes nothing; one that raises changes only the outcome of the call and not its effect.", "quantifier": "every passive subscriber, every call and state", "why_tests_cant": "Quantifies over all subscribers; an exception in the middle of a loop is rarely tested.", "anchors": ["src/calcore/cal.py:StorageManagerBase", "src/calcore/cal.py:EventBase.invite", "src/calcore/events.py"]}
{"id": "C89", "title": "Invitations can be answered from a subscriber", "statement": "If a subscriber answers the notification of an invitation by setting the attendee's status, invite returns, everybody newly invited ends with the answered status (or NEEDS-ACTION) and the role REQ-PARTICIPANT, and nothing else changes.", "quantifier": "every list of attendees, every event, every assignment of answers", "why_tests_cant": "All answer policies and attendee lists, with code re-entered between two statements.", "anchors": ["src/calcore/cal.py:EventBase.invite", "src/calcore/cal.py:EventBase.setParticipationStatus"]}
{"id": "C90", "title": "A method called on an event object affects that object only", "statement": "A call on one event object leaves all other event objects and all other stored events as they are, whether or not the object is still stored.", "quantifier": "every heap, every object and call", "why_tests_cant": "Aliasing between stale and current objects; all heaps.", "anchors": ["src/calcore/cal.py:StorageManagerBase.deleteEvent", "src/calcore/cal.py:EventBase"]}
{"id": "C91", "title": "Nested notifications end", "statement": "Subscribers that answer notifications with calls always come to an end.", "quantifier": "every subscriber, client and state", "why_tests_cant": "Termination over all subscribers.", "anchors": ["src/calcore/events.py", "src/calcore/cal.py:EventBase.setParticipationStatus"]}
{"id": "C92", "title": "The repr of a rule is faithful", "statement": "Two recurrence rules have the same repr exactly if they are equal, whatever their classes, intervals, counts, untils, exceptions and weekdays or monthly types.", "quantifier": "for all pairs of rules", "why_tests_cant": "Injectivity over all pairs of rules, including lists of exceptions and weekdays of any length, cannot be sampled; an ambiguous separator shows up only in particular combinations.", "anchors": ["src/calcore/recurrent.py:BasicRecurrenceRule.__repr__", "src/calcore/recurrent.py:WeeklyRecurrenceRule.__repr__", "src/calcore/recurrent.py:MonthlyRecurrenceRule.__repr__", "src/calcore/recurrent.py:BasicRecurrenceRule.__eq__"]}
{"id": "C93", "title": "Recurrence does not depend on the place in the calendar", "statement": "An event 400 years (or a multiple) later, whose rule has its until and exceptions that much later, has exactly the dates that much later, for every rule class; daily rules can be moved by any number of days, weekly rules by any number of weeks.", "quantifier": "for all rules with positive interval, all events, all enddates not within 400 days of the end of the calendar, all distances", "why_tests_cant": "Tests use a handful of years; leap years, century years and the first weekday of the year differ in each of the 400 years.", "anchors": ["src/calcore/recurrent.py:BasicRecurrenceRule.apply", "src/calcore/recurrent.py:NoRecurrenceRule.apply", "src/calcore/recurrent.py:YearlyRecurrenceRule._nextRecurrence", "src/calcore/recurrent.py:WeeklyRecurrenceRule.apply", "src/calcore/recurrent.py:MonthlyRecurrenceRule.apply"]}
{"id": "C94", "title": "Booking takes exactly the booked time", "statement": "After an event has been created, everybody is busy exactly when the new event takes place and they have not declined it, or when another event kept them busy before. When an attendee books a single event under an id that was not in use, the free periods of every group with that attendee lose exactly the booked time; deleting the event restores all blocked and free periods.", "quantifier": "for all well-formed stores, specifications, periods, windows, groups of attendees and instants", "why_tests_cant": "It relates the answers of a query before and after a change at every instant of any period; tests compare a few lists of periods.", "anchors": ["src/calcore/cal.py:StorageManagerBase.createEventFromSpecification", "src/calcore/cal.py:StorageManagerBase.getFreePeriods", "src/calcore/cal.py:StorageManagerBase.getBlockedPeriods", "src/calcore/cal.py:AttendeeBase.createEvent"]}
{"id": "C95", "title": "After synchronizing, the calendar shows only the data", "statement": "After a synchronizing import that returned, the calendar shows, for the period and criteria of the import, only events whose uid is in the imported data.", "quantifier": "for all well-formed stores, calendars, periods, criteria and data", "why_tests_cant": "Holds for every earlier content of the store and every list of components, including events that the import itself changed.", "anchors": ["src/calcore/cal.py:CalendarBase.import_", "src/calcore/cal.py:CalendarBase.getEvents"]}
{"id": "C96", "title": "Export and synchronizing import mirror a calendar", "statement": "When a calendar is exported and the data are imported, synchronizing, into a calendar of another store, the import returns and the second calendar shows an event with the same uid and content for each exported event, and nothing else.", "quantifier": "for all pairs of stores and calendars, all periods and criteria of the export", "why_tests_cant": "It composes export, import and two queries over arbitrary contents of both stores.", "anchors": ["src/calcore/cal.py:CalendarBase.export", "src/calcore/cal.py:CalendarBase.import_", "src/calcore/cal.py:EventBase.export"]}
{"id": "C97", "title": "A copy of a copy is like the copy", "statement": "Exporting an event and importing it under an unused uid keeps everything but: exceptions, weekdays and the monthly type of a rule, an empty document, the time of day of all-day events; rules of classes without frequency cannot be imported. A copy that is exported and imported again has the same content.", "quantifier": "for all events, stores, calendars, local timezones", "why_tests_cant": "The first half describes the loss for every event, the second is idempotence; both need every combination of all-day times, rules and texts.", "anchors": ["src/calcore/cal.py:EventBase.export", "src/calcore/cal.py:CalendarBase._importEventSpecification", "src/calcore/cal.py:CalendarBase._getRecurrenceRule", "src/calcore/cal.py:EventBase.alldayAdjust"]}
{"id": "C98", "title": "The iCalendar text of a rule can be read", "statement": "A reader of RFC 2445 (fields separated by semicolons, keys and values, decimal numbers, eight-digit dates, weekday names with ordinals) finds in the lines written for a rule exactly its frequency, interval, count, until, selected days and exceptions; and there is a text for every rule of the four frequencies whose dates are from 1900 on.", "quantifier": "for all rules, starts and lengths of the lists of weekdays and exceptions", "why_tests_cant": "It is a round trip through text for unbounded numbers and lists; tests compare a few strings.", "anchors": ["src/calcore/recurrent.py:BasicRecurrenceRule.iCalRepresentation", "src/calcore/recurrent.py:WeeklyRecurrenceRule._iCalArgs", "src/calcore/recurrent.py:MonthlyRecurrenceRule._iCalArgs", "src/calcore/recurrent.py:ical_date", "src/calcore/recurrent.py:ical_datetime"]}
{"id": "C99", "title": "The iCalendar text means the dates that are generated", "statement": "The dates that RFC 2445 assigns to the written text (periods by FREQ and INTERVAL, days by BYDAY and BYMONTHDAY, COUNT over the recurrence set including the start, UNTIL, EXDATE) are exactly the dates the rule generates.", "quantifier": "for all rules, starts and dates", "why_tests_cant": "It compares two infinite sets of dates for every rule; the known differences appear only for particular starts.", "anchors": ["src/calcore/recurrent.py:BasicRecurrenceRule.iCalRepresentation", "src/calcore/recurrent.py:BasicRecurrenceRule.apply", "src/calcore/recurrent.py:WeeklyRecurrenceRule.apply", "src/calcore/recurrent.py:MonthlyRecurrenceRule.apply", "src/calcore/recurrent.py:MonthlyRecurrenceRule._iCalArgs"]}
{"id": "C100", "title": "Free and blocked time do not depend on the period asked for", "statement": "Whether getBlockedPeriods reports an instant as blocked, and getFreePeriods as free, is the same for all periods that contain the instant.", "quantifier": "every store, attendee list, working hours, pair of periods, instant in both", "why_tests_cant": "All stores, pairs of periods and instants.", "anchors": ["src/calcore/cal.py:StorageManagerBase.getBlockedPeriods", "src/calcore/cal.py:StorageManagerBase.getFreePeriods"]}
{"id": "C101", "title": "A group is free when all its members are", "statement": "The blocked time of a group of attendees is the union of the blocked times of its parts, and its free time is the intersection of their free times; if the answer for the group can be computed, so can the answers for the parts.", "quantifier": "every store, group, division into two parts, period, working hours", "why_tests_cant": "All stores, groups and instants.", "anchors": ["src/calcore/cal.py:StorageManagerBase.getBlockedPeriods", "src/calcore/cal.py:StorageManagerBase.getFreePeriods"]}
{"id": "C102", "title": "Working hours only cut", "statement": "The free time for narrower working hours is exactly the part in these hours of the free time for wider working hours; blocked time inside two windows is the same for both; whether the answer can be computed does not depend on the window.", "quantifier": "every store, group, period, pair of windows", "why_tests_cant": "All stores, windows and instants.", "anchors": ["src/calcore/cal.py:StorageManagerBase.getBlockedPeriods", "src/calcore/cal.py:StorageManagerBase.getFreePeriods"]}
{"id": "C103", "title": "Forms and classes agree", "statement": "The values offered by the vocabularies of the forms are exactly those that the classes accept: monthly behaviours, weekdays; a filled-in form is accepted; imported rules and default values can be shown in the forms; of the offered statuses exactly the cancelled one releases time.", "quantifier": "every form input, every imported rule, every event", "why_tests_cant": "All inputs.", "anchors": ["src/calcore/cal.py:CalendarVocabularyFactory", "src/calcore/interfaces.py:IBasicRecurrenceRule", "src/calcore/recurrent.py:WeeklyRecurrenceRule._validate", "src/calcore/recurrent.py:MonthlyRecurrenceRule._validate"]}
{"id": "C104", "title": "Every change is announced", "statement": "A call of the API announces what it changes: among the notifications it sends is one about every event that it added, changed or removed; so a client that reads again the events it is notified about always has a faithful copy of the store.", "quantifier": "every history of calls, every call", "why_tests_cant": "All histories; the absence of a notification is seen only by comparing whole stores.", "anchors": ["src/calcore/cal.py:StorageBase.createEvent", "src/calcore/cal.py:StorageBase.deleteEvent", "src/calcore/cal.py:EventBase.setParticipationStatus", "src/calcore/cal.py:CalendarBase.import_", "src/calcore/events.py"]}
{"id": "C105", "title": "Status notifications form a chain", "statement": "The notifications about the status of a person at an event form a chain: each reports as old status what the last one reported as new, none is idle, the first starts from the status at the beginning and the last ends with the status at the end.", "quantifier": "every history followed by every sequence of calls that deal with participation", "why_tests_cant": "All histories.", "anchors": ["src/calcore/cal.py:EventBase.setParticipationStatus", "src/calcore/cal.py:EventBase.invite", "src/calcore/events.py:EventParticipationChangeEvent"]}
{"id": "C106", "title": "Events without occurrences", "statement": "An event never takes place exactly when every date admitted by its rule is an exception; without exceptions this happens exactly when count is not positive or until lies before the start, and otherwise the event takes place at its start. An event that never takes place appears in no view of occurrences and does not influence blocked time.", "quantifier": "every rule, every store, every period", "why_tests_cant": "Infinitely many rules and stores.", "anchors": ["src/calcore/recurrent.py:BasicRecurrenceRule.apply", "src/calcore/cal.py:StorageBase.getOccurrences", "src/calcore/cal.py:StorageManagerBase.getBlockedPeriods"]}
{"id": "C107", "title": "Names of attendees do not matter", "statement": "If the attendee ids in a history of calls are replaced by other ids, different ones by different ones, then the store holds the same events with the other ids, the same notifications were sent and the same calls raised, and all queries give the same answers up to the ids; blocked and free periods are exactly the same.", "quantifier": "every history of calls (imports into calendars with at most one attendee), every injective replacement, every query", "why_tests_cant": "A relation between two runs, for all histories and replacements.", "anchors": ["src/calcore/cal.py:EventBase.invite", "src/calcore/cal.py:EventBase.setParticipationStatus", "src/calcore/cal.py:EventSpecification.setOnObject", "src/calcore/cal.py:SearchCriteria._match", "src/calcore/cal.py:StorageManagerBase.getBlockedPeriods", "src/calcore/cal.py:CalendarBase.import_"]}
{"id": "C108", "title": "Every event has its own history", "statement": "What becomes of an event depends only on the calls about it: the event stored in the end, the notifications about it and the outcomes of these calls are the same when all calls about other events are left out, so calls can be interleaved in any way that keeps the order of the calls about each event, and an event that was created and deleted in between leaves no trace.", "quantifier": "every sequence of calls about given uids (create, delete, status, role, invite, edit, all-day adjustment) from every store", "why_tests_cant": "All interleavings of all histories.", "anchors": ["src/calcore/cal.py:StorageBase.createEvent", "src/calcore/cal.py:StorageManagerBase.deleteEvent", "src/calcore/cal.py:EventBase.setParticipationStatus", "src/calcore/cal.py:EventBase.invite", "src/calcore/cal.py:EventSpecification.setOnObject"]}
{"id": "C109", "title": "Texts do not influence time and participation", "statement": "Two histories that differ only in titles, descriptions, locations, access classes, documents and categories leave stores that differ only in these, send the same notifications and give the same outcomes; queries that do not ask for categories show the same events and occurrences up to texts, and blocked and free periods are the same.", "quantifier": "every pair of histories, every query", "why_tests_cant": "A relation between two runs, for all histories and texts.", "anchors": ["src/calcore/cal.py:EventSpecification.setOnObject", "src/calcore/cal.py:EventSpecification.willModify", "src/calcore/cal.py:StorageManagerBase.getBlockedPeriods", "src/calcore/cal.py:CalendarBase._importExistingEvent"]}
{"id": "C110", "title": "Changes of participation can be undone", "statement": "Inviting a person and removing them again, changing the status of an attendee and setting it back, and changing the role of an attendee and setting it back leave the store exactly as it was.", "quantifier": "every store, event, person, status and role", "why_tests_cant": "All stores and values.", "anchors": ["src/calcore/cal.py:EventBase.invite", "src/calcore/cal.py:EventBase.setParticipationStatus", "src/calcore/cal.py:EventBase.setParticipationRole"]}
{"id": "C111", "title": "Queries do not depend on where in the calendar everything takes place", "statement": "If all events of a store are moved by a number of days after which their rules look the same (any number for events without rules and daily rules, weeks for weekly rules, multiples of 400 years for all others), then every query about the moved period, if it and the original one return and the period stays 400 days away from the end of Python's calendar, shows exactly the moved answer: events, occurrences, parts of occurrences, blocked and free periods.", "quantifier": "every store, number of days, period, criteria, group, hours", "why_tests_cant": "A relation between answers about two stores, for all stores and all distances up to the end of Python's calendar.", "anchors": ["src/calcore/recurrent.py:BasicRecurrenceRule.apply", "src/calcore/cal.py:EventBase.expand", "src/calcore/cal.py:segmentOccurrences", "src/calcore/cal.py:StorageManagerBase.getBlockedPeriods", "src/calcore/cal.py:StorageManagerBase.getFreePeriods"]}
{"id": "C112", "title": "Which calls and queries raise which exceptions", "statement": "A call that changes one event raises exactly if a documented condition is violated: KeyError for an event that is not stored, AssertionError for a role or status that is not documented, AttributeError for an attendee None, and KeyError for the removal of somebody without a role; inviting never raises for a stored event. Queries raise only AssertionError for unbounded periods of occurrences, KeyError for attendees unknown to the source, TypeError for events without duration, and OverflowError or ValueError for events and rules that reach the end of Python's calendar; exporting an event raises exactly for a missing duration or an end outside the calendar.", "quantifier": "every world, call, period, criteria, event", "why_tests_cant": "Absence of other exceptions, for all stores and arguments.", "anchors": ["src/calcore/cal.py:EventBase.setParticipationStatus", "src/calcore/cal.py:EventBase.setParticipationRole", "src/calcore/cal.py:EventSpecification.setOnObject", "src/calcore/cal.py:StorageBase.getEvents", "src/calcore/cal.py:StorageBase.getOccurrences", "src/calcore/cal.py:EventBase.export", "src/calcore/cal.py:CalendarBase.getAttendees"]}
{"id": "C113", "title": "Which data an import refuses", "statement": "A VEVENT is refused exactly for one of these reasons, tested in this order: no UID, no DTSTART, a time without local time in Python's calendar, an organizer and a main attendee unknown to the source, a rule without FREQ, with an unknown FREQ, with a BYDAY that is no weekday (weekly) or empty (monthly), or with an empty INTERVAL, COUNT or UNTIL; for new events also an attendee unknown to the source or with an undocumented role. An import of new events raises exactly the exception of its first refused component. Into a calendar with attendees, whatever is stored, data without such faults are imported without exception.", "quantifier": "every store, calendar, source, time zone, list of components", "why_tests_cant": "All data and stores; that no other exception exists.", "anchors": ["src/calcore/cal.py:CalendarBase.import_", "src/calcore/cal.py:CalendarBase._importEventSpecification", "src/calcore/cal.py:CalendarBase._getDtstartDuration", "src/calcore/cal.py:CalendarBase._getRecurrenceRule"]}
{"id": "C114", "title": "Storages behind one manager do not influence each other", "statement": "However a client makes storages, switches the manager between them (or to none), makes calls and uses event objects of any storage, each storage holds what it would hold behind a manager of its own after just those calls that were made while it was in use and the methods of its own events; calls and queries are answered, and notifications sent, accordingly. Without a storage every call and query raises (AttributeError; KeyError for imports into calendars with unknown attendees) and nothing changes. An event that the storage in use does not have cannot be deleted.", "quantifier": "every sequence of calls, number of storages", "why_tests_cant": "All histories of several storages; the tests use one storage set once.", "anchors": ["src/calcore/cal.py:StorageManagerBase.__init__", "src/calcore/cal.py:StorageManagerBase.setStorage", "src/calcore/cal.py:StorageManagerBase.createEventFromSpecification", "src/calcore/cal.py:StorageManagerBase.deleteEvent", "src/calcore/cal.py:StorageBase.__init__"]}
{"id": "C115", "title": "Ids tell which storage made them", "statement": "For host names without an at sign, a generated id determines the storage id, the host name and the count from which it was made. So storages that choose their ids themselves and differ in id or host never hold the same id, whatever the client does.", "quantifier": "every sequence of calls, storage ids, hosts, clock readings", "why_tests_cant": "All names (which may themselves contain dashes and digits) and histories.", "anchors": ["src/calcore/cal.py:addrspec_unique_id", "src/calcore/cal.py:StorageBase.createEvent", "src/calcore/cal.py:StorageBase.__init__"]}
{"id": "C116", "title": "The order of dictionaries does not matter", "statement": "If all dictionaries (events of a storage, participations of an event, attendees of a calendar except for who comes first) are reordered arbitrarily before every call of a history, the same events, attributes and participations are reached and the same notifications are sent (in the same order unless an import deletes); a call raises for one order iff it raises for any other. All queries and exports return the same entries, and blocked and free periods are identical.", "quantifier": "every sequence of calls, every order of every dictionary at every call, every query", "why_tests_cant": "Python 2 fixes some order of each dictionary; a test sees only that order, and another interpreter or another history may use any other.", "anchors": ["src/calcore/cal.py:StorageBase._getMatchingEvents", "src/calcore/cal.py:StorageBase.getEvents", "src/calcore/cal.py:StorageBase.getOccurrences", "src/calcore/cal.py:CalendarBase.getAttendees", "src/calcore/cal.py:CalendarBase.getMainAttendee", "src/calcore/cal.py:CalendarBase.import_", "src/calcore/cal.py:StorageManagerBase.getBlockedPeriods"]}
{"id": "C117", "title": "The repr of a rule evaluates to the rule", "statement": "The text that repr makes of a recurrence rule, read as a Python expression, calls the constructor of the rule's class with positional arguments and yields an equal rule; for attribute values that are no valid rule the text evaluates to nothing.", "quantifier": "every rule of every class, with any interval, count, end, exceptions, weekdays or kind", "why_tests_cant": "All rules, in particular all dates, times with seconds and microseconds, and tuples of length zero, one and more; a test tries a few texts.", "anchors": ["src/calcore/recurrent.py:BasicRecurrenceRule.__repr__", "src/calcore/recurrent.py:WeeklyRecurrenceRule.__repr__", "src/calcore/recurrent.py:MonthlyRecurrenceRule.__repr__", "src/calcore/recurrent.py:BasicRecurrenceRule.__init__", "src/calcore/recurrent.py:WeeklyRecurrenceRule.__init__", "src/calcore/recurrent.py:MonthlyRecurrenceRule.__init__"]}
{"id": "C118", "title": "Blocked and free periods depend on nothing but busy time", "statement": "If two groups of attendees, of the same or of different storages with valid rules, are busy at the same instants of the period and window, then getBlockedPeriods returns the same non-empty periods for both and, if no event has a negative duration, the same time of a non-empty period is free; if no blocked period is empty, getFreePeriods returns identical lists for every minimal duration.", "quantifier": "every two storages with events in range and rules of positive interval, every two groups, every period, window and minimal duration", "why_tests_cant": "There are unboundedly many ways to divide the same busy time among events, recurrences and people; a test compares a few.", "anchors": ["src/calcore/cal.py:StorageManagerBase.getBlockedPeriods", "src/calcore/cal.py:StorageManagerBase.getFreePeriods", "src/calcore/util.py:removeOverlaps"]}
{"id": "C119", "title": "Events can be kept in lists and sets", "statement": "In lists (in, remove), sets and dictionaries, two event objects count as the same exactly if they have the same unique id, and equal events have equal hashes; sorting a list of events orders it by start and, for the same start, by id.", "quantifier": "every list of event objects and every event", "why_tests_cant": "All lists and all events; a test with different starts everywhere does not notice anything.", "anchors": ["src/calcore/cal.py:EventBase.__hash__", "src/calcore/cal.py:EventBase.__cmp__"]}
{"id": "C120", "title": "Queries treat events one by one", "statement": "If the events of a storage are divided between two storages in any way, every query of events, occurrences or segments, of the storage or of a calendar, by period or by day, and every export, answers iff it answers for both parts, and the answer is the two answers together; blocked periods are computed iff they are computed for both parts, and cover exactly the time covered for one of the parts. So a query answers iff it answers for every event alone, and no event changes what is shown of another.", "quantifier": "every storage, every division of its events, every period, criteria, calendar, attendee list and window; no assumption about the events", "why_tests_cant": "Tests use fixed sets of events; an interaction between two events would need the right pair, period and criteria to show.", "anchors": ["src/calcore/cal.py:StorageBase.getEvents", "src/calcore/cal.py:StorageBase.getOccurrences", "src/calcore/cal.py:StorageManagerBase.getOccurrencesSegmented", "src/calcore/cal.py:StorageManagerBase.getBlockedPeriods", "src/calcore/cal.py:CalendarBase.export", "src/calcore/cal.py:segmentOccurrences"]}
{"id": "C121", "title": "Rules check the types of their arguments", "statement": "A recurrence rule that can be constructed, from arguments of any type, has a positive integer as interval, an integer or None as count, a date or None as until and dates as exceptions, and its dates are those of the rule with these values; arguments of other types raise ValueError or TypeError at construction.", "quantifier": "every argument that is None, a boolean, an integer or long integer, a string, a date or a datetime, every sequence of these, every start and end date", "why_tests_cant": "Tests pass a handful of wrong values; which of the unboundedly many combinations pass the checks, and what they then do, is not tested.", "anchors": ["src/calcore/recurrent.py:BasicRecurrenceRule._validate", "src/calcore/recurrent.py:WeeklyRecurrenceRule._validate", "src/calcore/recurrent.py:MonthlyRecurrenceRule._validate", "src/calcore/recurrent.py:BasicRecurrenceRule.apply", "src/calcore/recurrent.py:WeeklyRecurrenceRule.apply", "src/calcore/recurrent.py:MonthlyRecurrenceRule.apply"]}
{"id": "C122", "title": "Classes serve every call that their interfaces allow", "statement": "For every class that declares an interface, every method the interface promises exists, accepts every call with positional and keyword arguments that the declaration allows, and gives every parameter the value the caller meant for it; and instances have every attribute the interface promises.", "quantifier": "All classes of cal.py, recurrent.py and events.py, all methods and attributes of the interfaces they provide (inherited ones too), all calls with any number of positional and keyword arguments and any values (no keyword called self).", "why_tests_cant": "There are infinitely many calls, a test makes one of them; tests call the methods as the code defines them and not as the interfaces declare them, so a keyword that differs or a parameter at another position goes unnoticed.", "anchors": ["src/calcore/interfaces.py:IStorageManager", "src/calcore/interfaces.py:IMonthlyRecurrenceRule.replace", "src/calcore/interfaces.py:IInvitableCalendarEvent", "src/calcore/cal.py:StorageManagerBase.getFreePeriods", "src/calcore/cal.py:SearchCriteria.clone", "src/calcore/cal.py:SimpleAttendeeSource.getAttendeeTypes", "src/calcore/recurrent.py:MonthlyRecurrenceRule.replace"]}
{"id": "C123", "title": "Imported recurrences mean what their RRULE says", "statement": "The dates on which an imported event takes place are exactly those for which RFC 2445 defines its RRULE (FREQ, INTERVAL, COUNT, UNTIL, BYDAY, BYMONTHDAY) and EXDATE, counted from its start.", "quantifier": "Every component, every RRULE with values of any number and kind, every start date and every end date of the query.", "why_tests_cant": "Tests import a few rules and look at the attributes of the rule object, not at the dates the text stands for, and never at texts of other programs with BYDAY lists or an UNTIL with time.", "anchors": ["src/calcore/cal.py:CalendarBase._getRecurrenceRule", "src/calcore/cal.py:CalendarBase._importEventSpecification", "src/calcore/recurrent.py:BasicRecurrenceRule.apply", "src/calcore/recurrent.py:WeeklyRecurrenceRule.apply", "src/calcore/recurrent.py:MonthlyRecurrenceRule.apply"]}
{"id": "C124", "title": "An import shows what the data stand for", "statement": "After an import of valid data, a query of the calendar for a period shows for every component that concerns the calendar exactly the occurrences that RFC 2445 gives for its DTSTART, DTEND or DURATION, and RRULE, and each with the duration of the component.", "quantifier": "Every store, calendar, list of components with different uids, kind of start and end, recurrence, and period of the query.", "why_tests_cant": "It composes parsing results, import into new and known events, rounding of all-day events, storage, filtering and expansion of recurrences for arbitrary data; tests look at single steps with fixed data and do not import the same all-day event twice.", "anchors": ["src/calcore/cal.py:CalendarBase.import_", "src/calcore/cal.py:CalendarBase._importEventSpecification", "src/calcore/cal.py:CalendarBase._getDtstartDuration", "src/calcore/cal.py:EventBase.alldayAdjust", "src/calcore/cal.py:EventBase.expand", "src/calcore/cal.py:CalendarBase.getOccurrences"]}
{"id": "C125", "title": "An export says when the event takes place", "statement": "The component exported for an event, private or not, means according to RFC 2445 exactly the start, the duration and the occurrences of the event.", "quantifier": "Every event with any start, duration, all-day flag and recurrence rule, every local time zone, private or not.", "why_tests_cant": "The set of occurrences is infinite and depends on the rule classes; tests compare the text of an export with a fixed text instead of its meaning.", "anchors": ["src/calcore/cal.py:EventBase.export", "src/calcore/recurrent.py:BasicRecurrenceRule.apply", "src/calcore/recurrent.py:WeeklyRecurrenceRule.apply"]}
{"id": "C126", "title": "Stored events conform to the schemas of their interfaces", "statement": "After every sequence of calls, every stored event is accepted by the fields of IExtendedCalendarEvent, every occurrence that a query returns by those of ICalendarOccurrence, and every recurrence rule by those of the interface of its class.", "quantifier": "Every history of calls of the API with arbitrary arguments and imported components, every rule that a constructor makes, both behaviours of zope.schema for datetimes in date fields.", "why_tests_cant": "The schemas are only used by forms; the tests never validate an object, and histories are unbounded.", "anchors": ["src/calcore/interfaces.py:IExtendedCalendarEvent", "src/calcore/interfaces.py:ICalendarOccurrence", "src/calcore/interfaces.py:IWeeklyRecurrenceRule", "src/calcore/schema.py:Timedelta", "src/calcore/cal.py:EventSpecification.setOnObject", "src/calcore/cal.py:CalendarBase._importEventSpecification", "src/calcore/recurrent.py:WeeklyRecurrenceRule"]}
{"id": "C127", "title": "Queries by days raise exactly at the ends of the calendar", "statement": "Whenever the occurrences of a period are returned, they are also returned by days, unless an occurrence in the period begins on 9999-12-31, is cut off by a period beginning then, or reaches this day in a period that reaches it: then OverflowError. Blocked and free periods raise the first exception of the attendees' queries by days; if there is none, they are returned, unless the period ends at 0001-01-01 00:00 or after 9999-12-31 00:00: then OverflowError.", "quantifier": "for all stores of regular events, all attendees, periods in the calendar and time windows", "why_tests_cant": "The last and the first day of Python's calendar are never in test data; the exception depends on the order of attendees and on the ends of the period", "anchors": ["src/calcore/cal.py:930-933", "src/calcore/cal.py:1123-1170", "src/calcore/cal.py:174-246"]}
{"id": "C128", "title": "Each event has its attributes for itself", "statement": "Categories and recurrence are mutable objects that specifications and events store by reference. Changing the set of categories or the rule of one event in place changes no other event; calls without changes in place behave as if every argument were copied.", "quantifier": "all finite sequences of calls (specifications, events, imports, assignments, changes in place) with any objects passed on", "why_tests_cant": "the sharing depends on which objects earlier calls passed on and on whether values were equal when a specification was applied; sequences are unbounded", "anchors": ["src/calcore/cal.py:57-105", "src/calcore/cal.py:395-400", "src/calcore/cal.py:736-794"]}
{"id": "C129", "title": "A specification made without attendees invites nobody", "statement": "An EventSpecification made without the argument attendees, by a client or by the import of a component without ATTENDEE, has no attendees, whatever was done to other specifications.", "quantifier": "all finite sequences of calls", "why_tests_cant": "the default list is made once for the whole process; a test only sees what ran before it", "anchors": ["src/calcore/cal.py:57-69", "src/calcore/cal.py:773-783"]}
{"id": "C130", "title": "removeOverlaps and the week functions, as written", "statement": "Running the text of removeOverlaps on any list of pairs of datetimes gives a list that covers exactly the same instants, with consecutive tuples apart, and leaves its argument sorted. Running the text of getWeeksInYear and weeknr2datetime gives the number of ISO weeks of the year and midnight of the ISO day, or OverflowError exactly if that day is outside the calendar.", "quantifier": "all lists of pairs of datetimes; all years 1..9999, weeks of the year and weekdays", "why_tests_cant": "a statement about the text of the functions itself, for unbounded lists, not about selected runs or a hand-written copy", "anchors": ["src/calcore/util.py:22-50", "src/calcore/isoweek.py:25-57"]}
{"id": "C131", "title": "weekspan, monthindex and the rule constructors, as written", "statement": "Running the text of weekspan gives the number of weeks between the Mondays, that of monthindex the date with the given weekday at the given place from the start or end of the month (ValueError for a negative index in December 9999). Running the text of the constructors and of replace of all rule classes, with inheritance and calls of _validate, gives an object with exactly these attributes if they are valid and ValueError otherwise.", "quantifier": "all dates; all arguments of the constructors; all rules and all choices of arguments of replace", "why_tests_cant": "method resolution, defaults and the marker Unchanged interact; argument combinations are unbounded", "anchors": ["src/calcore/recurrent.py:54-84", "src/calcore/recurrent.py:214-247", "src/calcore/recurrent.py:299-331", "src/calcore/recurrent.py:427-461"]}
{"id": "C132", "title": "Recurrence rules, as written", "statement": "Iterating over the generator that the text of apply gives yields exactly the dates of the sequence of the rule class within enddate, count and until that are not excepted, in order, and then ends normally or with a Python exception; it runs for ever exactly for the rules with interval 0 described by C17.", "quantifier": "all rules of all classes, all events with a dtstart in the calendar, all enddates", "why_tests_cant": "the number of iterations is unbounded, and the statement is about the text of the methods, not a copy", "anchors": ["src/calcore/recurrent.py:114-134", "src/calcore/recurrent.py:174-176", "src/calcore/recurrent.py:194-197", "src/calcore/recurrent.py:253-279", "src/calcore/recurrent.py:337-407"]}
{"id": "C133", "title": "Periods, occurrences and segments, as written", "statement": "Running the text of inPeriod says whether an object ends after the beginning and starts before the end of the period, and raises exactly if there is a beginning and the object has no end; that of sameDay whether two datetimes are on one day; that of roundtimedelta gives the least whole number of days. Running the text of expand on an event returns exactly the starts of the event that overlap the period, in order. Running the text of segmentOccurrences returns segments that cover each instant of the period exactly as often as the occurrences do, each within an occurrence, the period and a day.", "quantifier": "all objects with dtstart and duration, all periods, all events with rules of any class (positive interval, until a date), all lists of occurrences", "why_tests_cant": "unbounded rules, durations and periods; the statement is about the text of the functions and not about runs or a copy", "anchors": ["src/calcore/cal.py:498-523", "src/calcore/cal.py:1075-1098", "src/calcore/cal.py:1123-1163"]}
{"id": "C134", "title": "Criteria and queries of the storage, as written", "statement": "Running the text of the participation accessors gives what the two dictionaries of the event hold; that of SearchCriteria._match says whether the event has one of the categories, the organizer, and an attendee with the status and role; that of getEvent and hasEvent looks up the stored event (KeyError if there is none); that of getEvents returns, each once, exactly the matching events that overlap the period, or raises exactly if one of them has no end and the period a beginning; that of getOccurrences raises AssertionError for unbounded periods and returns exactly the overlapping starts of matching events otherwise.", "quantifier": "all well-formed storages, criteria and periods; all orders of dictionaries and sets", "why_tests_cant": "unbounded stores and periods; the statement is about the text of five classes calling each other through inherited methods", "anchors": ["src/calcore/cal.py:154-172", "src/calcore/cal.py:284-309", "src/calcore/cal.py:318-390", "src/calcore/cal.py:457-490"]}
{"id": "C135", "title": "Blocked and free periods, as written", "statement": "If running the text of getBlockedPeriods returns, the periods are in order and apart, and an instant of the queried period is in one of them exactly if its time of day is outside the window or one of the attendees is busy; if running the text of getFreePeriods returns, the periods cover exactly the instants of the days of the period inside the window at which, if in the period, no attendee is busy, and a minimal duration selects those at least as long.", "quantifier": "all well-formed storages of events with rules of positive interval, all lists of attendees, periods and windows", "why_tests_cant": "instants, attendees and stored events are unbounded; the text involves recurrence, segmentation, criteria and removeOverlaps", "anchors": ["src/calcore/cal.py:174-248"]}
{"id": "C136", "title": "Attendees, calendars and attendee sources, as written", "statement": "Running the text of AttendeeBase.getEvents returns, each once, exactly the stored events in the period that match the criteria for that attendee unless they name attendees themselves (an empty string or list is no condition), and raises exactly if one has no end and the period a beginning; that of CalendarBase.getEvents the same for the attendees of the calendar, or KeyError if the source does not know one; that of getOrganizedEvents exactly the events of that organizer; getEventsInDay is getEvents between two midnights and raises OverflowError on the last date; getAttendeeIds lists exactly the participants with the status and role, or raises KeyError if one with the status has no role; clone lets an argument count only where the criteria say nothing; findByName raises AttributeError for every source that is not empty and getAttendeesOfType always.", "quantifier": "all well-formed storages, calendars, sources, criteria and periods; all orders of dictionaries and sets", "why_tests_cant": "stores, calendars and criteria are unbounded; the statement is about the text of six classes calling each other through inherited methods", "anchors": ["src/calcore/cal.py:336-348", "src/calcore/cal.py:463-474", "src/calcore/cal.py:603-641", "src/calcore/cal.py:670-688", "src/calcore/cal.py:905-972", "src/calcore/cal.py:1024-1069"]}
{"id": "C137", "title": "Methods that change events, stores and calendars, as written", "statement": "Running the text of setParticipationStatus raises AssertionError for an unknown status, does nothing for the status somebody has, otherwise sets it and sends one notification holding the changed event and both statuses; None removes status and role, or removes the status, raises KeyError and tells nobody if there is no role. setParticipationRole sets a known role silently; invite gives exactly those without a status NEEDS-ACTION and the usual role, with one notification each; alldayAdjust moves the start to midnight and rounds the duration up to whole days, or raises OverflowError beyond 999999999 days; setOnObject sets every attribute, the organizer, and the attendees before the first entry with an unknown role (AssertionError) or without attendee (AttributeError); willModify answers by the first attribute, organizer or entry that differs; Event() and createEventFromSpecification make, store and announce exactly the event asked for or change nothing; deleteEvent removes and announces it or raises KeyError; addAttendee, removeAttendee, createIndividual and createRoom change exactly one key, and the attendee made says the id and the type given.", "quantifier": "all events, specifications, stores, calendars and sources, all orders of dictionaries and sets", "why_tests_cant": "events, specifications and stores are unbounded; the statement is about the text including what is left after an exception", "anchors": ["src/calcore/cal.py:57-125", "src/calcore/cal.py:143-150", "src/calcore/cal.py:263-279", "src/calcore/cal.py:311-316", "src/calcore/cal.py:395-455", "src/calcore/cal.py:582-587", "src/calcore/cal.py:597-605", "src/calcore/cal.py:646-651", "src/calcore/cal.py:613-617", "src/calcore/cal.py:671-675", "src/calcore/cal.py:1019-1032", "src/calcore/events.py:25-56"]}
{"id": "C138", "title": "Reading iCalendar components, as written", "statement": "Running the text of _importEventSpecification on a parsed VEVENT raises exactly the exceptions of C113, in that order, and otherwise returns a specification with the times, texts, status, organizer, attendees with role and status, categories, transparency, access, document and rule that the component says. The same for its helpers: float_datetime gives the local time or raises OverflowError; _getDtstartDuration gives start, duration and the all-day flag, preferring DTEND to DURATION, and raises KeyError if it has to mention a missing UID; _getRecurrenceRule gives the rule of FREQ, BYDAY, INTERVAL, COUNT and UNTIL; _getCategories exactly the categories; _repairText a text differing in carriage returns only; _getDefaultOrganizer the first attendee of the calendar.", "quantifier": "all components, with properties in any order and any others besides, all calendars, sources, time zones and texts", "why_tests_cant": "components, texts and time zones are unbounded; the statement is about the text of the code", "anchors": ["src/calcore/cal.py:748-899", "src/calcore/cal.py:1101-1107", "src/calcore/cal.py:1067-1069", "src/calcore/cal.py:64-89"]}
{"id": "C139", "title": "Texts and comparison of rules, as written", "statement": "Running the text of iCalRepresentation on a valid rule raises AssertionError exactly if its class has no frequency, otherwise ValueError exactly if its end or one of its exceptions lies before 1900, and otherwise returns lines. A reader of RFC 2445 takes from these lines the interval, the bound, the days and the exceptions of the rule, and they stand for the dates that running the text of apply yields. Two rules with the same lines are equal for __eq__ as written. __eq__ is true exactly for rules of the same class with the same attributes, __ne__ is its negation, and None equals no rule. ical_date and ical_datetime write what the reader reads back, up to seconds, or raise ValueError before 1900.", "quantifier": "all rules, starts, events and end dates", "why_tests_cant": "rules, dates and texts are unbounded; the statement is about the text of the code and the standard", "anchors": ["src/calcore/recurrent.py:136-168", "src/calcore/recurrent.py:199-200", "src/calcore/recurrent.py:281-285", "src/calcore/recurrent.py:409-419", "src/calcore/recurrent.py:465-482", "src/calcore/recurrent.py:85-134"]}
{"id": "C140", "title": "Export of events, as written", "statement": "Running the text of export on an event raises TypeError exactly if the event has no duration, otherwise OverflowError exactly if it ends out of the range of Python, and otherwise returns a component with exactly the properties that show the event: its uid, start and end (dates with VALUE=DATE when all-day), frequency, interval, count and until of its rule, transparency and access, and, unless private, its title, non-empty description, location, categories and document, and its status. The private component is the same for all events that agree on times, rule, transparency, access and uid. Without an argument the export is not private. Read again by the iCalendar library, the component says when the event takes place, and running the text of _importEventSpecification on it gives a specification that asks for what the event is.", "quantifier": "all events, listings of sets, calendars and timezones", "why_tests_cant": "events, rules and texts are unbounded, and the round trip composes two methods", "anchors": ["src/calcore/cal.py:517-572", "src/calcore/cal.py:748-795"]}
{"id": "C141", "title": "Export of calendars, as written", "statement": "Running the text of export on a calendar raises KeyError exactly if the source does not know an attendee of the calendar; otherwise TypeError or OverflowError if an event that is asked for has no end in the range of Python, or if the period has a beginning and an event of the calendar that matches the criteria has no such end; and otherwise returns the text of a calendar with exactly one component for each stored event of the calendar that matches the criteria and overlaps the period, which shows the event, not privately. Without arguments everything is exported. Read again, the components say when the events take place.", "quantifier": "all calendars, sources, well-formed storages, periods, criteria, listings of sets and timezones", "why_tests_cant": "the number of stored events is unbounded and the method composes the query, the criteria and the export of each event", "anchors": ["src/calcore/cal.py:974-985", "src/calcore/cal.py:517-572"]}
{"id": "C142", "title": "Text, hash and order of rules and events, as written", "statement": "Running the text of __repr__ on a rule returns a Python expression that evaluates to the same rule. Running __hash__ on two rules hashes things that are equal exactly if the rules are, and on two events things that are equal exactly if their ids are. Running __cmp__ on two events gives a negative number, zero or a positive number as the first starts before, together with or after the second, and for events that start together as their ids compare, so that events compare as equal exactly if start and id are the same; an event comes after anything that is not an event.", "quantifier": "all rules with valid attributes, all events", "why_tests_cant": "rules and events are unbounded, and the second clause of the comparison is only seen for events that start together", "anchors": ["src/calcore/recurrent.py:86-112", "src/calcore/recurrent.py:223-225", "src/calcore/recurrent.py:308-311", "src/calcore/cal.py:487-496"]}
{"id": "C143", "title": "Construction, generated ids and the clock, as written", "statement": "Running the constructors gives an empty storage with the given id and host, or the name of the machine if no host is given, a manager that uses the storage set last, an empty source and an empty calendar. Running createEventFromSpecification without an id at a time gives the event an id made of that time in seconds, the id of the storage, its number of events and its host, and otherwise does what it does with an id; with a bad entry in the attendee list it raises and changes nothing. Running createEvent with keyword arguments does the same with the specification made from them, and raises what making it raises. getToday, getCurrentYear and getRecentYears give the time, its year and the three years around it.", "quantifier": "all times in the range of Python, host names, storages, specifications and keyword arguments", "why_tests_cant": "the clock and the host cannot be set in a test, and the space of specifications is unbounded", "anchors": ["src/calcore/cal.py:127-160", "src/calcore/cal.py:247-272", "src/calcore/cal.py:311-325", "src/calcore/cal.py:956-966", "src/calcore/cal.py:994-1030", "src/calcore/cal.py:1113-1124"]}
{"id": "C144", "title": "Vocabularies and periods, as written", "statement": "Running CalendarVocabularyFactory on a list of strings gives one term for each, in order, and raises ValueError exactly if one occurs twice; the four vocabularies offer the three states, the three kinds of access, the three kinds of monthly repetition and the weekdays 0 to 6. Running Period gives a period that inPeriod accepts: an event is in it exactly if it starts before the end of the period and ends after its start.", "quantifier": "all lists of strings, all events, all starts and lengths", "why_tests_cant": "lists, events and periods are unbounded", "anchors": ["src/calcore/cal.py:1072-1088", "src/calcore/cal.py:1164-1183"]}
{"id": "C145", "title": "The import of calendars, as written", "statement": "Running the text of import_ on a calendar whose parser raises, returns None or finds components: an event that the calendar does not show for the given period and criteria stays as it was, also when the import raises; if the calendar cannot be asked, or the parser raises or returns None, nothing changes and nobody is notified; when it returns, the store has exactly the uids of the data and those it had before, except, when synchronizing, those of the calendar's events that are not in the data; without synchronizing, and when it raises, nothing is deleted; for data with different uids, when it returns, every event that is new or that the calendar showed says what its component says; and every event that appeared, changed or disappeared is announced by a notification that carries an event with its uid. The store, the exception and the notifications are those of the function of the model.", "quantifier": "all stores, calendars, attendee sources, texts, results of the parser, components, periods, criteria and values of synchronize", "why_tests_cant": "stores, calendars and component lists are unbounded, and what an import leaves behind when it raises in the middle depends on all of them", "anchors": ["src/calcore/cal.py:690-754"]}
{"id": "C146", "title": "Creation of events by attendees, as written", "statement": "Running the text of AttendeeBase.createEvent with keywords: if the keywords include dtstart and duration and name only parameters of EventSpecification, the specification has what was given and the defaults of the others (categories given as None are empty), and the event is made from it with the attendee as the organizer, whatever the keywords say about the organizer; it gets an id made from the time, the storage and the host, is found under that id in the storage the attendee uses afterwards (and nothing else changes there), is announced as created and returned. A bad entry in the list of attendees raises its exception, and a keyword that does not exist or a missing dtstart or duration raises TypeError; then the attendee and its storage are as before and nobody is notified.", "quantifier": "for every dictionary of keywords, attendee, storage, time and name of the machine", "why_tests_cant": "The keyword dictionary, the storage and the clock are unbounded, and the overwritten organizer and the missing keywords interact with the defaults.", "anchors": ["src/calcore/cal.py:54-85", "src/calcore/cal.py:139-141", "src/calcore/cal.py:605-609", "src/calcore/cal.py:643-654"]}
{"id": "C147", "title": "Histories of calls, as written", "statement": "Running the text of the calls one after the other, in any order: creation of events through the storage manager (with or without an id) and through attendees, getEvent, deleteEvent, setParticipationStatus, setParticipationRole, invite, alldayAdjust, setOnObject and imports into calendars, where a call that raises does not stop the client. From any sound state the sequence can be carried out, and every way it can go leaves the storage manager with the storage that the model computes; what is sent are the notifications that the model logs, in order, and each call ends with the exception of the model. Without imports the notifications are determined completely. Hence, for the text alone and a new storage: hasEvent returns true for exactly the ids whose latest created/deleted notification told of a creation; getEvent(u) returns an event whose unique_id is u; and calls about different events can be interleaved in any way without changing what getEvent answers.", "quantifier": "for every sequence of calls whose specifications have durations of at most 999999999 days either way, every sound storage, every listing of sets, every result of the parser and every clock and machine name", "why_tests_cant": "Histories are unbounded and the state after each call is the input of the next one; tests only run a few short sequences.", "anchors": ["src/calcore/cal.py:87-105", "src/calcore/cal.py:139-162", "src/calcore/cal.py:262-285", "src/calcore/cal.py:395-453", "src/calcore/cal.py:605-609", "src/calcore/cal.py:690-754"]}
{"id": "C148", "title": "What a call leaves behind can be read back, as written", "statement": "In the text alone, from any sound storage: a call that names its event does not change what getEvent answers for any other id. After a creation under an id that raised nothing, getEvent returns the new event for it, and in it getParticipationStatus and getParticipationRole return what the specification asked for, and None for everybody else; if the list of attendees has a bad entry, its exception is raised and getEvent answers as before for every id. After a deletion getEvent raises KeyError for the id; the deletion itself raises KeyError if there was no event under it, and nothing otherwise. After setParticipationStatus without exception the event that getEvent returns has that status for the attendee, and the same call again changes nothing, sends nothing and raises nothing. After setParticipationRole without exception it has that role, and all statuses are those of before. invite raises nothing for a stored event; afterwards those invited have NEEDS-ACTION if they had no status, and their status of before otherwise.", "quantifier": "for every sound storage, every listing of sets, every machine name, every call, id, attendee, status, role and list of those invited, and every way the text of the call can go", "why_tests_cant": "A test reads back a few values after a few calls; that no other event is touched and that this holds in every reachable storage is a statement about all of them.", "anchors": ["src/calcore/cal.py:87-105", "src/calcore/cal.py:262-285", "src/calcore/cal.py:395-453", "src/calcore/cal.py:690-754"]}
