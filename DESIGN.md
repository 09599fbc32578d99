# Formal model of CalCore: design

Source: `/repo` (nuxeo-cps/python--CalCore, Python 2).  Everything below is about
`src/calcore/{cal,recurrent,util,isoweek}.py`.  The code was read as text; it was never run.

## Trusted base

* Lean 4.33.0's kernel.
* Axioms: every theorem named in `MANIFEST.json` depends on a subset of `propext`,
  `Classical.choice`, `Quot.sound` (checked with `#print axioms`).  No axiom is added, there is no
  `sorry`, `native_decide` or `bv_decide`.
* The reading of the Python code: every model definition cites the file and lines it models.
* The Python 2 runtime semantics written down in `Verif/Model/Py.lean` and
  `Verif/Model/DateTime.lean`: integer division, `datetime` range errors, dictionaries with
  unspecified order, generator semantics, `TypeError` when a `date` is compared with a `datetime`.
  `ymd2ord`/`ord2ymd` are transcribed from CPython and proved mutually inverse.
* The `icalendar` library is not modelled: `import_` takes the parser as a parameter, and the model
  works on decoded components (`VEvent`).  The local timezone is a parameter too.
* For C130 and later properties "as written": the reading of the code is mechanical.  `tools/translate.py`
  parses the source text and writes the syntax trees in `Verif/Source/*`, every statement preceded by the
  line it came from; `Verif/Model/Lang.lean` is an interpreter for these trees.  Trusted are the
  translator (one case per syntactic form, no knowledge of what functions mean; the trees can be
  compared with the quoted lines) and the interpreter, not a transcription of the functions.
  `Verif/Spec/Represent.lean` and `Verif/Spec/RepresentCal.lean` say which objects of the interpreter stand
  for which rules, events, criteria and storages.  A set is represented by a list of its elements in any
  order (`Listing`), attendees may have any further attributes.
  Where the interpreter does not know what Python does it stops (`Stop.stuck`), which is not an exception and which
  the properties exclude; so does a call of a function that the tool did not translate (`Prog.others`), and a
  comparison of objects whose class has `__cmp__`.
  Objects of the interpreter are values.  Where the text of `import_` or of `createEvent` of an attendee changes an object that `self` holds (the storage
  manager, or an event in it), the translator marks the statement (`Stmt.shared`), and the changed object is put back into
  `self`: the manager in place of the manager, the event under its id.  What the calendar's attendees refer to is not
  updated; nothing in `import_` asks them for their storage.
  The parser is the variable `parser` of the program, a dictionary from texts to results (`parseWith`); a parsed calendar is
  an object `ParsedCalendar` with its components (`Spec/RepresentCalText.lean`).  The set of known uids is a list without
  repetition because the uids of a store are different (`calendar_uid_nodup`).
  The same tool writes `Verif/Source/Signatures.lean`, the methods and signatures of all classes and
  interfaces, which `C122_tables_as_written` compares with the tables used in C122.
* The specifications in `Verif/Spec/*` say what the properties mean; they do not use the model's
  helper functions.

## Layout

* `Verif/Model/*`: the model, function by function.
* `Verif/Source/*`: syntax trees of functions of the source, written by
  `python3 tools/translate.py /repo/src/calcore lean/Verif/Source` (run in /verif).
* `Verif/Spec/*`: small specifications, independent of the model.
* `Verif/Lemmas/*`: proofs about the model that are not properties themselves.
* `Verif/Props/*`: one theorem or more per property, named after it, each followed by an `example`
  showing a non-trivial case that meets the hypotheses.
* `Verif/Conformance/*`: the expectations of the repository's own tests and doctests, evaluated on
  the model (validation of the model; not counted as proofs).

A theorem ending in `_partial` proves a weaker statement than the property; a theorem ending in
`_counterexample` proves that the property as stated is false of the code.

## Modelled / not modelled

| file | modelled | not modelled |
|---|---|---|
| util.py | removeOverlaps; its text (C130), including the in-place sorting of the argument | |
| isoweek.py | getWeeksInYear, weeknr2datetime; their text (C130) | |
| recurrent.py | all rule classes: `__init__`/`_validate`, `replace`, `__eq__`/`__ne__`/`__hash__`, `apply` (all variants), `iCalRepresentation`, weekspan, monthindex, ical_date, ical_datetime, `__repr__`; constructors and `apply` also for arguments of any basic type (`Model/Untyped.lean`); the text of `__init__`, `_validate`, `replace`, `apply`, `_nextRecurrence`, `_applyWeekday`, `_applyLastWeekday`, weekspan, monthindex (C131, C132), and of `__eq__`, `__ne__`, `iCalRepresentation`, `_iCalArgs`, ical_date, ical_datetime (C139), `__repr__`, `__hash__` (C142) | floats; wrong types in `replace`, `iCalRepresentation` |
| cal.py | EventSpecification, StorageManagerBase (with one storage: `World`; switched between several: `Manager`), StorageBase/MemoryStorage, SearchCriteria, EventBase, AttendeeBase, CalendarBase (incl. import_/export at component level), SimpleAttendeeSource (incl. its failing search functions), Period, sameDay, getRecentYears, inPeriod, segmentOccurrences, roundtimedelta, float_datetime, ids, vocabularies; the text of inPeriod, sameDay, roundtimedelta, assertPeriodBounded, segmentOccurrences, SearchCriteria, the accessors and `expand` of EventBase, the queries of StorageBase and StorageManagerBase down to getFreePeriods (C133-C135), and the queries of AttendeeBase, CalendarBase and SimpleAttendeeSource, `clone` and getAttendeeIds (C136), and the methods that change events, specifications, stores, calendars and sources, with what they leave when they raise (C137), and the reading of parsed components (C138), and `export` of events (C140) and of calendars (C141), and `__hash__` and `__cmp__` of events (C142), the constructors, generated ids, createEvent with keyword arguments and the functions that read the clock (C143), Period and the vocabularies (C144), and `import_` with `_importExistingEvent`, `_importNewEvent` and `_deleteEvent` (C145), and `createEvent` of attendees (C146) | logging, iCalendar text syntax, sockets, translation of messages |
| events.py | the notifications, as a log (`World`) and with subscribers that call the API again (`Heap`) | zope.event's list of subscribers (one subscriber stands for all) |
| interfaces.py | the methods with their parameters and the attributes of every interface (C122); the schema fields with their types, bounds, vocabularies and whether they are required (C126) | titles and descriptions of the fields; the distinction of byte strings and unicode |
| schema.py | `Timedelta` (C126) | `Time`, which no schema uses; the interfaces |

## Representation and simplifications

* Exceptions are values (`Except Fault α`; `Fault.py e`, or `Fault.diverge` for a loop that never
  ends).  Operations that mutate before raising return the state reached as well.
* A date is its proleptic Gregorian ordinal, a datetime a number of microseconds, a timedelta a
  number of microseconds, all `Int`; results outside years 1..9999 raise.  Python's limit of
  999999999 days for timedeltas is not modelled, except in the interpreter (`Lang.mkDelta`), where
  alldayAdjust raises OverflowError for longer durations (C137_allday_overflow).
* Generators are step functions iterated with fuel; fuel adequacy is proved
  (`apply_fuel_adequate`, `nextMonthly_ne_diverge`, `borders_ne_diverge`, `windowLoop_ne_diverge`),
  so `diverge` means that the Python loop never ends.
* Dictionaries are association lists; results are stated up to order or proved independent of it.
* Value semantics: in `World` an event is the value stored under its uid.  `Verif/Model/Objects.lean`
  has event objects with addresses, so that clients can hold on to them, and subscribers; C85 proves
  that `World` describes it correctly for clients that get the event from the store before each
  call, when nobody has subscribed.  `Verif/Model/Sharing.lean` has sets of categories, rules and lists
  of attendees with addresses; C128 proves that values describe it correctly without changes in place.
* Subscribers may be nested up to a depth given as fuel.  Deeper nesting is `diverge`; Python would
  raise RuntimeError at its recursion limit.
* Attributes are typed: e.g. `interval` is an integer and `title` a string (for rules see C121).  In an
  `EventSpecification` the status of an attendee is a string; None, which would remove the
  participation (or raise KeyError), cannot be written in the model.  Import never produces it.
* For the reading of components as written (C138) a parsed component is a dictionary of decoded properties
  (`Parsed`); `decoded`, `get_inline`, `has_key` and indexing of the icalendar library are primitives of the
  interpreter that look up the name in upper case.  A time with an offset is an object that carries its local time
  or the exception of the conversion.  Interpreting the text showed that an RRULE with an unknown FREQ and an empty
  first part raises IndexError, not UnboundLocalError; the model was corrected (`unboundRule`).
* For the export as written (C140) a component is a list of properties; `add`, `set_inline`, `vDate`, `vText` and
  `vRecur` are primitives of the interpreter that keep the values they are given.  `reread` is what the icalendar
  library is assumed to give back when it parses what it wrote.
* For the export of calendars as written (C141) the text of a calendar is an object that holds its properties and
  components (`calendarText`); how the icalendar library writes them is not modelled.
* The clock and the host name are parameters; for functions as written they are the global variables `clock` and
  `fqdn` of the interpreted program (`Source.world`).  Most theorems about the text hold for any values of global
  variables; those stated without a world use the program without a clock, where reading it is `stuck`.
* For functions as written `**kw` is a dictionary, `hash(x)` is an object that holds `x`, and `SimpleTerm` and
  `SimpleVocabulary` of zope.schema are primitives (the latter raises ValueError for a value or token that occurs twice).

## Disagreements between the code and the properties

Each line is a theorem: the property as stated is false of the model, with a concrete witness.

| id | what the code does |
|---|---|
| C07 | `monthindex` with a negative index raises ValueError in December 9999 |
| C09, C59 | a yearly event on 29 February raises ValueError after the first date, so every query that expands it raises |
| C12 | 'weekday' recurrence of a fifth weekday leaves the month |
| C13 | 'lastweekday' recurrence of a minus-fifth weekday leaves the month; nothing is generated in December 9999 |
| C15, C16 | NoRecurrenceRule ignores until, count, exceptions and enddate |
| C17, C19, C23, C35 | imported rules are not validated: INTERVAL=0 hangs every query, a negative interval makes queries inconsistent |
| C20 | `inPeriod` is not the half-open overlap for empty periods |
| C22, C60 | an occurrence that ends at midnight yields an additional empty segment; an empty event at midnight is in no day view |
| C25 | a negative duration gives a blocked period that ends before it begins |
| C26 | the documented status 'CANCELLED' blocks; the code tests 'CANCELED' |
| C29, C31 | free periods are wrong when the period begins or ends inside the time window |
| C33 | generated ids repeat after a deletion in the same second, and overwrite an event |
| C37 | criteria that name attendees override the attendee or calendar whose events are asked for |
| C38, C41, C42, C43 | a status given to somebody not invited has no role: removing it raises KeyError half-way, filtering by role raises KeyError |
| C44 | an organizer listed as attendee gets that status and role |
| C45, C48 | a DATE start without end gets one day when new and zero when imported again; negative durations |
| C48 | two components with the same uid alternate at every import |
| C49 | weekdays, the monthly kind and exceptions are not exported; an empty document becomes None |
| C50 | re-importing one's own export makes the main attendee organizer of everything |
| C53 | line-ending repair looks only at the first newline |
| C54 | willModify does not notice a changed role, announces modifications that do not happen, raises without organizer |
| C55 | `__cmp__` compares `self.unique_id` with itself |
| C57 | COUNT=0 is not written; a datetime and a date until look alike; years before 1900 raise |
| C59 | an event without duration, or with a huge interval, makes every query raise |
| C62 | a failing import leaves the events before the failing one imported |
| C63-C65 | NoRecurrenceRule ignores exceptions, count and until |
| C66, C67 | a yearly rule on 29 February raises where the monthly rule goes on, and where the rule with four times the interval goes on |
| C68 | a weekly rule whose start is not on a listed weekday, and a monthly weekday rule that starts in the fifth week, do not continue as they began |
| C69 | an occurrence without length exactly at the cut of two periods is shown in neither half |
| C70 | the empty segments of C22 appear inside a longer view and not in the single day views |
| C71 | getEvents judges a recurring event by its first occurrence only |
| C74 | ids generated by the store depend on the order of creation |
| C76 | `clone` keeps what is set and ignores the argument; empty lists become "no condition" |
| C78 | PARTSTAT of imported data is stored unchecked |
| C80 | `findByName` raises AttributeError unless the source is empty, `getAttendeesOfType` and `getAttendeeTypes` always raise |
| C81 | `Period` makes (datetime, timedelta), and comparing an event with it raises TypeError |
| C82 | an import ignores data about events the calendar does not show in the given period |
| C84 | a new event with an organizer known to the source who is not in the calendar is stored but not shown |
| C88 | a subscriber that raises interrupts invite between status and role, and the attendee cannot be removed afterwards |
| C89 | an invitation cannot be refused from a subscriber by removing the attendee: KeyError, and the others are not invited |
| C90 | deleting an object that is no longer stored deletes the event stored under its uid meanwhile |
| C91 | subscribers that contradict each other never end |
| C96 | data about a uid that the store uses for somebody else's event are ignored, so the mirror misses that event |
| C98 | a negative count passes the constructor and is written as COUNT=-2, which no reader of RFC 2445 accepts |
| C99 | UNTIL is written as midnight and so excludes the last day for events with a time; weekly rules go on with the weekday of the start even if BYDAY does not have it; yearly rules on 29 February end with an exception; the fifth weekday drifts into the next month; BYDAY=-1 is written for any last-but-n weekday; last-weekday rules stop before December 9999 |
| C29, C31, C100, C101, C102 | an event of negative duration, which createEvent and the import accept, can make busy time appear as free |
| C103 | the schema allows count and until together, the constructor refuses; RFC 2445 spells the status 'CANCELLED', the form offers and getBlockedPeriods compares with 'CANCELED', so an imported cancelled event still takes time |
| C104 | setOnObject, alldayAdjust and setParticipationRole change events silently; so does a removal that raises |
| C105 | after a removal that raises, two notifications start from the same old status |
| C106 | getEvents lists events that never take place; a last-weekday rule that starts in December 9999 never takes place |
| C107 | (scope) an import into a calendar with several attendees chooses the organizer by the order of a dictionary, which depends on the ids |
| C108 | generated ids contain the number of stored events and so depend on calls about other events |
| C109 | whether an import changes the role of an attendee depends on whether the title (or another attribute) changed too: willModify compares roles with the constant REQ-PARTICIPANT |
| C110 | an attendee who is removed and whose status is set again has no role; getAttendeeIds with a role then raises KeyError |
| C114 | doc/storage.txt describes `addStorage` and `setNewEventStorage` and queries over several storages; the manager has `setStorage` only and uses one storage at a time |
| C115 | storages of the same name on the same host generate the same ids |
| C116 | the order of a calendar's dictionary decides who is its main attendee, hence who organizes the events it imports |
| C118 | an event without length makes nobody busy, but cuts the free time in two, so that a search with a minimal duration can fail |
| C119 | events that start at the same time are equal, with different hashes: `in` and `remove` take one for the other; two states of one event are two elements of a set |
| C121 | a string is accepted as interval (TypeError after the first date) and as count (never ends); datetimes are accepted as exceptions and ignored |
| C122 | ten methods cannot be called as their interface declares: `EventSpecification.export` and `EventBase.getStorageId`/`getEventId` do not exist, `getAttendeeTypes` has no `self`, `setStorage`, `getFreePeriods` and `clone` name an argument differently, `createEvent` of the manager takes one positional argument only, the fifth positional argument of `MonthlyRecurrenceRule.replace` is `weekdays` and not `monthly` (and ignored), `import_` is declared with `self`; `EventSpecification` has no `unique_id`, `SearchCriteria` no `attendee` |
| C123 | an UNTIL with a time makes an imported event never take place; EXDATE, BYMONTHDAY and the BYDAY of daily rules are ignored; a monthly BYDAY is replaced by the place of the start in its month; a weekly BYDAY gets the day of the start added; fifth weekdays and 29 February as in C99 |
| C124 | importing an all-day event without DTEND twice makes it disappear from its day: an update sets no duration and is not adjusted |
| C125 | an export does not say weekdays, exceptions and kinds of monthly rules; it says dates for an until with a time, for which the code has none; an all-day event with hours on one day is exported without length |
| C126 | no weekly rule conforms to its schema: `weekdays` is a tuple, the field is a `Set`; imports store any status (also the 'CANCELLED' of RFC 2445), class, summary with line breaks, interval and until with a time; `setOnObject` takes a missing duration |
| C127 | an occurrence of 9999-12-31 is returned, but not by days; blocked and free periods raise for every period ending on 9999-12-31 after midnight, and for the one ending at 0001-01-01 00:00 |
| C128 | two events made from one specification, or from two made with one set or rule, change together when one is changed in place |
| C129 | all specifications made without attendees share one list; after an `append` to it, every later one invites the attendee, and so does every imported component without ATTENDEE |
| C142 | `__cmp__` compares the id of the first event with itself: events that start together compare as equal, with different hashes |
| C144 | `Period` holds a length where `inPeriod` expects an end: TypeError unless the event is over |

## Plan per property

| id | what is modelled and how it is proved |
|---|---|
| C01-C03 | `removeOverlaps` as sort + fold; induction over the sorted list with an invariant on the pending interval |
| C04-C05 | civil calendar arithmetic; `omega` after characterising Jan 1/Dec 31 |
| C06-C07 | arithmetic over ordinals and months |
| C08-C16 | step-function generators; candidate sequences in closed form; induction over the fuel |
| C17 | measure argument for validated rules; negation for imported interval 0 |
| C18-C19 | decision logic; negation for import |
| C20-C24 | filter characterisations; induction over day borders for segmenting |
| C25-C31 | composition of segmenting, clipping and removeOverlaps; pointwise coverage |
| C32-C35 | refinement to a map, induction over operation lists |
| C36-C39 | decision logic stated outright |
| C40-C44 | dictionary lemmas, invariants over operation lists |
| C45 | arithmetic; negation for re-import |
| C46-C48, C62 | invariants over the import loop incl. the raising branch |
| C49-C52 | component-level round trip |
| C53, C57, C61 | string lemmas |
| C54-C56, C58-C60 | decision logic, arithmetic, negations with witnesses |
| C63-C68 | equalities between generated sequences, from the exact characterisation of each rule class |
| C69-C71 | from the exact answers of the queries (C20, C23, C24) |
| C72-C74 | two-store relations: stores that agree on what the attendees attend, stores reached in different order |
| C75 | arithmetic of the ISO calendar |
| C76-C77 | decision logic on criteria; from the exact answers of the queries |
| C78-C79 | invariants of stored events over histories (`Lemmas/Restricted`) |
| C80-C81 | decision logic; negations |
| C82-C84 | the import as a function of each uid's event alone (`Lemmas/ImportExact`) |
| C85 | simulation between the heap of objects and the store of values (`Lemmas/ObjectsQuiet`) |
| C86-C87 | invariants of single steps, closed under all programs and nested reactions (`Lemmas/Objects`) |
| C88-C91 | case analysis on calls with a reacting notifier; induction over attendees, ranks and fuel |
| C92 | reading the text back from the left, field by field |
| C93 | the sequence of dates of each class moved, then uniqueness of the generated list |
| C94 | from the exact answers of the blocked and free queries (C26, C29) and the stored events after one creation |
| C95-C96 | the import as a function of each uid's event alone, and the exact answers of the queries |
| C97 | the specification read from any export, field by field; then a relation between event and copy that is a projection |
| C98 | a reader of RRULE and EXDATE lines (Spec/RFC); the fields of C57, split and read one by one |
| C99 | recurrence sets as predicates on dates (Spec/RFC); the values of each sequence of dates are the members of the set, ranks depend on values only |
| C100 | C26 at the instant, and free periods as the complement of blocked periods (`free_complement`) |
| C101 | the tuples before merging are the union over the attendees; complement |
| C102 | blocked time by segments (`blocked_by_segments`), independent of the window inside it; complement |
| C103 | the lists of the vocabularies against the cases in which the constructors return |
| C104 | a reflexive and transitive relation between worlds (`Told`), shown for each call and loop |
| C105 | a chain predicate on the notifications about one person and event, closed under concatenation |
| C106 | the 0-th date of a rule is the start; exactness of getOccurrences (C24); blocked time by segments |
| C107 | every function of the model commutes with an injective replacement of attendee ids (Lemmas/Rename) |
| C108 | a call reads and changes its target only (`step_local`, `notes_local`); induction over the history against the filtered history |
| C109 | every function of the model commutes with blotting out texts (Lemmas/Redact) |
| C110 | algebra of dictionary updates |
| C111 | every query commutes with moving, wherever both sides return (Lemmas/Move), from C93 |
| C112 | every call is a chain of steps, each with an exact description of its exceptions (`Says`); queries: the failing event is found by induction over the loops, then the exactness of rules |
| C113 | reading a component step by step, in order, with `Says`; the loop by induction, from the effect of one component on its uid (Lemmas/ImportExact) |
| C114 | induction over the calls of the client, seen from one storage; a call depends on the store only, not on the log (`step_after`) |
| C115 | an id is cut at the last at sign and the last dash, neither of which can be in what follows; stored ids by induction |
| C116 | simulation: two storages whose entries are equal up to the order of dictionaries stay so; the loops of the queries are concatenations, which commute with permutations up to permutation |
| C117 | a recursive-descent reader of Python expressions (Spec/PyEval.lean); each piece of the text is read as one expression whatever follows after a comma or closing parenthesis |
| C118 | both results are separated lists of non-empty periods covering the same instants, which determines them |
| C119 | induction over the list; sorting is insertion of one element after the other (stable) |
| C120 | every loop is the concatenation of the results for the elements (`concatM`); for blocked periods the set of intervals before merging is the union, and merging keeps what is covered |
| C121 | a second model with Python objects as attributes (`Verif/Model/Untyped.lean`), related to the typed one step by step; objects without a typed counterpart fail in their first iteration |
| C122 | `Verif/Model/Interfaces.lean` has the signatures of all interfaces and classes; `Sig.call` binds arguments as Python does; a general lemma says which calls succeed, a syntactic condition that is enough is checked on the whole table, and the exceptions get a call that goes wrong |
| C123 | `Spec/Imported.lean` gives an RRULE its meaning as a `Recur` of `Spec/RFC.lean`; a recurrence that agrees with its start says what the imported rule says, so the lemma behind C99 (`apply_inSet`) applies |
| C124 | `importAt_time` gives the times and the rule of what an import stores, `occs_meant` (with `rule_means` of C123) its occurrences; combined with the description of the store after an import (C82-C84) and of queries (C24) |
| C125 | an exported rule read back is `copyRule` (C97), whose dates have the meaning of its RRULE (`rule_means` of C123) |
| C126 | a generic invariant over histories with given data (`run_given`), with the uids apart (`step_new` of C33); the schema as data, evaluated on the attributes |
| C127 | `next_midnight` says when the next midnight exists, `borderLoop_error` follows the loop to it; the segments are then in the calendar (`segments_range`), so that only the loop over the days is left |
| C128 | `Memory.plain` reads the values off the memory; without changes in place every call commutes with it (`step_copies`); for changes in place the invariant `Sep` says who shares nothing, and `Plain.Agree` forgets specifications already used |
| C129 | `Memory.Tracks`: the default list, and who has it, follow from the calls (`step_tracks`) |
| C130 | `lang` runs straight-line code by rewriting with the equations of the interpreter; the loop of removeOverlaps by induction over the sorted list (`removeOverlaps_run`); then C01, C02, C04 and C05 |
| C131 | the loops of `_validate` by induction; attributes are set in the order of `__init__`; calls of methods go through `Prog.method`, which follows the base classes; then C06, C07, C18 and C19 |
| C132 | `whileLoop_gen`: a loop body that does what a step of the model does gives the generator of the model; one step lemma for each loop (`basic_step`, `weekly_step`, `wdmonth_step`, `lastmonth_step`, `monthly_next_loop`); then the exact sequences of C08-C13 (`apply_generates`) and C17 |
| C133 | `lang` for straight-line code; `expand_prog` runs the loop of `expand` over the generator of C132, `segment_prog` the three loops of segmentOccurrences (`FollowsC` relates a step of the source to a step of the model, with exceptions); then C21, C22 and C24 |
| C134 | the loops of `_match` and `_getMatchingEvents` by induction over attendees, categories and events; then C20, C24 and C36 |
| C135 | the loops over attendees, occurrences and days, as in C133 (`manager_blocked`, `manager_free`); the bounds of all loops are found from the finitely many stored events (`exists_fuel`); then C25, C26, C29 and C30 |
| C136 | calls through objects that are kept opaque (`on_calendar`, `callClass_some`), so that each method is one rewriting with the lemma of the method it calls; then C20 and C43 |
| C137 | `procVal` holds the arguments after the call, the notifications and the exception; loops over the items of a specification by induction with the names that are set apart (`setOn_loop`, `ask_loop`); an object under construction is followed attribute by attribute (`putAll_new`); `setAttendeesLoop_split` finds the first entry that cannot be set |
| C138 | one lemma for each block of statements of `_importEventSpecification` (`time_stmts`, `organizer_stmts`, `attendee_stmt`, `other_stmts`, `rule_stmts`), the dictionary of keyword arguments followed by name (`kwAll`, `bind_kw`); loops over attendees and weekdays by induction; then C52, C53, C113 and the parts of rules behind C123 |
| C139 | formats cut at their directives (`format_text`, `format_s`, `format_d`); comprehensions as `mapM` (`collect_str`); the statements of `iCalRepresentation` one by one (`bound_stmt` … `exdate_stmt`); tuples compared element by element (`ruleTuple_eq`); then C57, C98, C99 and C132 |
| C140 | the component as a list of properties that `add` and `set_inline` extend (`mut_put`, `mut_inline`); the statements of `export` block by block (`times_stmt`, `rule_stmt`, `base_stmts`, `private_stmt`, `text_stmts`, `rest_stmts`); reading again property by property (`reread_parsed`); then C49, C51, C125 and C138 |
| C141 | `cal_export_prog` runs the loop over the events by induction, with C140 for each; then C20 and C112 say which events these are and when collecting them fails, C125 what the components say |
| C142 | running the text gives `Rule.repr`, so C117 applies; the tuple that is hashed is injective because `==` of tuples is (`ruleTuple_eq`); the comparison is run symbolically |
| C143 | the constructors are run symbolically; `iso8601_prog` and C61 give the digits of a generated id, which the reader of RFC.lean reads; then as C137 |
| C144 | the loops of the factories by induction; `inPeriod` by cases |
| C145 | one lemma for each of the three helper methods (`existing_prog`, `new_prog`, `remove_prog`), with the notifications chosen before the fuel; the two loops by induction over the components and over the uids to remove (`components_prog`, `removal_prog`), the set of uids followed up to order; then C46, C47, C82 and C104 |
| C146 | `bindParams_fits` and `bindParams_not`: a call with keywords only, for any list of parameters, by induction over it; `spec_kw` for the specification and `spec_organizer` for the overwritten keyword; then `att_create_prog`, C143 for the creation without an id and C44's lemma for the organizer |
| C147 | `acts_iff`: one call, by cases, each from the theorem about the function called (C137, C138, C143, C146) and the uniqueness of answers; `Sound.step`: what the calls rely on is kept; then induction over the calls (`runs_iff`; with imports, from C145, `runs_usable`). The corollaries carry C34 (`lastCreated` reads the values that were sent), the invariant of the store and C108 over to the text |
| C148 | `act_map`: a call as written leaves a storage whose map is that of the specification of the store (C147_call with C32_step), and `reads_iff`: `getEvent` reads this map; then by cases of the call. Repeating `setParticipationStatus` uses that the text has one answer only (`Does.unique`) and that putting back an unchanged event changes nothing (`Dict.set_self`) |
