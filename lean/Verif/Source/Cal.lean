import Verif.Model.Lang
/- Syntax trees of functions of /repo/src/calcore/cal.py, written by tools/translate.py: do not edit. -/
namespace CalCore.Lang.Source

/-- `inPeriod`, cal.py lines 1075-1088 -/
def inPeriod : FunDef where
  kind := .fn
  params := [("o", none), ("_t", none)]
  locals := ["b", "e"]
  body := [
    -- 1075: def inPeriod(o, (b, e)):
    .assign (.names ["b", "e"]) (.var "_t"),
    -- 1084: if b is not None and o.dtstart + o.duration <= b:
    .ite (.and (.cmp .isNot (.var "b") (.const .none)) (.cmp .le (.bin .add (.attr (.var "o") "dtstart") (.attr (.var "o") "duration")) (.var "b"))) [
      -- 1085: return False
      .ret (.const (.bool false))] [],
    -- 1086: if e is not None and o.dtstart >= e:
    .ite (.and (.cmp .isNot (.var "e") (.const .none)) (.cmp .ge (.attr (.var "o") "dtstart") (.var "e"))) [
      -- 1087: return False
      .ret (.const (.bool false))] [],
    -- 1088: return True
    .ret (.const (.bool true))]

/-- `sameDay`, cal.py lines 1090-1091 -/
def sameDay : FunDef where
  kind := .fn
  params := [("dt", none), ("dt2", none)]
  locals := []
  body := [
    -- 1091: return dt.date() == dt2.date()
    .ret (.cmp .eq (.meth (.var "dt") .date [] []) (.meth (.var "dt2") .date [] []))]

/-- `roundtimedelta`, cal.py lines 1093-1099 -/
def roundtimedelta : FunDef where
  kind := .fn
  params := [("td", none)]
  locals := []
  body := [
    -- 1096: if td.seconds > 0 or td.microseconds > 0:
    .ite (.or (.cmp .gt (.field (.var "td") .seconds) (.const (.int 0))) (.cmp .gt (.field (.var "td") .microseconds) (.const (.int 0)))) [
      -- 1097: return timedelta(days=td.days + 1)
      .ret (.prim .timedelta [] [("days", (.bin .add (.field (.var "td") .days) (.const (.int 1))))])] [
      -- 1099: return td
      .ret (.var "td")]]

/-- `assertPeriodBounded`, cal.py lines 1109-1111 -/
def assertPeriodBounded : FunDef where
  kind := .fn
  params := [("period", none)]
  locals := []
  body := [
    -- 1110: assert period[0] is not None, "Period is unbounded (into the past)"
    .assert (.cmp .isNot (.index (.var "period") (.const (.int 0))) (.const .none)),
    -- 1111: assert period[1] is not None, "Period is unbounded (into the future)"
    .assert (.cmp .isNot (.index (.var "period") (.const (.int 1))) (.const .none))]

/-- The loop of `segmentOccurrences` at line 1156. -/
def segmentOccurrences_loop3 : List Stmt := [
  -- 1157: s = borders.pop()
  .mutate (some (.name "s")) "borders" .pop [],
  -- 1158: occ = Occurrence(s, e - s, occ.original)
  .assign (.name "occ") (.new "Occurrence" [(.var "s"), (.bin .sub (.var "e") (.var "s")), (.attr (.var "occ") "original")] []),
  -- 1159: if inPeriod(occ, period):
  .ite (.call "inPeriod" [(.var "occ"), (.var "period")] []) [
    -- 1160: result.append(occ)
    .mutate none "result" .append [(.var "occ")]] [],
  -- 1161: e = s
  .assign (.name "e") (.var "s")]

/-- The loop of `segmentOccurrences` at line 1139. -/
def segmentOccurrences_loop2 : List Stmt := [
  -- 1140: x = combine(x.date(), time(0, 0)) + timedelta(1)
  .assign (.name "x") (.bin .add (.prim .combine [(.meth (.var "x") .date [] []), (.prim .time [(.const (.int 0)), (.const (.int 0))] [])] []) (.prim .timedelta [(.const (.int 1))] [])),
  -- 1141: if x > end or x > y:
  .ite (.or (.cmp .gt (.var "x") (.var "end")) (.cmp .gt (.var "x") (.var "y"))) [
    -- 1142: break
    .break] [],
  -- 1143: borders.append(x)
  .mutate none "borders" .append [(.var "x")]]

/-- The loop of `segmentOccurrences` at line 1132. -/
def segmentOccurrences_loop1 : List Stmt := [
  -- 1133: x = occ.dtstart
  .assign (.name "x") (.attr (.var "occ") "dtstart"),
  -- 1134: if x < start:
  .ite (.cmp .lt (.var "x") (.var "start")) [
    -- 1135: x = start
    .assign (.name "x") (.var "start")] [],
  -- 1136: y = occ.dtstart + occ.duration
  .assign (.name "y") (.bin .add (.attr (.var "occ") "dtstart") (.attr (.var "occ") "duration")),
  -- 1138: borders = []
  .assign (.name "borders") (.list []),
  -- 1139: while 1:
  .while (.const (.int 1)) segmentOccurrences_loop2,
  -- 1145: if start > occ.dtstart:
  .ite (.cmp .gt (.var "start") (.attr (.var "occ") "dtstart")) [
    -- 1146: borders = [start] + borders
    .assign (.name "borders") (.bin .add (.list [(.var "start")]) (.var "borders"))] [
    -- 1148: if not borders or occ.dtstart != borders[0]:
    .ite (.or (.not (.var "borders")) (.cmp .ne (.attr (.var "occ") "dtstart") (.index (.var "borders") (.const (.int 0))))) [
      -- 1149: borders = [occ.dtstart] + borders
      .assign (.name "borders") (.bin .add (.list [(.attr (.var "occ") "dtstart")]) (.var "borders"))] []],
  -- 1150: if end < y:
  .ite (.cmp .lt (.var "end") (.var "y")) [
    -- 1151: borders.append(end)
    .mutate none "borders" .append [(.var "end")]] [
    -- 1153: borders.append(y)
    .mutate none "borders" .append [(.var "y")]],
  -- 1155: e = borders.pop()
  .mutate (some (.name "e")) "borders" .pop [],
  -- 1156: while borders:
  .while (.var "borders") segmentOccurrences_loop3]

/-- `segmentOccurrences`, cal.py lines 1123-1162 -/
def segmentOccurrences : FunDef where
  kind := .fn
  params := [("period", none), ("occurrences", none)]
  locals := ["start", "end", "result", "occ", "x", "y", "borders", "e", "s"]
  body := [
    -- 1130: start, end = period
    .assign (.names ["start", "end"]) (.var "period"),
    -- 1131: result = []
    .assign (.name "result") (.list []),
    -- 1132: for occ in occurrences:
    .for (.name "occ") (.var "occurrences") segmentOccurrences_loop1 [],
    -- 1162: return result
    .ret (.var "result")]

/-- `Timed.__init__`, cal.py lines 578-580 -/
def Timed_init : FunDef where
  kind := .init
  params := [("self", none), ("dtstart", none), ("duration", none)]
  locals := []
  body := [
    -- 579: self.dtstart = dtstart
    .assign (.attr "self" "dtstart") (.var "dtstart"),
    -- 580: self.duration = duration
    .assign (.attr "self" "duration") (.var "duration")]

/-- `Occurrence.__init__`, cal.py lines 592-595 -/
def Occurrence_init : FunDef where
  kind := .init
  params := [("self", none), ("dtstart", none), ("duration", none), ("original", none)]
  locals := []
  body := [
    -- 593: self.dtstart = dtstart
    .assign (.attr "self" "dtstart") (.var "dtstart"),
    -- 594: self.duration = duration
    .assign (.attr "self" "duration") (.var "duration"),
    -- 595: self.original = original
    .assign (.attr "self" "original") (.var "original")]

/-- `SearchCriteria.__init__`, cal.py lines 321-334 -/
def SearchCriteria_init : FunDef where
  kind := .init
  params := [("self", none), ("attendees", some .none), ("participation_status", some .none), ("participation_role", some .none), ("categories", some .none), ("organizer", some .none)]
  locals := []
  body := [
    -- 327: if (attendees is not None and
    .ite (.and (.cmp .isNot (.var "attendees") (.const .none)) (.not (.isinst (.var "attendees") [.list, .tuple]))) [
      -- 329: attendees = [attendees]
      .assign (.name "attendees") (.list [(.var "attendees")])] [],
    -- 330: self.attendees = attendees
    .assign (.attr "self" "attendees") (.var "attendees"),
    -- 331: self.participation_status = participation_status
    .assign (.attr "self" "participation_status") (.var "participation_status"),
    -- 332: self.participation_role = participation_role
    .assign (.attr "self" "participation_role") (.var "participation_role"),
    -- 333: self.categories = categories
    .assign (.attr "self" "categories") (.var "categories"),
    -- 334: self.organizer = organizer
    .assign (.attr "self" "organizer") (.var "organizer")]

/-- `SearchCriteria.clone`, cal.py lines 336-348 -/
def SearchCriteria_clone : FunDef where
  kind := .fn
  params := [("self", none), ("attendees", some .none), ("participation_status", some .none), ("participation_role", some .none), ("categories", some .none), ("organizer", some .none)]
  locals := []
  body := [
    -- 338: if (attendees is not None and
    .ite (.and (.cmp .isNot (.var "attendees") (.const .none)) (.not (.isinst (.var "attendees") [.list, .tuple]))) [
      -- 340: attendees = [attendees]
      .assign (.name "attendees") (.list [(.var "attendees")])] [],
    -- 341: attendees = self.attendees or attendees
    .assign (.name "attendees") (.or (.attr (.var "self") "attendees") (.var "attendees")),
    -- 342: participation_status = (self.participation_status or
    .assign (.name "participation_status") (.or (.attr (.var "self") "participation_status") (.var "participation_status")),
    -- 344: participation_role = self.participation_role or participation_role
    .assign (.name "participation_role") (.or (.attr (.var "self") "participation_role") (.var "participation_role")),
    -- 345: categories = self.categories or categories
    .assign (.name "categories") (.or (.attr (.var "self") "categories") (.var "categories")),
    -- 346: organizer = self.organizer or organizer
    .assign (.name "organizer") (.or (.attr (.var "self") "organizer") (.var "organizer")),
    -- 347: return SearchCriteria(attendees, participation_status,
    .ret (.new "SearchCriteria" [(.var "attendees"), (.var "participation_status"), (.var "participation_role"), (.var "categories"), (.var "organizer")] [])]

/-- The loop of `SearchCriteria._match` at line 367. -/
def SearchCriteria_match_loop2 : List Stmt := [
  -- 368: if not event.hasAttendee(attendee):
  .ite (.not (.method (.var "event") "hasAttendee" [(.var "attendee")] [])) [
    -- 369: continue
    .continue] [],
  -- 371: if (self.participation_status is not None and
  .ite (.and (.cmp .isNot (.attr (.var "self") "participation_status") (.const .none)) (.cmp .ne (.attr (.var "self") "participation_status") (.method (.var "event") "getParticipationStatus" [(.var "attendee")] []))) [
    -- 374: continue
    .continue] [],
  -- 376: if (self.participation_role is not None and
  .ite (.and (.cmp .isNot (.attr (.var "self") "participation_role") (.const .none)) (.cmp .ne (.attr (.var "self") "participation_role") (.method (.var "event") "getParticipationRole" [(.var "attendee")] []))) [
    -- 379: continue
    .continue] [],
  -- 382: return True
  .ret (.const (.bool true))]

/-- The loop of `SearchCriteria._match` at line 354. -/
def SearchCriteria_match_loop1 : List Stmt := [
  -- 355: if event.inCategory(category):
  .ite (.method (.var "event") "inCategory" [(.var "category")] []) [
    -- 356: break
    .break] []]

/-- `SearchCriteria._match`, cal.py lines 352-385 -/
def SearchCriteria_match : FunDef where
  kind := .fn
  params := [("self", none), ("event", none)]
  locals := ["category", "attendee"]
  body := [
    -- 353: if self.categories is not None:
    .ite (.cmp .isNot (.attr (.var "self") "categories") (.const .none)) [
      -- 354: for category in self.categories:
      .for (.name "category") (.attr (.var "self") "categories") SearchCriteria_match_loop1 [
        -- 358: return False
        .ret (.const (.bool false))]] [],
    -- 360: if (self.organizer is not None and
    .ite (.and (.cmp .isNot (.attr (.var "self") "organizer") (.const .none)) (.cmp .ne (.method (.var "event") "getOrganizerId" [] []) (.method (.attr (.var "self") "organizer") "getAttendeeId" [] []))) [
      -- 362: return False
      .ret (.const (.bool false))] [],
    -- 364: if self.attendees is None:
    .ite (.cmp .is (.attr (.var "self") "attendees") (.const .none)) [
      -- 365: return True
      .ret (.const (.bool true))] [],
    -- 367: for attendee in self.attendees:
    .for (.name "attendee") (.attr (.var "self") "attendees") SearchCriteria_match_loop2 [],
    -- 385: return False
    .ret (.const (.bool false))]

/-- `NullSearchCriteria.__init__`, cal.py lines 389-390 -/
def NullSearchCriteria_init : FunDef where
  kind := .init
  params := [("self", none)]
  locals := []
  body := [
    -- 390: SearchCriteria.__init__(self)
    .assign (.name "self") (.call "SearchCriteria.__init__" [(.var "self")] [])]

/-- `EventBase.getOrganizerId`, cal.py lines 457-458 -/
def EventBase_getOrganizerId : FunDef where
  kind := .fn
  params := [("self", none)]
  locals := []
  body := [
    -- 458: return self._organizer_id
    .ret (.attr (.var "self") "_organizer_id")]

/-- `EventBase.inCategory`, cal.py lines 460-461 -/
def EventBase_inCategory : FunDef where
  kind := .fn
  params := [("self", none), ("category", none)]
  locals := []
  body := [
    -- 461: return category in self.categories
    .ret (.cmp .isIn (.var "category") (.attr (.var "self") "categories"))]

/-- The loop of `EventBase.getAttendeeIds` at line 466. -/
def EventBase_getAttendeeIds_loop1 : List Stmt := [
  -- 467: if (participation_status is not None and
  .ite (.and (.cmp .isNot (.var "participation_status") (.const .none)) (.cmp .ne (.var "participation_status") (.var "status"))) [
    -- 469: continue
    .continue] [],
  -- 470: if (participation_role is not None and
  .ite (.and (.cmp .isNot (.var "participation_role") (.const .none)) (.cmp .ne (.var "participation_role") (.index (.attr (.var "self") "_participation_role") (.var "attendee_id")))) [
    -- 472: continue
    .continue] [],
  -- 473: result.append(attendee_id)
  .mutate none "result" .append [(.var "attendee_id")]]

/-- `EventBase.getAttendeeIds`, cal.py lines 463-474 -/
def EventBase_getAttendeeIds : FunDef where
  kind := .fn
  params := [("self", none), ("participation_status", some .none), ("participation_role", some .none)]
  locals := ["result", "attendee_id", "status"]
  body := [
    -- 465: result = []
    .assign (.name "result") (.list []),
    -- 466: for attendee_id, status in self._participation_state.items():
    .for (.names ["attendee_id", "status"]) (.meth (.attr (.var "self") "_participation_state") .items [] []) EventBase_getAttendeeIds_loop1 [],
    -- 474: return result
    .ret (.var "result")]

/-- `EventBase.hasAttendee`, cal.py lines 476-477 -/
def EventBase_hasAttendee : FunDef where
  kind := .fn
  params := [("self", none), ("attendee", none)]
  locals := []
  body := [
    -- 477: return self.getParticipationStatus(attendee) is not None
    .ret (.cmp .isNot (.method (.var "self") "getParticipationStatus" [(.var "attendee")] []) (.const .none))]

/-- `EventBase.getParticipationStatus`, cal.py lines 479-481 -/
def EventBase_getParticipationStatus : FunDef where
  kind := .fn
  params := [("self", none), ("attendee", none)]
  locals := []
  body := [
    -- 480: return self._participation_state.get(
    .ret (.meth (.attr (.var "self") "_participation_state") .get [(.method (.var "attendee") "getAttendeeId" [] [])] [])]

/-- `EventBase.getParticipationRole`, cal.py lines 483-485 -/
def EventBase_getParticipationRole : FunDef where
  kind := .fn
  params := [("self", none), ("attendee", none)]
  locals := []
  body := [
    -- 484: return self._participation_role.get(
    .ret (.meth (.attr (.var "self") "_participation_role") .get [(.method (.var "attendee") "getAttendeeId" [] [])] [])]

/-- The loop of `EventBase.expand` at line 508. -/
def EventBase_expand_loop1 : List Stmt := [
  -- 509: dtstart = self.dtstart
  .assign (.name "dtstart") (.attr (.var "self") "dtstart"),
  -- 510: dtstart = combine(d, dtstart.time())
  .assign (.name "dtstart") (.prim .combine [(.var "d"), (.meth (.var "dtstart") .time [] [])] []),
  -- 512: if not inPeriod(Timed(dtstart, self.duration), period):
  .ite (.not (.call "inPeriod" [(.new "Timed" [(.var "dtstart"), (.attr (.var "self") "duration")] []), (.var "period")] [])) [
    -- 513: continue
    .continue] [],
  -- 514: result.append(Occurrence(dtstart, self.duration, self))
  .mutate none "result" .append [(.new "Occurrence" [(.var "dtstart"), (.attr (.var "self") "duration"), (.var "self")] [])]]

/-- `EventBase.expand`, cal.py lines 498-515 -/
def EventBase_expand : FunDef where
  kind := .fn
  params := [("self", none), ("period", none)]
  locals := ["result", "enddate", "d", "dtstart"]
  body := [
    -- 501: if self.recurrence is None:
    .ite (.cmp .is (.attr (.var "self") "recurrence") (.const .none)) [
      -- 502: if not inPeriod(self, period):
      .ite (.not (.call "inPeriod" [(.var "self"), (.var "period")] [])) [
        -- 503: return []
        .ret (.list [])] [],
      -- 504: return [Occurrence(self.dtstart, self.duration, self)]
      .ret (.list [(.new "Occurrence" [(.attr (.var "self") "dtstart"), (.attr (.var "self") "duration"), (.var "self")] [])])] [],
    -- 506: result = []
    .assign (.name "result") (.list []),
    -- 507: enddate = period[1].date()
    .assign (.name "enddate") (.meth (.index (.var "period") (.const (.int 1))) .date [] []),
    -- 508: for d in self.recurrence.apply(self, enddate):
    .for (.name "d") (.method (.attr (.var "self") "recurrence") "apply" [(.var "self"), (.var "enddate")] []) EventBase_expand_loop1 [],
    -- 515: return result
    .ret (.var "result")]

/-- `AttendeeBase.getAttendeeId`, cal.py lines 613-614 -/
def AttendeeBase_getAttendeeId : FunDef where
  kind := .fn
  params := [("self", none)]
  locals := []
  body := [
    -- 614: return self._attendee_id
    .ret (.attr (.var "self") "_attendee_id")]

/-- `AttendeeBase.getAttendeeType`, cal.py lines 616-617 -/
def AttendeeBase_getAttendeeType : FunDef where
  kind := .fn
  params := [("self", none)]
  locals := []
  body := [
    -- 617: return self._attendee_type
    .ret (.attr (.var "self") "_attendee_type")]

/-- `StorageBase.getEvent`, cal.py lines 284-285 -/
def StorageBase_getEvent : FunDef where
  kind := .fn
  params := [("self", none), ("event_id", none)]
  locals := []
  body := [
    -- 285: return self._events[event_id]
    .ret (.index (.attr (.var "self") "_events") (.var "event_id"))]

/-- `StorageBase.getEvents`, cal.py lines 287-289 -/
def StorageBase_getEvents : FunDef where
  kind := .fn
  params := [("self", none), ("period", none), ("search_criteria", none)]
  locals := ["events", "event"]
  body := [
    -- 288: events = self._getMatchingEvents(search_criteria)
    .assign (.name "events") (.method (.var "self") "_getMatchingEvents" [(.var "search_criteria")] []),
    -- 289: return [event for event in events if inPeriod(event, period)]
    .ret (.comp (.var "event") "event" (.var "events") (.call "inPeriod" [(.var "event"), (.var "period")] []))]

/-- The loop of `StorageBase.getOccurrences` at line 295. -/
def StorageBase_getOccurrences_loop1 : List Stmt := [
  -- 296: result.extend(event.expand(period))
  .mutate none "result" .extend [(.method (.var "event") "expand" [(.var "period")] [])]]

/-- `StorageBase.getOccurrences`, cal.py lines 291-297 -/
def StorageBase_getOccurrences : FunDef where
  kind := .fn
  params := [("self", none), ("period", none), ("search_criteria", none)]
  locals := ["events", "result", "event"]
  body := [
    -- 292: assertPeriodBounded(period)
    .expr (.call "assertPeriodBounded" [(.var "period")] []),
    -- 293: events = self._getMatchingEvents(search_criteria)
    .assign (.name "events") (.method (.var "self") "_getMatchingEvents" [(.var "search_criteria")] []),
    -- 294: result = []
    .assign (.name "result") (.list []),
    -- 295: for event in events:
    .for (.name "event") (.var "events") StorageBase_getOccurrences_loop1 [],
    -- 297: return result
    .ret (.var "result")]

/-- The loop of `StorageBase._getMatchingEvents` at line 306. -/
def StorageBase_getMatchingEvents_loop1 : List Stmt := [
  -- 307: if search_criteria._match(event):
  .ite (.method (.var "search_criteria") "_match" [(.var "event")] []) [
    -- 308: result.append(event)
    .mutate none "result" .append [(.var "event")]] []]

/-- `StorageBase._getMatchingEvents`, cal.py lines 301-309 -/
def StorageBase_getMatchingEvents : FunDef where
  kind := .fn
  params := [("self", none), ("search_criteria", none)]
  locals := ["result", "event"]
  body := [
    -- 302: if search_criteria is None:
    .ite (.cmp .is (.var "search_criteria") (.const .none)) [
      -- 303: search_criteria = NullSearchCriteria()
      .assign (.name "search_criteria") (.new "NullSearchCriteria" [] [])] [],
    -- 305: result = []
    .assign (.name "result") (.list []),
    -- 306: for event in self._events.values():
    .for (.name "event") (.meth (.attr (.var "self") "_events") .values [] []) StorageBase_getMatchingEvents_loop1 [],
    -- 309: return result
    .ret (.var "result")]

/-- `StorageManagerBase.getEvent`, cal.py lines 154-155 -/
def StorageManagerBase_getEvent : FunDef where
  kind := .fn
  params := [("self", none), ("event_id", none)]
  locals := []
  body := [
    -- 155: return self._storage.getEvent(event_id)
    .ret (.method (.attr (.var "self") "_storage") "getEvent" [(.var "event_id")] [])]

/-- `StorageManagerBase.hasEvent`, cal.py lines 157-162 -/
def StorageManagerBase_hasEvent : FunDef where
  kind := .fn
  params := [("self", none), ("event_id", none)]
  locals := []
  body := [
    -- 158: try:
    .tryExcept [
      -- 159: self.getEvent(event_id)
      .expr (.method (.var "self") "getEvent" [(.var "event_id")] []),
      -- 160: return True
      .ret (.const (.bool true))] [.KeyError] [
      -- 162: return False
      .ret (.const (.bool false))]]

/-- `StorageManagerBase.getEvents`, cal.py lines 164-165 -/
def StorageManagerBase_getEvents : FunDef where
  kind := .fn
  params := [("self", none), ("period", none), ("search_criteria", some .none)]
  locals := []
  body := [
    -- 165: return self._storage.getEvents(period, search_criteria)
    .ret (.method (.attr (.var "self") "_storage") "getEvents" [(.var "period"), (.var "search_criteria")] [])]

/-- `StorageManagerBase.getOccurrences`, cal.py lines 167-168 -/
def StorageManagerBase_getOccurrences : FunDef where
  kind := .fn
  params := [("self", none), ("period", none), ("search_criteria", some .none)]
  locals := []
  body := [
    -- 168: return self._storage.getOccurrences(period, search_criteria)
    .ret (.method (.attr (.var "self") "_storage") "getOccurrences" [(.var "period"), (.var "search_criteria")] [])]

/-- `StorageManagerBase.getOccurrencesSegmented`, cal.py lines 170-172 -/
def StorageManagerBase_getOccurrencesSegmented : FunDef where
  kind := .fn
  params := [("self", none), ("period", none), ("search_criteria", some .none)]
  locals := []
  body := [
    -- 171: return segmentOccurrences(period,
    .ret (.call "segmentOccurrences" [(.var "period"), (.method (.var "self") "getOccurrences" [(.var "period"), (.var "search_criteria")] [])] [])]

/-- The loop of `StorageManagerBase.getBlockedPeriods` at line 211. -/
def StorageManagerBase_getBlockedPeriods_loop3 : List Stmt := [
  -- 212: blocked_periods.append((combine(d, time(0, 0)),
  .mutate none "blocked_periods" .append [(.tuple [(.prim .combine [(.var "d"), (.prim .time [(.const (.int 0)), (.const (.int 0))] [])] []), (.prim .combine [(.var "d"), (.var "time_begins")] [])])],
  -- 214: next_day = d + timedelta(days=1)
  .assign (.name "next_day") (.bin .add (.var "d") (.prim .timedelta [] [("days", (.const (.int 1)))])),
  -- 215: blocked_periods.append((combine(d, time_ends),
  .mutate none "blocked_periods" .append [(.tuple [(.prim .combine [(.var "d"), (.var "time_ends")] []), (.prim .combine [(.var "next_day"), (.prim .time [(.const (.int 0)), (.const (.int 0))] [])] [])])],
  -- 217: d = next_day
  .assign (.name "d") (.var "next_day")]

/-- The loop of `StorageManagerBase.getBlockedPeriods` at line 182. -/
def StorageManagerBase_getBlockedPeriods_loop2 : List Stmt := [
  -- 184: if (occ.original.transparent or
  .ite (.or (.attr (.attr (.var "occ") "original") "transparent") (.cmp .eq (.attr (.attr (.var "occ") "original") "status") (.const (.str "CANCELED")))) [
    -- 186: continue
    .continue] [],
  -- 188: if (occ.original.getParticipationStatus(attendee) in
  .ite (.cmp .isIn (.method (.attr (.var "occ") "original") "getParticipationStatus" [(.var "attendee")] []) (.list [(.const (.str "DECLINED")), (.const (.str "DELEGATED"))])) [
    -- 190: continue
    .continue] [],
  -- 191: dtstart = occ.dtstart
  .assign (.name "dtstart") (.attr (.var "occ") "dtstart"),
  -- 192: dtend = dtstart + occ.duration
  .assign (.name "dtend") (.bin .add (.var "dtstart") (.attr (.var "occ") "duration")),
  -- 193: if dtend < begins:
  .ite (.cmp .lt (.var "dtend") (.var "begins")) [
    -- 194: continue
    .continue] [],
  -- 195: if dtstart >= ends:
  .ite (.cmp .ge (.var "dtstart") (.var "ends")) [
    -- 196: continue
    .continue] [],
  -- 197: day_start = combine(dtstart.date(), time_begins)
  .assign (.name "day_start") (.prim .combine [(.meth (.var "dtstart") .date [] []), (.var "time_begins")] []),
  -- 198: if dtstart < day_start:
  .ite (.cmp .lt (.var "dtstart") (.var "day_start")) [
    -- 199: dtstart = day_start
    .assign (.name "dtstart") (.var "day_start")] [],
  -- 201: day_end = combine(dtstart.date(), time_ends)
  .assign (.name "day_end") (.prim .combine [(.meth (.var "dtstart") .date [] []), (.var "time_ends")] []),
  -- 202: if dtend >= day_end:
  .ite (.cmp .ge (.var "dtend") (.var "day_end")) [
    -- 203: dtend = day_end
    .assign (.name "dtend") (.var "day_end")] [],
  -- 204: blocked_periods[(dtstart, dtend)] = None
  .assign (.item "blocked_periods" (.tuple [(.var "dtstart"), (.var "dtend")])) (.const .none)]

/-- The loop of `StorageManagerBase.getBlockedPeriods` at line 180. -/
def StorageManagerBase_getBlockedPeriods_loop1 : List Stmt := [
  -- 181: search_criteria = SearchCriteria(attendees=[attendee])
  .assign (.name "search_criteria") (.new "SearchCriteria" [] [("attendees", (.list [(.var "attendee")]))]),
  -- 182: for occ in self.getOccurrencesSegmented(period, search_criteria):
  .for (.name "occ") (.method (.var "self") "getOccurrencesSegmented" [(.var "period"), (.var "search_criteria")] []) StorageManagerBase_getBlockedPeriods_loop2 []]

/-- `StorageManagerBase.getBlockedPeriods`, cal.py lines 174-218 -/
def StorageManagerBase_getBlockedPeriods : FunDef where
  kind := .fn
  params := [("self", none), ("attendees", none), ("period", none), ("time_period", none)]
  locals := ["blocked_periods", "begins", "ends", "time_begins", "time_ends", "attendee", "search_criteria", "occ", "dtstart", "dtend", "day_start", "day_end", "d", "end_d", "next_day"]
  body := [
    -- 177: blocked_periods = {}
    .assign (.name "blocked_periods") (.const (.dict [])),
    -- 178: begins, ends = period
    .assign (.names ["begins", "ends"]) (.var "period"),
    -- 179: time_begins, time_ends = time_period
    .assign (.names ["time_begins", "time_ends"]) (.var "time_period"),
    -- 180: for attendee in attendees:
    .for (.name "attendee") (.var "attendees") StorageManagerBase_getBlockedPeriods_loop1 [],
    -- 205: blocked_periods = blocked_periods.keys()
    .assign (.name "blocked_periods") (.meth (.var "blocked_periods") .keys [] []),
    -- 207: d = begins.date()
    .assign (.name "d") (.meth (.var "begins") .date [] []),
    -- 208: end_d = ends.date()
    .assign (.name "end_d") (.meth (.var "ends") .date [] []),
    -- 209: if ends.time() == time(0, 0):
    .ite (.cmp .eq (.meth (.var "ends") .time [] []) (.prim .time [(.const (.int 0)), (.const (.int 0))] [])) [
      -- 210: end_d -= timedelta(days=1)
      .assign (.name "end_d") (.bin .sub (.var "end_d") (.prim .timedelta [] [("days", (.const (.int 1)))]))] [],
    -- 211: while d <= end_d:
    .while (.cmp .le (.var "d") (.var "end_d")) StorageManagerBase_getBlockedPeriods_loop3,
    -- 218: return util.removeOverlaps(blocked_periods)
    .ret (.call "removeOverlaps" [(.var "blocked_periods")] [])]

/-- The loop of `StorageManagerBase.getFreePeriods` at line 235. -/
def StorageManagerBase_getFreePeriods_loop1 : List Stmt := [
  -- 236: if dtstart.time() >= time_begins and last_block_begins != dtstart:
  .ite (.and (.cmp .ge (.meth (.var "dtstart") .time [] []) (.var "time_begins")) (.cmp .ne (.var "last_block_begins") (.var "dtstart"))) [
    -- 237: if (minimal_duration is None or
    .ite (.or (.cmp .is (.var "minimal_duration") (.const .none)) (.cmp .ge (.bin .sub (.var "dtstart") (.var "last_block_begins")) (.var "minimal_duration"))) [
      -- 239: free_periods.append((last_block_begins, dtstart))
      .mutate none "free_periods" .append [(.tuple [(.var "last_block_begins"), (.var "dtstart")])]] []] [],
  -- 240: last_block_begins = dtend
  .assign (.name "last_block_begins") (.var "dtend")]

/-- `StorageManagerBase.getFreePeriods`, cal.py lines 221-245 -/
def StorageManagerBase_getFreePeriods : FunDef where
  kind := .fn
  params := [("self", none), ("attendees", none), ("period", none), ("time_period", none), ("minimal_duration", some .none)]
  locals := ["blocked_periods", "begins", "ends", "time_begins", "time_ends", "free_periods", "last_block_begins", "dtstart", "dtend"]
  body := [
    -- 223: blocked_periods = self.getBlockedPeriods(
    .assign (.name "blocked_periods") (.method (.var "self") "getBlockedPeriods" [(.var "attendees"), (.var "period"), (.var "time_period")] []),
    -- 225: begins, ends = period
    .assign (.names ["begins", "ends"]) (.var "period"),
    -- 226: time_begins, time_ends = time_period
    .assign (.names ["time_begins", "time_ends"]) (.var "time_period"),
    -- 228: free_periods = []
    .assign (.name "free_periods") (.list []),
    -- 229: if begins < combine(begins.date(), time_begins):
    .ite (.cmp .lt (.var "begins") (.prim .combine [(.meth (.var "begins") .date [] []), (.var "time_begins")] [])) [
      -- 230: begins = combine(begins.date(), time_begins)
      .assign (.name "begins") (.prim .combine [(.meth (.var "begins") .date [] []), (.var "time_begins")] [])] [],
    -- 231: if ends > combine(ends.date(), time_ends):
    .ite (.cmp .gt (.var "ends") (.prim .combine [(.meth (.var "ends") .date [] []), (.var "time_ends")] [])) [
      -- 232: ends = combine(ends.date(), time_ends)
      .assign (.name "ends") (.prim .combine [(.meth (.var "ends") .date [] []), (.var "time_ends")] [])] [],
    -- 234: last_block_begins = begins
    .assign (.name "last_block_begins") (.var "begins"),
    -- 235: for dtstart, dtend in blocked_periods:
    .for (.names ["dtstart", "dtend"]) (.var "blocked_periods") StorageManagerBase_getFreePeriods_loop1 [],
    -- 241: if last_block_begins != ends:
    .ite (.cmp .ne (.var "last_block_begins") (.var "ends")) [
      -- 242: if (minimal_duration is None or
      .ite (.or (.cmp .is (.var "minimal_duration") (.const .none)) (.cmp .ge (.bin .sub (.var "ends") (.var "last_block_begins")) (.var "minimal_duration"))) [
        -- 244: free_periods.append((last_block_begins, ends))
        .mutate none "free_periods" .append [(.tuple [(.var "last_block_begins"), (.var "ends")])]] []] [],
    -- 245: return free_periods
    .ret (.var "free_periods")]

/-- `Period`, cal.py lines 1072-1073 -/
def Period : FunDef where
  kind := .fn
  params := [("dtstart", none), ("duration", none)]
  locals := []
  body := [
    -- 1073: return (dtstart, timedelta(minutes=duration))
    .ret (.tuple [(.var "dtstart"), (.prim .timedelta [] [("minutes", (.var "duration"))])])]

/-- `float_datetime`, cal.py lines 1101-1107 -/
def float_datetime : FunDef where
  kind := .fn
  params := [("dt", none)]
  locals := []
  body := [
    -- 1104: if dt.tzinfo is None:
    .ite (.cmp .is (.field (.var "dt") .tzinfo) (.const .none)) [
      -- 1105: return dt
      .ret (.var "dt")] [],
    -- 1106: dt = dt.astimezone(icalendar.LocalTimezone())
    .assign (.name "dt") (.meth (.var "dt") .astimezone [(.prim .localTimezone [] [])] []),
    -- 1107: return dt.replace(tzinfo=None)
    .ret (.meth (.var "dt") .replace [] [("tzinfo", (.const .none))])]

/-- `iso8601`, cal.py lines 1119-1121 -/
def iso8601 : FunDef where
  kind := .fn
  params := [("dt", none)]
  locals := []
  body := [
    -- 1120: return  '%.4d%.2d%.2dT%.2d%.2d%.2d' % (
    .ret (.bin .mod (.const (.str "%.4d%.2d%.2dT%.2d%.2d%.2d")) (.tuple [(.field (.var "dt") .year), (.field (.var "dt") .month), (.field (.var "dt") .day), (.field (.var "dt") .hour), (.field (.var "dt") .minute), (.field (.var "dt") .second)]))]

/-- `EventSpecification.__init__`, cal.py lines 57-85 -/
def EventSpecification_init : FunDef where
  kind := .init
  params := [("self", none), ("dtstart", none), ("duration", none), ("title", some (.str "")), ("description", some (.str "")), ("location", some (.str "")), ("status", some (.str "TENTATIVE")), ("organizer", some .none), ("recurrence", some .none), ("allday", some (.bool false)), ("categories", some .none), ("transparent", some (.bool false)), ("access", some (.str "PUBLIC")), ("document", some .none), ("attendees", some (.list []))]
  locals := []
  body := [
    -- 70: self.dtstart = dtstart
    .assign (.attr "self" "dtstart") (.var "dtstart"),
    -- 71: self.duration = duration
    .assign (.attr "self" "duration") (.var "duration"),
    -- 72: self.title = title
    .assign (.attr "self" "title") (.var "title"),
    -- 73: self.description = description
    .assign (.attr "self" "description") (.var "description"),
    -- 74: self.status = status
    .assign (.attr "self" "status") (.var "status"),
    -- 75: self.location = location
    .assign (.attr "self" "location") (.var "location"),
    -- 76: self.organizer = organizer
    .assign (.attr "self" "organizer") (.var "organizer"),
    -- 77: self.recurrence = recurrence
    .assign (.attr "self" "recurrence") (.var "recurrence"),
    -- 78: self.allday = allday
    .assign (.attr "self" "allday") (.var "allday"),
    -- 79: if categories is None:
    .ite (.cmp .is (.var "categories") (.const .none)) [
      -- 80: categories = Set()
      .assign (.name "categories") (.prim .set [] [])] [],
    -- 81: self.categories = categories
    .assign (.attr "self" "categories") (.var "categories"),
    -- 82: self.transparent = transparent
    .assign (.attr "self" "transparent") (.var "transparent"),
    -- 83: self.access = access
    .assign (.attr "self" "access") (.var "access"),
    -- 84: self.document = document
    .assign (.attr "self" "document") (.var "document"),
    -- 85: self.attendees = attendees
    .assign (.attr "self" "attendees") (.var "attendees")]

/-- The loop of `EventSpecification.setOnObject` at line 103. -/
def EventSpecification_setOnObject_loop2 : List Stmt := [
  -- 104: o.setParticipationRole(attendee, role)
  .proc none "o" none "setParticipationRole" [(.var "attendee"), (.var "role")],
  -- 105: o._setParticipationStatus(attendee, status)
  .proc none "o" none "_setParticipationStatus" [(.var "attendee"), (.var "status")]]

/-- The loop of `EventSpecification.setOnObject` at line 90. -/
def EventSpecification_setOnObject_loop1 : List Stmt := [
  -- 91: if name not in ('organizer', 'attendees'):
  .ite (.cmp .notIn (.var "name") (.tuple [(.const (.str "organizer")), (.const (.str "attendees"))])) [
    -- 92: if getattr(o, name, _marker) != value:
    .ite (.cmp .ne (.getattr (.var "o") (.var "name") (.const (.obj "object" []))) (.var "value")) [
      -- 93: setattr(o, name, value)
      .setattr "o" (.var "name") (.var "value"),
      -- 94: modified = True
      .assign (.name "modified") (.const (.bool true))] []] []]

/-- `EventSpecification.setOnObject`, cal.py lines 87-105 -/
def EventSpecification_setOnObject : FunDef where
  kind := .proc
  params := [("self", none), ("o", none)]
  locals := ["name", "value", "modified", "attendee", "role", "status"]
  body := [
    -- 90: for name, value in self.__dict__.items():
    .for (.names ["name", "value"]) (.attrItems (.var "self")) EventSpecification_setOnObject_loop1 [],
    -- 95: if self.organizer is not None:
    .ite (.cmp .isNot (.attr (.var "self") "organizer") (.const .none)) [
      -- 96: o._setParticipationStatus(self.organizer, 'ACCEPTED')
      .proc none "o" none "_setParticipationStatus" [(.attr (.var "self") "organizer"), (.const (.str "ACCEPTED"))],
      -- 97: o.setParticipationRole(self.organizer, 'REQ-PARTICIPANT')
      .proc none "o" none "setParticipationRole" [(.attr (.var "self") "organizer"), (.const (.str "REQ-PARTICIPANT"))],
      -- 98: o._organizer_id = self.organizer.getAttendeeId()
      .assign (.attr "o" "_organizer_id") (.method (.attr (.var "self") "organizer") "getAttendeeId" [] [])] [
      -- 100: o._organizer_id = None
      .assign (.attr "o" "_organizer_id") (.const .none)],
    -- 102: if self.attendees:
    .ite (.attr (.var "self") "attendees") [
      -- 103: for (attendee, role, status) in self.attendees:
      .for (.names ["attendee", "role", "status"]) (.attr (.var "self") "attendees") EventSpecification_setOnObject_loop2 []] []]

/-- The loop of `EventSpecification.willModify` at line 121. -/
def EventSpecification_willModify_loop2 : List Stmt := [
  -- 122: if (o.getParticipationStatus(attendee) != status or
  .ite (.or (.cmp .ne (.method (.var "o") "getParticipationStatus" [(.var "attendee")] []) (.var "status")) (.cmp .ne (.method (.var "o") "getParticipationRole" [(.var "attendee")] []) (.const (.str "REQ-PARTICIPANT")))) [
    -- 124: return True
    .ret (.const (.bool true))] []]

/-- The loop of `EventSpecification.willModify` at line 110. -/
def EventSpecification_willModify_loop1 : List Stmt := [
  -- 111: if name not in ('organizer', 'attendees'):
  .ite (.cmp .notIn (.var "name") (.tuple [(.const (.str "organizer")), (.const (.str "attendees"))])) [
    -- 112: if getattr(o, name, _marker) != value:
    .ite (.cmp .ne (.getattr (.var "o") (.var "name") (.const (.obj "object" []))) (.var "value")) [
      -- 113: return True
      .ret (.const (.bool true))] []] []]

/-- `EventSpecification.willModify`, cal.py lines 107-124 -/
def EventSpecification_willModify : FunDef where
  kind := .fn
  params := [("self", none), ("o", none)]
  locals := ["name", "value", "attendee", "role", "status"]
  body := [
    -- 110: for name, value in self.__dict__.items():
    .for (.names ["name", "value"]) (.attrItems (.var "self")) EventSpecification_willModify_loop1 [],
    -- 114: if (self.organizer is not None and
    .ite (.or (.and (.cmp .isNot (.attr (.var "self") "organizer") (.const .none)) (.cmp .ne (.attr (.var "o") "_organizer_id") (.method (.attr (.var "self") "organizer") "getAttendeeId" [] []))) (.or (.cmp .ne (.method (.var "o") "getParticipationStatus" [(.attr (.var "self") "organizer")] []) (.const (.str "ACCEPTED"))) (.cmp .ne (.method (.var "o") "getParticipationRole" [(.attr (.var "self") "organizer")] []) (.const (.str "REQ-PARTICIPANT"))))) [
      -- 118: return True
      .ret (.const (.bool true))] [],
    -- 120: if self.attendees:
    .ite (.attr (.var "self") "attendees") [
      -- 121: for (attendee, role, status) in self.attendees:
      .for (.names ["attendee", "role", "status"]) (.attr (.var "self") "attendees") EventSpecification_willModify_loop2 []] []]

/-- `EventBase.__init__`, cal.py lines 395-403 -/
def EventBase_init : FunDef where
  kind := .init
  params := [("self", none), ("unique_id", none), ("spec", none)]
  locals := []
  body := [
    -- 396: self.unique_id = unique_id
    .assign (.attr "self" "unique_id") (.var "unique_id"),
    -- 397: self._participation_state = self._initParticipationState()
    .assign (.attr "self" "_participation_state") (.method (.var "self") "_initParticipationState" [] []),
    -- 398: self._participation_role = self._initParticipationRole()
    .assign (.attr "self" "_participation_role") (.method (.var "self") "_initParticipationRole" [] []),
    -- 400: spec.setOnObject(self)
    .proc none "spec" none "setOnObject" [(.var "self")],
    -- 402: if self.allday:
    .ite (.attr (.var "self") "allday") [
      -- 403: self.alldayAdjust()
      .proc none "self" none "alldayAdjust" []] []]

/-- `EventBase._initParticipationState`, cal.py lines 405-406 -/
def EventBase_initParticipationState : FunDef where
  kind := .fn
  params := [("self", none)]
  locals := []
  body := [
    -- 406: raise NotImplementedError
    .abort]

/-- `EventBase._initParticipationRole`, cal.py lines 408-409 -/
def EventBase_initParticipationRole : FunDef where
  kind := .fn
  params := [("self", none)]
  locals := []
  body := [
    -- 409: raise NotImplementedError
    .abort]

/-- `Event._initParticipationState`, cal.py lines 583-584 -/
def Event_initParticipationState : FunDef where
  kind := .fn
  params := [("self", none)]
  locals := []
  body := [
    -- 584: return {}
    .ret (.const (.dict []))]

/-- `Event._initParticipationRole`, cal.py lines 586-587 -/
def Event_initParticipationRole : FunDef where
  kind := .fn
  params := [("self", none)]
  locals := []
  body := [
    -- 587: return {}
    .ret (.const (.dict []))]

/-- The loop of `EventBase.invite` at line 414. -/
def EventBase_invite_loop1 : List Stmt := [
  -- 415: if self.getParticipationStatus(attendee) is None:
  .ite (.cmp .is (.method (.var "self") "getParticipationStatus" [(.var "attendee")] []) (.const .none)) [
    -- 416: self.setParticipationStatus(attendee, 'NEEDS-ACTION')
    .proc none "self" none "setParticipationStatus" [(.var "attendee"), (.const (.str "NEEDS-ACTION"))],
    -- 417: self.setParticipationRole(attendee, 'REQ-PARTICIPANT')
    .proc none "self" none "setParticipationRole" [(.var "attendee"), (.const (.str "REQ-PARTICIPANT"))]] []]

/-- `EventBase.invite`, cal.py lines 413-417 -/
def EventBase_invite : FunDef where
  kind := .proc
  params := [("self", none), ("attendees", none)]
  locals := ["attendee"]
  body := [
    -- 414: for attendee in attendees:
    .for (.name "attendee") (.var "attendees") EventBase_invite_loop1 []]

/-- `EventBase.setParticipationStatus`, cal.py lines 419-426 -/
def EventBase_setParticipationStatus : FunDef where
  kind := .proc
  params := [("self", none), ("attendee", none), ("status", none)]
  locals := ["old_status"]
  body := [
    -- 420: assert status in [None, 'NEEDS-ACTION', 'ACCEPTED', 'DECLINED',
    .assert (.cmp .isIn (.var "status") (.list [(.const .none), (.const (.str "NEEDS-ACTION")), (.const (.str "ACCEPTED")), (.const (.str "DECLINED")), (.const (.str "TENTATIVE")), (.const (.str "DELEGATED"))])),
    -- 422: old_status = self.getParticipationStatus(attendee)
    .assign (.name "old_status") (.method (.var "self") "getParticipationStatus" [(.var "attendee")] []),
    -- 423: if old_status == status:
    .ite (.cmp .eq (.var "old_status") (.var "status")) [
      -- 424: return
      .ret (.const .none)] [],
    -- 425: self._setParticipationStatus(attendee, status)
    .proc none "self" none "_setParticipationStatus" [(.var "attendee"), (.var "status")],
    -- 426: notify(EventParticipationChangeEvent(self, attendee, old_status, status))
    .yield (.new "EventParticipationChangeEvent" [(.var "self"), (.var "attendee"), (.var "old_status"), (.var "status")] [])]

/-- `EventBase._setParticipationStatus`, cal.py lines 428-435 -/
def EventBase_setParticipationStatus_ : FunDef where
  kind := .proc
  params := [("self", none), ("attendee", none), ("status", none)]
  locals := ["attendee_id"]
  body := [
    -- 430: attendee_id = attendee.getAttendeeId()
    .assign (.name "attendee_id") (.method (.var "attendee") "getAttendeeId" [] []),
    -- 431: if status is None:
    .ite (.cmp .is (.var "status") (.const .none)) [
      -- 432: del self._participation_state[attendee_id]
      .delItem "self" "_participation_state" (.var "attendee_id"),
      -- 433: del self._participation_role[attendee_id]
      .delItem "self" "_participation_role" (.var "attendee_id"),
      -- 434: return
      .ret (.const .none)] [],
    -- 435: self._participation_state[attendee_id] = status
    .assign (.attrItem "self" "_participation_state" (.var "attendee_id")) (.var "status")]

/-- `EventBase.setParticipationRole`, cal.py lines 437-440 -/
def EventBase_setParticipationRole : FunDef where
  kind := .proc
  params := [("self", none), ("attendee", none), ("role", none)]
  locals := []
  body := [
    -- 438: assert role in ['CHAIR', 'REQ-PARTICIPANT', 'OPT-PARTICIPANT',
    .assert (.cmp .isIn (.var "role") (.list [(.const (.str "CHAIR")), (.const (.str "REQ-PARTICIPANT")), (.const (.str "OPT-PARTICIPANT")), (.const (.str "NON-PARTICIPANT"))])),
    -- 440: self._participation_role[attendee.getAttendeeId()] = role
    .assign (.attrItem "self" "_participation_role" (.method (.var "attendee") "getAttendeeId" [] [])) (.var "role")]

/-- `EventBase.alldayAdjust`, cal.py lines 442-453 -/
def EventBase_alldayAdjust : FunDef where
  kind := .proc
  params := [("self", none)]
  locals := ["days", "rest"]
  body := [
    -- 443: self.dtstart = combine(self.dtstart.date(), time(0, 0))
    .assign (.attr "self" "dtstart") (.prim .combine [(.meth (.attr (.var "self") "dtstart") .date [] []), (.prim .time [(.const (.int 0)), (.const (.int 0))] [])] []),
    -- 444: if self.duration is None:
    .ite (.cmp .is (.attr (.var "self") "duration") (.const .none)) [
      -- 446: self.duration = timedelta(days=1)
      .assign (.attr "self" "duration") (.prim .timedelta [] [("days", (.const (.int 1)))])] [
      -- 449: days = self.duration.days
      .assign (.name "days") (.field (.attr (.var "self") "duration") .days),
      -- 450: rest = self.duration - timedelta(days)
      .assign (.name "rest") (.bin .sub (.attr (.var "self") "duration") (.prim .timedelta [(.var "days")] [])),
      -- 451: if rest != timedelta(0) or days == 0:
      .ite (.or (.cmp .ne (.var "rest") (.prim .timedelta [(.const (.int 0))] [])) (.cmp .eq (.var "days") (.const (.int 0)))) [
        -- 452: days += 1
        .assign (.name "days") (.bin .add (.var "days") (.const (.int 1)))] [],
      -- 453: self.duration = timedelta(days=days)
      .assign (.attr "self" "duration") (.prim .timedelta [] [("days", (.var "days"))])]]

/-- `EventBase.export`, cal.py lines 517-572 -/
def EventBase_export : FunDef where
  kind := .fn
  params := [("self", none), ("private", some (.bool false))]
  locals := ["e", "dtstart_prop", "dtend", "dtend_prop", "r", "d"]
  body := [
    -- 525: e = icalendar.Event()
    .assign (.name "e") (.prim .icalEvent [] []),
    -- 526: if not self.allday:
    .ite (.not (.attr (.var "self") "allday")) [
      -- 527: e.add('dtstart', self.dtstart)
      .mutate none "e" .add [(.const (.str "dtstart")), (.attr (.var "self") "dtstart")],
      -- 531: e.add('dtend', self.dtstart + self.duration)
      .mutate none "e" .add [(.const (.str "dtend")), (.bin .add (.attr (.var "self") "dtstart") (.attr (.var "self") "duration"))]] [
      -- 535: dtstart_prop = icalendar.vDate(self.dtstart.date())
      .assign (.name "dtstart_prop") (.prim .vDate [(.meth (.attr (.var "self") "dtstart") .date [] [])] []),
      -- 536: dtstart_prop.params['VALUE'] = icalendar.vText('DATE')
      .assign (.attrItem "dtstart_prop" "params" (.const (.str "VALUE"))) (.prim .vText [(.const (.str "DATE"))] []),
      -- 537: e.add('dtstart', dtstart_prop, encode=0)
      .mutate none "e" .add [(.const (.str "dtstart")), (.var "dtstart_prop"), (.const (.int 0))],
      -- 539: dtend = self.dtstart + self.duration
      .assign (.name "dtend") (.bin .add (.attr (.var "self") "dtstart") (.attr (.var "self") "duration")),
      -- 540: dtend_prop = icalendar.vDate(dtend)
      .assign (.name "dtend_prop") (.prim .vDate [(.var "dtend")] []),
      -- 541: dtend_prop.params['VALUE'] = icalendar.vText('DATE')
      .assign (.attrItem "dtend_prop" "params" (.const (.str "VALUE"))) (.prim .vText [(.const (.str "DATE"))] []),
      -- 542: e.add('dtend', dtend_prop, encode=0)
      .mutate none "e" .add [(.const (.str "dtend")), (.var "dtend_prop"), (.const (.int 0))]],
    -- 543: if self.recurrence is not None:
    .ite (.cmp .isNot (.attr (.var "self") "recurrence") (.const .none)) [
      -- 544: r = self.recurrence
      .assign (.name "r") (.attr (.var "self") "recurrence"),
      -- 545: d = {'freq': r.ical_freq, 'interval': r.interval}
      .assign (.name "d") (.dict [("freq", (.cattr (.var "r") "ical_freq")), ("interval", (.attr (.var "r") "interval"))]),
      -- 546: if r.count is not None:
      .ite (.cmp .isNot (.attr (.var "r") "count") (.const .none)) [
        -- 547: d['count'] = r.count
        .assign (.item "d" (.const (.str "count"))) (.attr (.var "r") "count")] [],
      -- 548: if r.until is not None:
      .ite (.cmp .isNot (.attr (.var "r") "until") (.const .none)) [
        -- 549: d['until'] = r.until
        .assign (.item "d" (.const (.str "until"))) (.attr (.var "r") "until")] [],
      -- 550: e.add('rrule', icalendar.vRecur(d))
      .mutate none "e" .add [(.const (.str "rrule")), (.prim .vRecur [(.var "d")] [])]] [],
    -- 551: if self.transparent:
    .ite (.attr (.var "self") "transparent") [
      -- 552: e.add('transp', 'TRANSPARENT')
      .mutate none "e" .add [(.const (.str "transp")), (.const (.str "TRANSPARENT"))]] [
      -- 554: e.add('transp', 'OPAQUE')
      .mutate none "e" .add [(.const (.str "transp")), (.const (.str "OPAQUE"))]],
    -- 555: e.add('uid', self.unique_id)
    .mutate none "e" .add [(.const (.str "uid")), (.attr (.var "self") "unique_id")],
    -- 556: e.add('class', self.access)
    .mutate none "e" .add [(.const (.str "class")), (.attr (.var "self") "access")],
    -- 557: if private:
    .ite (.var "private") [
      -- 559: e.add('summary', _("Private Event"))
      .mutate none "e" .add [(.const (.str "summary")), (.const (.str "Private Event"))],
      -- 560: return e
      .ret (.var "e")] [],
    -- 562: e.add('summary', self.title)
    .mutate none "e" .add [(.const (.str "summary")), (.attr (.var "self") "title")],
    -- 563: if self.description:
    .ite (.attr (.var "self") "description") [
      -- 564: e.add('description', self.description)
      .mutate none "e" .add [(.const (.str "description")), (.attr (.var "self") "description")]] [],
    -- 565: if self.location:
    .ite (.attr (.var "self") "location") [
      -- 566: e.add('location', self.location)
      .mutate none "e" .add [(.const (.str "location")), (.attr (.var "self") "location")]] [],
    -- 567: if self.categories:
    .ite (.attr (.var "self") "categories") [
      -- 568: e.set_inline('categories', list(self.categories))
      .mutate none "e" .setInline [(.const (.str "categories")), (.prim .list [(.attr (.var "self") "categories")] [])]] [],
    -- 569: if self.document:
    .ite (.attr (.var "self") "document") [
      -- 570: e.add('attach', self.document)
      .mutate none "e" .add [(.const (.str "attach")), (.attr (.var "self") "document")]] [],
    -- 571: e.add('status', self.status)
    .mutate none "e" .add [(.const (.str "status")), (.attr (.var "self") "status")],
    -- 572: return e
    .ret (.var "e")]

/-- `StorageManagerBase.__init__`, cal.py lines 131-132 -/
def StorageManagerBase_init : FunDef where
  kind := .init
  params := [("self", none)]
  locals := []
  body := [
    -- 132: self._storage = None
    .assign (.attr "self" "_storage") (.const .none)]

/-- `StorageManagerBase.setStorage`, cal.py lines 136-137 -/
def StorageManagerBase_setStorage : FunDef where
  kind := .proc
  params := [("self", none), ("storage", none)]
  locals := []
  body := [
    -- 137: self._storage = storage
    .assign (.attr "self" "_storage") (.var "storage")]

/-- `StorageManagerBase.createEventFromSpecification`, cal.py lines 143-146 -/
def StorageManagerBase_createEventFromSpecification : FunDef where
  kind := .proc
  params := [("self", none), ("unique_id", none), ("spec", none)]
  locals := ["event"]
  body := [
    -- 144: event = self._storage.createEvent(unique_id, spec)
    .proc (some (.name "event")) "self" (some "_storage") "createEvent" [(.var "unique_id"), (.var "spec")],
    -- 145: notify(EventCreatedEvent(event))
    .yield (.new "EventCreatedEvent" [(.var "event")] []),
    -- 146: return event
    .ret (.var "event")]

/-- `StorageManagerBase.deleteEvent`, cal.py lines 148-150 -/
def StorageManagerBase_deleteEvent : FunDef where
  kind := .proc
  params := [("self", none), ("event", none)]
  locals := []
  body := [
    -- 149: self._storage.deleteEvent(event)
    .proc none "self" (some "_storage") "deleteEvent" [(.var "event")],
    -- 150: notify(EventDeletedEvent(event))
    .yield (.new "EventDeletedEvent" [(.var "event")] [])]

/-- `StorageBase._initEvents`, cal.py lines 260-261 -/
def StorageBase_initEvents : FunDef where
  kind := .fn
  params := [("self", none)]
  locals := []
  body := [
    -- 261: raise NotImplementedError
    .abort]

/-- `StorageBase._eventFactory`, cal.py lines 263-264 -/
def StorageBase_eventFactory : FunDef where
  kind := .fn
  params := [("self", none), ("event_id", none), ("spec", none)]
  locals := []
  body := [
    -- 264: raise NotImplementedError
    .abort]

/-- `StorageBase.deleteEvent`, cal.py lines 276-277 -/
def StorageBase_deleteEvent : FunDef where
  kind := .proc
  params := [("self", none), ("event", none)]
  locals := []
  body := [
    -- 277: del self._events[event.unique_id]
    .delItem "self" "_events" (.attr (.var "event") "unique_id")]

/-- `StorageBase.getStorageId`, cal.py lines 281-282 -/
def StorageBase_getStorageId : FunDef where
  kind := .fn
  params := [("self", none)]
  locals := []
  body := [
    -- 282: return self._storage_id
    .ret (.attr (.var "self") "_storage_id")]

/-- `MemoryStorage._initEvents`, cal.py lines 312-313 -/
def MemoryStorage_initEvents : FunDef where
  kind := .fn
  params := [("self", none)]
  locals := []
  body := [
    -- 313: return {}
    .ret (.const (.dict []))]

/-- `MemoryStorage._eventFactory`, cal.py lines 315-316 -/
def MemoryStorage_eventFactory : FunDef where
  kind := .fn
  params := [("self", none), ("event_id", none), ("spec", none)]
  locals := []
  body := [
    -- 316: return Event(event_id, spec)
    .ret (.new "Event" [(.var "event_id"), (.var "spec")] [])]

/-- `StorageBase.createEvent`, cal.py lines 267-274 -/
def StorageBase_createEvent : FunDef where
  kind := .proc
  params := [("self", none), ("unique_id", none), ("spec", none)]
  locals := ["event"]
  body := [
    -- 268: if unique_id is None:
    .ite (.cmp .is (.var "unique_id") (.const .none)) [
      -- 269: unique_id = addrspec_unique_id(
      .assign (.name "unique_id") (.call "addrspec_unique_id" [(.bin .mod (.const (.str "%s-%s")) (.tuple [(.attr (.var "self") "_storage_id"), (.prim .len [(.attr (.var "self") "_events")] [])])), (.attr (.var "self") "_hostname")] [])] [],
    -- 272: event = self._eventFactory(unique_id, spec)
    .assign (.name "event") (.method (.var "self") "_eventFactory" [(.var "unique_id"), (.var "spec")] []),
    -- 273: self._events[unique_id] = event
    .assign (.attrItem "self" "_events" (.var "unique_id")) (.var "event"),
    -- 274: return event
    .ret (.var "event")]

/-- `AttendeeBase.__init__`, cal.py lines 600-603 -/
def AttendeeBase_init : FunDef where
  kind := .init
  params := [("self", none), ("attendee_id", none), ("name", none), ("attendee_type", none)]
  locals := []
  body := [
    -- 601: self._attendee_id = attendee_id
    .assign (.attr "self" "_attendee_id") (.var "attendee_id"),
    -- 602: self._name = name
    .assign (.attr "self" "_name") (.var "name"),
    -- 603: self._attendee_type = attendee_type
    .assign (.attr "self" "_attendee_type") (.var "attendee_type")]

/-- `AttendeeBase.getEvents`, cal.py lines 619-625 -/
def AttendeeBase_getEvents : FunDef where
  kind := .fn
  params := [("self", none), ("period", none), ("search_criteria", some .none)]
  locals := []
  body := [
    -- 620: if search_criteria is None:
    .ite (.cmp .is (.var "search_criteria") (.const .none)) [
      -- 621: search_criteria = SearchCriteria(attendees=[self])
      .assign (.name "search_criteria") (.new "SearchCriteria" [] [("attendees", (.list [(.var "self")]))])] [
      -- 623: search_criteria = search_criteria.clone(attendees=[self])
      .assign (.name "search_criteria") (.method (.var "search_criteria") "clone" [] [("attendees", (.list [(.var "self")]))])],
    -- 624: return self._getStorageManager().getEvents(
    .ret (.method (.method (.var "self") "_getStorageManager" [] []) "getEvents" [(.var "period"), (.var "search_criteria")] [])]

/-- `AttendeeBase.getOccurrences`, cal.py lines 627-633 -/
def AttendeeBase_getOccurrences : FunDef where
  kind := .fn
  params := [("self", none), ("period", none), ("search_criteria", some .none)]
  locals := []
  body := [
    -- 628: if search_criteria is None:
    .ite (.cmp .is (.var "search_criteria") (.const .none)) [
      -- 629: search_criteria = SearchCriteria(attendees=[self])
      .assign (.name "search_criteria") (.new "SearchCriteria" [] [("attendees", (.list [(.var "self")]))])] [
      -- 631: search_criteria = search_criteria.clone(attendees=[self])
      .assign (.name "search_criteria") (.method (.var "search_criteria") "clone" [] [("attendees", (.list [(.var "self")]))])],
    -- 632: return self._getStorageManager().getOccurrences(
    .ret (.method (.method (.var "self") "_getStorageManager" [] []) "getOccurrences" [(.var "period"), (.var "search_criteria")] [])]

/-- `AttendeeBase.getOrganizedEvents`, cal.py lines 635-641 -/
def AttendeeBase_getOrganizedEvents : FunDef where
  kind := .fn
  params := [("self", none), ("search_criteria", some .none)]
  locals := []
  body := [
    -- 636: if search_criteria is None:
    .ite (.cmp .is (.var "search_criteria") (.const .none)) [
      -- 637: search_criteria = SearchCriteria(organizer=self)
      .assign (.name "search_criteria") (.new "SearchCriteria" [] [("organizer", (.var "self"))])] [
      -- 639: search_criteria = search_criteria.clone(organizer=self)
      .assign (.name "search_criteria") (.method (.var "search_criteria") "clone" [] [("organizer", (.var "self"))])],
    -- 640: return self._getStorageManager().getEvents(
    .ret (.method (.method (.var "self") "_getStorageManager" [] []) "getEvents" [(.tuple [(.const .none), (.const .none)]), (.var "search_criteria")] [])]

/-- `AttendeeBase._getStorageManager`, cal.py lines 643-644 -/
def AttendeeBase_getStorageManager : FunDef where
  kind := .fn
  params := [("self", none)]
  locals := []
  body := [
    -- 644: raise NotImplementedError
    .abort]

/-- `Attendee.__init__`, cal.py lines 647-651 -/
def Attendee_init : FunDef where
  kind := .init
  params := [("self", none), ("storage_manager", none), ("attendee_id", none), ("name", none), ("attendee_type", none)]
  locals := []
  body := [
    -- 649: AttendeeBase.__init__(
    .assign (.name "self") (.call "AttendeeBase.__init__" [(.var "self"), (.var "attendee_id"), (.var "name"), (.var "attendee_type")] []),
    -- 651: self._storage_manager = storage_manager
    .assign (.attr "self" "_storage_manager") (.var "storage_manager")]

/-- `Attendee._getStorageManager`, cal.py lines 653-654 -/
def Attendee_getStorageManager : FunDef where
  kind := .fn
  params := [("self", none)]
  locals := []
  body := [
    -- 654: return self._storage_manager
    .ret (.attr (.var "self") "_storage_manager")]

/-- `CalendarBase.__init__`, cal.py lines 663-664 -/
def CalendarBase_init : FunDef where
  kind := .init
  params := [("self", none)]
  locals := []
  body := [
    -- 664: self._attendees = self._initAttendees()
    .assign (.attr "self" "_attendees") (.method (.var "self") "_initAttendees" [] [])]

/-- `CalendarBase._initAttendees`, cal.py lines 666-667 -/
def CalendarBase_initAttendees : FunDef where
  kind := .fn
  params := [("self", none)]
  locals := []
  body := [
    -- 667: return {}
    .ret (.const (.dict []))]

/-- `CalendarBase.addAttendee`, cal.py lines 671-672 -/
def CalendarBase_addAttendee : FunDef where
  kind := .proc
  params := [("self", none), ("attendee", none)]
  locals := []
  body := [
    -- 672: self._attendees[attendee.getAttendeeId()] = None
    .assign (.attrItem "self" "_attendees" (.method (.var "attendee") "getAttendeeId" [] [])) (.const .none)]

/-- `CalendarBase.removeAttendee`, cal.py lines 674-675 -/
def CalendarBase_removeAttendee : FunDef where
  kind := .proc
  params := [("self", none), ("attendee", none)]
  locals := []
  body := [
    -- 675: del self._attendees[attendee.getAttendeeId()]
    .delItem "self" "_attendees" (.method (.var "attendee") "getAttendeeId" [] [])]

/-- `CalendarBase.getMainAttendeeId`, cal.py lines 677-681 -/
def CalendarBase_getMainAttendeeId : FunDef where
  kind := .fn
  params := [("self", none)]
  locals := ["attendee_keys"]
  body := [
    -- 678: attendee_keys = self._attendees.keys()
    .assign (.name "attendee_keys") (.meth (.attr (.var "self") "_attendees") .keys [] []),
    -- 679: if len(attendee_keys) == 0:
    .ite (.cmp .eq (.prim .len [(.var "attendee_keys")] []) (.const (.int 0))) [
      -- 680: return None
      .ret (.const .none)] [],
    -- 681: return attendee_keys[0]
    .ret (.index (.var "attendee_keys") (.const (.int 0)))]

/-- `CalendarBase.getMainAttendee`, cal.py lines 683-688 -/
def CalendarBase_getMainAttendee : FunDef where
  kind := .fn
  params := [("self", none)]
  locals := ["attendee_id", "source"]
  body := [
    -- 684: attendee_id = self.getMainAttendeeId()
    .assign (.name "attendee_id") (.method (.var "self") "getMainAttendeeId" [] []),
    -- 685: if attendee_id is None:
    .ite (.cmp .is (.var "attendee_id") (.const .none)) [
      -- 686: return None
      .ret (.const .none)] [],
    -- 687: source = self._getAttendeeSource()
    .assign (.name "source") (.method (.var "self") "_getAttendeeSource" [] []),
    -- 688: return source.getAttendee(attendee_id)
    .ret (.method (.var "source") "getAttendee" [(.var "attendee_id")] [])]

/-- The loop of `CalendarBase._importEventSpecification` at line 778. -/
def CalendarBase_importEventSpecification_loop1 : List Stmt := [
  -- 779: attendee = asrc.getAttendeeFromSpec(attendee_spec)
  .assign (.name "attendee") (.method (.var "asrc") "getAttendeeFromSpec" [(.var "attendee_spec")] []),
  -- 780: status = attendee_spec.params.get('PARTSTAT', 'NEEDS-ACTION')
  .assign (.name "status") (.meth (.attr (.var "attendee_spec") "params") .get [(.const (.str "PARTSTAT")), (.const (.str "NEEDS-ACTION"))] []),
  -- 781: role = attendee_spec.params.get('ROLE', 'REQ-PARTICIPANT')
  .assign (.name "role") (.meth (.attr (.var "attendee_spec") "params") .get [(.const (.str "ROLE")), (.const (.str "REQ-PARTICIPANT"))] []),
  -- 782: attendees.append((attendee, role, status))
  .mutate none "attendees" .append [(.tuple [(.var "attendee"), (.var "role"), (.var "status")])]]

/-- `CalendarBase._importEventSpecification`, cal.py lines 748-794 -/
def CalendarBase_importEventSpecification : FunDef where
  kind := .fn
  params := [("self", none), ("e", none)]
  locals := ["asrc", "kw", "organizer", "attendees", "attendee_list", "attendee_spec", "attendee", "status", "role", "rrule", "_t0", "_t1", "_t2"]
  body := [
    -- 751: asrc = self._getAttendeeSource()
    .assign (.name "asrc") (.method (.var "self") "_getAttendeeSource" [] []),
    -- 753: kw = {}
    .assign (.name "kw") (.const (.dict [])),
    -- 754: kw['dtstart'], kw['duration'], kw['allday'] =\
    .assign (.names ["_t0", "_t1", "_t2"]) (.method (.var "self") "_getDtstartDuration" [(.var "e")] []),
    -- 754: kw['dtstart'], kw['duration'], kw['allday'] =\
    .assign (.item "kw" (.const (.str "dtstart"))) (.var "_t0"),
    -- 754: kw['dtstart'], kw['duration'], kw['allday'] =\
    .assign (.item "kw" (.const (.str "duration"))) (.var "_t1"),
    -- 754: kw['dtstart'], kw['duration'], kw['allday'] =\
    .assign (.item "kw" (.const (.str "allday"))) (.var "_t2"),
    -- 757: kw['title'] = e.decoded('SUMMARY', '')
    .assign (.item "kw" (.const (.str "title"))) (.meth (.var "e") .decoded [(.const (.str "SUMMARY")), (.const (.str ""))] []),
    -- 758: kw['description'] = e.decoded('DESCRIPTION', '')
    .assign (.item "kw" (.const (.str "description"))) (.meth (.var "e") .decoded [(.const (.str "DESCRIPTION")), (.const (.str ""))] []),
    -- 759: kw['location'] = e.decoded('LOCATION', '')
    .assign (.item "kw" (.const (.str "location"))) (.meth (.var "e") .decoded [(.const (.str "LOCATION")), (.const (.str ""))] []),
    -- 760: kw['status'] = e.decoded('STATUS', 'TENTATIVE')
    .assign (.item "kw" (.const (.str "status"))) (.meth (.var "e") .decoded [(.const (.str "STATUS")), (.const (.str "TENTATIVE"))] []),
    -- 763: if e.has_key('ORGANIZER'):
    .ite (.meth (.var "e") .hasKey [(.const (.str "ORGANIZER"))] []) [
      -- 764: organizer = asrc.getAttendeeFromSpec(e['organizer'])
      .assign (.name "organizer") (.method (.var "asrc") "getAttendeeFromSpec" [(.index (.var "e") (.const (.str "organizer")))] [])] [
      -- 766: organizer = None
      .assign (.name "organizer") (.const .none)],
    -- 768: if organizer is None:
    .ite (.cmp .is (.var "organizer") (.const .none)) [
      -- 769: organizer = self._getDefaultOrganizer()
      .assign (.name "organizer") (.method (.var "self") "_getDefaultOrganizer" [] [])] [],
    -- 771: kw['organizer'] = organizer
    .assign (.item "kw" (.const (.str "organizer"))) (.var "organizer"),
    -- 773: if e.has_key('ATTENDEE'):
    .ite (.meth (.var "e") .hasKey [(.const (.str "ATTENDEE"))] []) [
      -- 774: attendees = []
      .assign (.name "attendees") (.list []),
      -- 775: attendee_list = e['ATTENDEE']
      .assign (.name "attendee_list") (.index (.var "e") (.const (.str "ATTENDEE"))),
      -- 776: if not isinstance(attendee_list, ListType):
      .ite (.not (.isinst (.var "attendee_list") [.list])) [
        -- 777: attendee_list = [attendee_list]
        .assign (.name "attendee_list") (.list [(.var "attendee_list")])] [],
      -- 778: for attendee_spec in attendee_list:
      .for (.name "attendee_spec") (.var "attendee_list") CalendarBase_importEventSpecification_loop1 [],
      -- 783: kw['attendees'] = attendees
      .assign (.item "kw" (.const (.str "attendees"))) (.var "attendees")] [],
    -- 785: kw['categories'] = self._getCategories(e)
    .assign (.item "kw" (.const (.str "categories"))) (.method (.var "self") "_getCategories" [(.var "e")] []),
    -- 786: kw['transparent'] = e.decoded('TRANSP', 'OPAQUE') == 'TRANSPARENT'
    .assign (.item "kw" (.const (.str "transparent"))) (.cmp .eq (.meth (.var "e") .decoded [(.const (.str "TRANSP")), (.const (.str "OPAQUE"))] []) (.const (.str "TRANSPARENT"))),
    -- 787: kw['access'] = e.decoded('CLASS', 'PUBLIC')
    .assign (.item "kw" (.const (.str "access"))) (.meth (.var "e") .decoded [(.const (.str "CLASS")), (.const (.str "PUBLIC"))] []),
    -- 788: kw['document'] = e.decoded('ATTACH', None)
    .assign (.item "kw" (.const (.str "document"))) (.meth (.var "e") .decoded [(.const (.str "ATTACH")), (.const .none)] []),
    -- 789: rrule = e.decoded('RRULE', None)
    .assign (.name "rrule") (.meth (.var "e") .decoded [(.const (.str "RRULE")), (.const .none)] []),
    -- 790: if rrule is not None:
    .ite (.cmp .isNot (.var "rrule") (.const .none)) [
      -- 791: kw['recurrence'] = self._getRecurrenceRule(rrule)
      .assign (.item "kw" (.const (.str "recurrence"))) (.method (.var "self") "_getRecurrenceRule" [(.var "rrule")] [])] [
      -- 793: kw['recurrence'] = None
      .assign (.item "kw" (.const (.str "recurrence"))) (.const .none)],
    -- 794: return EventSpecification(**kw)
    .ret (.newKw "EventSpecification" (.var "kw"))]

/-- `CalendarBase._getDefaultOrganizer`, cal.py lines 796-797 -/
def CalendarBase_getDefaultOrganizer : FunDef where
  kind := .fn
  params := [("self", none)]
  locals := []
  body := [
    -- 797: return self.getMainAttendee()
    .ret (.method (.var "self") "getMainAttendee" [] [])]

/-- `CalendarBase._getDtstartDuration`, cal.py lines 802-839 -/
def CalendarBase_getDtstartDuration : FunDef where
  kind := .fn
  params := [("self", none), ("component", none)]
  locals := ["dtstart", "dtend", "duration", "allday"]
  body := [
    -- 803: dtstart = component.decoded('DTSTART', None)
    .assign (.name "dtstart") (.meth (.var "component") .decoded [(.const (.str "DTSTART")), (.const .none)] []),
    -- 804: dtend = component.decoded('DTEND', None)
    .assign (.name "dtend") (.meth (.var "component") .decoded [(.const (.str "DTEND")), (.const .none)] []),
    -- 805: duration = component.decoded('DURATION', None)
    .assign (.name "duration") (.meth (.var "component") .decoded [(.const (.str "DURATION")), (.const .none)] []),
    -- 806: if duration is not None and dtend is not None:
    .ite (.and (.cmp .isNot (.var "duration") (.const .none)) (.cmp .isNot (.var "dtend") (.const .none))) [
      -- 809: self._logger.warning("Invalid iCalendar data: Event '%s' has both "
      .expr (.tuple [(.bin .mod (.const (.str "Invalid iCalendar data: Event '%s' has both dtend and duration. Ignoring the duration.")) (.meth (.var "component") .decoded [(.const (.str "UID"))] []))]),
      -- 812: duration = None
      .assign (.name "duration") (.const .none)] [],
    -- 813: assert dtstart is not None
    .assert (.cmp .isNot (.var "dtstart") (.const .none)),
    -- 814: assert ((dtend is None and duration is not None) or
    .assert (.or (.and (.cmp .is (.var "dtend") (.const .none)) (.cmp .isNot (.var "duration") (.const .none))) (.or (.and (.cmp .isNot (.var "dtend") (.const .none)) (.cmp .is (.var "duration") (.const .none))) (.and (.cmp .is (.var "dtend") (.const .none)) (.cmp .is (.var "duration") (.const .none))))),
    -- 817: allday = False
    .assign (.name "allday") (.const (.bool false)),
    -- 820: if type(dtstart) is date:
    .ite (.typeIs (.var "dtstart") (.date)) [
      -- 821: dtstart = combine(dtstart, time(0, 0))
      .assign (.name "dtstart") (.prim .combine [(.var "dtstart"), (.prim .time [(.const (.int 0)), (.const (.int 0))] [])] []),
      -- 822: allday = True
      .assign (.name "allday") (.const (.bool true))] [
      -- 824: dtstart = float_datetime(dtstart)
      .assign (.name "dtstart") (.call "float_datetime" [(.var "dtstart")] [])],
    -- 825: if dtend is not None:
    .ite (.cmp .isNot (.var "dtend") (.const .none)) [
      -- 826: if type(dtend) is date:
      .ite (.typeIs (.var "dtend") (.date)) [
        -- 827: dtend = combine(dtend, time(0, 0))
        .assign (.name "dtend") (.prim .combine [(.var "dtend"), (.prim .time [(.const (.int 0)), (.const (.int 0))] [])] [])] [
        -- 829: dtend = float_datetime(dtend)
        .assign (.name "dtend") (.call "float_datetime" [(.var "dtend")] [])],
      -- 830: duration = dtend - dtstart
      .assign (.name "duration") (.bin .sub (.var "dtend") (.var "dtstart"))] [
      -- 832: if duration is None:
      .ite (.cmp .is (.var "duration") (.const .none)) [
        -- 834: if type(dtstart) is date:
        .ite (.typeIs (.var "dtstart") (.date)) [
          -- 835: dtend = combine(dtend, time(0, 0) + timedelta(days=1))
          .assign (.name "dtend") (.prim .combine [(.var "dtend"), (.bin .add (.prim .time [(.const (.int 0)), (.const (.int 0))] []) (.prim .timedelta [] [("days", (.const (.int 1)))]))] [])] [
          -- 837: dtend = dtstart
          .assign (.name "dtend") (.var "dtstart")],
        -- 838: duration = dtend - dtstart
        .assign (.name "duration") (.bin .sub (.var "dtend") (.var "dtstart"))] []],
    -- 839: return dtstart, duration, allday
    .ret (.tuple [(.var "dtstart"), (.var "duration"), (.var "allday")])]

/-- The loop of `CalendarBase._getRecurrenceRule` at line 851. -/
def CalendarBase_getRecurrenceRule_loop1 : List Stmt := [
  -- 852: weekdays.append(ical_weekdays.index(day))
  .mutate none "weekdays" .append [(.meth (.glob "ical_weekdays") .index [(.var "day")] [])]]

/-- `CalendarBase._getRecurrenceRule`, cal.py lines 841-873 -/
def CalendarBase_getRecurrenceRule : FunDef where
  kind := .fn
  params := [("self", none), ("rrule", none)]
  locals := ["freq", "r", "byday", "weekdays", "day", "monthly", "interval", "count", "until"]
  body := [
    -- 842: freq = rrule['FREQ'][0]
    .assign (.name "freq") (.index (.index (.var "rrule") (.const (.str "FREQ"))) (.const (.int 0))),
    -- 843: if freq == 'DAILY':
    .ite (.cmp .eq (.var "freq") (.const (.str "DAILY"))) [
      -- 844: r = recurrent.DailyRecurrenceRule()
      .assign (.name "r") (.new "DailyRecurrenceRule" [] [])] [
      -- 845: elif freq == 'YEARLY':
      .ite (.cmp .eq (.var "freq") (.const (.str "YEARLY"))) [
        -- 846: r = recurrent.YearlyRecurrenceRule()
        .assign (.name "r") (.new "YearlyRecurrenceRule" [] [])] [
        -- 847: elif freq == 'WEEKLY':
        .ite (.cmp .eq (.var "freq") (.const (.str "WEEKLY"))) [
          -- 848: byday = rrule.get('BYDAY')
          .assign (.name "byday") (.meth (.var "rrule") .get [(.const (.str "BYDAY"))] []),
          -- 849: weekdays = []
          .assign (.name "weekdays") (.list []),
          -- 850: if byday is not None:
          .ite (.cmp .isNot (.var "byday") (.const .none)) [
            -- 851: for day in byday:
            .for (.name "day") (.var "byday") CalendarBase_getRecurrenceRule_loop1 []] [],
          -- 853: r = recurrent.WeeklyRecurrenceRule(weekdays=weekdays)
          .assign (.name "r") (.new "WeeklyRecurrenceRule" [] [("weekdays", (.var "weekdays"))])] [
          -- 854: elif freq == 'MONTHLY':
          .ite (.cmp .eq (.var "freq") (.const (.str "MONTHLY"))) [
            -- 855: byday = rrule.get('BYDAY')
            .assign (.name "byday") (.meth (.var "rrule") .get [(.const (.str "BYDAY"))] []),
            -- 856: if byday is not None:
            .ite (.cmp .isNot (.var "byday") (.const .none)) [
              -- 857: if byday[0][0] == '-':
              .ite (.cmp .eq (.index (.index (.var "byday") (.const (.int 0))) (.const (.int 0))) (.const (.str "-"))) [
                -- 858: monthly = 'lastweekday'
                .assign (.name "monthly") (.const (.str "lastweekday"))] [
                -- 860: monthly = 'weekday'
                .assign (.name "monthly") (.const (.str "weekday"))]] [
              -- 862: monthly = 'monthday'
              .assign (.name "monthly") (.const (.str "monthday"))],
            -- 863: r = recurrent.MonthlyRecurrenceRule(monthly=monthly)
            .assign (.name "r") (.new "MonthlyRecurrenceRule" [] [("monthly", (.var "monthly"))])] []]]],
    -- 864: interval = rrule.get('INTERVAL')
    .assign (.name "interval") (.meth (.var "rrule") .get [(.const (.str "INTERVAL"))] []),
    -- 865: if interval is not None:
    .ite (.cmp .isNot (.var "interval") (.const .none)) [
      -- 866: r.interval = interval[0]
      .assign (.attr "r" "interval") (.index (.var "interval") (.const (.int 0)))] [],
    -- 867: count = rrule.get('COUNT')
    .assign (.name "count") (.meth (.var "rrule") .get [(.const (.str "COUNT"))] []),
    -- 868: if count is not None:
    .ite (.cmp .isNot (.var "count") (.const .none)) [
      -- 869: r.count = count[0]
      .assign (.attr "r" "count") (.index (.var "count") (.const (.int 0)))] [],
    -- 870: until = rrule.get('UNTIL')
    .assign (.name "until") (.meth (.var "rrule") .get [(.const (.str "UNTIL"))] []),
    -- 871: if until is not None:
    .ite (.cmp .isNot (.var "until") (.const .none)) [
      -- 872: r.until = until[0]
      .assign (.attr "r" "until") (.index (.var "until") (.const (.int 0)))] [],
    -- 873: return r
    .ret (.var "r")]

/-- `CalendarBase._getCategories`, cal.py lines 875-890 -/
def CalendarBase_getCategories : FunDef where
  kind := .fn
  params := [("self", none), ("e", none)]
  locals := ["categories"]
  body := [
    -- 876: try:
    .tryExcept2 [
      -- 877: categories = Set(e.get_inline('CATEGORIES'))
      .assign (.name "categories") (.prim .set [(.meth (.var "e") .getInline [(.const (.str "CATEGORIES"))] [])] [])] [.KeyError] [
      -- 879: categories = Set()
      .assign (.name "categories") (.prim .set [] [])] [.AttributeError] [
      -- 885: categories = e.decoded('CATEGORIES', None)
      .assign (.name "categories") (.meth (.var "e") .decoded [(.const (.str "CATEGORIES")), (.const .none)] []),
      -- 886: if categories is None:
      .ite (.cmp .is (.var "categories") (.const .none)) [
        -- 887: categories = Set()
        .assign (.name "categories") (.prim .set [] [])] [
        -- 889: categories = Set(categories)
        .assign (.name "categories") (.prim .set [(.var "categories")] [])]],
    -- 890: return categories
    .ret (.var "categories")]

/-- `CalendarBase._repairText`, cal.py lines 892-899 -/
def CalendarBase_repairText : FunDef where
  kind := .fn
  params := [("self", none), ("text", none)]
  locals := ["i", "lines"]
  body := [
    -- 894: i = text.find('\n')
    .assign (.name "i") (.meth (.var "text") .find [(.const (.str "\n"))] []),
    -- 895: if i != -1 and i > 0:
    .ite (.and (.cmp .ne (.var "i") (.const (.int (-1)))) (.cmp .gt (.var "i") (.const (.int 0)))) [
      -- 896: if text[i - 1] != '\r':
      .ite (.cmp .ne (.index (.var "text") (.bin .sub (.var "i") (.const (.int 1)))) (.const (.str "\r"))) [
        -- 897: lines = text.split('\n')
        .assign (.name "lines") (.meth (.var "text") .split [(.const (.str "\n"))] []),
        -- 898: text = '\r\n'.join(lines)
        .assign (.name "text") (.meth (.const (.str "\r\n")) .join [(.var "lines")] [])] []] [],
    -- 899: return text
    .ret (.var "text")]

/-- The loop of `CalendarBase.import_` at line 733. -/
def CalendarBase_import__loop2 : List Stmt := [
  -- 734: self._deleteEvent(self.getEvent(uid))
  .proc none "self" none "_deleteEvent" [(.method (.var "self") "getEvent" [(.var "uid")] [])]]

/-- The loop of `CalendarBase.import_` at line 713. -/
def CalendarBase_import__loop1 : List Stmt := [
  -- 714: uid = e.decoded('UID')
  .assign (.name "uid") (.meth (.var "e") .decoded [(.const (.str "UID"))] []),
  -- 716: assert uid is not None
  .assert (.cmp .isNot (.var "uid") (.const .none)),
  -- 717: ical_uids.add(uid)
  .mutate none "ical_uids" .add [(.var "uid")],
  -- 719: if uid in known_uids:
  .ite (.cmp .isIn (.var "uid") (.var "known_uids")) [
    -- 720: self._importExistingEvent(uid, e)
    .proc none "self" none "_importExistingEvent" [(.var "uid"), (.var "e")]] [
    -- 722: if not self.hasEvent(uid):
    .ite (.not (.method (.var "self") "hasEvent" [(.var "uid")] [])) [
      -- 724: self._importNewEvent(uid, e)
      .proc none "self" none "_importNewEvent" [(.var "uid"), (.var "e")]] [
      -- 728: continue
      .continue]]]

/-- `CalendarBase.import_`, cal.py lines 690-734 -/
def CalendarBase_import_ : FunDef where
  kind := .proc
  params := [("self", none), ("text", none), ("period", some (.tuple [.none, .none])), ("search_criteria", some .none), ("synchronize", some (.int 0))]
  locals := ["events", "known_uids", "event", "ical", "ical_uids", "e", "uid", "removed_uids"]
  body := [
    -- 700: self._logger.log(5, 'import_ raw ical text: \n\n%s\n\n', text)
    .expr (.tuple [(.const (.int 5)), (.const (.str "import_ raw ical text: \n\n%s\n\n")), (.var "text")]),
    -- 702: text = self._repairText(text)
    .assign (.name "text") (.method (.var "self") "_repairText" [(.var "text")] []),
    -- 704: events = self.getEvents(period, search_criteria)
    .assign (.name "events") (.method (.var "self") "getEvents" [(.var "period"), (.var "search_criteria")] []),
    -- 706: known_uids = Set([event.unique_id for event in events])
    .assign (.name "known_uids") (.prim .set [(.comp (.attr (.var "event") "unique_id") "event" (.var "events") (.const (.bool true)))] []),
    -- 708: ical = icalendar.Calendar.from_string(text)
    .assign (.name "ical") (.prim .fromString [(.glob "parser"), (.var "text")] []),
    -- 709: if ical is None:
    .ite (.cmp .is (.var "ical") (.const .none)) [
      -- 710: return
      .ret (.const .none)] [],
    -- 711: ical_uids = Set()
    .assign (.name "ical_uids") (.prim .set [] []),
    -- 713: for e in ical.walk('VEVENT'):
    .for (.name "e") (.meth (.var "ical") .walk [(.const (.str "VEVENT"))] []) CalendarBase_import__loop1 [],
    -- 729: if synchronize:
    .ite (.var "synchronize") [
      -- 732: removed_uids = known_uids - ical_uids
      .assign (.name "removed_uids") (.bin .sub (.var "known_uids") (.var "ical_uids")),
      -- 733: for uid in removed_uids:
      .for (.name "uid") (.var "removed_uids") CalendarBase_import__loop2 []] []]

/-- `CalendarBase._importExistingEvent`, cal.py lines 736-741 -/
def CalendarBase_importExistingEvent : FunDef where
  kind := .proc
  params := [("self", none), ("uid", none), ("e", none)]
  locals := ["event", "spec"]
  body := [
    -- 737: event = self.getEvent(uid)
    .assign (.name "event") (.method (.var "self") "getEvent" [(.var "uid")] []),
    -- 738: spec = self._importEventSpecification(e)
    .assign (.name "spec") (.method (.var "self") "_importEventSpecification" [(.var "e")] []),
    -- 739: if spec.willModify(event):
    .ite (.method (.var "spec") "willModify" [(.var "event")] []) [
      -- 740: spec.setOnObject(event)
      .shared "event" (.proc none "spec" none "setOnObject" [(.var "event")]),
      -- 741: notify(EventModifiedEvent(event))
      .yield (.new "EventModifiedEvent" [(.var "event")] [])] []]

/-- `CalendarBase._importNewEvent`, cal.py lines 743-746 -/
def CalendarBase_importNewEvent : FunDef where
  kind := .proc
  params := [("self", none), ("uid", none), ("e", none)]
  locals := ["m", "spec"]
  body := [
    -- 744: m = self._getStorageManager()
    .assign (.name "m") (.method (.var "self") "_getStorageManager" [] []),
    -- 745: spec = self._importEventSpecification(e)
    .assign (.name "spec") (.method (.var "self") "_importEventSpecification" [(.var "e")] []),
    -- 746: m.createEventFromSpecification(uid, spec)
    .shared "m" (.proc none "m" none "createEventFromSpecification" [(.var "uid"), (.var "spec")])]

/-- `CalendarBase._deleteEvent`, cal.py lines 799-800 -/
def CalendarBase_deleteEvent : FunDef where
  kind := .proc
  params := [("self", none), ("event", none)]
  locals := ["_m"]
  body := [
    -- 800: self._getStorageManager().deleteEvent(event)
    .assign (.name "_m") (.method (.var "self") "_getStorageManager" [] []),
    -- 800: self._getStorageManager().deleteEvent(event)
    .shared "_m" (.proc none "_m" none "deleteEvent" [(.var "event")])]

/-- `CalendarBase.getEvent`, cal.py lines 903-907 -/
def CalendarBase_getEvent : FunDef where
  kind := .fn
  params := [("self", none), ("event_id", none)]
  locals := ["m"]
  body := [
    -- 906: m = self._getStorageManager()
    .assign (.name "m") (.method (.var "self") "_getStorageManager" [] []),
    -- 907: return m.getEvent(event_id)
    .ret (.method (.var "m") "getEvent" [(.var "event_id")] [])]

/-- `CalendarBase.hasEvent`, cal.py lines 909-910 -/
def CalendarBase_hasEvent : FunDef where
  kind := .fn
  params := [("self", none), ("event_id", none)]
  locals := []
  body := [
    -- 910: return self._getStorageManager().hasEvent(event_id)
    .ret (.method (.method (.var "self") "_getStorageManager" [] []) "hasEvent" [(.var "event_id")] [])]

/-- `CalendarBase.getEvents`, cal.py lines 912-919 -/
def CalendarBase_getEvents : FunDef where
  kind := .fn
  params := [("self", none), ("period", none), ("search_criteria", some .none)]
  locals := ["result"]
  body := [
    -- 913: result = {}
    .assign (.name "result") (.const (.dict [])),
    -- 914: if search_criteria is not None:
    .ite (.cmp .isNot (.var "search_criteria") (.const .none)) [
      -- 915: search_criteria = search_criteria.clone(
      .assign (.name "search_criteria") (.method (.var "search_criteria") "clone" [] [("attendees", (.method (.var "self") "getAttendees" [] []))])] [
      -- 918: search_criteria  = SearchCriteria(attendees=self.getAttendees())
      .assign (.name "search_criteria") (.new "SearchCriteria" [] [("attendees", (.method (.var "self") "getAttendees" [] []))])],
    -- 919: return self._getStorageManager().getEvents(period, search_criteria)
    .ret (.method (.method (.var "self") "_getStorageManager" [] []) "getEvents" [(.var "period"), (.var "search_criteria")] [])]

/-- `CalendarBase.getOccurrences`, cal.py lines 921-928 -/
def CalendarBase_getOccurrences : FunDef where
  kind := .fn
  params := [("self", none), ("period", none), ("search_criteria", some .none)]
  locals := ["result"]
  body := [
    -- 922: result = {}
    .assign (.name "result") (.const (.dict [])),
    -- 923: if search_criteria is not None:
    .ite (.cmp .isNot (.var "search_criteria") (.const .none)) [
      -- 924: search_criteria = search_criteria.clone(
      .assign (.name "search_criteria") (.method (.var "search_criteria") "clone" [] [("attendees", (.method (.var "self") "getAttendees" [] []))])] [
      -- 927: search_criteria  = SearchCriteria(attendees=self.getAttendees())
      .assign (.name "search_criteria") (.new "SearchCriteria" [] [("attendees", (.method (.var "self") "getAttendees" [] []))])],
    -- 928: return self._getStorageManager().getOccurrences(period, search_criteria)
    .ret (.method (.method (.var "self") "_getStorageManager" [] []) "getOccurrences" [(.var "period"), (.var "search_criteria")] [])]

/-- `CalendarBase.getOccurrencesSegmented`, cal.py lines 930-935 -/
def CalendarBase_getOccurrencesSegmented : FunDef where
  kind := .fn
  params := [("self", none), ("period", none), ("search_criteria", some .none)]
  locals := ["occurrences"]
  body := [
    -- 932: occurrences = self.getOccurrences(period, search_criteria)
    .assign (.name "occurrences") (.method (.var "self") "getOccurrences" [(.var "period"), (.var "search_criteria")] []),
    -- 935: return segmentOccurrences(period, occurrences)
    .ret (.call "segmentOccurrences" [(.var "period"), (.var "occurrences")] [])]

/-- `CalendarBase.getEventsInDay`, cal.py lines 937-941 -/
def CalendarBase_getEventsInDay : FunDef where
  kind := .fn
  params := [("self", none), ("date", none), ("search_criteria", some .none)]
  locals := ["start", "end", "period"]
  body := [
    -- 938: start = datetime(date.year, date.month, date.day)
    .assign (.name "start") (.prim .datetime [(.field (.var "date") .year), (.field (.var "date") .month), (.field (.var "date") .day)] []),
    -- 939: end = start + timedelta(1)
    .assign (.name "end") (.bin .add (.var "start") (.prim .timedelta [(.const (.int 1))] [])),
    -- 940: period = (start, end)
    .assign (.name "period") (.tuple [(.var "start"), (.var "end")]),
    -- 941: return self.getEvents(period, search_criteria)
    .ret (.method (.var "self") "getEvents" [(.var "period"), (.var "search_criteria")] [])]

/-- `CalendarBase.getOccurrencesInDay`, cal.py lines 943-954 -/
def CalendarBase_getOccurrencesInDay : FunDef where
  kind := .fn
  params := [("self", none), ("date", none), ("search_criteria", some .none)]
  locals := ["start", "end", "period"]
  body := [
    -- 951: start = datetime(date.year, date.month, date.day)
    .assign (.name "start") (.prim .datetime [(.field (.var "date") .year), (.field (.var "date") .month), (.field (.var "date") .day)] []),
    -- 952: end = start + timedelta(1)
    .assign (.name "end") (.bin .add (.var "start") (.prim .timedelta [(.const (.int 1))] [])),
    -- 953: period = (start, end)
    .assign (.name "period") (.tuple [(.var "start"), (.var "end")]),
    -- 954: return self.getOccurrencesSegmented(period, search_criteria)
    .ret (.method (.var "self") "getOccurrencesSegmented" [(.var "period"), (.var "search_criteria")] [])]

/-- The loop of `CalendarBase.getAttendees` at line 970. -/
def CalendarBase_getAttendees_loop1 : List Stmt := [
  -- 971: result.append(source.getAttendee(attendee_id))
  .mutate none "result" .append [(.method (.var "source") "getAttendee" [(.var "attendee_id")] [])]]

/-- `CalendarBase.getAttendees`, cal.py lines 967-972 -/
def CalendarBase_getAttendees : FunDef where
  kind := .fn
  params := [("self", none)]
  locals := ["source", "result", "attendee_id"]
  body := [
    -- 968: source = self._getAttendeeSource()
    .assign (.name "source") (.method (.var "self") "_getAttendeeSource" [] []),
    -- 969: result = []
    .assign (.name "result") (.list []),
    -- 970: for attendee_id in self._attendees.keys():
    .for (.name "attendee_id") (.meth (.attr (.var "self") "_attendees") .keys [] []) CalendarBase_getAttendees_loop1 [],
    -- 972: return result
    .ret (.var "result")]

/-- `CalendarBase._getStorageManager`, cal.py lines 988-989 -/
def CalendarBase_getStorageManager : FunDef where
  kind := .fn
  params := [("self", none)]
  locals := []
  body := [
    -- 989: raise NotImplementedError
    .abort]

/-- `CalendarBase._getAttendeeSource`, cal.py lines 991-992 -/
def CalendarBase_getAttendeeSource : FunDef where
  kind := .fn
  params := [("self", none)]
  locals := []
  body := [
    -- 992: raise NotImplementedError
    .abort]

/-- `Calendar.__init__`, cal.py lines 995-998 -/
def Calendar_init : FunDef where
  kind := .init
  params := [("self", none), ("storage_manager", none), ("attendee_source", none)]
  locals := []
  body := [
    -- 996: CalendarBase.__init__(self)
    .assign (.name "self") (.call "CalendarBase.__init__" [(.var "self")] []),
    -- 997: self._storage_manager = storage_manager
    .assign (.attr "self" "_storage_manager") (.var "storage_manager"),
    -- 998: self._attendee_source = attendee_source
    .assign (.attr "self" "_attendee_source") (.var "attendee_source")]

/-- `Calendar._getStorageManager`, cal.py lines 1000-1001 -/
def Calendar_getStorageManager : FunDef where
  kind := .fn
  params := [("self", none)]
  locals := []
  body := [
    -- 1001: return self._storage_manager
    .ret (.attr (.var "self") "_storage_manager")]

/-- `Calendar._getAttendeeSource`, cal.py lines 1003-1004 -/
def Calendar_getAttendeeSource : FunDef where
  kind := .fn
  params := [("self", none)]
  locals := []
  body := [
    -- 1004: return self._attendee_source
    .ret (.attr (.var "self") "_attendee_source")]

/-- `SimpleAttendeeSource.__init__`, cal.py lines 1013-1015 -/
def SimpleAttendeeSource_init : FunDef where
  kind := .init
  params := [("self", none), ("storage_manager", none)]
  locals := []
  body := [
    -- 1014: self._storage_manager = storage_manager
    .assign (.attr "self" "_storage_manager") (.var "storage_manager"),
    -- 1015: self._attendees = {}
    .assign (.attr "self" "_attendees") (.const (.dict []))]

/-- `SimpleAttendeeSource.createIndividual`, cal.py lines 1019-1024 -/
def SimpleAttendeeSource_createIndividual : FunDef where
  kind := .proc
  params := [("self", none), ("attendee_id", none), ("name", none)]
  locals := ["attendee"]
  body := [
    -- 1020: attendee = Attendee(
    .assign (.name "attendee") (.new "Attendee" [(.attr (.var "self") "_storage_manager"), (.var "attendee_id"), (.var "name"), (.const (.str "INDIVIDUAL"))] []),
    -- 1023: self._attendees[attendee_id] = attendee
    .assign (.attrItem "self" "_attendees" (.var "attendee_id")) (.var "attendee"),
    -- 1024: return attendee
    .ret (.var "attendee")]

/-- `SimpleAttendeeSource.createRoom`, cal.py lines 1026-1031 -/
def SimpleAttendeeSource_createRoom : FunDef where
  kind := .proc
  params := [("self", none), ("attendee_id", none), ("name", none)]
  locals := ["attendee"]
  body := [
    -- 1027: attendee = Attendee(
    .assign (.name "attendee") (.new "Attendee" [(.attr (.var "self") "_storage_manager"), (.var "attendee_id"), (.var "name"), (.const (.str "ROOM"))] []),
    -- 1030: self._attendees[attendee_id] = attendee
    .assign (.attrItem "self" "_attendees" (.var "attendee_id")) (.var "attendee"),
    -- 1031: return attendee
    .ret (.var "attendee")]

/-- `SimpleAttendeeSource.getAttendee`, cal.py lines 1035-1036 -/
def SimpleAttendeeSource_getAttendee : FunDef where
  kind := .fn
  params := [("self", none), ("attendee_id", none)]
  locals := []
  body := [
    -- 1036: return self._attendees[attendee_id]
    .ret (.index (.attr (.var "self") "_attendees") (.var "attendee_id"))]

/-- `SimpleAttendeeSource.getCurrentUserAttendeeId`, cal.py lines 1038-1040 -/
def SimpleAttendeeSource_getCurrentUserAttendeeId : FunDef where
  kind := .fn
  params := [("self", none)]
  locals := []
  body := [
    -- 1040: return None
    .ret (.const .none)]

/-- `SimpleAttendeeSource.getCurrentUserAttendee`, cal.py lines 1042-1044 -/
def SimpleAttendeeSource_getCurrentUserAttendee : FunDef where
  kind := .fn
  params := [("self", none)]
  locals := []
  body := [
    -- 1044: return None
    .ret (.const .none)]

/-- The loop of `SimpleAttendeeSource.findByName` at line 1048. -/
def SimpleAttendeeSource_findByName_loop1 : List Stmt := [
  -- 1049: if query_str not in attendee.getName():
  .ite (.cmp .notIn (.var "query_str") (.method (.var "attendee") "getName" [] [])) [
    -- 1050: continue
    .continue] [],
  -- 1051: if (attendee_type is not None and
  .ite (.and (.cmp .isNot (.var "attendee_type") (.const .none)) (.cmp .isNot (.method (.var "attendee") "getAttendeeType" [] []) (.var "attendee_type"))) [
    -- 1053: continue
    .continue] [],
  -- 1054: result.append(attendee)
  .mutate none "result" .append [(.var "attendee")]]

/-- `SimpleAttendeeSource.findByName`, cal.py lines 1046-1055 -/
def SimpleAttendeeSource_findByName : FunDef where
  kind := .fn
  params := [("self", none), ("query_str", none), ("attendee_type", some .none)]
  locals := ["result", "attendee"]
  body := [
    -- 1047: result = []
    .assign (.name "result") (.list []),
    -- 1048: for attendee in self._attendees.values():
    .for (.name "attendee") (.meth (.attr (.var "self") "_attendees") .values [] []) SimpleAttendeeSource_findByName_loop1 [],
    -- 1055: return result
    .ret (.var "result")]

/-- The loop of `SimpleAttendeeSource.getAttendeesOfType` at line 1059. -/
def SimpleAttendeeSource_getAttendeesOfType_loop1 : List Stmt := [
  -- 1060: if attendee_type is attendee.getAttendeeType():
  .ite (.cmp .is (.var "attendee_type") (.method (.var "attendee") "getAttendeeType" [] [])) [
    -- 1061: result.append(attendee)
    .mutate none "result" .append [(.var "attendee")]] []]

/-- `SimpleAttendeeSource.getAttendeesOfType`, cal.py lines 1057-1062 -/
def SimpleAttendeeSource_getAttendeesOfType : FunDef where
  kind := .fn
  params := [("self", none), ("attendee_type", none)]
  locals := ["result", "attendee"]
  body := [
    -- 1058: result = []
    .assign (.name "result") (.list []),
    -- 1059: for attendee in self.attendees.values():
    .for (.name "attendee") (.meth (.attr (.var "self") "attendees") .values [] []) SimpleAttendeeSource_getAttendeesOfType_loop1 [],
    -- 1062: return result
    .ret (.var "result")]

/-- The loop of `CalendarBase.export` at line 980. -/
def CalendarBase_export_loop1 : List Stmt := [
  -- 981: e = event.export()
  .assign (.name "e") (.method (.var "event") "export" [] []),
  -- 982: ical.add_component(e)
  .mutate none "ical" .addComponent [(.var "e")]]

/-- `CalendarBase.export`, cal.py lines 974-985 -/
def CalendarBase_export : FunDef where
  kind := .fn
  params := [("self", none), ("period", some (.tuple [.none, .none])), ("search_criteria", some .none)]
  locals := ["ical", "event", "e", "ical_text"]
  body := [
    -- 976: ical = icalendar.Calendar()
    .assign (.name "ical") (.prim .icalCalendar [] []),
    -- 977: ical.add('prodid', '-//CalCore //nuxeo.com//')
    .mutate none "ical" .add [(.const (.str "prodid")), (.const (.str "-//CalCore //nuxeo.com//"))],
    -- 978: ical.add('version', '2.0')
    .mutate none "ical" .add [(.const (.str "version")), (.const (.str "2.0"))],
    -- 980: for event in self.getEvents(period, search_criteria):
    .for (.name "event") (.method (.var "self") "getEvents" [(.var "period"), (.var "search_criteria")] []) CalendarBase_export_loop1 [],
    -- 983: ical_text = ical.as_string()
    .assign (.name "ical_text") (.meth (.var "ical") .asString [] []),
    -- 984: self._logger.log(5, 'export generated ical text: \n\n%s\n\n', ical_text)
    .expr (.tuple [(.const (.int 5)), (.const (.str "export generated ical text: \n\n%s\n\n")), (.var "ical_text")]),
    -- 985: return ical_text
    .ret (.var "ical_text")]

/-- `SimpleAttendeeSource.getAttendeeTypes`, cal.py lines 1064-1065 -/
def SimpleAttendeeSource_getAttendeeTypes : FunDef where
  kind := .fn
  params := []
  locals := []
  body := [
    -- 1065: return ['INDIVIDUAL', 'ROOM']
    .ret (.list [(.const (.str "INDIVIDUAL")), (.const (.str "ROOM"))])]

/-- `SimpleAttendeeSource.getAttendeeFromSpec`, cal.py lines 1067-1069 -/
def SimpleAttendeeSource_getAttendeeFromSpec : FunDef where
  kind := .fn
  params := [("self", none), ("vcaladdress", none)]
  locals := ["id"]
  body := [
    -- 1068: id = vcaladdress.decode()
    .assign (.name "id") (.meth (.var "vcaladdress") .decode [] []),
    -- 1069: return self._attendees.get(id, None)
    .ret (.meth (.attr (.var "self") "_attendees") .get [(.var "id"), (.const .none)] [])]

/-- `StorageManagerBase.createEvent`, cal.py lines 139-141 -/
def StorageManagerBase_createEvent : FunDef where
  kind := .proc
  params := [("self", none), ("unique_id", some .none), ("kw", some (.dict []))]
  locals := ["_r"]
  body := [
    -- 140: return self.createEventFromSpecification(unique_id,
    .proc (some (.name "_r")) "self" none "createEventFromSpecification" [(.var "unique_id"), (.newKw "EventSpecification" (.var "kw"))],
    -- 140: return self.createEventFromSpecification(unique_id,
    .ret (.var "_r")]

/-- `StorageBase.__init__`, cal.py lines 255-258 -/
def StorageBase_init : FunDef where
  kind := .init
  params := [("self", none), ("storage_id", none), ("hostname", some .none)]
  locals := []
  body := [
    -- 256: self._storage_id = storage_id
    .assign (.attr "self" "_storage_id") (.var "storage_id"),
    -- 257: self._events = self._initEvents()
    .assign (.attr "self" "_events") (.method (.var "self") "_initEvents" [] []),
    -- 258: self._hostname = hostname or socket.getfqdn()
    .assign (.attr "self" "_hostname") (.or (.var "hostname") (.glob "fqdn"))]

/-- `EventBase.__hash__`, cal.py lines 487-488 -/
def EventBase__hash_ : FunDef where
  kind := .fn
  params := [("self", none)]
  locals := []
  body := [
    -- 488: return hash(self.unique_id)
    .ret (.prim .hash [(.attr (.var "self") "unique_id")] [])]

/-- `EventBase.__cmp__`, cal.py lines 490-496 -/
def EventBase__cmp_ : FunDef where
  kind := .fn
  params := [("self", none), ("other", none)]
  locals := []
  body := [
    -- 492: if not isinstance(other, EventBase):
    .ite (.not (.isinst (.var "other") [.user "EventBase"])) [
      -- 493: return 1
      .ret (.const (.int 1))] [],
    -- 494: return cmp(
    .ret (.prim .cmp [(.tuple [(.attr (.var "self") "dtstart"), (.attr (.var "self") "unique_id")]), (.tuple [(.attr (.var "other") "dtstart"), (.attr (.var "self") "unique_id")])] [])]

/-- The loop of `CalendarVocabularyFactory` at line 1166. -/
def CalendarVocabularyFactory_loop1 : List Stmt := [
  -- 1167: terms.append(SimpleTerm(item, item, _(item)))
  .mutate none "terms" .append [(.prim .simpleTerm [(.var "item"), (.var "item"), (.var "item")] [])]]

/-- `CalendarVocabularyFactory`, cal.py lines 1164-1168 -/
def CalendarVocabularyFactory : FunDef where
  kind := .fn
  params := [("list", none)]
  locals := ["terms", "item"]
  body := [
    -- 1165: terms = []
    .assign (.name "terms") (.list []),
    -- 1166: for item in list:
    .for (.name "item") (.var "list") CalendarVocabularyFactory_loop1 [],
    -- 1168: return SimpleVocabulary(terms)
    .ret (.prim .simpleVocabulary [(.var "terms")] [])]

/-- `CalendarEventStatusVocabulary`, cal.py lines 1170-1171 -/
def CalendarEventStatusVocabulary : FunDef where
  kind := .fn
  params := [("context", none)]
  locals := []
  body := [
    -- 1171: return CalendarVocabularyFactory(['TENTATIVE', 'CONFIRMED', 'CANCELED'])
    .ret (.call "CalendarVocabularyFactory" [(.list [(.const (.str "TENTATIVE")), (.const (.str "CONFIRMED")), (.const (.str "CANCELED"))])] [])]

/-- `CalendarEventAccessVocabulary`, cal.py lines 1173-1174 -/
def CalendarEventAccessVocabulary : FunDef where
  kind := .fn
  params := [("context", none)]
  locals := []
  body := [
    -- 1174: return CalendarVocabularyFactory(['PUBLIC', 'PRIVATE', 'CONFIDENTIAL'])
    .ret (.call "CalendarVocabularyFactory" [(.list [(.const (.str "PUBLIC")), (.const (.str "PRIVATE")), (.const (.str "CONFIDENTIAL"))])] [])]

/-- `CalendarMontlyRecurrenceTypeVocabulary`, cal.py lines 1176-1177 -/
def CalendarMontlyRecurrenceTypeVocabulary : FunDef where
  kind := .fn
  params := [("context", none)]
  locals := []
  body := [
    -- 1177: return CalendarVocabularyFactory(['monthday', 'weekday', 'lastweekday'])
    .ret (.call "CalendarVocabularyFactory" [(.list [(.const (.str "monthday")), (.const (.str "weekday")), (.const (.str "lastweekday"))])] [])]

/-- The loop of `CalendarWeekdaysVocabulary` at line 1181. -/
def CalendarWeekdaysVocabulary_loop1 : List Stmt := [
  -- 1182: terms.append(SimpleTerm(day, day, _('weekday_%s' % str(day))))
  .mutate none "terms" .append [(.prim .simpleTerm [(.var "day"), (.var "day"), (.bin .mod (.const (.str "weekday_%s")) (.prim .str [(.var "day")] []))] [])]]

/-- `CalendarWeekdaysVocabulary`, cal.py lines 1179-1183 -/
def CalendarWeekdaysVocabulary : FunDef where
  kind := .fn
  params := [("context", none)]
  locals := ["terms", "day"]
  body := [
    -- 1180: terms = []
    .assign (.name "terms") (.list []),
    -- 1181: for day in range(0,7):
    .for (.name "day") (.prim .range [(.const (.int 0)), (.const (.int 7))] []) CalendarWeekdaysVocabulary_loop1 [],
    -- 1183: return SimpleVocabulary(terms)
    .ret (.prim .simpleVocabulary [(.var "terms")] [])]

/-- `addrspec_unique_id`, cal.py lines 1113-1117 -/
def addrspec_unique_id : FunDef where
  kind := .fn
  params := [("unique_maker", none), ("hostname", none)]
  locals := ["result"]
  body := [
    -- 1114: result = iso8601(datetime.now())
    .assign (.name "result") (.call "iso8601" [(.glob "clock")] []),
    -- 1115: result += '-%s' % unique_maker
    .assign (.name "result") (.bin .add (.var "result") (.bin .mod (.const (.str "-%s")) (.var "unique_maker"))),
    -- 1116: result += '@%s' % hostname
    .assign (.name "result") (.bin .add (.var "result") (.bin .mod (.const (.str "@%s")) (.var "hostname"))),
    -- 1117: return result
    .ret (.var "result")]

/-- `CalendarBase.getToday`, cal.py lines 964-965 -/
def CalendarBase_getToday : FunDef where
  kind := .fn
  params := [("self", none)]
  locals := []
  body := [
    -- 965: return datetime.today()
    .ret (.glob "clock")]

/-- `CalendarBase.getCurrentYear`, cal.py lines 961-962 -/
def CalendarBase_getCurrentYear : FunDef where
  kind := .fn
  params := [("self", none)]
  locals := []
  body := [
    -- 962: return self.getToday().year
    .ret (.field (.method (.var "self") "getToday" [] []) .year)]

/-- `CalendarBase.getRecentYears`, cal.py lines 956-959 -/
def CalendarBase_getRecentYears : FunDef where
  kind := .fn
  params := [("self", none)]
  locals := ["year"]
  body := [
    -- 957: year = self.getCurrentYear()
    .assign (.name "year") (.method (.var "self") "getCurrentYear" [] []),
    -- 959: return range(year - 1, year + 2)
    .ret (.prim .range [(.bin .sub (.var "year") (.const (.int 1))), (.bin .add (.var "year") (.const (.int 2)))] [])]

/-- `AttendeeBase.createEvent`, cal.py lines 607-609 -/
def AttendeeBase_createEvent : FunDef where
  kind := .proc
  params := [("self", none), ("kw", some (.dict []))]
  locals := ["_m", "_r"]
  body := [
    -- 608: kw['organizer'] = self
    .assign (.item "kw" (.const (.str "organizer"))) (.var "self"),
    -- 609: return self._getStorageManager().createEvent(unique_id=None, **kw)
    .assign (.name "_m") (.method (.var "self") "_getStorageManager" [] []),
    -- 609: return self._getStorageManager().createEvent(unique_id=None, **kw)
    .shared "_m" (.proc (some (.name "_r")) "_m" none "createEvent" [(.const .none), (.var "kw")]),
    -- 609: return self._getStorageManager().createEvent(unique_id=None, **kw)
    .ret (.var "_r")]

end CalCore.Lang.Source
