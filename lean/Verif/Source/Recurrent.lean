import Verif.Model.Lang
/- Syntax trees of functions of /repo/src/calcore/recurrent.py, written by tools/translate.py: do not edit. -/
namespace CalCore.Lang.Source

/-- `weekspan`, recurrent.py lines 427-435 -/
def weekspan : FunDef where
  kind := .fn
  params := [("first", none), ("second", none)]
  locals := ["firstmonday", "secondmonday"]
  body := [
    -- 433: firstmonday = first - datetime.timedelta(first.weekday())
    .assign (.name "firstmonday") (.bin .sub (.var "first") (.prim .timedelta [(.meth (.var "first") .weekday [] [])] [])),
    -- 434: secondmonday = second - datetime.timedelta(second.weekday())
    .assign (.name "secondmonday") (.bin .sub (.var "second") (.prim .timedelta [(.meth (.var "second") .weekday [] [])] [])),
    -- 435: return (secondmonday - firstmonday).days / 7
    .ret (.bin .div (.field (.bin .sub (.var "secondmonday") (.var "firstmonday")) .days) (.const (.int 7)))]

/-- The loop of `monthindex` at line 453. -/
def monthindex_loop1 : List Stmt := [
  -- 454: if datetime.date(year, month, day).weekday() == weekday:
  .ite (.cmp .eq (.meth (.prim .date [(.var "year"), (.var "month"), (.var "day")] []) .weekday [] []) (.var "weekday")) [
    -- 455: break
    .break] []]

/-- `monthindex`, recurrent.py lines 438-461 -/
def monthindex : FunDef where
  kind := .fn
  params := [("year", none), ("month", none), ("index", none), ("weekday", none)]
  locals := ["yeardelta", "day", "shift"]
  body := [
    -- 446: if index < 0:
    .ite (.cmp .lt (.var "index") (.const (.int 0))) [
      -- 447: yeardelta, month = divmod(month, 12)
      .assign (.names ["yeardelta", "month"]) (.prim .divmod [(.var "month"), (.const (.int 12))] []),
      -- 448: year += yeardelta
      .assign (.name "year") (.bin .add (.var "year") (.var "yeardelta")),
      -- 449: month += 1
      .assign (.name "month") (.bin .add (.var "month") (.const (.int 1))),
      -- 450: index += 1
      .assign (.name "index") (.bin .add (.var "index") (.const (.int 1)))] [],
    -- 453: for day in range(1, 8):
    .for (.name "day") (.prim .range [(.const (.int 1)), (.const (.int 8))] []) monthindex_loop1 [],
    -- 458: shift = (index - 1) * datetime.timedelta(7)
    .assign (.name "shift") (.bin .mul (.bin .sub (.var "index") (.const (.int 1))) (.prim .timedelta [(.const (.int 7))] [])),
    -- 461: return datetime.date(year, month, day) + shift
    .ret (.bin .add (.prim .date [(.var "year"), (.var "month"), (.var "day")] []) (.var "shift"))]

/-- `BasicRecurrenceRule.__init__`, recurrent.py lines 54-59 -/
def BasicRecurrenceRule_init : FunDef where
  kind := .init
  params := [("self", none), ("interval", some (.int 1)), ("count", some .none), ("until", some .none), ("exceptions", some (.tuple []))]
  locals := []
  body := [
    -- 55: self.interval = interval
    .assign (.attr "self" "interval") (.var "interval"),
    -- 56: self.count = count
    .assign (.attr "self" "count") (.var "count"),
    -- 57: self.until = until
    .assign (.attr "self" "until") (.var "until"),
    -- 58: self.exceptions = tuple(exceptions) # XXX I'd prefer a set.
    .assign (.attr "self" "exceptions") (.prim .tuple [(.var "exceptions")] []),
    -- 59: self._validate()
    .expr (.method (.var "self") "_validate" [] [])]

/-- The loop of `BasicRecurrenceRule._validate` at line 68. -/
def BasicRecurrenceRule_validate_loop1 : List Stmt := [
  -- 69: if not isinstance(ex, datetime.date):
  .ite (.not (.isinst (.var "ex") [.date])) [
    -- 70: raise ValueError("Exceptions must be a sequence of"
    .raise .ValueError] []]

/-- `BasicRecurrenceRule._validate`, recurrent.py lines 61-72 -/
def BasicRecurrenceRule_validate : FunDef where
  kind := .fn
  params := [("self", none)]
  locals := ["ex"]
  body := [
    -- 62: if self.count is not None and self.until is not None:
    .ite (.and (.cmp .isNot (.attr (.var "self") "count") (.const .none)) (.cmp .isNot (.attr (.var "self") "until") (.const .none))) [
      -- 63: raise ValueError("count and until cannot be both set (%s, %s)"
      .raise .ValueError] [],
    -- 65: if not self.interval >= 1:
    .ite (.not (.cmp .ge (.attr (.var "self") "interval") (.const (.int 1)))) [
      -- 66: raise ValueError("interval must be a positive integer (got %r)"
      .raise .ValueError] [],
    -- 68: for ex in self.exceptions:
    .for (.name "ex") (.attr (.var "self") "exceptions") BasicRecurrenceRule_validate_loop1 []]

/-- `BasicRecurrenceRule.replace`, recurrent.py lines 74-84 -/
def BasicRecurrenceRule_replace : FunDef where
  kind := .fn
  params := [("self", none), ("interval", some (.obj "Unchanged" [])), ("count", some (.obj "Unchanged" [])), ("until", some (.obj "Unchanged" [])), ("exceptions", some (.obj "Unchanged" []))]
  locals := []
  body := [
    -- 76: if interval is Unchanged:
    .ite (.cmp .is (.var "interval") (.const (.obj "Unchanged" []))) [
      -- 77: interval = self.interval
      .assign (.name "interval") (.attr (.var "self") "interval")] [],
    -- 78: if count is Unchanged:
    .ite (.cmp .is (.var "count") (.const (.obj "Unchanged" []))) [
      -- 79: count = self.count
      .assign (.name "count") (.attr (.var "self") "count")] [],
    -- 80: if until is Unchanged:
    .ite (.cmp .is (.var "until") (.const (.obj "Unchanged" []))) [
      -- 81: until = self.until
      .assign (.name "until") (.attr (.var "self") "until")] [],
    -- 82: if exceptions is Unchanged:
    .ite (.cmp .is (.var "exceptions") (.const (.obj "Unchanged" []))) [
      -- 83: exceptions = self.exceptions
      .assign (.name "exceptions") (.attr (.var "self") "exceptions")] [],
    -- 84: return self.__class__(interval, count, until, exceptions)
    .ret (.newLike (.var "self") [(.var "interval"), (.var "count"), (.var "until"), (.var "exceptions")] [])]

/-- The loop of `BasicRecurrenceRule.apply` at line 122. -/
def BasicRecurrenceRule_apply_loop1 : List Stmt := [
  -- 123: if ((enddate and cur > enddate) or
  .ite (.or (.and (.var "enddate") (.cmp .gt (.var "cur") (.var "enddate"))) (.or (.and (.cmp .isNot (.attr (.var "self") "count") (.const .none)) (.cmp .ge (.var "count") (.attr (.var "self") "count"))) (.and (.attr (.var "self") "until") (.cmp .gt (.var "cur") (.attr (.var "self") "until"))))) [
    -- 126: break
    .break] [],
  -- 127: if cur not in self.exceptions:
  .ite (.cmp .notIn (.var "cur") (.attr (.var "self") "exceptions")) [
    -- 128: yield cur
    .yield (.var "cur")] [],
  -- 129: count += 1
  .assign (.name "count") (.bin .add (.var "count") (.const (.int 1))),
  -- 130: cur = self._nextRecurrence(cur)
  .assign (.name "cur") (.method (.var "self") "_nextRecurrence" [(.var "cur")] [])]

/-- `BasicRecurrenceRule.apply`, recurrent.py lines 114-130 -/
def BasicRecurrenceRule_apply : FunDef where
  kind := .gen
  params := [("self", none), ("event", none), ("enddate", some .none)]
  locals := ["cur", "count"]
  body := [
    -- 116: if enddate:
    .ite (.var "enddate") [
      -- 117: assert isinstance(enddate, datetime.date), "enddate must be a date"
      .assert (.isinst (.var "enddate") [.date]),
      -- 118: assert not isinstance(enddate, datetime.datetime), \
      .assert (.not (.isinst (.var "enddate") [.datetime]))] [],
    -- 120: cur = event.dtstart.date()
    .assign (.name "cur") (.meth (.attr (.var "event") "dtstart") .date [] []),
    -- 121: count = 0
    .assign (.name "count") (.const (.int 0)),
    -- 122: while True:
    .while (.const (.bool true)) BasicRecurrenceRule_apply_loop1]

/-- `BasicRecurrenceRule._nextRecurrence`, recurrent.py lines 132-134 -/
def BasicRecurrenceRule_nextRecurrence : FunDef where
  kind := .fn
  params := [("self", none), ("date", none)]
  locals := []
  body := [
    -- 134: return date + self.interval * date.resolution
    .ret (.bin .add (.var "date") (.bin .mul (.attr (.var "self") "interval") (.field (.var "date") .resolution)))]

/-- `NoRecurrenceRule.apply`, recurrent.py lines 174-176 -/
def NoRecurrenceRule_apply : FunDef where
  kind := .gen
  params := [("self", none), ("event", none), ("enddate", some .none)]
  locals := []
  body := [
    -- 176: yield event.dtstart.date()
    .yield (.meth (.attr (.var "event") "dtstart") .date [] [])]

/-- `YearlyRecurrenceRule._nextRecurrence`, recurrent.py lines 194-197 -/
def YearlyRecurrenceRule_nextRecurrence : FunDef where
  kind := .fn
  params := [("self", none), ("date", none)]
  locals := ["nextyear"]
  body := [
    -- 196: nextyear = date.year + self.interval
    .assign (.name "nextyear") (.bin .add (.field (.var "date") .year) (.attr (.var "self") "interval")),
    -- 197: return date.replace(year=nextyear)
    .ret (.meth (.var "date") .replace [] [("year", (.var "nextyear"))])]

/-- `WeeklyRecurrenceRule.__init__`, recurrent.py lines 214-221 -/
def WeeklyRecurrenceRule_init : FunDef where
  kind := .init
  params := [("self", none), ("interval", some (.int 1)), ("count", some .none), ("until", some .none), ("exceptions", some (.tuple [])), ("weekdays", some (.tuple []))]
  locals := []
  body := [
    -- 216: self.interval = interval
    .assign (.attr "self" "interval") (.var "interval"),
    -- 217: self.count = count
    .assign (.attr "self" "count") (.var "count"),
    -- 218: self.until = until
    .assign (.attr "self" "until") (.var "until"),
    -- 219: self.exceptions = tuple(exceptions)
    .assign (.attr "self" "exceptions") (.prim .tuple [(.var "exceptions")] []),
    -- 220: self.weekdays = tuple(weekdays)
    .assign (.attr "self" "weekdays") (.prim .tuple [(.var "weekdays")] []),
    -- 221: self._validate()
    .expr (.method (.var "self") "_validate" [] [])]

/-- The loop of `WeeklyRecurrenceRule._validate` at line 230. -/
def WeeklyRecurrenceRule_validate_loop1 : List Stmt := [
  -- 231: if not isinstance(dow, int) or not 0 <= dow <= 6:
  .ite (.or (.not (.isinst (.var "dow") [.int])) (.not (.and (.cmp .le (.const (.int 0)) (.var "dow")) (.cmp .le (.var "dow") (.const (.int 6)))))) [
    -- 232: raise ValueError("Day of week must be an integer 0..6 (got %r)"
    .raise .ValueError] []]

/-- `WeeklyRecurrenceRule._validate`, recurrent.py lines 228-233 -/
def WeeklyRecurrenceRule_validate : FunDef where
  kind := .fn
  params := [("self", none)]
  locals := ["dow"]
  body := [
    -- 229: BasicRecurrenceRule._validate(self)
    .expr (.call "BasicRecurrenceRule._validate" [(.var "self")] []),
    -- 230: for dow in self.weekdays:
    .for (.name "dow") (.attr (.var "self") "weekdays") WeeklyRecurrenceRule_validate_loop1 []]

/-- `WeeklyRecurrenceRule.replace`, recurrent.py lines 235-247 -/
def WeeklyRecurrenceRule_replace : FunDef where
  kind := .fn
  params := [("self", none), ("interval", some (.obj "Unchanged" [])), ("count", some (.obj "Unchanged" [])), ("until", some (.obj "Unchanged" [])), ("exceptions", some (.obj "Unchanged" [])), ("weekdays", some (.obj "Unchanged" [])), ("monthly", some (.obj "Unchanged" []))]
  locals := []
  body := [
    -- 237: if interval is Unchanged:
    .ite (.cmp .is (.var "interval") (.const (.obj "Unchanged" []))) [
      -- 238: interval = self.interval
      .assign (.name "interval") (.attr (.var "self") "interval")] [],
    -- 239: if count is Unchanged:
    .ite (.cmp .is (.var "count") (.const (.obj "Unchanged" []))) [
      -- 240: count = self.count
      .assign (.name "count") (.attr (.var "self") "count")] [],
    -- 241: if until is Unchanged:
    .ite (.cmp .is (.var "until") (.const (.obj "Unchanged" []))) [
      -- 242: until = self.until
      .assign (.name "until") (.attr (.var "self") "until")] [],
    -- 243: if exceptions is Unchanged:
    .ite (.cmp .is (.var "exceptions") (.const (.obj "Unchanged" []))) [
      -- 244: exceptions = self.exceptions
      .assign (.name "exceptions") (.attr (.var "self") "exceptions")] [],
    -- 245: if weekdays is Unchanged:
    .ite (.cmp .is (.var "weekdays") (.const (.obj "Unchanged" []))) [
      -- 246: weekdays = self.weekdays
      .assign (.name "weekdays") (.attr (.var "self") "weekdays")] [],
    -- 247: return self.__class__(interval, count, until, exceptions, weekdays)
    .ret (.newLike (.var "self") [(.var "interval"), (.var "count"), (.var "until"), (.var "exceptions"), (.var "weekdays")] [])]

/-- The loop of `WeeklyRecurrenceRule.apply` at line 263. -/
def WeeklyRecurrenceRule_apply_loop1 : List Stmt := [
  -- 264: if ((enddate and cur > enddate) or
  .ite (.or (.and (.var "enddate") (.cmp .gt (.var "cur") (.var "enddate"))) (.or (.and (.cmp .isNot (.attr (.var "self") "count") (.const .none)) (.cmp .ge (.var "count") (.attr (.var "self") "count"))) (.and (.attr (.var "self") "until") (.cmp .gt (.var "cur") (.attr (.var "self") "until"))))) [
    -- 267: return
    .ret (.const .none)] [],
  -- 270: if (weekspan(start, cur) % self.interval == 0 and
  .ite (.and (.cmp .eq (.bin .mod (.call "weekspan" [(.var "start"), (.var "cur")] []) (.attr (.var "self") "interval")) (.const (.int 0))) (.cmp .isIn (.meth (.var "cur") .weekday [] []) (.var "weekdays"))) [
    -- 272: if cur not in self.exceptions:
    .ite (.cmp .notIn (.var "cur") (.attr (.var "self") "exceptions")) [
      -- 273: yield cur
      .yield (.var "cur")] [],
    -- 274: count += 1
    .assign (.name "count") (.bin .add (.var "count") (.const (.int 1)))] [],
  -- 275: cur = self._nextRecurrence(cur)
  .assign (.name "cur") (.method (.var "self") "_nextRecurrence" [(.var "cur")] [])]

/-- `WeeklyRecurrenceRule.apply`, recurrent.py lines 253-275 -/
def WeeklyRecurrenceRule_apply : FunDef where
  kind := .gen
  params := [("self", none), ("event", none), ("enddate", some .none)]
  locals := ["cur", "start", "count", "weekdays"]
  body := [
    -- 255: if enddate:
    .ite (.var "enddate") [
      -- 256: assert isinstance(enddate, datetime.date), "enddate must be a date"
      .assert (.isinst (.var "enddate") [.date]),
      -- 257: assert not isinstance(enddate, datetime.datetime), \
      .assert (.not (.isinst (.var "enddate") [.datetime]))] [],
    -- 259: cur = start = event.dtstart.date()
    .assign (.name "cur") (.meth (.attr (.var "event") "dtstart") .date [] []),
    -- 259: cur = start = event.dtstart.date()
    .assign (.name "start") (.var "cur"),
    -- 260: count = 0
    .assign (.name "count") (.const (.int 0)),
    -- 261: weekdays = Set(self.weekdays)
    .assign (.name "weekdays") (.prim .set [(.attr (.var "self") "weekdays")] []),
    -- 262: weekdays.add(event.dtstart.weekday())
    .mutate none "weekdays" .add [(.meth (.attr (.var "event") "dtstart") .weekday [] [])],
    -- 263: while True:
    .while (.const (.bool true)) WeeklyRecurrenceRule_apply_loop1]

/-- `WeeklyRecurrenceRule._nextRecurrence`, recurrent.py lines 277-279 -/
def WeeklyRecurrenceRule_nextRecurrence : FunDef where
  kind := .fn
  params := [("self", none), ("date", none)]
  locals := []
  body := [
    -- 279: return date + date.resolution
    .ret (.bin .add (.var "date") (.field (.var "date") .resolution))]

/-- `MonthlyRecurrenceRule.__init__`, recurrent.py lines 299-306 -/
def MonthlyRecurrenceRule_init : FunDef where
  kind := .init
  params := [("self", none), ("interval", some (.int 1)), ("count", some .none), ("until", some .none), ("exceptions", some (.tuple [])), ("monthly", some (.str "monthday"))]
  locals := []
  body := [
    -- 301: self.interval = interval
    .assign (.attr "self" "interval") (.var "interval"),
    -- 302: self.count = count
    .assign (.attr "self" "count") (.var "count"),
    -- 303: self.until = until
    .assign (.attr "self" "until") (.var "until"),
    -- 304: self.exceptions = tuple(exceptions)
    .assign (.attr "self" "exceptions") (.prim .tuple [(.var "exceptions")] []),
    -- 305: self.monthly = monthly
    .assign (.attr "self" "monthly") (.var "monthly"),
    -- 306: self._validate()
    .expr (.method (.var "self") "_validate" [] [])]

/-- `MonthlyRecurrenceRule._validate`, recurrent.py lines 313-317 -/
def MonthlyRecurrenceRule_validate : FunDef where
  kind := .fn
  params := [("self", none)]
  locals := []
  body := [
    -- 314: BasicRecurrenceRule._validate(self)
    .expr (.call "BasicRecurrenceRule._validate" [(.var "self")] []),
    -- 315: if self.monthly not in ("monthday", "weekday", "lastweekday"):
    .ite (.cmp .notIn (.attr (.var "self") "monthly") (.tuple [(.const (.str "monthday")), (.const (.str "weekday")), (.const (.str "lastweekday"))])) [
      -- 316: raise ValueError("monthly must be one of 'monthday', 'weekday',"
      .raise .ValueError] []]

/-- `MonthlyRecurrenceRule.replace`, recurrent.py lines 319-331 -/
def MonthlyRecurrenceRule_replace : FunDef where
  kind := .fn
  params := [("self", none), ("interval", some (.obj "Unchanged" [])), ("count", some (.obj "Unchanged" [])), ("until", some (.obj "Unchanged" [])), ("exceptions", some (.obj "Unchanged" [])), ("weekdays", some (.obj "Unchanged" [])), ("monthly", some (.obj "Unchanged" []))]
  locals := []
  body := [
    -- 321: if interval is Unchanged:
    .ite (.cmp .is (.var "interval") (.const (.obj "Unchanged" []))) [
      -- 322: interval = self.interval
      .assign (.name "interval") (.attr (.var "self") "interval")] [],
    -- 323: if count is Unchanged:
    .ite (.cmp .is (.var "count") (.const (.obj "Unchanged" []))) [
      -- 324: count = self.count
      .assign (.name "count") (.attr (.var "self") "count")] [],
    -- 325: if until is Unchanged:
    .ite (.cmp .is (.var "until") (.const (.obj "Unchanged" []))) [
      -- 326: until = self.until
      .assign (.name "until") (.attr (.var "self") "until")] [],
    -- 327: if exceptions is Unchanged:
    .ite (.cmp .is (.var "exceptions") (.const (.obj "Unchanged" []))) [
      -- 328: exceptions = tuple(self.exceptions)
      .assign (.name "exceptions") (.prim .tuple [(.attr (.var "self") "exceptions")] [])] [],
    -- 329: if monthly is Unchanged:
    .ite (.cmp .is (.var "monthly") (.const (.obj "Unchanged" []))) [
      -- 330: monthly = self.monthly
      .assign (.name "monthly") (.attr (.var "self") "monthly")] [],
    -- 331: return self.__class__(interval, count, until, exceptions, monthly)
    .ret (.newLike (.var "self") [(.var "interval"), (.var "count"), (.var "until"), (.var "exceptions"), (.var "monthly")] [])]

/-- The loop of `MonthlyRecurrenceRule._nextRecurrence` at line 341. -/
def MonthlyRecurrenceRule_nextRecurrence_loop1 : List Stmt := [
  -- 342: year, month = divmod(year * 12 + month - 1 + self.interval, 12)
  .assign (.names ["year", "month"]) (.prim .divmod [(.bin .add (.bin .sub (.bin .add (.bin .mul (.var "year") (.const (.int 12))) (.var "month")) (.const (.int 1))) (.attr (.var "self") "interval")), (.const (.int 12))] []),
  -- 343: month += 1 # convert 0..11 to 1..12
  .assign (.name "month") (.bin .add (.var "month") (.const (.int 1))),
  -- 344: try:
  .tryExcept [
    -- 345: return date.replace(year=year, month=month)
    .ret (.meth (.var "date") .replace [] [("year", (.var "year")), ("month", (.var "month"))])] [.ValueError] [
    -- 347: continue
    .continue]]

/-- `MonthlyRecurrenceRule._nextRecurrence`, recurrent.py lines 337-347 -/
def MonthlyRecurrenceRule_nextRecurrence : FunDef where
  kind := .fn
  params := [("self", none), ("date", none)]
  locals := ["year", "month"]
  body := [
    -- 339: year = date.year
    .assign (.name "year") (.field (.var "date") .year),
    -- 340: month = date.month
    .assign (.name "month") (.field (.var "date") .month),
    -- 341: while True:
    .while (.const (.bool true)) MonthlyRecurrenceRule_nextRecurrence_loop1]

/-- The loop of `MonthlyRecurrenceRule.apply` at line 361. -/
def MonthlyRecurrenceRule_apply_loop3 : List Stmt := [
  -- 362: yield date
  .yield (.var "date")]

/-- The loop of `MonthlyRecurrenceRule.apply` at line 358. -/
def MonthlyRecurrenceRule_apply_loop2 : List Stmt := [
  -- 359: yield date
  .yield (.var "date")]

/-- The loop of `MonthlyRecurrenceRule.apply` at line 355. -/
def MonthlyRecurrenceRule_apply_loop1 : List Stmt := [
  -- 356: yield date
  .yield (.var "date")]

/-- `MonthlyRecurrenceRule.apply`, recurrent.py lines 349-362 -/
def MonthlyRecurrenceRule_apply : FunDef where
  kind := .gen
  params := [("self", none), ("event", none), ("enddate", some .none)]
  locals := ["date"]
  body := [
    -- 350: if enddate:
    .ite (.var "enddate") [
      -- 351: assert isinstance(enddate, datetime.date), "enddate must be a date"
      .assert (.isinst (.var "enddate") [.date]),
      -- 352: assert not isinstance(enddate, datetime.datetime), \
      .assert (.not (.isinst (.var "enddate") [.datetime]))] [],
    -- 354: if self.monthly == 'monthday':
    .ite (.cmp .eq (.attr (.var "self") "monthly") (.const (.str "monthday"))) [
      -- 355: for date in BasicRecurrenceRule.apply(self, event, enddate):
      .for (.name "date") (.call "BasicRecurrenceRule.apply" [(.var "self"), (.var "event"), (.var "enddate")] []) MonthlyRecurrenceRule_apply_loop1 []] [
      -- 357: elif self.monthly == 'weekday':
      .ite (.cmp .eq (.attr (.var "self") "monthly") (.const (.str "weekday"))) [
        -- 358: for date in self._applyWeekday(event, enddate):
        .for (.name "date") (.method (.var "self") "_applyWeekday" [(.var "event"), (.var "enddate")] []) MonthlyRecurrenceRule_apply_loop2 []] [
        -- 360: elif self.monthly == 'lastweekday':
        .ite (.cmp .eq (.attr (.var "self") "monthly") (.const (.str "lastweekday"))) [
          -- 361: for date in self._applyLastWeekday(event, enddate):
          .for (.name "date") (.method (.var "self") "_applyLastWeekday" [(.var "event"), (.var "enddate")] []) MonthlyRecurrenceRule_apply_loop3 []] []]]]

/-- The loop of `MonthlyRecurrenceRule._applyWeekday` at line 373. -/
def MonthlyRecurrenceRule_applyWeekday_loop1 : List Stmt := [
  -- 374: cur = monthindex(year, month, index, weekday)
  .assign (.name "cur") (.call "monthindex" [(.var "year"), (.var "month"), (.var "index"), (.var "weekday")] []),
  -- 375: if ((enddate and cur > enddate) or
  .ite (.or (.and (.var "enddate") (.cmp .gt (.var "cur") (.var "enddate"))) (.or (.and (.cmp .isNot (.attr (.var "self") "count") (.const .none)) (.cmp .ge (.var "count") (.attr (.var "self") "count"))) (.and (.attr (.var "self") "until") (.cmp .gt (.var "cur") (.attr (.var "self") "until"))))) [
    -- 378: break
    .break] [],
  -- 379: if cur not in self.exceptions:
  .ite (.cmp .notIn (.var "cur") (.attr (.var "self") "exceptions")) [
    -- 380: yield cur
    .yield (.var "cur")] [],
  -- 381: count += 1
  .assign (.name "count") (.bin .add (.var "count") (.const (.int 1))),
  -- 383: year, month = divmod(year * 12 + month + self.interval - 1, 12)
  .assign (.names ["year", "month"]) (.prim .divmod [(.bin .sub (.bin .add (.bin .add (.bin .mul (.var "year") (.const (.int 12))) (.var "month")) (.attr (.var "self") "interval")) (.const (.int 1))), (.const (.int 12))] []),
  -- 384: month += 1
  .assign (.name "month") (.bin .add (.var "month") (.const (.int 1)))]

/-- `MonthlyRecurrenceRule._applyWeekday`, recurrent.py lines 364-384 -/
def MonthlyRecurrenceRule_applyWeekday : FunDef where
  kind := .gen
  params := [("self", none), ("event", none), ("enddate", some .none)]
  locals := ["cur", "start", "count", "year", "month", "weekday", "index"]
  body := [
    -- 366: cur = start = event.dtstart.date()
    .assign (.name "cur") (.meth (.attr (.var "event") "dtstart") .date [] []),
    -- 366: cur = start = event.dtstart.date()
    .assign (.name "start") (.var "cur"),
    -- 367: count = 0
    .assign (.name "count") (.const (.int 0)),
    -- 368: year = start.year
    .assign (.name "year") (.field (.var "start") .year),
    -- 369: month = start.month
    .assign (.name "month") (.field (.var "start") .month),
    -- 370: weekday = start.weekday()
    .assign (.name "weekday") (.meth (.var "start") .weekday [] []),
    -- 371: index = (start.day - 1) / 7 + 1
    .assign (.name "index") (.bin .add (.bin .div (.bin .sub (.field (.var "start") .day) (.const (.int 1))) (.const (.int 7))) (.const (.int 1))),
    -- 373: while True:
    .while (.const (.bool true)) MonthlyRecurrenceRule_applyWeekday_loop1]

/-- The loop of `MonthlyRecurrenceRule._applyLastWeekday` at line 396. -/
def MonthlyRecurrenceRule_applyLastWeekday_loop1 : List Stmt := [
  -- 397: cur = monthindex(year, month, index, weekday)
  .assign (.name "cur") (.call "monthindex" [(.var "year"), (.var "month"), (.var "index"), (.var "weekday")] []),
  -- 398: if ((enddate and cur > enddate) or
  .ite (.or (.and (.var "enddate") (.cmp .gt (.var "cur") (.var "enddate"))) (.or (.and (.cmp .isNot (.attr (.var "self") "count") (.const .none)) (.cmp .ge (.var "count") (.attr (.var "self") "count"))) (.and (.attr (.var "self") "until") (.cmp .gt (.var "cur") (.attr (.var "self") "until"))))) [
    -- 401: break
    .break] [],
  -- 402: if cur not in self.exceptions:
  .ite (.cmp .notIn (.var "cur") (.attr (.var "self") "exceptions")) [
    -- 403: yield cur
    .yield (.var "cur")] [],
  -- 404: count += 1
  .assign (.name "count") (.bin .add (.var "count") (.const (.int 1))),
  -- 406: year, month = divmod(year * 12 + month + self.interval - 1, 12)
  .assign (.names ["year", "month"]) (.prim .divmod [(.bin .sub (.bin .add (.bin .add (.bin .mul (.var "year") (.const (.int 12))) (.var "month")) (.attr (.var "self") "interval")) (.const (.int 1))), (.const (.int 12))] []),
  -- 407: month += 1
  .assign (.name "month") (.bin .add (.var "month") (.const (.int 1)))]

/-- `MonthlyRecurrenceRule._applyLastWeekday`, recurrent.py lines 386-407 -/
def MonthlyRecurrenceRule_applyLastWeekday : FunDef where
  kind := .gen
  params := [("self", none), ("event", none), ("enddate", some .none)]
  locals := ["cur", "start", "count", "year", "month", "weekday", "daysinmonth", "index"]
  body := [
    -- 388: cur = start = event.dtstart.date()
    .assign (.name "cur") (.meth (.attr (.var "event") "dtstart") .date [] []),
    -- 388: cur = start = event.dtstart.date()
    .assign (.name "start") (.var "cur"),
    -- 389: count = 0
    .assign (.name "count") (.const (.int 0)),
    -- 390: year = start.year
    .assign (.name "year") (.field (.var "start") .year),
    -- 391: month = start.month
    .assign (.name "month") (.field (.var "start") .month),
    -- 392: weekday = start.weekday()
    .assign (.name "weekday") (.meth (.var "start") .weekday [] []),
    -- 393: daysinmonth = calendar.monthrange(year, month)[1]
    .assign (.name "daysinmonth") (.index (.prim .monthrange [(.var "year"), (.var "month")] []) (.const (.int 1))),
    -- 394: index = (start.day - daysinmonth - 1) / 7
    .assign (.name "index") (.bin .div (.bin .sub (.bin .sub (.field (.var "start") .day) (.var "daysinmonth")) (.const (.int 1))) (.const (.int 7))),
    -- 396: while True:
    .while (.const (.bool true)) MonthlyRecurrenceRule_applyLastWeekday_loop1]

/-- `BasicRecurrenceRule._tupleForComparison`, recurrent.py lines 91-93 -/
def BasicRecurrenceRule_tupleForComparison : FunDef where
  kind := .fn
  params := [("self", none)]
  locals := []
  body := [
    -- 92: return (self.__class__.__name__, self.interval, self.count,
    .ret (.tuple [(.className (.var "self")), (.attr (.var "self") "interval"), (.attr (.var "self") "count"), (.attr (.var "self") "until"), (.prim .tuple [(.attr (.var "self") "exceptions")] [])])]

/-- `BasicRecurrenceRule.__eq__`, recurrent.py lines 95-100 -/
def BasicRecurrenceRule__eq_ : FunDef where
  kind := .fn
  params := [("self", none), ("other", none)]
  locals := []
  body := [
    -- 97: if isinstance(other, BasicRecurrenceRule):
    .ite (.isinst (.var "other") [.user "BasicRecurrenceRule"]) [
      -- 98: return self._tupleForComparison() == other._tupleForComparison()
      .ret (.cmp .eq (.method (.var "self") "_tupleForComparison" [] []) (.method (.var "other") "_tupleForComparison" [] []))] [
      -- 100: return False
      .ret (.const (.bool false))]]

/-- `BasicRecurrenceRule.__ne__`, recurrent.py lines 102-104 -/
def BasicRecurrenceRule__ne_ : FunDef where
  kind := .fn
  params := [("self", none), ("other", none)]
  locals := []
  body := [
    -- 104: return not self == other
    .ret (.not (.cmp .eq (.var "self") (.var "other")))]

/-- `WeeklyRecurrenceRule._tupleForComparison`, recurrent.py lines 249-251 -/
def WeeklyRecurrenceRule_tupleForComparison : FunDef where
  kind := .fn
  params := [("self", none)]
  locals := []
  body := [
    -- 250: return (self.__class__.__name__, self.interval, self.count,
    .ret (.tuple [(.className (.var "self")), (.attr (.var "self") "interval"), (.attr (.var "self") "count"), (.attr (.var "self") "until"), (.attr (.var "self") "exceptions"), (.attr (.var "self") "weekdays")])]

/-- `MonthlyRecurrenceRule._tupleForComparison`, recurrent.py lines 333-335 -/
def MonthlyRecurrenceRule_tupleForComparison : FunDef where
  kind := .fn
  params := [("self", none)]
  locals := []
  body := [
    -- 334: return (self.__class__.__name__, self.interval, self.count,
    .ret (.tuple [(.className (.var "self")), (.attr (.var "self") "interval"), (.attr (.var "self") "count"), (.attr (.var "self") "until"), (.attr (.var "self") "exceptions"), (.attr (.var "self") "monthly")])]

/-- `ical_date`, recurrent.py lines 467-473 -/
def ical_date : FunDef where
  kind := .fn
  params := [("value", none)]
  locals := []
  body := [
    -- 473: return value.strftime("%Y%m%d")
    .ret (.meth (.var "value") .strftime [(.const (.str "%Y%m%d"))] [])]

/-- `ical_datetime`, recurrent.py lines 475-482 -/
def ical_datetime : FunDef where
  kind := .fn
  params := [("value", none)]
  locals := []
  body := [
    -- 482: return value.strftime('%Y%m%dT%H%M%S')
    .ret (.meth (.var "value") .strftime [(.const (.str "%Y%m%dT%H%M%S"))] [])]

/-- `BasicRecurrenceRule.iCalRepresentation`, recurrent.py lines 136-159 -/
def BasicRecurrenceRule_iCalRepresentation : FunDef where
  kind := .fn
  params := [("self", none), ("dtstart", none)]
  locals := ["args", "extra_args", "result", "dates", "d"]
  body := [
    -- 138: assert self.ical_freq, 'RecurrenceRule.ical_freq must be overridden'
    .assert (.cattr (.var "self") "ical_freq"),
    -- 140: if self.count:
    .ite (.attr (.var "self") "count") [
      -- 141: args = 'COUNT=%d;' % self.count
      .assign (.name "args") (.bin .mod (.const (.str "COUNT=%d;")) (.attr (.var "self") "count"))] [
      -- 142: elif self.until:
      .ite (.attr (.var "self") "until") [
        -- 143: args = 'UNTIL=%s;' % ical_datetime(self.until)
        .assign (.name "args") (.bin .mod (.const (.str "UNTIL=%s;")) (.call "ical_datetime" [(.attr (.var "self") "until")] []))] [
        -- 145: args = ''
        .assign (.name "args") (.const (.str ""))]],
    -- 146: extra_args = self._iCalArgs(dtstart)
    .assign (.name "extra_args") (.method (.var "self") "_iCalArgs" [(.var "dtstart")] []),
    -- 147: if extra_args is not None:
    .ite (.cmp .isNot (.var "extra_args") (.const .none)) [
      -- 148: args += extra_args + ';'
      .assign (.name "args") (.bin .add (.var "args") (.bin .add (.var "extra_args") (.const (.str ";"))))] [],
    -- 150: result = ['RRULE:FREQ=%s;%sINTERVAL=%d'
    .assign (.name "result") (.list [(.bin .mod (.const (.str "RRULE:FREQ=%s;%sINTERVAL=%d")) (.tuple [(.cattr (.var "self") "ical_freq"), (.var "args"), (.attr (.var "self") "interval")]))]),
    -- 153: if self.exceptions:
    .ite (.attr (.var "self") "exceptions") [
      -- 157: dates = ','.join([ical_date(d) for d in self.exceptions])
      .assign (.name "dates") (.meth (.const (.str ",")) .join [(.comp (.call "ical_date" [(.var "d")] []) "d" (.attr (.var "self") "exceptions") (.const (.bool true)))] []),
      -- 158: result.append('EXDATE;VALUE=DATE:' + dates)
      .mutate none "result" .append [(.bin .add (.const (.str "EXDATE;VALUE=DATE:")) (.var "dates"))]] [],
    -- 159: return result
    .ret (.var "result")]

/-- `BasicRecurrenceRule._iCalArgs`, recurrent.py lines 161-168 -/
def BasicRecurrenceRule_iCalArgs : FunDef where
  kind := .fn
  params := [("self", none), ("dtstart", none)]
  locals := []
  body := [
    -- 168: pass
    .pass]

/-- `YearlyRecurrenceRule._iCalArgs`, recurrent.py lines 199-200 -/
def YearlyRecurrenceRule_iCalArgs : FunDef where
  kind := .fn
  params := [("self", none), ("dtstart", none)]
  locals := []
  body := [
]

/-- `WeeklyRecurrenceRule._iCalArgs`, recurrent.py lines 281-285 -/
def WeeklyRecurrenceRule_iCalArgs : FunDef where
  kind := .fn
  params := [("self", none), ("dtstart", none)]
  locals := ["weekday"]
  body := [
    -- 283: if self.weekdays:
    .ite (.attr (.var "self") "weekdays") [
      -- 284: return 'BYDAY=' + ','.join([ical_weekdays[weekday]
      .ret (.bin .add (.const (.str "BYDAY=")) (.meth (.const (.str ",")) .join [(.comp (.index (.glob "ical_weekdays") (.var "weekday")) "weekday" (.attr (.var "self") "weekdays") (.const (.bool true)))] []))] []]

/-- `MonthlyRecurrenceRule._iCalArgs`, recurrent.py lines 409-419 -/
def MonthlyRecurrenceRule_iCalArgs : FunDef where
  kind := .fn
  params := [("self", none), ("dtstart", none)]
  locals := ["week"]
  body := [
    -- 411: if self.monthly == 'monthday':
    .ite (.cmp .eq (.attr (.var "self") "monthly") (.const (.str "monthday"))) [
      -- 412: return 'BYMONTHDAY=%d' % dtstart.day
      .ret (.bin .mod (.const (.str "BYMONTHDAY=%d")) (.field (.var "dtstart") .day))] [
      -- 413: elif self.monthly == 'weekday':
      .ite (.cmp .eq (.attr (.var "self") "monthly") (.const (.str "weekday"))) [
        -- 414: week = (dtstart.day - 1) / 7 + 1
        .assign (.name "week") (.bin .add (.bin .div (.bin .sub (.field (.var "dtstart") .day) (.const (.int 1))) (.const (.int 7))) (.const (.int 1))),
        -- 415: return 'BYDAY=%d%s' % (week, ical_weekdays[dtstart.weekday()])
        .ret (.bin .mod (.const (.str "BYDAY=%d%s")) (.tuple [(.var "week"), (.index (.glob "ical_weekdays") (.meth (.var "dtstart") .weekday [] []))]))] [
        -- 416: elif self.monthly == 'lastweekday':
        .ite (.cmp .eq (.attr (.var "self") "monthly") (.const (.str "lastweekday"))) [
          -- 417: return 'BYDAY=-1%s' % ical_weekdays[dtstart.weekday()]
          .ret (.bin .mod (.const (.str "BYDAY=-1%s")) (.index (.glob "ical_weekdays") (.meth (.var "dtstart") .weekday [] [])))] [
          -- 419: raise NotImplementedError(self.monthly)
          .abort]]]]

/-- `BasicRecurrenceRule.__repr__`, recurrent.py lines 86-89 -/
def BasicRecurrenceRule__repr_ : FunDef where
  kind := .fn
  params := [("self", none)]
  locals := []
  body := [
    -- 87: return '%s(%r, %r, %r, %r)' % (self.__class__.__name__, self.interval,
    .ret (.bin .mod (.const (.str "%s(%r, %r, %r, %r)")) (.tuple [(.className (.var "self")), (.attr (.var "self") "interval"), (.attr (.var "self") "count"), (.attr (.var "self") "until"), (.attr (.var "self") "exceptions")]))]

/-- `WeeklyRecurrenceRule.__repr__`, recurrent.py lines 223-226 -/
def WeeklyRecurrenceRule__repr_ : FunDef where
  kind := .fn
  params := [("self", none)]
  locals := []
  body := [
    -- 224: return '%s(%r, %r, %r, %r, %r)' % (
    .ret (.bin .mod (.const (.str "%s(%r, %r, %r, %r, %r)")) (.tuple [(.className (.var "self")), (.attr (.var "self") "interval"), (.attr (.var "self") "count"), (.attr (.var "self") "until"), (.attr (.var "self") "exceptions"), (.attr (.var "self") "weekdays")]))]

/-- `MonthlyRecurrenceRule.__repr__`, recurrent.py lines 308-311 -/
def MonthlyRecurrenceRule__repr_ : FunDef where
  kind := .fn
  params := [("self", none)]
  locals := []
  body := [
    -- 309: return '%s(%r, %r, %r, %r, %r)' % (
    .ret (.bin .mod (.const (.str "%s(%r, %r, %r, %r, %r)")) (.tuple [(.className (.var "self")), (.attr (.var "self") "interval"), (.attr (.var "self") "count"), (.attr (.var "self") "until"), (.attr (.var "self") "exceptions"), (.attr (.var "self") "monthly")]))]

/-- `BasicRecurrenceRule.__hash__`, recurrent.py lines 106-112 -/
def BasicRecurrenceRule__hash_ : FunDef where
  kind := .fn
  params := [("self", none)]
  locals := []
  body := [
    -- 112: return hash(self._tupleForComparison())
    .ret (.prim .hash [(.method (.var "self") "_tupleForComparison" [] [])] [])]

end CalCore.Lang.Source
