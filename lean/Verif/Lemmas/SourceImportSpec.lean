import Verif.Lemmas.SourceImportText
import Verif.Lemmas.SourceCreate
/- Making a specification from parsed iCalendar data, as written. -/
namespace CalCore.Lang
open CalCore.Spec
set_option linter.unusedSectionVars false
variable [Source.Globals] [Weekdays]

/-! ### keyword arguments -/

/-- `o[k] = v` -/
def setIn (k v : Val) : Val → M Val
  | .dict l => do .ok (.dict (← setItem k v l))
  | _ => stuck

theorem assign_item (G : Ctx) (v : Val) (env : Env) (x : String) (key : Expr) :
    assign G v env (.item x key) = (do
      let k ← eval G env key
      let o ← setIn k v (← env.get x)
      .ok (env.set x o)) := by
  rw [assign]
  cases eval G env key with
  | error e => rfl
  | ok k =>
    simp only [M_bind_ok]
    cases env.get x with
    | error e => rfl
    | ok o =>
      cases o with
      | dict l =>
        simp only [M_bind_ok, setIn]
        cases setItem k v l <;> rfl
      | _ => rfl

theorem setIn_map (d : Dict String Val) (k : String) (v : Val) : setIn (.str k) v (ofMap d) = .ok (ofMap (Dict.set d k v)) := by
  unfold setIn ofMap
  simp only []
  rw [setItem_any (fun v => v) d k v]
  rfl

omit [Source.Globals] [Weekdays] in
theorem kwOf_map (d : Dict String Val) : kwOf (d.map (fun p => (.str p.1, p.2))) = .ok d := by
  induction d with
  | nil => rfl
  | cons p d ih =>
    rw [List.map_cons, kwOf, ih]
    rfl

theorem eval_newKw (G : Ctx) (env : Env) (cls x : String) (d : Dict String Val) (h : env.get x = .ok (ofMap d)) :
    eval G env (.newKw cls (.var x)) = G.new cls [] d := by
  have h' : eval G env (.var x) = .ok (ofMap d) := by rw [eval]; exact h
  rw [eval, h']
  simp only [M_bind_ok, ofMap]
  rw [kwOf_map]
  rfl

/-! ### components -/

theorem contains_map (d : Dict String Val) (k : String) :
    contains (.str k) ((d.map (fun p => (Val.str p.1, p.2))).map (·.1)) = .ok (Dict.get? d k).isSome := by
  induction d with
  | nil => rfl
  | cons p d ih =>
    obtain ⟨a, v⟩ := p
    simp only [List.map_cons, contains, Val.eq, M_bind_ok, Dict.get?_cons]
    by_cases h : a = k
    · simp [h]
    · rw [ih]
      simp [h]

theorem meth_hasKey (d : Dict String Val) (k : String) (hk : k.toUpper = k) :
    callMeth .hasKey (ofComponent d) [.str k] [] = .ok (.bool (Dict.get? d k).isSome) := by
  have := contains_map d k
  unfold ofComponent ofMap callMeth callLib
  simp only [hk, this]
  rfl

theorem index_component (d : Dict String Val) (k : String) (v : Val) (h : Dict.get? d k.toUpper = some v) :
    getIndex (ofComponent d) (.str k) = .ok v := by
  have h' : getIndex (ofComponent d) (.str k) = getIndex.lookup (d.map (fun p => (.str p.1, p.2))) (.str k.toUpper) := rfl
  rw [h', lookup_map, h]

theorem upper_organizer : "organizer".toUpper = "ORGANIZER" := by decide +kernel
theorem upper_organizer' : "ORGANIZER".toUpper = "ORGANIZER" := by decide +kernel
theorem upper_attendee : "ATTENDEE".toUpper = "ATTENDEE" := by decide +kernel
theorem upper_summary : "SUMMARY".toUpper = "SUMMARY" := by decide +kernel
theorem upper_description : "DESCRIPTION".toUpper = "DESCRIPTION" := by decide +kernel
theorem upper_location : "LOCATION".toUpper = "LOCATION" := by decide +kernel
theorem upper_status : "STATUS".toUpper = "STATUS" := by decide +kernel
theorem upper_transp : "TRANSP".toUpper = "TRANSP" := by decide +kernel
theorem upper_class : "CLASS".toUpper = "CLASS" := by decide +kernel
theorem upper_attach : "ATTACH".toUpper = "ATTACH" := by decide +kernel
theorem upper_rrule : "RRULE".toUpper = "RRULE" := by decide +kernel

theorem method_fromSpec :
    Source.prog.method 4 "SimpleAttendeeSource" "getAttendeeFromSpec" = some "SimpleAttendeeSource.getAttendeeFromSpec" := rfl
theorem method_cal_times : Source.prog.method 4 "Calendar" "_getDtstartDuration" = some "CalendarBase._getDtstartDuration" := rfl
theorem method_cal_default : Source.prog.method 4 "Calendar" "_getDefaultOrganizer" = some "CalendarBase._getDefaultOrganizer" := rfl
theorem method_cal_cats : Source.prog.method 4 "Calendar" "_getCategories" = some "CalendarBase._getCategories" := rfl
theorem method_cal_rule : Source.prog.method 4 "Calendar" "_getRecurrenceRule" = some "CalendarBase._getRecurrenceRule" := rfl
theorem method_cal_spec :
    Source.prog.method 4 "Calendar" "_importEventSpecification" = some "CalendarBase._importEventSpecification" := rfl
theorem method_cal_repair : Source.prog.method 4 "Calendar" "_repairText" = some "CalendarBase._repairText" := rfl
theorem method_spec_init : Source.prog.method 4 "EventSpecification" "__init__" = some "EventSpecification.__init__" := rfl

theorem default_prog (W n : Nat) (L : Listing) (s : Storage) (src : CalCore.Source) (c : Calendar) :
    Source.prog.call W (n + 3) "CalendarBase._getDefaultOrganizer" [ofCalendar L s src c] []
    = toM (ofOption (ofAttendee L)) (c.main src) := by
  have h := main_prog W n L s src c
  rw [call_eq (d := Source.CalendarBase_getDefaultOrganizer) rfl]
  generalize c.main src = r at h ⊢
  cases r with
  | ok a =>
    rw [toM_ok] at h ⊢
    lang [Source.CalendarBase_getDefaultOrganizer, ↓eval_method, on_calendar, callClass_some method_cal_main, h]
  | error e =>
    rw [toM_error] at h ⊢
    lang [Source.CalendarBase_getDefaultOrganizer, ↓eval_method, on_calendar, callClass_some method_cal_main, h]

/-! ### the statements -/

/-- The environment of `_importEventSpecification`. -/
def impEnv (S E A k o l t p a s r u x y z : Option Val) : Env :=
  [("self", S), ("e", E), ("asrc", A), ("kw", k), ("organizer", o), ("attendees", l), ("attendee_list", t), ("attendee_spec", p),
    ("attendee", a), ("status", s), ("role", r), ("rrule", u), ("_t0", x), ("_t1", y), ("_t2", z)]

/-- The times and the texts. -/
def timeStmts : List Stmt := [
  .assign (.name "asrc") (.method (.var "self") "_getAttendeeSource" [] []),
  .assign (.name "kw") (.const (.dict [])),
  .assign (.names ["_t0", "_t1", "_t2"]) (.method (.var "self") "_getDtstartDuration" [(.var "e")] []),
  .assign (.item "kw" (.const (.str "dtstart"))) (.var "_t0"),
  .assign (.item "kw" (.const (.str "duration"))) (.var "_t1"),
  .assign (.item "kw" (.const (.str "allday"))) (.var "_t2"),
  .assign (.item "kw" (.const (.str "title"))) (.meth (.var "e") .decoded [(.const (.str "SUMMARY")), (.const (.str ""))] []),
  .assign (.item "kw" (.const (.str "description"))) (.meth (.var "e") .decoded [(.const (.str "DESCRIPTION")), (.const (.str ""))] []),
  .assign (.item "kw" (.const (.str "location"))) (.meth (.var "e") .decoded [(.const (.str "LOCATION")), (.const (.str ""))] []),
  .assign (.item "kw" (.const (.str "status"))) (.meth (.var "e") .decoded [(.const (.str "STATUS")), (.const (.str "TENTATIVE"))] [])]

/-- The organizer. -/
def organizerStmts : List Stmt := [
  .ite (.meth (.var "e") .hasKey [(.const (.str "ORGANIZER"))] []) [
    .assign (.name "organizer") (.method (.var "asrc") "getAttendeeFromSpec" [(.index (.var "e") (.const (.str "organizer")))] [])] [
    .assign (.name "organizer") (.const .none)],
  .ite (.cmp .is (.var "organizer") (.const .none)) [
    .assign (.name "organizer") (.method (.var "self") "_getDefaultOrganizer" [] [])] [],
  .assign (.item "kw" (.const (.str "organizer"))) (.var "organizer")]

/-- The attendees. -/
def attendeeStmt : Stmt :=
  .ite (.meth (.var "e") .hasKey [(.const (.str "ATTENDEE"))] []) [
    .assign (.name "attendees") (.list []),
    .assign (.name "attendee_list") (.index (.var "e") (.const (.str "ATTENDEE"))),
    .ite (.not (.isinst (.var "attendee_list") [.list])) [
      .assign (.name "attendee_list") (.list [(.var "attendee_list")])] [],
    .for (.name "attendee_spec") (.var "attendee_list") Source.CalendarBase_importEventSpecification_loop1 [],
    .assign (.item "kw" (.const (.str "attendees"))) (.var "attendees")] []

/-- The categories and what follows them. -/
def otherStmts : List Stmt := [
  .assign (.item "kw" (.const (.str "categories"))) (.method (.var "self") "_getCategories" [(.var "e")] []),
  .assign (.item "kw" (.const (.str "transparent"))) (.cmp .eq (.meth (.var "e") .decoded [(.const (.str "TRANSP")), (.const (.str "OPAQUE"))] []) (.const (.str "TRANSPARENT"))),
  .assign (.item "kw" (.const (.str "access"))) (.meth (.var "e") .decoded [(.const (.str "CLASS")), (.const (.str "PUBLIC"))] []),
  .assign (.item "kw" (.const (.str "document"))) (.meth (.var "e") .decoded [(.const (.str "ATTACH")), (.const .none)] [])]

/-- The rule. -/
def ruleStmts : List Stmt := [
  .assign (.name "rrule") (.meth (.var "e") .decoded [(.const (.str "RRULE")), (.const .none)] []),
  .ite (.cmp .isNot (.var "rrule") (.const .none)) [
    .assign (.item "kw" (.const (.str "recurrence"))) (.method (.var "self") "_getRecurrenceRule" [(.var "rrule")] [])] [
    .assign (.item "kw" (.const (.str "recurrence"))) (.const .none)]]

theorem importSpec_eq : Source.CalendarBase_importEventSpecification = {
    kind := .fn
    params := [("self", none), ("e", none)]
    locals := ["asrc", "kw", "organizer", "attendees", "attendee_list", "attendee_spec", "attendee", "status", "role", "rrule", "_t0", "_t1", "_t2"]
    body := timeStmts ++ (organizerStmts ++ (attendeeStmt :: (otherStmts ++ (ruleStmts ++ [.ret (.newKw "EventSpecification" (.var "kw"))]))))} := rfl

theorem ofMap_nil : Val.dict [] = ofMap [] := rfl

/-- What is known after the times and texts. -/
def kwTimes (v : VEvent) (p : DateTime × TimeDelta × Bool) : Dict String Val :=
  [("dtstart", .datetime p.1), ("duration", .delta p.2.1), ("allday", .bool p.2.2), ("title", .str (v.summary.getD "")),
    ("description", .str (v.description.getD "")), ("location", .str (v.location.getD "")), ("status", .str (v.status.getD "TENTATIVE"))]

theorem getD_str (o : Option String) (x : String) : (o.map Val.str).getD (.str x) = .str (o.getD x) := by cases o <;> rfl

theorem time_stmts (W n : Nat) (L : Listing) (s : Storage) (src : CalCore.Source) (c : Calendar) (tz : LocalTz) (v : VEvent)
    (d : Dict String Val) (hp : Parsed tz v d) (hu : v.uid ≠ none ∨ v.dtend = none ∨ v.duration = none) :
    ∃ k x y z, execs (Source.prog.ctx W (n + 4)) W timeStmts
      ⟨impEnv (some (ofCalendar L s src c)) (some (ofComponent d)) none none none none none none none none none none none none none, []⟩
    = match getDtstartDuration tz v with
      | .ok p => (⟨impEnv (some (ofCalendar L s src c)) (some (ofComponent d)) (some (ofSource L s src)) (some (ofMap (kwTimes v p)))
          none none none none none none none none x y z, []⟩, .next)
      | .error e => (⟨impEnv (some (ofCalendar L s src c)) (some (ofComponent d)) (some (ofSource L s src)) k
          none none none none none none none none x y z, []⟩, .stop (ofFault e)) := by
  have h1 := cal_source_prog W (n + 3) L s src c
  have h2 := getDtstartDuration_prog W (n + 2) tz v d hp hu (ofCalendar L s src c)
  have a1 := meth_decoded d "SUMMARY" (.str "") upper_summary
  have a2 := meth_decoded d "DESCRIPTION" (.str "") upper_description
  have a3 := meth_decoded d "LOCATION" (.str "") upper_location
  have a4 := meth_decoded d "STATUS" (.str "TENTATIVE") upper_status
  rw [hp.summary, getD_str] at a1
  rw [hp.description, getD_str] at a2
  rw [hp.location, getD_str] at a3
  rw [hp.status, getD_str] at a4
  generalize getDtstartDuration tz v = r at h2 ⊢
  cases r with
  | error e =>
    rw [toM_error] at h2
    refine ⟨some (.dict []), none, none, none, ?_⟩
    lang [timeStmts, impEnv, ↓eval_method, on_calendar, callClass_some method_cal_source, callClass_some method_cal_times, h1, h2]
  | ok p =>
    rw [toM_ok] at h2
    refine ⟨none, some (.datetime p.1), some (.delta p.2.1), some (.bool p.2.2), ?_⟩
    lang [timeStmts, impEnv, ↓eval_method, on_calendar, callClass_some method_cal_source, callClass_some method_cal_times, h1, h2,
      ofTimes, ofMap_nil, ↓assign_item, setIn_map, a1, a2, a3, a4]
    rfl

end CalCore.Lang
