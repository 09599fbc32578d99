import Verif.Lemmas.SourceFuel
/- The queries of attendees, calendars and attendee sources, as written. -/
namespace CalCore.Lang
open CalCore.Spec
set_option linter.unusedSectionVars false
variable [Source.Globals]

/-- A function that ends by returning what a call gives. -/
theorem result_tail (ps : List (String × Option Val)) (ls : List String) (b : List Stmt) (s : State) (r : M Val)
    (k : State → State × Ctl) : FunDef.result ⟨.fn, ps, ls, b⟩ (andThen (withVal s r (fun v => (s, .ret v))) k) = r := by
  cases r <;> rfl

/-! ### objects that are kept as they are -/

/-- Call a method of an object. -/
def callMethod (G : Ctx) (o : Val) (m : String) (args : M (List Val)) (kw : M (List (String × Val))) : M Val :=
  match o with
  | .obj cls attrs => do
    let xs ← args
    let ks ← kw
    match G.method cls m with
    | some f => G.call f (.obj cls attrs :: xs) ks
    | none => err .AttributeError
  | .none => err .AttributeError
  | _ => stuck

theorem eval_method (G : Ctx) (env : Env) (e : Expr) (m : String) (args : List Expr) (kw : List (String × Expr)) :
    eval G env (.method e m args kw) = (do callMethod G (← eval G env e) m (evals G env args) (evalKw G env kw)) := by
  rw [eval]
  rfl

/-- An attribute of an object. -/
def attrVal (name : String) : Val → M Val
  | .obj _ attrs => getAttr name attrs
  | .none => err .AttributeError
  | _ => stuck

theorem eval_attr (G : Ctx) (env : Env) (e : Expr) (name : String) :
    eval G env (.attr e name) = (do attrVal name (← eval G env e)) := by
  rw [eval]
  rfl

/-- A method of a class of the program. -/
def callClass (W n : Nat) (cls : String) (o : Val) (m : String) (args : M (List Val)) (kw : M (List (String × Val))) : M Val := do
  let xs ← args
  let ks ← kw
  match Source.prog.method 4 cls m with
  | some f => Source.prog.call W n f (o :: xs) ks
  | none => err .AttributeError

theorem callClass_some {W n : Nat} {cls m f : String} (h : Source.prog.method 4 cls m = some f) (o : Val) (xs : List Val)
    (ks : List (String × Val)) : callClass W n cls o m (.ok xs) (.ok ks) = Source.prog.call W n f (o :: xs) ks := by
  unfold callClass
  simp only [M_bind_ok, h]

theorem callClass_none {W n : Nat} {cls m : String} (h : Source.prog.method 4 cls m = none) (o : Val) (xs : List Val)
    (ks : List (String × Val)) : callClass W n cls o m (.ok xs) (.ok ks) = .error (.py .AttributeError) := by
  unfold callClass
  simp only [M_bind_ok, h, err]

theorem callClass_kw {W n : Nat} {cls m : String} (o : Val) (xs : List Val) (e : Stop) :
    callClass W n cls o m (.ok xs) (.error e) = .error e := rfl
theorem callClass_args {W n : Nat} {cls m : String} (o : Val) (ks : M (List (String × Val))) (e : Stop) :
    callClass W n cls o m (.error e) ks = .error e := rfl

theorem on_obj (W n : Nat) (cls : String) (attrs : List (String × Val)) (m : String) (xs : M (List Val))
    (ks : M (List (String × Val))) :
    callMethod (Source.prog.ctx W n) (.obj cls attrs) m xs ks = callClass W n cls (.obj cls attrs) m xs ks := by
  unfold callMethod callClass
  simp only [ctx_method, ctx_call]

theorem on_event (W n : Nat) (L : Listing) (e : Event) (m : String) (xs : M (List Val)) (ks : M (List (String × Val))) :
    callMethod (Source.prog.ctx W n) (ofEvent L e) m xs ks = callClass W n "Event" (ofEvent L e) m xs ks := by
  rw [ofEvent]
  exact on_obj ..
theorem on_criteria (W n : Nat) (L : Listing) (c : Criteria) (m : String) (xs : M (List Val)) (ks : M (List (String × Val))) :
    callMethod (Source.prog.ctx W n) (ofCriteria L c) m xs ks = callClass W n "SearchCriteria" (ofCriteria L c) m xs ks := by
  rw [ofCriteria]
  exact on_obj ..
theorem on_attendee (W n : Nat) (L : Listing) (a : AttId) (m : String) (xs : M (List Val)) (ks : M (List (String × Val))) :
    callMethod (Source.prog.ctx W n) (ofAttendee L a) m xs ks = callClass W n "Attendee" (ofAttendee L a) m xs ks := by
  rw [ofAttendee]
  exact on_obj ..
theorem on_storage (W n : Nat) (L : Listing) (s : Storage) (m : String) (xs : M (List Val)) (ks : M (List (String × Val))) :
    callMethod (Source.prog.ctx W n) (ofStorage L s) m xs ks = callClass W n "MemoryStorage" (ofStorage L s) m xs ks := by
  rw [ofStorage]
  exact on_obj ..
theorem on_manager (W n : Nat) (L : Listing) (s : Storage) (m : String) (xs : M (List Val)) (ks : M (List (String × Val))) :
    callMethod (Source.prog.ctx W n) (ofManager L s) m xs ks = callClass W n "StorageManager" (ofManager L s) m xs ks := by
  rw [ofManager]
  exact on_obj ..
theorem on_source (W n : Nat) (L : Listing) (s : Storage) (src : CalCore.Source) (m : String) (xs : M (List Val))
    (ks : M (List (String × Val))) :
    callMethod (Source.prog.ctx W n) (ofSource L s src) m xs ks = callClass W n "SimpleAttendeeSource" (ofSource L s src) m xs ks := by
  rw [ofSource]
  exact on_obj ..
theorem on_calendar (W n : Nat) (L : Listing) (s : Storage) (src : CalCore.Source) (c : Calendar) (m : String) (xs : M (List Val))
    (ks : M (List (String × Val))) :
    callMethod (Source.prog.ctx W n) (ofCalendar L s src c) m xs ks = callClass W n "Calendar" (ofCalendar L s src c) m xs ks := by
  rw [ofCalendar]
  exact on_obj ..

/-! ### criteria -/

/-- `x or y` -/
def orVal (x y : Val) : Val := if x.truthy = true then x else y

/-- `x or y`, when `y` may raise. -/
def orElse (x : Val) (r : M Val) : M Val := if x.truthy = true then .ok x else r

theorem eval_or (G : Ctx) (env : Env) (a b : Expr) :
    eval G env (.or a b) = (do orElse (← eval G env a) (eval G env b)) := by
  rw [eval]
  rfl

theorem orElse_ok (x y : Val) : orElse x (.ok y) = .ok (orVal x y) := by
  unfold orElse orVal
  split <;> rfl

theorem or_list {α : Type} (f : List α → Val) (hf : ∀ l, (f l).truthy = !l.isEmpty) (a b : Option (List α)) :
    orVal (ofOption f a) (ofOption f b) = ofOption f (orList a b) := by
  unfold orVal
  cases a with
  | none => rfl
  | some l =>
    rw [ofOption_some, hf]
    cases l <;> rfl

theorem or_str (a b : Option String) : orVal (ofOption .str a) (ofOption .str b) = ofOption .str (orStr a b) := by
  unfold orVal
  cases a with
  | none => rfl
  | some l =>
    rw [ofOption_some, truthy_str]
    unfold orStr
    by_cases h : l = "" <;> simp [h, ofOption]

theorem or_obj (L : Listing) (a b : Option AttId) :
    orVal (ofOption (ofAttendee L) a) (ofOption (ofAttendee L) b) = ofOption (ofAttendee L) (a.or b) := by
  cases a <;> rfl

theorem truthy_atts (L : Listing) (l : List AttId) : Val.truthy (.list (l.map (ofAttendee L))) = !l.isEmpty := by
  cases l <;> rfl

theorem truthy_strs (l : List String) : Val.truthy (.list (l.map .str)) = !l.isEmpty := by
  cases l <;> rfl

theorem criteria_init_ok (W n : Nat) (L : Listing) (atts : Option (List AttId)) (s r c o : Val) :
    Source.prog.call W (n + 1) "SearchCriteria.__init__"
      [.obj "SearchCriteria" [], ofOption (fun l => .list (l.map (ofAttendee L))) atts, s, r, c, o] []
    = .ok (.obj "SearchCriteria" [("attendees", ofOption (fun l => .list (l.map (ofAttendee L))) atts),
        ("participation_status", s), ("participation_role", r), ("categories", c), ("organizer", o)]) := by
  cases atts with
  | none => exact criteria_new_none W n _ s r c o
  | some l => exact criteria_new_list W n _ _ s r c o

theorem method_criteria_init : Source.prog.method 4 "SearchCriteria" "__init__" = some "SearchCriteria.__init__" := rfl
theorem method_clone : Source.prog.method 4 "SearchCriteria" "clone" = some "SearchCriteria.clone" := rfl

theorem ctx_new {P : Prog} {W n : Nat} {cls f : String} {args : List Val} {kw : List (String × Val)}
    (h : P.method 4 cls "__init__" = some f) :
    (P.ctx W n).new cls args kw = P.call W n f (.obj cls [] :: args) kw := by
  unfold Ctx.new Prog.ctx
  simp only [h]

theorem clone_none (G : Ctx) (W : Nat) (A S R C O s r c o : Val) :
    Source.SearchCriteria_clone.call G W [.obj "SearchCriteria" [("attendees", A), ("participation_status", S),
      ("participation_role", R), ("categories", C), ("organizer", O)], .none, s, r, c, o] []
    = G.new "SearchCriteria" [orVal A .none, orVal S s, orVal R r, orVal C c, orVal O o] [] := by
  lang [Source.SearchCriteria_clone, ↓eval_or, orElse_ok]
  cases G.new "SearchCriteria" [orVal A .none, orVal S s, orVal R r, orVal C c, orVal O o] [] <;> rfl

theorem clone_list (G : Ctx) (W : Nat) (A S R C O s r c o : Val) (l : List Val) :
    Source.SearchCriteria_clone.call G W [.obj "SearchCriteria" [("attendees", A), ("participation_status", S),
      ("participation_role", R), ("categories", C), ("organizer", O)], .list l, s, r, c, o] []
    = G.new "SearchCriteria" [orVal A (.list l), orVal S s, orVal R r, orVal C c, orVal O o] [] := by
  lang [Source.SearchCriteria_clone, ↓eval_or, orElse_ok, sequence_list]
  cases G.new "SearchCriteria" [orVal A (.list l), orVal S s, orVal R r, orVal C c, orVal O o] [] <;> rfl

theorem clone_prog (W n : Nat) (L : Listing) (c : Criteria) (atts : Option (List AttId)) (st rl : Option String)
    (cats : Option (List String)) (org : Option AttId) :
    Source.prog.call W (n + 2) "SearchCriteria.clone" [ofCriteria L c, ofOption (fun l => .list (l.map (ofAttendee L))) atts,
      ofOption .str st, ofOption .str rl, ofOption (fun l => .list (l.map .str)) cats, ofOption (ofAttendee L) org] []
    = .ok (ofCriteria L (c.clone atts st rl cats org)) := by
  have h := criteria_init_ok W n L (orList c.attendees atts) (ofOption .str (orStr c.status st)) (ofOption .str (orStr c.role rl))
    (ofOption (fun l => .list (l.map .str)) (orList c.categories cats)) (ofOption (ofAttendee L) (c.organizer.or org))
  rw [← or_list _ (truthy_atts L), ← or_list _ truthy_strs, ← or_str, ← or_str, ← or_obj] at h
  rw [call_eq (d := Source.SearchCriteria_clone) rfl]
  unfold ofCriteria criteriaAttrs Criteria.clone
  rw [← or_list _ (truthy_atts L), ← or_list _ truthy_strs, ← or_str, ← or_str, ← or_obj]
  cases atts with
  | none =>
    rw [ofOption_none, clone_none, ctx_new method_criteria_init]
    exact h
  | some l =>
    rw [ofOption_some, clone_list, ctx_new method_criteria_init]
    exact h
theorem clone_attendees (W n : Nat) (L : Listing) (c : Criteria) (l : List AttId) :
    Source.prog.call W (n + 2) "SearchCriteria.clone" [ofCriteria L c] [("attendees", .list (l.map (ofAttendee L)))]
    = .ok (ofCriteria L (c.clone (attendees := some l))) :=
  (show Source.prog.call W (n + 2) "SearchCriteria.clone" [ofCriteria L c] [("attendees", .list (l.map (ofAttendee L)))]
    = Source.prog.call W (n + 2) "SearchCriteria.clone" [ofCriteria L c, .list (l.map (ofAttendee L)), .none, .none, .none, .none] []
    from rfl).trans (clone_prog W n L c (some l) none none none none)

theorem clone_organizer (W n : Nat) (L : Listing) (c : Criteria) (a : AttId) :
    Source.prog.call W (n + 2) "SearchCriteria.clone" [ofCriteria L c] [("organizer", ofAttendee L a)]
    = .ok (ofCriteria L (c.clone (organizer := some a))) :=
  (show Source.prog.call W (n + 2) "SearchCriteria.clone" [ofCriteria L c] [("organizer", ofAttendee L a)]
    = Source.prog.call W (n + 2) "SearchCriteria.clone" [ofCriteria L c, .none, .none, .none, .none, ofAttendee L a] []
    from rfl).trans (clone_prog W n L c none none none none (some a))

theorem new_organizer (W n : Nat) (L : Listing) (a : AttId) :
    (Source.prog.ctx W (n + 1)).new "SearchCriteria" [] [("organizer", ofAttendee L a)]
    = .ok (ofCriteria L { organizer := some a }) := rfl

/-! ### attendees -/

theorem method_att_manager : Source.prog.method 4 "Attendee" "_getStorageManager" = some "Attendee._getStorageManager" := rfl

theorem att_manager_prog (W n : Nat) (L : Listing) (s : Storage) (a : AttId) (h : L.Uses s a) :
    Source.prog.call W (n + 1) "Attendee._getStorageManager" [ofAttendee L a] [] = .ok (ofManager L s) := by
  rw [call_eq (d := Source.Attendee_getStorageManager) rfl]
  unfold Listing.Uses at h
  lang [Source.Attendee_getStorageManager, ofAttendee, h]

theorem att_getEvents_prog (W n : Nat) (L : Listing) (hL : L.Faithful) (s : Storage) (a : AttId) (ha : L.Uses s a)
    (b e : Option Int) (c : Option Criteria) :
    Source.prog.call W (n + 8) "AttendeeBase.getEvents" [ofAttendee L a, ofPeriod b e, ofOption (ofCriteria L) c] []
    = toM (fun l => .list (l.map (ofEvent L))) (s.attendeeGetEvents a b e c) := by
  have hm := att_manager_prog W (n + 6) L s a ha
  unfold Storage.attendeeGetEvents
  rw [← manager_getEvents W n L hL s b e (some (attendeeCriteria a c)), ofOption_some, call_eq (d := Source.AttendeeBase_getEvents) rfl]
  rw [ofAttendee] at hm
  cases c with
  | none =>
    have hn := criteria_new_attendees W (n + 6) L [a]
    rw [List.map_cons, List.map_nil, ofAttendee] at hn
    lang [Source.AttendeeBase_getEvents, ofOption_none, ofAttendee, ctx_method, method_att_manager, hn, ctx_call, hm, ofManager,
        method_manager_getEvents, result_tail]
    rfl
  | some c =>
    have hn := clone_attendees W (n + 5) L c [a]
    rw [List.map_cons, List.map_nil, ofAttendee, ofCriteria] at hn
    lang [Source.AttendeeBase_getEvents, ofOption_some, ofAttendee, ofCriteria, ctx_method, method_att_manager, method_clone, hn, ctx_call, hm,
        ofManager, method_manager_getEvents, result_tail]
    rfl

theorem att_getOccurrences_prog (W n : Nat) (L : Listing) (hL : L.Faithful) (s : Storage) (a : AttId) (ha : L.Uses s a)
    (b e : Option Int) (c : Option Criteria)
    (hr : ∀ b' en, b = some b' → e = some en → Ready W s (some (attendeeCriteria a c)) en) :
    Source.prog.call W (n + 8) "AttendeeBase.getOccurrences" [ofAttendee L a, ofPeriod b e, ofOption (ofCriteria L) c] []
    = toM (ofOccs L) (s.attendeeGetOccurrences a b e c) := by
  have hm := att_manager_prog W (n + 6) L s a ha
  unfold Storage.attendeeGetOccurrences
  rw [← manager_getOccurrences W n L hL s b e (some (attendeeCriteria a c)) hr, ofOption_some,
    call_eq (d := Source.AttendeeBase_getOccurrences) rfl]
  rw [ofAttendee] at hm
  cases c with
  | none =>
    have hn := criteria_new_attendees W (n + 6) L [a]
    rw [List.map_cons, List.map_nil, ofAttendee] at hn
    lang [Source.AttendeeBase_getOccurrences, ofOption_none, ofAttendee, ctx_method, method_att_manager, hn, ctx_call, hm, ofManager,
        method_manager_getOccurrences, result_tail]
    rfl
  | some c =>
    have hn := clone_attendees W (n + 5) L c [a]
    rw [List.map_cons, List.map_nil, ofAttendee, ofCriteria] at hn
    lang [Source.AttendeeBase_getOccurrences, ofOption_some, ofAttendee, ofCriteria, ctx_method, method_att_manager, method_clone, hn,
        ctx_call, hm, ofManager, method_manager_getOccurrences, result_tail]
    rfl

theorem getOrganizedEvents_prog (W n : Nat) (L : Listing) (hL : L.Faithful) (s : Storage) (a : AttId) (ha : L.Uses s a)
    (c : Option Criteria) :
    Source.prog.call W (n + 8) "AttendeeBase.getOrganizedEvents" [ofAttendee L a, ofOption (ofCriteria L) c] []
    = toM (fun l => .list (l.map (ofEvent L))) (s.getOrganizedEvents a c) := by
  have hm := att_manager_prog W (n + 6) L s a ha
  unfold Storage.getOrganizedEvents
  rw [← manager_getEvents W n L hL s none none, ofOption_some, call_eq (d := Source.AttendeeBase_getOrganizedEvents) rfl]
  rw [ofAttendee] at hm
  cases c with
  | none =>
    have hn := new_organizer W (n + 6) L a
    rw [ofAttendee] at hn
    lang [Source.AttendeeBase_getOrganizedEvents, ofOption_none, ofAttendee, ctx_method, method_att_manager, hn, ctx_call, hm, ofManager,
        method_manager_getEvents, result_tail, ofPeriod]
  | some c =>
    have hn := clone_organizer W (n + 5) L c a
    rw [ofAttendee, ofCriteria] at hn
    lang [Source.AttendeeBase_getOrganizedEvents, ofOption_some, ofOption_none, ofAttendee, ofCriteria, ctx_method, method_att_manager,
        method_clone, hn, ctx_call, hm, ofManager, method_manager_getEvents, result_tail, ofPeriod]

theorem getAttendeeType_prog (W n : Nat) (L : Listing) (a : AttId) (t : Val) (h : getAttr "_attendee_type" (L.person a) = .ok t) :
    Source.prog.call W (n + 1) "AttendeeBase.getAttendeeType" [ofAttendee L a] [] = .ok t := by
  rw [call_eq (d := Source.AttendeeBase_getAttendeeType) rfl]
  lang [Source.AttendeeBase_getAttendeeType, ofAttendee, h]

/-! ### attendee sources -/

theorem lookup_source (L : Listing) (src : CalCore.Source) (a : AttId) :
    getIndex.lookup (src.map (fun p => ((.str p.1 : Val), ofAttendee L p.1))) (.str a)
    = if Dict.has src a then .ok (ofAttendee L a) else .error (.py .KeyError) := by
  induction src with
  | nil => rfl
  | cons p d ih =>
    rw [List.map_cons]
    unfold getIndex.lookup
    rw [eq_str, ih]
    unfold Dict.has
    by_cases h : p.1 = a
    · simp [h]
    · simp only [h, decide_false, M_bind_ok, Bool.false_eq_true, ↓reduceIte, List.any_cons, Bool.false_or]

theorem source_getAttendee_prog (W n : Nat) (L : Listing) (s : Storage) (src : CalCore.Source) (a : AttId) :
    Source.prog.call W (n + 1) "SimpleAttendeeSource.getAttendee" [ofSource L s src, .str a] []
    = toM (ofAttendee L) (src.getAttendee a) := by
  have h := lookup_source L src a
  rw [call_eq (d := Source.SimpleAttendeeSource_getAttendee) rfl]
  unfold CalCore.Source.getAttendee
  by_cases hh : Dict.has src a = true
  · rw [if_pos hh] at h ⊢
    lang [Source.SimpleAttendeeSource_getAttendee, ofSource, h, toM_ok]
  · rw [if_neg hh] at h ⊢
    lang [Source.SimpleAttendeeSource_getAttendee, ofSource, h, raise, toM_py]

theorem fromSpec_prog (W n : Nat) (L : Listing) (s : Storage) (src : CalCore.Source) (a : AttId) (ps : List (String × Val)) :
    Source.prog.call W (n + 1) "SimpleAttendeeSource.getAttendeeFromSpec"
      [ofSource L s src, .obj "vCalAddress" (("value", .str a) :: ps)] []
    = .ok (ofOption (ofAttendee L) (src.fromSpec a)) := by
  have h := lookup_source L src a
  rw [call_eq (d := Source.SimpleAttendeeSource_getAttendeeFromSpec) rfl]
  unfold CalCore.Source.fromSpec
  by_cases hh : Dict.has src a = true
  · rw [if_pos hh] at h ⊢
    lang [Source.SimpleAttendeeSource_getAttendeeFromSpec, ofSource, callMeth, callLib, h, ofOption_some]
  · rw [if_neg hh] at h ⊢
    lang [Source.SimpleAttendeeSource_getAttendeeFromSpec, ofSource, callMeth, callLib, h, ofOption_none]
/-! ### calendars -/

theorem method_cal_manager : Source.prog.method 4 "Calendar" "_getStorageManager" = some "Calendar._getStorageManager" := rfl
theorem method_cal_source : Source.prog.method 4 "Calendar" "_getAttendeeSource" = some "Calendar._getAttendeeSource" := rfl
theorem method_cal_mainId : Source.prog.method 4 "Calendar" "getMainAttendeeId" = some "CalendarBase.getMainAttendeeId" := rfl
theorem method_cal_main : Source.prog.method 4 "Calendar" "getMainAttendee" = some "CalendarBase.getMainAttendee" := rfl
theorem method_cal_attendees : Source.prog.method 4 "Calendar" "getAttendees" = some "CalendarBase.getAttendees" := rfl
theorem method_cal_getEvents : Source.prog.method 4 "Calendar" "getEvents" = some "CalendarBase.getEvents" := rfl
theorem method_cal_getOccurrences : Source.prog.method 4 "Calendar" "getOccurrences" = some "CalendarBase.getOccurrences" := rfl
theorem method_cal_segmented :
    Source.prog.method 4 "Calendar" "getOccurrencesSegmented" = some "CalendarBase.getOccurrencesSegmented" := rfl
theorem method_source_getAttendee :
    Source.prog.method 4 "SimpleAttendeeSource" "getAttendee" = some "SimpleAttendeeSource.getAttendee" := rfl

theorem cal_manager_prog (W n : Nat) (L : Listing) (s : Storage) (src : CalCore.Source) (c : Calendar) :
    Source.prog.call W (n + 1) "Calendar._getStorageManager" [ofCalendar L s src c] [] = .ok (ofManager L s) := by
  rw [call_eq (d := Source.Calendar_getStorageManager) rfl]
  lang [Source.Calendar_getStorageManager, ofCalendar]

theorem cal_source_prog (W n : Nat) (L : Listing) (s : Storage) (src : CalCore.Source) (c : Calendar) :
    Source.prog.call W (n + 1) "Calendar._getAttendeeSource" [ofCalendar L s src c] [] = .ok (ofSource L s src) := by
  rw [call_eq (d := Source.Calendar_getAttendeeSource) rfl]
  lang [Source.Calendar_getAttendeeSource, ofCalendar]

theorem mainId_prog (W n : Nat) (L : Listing) (s : Storage) (src : CalCore.Source) (c : Calendar) :
    Source.prog.call W (n + 1) "CalendarBase.getMainAttendeeId" [ofCalendar L s src c] [] = .ok (ofOption .str c.mainId) := by
  rw [call_eq (d := Source.CalendarBase_getMainAttendeeId) rfl]
  cases c with
  | nil => rfl
  | cons p c =>
    have hp : ∀ v (l : List Val), getIndex.pick (v :: l) 0 = .ok v := fun v l => rfl
    have hl : ∀ n : Nat, ¬ ((n + 1 : Nat) : Int) = 0 := fun n => by omega
    lang [Source.CalendarBase_getMainAttendeeId, ofCalendar, List.length_cons, hl, hp]
    rfl

theorem is_attendee_opt (L : Listing) (a : Option AttId) : Val.is (ofOption (ofAttendee L) a) .none = .ok (!a.isSome) := by
  cases a <;> rfl

theorem main_prog (W n : Nat) (L : Listing) (s : Storage) (src : CalCore.Source) (c : Calendar) :
    Source.prog.call W (n + 2) "CalendarBase.getMainAttendee" [ofCalendar L s src c] []
    = toM (ofOption (ofAttendee L)) (c.main src) := by
  have h1 := mainId_prog W n L s src c
  have h2 := cal_source_prog W n L s src c
  unfold Calendar.main
  rw [call_eq (d := Source.CalendarBase_getMainAttendee) rfl]
  cases hm : c.mainId with
  | none =>
    rw [hm] at h1
    lang [Source.CalendarBase_getMainAttendee, ↓eval_method, on_calendar, callClass_some method_cal_mainId, h1, ofOption_none, toM_ok]
  | some a =>
    rw [hm] at h1
    have h3 := source_getAttendee_prog W n L s src a
    lang [Source.CalendarBase_getMainAttendee, ↓eval_method, on_calendar, callClass_some method_cal_mainId, h1, ofOption_some,
      callClass_some method_cal_source, h2, on_source, callClass_some method_source_getAttendee, h3, result_tail]
    cases src.getAttendee a with
    | error f => simp only [error_bind, toM_error]
    | ok x => rfl

/-- The environment of `getAttendees`. -/
def attsEnv (self src : Val) (res : List Val) (x : Option Val) : Env :=
  [("self", some self), ("source", some src), ("result", some (.list res)), ("attendee_id", x)]

theorem atts_step (W n : Nat) (L : Listing) (s : Storage) (src : CalCore.Source) (self : Val) (a : AttId) (acc : List AttId) (st : State)
    (hs : ∃ x, st = ⟨attsEnv self (ofSource L s src) (acc.map (ofAttendee L)) x, []⟩) :
    FollowsC (fun (acc : List AttId) st => ∃ x, st = ⟨attsEnv self (ofSource L s src) (acc.map (ofAttendee L)) x, []⟩)
      (do
        let here ← (do .ok [← src.getAttendee a])
        .ok (acc ++ here))
      (forBody (Source.prog.ctx W (n + 1)) W (.name "attendee_id") Source.CalendarBase_getAttendees_loop1 (.str a) st) := by
  obtain ⟨x, rfl⟩ := hs
  have h := source_getAttendee_prog W n L s src a
  cases hx : src.getAttendee a with
  | error f =>
    rw [hx, toM_error] at h
    refine FollowsC.error rfl (by lang [forBody, Source.CalendarBase_getAttendees_loop1, attsEnv, ↓eval_method, on_source, callClass_some method_source_getAttendee, h]; rfl)
  | ok y =>
    rw [hx, toM_ok] at h
    refine FollowsC.ok (c := acc ++ [y]) rfl
      (by lang [forBody, Source.CalendarBase_getAttendees_loop1, attsEnv, ↓eval_method, on_source, callClass_some method_source_getAttendee, h]; rfl)
      ⟨some (.str a), by simp [attsEnv]⟩

theorem lookup_fold (src : CalCore.Source) (l acc : List AttId) :
    l.foldlM (fun acc a => do
      let here ← (do .ok [← src.getAttendee a])
      .ok (acc ++ here)) acc = (do
      let m ← lookupAll src l
      .ok (acc ++ m)) :=
  fold_concat (step := fun a => (do .ok [← src.getAttendee a])) (F := lookupAll src) rfl (fun a l => by
    rw [lookupAll]
    cases src.getAttendee a <;> rfl) l acc

theorem cal_keys (c : Calendar) :
    (c.map (fun p => (Val.str p.1, Val.none))).map (fun x => x.1) = (Dict.keys c).map .str := by
  simp [Dict.keys]

theorem cal_attr_attendees (L : Listing) (s : Storage) (src : CalCore.Source) (c : Calendar) :
    attrVal "_attendees" (ofCalendar L s src c) = .ok (.dict (c.map (fun p => (.str p.1, .none)))) := rfl

theorem getAttendees_prog (W n : Nat) (L : Listing) (s : Storage) (src : CalCore.Source) (c : Calendar) :
    Source.prog.call W (n + 2) "CalendarBase.getAttendees" [ofCalendar L s src c] []
    = toM (fun l => .list (l.map (ofAttendee L))) (c.getAttendees src) := by
  have h2 := cal_source_prog W n L s src c
  have hl := forLoop_fold (g := Val.str) (f := fun acc a => do
      let here ← (do .ok [← src.getAttendee a])
      .ok (acc ++ here)) (Dict.keys c)
    (fun acc a _ st hs => atts_step W n L s src (ofCalendar L s src c) a acc st hs) []
    ⟨attsEnv (ofCalendar L s src c) (ofSource L s src) [] none, []⟩ ⟨_, rfl⟩
  rw [lookup_fold] at hl
  simp only [attsEnv] at hl
  rw [call_eq (d := Source.CalendarBase_getAttendees) rfl]
  unfold Calendar.getAttendees
  cases hx : lookupAll src (Dict.keys c) with
  | error f =>
    obtain ⟨st, hs⟩ := hl.2 f (by rw [hx]; rfl)
    lang [Source.CalendarBase_getAttendees, ↓eval_method, on_calendar, callClass_some method_cal_source, ↓eval_attr, cal_attr_attendees,
      h2, cal_keys, hs, toM_error]
  | ok l =>
    obtain ⟨st, hs, x, rfl⟩ := hl.1 l (by rw [hx]; rfl)
    lang [Source.CalendarBase_getAttendees, ↓eval_method, on_calendar, callClass_some method_cal_source, ↓eval_attr, cal_attr_attendees,
      h2, cal_keys, hs, toM_ok]

theorem cal_getEvent_prog (W n : Nat) (L : Listing) (s : Storage) (src : CalCore.Source) (c : Calendar) (uid : Uid) :
    Source.prog.call W (n + 3) "CalendarBase.getEvent" [ofCalendar L s src c, .str uid] [] = toM (ofEvent L) (s.getEvent uid) := by
  have h1 := cal_manager_prog W (n + 1) L s src c
  rw [← manager_getEvent W n L s uid, call_eq (d := Source.CalendarBase_getEvent) rfl]
  lang [Source.CalendarBase_getEvent, ↓eval_method, on_calendar, callClass_some method_cal_manager, h1, on_manager,
    callClass_some method_manager_getEvent, result_tail]

theorem cal_hasEvent_prog (W n : Nat) (L : Listing) (s : Storage) (src : CalCore.Source) (c : Calendar) (uid : Uid) :
    Source.prog.call W (n + 4) "CalendarBase.hasEvent" [ofCalendar L s src c, .str uid] [] = .ok (.bool (s.hasEvent uid)) := by
  have h1 := cal_manager_prog W (n + 2) L s src c
  rw [← manager_hasEvent W n L s uid, call_eq (d := Source.CalendarBase_hasEvent) rfl]
  lang [Source.CalendarBase_hasEvent, ↓eval_method, on_calendar, callClass_some method_cal_manager, h1, on_manager,
    callClass_some method_manager_hasEvent, result_tail]

theorem is_criteria_none (L : Listing) (c : Criteria) : Val.is (ofCriteria L c) .none = .ok false := rfl

theorem cal_getEvents_prog (W n : Nat) (L : Listing) (hL : L.Faithful) (s : Storage) (src : CalCore.Source) (c : Calendar)
    (b e : Option Int) (cr : Option Criteria) :
    Source.prog.call W (n + 8) "CalendarBase.getEvents" [ofCalendar L s src c, ofPeriod b e, ofOption (ofCriteria L) cr] []
    = toM (fun l => .list (l.map (ofEvent L))) (c.getEvents src s b e cr) := by
  have h1 := cal_manager_prog W (n + 6) L s src c
  have h2 := getAttendees_prog W (n + 5) L s src c
  unfold Calendar.getEvents Calendar.criteria
  rw [call_eq (d := Source.CalendarBase_getEvents) rfl]
  cases hx : c.getAttendees src with
  | error f =>
    rw [hx, toM_error] at h2
    cases cr with
    | none =>
      lang [Source.CalendarBase_getEvents, ↓eval_method, on_calendar, callClass_some method_cal_attendees, h2, ofOption_none, error_bind, toM_error]
    | some cr =>
      lang [Source.CalendarBase_getEvents, ↓eval_method, on_calendar, callClass_some method_cal_attendees, h2, ofOption_some,
        is_criteria_none, on_criteria, callClass_kw, error_bind, toM_error]
  | ok l =>
    rw [hx, toM_ok] at h2
    cases cr with
    | none =>
      simp only [ok_bind]
      rw [← manager_getEvents W n L hL s b e, ofOption_some]
      have hn := criteria_new_attendees W (n + 6) L l
      lang [Source.CalendarBase_getEvents, ↓eval_method, on_calendar, callClass_some method_cal_attendees, h2, ofOption_none, hn,
        callClass_some method_cal_manager, h1, on_manager, callClass_some method_manager_getEvents, result_tail]
    | some cr =>
      simp only [ok_bind]
      rw [← manager_getEvents W n L hL s b e, ofOption_some]
      have hn := clone_attendees W (n + 5) L cr l
      lang [Source.CalendarBase_getEvents, ↓eval_method, on_calendar, callClass_some method_cal_attendees, h2, ofOption_some, hn,
        is_criteria_none, on_criteria, callClass_some method_clone,
        callClass_some method_cal_manager, h1, on_manager, callClass_some method_manager_getEvents, result_tail]

theorem cal_getOccurrences_prog (W n : Nat) (L : Listing) (hL : L.Faithful) (s : Storage) (src : CalCore.Source) (c : Calendar)
    (b e : Option Int) (cr : Option Criteria) (hr : ∀ cr b' en, b = some b' → e = some en → Ready W s cr en) :
    Source.prog.call W (n + 8) "CalendarBase.getOccurrences" [ofCalendar L s src c, ofPeriod b e, ofOption (ofCriteria L) cr] []
    = toM (ofOccs L) (c.getOccurrences src s b e cr) := by
  have h1 := cal_manager_prog W (n + 6) L s src c
  have h2 := getAttendees_prog W (n + 5) L s src c
  unfold Calendar.getOccurrences Calendar.criteria
  rw [call_eq (d := Source.CalendarBase_getOccurrences) rfl]
  cases hx : c.getAttendees src with
  | error f =>
    rw [hx, toM_error] at h2
    cases cr with
    | none =>
      lang [Source.CalendarBase_getOccurrences, ↓eval_method, on_calendar, callClass_some method_cal_attendees, h2, ofOption_none, error_bind, toM_error]
    | some cr =>
      lang [Source.CalendarBase_getOccurrences, ↓eval_method, on_calendar, callClass_some method_cal_attendees, h2, ofOption_some,
        is_criteria_none, on_criteria, callClass_kw, error_bind, toM_error]
  | ok l =>
    rw [hx, toM_ok] at h2
    cases cr with
    | none =>
      simp only [ok_bind]
      rw [← manager_getOccurrences W n L hL s b e _ (hr _), ofOption_some]
      have hn := criteria_new_attendees W (n + 6) L l
      lang [Source.CalendarBase_getOccurrences, ↓eval_method, on_calendar, callClass_some method_cal_attendees, h2, ofOption_none, hn,
        callClass_some method_cal_manager, h1, on_manager, callClass_some method_manager_getOccurrences, result_tail]
    | some cr =>
      simp only [ok_bind]
      rw [← manager_getOccurrences W n L hL s b e _ (hr _), ofOption_some]
      have hn := clone_attendees W (n + 5) L cr l
      lang [Source.CalendarBase_getOccurrences, ↓eval_method, on_calendar, callClass_some method_cal_attendees, h2, ofOption_some, hn,
        is_criteria_none, on_criteria, callClass_some method_clone,
        callClass_some method_cal_manager, h1, on_manager, callClass_some method_manager_getOccurrences, result_tail]
theorem cal_segmented_prog (W n : Nat) (L : Listing) (hL : L.Faithful) (s : Storage) (src : CalCore.Source) (c : Calendar)
    (b e : Option Int) (cr : Option Criteria)
    (hr : ∀ cr b' en, b = some b' → e = some en → Ready W s cr en ∧ (en / DAY - b' / DAY).toNat + 5 ≤ W) :
    Source.prog.call W (n + 9) "CalendarBase.getOccurrencesSegmented" [ofCalendar L s src c, ofPeriod b e, ofOption (ofCriteria L) cr] []
    = toM (ofOccs L) (c.getOccurrencesSegmented src s b e cr) := by
  have h := cal_getOccurrences_prog W n L hL s src c b e cr (fun cr b' en h1 h2 => (hr cr b' en h1 h2).1)
  rw [call_eq (d := Source.CalendarBase_getOccurrencesSegmented) rfl]
  unfold Calendar.getOccurrencesSegmented
  cases hg : c.getOccurrences src s b e cr with
  | error f =>
    rw [hg] at h
    lang [Source.CalendarBase_getOccurrencesSegmented, ↓eval_method, on_calendar, callClass_some method_cal_getOccurrences, h, toM_error,
      error_bind]
  | ok l =>
    rw [hg] at h
    rw [ok_bind]
    have hno : ∀ cr, s.getOccurrences b e cr = .ok l → ∃ b' en, b = some b' ∧ e = some en := by
      intro cr h
      cases b with
      | none => simp [Storage.getOccurrences, raise] at h
      | some b =>
        cases e with
        | none => simp [Storage.getOccurrences, raise] at h
        | some en => exact ⟨b, en, rfl, rfl⟩
    have hno : ∃ b' en, b = some b' ∧ e = some en := by
      unfold Calendar.getOccurrences at hg
      rw [bind_ok] at hg
      obtain ⟨x, _, hg⟩ := hg
      exact hno _ hg
    obtain ⟨b, en, rfl, rfl⟩ := hno
    have h2 := segment_prog (ofEvent L) W (n + 6) b en (hr none b en rfl rfl).2 l
    rw [toM_ok, ofOccs] at h
    lang [Source.CalendarBase_getOccurrencesSegmented, ↓eval_method, on_calendar, callClass_some method_cal_getOccurrences, h, ctx_call, h2,
      result_tail]
    rfl

end CalCore.Lang
