import Verif.Lemmas.SourceCal
/- The queries of cal.py, as written. -/
namespace CalCore.Lang
set_option linter.unusedSectionVars false
variable [Source.Globals]

/-! ### participation -/

theorem lookup_dict {α : Type} (f : α → Val) (d : Dict String α) (a : String) :
    getIndex.lookup (d.map (fun p => (.str p.1, f p.2))) (.str a)
    = match Dict.get? d a with
      | some v => .ok (f v)
      | none => .error (.py .KeyError) := by
  induction d with
  | nil => rfl
  | cons p d ih =>
    obtain ⟨k, v⟩ := p
    rw [List.map_cons]
    unfold getIndex.lookup
    simp only [eq_str, M_bind_ok]
    unfold Dict.get? at ih ⊢
    rw [List.find?_cons]
    by_cases h : k = a
    · simp [h]
    · simp only [h, decide_false, Bool.false_eq_true, ↓reduceIte]
      exact ih

theorem meth_get (d : Dict String String) (a : String) :
    callMeth .get (ofDict d) [.str a] [] = .ok (ofOption .str (Dict.get? d a)) := by
  unfold callMeth ofDict
  simp only [lookup_dict]
  cases Dict.get? d a <;> rfl

theorem getAttendeeId_prog (W n : Nat) (L : Listing) (a : AttId) :
    Source.prog.call W (n + 1) "AttendeeBase.getAttendeeId" [ofAttendee L a] [] = .ok (.str a) := by
  rw [call_eq (d := Source.AttendeeBase_getAttendeeId) rfl]
  lang [Source.AttendeeBase_getAttendeeId, ofAttendee]

theorem method_getAttendeeId : Source.prog.method 4 "Attendee" "getAttendeeId" = some "AttendeeBase.getAttendeeId" := rfl
theorem method_getParticipationStatus :
    Source.prog.method 4 "Event" "getParticipationStatus" = some "EventBase.getParticipationStatus" := rfl
theorem method_getParticipationRole :
    Source.prog.method 4 "Event" "getParticipationRole" = some "EventBase.getParticipationRole" := rfl
theorem method_hasAttendee : Source.prog.method 4 "Event" "hasAttendee" = some "EventBase.hasAttendee" := rfl
theorem method_inCategory : Source.prog.method 4 "Event" "inCategory" = some "EventBase.inCategory" := rfl
theorem method_getOrganizerId : Source.prog.method 4 "Event" "getOrganizerId" = some "EventBase.getOrganizerId" := rfl
theorem method_expand : Source.prog.method 4 "Event" "expand" = some "EventBase.expand" := rfl

theorem getStatus_prog (W n : Nat) (L : Listing) (e : Event) (a : AttId) :
    Source.prog.call W (n + 2) "EventBase.getParticipationStatus" [ofEvent L e, ofAttendee L a] []
    = .ok (ofOption .str (e.getStatus a)) := by
  have h := getAttendeeId_prog W n L a
  rw [ofAttendee] at h
  rw [call_eq (d := Source.EventBase_getParticipationStatus) rfl]
  lang [Source.EventBase_getParticipationStatus, ofEvent, ofAttendee, event_pstate, ctx_method, method_getAttendeeId, ctx_call, h,
    meth_get]
  rfl

theorem getRole_prog (W n : Nat) (L : Listing) (e : Event) (a : AttId) :
    Source.prog.call W (n + 2) "EventBase.getParticipationRole" [ofEvent L e, ofAttendee L a] []
    = .ok (ofOption .str (e.getRole a)) := by
  have h := getAttendeeId_prog W n L a
  rw [ofAttendee] at h
  rw [call_eq (d := Source.EventBase_getParticipationRole) rfl]
  lang [Source.EventBase_getParticipationRole, ofEvent, ofAttendee, event_prole, ctx_method, method_getAttendeeId, ctx_call, h,
    meth_get]
  rfl

theorem isNot_str (a : Option String) : Val.is (ofOption .str a) .none = .ok (!a.isSome) := by cases a <;> rfl

theorem hasAttendee_prog (W n : Nat) (L : Listing) (e : Event) (a : AttId) :
    Source.prog.call W (n + 3) "EventBase.hasAttendee" [ofEvent L e, ofAttendee L a] [] = .ok (.bool (e.hasAttendee a)) := by
  have h := getStatus_prog W n L e a
  rw [ofEvent] at h
  rw [call_eq (d := Source.EventBase_hasAttendee) rfl]
  lang [Source.EventBase_hasAttendee, ofEvent, ctx_method, method_getParticipationStatus, ctx_call, h, isNot_str]
  rw [Bool.not_not]
  rfl

theorem contains_strs (x : String) (l : List String) : contains (.str x) (l.map .str) = .ok (decide (x ∈ l)) := by
  induction l with
  | nil => rfl
  | cons a l ih =>
    rw [List.map_cons]
    unfold contains
    simp only [eq_str, M_bind_ok]
    by_cases h : a = x
    · simp [h]
    · have h' : ¬ x = a := fun e => h e.symm
      simp only [h, decide_false, Bool.false_eq_true, ↓reduceIte]
      rw [ih]
      simp [h']

theorem inCategory_prog (W n : Nat) (L : Listing) (hL : L.Faithful) (e : Event) (c : String) :
    Source.prog.call W (n + 1) "EventBase.inCategory" [ofEvent L e, .str c] [] = .ok (.bool (e.inCategory c)) := by
  rw [call_eq (d := Source.EventBase_inCategory) rfl]
  lang [Source.EventBase_inCategory, ofEvent, event_categories, contains_strs, hL e.categories c]
  rfl

theorem getOrganizerId_prog (W n : Nat) (L : Listing) (e : Event) :
    Source.prog.call W (n + 1) "EventBase.getOrganizerId" [ofEvent L e] [] = .ok (ofOption .str e.organizerId) := by
  rw [call_eq (d := Source.EventBase_getOrganizerId) rfl]
  lang [Source.EventBase_getOrganizerId, ofEvent, event_organizer]

/-! ### `_match` -/

/-- The environment of `_match`. -/
def matchEnv (self ev : Val) (category attendee : Option Val) : Env :=
  [("self", some self), ("event", some ev), ("category", category), ("attendee", attendee)]

theorem category_loop (W n : Nat) (L : Listing) (hL : L.Faithful) (e : Event) (self : Val) (att : Option Val) (cs : List String) :
    ∀ c, ∃ c', forLoop (forBody (Source.prog.ctx W (n + 1)) W (.name "category") Source.SearchCriteria_match_loop1) (cs.map .str)
      ⟨matchEnv self (ofEvent L e) c att, []⟩
    = (⟨matchEnv self (ofEvent L e) c' att, []⟩, if cs.any e.inCategory then .brk else .next) := by
  induction cs with
  | nil => intro c; exact ⟨c, rfl⟩
  | cons a cs ih =>
    intro c
    rw [List.map_cons]
    unfold forLoop
    have h := inCategory_prog W n L hL e a
    rw [ofEvent] at h
    have hb : forBody (Source.prog.ctx W (n + 1)) W (.name "category") Source.SearchCriteria_match_loop1 (.str a)
        ⟨matchEnv self (ofEvent L e) c att, []⟩
        = (⟨matchEnv self (ofEvent L e) (some (.str a)) att, []⟩, if e.inCategory a then .brk else .next) := by
      cases hc : e.inCategory a with
      | true =>
        rw [hc] at h
        lang [forBody, Source.SearchCriteria_match_loop1, matchEnv, ofEvent, ctx_method, method_inCategory, ctx_call, h]
      | false =>
        rw [hc] at h
        lang [forBody, Source.SearchCriteria_match_loop1, matchEnv, ofEvent, ctx_method, method_inCategory, ctx_call, h]
    rw [hb]
    cases hc : e.inCategory a with
    | true => exact ⟨some (.str a), by simp [hc]⟩
    | false =>
      obtain ⟨c', h'⟩ := ih (some (.str a))
      refine ⟨c', ?_⟩
      simp only [Bool.false_eq_true, ↓reduceIte, List.any_cons, hc, Bool.false_or]
      exact h'

theorem eq_str_opt (s : String) (o : Option String) : Val.eq (.str s) (ofOption .str o) = .ok (decide (some s = o)) := by
  cases o with
  | none => rw [ofOption_none, eq_str_none]; simp
  | some x => rw [ofOption_some, eq_str]; simp

theorem differ_opt_str (G : Ctx) (o : Option String) (y : Val) :
    G.differ (ofOption .str o) y = (do .ok (.bool (!(← Val.eq (ofOption .str o) y)))) := by
  cases o <;> rfl

theorem equal_opt_str (G : Ctx) (o : Option String) (y : Val) :
    G.equal (ofOption .str o) y = (do .ok (.bool (← Val.eq (ofOption .str o) y))) := by
  cases o <;> rfl

theorem eq_opt_str (s : String) (o : Option String) : Val.eq (ofOption .str o) (.str s) = .ok (decide (o = some s)) := by
  cases o with
  | none => rw [ofOption_none, eq_none_str]; simp
  | some x => rw [ofOption_some, eq_str]; simp

/-- Does the loop over the attendees continue with the next one? -/
def skips (st rl : Option String) (e : Event) (a : AttId) : Bool :=
  !e.hasAttendee a || (match st with | some s => decide (some s ≠ e.getStatus a) | none => false)
    || (match rl with | some r => decide (some r ≠ e.getRole a) | none => false)

theorem matchAttendees_skips (st rl : Option String) (e : Event) (l : List AttId) :
    matchAttendees st rl e l = l.any (fun a => !skips st rl e a) := by
  induction l with
  | nil => rfl
  | cons a l ih =>
    unfold matchAttendees
    rw [List.any_cons, ih]
    generalize l.any (fun a => !skips st rl e a) = t
    unfold skips
    cases e.hasAttendee a with
    | false => simp
    | true =>
      cases st with
      | none =>
        cases rl with
        | none => simp
        | some r => by_cases h : some r = e.getRole a <;> simp [h]
      | some s =>
        by_cases h' : some s = e.getStatus a
        · cases rl with
          | none => simp [h']
          | some r => by_cases h : some r = e.getRole a <;> simp [h, h']
        · simp [h']

theorem crit_attendees (L : Listing) (c : Criteria) : getAttr "attendees" (criteriaAttrs L c)
    = .ok (ofOption (fun l => .list (l.map (ofAttendee L))) c.attendees) := rfl
theorem crit_status (L : Listing) (c : Criteria) : getAttr "participation_status" (criteriaAttrs L c) = .ok (ofOption .str c.status) := rfl
theorem crit_role (L : Listing) (c : Criteria) : getAttr "participation_role" (criteriaAttrs L c) = .ok (ofOption .str c.role) := rfl
theorem crit_categories (L : Listing) (c : Criteria) : getAttr "categories" (criteriaAttrs L c)
    = .ok (ofOption (fun l => .list (l.map .str)) c.categories) := rfl
theorem crit_organizer (L : Listing) (c : Criteria) : getAttr "organizer" (criteriaAttrs L c)
    = .ok (ofOption (ofAttendee L) c.organizer) := rfl

theorem attendee_step (W n : Nat) (L : Listing) (e : Event) (cls : String) (cr : Criteria) (cat att : Option Val) (a : AttId) :
    forBody (Source.prog.ctx W (n + 3)) W (.name "attendee") Source.SearchCriteria_match_loop2 (ofAttendee L a)
      ⟨matchEnv (.obj cls (criteriaAttrs L cr)) (ofEvent L e) cat att, []⟩
    = (⟨matchEnv (.obj cls (criteriaAttrs L cr)) (ofEvent L e) cat (some (ofAttendee L a)), []⟩,
        if skips cr.status cr.role e a then .cont else .ret (.bool true)) := by
  have h1 := hasAttendee_prog W n L e a
  have h2 := getStatus_prog W (n + 1) L e a
  have h3 := getRole_prog W (n + 1) L e a
  rw [ofEvent] at h1 h2 h3
  unfold skips
  cases hh : e.hasAttendee a with
  | false =>
    rw [hh] at h1
    lang [forBody, Source.SearchCriteria_match_loop2, matchEnv, ofEvent, ctx_method, method_hasAttendee, ctx_call, h1, Bool.true_or]
  | true =>
    rw [hh] at h1
    cases hs : cr.status with
    | none =>
      cases hr : cr.role with
      | none =>
        lang [forBody, Source.SearchCriteria_match_loop2, matchEnv, ofEvent, ctx_method, method_hasAttendee, ctx_call, h1,
          crit_status, crit_role, hs, hr, ofOption_none, Bool.or_self]
      | some r =>
        by_cases hq : some r = e.getRole a
        · have hq := eq_true hq
          lang [forBody, Source.SearchCriteria_match_loop2, matchEnv, ofEvent, ctx_method, method_hasAttendee, ctx_call, h1,
            crit_status, crit_role, hs, hr, ofOption_none, ofOption_some, method_getParticipationRole, h3, eq_str_opt, hq, Bool.or_self]
        · lang [forBody, Source.SearchCriteria_match_loop2, matchEnv, ofEvent, ctx_method, method_hasAttendee, ctx_call, h1,
            crit_status, crit_role, hs, hr, ofOption_none, ofOption_some, method_getParticipationRole, h3, eq_str_opt, hq, Bool.or_true]
    | some st =>
      by_cases hp : some st = e.getStatus a
      · have hp := eq_true hp
        cases hr : cr.role with
        | none =>
          lang [forBody, Source.SearchCriteria_match_loop2, matchEnv, ofEvent, ctx_method, method_hasAttendee, ctx_call, h1,
            crit_status, crit_role, hs, hr, ofOption_none, ofOption_some, Bool.or_self, method_getParticipationStatus, h2, eq_str_opt, hp]
        | some r =>
          by_cases hq : some r = e.getRole a
          · have hq := eq_true hq
            lang [forBody, Source.SearchCriteria_match_loop2, matchEnv, ofEvent, ctx_method, method_hasAttendee, ctx_call, h1,
              crit_status, crit_role, hs, hr, ofOption_none, ofOption_some, method_getParticipationRole, h3, eq_str_opt, hq, Bool.or_self,
              method_getParticipationStatus, h2, hp]
          · lang [forBody, Source.SearchCriteria_match_loop2, matchEnv, ofEvent, ctx_method, method_hasAttendee, ctx_call, h1,
              crit_status, crit_role, hs, hr, ofOption_none, ofOption_some, method_getParticipationRole, h3, eq_str_opt, hq, Bool.or_true,
              method_getParticipationStatus, h2, hp]
      · lang [forBody, Source.SearchCriteria_match_loop2, matchEnv, ofEvent, ctx_method, method_hasAttendee, ctx_call, h1,
          crit_status, hs, ofOption_some, method_getParticipationStatus, h2, eq_str_opt, hp, Bool.or_true, Bool.true_or]

theorem attendee_loop (W n : Nat) (L : Listing) (e : Event) (cls : String) (cr : Criteria) (cat : Option Val) (l : List AttId) :
    ∀ att, ∃ att', forLoop (forBody (Source.prog.ctx W (n + 3)) W (.name "attendee") Source.SearchCriteria_match_loop2) (l.map (ofAttendee L))
      ⟨matchEnv (.obj cls (criteriaAttrs L cr)) (ofEvent L e) cat att, []⟩
    = (⟨matchEnv (.obj cls (criteriaAttrs L cr)) (ofEvent L e) cat att', []⟩,
        if matchAttendees cr.status cr.role e l then .ret (.bool true) else .next) := by
  rw [matchAttendees_skips]
  induction l with
  | nil => intro att; exact ⟨att, rfl⟩
  | cons a l ih =>
    intro att
    rw [List.map_cons]
    unfold forLoop
    rw [attendee_step]
    cases hc : skips cr.status cr.role e a with
    | false => exact ⟨some (ofAttendee L a), by simp [hc]⟩
    | true =>
      obtain ⟨c', h'⟩ := ih (some (ofAttendee L a))
      refine ⟨c', ?_⟩
      simp only [↓reduceIte, List.any_cons, hc, Bool.not_true, Bool.false_or]
      exact h'

theorem is_attendee_none (L : Listing) (a : AttId) : Val.is (ofAttendee L a) .none = .ok false := by simp [Val.is, ofAttendee]

/-- The first statement of `_match`. -/
def categoryStmt : Stmt := .ite (.cmp .isNot (.attr (.var "self") "categories") (.const .none)) [
  .for (.name "category") (.attr (.var "self") "categories") Source.SearchCriteria_match_loop1 [.ret (.const (.bool false))]] []

/-- The second statement. -/
def organizerStmt : Stmt := .ite (.and (.cmp .isNot (.attr (.var "self") "organizer") (.const .none))
  (.cmp .ne (.method (.var "event") "getOrganizerId" [] []) (.method (.attr (.var "self") "organizer") "getAttendeeId" [] []))) [
  .ret (.const (.bool false))] []

/-- The third statement. -/
def anyoneStmt : Stmt := .ite (.cmp .is (.attr (.var "self") "attendees") (.const .none)) [.ret (.const (.bool true))] []

theorem match_body : Source.SearchCriteria_match = ⟨.fn, [("self", none), ("event", none)], ["category", "attendee"],
  [categoryStmt, organizerStmt, anyoneStmt,
    .for (.name "attendee") (.attr (.var "self") "attendees") Source.SearchCriteria_match_loop2 [], .ret (.const (.bool false))]⟩ := rfl

theorem category_stmt (W n : Nat) (L : Listing) (hL : L.Faithful) (e : Event) (cls : String) (cr : Criteria) :
    ∃ c, exec (Source.prog.ctx W (n + 1)) W categoryStmt ⟨matchEnv (.obj cls (criteriaAttrs L cr)) (ofEvent L e) none none, []⟩
    = (⟨matchEnv (.obj cls (criteriaAttrs L cr)) (ofEvent L e) c none, []⟩,
      if (match cr.categories with | some cs => !cs.any e.inCategory | none => false) then .ret (.bool false) else .next) := by
  cases hc : cr.categories with
  | none =>
    refine ⟨none, ?_⟩
    lang [categoryStmt, matchEnv, crit_categories, hc, ofOption_none]
  | some cs =>
    obtain ⟨c', h⟩ := category_loop W n L hL e (.obj cls (criteriaAttrs L cr)) none cs none
    refine ⟨c', ?_⟩
    rw [matchEnv] at h
    cases ha : cs.any e.inCategory with
    | true =>
      rw [ha] at h
      lang [categoryStmt, matchEnv, crit_categories, hc, ofOption_some, h, ha]
    | false =>
      rw [ha] at h
      lang [categoryStmt, matchEnv, crit_categories, hc, ofOption_some, h, ha]

theorem organizer_stmt (W n : Nat) (L : Listing) (e : Event) (cls : String) (cr : Criteria) (c a : Option Val) :
    exec (Source.prog.ctx W (n + 1)) W organizerStmt ⟨matchEnv (.obj cls (criteriaAttrs L cr)) (ofEvent L e) c a, []⟩
    = (⟨matchEnv (.obj cls (criteriaAttrs L cr)) (ofEvent L e) c a, []⟩,
      if (match cr.organizer with | some o => decide (e.organizerId ≠ some o) | none => false) then .ret (.bool false) else .next) := by
  cases ho : cr.organizer with
  | none => lang [organizerStmt, matchEnv, crit_organizer, ho, ofOption_none]
  | some o =>
    have h1 := getOrganizerId_prog W n L e
    have h2 := getAttendeeId_prog W n L o
    rw [ofEvent] at h1
    rw [ofAttendee] at h2
    by_cases h : e.organizerId = some o
    · have h := eq_true h
      lang [organizerStmt, matchEnv, crit_organizer, ho, ofOption_some, ofAttendee, ofEvent, ctx_method, method_getOrganizerId,
        method_getAttendeeId, ctx_call, h1, h2, eq_opt_str, differ_opt_str, h]
    · lang [organizerStmt, matchEnv, crit_organizer, ho, ofOption_some, ofAttendee, ofEvent, ctx_method, method_getOrganizerId,
        method_getAttendeeId, ctx_call, h1, h2, eq_opt_str, differ_opt_str, h]

theorem anyone_stmt (G : Ctx) (W : Nat) (L : Listing) (e : Event) (cls : String) (cr : Criteria) (c a : Option Val) :
    exec G W anyoneStmt ⟨matchEnv (.obj cls (criteriaAttrs L cr)) (ofEvent L e) c a, []⟩
    = (⟨matchEnv (.obj cls (criteriaAttrs L cr)) (ofEvent L e) c a, []⟩, if cr.attendees = none then .ret (.bool true) else .next) := by
  cases ho : cr.attendees with
  | none => lang [anyoneStmt, matchEnv, crit_attendees, ho, ofOption_none]
  | some l => lang [anyoneStmt, matchEnv, crit_attendees, ho, ofOption_some]

theorem match_prog (W n : Nat) (L : Listing) (hL : L.Faithful) (e : Event) (cls : String) (cr : Criteria) :
    Source.prog.call W (n + 4) "SearchCriteria._match" [.obj cls (criteriaAttrs L cr), ofEvent L e] [] = .ok (.bool (cr.match e)) := by
  rw [call_eq (d := Source.SearchCriteria_match) rfl, match_body]
  obtain ⟨c, h1⟩ := category_stmt W (n + 2) L hL e cls cr
  have h2 := organizer_stmt W (n + 2) L e cls cr c none
  have h3 := anyone_stmt (Source.prog.ctx W (n + 3)) W L e cls cr c none
  rw [show n + 2 + 1 = n + 3 from rfl] at h1 h2
  cases hc : (match cr.categories with | some cs => !cs.any e.inCategory | none => false) with
  | true =>
    rw [hc] at h1
    simp only [matchEnv] at h1
    have hm : cr.match e = false := if_pos hc
    lang [h1, hm]
  | false =>
    rw [hc] at h1
    cases ho : (match cr.organizer with | some o => decide (e.organizerId ≠ some o) | none => false) with
    | true =>
      rw [ho] at h2
      simp only [matchEnv] at h1 h2
      have hm : cr.match e = false := (if_neg (Bool.eq_false_iff.mp hc)).trans (if_pos ho)
      lang [h1, h2, hm]
    | false =>
      rw [ho] at h2
      simp only [matchEnv] at h1 h2 h3
      cases ha : cr.attendees with
      | none =>
        rw [ha] at h3
        have hm : cr.match e = true := by
          refine (if_neg (Bool.eq_false_iff.mp hc)).trans ((if_neg (Bool.eq_false_iff.mp ho)).trans ?_)
          rw [ha]
        lang [h1, h2, h3, hm]
      | some l =>
        rw [ha] at h3
        obtain ⟨a', h4⟩ := attendee_loop W n L e cls cr c l none
        simp only [matchEnv] at h4
        have hr : cr.match e = matchAttendees cr.status cr.role e l := by
          refine (if_neg (Bool.eq_false_iff.mp hc)).trans ((if_neg (Bool.eq_false_iff.mp ho)).trans ?_)
          rw [ha]
        rw [hr]
        cases hm : matchAttendees cr.status cr.role e l with
        | true =>
          rw [hm] at h4
          lang [h1, h2, h3, crit_attendees, ha, ofOption_some, h4]
        | false =>
          rw [hm] at h4
          lang [h1, h2, h3, crit_attendees, ha, ofOption_some, h4]

end CalCore.Lang
