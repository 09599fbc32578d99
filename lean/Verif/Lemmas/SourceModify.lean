import Verif.Lemmas.SourceSpec
/- What a specification will modify, as written. -/
namespace CalCore.Lang
open CalCore.Spec
set_option linter.unusedSectionVars false
variable [Source.Globals]

/-- The environment of `willModify`. -/
def askEnv (S o x y a r st : Option Val) : Env :=
  [("self", S), ("o", o), ("name", x), ("value", y), ("attendee", a), ("role", r), ("status", st)]

/-- The attribute is there and compares with the given result. -/
def Compares (G : Ctx) (o : Val) (p : String × Val × Bool) : Prop :=
  (apart p.1 ∧ p.2.2 = false)
  ∨ (¬ apart p.1 ∧ ∃ v0, getattrOf G p.1 (.obj "object" []) o = .ok v0 ∧ G.differ v0 p.2.1 = .ok (.bool p.2.2))

theorem ask_one (G : Ctx) (W : Nat) (o : Val) (p : String × Val × Bool) (h : Compares G o p) (S x y a r st : Option Val) (out : List Val) :
    forBody G W (.names ["name", "value"]) Source.EventSpecification_willModify_loop1 (.tuple [.str p.1, p.2.1])
      ⟨askEnv S (some o) x y a r st, out⟩
    = (⟨askEnv S (some o) (some (.str p.1)) (some p.2.1) a r st, out⟩, if p.2.2 then .ret (.bool true) else .next) := by
  obtain ⟨name, v, d⟩ := p
  obtain ⟨hn, hd⟩ | ⟨hn, v0, hg, hd⟩ := h
  · simp only [] at hn hd
    subst hd
    unfold apart at hn
    lang [forBody, Source.EventSpecification_willModify_loop1, askEnv, names_in, eq_true hn]
  · simp only [] at hn hg hd
    unfold apart at hn
    cases d
    · lang [forBody, Source.EventSpecification_willModify_loop1, askEnv, names_in, eq_false hn, ↓eval_getattr, getattrVal_str, hg, hd]
    · lang [forBody, Source.EventSpecification_willModify_loop1, askEnv, names_in, eq_false hn, ↓eval_getattr, getattrVal_str, hg, hd]

theorem ask_loop (G : Ctx) (W : Nat) (o : Val) (S a r st : Option Val) (out : List Val) (l : List (String × Val × Bool)) :
    (∀ p ∈ l, Compares G o p) → ∀ x y, ∃ x' y',
    forLoop (forBody G W (.names ["name", "value"]) Source.EventSpecification_willModify_loop1)
      (l.map (fun p => .tuple [.str p.1, p.2.1])) ⟨askEnv S (some o) x y a r st, out⟩
    = (⟨askEnv S (some o) x' y' a r st, out⟩, if l.any (fun p => p.2.2) then .ret (.bool true) else .next) := by
  induction l with
  | nil => intro _ x y; exact ⟨x, y, rfl⟩
  | cons p l ih =>
    intro h x y
    have h1 := ask_one G W o p (h p (List.mem_cons_self ..)) S x y a r st out
    obtain ⟨x', y', h2⟩ := ih (fun q hq => h q (List.mem_cons_of_mem _ hq)) (some (.str p.1)) (some p.2.1)
    rw [List.map_cons]
    unfold forLoop
    rw [h1]
    cases hp : p.2.2 with
    | true => exact ⟨some (.str p.1), some p.2.1, by simp [List.any_cons, hp]⟩
    | false =>
      refine ⟨x', y', ?_⟩
      rw [List.any_cons, hp, Bool.false_or]
      exact h2

/-- The attributes of a specification, each with whether that of the event differs. -/
def asked (L : Listing) (s : CalCore.Spec) (e : Event) : List (String × Val × Bool) :=
  [("dtstart", .datetime s.dtstart, decide (e.dtstart ≠ s.dtstart)), ("duration", ofOption .delta s.duration, decide (e.duration ≠ s.duration)),
   ("title", .str s.title, decide (e.title ≠ s.title)),
   ("description", .str s.description, decide (e.description ≠ s.description)), ("status", .str s.status, decide (e.status ≠ s.status)),
   ("location", .str s.location, decide (e.location ≠ s.location)),
   ("organizer", ofOption (ofAttendee L) s.organizer, false),
   ("recurrence", ofOption ofRule s.recurrence, decide (e.recurrence ≠ s.recurrence)),
   ("allday", .bool s.allday, decide (e.allday ≠ s.allday)),
   ("categories", .set ((L.cats s.categories).map .str), decide (e.categories ≠ s.categories)),
   ("transparent", .bool s.transparent, decide (e.transparent ≠ s.transparent)), ("access", .str s.access, decide (e.access ≠ s.access)),
   ("document", ofOption .str s.document, decide (e.document ≠ s.document)), ("attendees", .list (s.attendees.map (ofInvited L)), false)]

theorem asked_any (L : Listing) (s : CalCore.Spec) (e : Event) : (asked L s e).any (fun p => p.2.2) = s.attrsDiffer e := by
  unfold asked Spec.attrsDiffer
  simp only [List.any_cons, List.any_nil, Bool.or_false, Bool.false_or]
  generalize decide (e.dtstart ≠ s.dtstart) = b1
  generalize decide (e.duration ≠ s.duration) = b2
  generalize decide (e.title ≠ s.title) = b3
  generalize decide (e.description ≠ s.description) = b4
  generalize decide (e.location ≠ s.location) = b5
  generalize decide (e.status ≠ s.status) = b6
  cases b5 <;> cases b6 <;> simp [Bool.or_assoc]

theorem asked_items (L : Listing) (s : CalCore.Spec) (e : Event) :
    (specAttrs L s).map (fun p => Val.tuple [.str p.1, p.2]) = (asked L s e).map (fun p => .tuple [.str p.1, p.2.1]) := rfl

theorem not_eq_ne {α : Type} [DecidableEq α] (a b : α) : (!decide (a = b)) = decide (a ≠ b) := by simp

theorem differ_two_str (G : Ctx) (a b : String) : G.differ (.str a) (.str b) = .ok (.bool (decide (a ≠ b))) := by
  rw [differ_str, eq_str, M_bind_ok, not_eq_ne]
theorem differ_two_datetime (G : Ctx) (a b : Int) : G.differ (.datetime a) (.datetime b) = .ok (.bool (decide (a ≠ b))) := by
  rw [differ_datetime, eq_datetime, M_bind_ok, not_eq_ne]
theorem differ_two_bool (G : Ctx) (a b : Bool) : G.differ (.bool a) (.bool b) = .ok (.bool (decide (a ≠ b))) := by
  cases a <;> cases b <;> rfl
theorem differ_two_option (G : Ctx) (a b : Option String) :
    G.differ (ofOption .str a) (ofOption .str b) = .ok (.bool (decide (a ≠ b))) := by
  have := eq_option a b
  cases a with
  | none => rw [ofOption_none] at this ⊢; rw [differ_none, this, M_bind_ok, not_eq_ne]
  | some a => rw [ofOption_some] at this ⊢; rw [differ_str, this, M_bind_ok, not_eq_ne]
theorem differ_two_delta (G : Ctx) (a b : Option Int) :
    G.differ (ofOption .delta a) (ofOption .delta b) = .ok (.bool (decide (a ≠ b))) := by
  have := eq_option_delta a b
  cases a with
  | none => rw [ofOption_none] at this ⊢; rw [differ_none, this, M_bind_ok, not_eq_ne]
  | some a => rw [ofOption_some] at this ⊢; rw [differ_delta, this, M_bind_ok, not_eq_ne]

theorem compares_there {G : Ctx} {L : Listing} {e : Event} {name : String} {v0 v : Val} {d : Bool} (hn : ¬ apart name) (hl : late name)
    (h : getAttr name (eventRest L e ++ [("_organizer_id", ofOption .str e.organizerId)]) = .ok v0) (hd : G.differ v0 v = .ok (.bool d)) :
    Compares G (ofEvent L e) (name, v, d) := by
  refine .inr ⟨hn, v0, ?_, hd⟩
  rw [ofEvent_base, base_getattr hl, Ctx.attrOf, h]

theorem asked_compares (W n : Nat) (L : Listing) (hL : L.Faithful) (s : CalCore.Spec) (e : Event) :
    ∀ p ∈ asked L s e, Compares (Source.prog.ctx W (n + 3)) (ofEvent L e) p := by
  intro p hp
  simp only [asked, List.mem_cons, List.not_mem_nil, or_false] at hp
  rcases hp with h | h | h | h | h | h | h | h | h | h | h | h | h | h <;> subst h
  · exact compares_there (by decide) (by decide) rfl (differ_two_datetime ..)
  · exact compares_there (by decide) (by decide) rfl (differ_two_delta ..)
  · exact compares_there (by decide) (by decide) rfl (differ_two_str ..)
  · exact compares_there (by decide) (by decide) rfl (differ_two_str ..)
  · exact compares_there (by decide) (by decide) rfl (differ_two_str ..)
  · exact compares_there (by decide) (by decide) rfl (differ_two_str ..)
  · exact .inl ⟨.inl rfl, rfl⟩
  · exact compares_there (by decide) (by decide) rfl (differ_rules ..)
  · exact compares_there (by decide) (by decide) rfl (differ_two_bool ..)
  · exact compares_there (by decide) (by decide) rfl (differ_cats _ L hL ..)
  · exact compares_there (by decide) (by decide) rfl (differ_two_bool ..)
  · exact compares_there (by decide) (by decide) rfl (differ_two_str ..)
  · exact compares_there (by decide) (by decide) rfl (differ_two_option ..)
  · exact .inl ⟨.inr rfl, rfl⟩

theorem event_attr_organizer (L : Listing) (e : Event) :
    attrVal "_organizer_id" (ofEvent L e) = .ok (ofOption .str e.organizerId) := rfl

theorem status_none (W n : Nat) (L : Listing) (e : Event) :
    Source.prog.call W (n + 2) "EventBase.getParticipationStatus" [ofEvent L e, .none] [] = .error (.py .AttributeError) := by
  rw [call_eq (d := Source.EventBase_getParticipationStatus) rfl]
  lang [Source.EventBase_getParticipationStatus, ↓eval_method, method_none, ↓eval_attr, event_attr_state]

/-- How a loop ends that answers `True` or goes on. -/
def askCtl : Res Bool → Ctl
  | .ok true => .ret (.bool true)
  | .ok false => .next
  | .error f => .stop (ofFault f)

theorem differ_option_some (G : Ctx) (a : Option String) (b : String) :
    G.differ (ofOption .str a) (.str b) = .ok (.bool (decide (a ≠ some b))) := differ_two_option G a (some b)

theorem wanted_step (W n : Nat) (L : Listing) (e : Event) (x : Option AttId × String × String) (S X Y A R T : Option Val) (out : List Val) :
    ∃ a r t, forBody (Source.prog.ctx W (n + 2)) W (.names ["attendee", "role", "status"]) Source.EventSpecification_willModify_loop2
      (ofInvited L x) ⟨askEnv S (some (ofEvent L e)) X Y A R T, out⟩
    = (⟨askEnv S (some (ofEvent L e)) X Y a r t, out⟩, askCtl (willModifyLoop e [x])) := by
  obtain ⟨a, r, st⟩ := x
  simp only [willModifyLoop, ofInvited]
  cases a with
  | none =>
    have h := status_none W n L e
    exact ⟨_, _, _, by
      lang [forBody, Source.EventSpecification_willModify_loop2, askEnv, ofOption_none, ↓eval_method, on_event,
        callClass_some method_getParticipationStatus, h]
      rfl⟩
  | some a =>
    have h1 := getStatus_prog W n L e a
    have h2 := getRole_prog W n L e a
    refine ⟨some (ofAttendee L a), some (.str r), some (.str st), ?_⟩
    simp only []
    by_cases hs : e.getStatus a ≠ some st
    · rw [if_pos (.inl hs)]
      lang [forBody, Source.EventSpecification_willModify_loop2, askEnv, ofOption_some, ↓eval_method, on_event,
        callClass_some method_getParticipationStatus, h1, differ_option_some, eq_true hs]
      rfl
    · by_cases hr : e.getRole a ≠ some "REQ-PARTICIPANT"
      · rw [if_pos (.inr hr)]
        lang [forBody, Source.EventSpecification_willModify_loop2, askEnv, ofOption_some, ↓eval_method, on_event,
          callClass_some method_getParticipationStatus, callClass_some method_getParticipationRole, h1, h2, differ_option_some, eq_false hs,
          eq_true hr]
        rfl
      · rw [if_neg (by simp only [not_or]; exact ⟨hs, hr⟩)]
        lang [forBody, Source.EventSpecification_willModify_loop2, askEnv, ofOption_some, ↓eval_method, on_event,
          callClass_some method_getParticipationStatus, callClass_some method_getParticipationRole, h1, h2, differ_option_some, eq_false hs,
          eq_false hr]
        rfl

theorem wanted_cons (e : Event) (x : Option AttId × String × String) (l : List (Option AttId × String × String)) :
    willModifyLoop e (x :: l) = match willModifyLoop e [x] with
      | .ok false => willModifyLoop e l
      | r => r := by
  obtain ⟨a, r, st⟩ := x
  conv => lhs; unfold willModifyLoop
  simp only [willModifyLoop]
  cases a with
  | none => rfl
  | some a =>
    simp only []
    split <;> rfl

theorem wanted_loop (W n : Nat) (L : Listing) (S X Y : Option Val) (out : List Val) (e : Event)
    (l : List (Option AttId × String × String)) : ∀ (A R T : Option Val), ∃ a r t,
    forLoop (forBody (Source.prog.ctx W (n + 2)) W (.names ["attendee", "role", "status"]) Source.EventSpecification_willModify_loop2)
      (l.map (ofInvited L)) ⟨askEnv S (some (ofEvent L e)) X Y A R T, out⟩
    = (⟨askEnv S (some (ofEvent L e)) X Y a r t, out⟩, askCtl (willModifyLoop e l)) := by
  induction l with
  | nil => intro A R T; exact ⟨A, R, T, rfl⟩
  | cons x l ih =>
    intro A R T
    obtain ⟨a, r, t, h⟩ := wanted_step W n L e x S X Y A R T out
    rw [List.map_cons, wanted_cons]
    unfold forLoop
    rw [h]
    cases willModifyLoop e [x] with
    | ok b =>
      cases b with
      | true => exact ⟨a, r, t, rfl⟩
      | false => exact ih a r t
    | error f => exact ⟨a, r, t, rfl⟩

/-- `if self.attendees: for (attendee, role, status) in self.attendees: ...` -/
def wantedStmt : Stmt := .ite (.attr (.var "self") "attendees") [
  .for (.names ["attendee", "role", "status"]) (.attr (.var "self") "attendees") Source.EventSpecification_willModify_loop2 []] []

theorem wanted_stmt (W n : Nat) (L : Listing) (s : CalCore.Spec) (e : Event) (X Y A R T : Option Val) (out : List Val) :
    ∃ a r t, exec (Source.prog.ctx W (n + 2)) W wantedStmt ⟨askEnv (some (ofSpec L s)) (some (ofEvent L e)) X Y A R T, out⟩
    = (⟨askEnv (some (ofSpec L s)) (some (ofEvent L e)) X Y a r t, out⟩, askCtl (willModifyLoop e s.attendees)) := by
  cases hl : s.attendees with
  | nil =>
    exact ⟨A, R, T, by
      lang [wantedStmt, askEnv, ↓eval_attr, spec_attr_attendees, hl]
      rfl⟩
  | cons x l =>
    obtain ⟨a, r, t, h⟩ := wanted_loop W n L (some (ofSpec L s)) X Y out e (x :: l) A R T
    unfold askEnv at h
    refine ⟨a, r, t, ?_⟩
    generalize willModifyLoop e (x :: l) = z at h ⊢
    rw [List.map_cons] at h
    have ht : Val.truthy (.list (ofInvited L x :: l.map (ofInvited L))) = true := rfl
    match z, h with
    | .ok true, h => lang [wantedStmt, askEnv, ↓eval_attr, spec_attr_attendees, hl, ht, h, askCtl]
    | .ok false, h => lang [wantedStmt, askEnv, ↓eval_attr, spec_attr_attendees, hl, ht, h, askCtl]
    | .error f, h => lang [wantedStmt, askEnv, ↓eval_attr, spec_attr_attendees, hl, ht, h, askCtl]

/-- The test of the organizer. -/
def askOrgStmt : Stmt := .ite (.or (.and (.cmp .isNot (.attr (.var "self") "organizer") (.const .none)) (.cmp .ne (.attr (.var "o") "_organizer_id") (.method (.attr (.var "self") "organizer") "getAttendeeId" [] []))) (.or (.cmp .ne (.method (.var "o") "getParticipationStatus" [(.attr (.var "self") "organizer")] []) (.const (.str "ACCEPTED"))) (.cmp .ne (.method (.var "o") "getParticipationRole" [(.attr (.var "self") "organizer")] []) (.const (.str "REQ-PARTICIPANT"))))) [
  .ret (.const (.bool true))] []

/-- What the test of the organizer finds. -/
def askOrg (s : CalCore.Spec) (e : Event) : Res Bool :=
  match s.organizer with
  | none => raise .AttributeError
  | some a => .ok (decide (e.organizerId ≠ some a ∨ e.getStatus a ≠ some "ACCEPTED" ∨ e.getRole a ≠ some "REQ-PARTICIPANT"))

theorem askOrg_stmt (W n : Nat) (L : Listing) (s : CalCore.Spec) (e : Event) (X Y A R T : Option Val) (out : List Val) :
    exec (Source.prog.ctx W (n + 2)) W askOrgStmt ⟨askEnv (some (ofSpec L s)) (some (ofEvent L e)) X Y A R T, out⟩
    = (⟨askEnv (some (ofSpec L s)) (some (ofEvent L e)) X Y A R T, out⟩, askCtl (askOrg s e)) := by
  unfold askOrg
  cases ho : s.organizer with
  | none =>
    have h := status_none W n L e
    lang [askOrgStmt, askEnv, ↓eval_attr, spec_attr_organizer, ho, ofOption_none, ↓eval_method, on_event,
      callClass_some method_getParticipationStatus, h]
    rfl
  | some a =>
    have h1 := getStatus_prog W n L e a
    have h2 := getRole_prog W n L e a
    have h3 := getAttendeeId_prog W (n + 1) L a
    have hn : Val.is (ofAttendee L a) .none = .ok false := rfl
    simp only []
    by_cases h4 : e.organizerId ≠ some a
    · have h : e.organizerId ≠ some a ∨ e.getStatus a ≠ some "ACCEPTED" ∨ e.getRole a ≠ some "REQ-PARTICIPANT" := .inl h4
      rw [decide_eq_true h]
      lang [askOrgStmt, askEnv, ↓eval_attr, spec_attr_organizer, ho, ofOption_some, ↓eval_method, on_event, on_attendee, hn, event_attr_organizer,
        callClass_some method_getAttendeeId, h3, differ_option_some, eq_true h4]
      rfl
    · by_cases h5 : e.getStatus a ≠ some "ACCEPTED"
      · have h : e.organizerId ≠ some a ∨ e.getStatus a ≠ some "ACCEPTED" ∨ e.getRole a ≠ some "REQ-PARTICIPANT" := .inr (.inl h5)
        rw [decide_eq_true h]
        lang [askOrgStmt, askEnv, ↓eval_attr, spec_attr_organizer, ho, ofOption_some, ↓eval_method, on_event, on_attendee, hn, event_attr_organizer,
          callClass_some method_getAttendeeId, h3, differ_option_some, eq_false h4, callClass_some method_getParticipationStatus, h1, eq_true h5]
        rfl
      · by_cases h6 : e.getRole a ≠ some "REQ-PARTICIPANT"
        · have h : e.organizerId ≠ some a ∨ e.getStatus a ≠ some "ACCEPTED" ∨ e.getRole a ≠ some "REQ-PARTICIPANT" := .inr (.inr h6)
          rw [decide_eq_true h]
          lang [askOrgStmt, askEnv, ↓eval_attr, spec_attr_organizer, ho, ofOption_some, ↓eval_method, on_event, on_attendee, hn, event_attr_organizer,
            callClass_some method_getAttendeeId, h3, differ_option_some, eq_false h4, callClass_some method_getParticipationStatus, h1, eq_false h5,
            callClass_some method_getParticipationRole, h2, eq_true h6]
          rfl
        · have h : ¬ (e.organizerId ≠ some a ∨ e.getStatus a ≠ some "ACCEPTED" ∨ e.getRole a ≠ some "REQ-PARTICIPANT") := by
            simp only [not_or]; exact ⟨h4, h5, h6⟩
          rw [decide_eq_false h]
          lang [askOrgStmt, askEnv, ↓eval_attr, spec_attr_organizer, ho, ofOption_some, ↓eval_method, on_event, on_attendee, hn, event_attr_organizer,
            callClass_some method_getAttendeeId, h3, differ_option_some, eq_false h4, callClass_some method_getParticipationStatus, h1, eq_false h5,
            callClass_some method_getParticipationRole, h2, eq_false h6]
          rfl

theorem willModify_cases (s : CalCore.Spec) (e : Event) : s.willModify e =
    if s.attrsDiffer e then .ok true else match askOrg s e with
      | .ok false => willModifyLoop e s.attendees
      | r => r := by
  unfold Spec.willModify askOrg
  split
  · rfl
  · cases s.organizer with
    | none => rfl
    | some a =>
      simp only []
      by_cases h : e.organizerId ≠ some a ∨ e.getStatus a ≠ some "ACCEPTED" ∨ e.getRole a ≠ some "REQ-PARTICIPANT"
      · rw [if_pos h, decide_eq_true h]
      · rw [if_neg h, decide_eq_false h]

theorem willModify_eq : Source.EventSpecification_willModify = {
    kind := .fn
    params := [("self", none), ("o", none)]
    locals := ["name", "value", "attendee", "role", "status"]
    body := [.for (.names ["name", "value"]) (.attrItems (.var "self")) Source.EventSpecification_willModify_loop1 [],
      askOrgStmt, wantedStmt] } := rfl

/-- `True`, or nothing at all. -/
def ofModify (b : Bool) : Val := if b then .bool true else .none

theorem willModify_prog (W n : Nat) (L : Listing) (hL : L.Faithful) (s : CalCore.Spec) (e : Event) :
    Source.prog.call W (n + 4) "EventSpecification.willModify" [ofSpec L s, ofEvent L e] [] = toM ofModify (s.willModify e) := by
  obtain ⟨x, y, h1⟩ := ask_loop (Source.prog.ctx W (n + 3)) W (ofEvent L e) (some (ofSpec L s)) Option.none Option.none Option.none []
    (asked L s e) (asked_compares W n L hL s e) Option.none Option.none
  have h2 := askOrg_stmt W (n + 1) L s e x y Option.none Option.none Option.none []
  obtain ⟨a, r, t, h3⟩ := wanted_stmt W (n + 1) L s e x y Option.none Option.none Option.none []
  rw [← asked_items, asked_any] at h1
  rw [willModify_cases, call_eq (d := Source.EventSpecification_willModify) rfl]
  unfold askEnv at h1 h2 h3
  cases hd : s.attrsDiffer e with
  | true =>
    rw [hd] at h1
    lang [willModify_eq, ↓eval_attrItems, spec_items, h1]
    rfl
  | false =>
    rw [hd] at h1
    generalize askOrg s e = z at h2 ⊢
    generalize willModifyLoop e s.attendees = z' at h3 ⊢
    match z, h2 with
    | .error f, h2 =>
      lang [willModify_eq, ↓eval_attrItems, spec_items, h1, h2, askCtl]
      rw [toM_error]
    | .ok true, h2 =>
      lang [willModify_eq, ↓eval_attrItems, spec_items, h1, h2, askCtl]
      rfl
    | .ok false, h2 =>
      match z', h3 with
      | .error f, h3 =>
        lang [willModify_eq, ↓eval_attrItems, spec_items, h1, h2, h3, askCtl]
        rw [toM_error]
      | .ok true, h3 =>
        lang [willModify_eq, ↓eval_attrItems, spec_items, h1, h2, h3, askCtl]
        rfl
      | .ok false, h3 =>
        lang [willModify_eq, ↓eval_attrItems, spec_items, h1, h2, h3, askCtl]
        rfl

end CalCore.Lang
