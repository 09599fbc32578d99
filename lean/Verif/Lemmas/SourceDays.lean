import Verif.Lemmas.SourceCalendar
import Verif.Lemmas.PyEval
/- The calendar of one day, the participants of an event, and the searches of attendee sources, as written. -/
namespace CalCore.Lang
open CalCore.Spec
set_option linter.unusedSectionVars false
variable [Source.Globals]

theorem day_midnight (d : Int) (hd : 1 ≤ d ∧ d ≤ MAXORD) : mkDateTime (dyear d) (dmonth d) (dday d) = .ok (combine d 0) := by
  unfold mkDateTime
  rw [mkDate_date hd]
  rfl

theorem one_day : mkDelta (1 * DAY) = .ok (.delta DAY) := rfl

theorem eventsInDay_prog (W n : Nat) (L : Listing) (hL : L.Faithful) (s : Storage) (src : CalCore.Source) (c : Calendar)
    (d : Int) (hd : 1 ≤ d ∧ d ≤ MAXORD) (cr : Option Criteria) :
    Source.prog.call W (n + 9) "CalendarBase.getEventsInDay" [ofCalendar L s src c, .date d, ofOption (ofCriteria L) cr] []
    = toM (fun l => .list (l.map (ofEvent L))) (c.getEventsInDay src s d cr) := by
  have h0 := day_midnight d hd
  rw [call_eq (d := Source.CalendarBase_getEventsInDay) rfl]
  unfold Calendar.getEventsInDay
  cases hx : dtAdd (combine d 0) DAY with
  | error f =>
    lang [Source.CalendarBase_getEventsInDay, h0, one_day, hx, lift_error, error_bind, toM_error]
  | ok en =>
    have h := cal_getEvents_prog W n L hL s src c (some (combine d 0)) (some en) cr
    rw [ofPeriod, ofOption_some, ofOption_some] at h
    lang [Source.CalendarBase_getEventsInDay, h0, one_day, hx, ↓eval_method, on_calendar, callClass_some method_cal_getEvents, h,
      result_tail]
    rfl

theorem occurrencesInDay_prog (W n : Nat) (L : Listing) (hL : L.Faithful) (s : Storage) (src : CalCore.Source) (c : Calendar)
    (d : Int) (hd : 1 ≤ d ∧ d ≤ MAXORD) (cr : Option Criteria)
    (hr : ∀ cr en, dtAdd (combine d 0) DAY = .ok en → Ready W s cr en) (hW : 6 ≤ W) :
    Source.prog.call W (n + 10) "CalendarBase.getOccurrencesInDay" [ofCalendar L s src c, .date d, ofOption (ofCriteria L) cr] []
    = toM (ofOccs L) (c.getOccurrencesInDay src s d cr) := by
  have h0 := day_midnight d hd
  rw [call_eq (d := Source.CalendarBase_getOccurrencesInDay) rfl]
  unfold Calendar.getOccurrencesInDay
  cases hx : dtAdd (combine d 0) DAY with
  | error f =>
    lang [Source.CalendarBase_getOccurrencesInDay, h0, one_day, hx, lift_error, error_bind, toM_error]
  | ok en =>
    have h := cal_segmented_prog W n L hL s src c (some (combine d 0)) (some en) cr (fun cr b' en' h1 h2 => by
      injection h1 with h1
      injection h2 with h2
      subst h1 h2
      refine ⟨hr cr en hx, ?_⟩
      have := dtAdd_ok.1 hx
      have h3 : en / DAY - combine d 0 / DAY ≤ 1 := by
        obtain ⟨_, rfl⟩ := this
        unfold combine
        simp only [DAY]
        omega
      omega)
    rw [ofPeriod, ofOption_some, ofOption_some] at h
    lang [Source.CalendarBase_getOccurrencesInDay, h0, one_day, hx, ↓eval_method, on_calendar, callClass_some method_cal_segmented, h,
      result_tail]
    rfl

/-! ### participants -/

/-- The environment of `getAttendeeIds`. -/
def idsEnv (L : Listing) (e : Event) (ps pr : Option String) (res : List Val) (x y : Option Val) : Env :=
  [("self", some (ofEvent L e)), ("participation_status", some (ofOption .str ps)), ("participation_role", some (ofOption .str pr)),
   ("result", some (.list res)), ("attendee_id", x), ("status", y)]

/-- The second half of a turn of the loop of `getAttendeeIds`. -/
def idsRole (role : Dict AttId String) (pr : Option String) (p : AttId × String) : Res (List AttId) :=
  match pr with
    | none => .ok [p.1]
    | some q => match Dict.get? role p.1 with
      | none => raise .KeyError
      | some q' => if q ≠ q' then .ok [] else .ok [p.1]

/-- One turn of the loop of `getAttendeeIds`. -/
def idsStep (role : Dict AttId String) (ps pr : Option String) (p : AttId × String) : Res (List AttId) :=
  if (match ps with | some x => decide (x ≠ p.2) | none => false) then .ok [] else idsRole role pr p

theorem event_attr_role (L : Listing) (e : Event) : attrVal "_participation_role" (ofEvent L e) = .ok (ofDict e.prole) := rfl
theorem event_attr_state (L : Listing) (e : Event) : attrVal "_participation_state" (ofEvent L e) = .ok (ofDict e.pstate) := rfl

theorem index_ofDict (d : Dict String String) (a : String) :
    getIndex (ofDict d) (.str a) = match Dict.get? d a with
      | some v => .ok (.str v)
      | none => .error (.py .KeyError) := by
  unfold ofDict
  rw [index_dict, lookup_dict .str d a]
  cases Dict.get? d a <;> rfl

theorem ids_step (G : Ctx) (W : Nat) (L : Listing) (e : Event) (ps pr : Option String) (p : AttId × String) (acc : List AttId)
    (st : State) (hs : ∃ x y, st = ⟨idsEnv L e ps pr (acc.map .str) x y, []⟩) :
    FollowsC (fun (acc : List AttId) st => ∃ x y, st = ⟨idsEnv L e ps pr (acc.map .str) x y, []⟩)
      (do
        let here ← idsStep e.prole ps pr p
        .ok (acc ++ here))
      (forBody G W (.names ["attendee_id", "status"]) Source.EventBase_getAttendeeIds_loop1 (.tuple [.str p.1, .str p.2]) st) := by
  obtain ⟨x, y, rfl⟩ := hs
  unfold idsStep
  have hrest : FollowsC (fun (acc : List AttId) st => ∃ x y, st = ⟨idsEnv L e ps pr (acc.map .str) x y, []⟩)
      (do
        let here ← idsRole e.prole pr p
        .ok (acc ++ here))
      (execs G W (Source.EventBase_getAttendeeIds_loop1.drop 1)
        ⟨idsEnv L e ps pr (acc.map .str) (some (.str p.1)) (some (.str p.2)), []⟩) := by
    unfold idsRole
    cases pr with
    | none =>
      exact FollowsC.ok (c := acc ++ [p.1]) rfl
        (by lang [Source.EventBase_getAttendeeIds_loop1, List.drop, idsEnv, ofOption_none]; rfl)
        ⟨some (.str p.1), some (.str p.2), by simp [idsEnv, ofOption_none]⟩
    | some q =>
      have hi := index_ofDict e.prole p.1
      cases hg : Dict.get? e.prole p.1 with
      | none =>
        rw [hg] at hi
        exact FollowsC.error (f := .py .KeyError) rfl
          (by lang [Source.EventBase_getAttendeeIds_loop1, List.drop, idsEnv, ofOption_some, ↓eval_attr, event_attr_role, hi]; rfl)
      | some q' =>
        rw [hg] at hi
        by_cases hqq : q = q'
        · subst hqq
          simp only [ne_eq, not_true_eq_false, ↓reduceIte]
          exact FollowsC.ok (c := acc ++ [p.1]) rfl
            (by lang [Source.EventBase_getAttendeeIds_loop1, List.drop, idsEnv, ofOption_some, ↓eval_attr, event_attr_role, hi]; rfl)
            ⟨some (.str p.1), some (.str p.2), by simp [idsEnv, ofOption_some]⟩
        · simp only [ne_eq, hqq, not_false_eq_true, ↓reduceIte]
          exact FollowsC.cont (c := acc ++ []) rfl
            (by lang [Source.EventBase_getAttendeeIds_loop1, List.drop, idsEnv, ofOption_some, ↓eval_attr, event_attr_role, hi, hqq]; rfl)
            ⟨some (.str p.1), some (.str p.2), by simp [idsEnv, ofOption_some]⟩
  have hfirst : ∀ (c : Ctl), exec G W (Source.EventBase_getAttendeeIds_loop1.head (by decide))
      ⟨idsEnv L e ps pr (acc.map .str) (some (.str p.1)) (some (.str p.2)), []⟩
      = (⟨idsEnv L e ps pr (acc.map .str) (some (.str p.1)) (some (.str p.2)), []⟩, c) →
      forBody G W (.names ["attendee_id", "status"]) Source.EventBase_getAttendeeIds_loop1 (.tuple [.str p.1, .str p.2])
        ⟨idsEnv L e ps pr (acc.map .str) x y, []⟩
      = andThen (⟨idsEnv L e ps pr (acc.map .str) (some (.str p.1)) (some (.str p.2)), []⟩, c)
        (fun s => execs G W (Source.EventBase_getAttendeeIds_loop1.drop 1) s) := by
    intro c hc
    rw [← hc]
    rfl
  cases ps with
  | none =>
    rw [hfirst .next (by lang [Source.EventBase_getAttendeeIds_loop1, List.head, idsEnv, ofOption_none])]
    exact hrest
  | some q =>
    by_cases hq : q = p.2
    · rw [hfirst .next (by lang [Source.EventBase_getAttendeeIds_loop1, List.head, idsEnv, ofOption_some, hq])]
      rw [hq] at hrest ⊢
      simp only [ne_eq, not_true_eq_false, decide_false, Bool.false_eq_true, ↓reduceIte]
      exact hrest
    · rw [hfirst .cont (by lang [Source.EventBase_getAttendeeIds_loop1, List.head, idsEnv, ofOption_some, hq])]
      exact FollowsC.cont (c := acc) (by simp [hq, ok_bind]) rfl ⟨some (.str p.1), some (.str p.2), rfl⟩

theorem ids_cons (role : Dict AttId String) (ps pr : Option String) (p : AttId × String) (l : Dict AttId String) :
    getAttendeeIdsLoop role ps pr (p :: l) = (do
      let here ← idsStep role ps pr p
      let more ← getAttendeeIdsLoop role ps pr l
      .ok (here ++ more)) := by
  obtain ⟨a, s⟩ := p
  conv => lhs; unfold getAttendeeIdsLoop
  have hr : (match pr with
    | none => (do .ok (a :: (← getAttendeeIdsLoop role ps pr l)) : Res (List AttId))
    | some q => match Dict.get? role a with
      | none => raise .KeyError
      | some q' =>
        if q ≠ q' then getAttendeeIdsLoop role ps pr l
        else do .ok (a :: (← getAttendeeIdsLoop role ps pr l)))
      = (do
        let here ← idsRole role pr (a, s)
        let more ← getAttendeeIdsLoop role ps pr l
        .ok (here ++ more)) := by
    unfold idsRole
    cases pr with
    | none => cases getAttendeeIdsLoop role ps none l <;> rfl
    | some q =>
      simp only []
      cases Dict.get? role a with
      | none => rfl
      | some q' =>
        by_cases h : q = q' <;> simp only [h, ne_eq, not_true_eq_false, not_false_eq_true, ↓reduceIte] <;>
          cases getAttendeeIdsLoop role ps (some _) l <;> rfl
  unfold idsStep
  cases ps with
  | none => exact hr
  | some p =>
    by_cases h : p = s
    · simp only [h, ne_eq, not_true_eq_false, decide_false, Bool.false_eq_true, ↓reduceIte]
      rw [h] at hr
      exact hr
    · simp only [h, ne_eq, not_false_eq_true, decide_true, ↓reduceIte]
      cases getAttendeeIdsLoop role (some p) pr l <;> rfl

theorem idsStep_listed {ps : Option String} {p : AttId × String} (h : ∀ x, ps = some x → p.2 = x) (role : Dict AttId String)
    (pr : Option String) : idsStep role ps pr p = idsRole role pr p := by
  unfold idsStep
  cases ps with
  | none => rfl
  | some x => simp [h x rfl]

theorem idsStep_other {ps : Option String} {p : AttId × String} (h : ¬ ∀ x, ps = some x → p.2 = x) (role : Dict AttId String)
    (pr : Option String) : idsStep role ps pr p = .ok [] := by
  unfold idsStep
  cases ps with
  | none => exact absurd (fun x h => (by cases h)) h
  | some x =>
    have hx : x ≠ p.2 := fun hx => h (fun y hy => by injection hy with hy; rw [← hy, hx])
    simp [hx]

theorem ids_fold (role : Dict AttId String) (ps pr : Option String) (l : Dict AttId String) (acc : List AttId) :
    l.foldlM (fun acc p => do
      let here ← idsStep role ps pr p
      .ok (acc ++ here)) acc = (do
      let m ← getAttendeeIdsLoop role ps pr l
      .ok (acc ++ m)) :=
  fold_concat (step := idsStep role ps pr) (F := getAttendeeIdsLoop role ps pr) rfl (ids_cons role ps pr) l acc

theorem ids_items (d : Dict String String) :
    (d.map (fun p => (Val.str p.1, Val.str p.2))).map (fun x => Val.tuple [x.1, x.2]) = d.map (fun p => Val.tuple [.str p.1, .str p.2]) := by
  simp

theorem getAttendeeIds_prog (W n : Nat) (L : Listing) (e : Event) (ps pr : Option String) :
    Source.prog.call W (n + 1) "EventBase.getAttendeeIds" [ofEvent L e, ofOption .str ps, ofOption .str pr] []
    = toM (fun l => .list (l.map .str)) (e.getAttendeeIds ps pr) := by
  have hl := forLoop_fold (g := fun p : AttId × String => Val.tuple [.str p.1, .str p.2]) (f := fun acc p => do
      let here ← idsStep e.prole ps pr p
      .ok (acc ++ here)) e.pstate
    (fun acc p _ st hs => ids_step (Source.prog.ctx W n) W L e ps pr p acc st hs) []
    ⟨idsEnv L e ps pr [] none none, []⟩ ⟨_, _, rfl⟩
  rw [ids_fold] at hl
  simp only [idsEnv] at hl
  rw [call_eq (d := Source.EventBase_getAttendeeIds) rfl]
  unfold Event.getAttendeeIds
  cases hx : getAttendeeIdsLoop e.prole ps pr e.pstate with
  | error f =>
    obtain ⟨st, hs⟩ := hl.2 f (by rw [hx]; rfl)
    lang [Source.EventBase_getAttendeeIds, ↓eval_attr, event_attr_state, ofDict, ids_items, hs, toM_error]
  | ok l =>
    obtain ⟨st, hs, x, y, rfl⟩ := hl.1 l (by rw [hx]; rfl)
    lang [Source.EventBase_getAttendeeIds, ↓eval_attr, event_attr_state, ofDict, ids_items, hs, toM_ok]

/-! ### attendee sources -/

theorem source_attr_attendees (L : Listing) (s : Storage) (src : CalCore.Source) :
    attrVal "_attendees" (ofSource L s src) = .ok (.dict (src.map (fun p => (.str p.1, ofAttendee L p.1)))) := rfl

theorem source_attr_missing (L : Listing) (s : Storage) (src : CalCore.Source) :
    attrVal "attendees" (ofSource L s src) = .error (.py .AttributeError) := rfl

theorem source_values (L : Listing) (src : CalCore.Source) :
    (src.map (fun p => (Val.str p.1, ofAttendee L p.1))).map (fun x => x.2) = (Dict.keys src).map (ofAttendee L) := by
  simp [Dict.keys]

theorem method_getName : Source.prog.method 4 "Attendee" "getName" = none := by
  show (@Source.prog ⟨Source.globals⟩).method 4 "Attendee" "getName" = none
  decide +kernel

theorem findByName_prog (W n : Nat) (L : Listing) (s : Storage) (src : CalCore.Source) (q t : Val) :
    Source.prog.call W (n + 1) "SimpleAttendeeSource.findByName" [ofSource L s src, q, t] []
    = if src = [] then .ok (.list []) else .error (.py .AttributeError) := by
  have hv := source_values L src
  rw [call_eq (d := Source.SimpleAttendeeSource_findByName) rfl]
  cases src with
  | nil =>
    lang [Source.SimpleAttendeeSource_findByName, ↓eval_attr, source_attr_attendees]
    rfl
  | cons p src =>
    simp only [reduceCtorEq, ↓reduceIte]
    lang [Source.SimpleAttendeeSource_findByName, ↓eval_attr, source_attr_attendees, hv, Dict.keys,
      Source.SimpleAttendeeSource_findByName_loop1, ↓eval_method, on_attendee, callClass_none method_getName, forLoop, forBody]

theorem ofType_prog (W n : Nat) (L : Listing) (s : Storage) (src : CalCore.Source) (t : Val) :
    Source.prog.call W (n + 1) "SimpleAttendeeSource.getAttendeesOfType" [ofSource L s src, t] []
    = .error (.py .AttributeError) := by
  rw [call_eq (d := Source.SimpleAttendeeSource_getAttendeesOfType) rfl]
  lang [Source.SimpleAttendeeSource_getAttendeesOfType, ↓eval_attr, source_attr_missing]

end CalCore.Lang
