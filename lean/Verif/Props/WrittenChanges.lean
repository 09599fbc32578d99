import Verif.Lemmas.SourceChange
import Verif.Lemmas.SourceCreate
import Verif.Lemmas.FirstBad
import Verif.Lemmas.LangSame
import Verif.Props.WrittenCalendar
import Verif.Props.Store
/- Property C137: the methods of cal.py that change events, specifications, stores and calendars, as they are written. -/
namespace CalCore
open Spec Lang

/-! ### participation -/

theorem get?_set_if (d : Dict AttId String) (a : AttId) (v : String) (x : AttId) :
    Dict.get? (Dict.set d a v) x = if x = a then some v else Dict.get? d x := by
  rw [Dict.get?_set]
  by_cases h : x = a
  · rw [if_pos h, if_pos h.symm]
  · rw [if_neg h, if_neg (Ne.symm h)]

theorem get?_del_if (d : Dict AttId String) (a x : AttId) :
    Dict.get? (Dict.del d a) x = if x = a then none else Dict.get? d x := by
  rw [Dict.get?_del]
  by_cases h : x = a
  · rw [if_pos h, if_pos h.symm]
  · rw [if_neg h, if_neg (Ne.symm h)]

theorem does_setStatus (L : Listing) (e : Event) (he : e.Parts) (a : AttId) (st : Option String) :
    Does (ofEvent L e) "setParticipationStatus" [ofAttendee L a, ofOption .str st]
      [ofEvent L (e.setStatus a st).1, ofAttendee L a, ofOption .str st]
      ((e.setStatus a st).2.1.map (ofNote L (e.setStatus a st).1)) (endOf (e.setStatus a st).2.2) .none :=
  answers_of 0 3 (fun W n _ => setStatus_prog W n L e ⟨he.state, he.role⟩ a st)

/-- C137: `setParticipationStatus` as written.  An unknown status raises AssertionError, the status somebody already has
changes nothing; neither notifies anybody. -/
theorem C137_setStatus_same (L : Listing) (e : Event) (he : e.Parts) (a : AttId) (st : Option String) :
    (st ∉ statuses → Does (ofEvent L e) "setParticipationStatus" [ofAttendee L a, ofOption .str st]
      [ofEvent L e, ofAttendee L a, ofOption .str st] [] (some (.py .AssertionError)) .none) ∧
    (st ∈ statuses → e.getStatus a = st → Does (ofEvent L e) "setParticipationStatus" [ofAttendee L a, ofOption .str st]
      [ofEvent L e, ofAttendee L a, ofOption .str st] [] none .none) := by
  have h := does_setStatus L e he a st
  constructor
  · intro hs
    rw [C41_invalid e a st hs] at h
    exact h
  · intro hs hg
    have : e.setStatus a st = (e, [], .ok ()) := by
      cases st with
      | none => rw [setStatus_none, if_pos hg]
      | some s => rw [CalCore.setStatus_some e a s hs, if_pos hg]
    rw [this] at h
    exact h

/-- C137: a new status is set, other statuses, all roles and all attributes stay, and there is one notification, which holds
the changed event, the attendee and both statuses. -/
theorem C137_setStatus (L : Listing) (e : Event) (he : e.Parts) (a : AttId) (st : String) (hs : some st ∈ statuses)
    (hg : e.getStatus a ≠ some st) :
    ∃ e', Does (ofEvent L e) "setParticipationStatus" [ofAttendee L a, .str st] [ofEvent L e', ofAttendee L a, .str st]
      [.obj "EventParticipationChangeEvent" [("event", ofEvent L e'), ("attendee", ofAttendee L a),
        ("old_status", ofOption .str (e.getStatus a)), ("new_status", .str st)]] none .none ∧
      SameButParticipation e e' ∧ e'.prole = e.prole ∧
      ∀ x, e'.getStatus x = if x = a then some st else e.getStatus x := by
  have h := does_setStatus L e he a (some st)
  rw [CalCore.setStatus_some e a st hs, if_neg hg] at h
  refine ⟨_, h, rfl, rfl, fun x => ?_⟩
  exact get?_set_if _ _ _ _

/-- C137: without a status somebody is removed from both dictionaries, with one notification; if there is no role to remove,
the status is gone, KeyError is raised, and nobody is notified. -/
theorem C137_removeStatus (L : Listing) (e : Event) (he : e.Parts) (a : AttId) (hg : e.getStatus a ≠ none) :
    ∃ e', Does (ofEvent L e) "setParticipationStatus" [ofAttendee L a, .none] [ofEvent L e', ofAttendee L a, .none]
      (if e.getRole a = none then [] else [.obj "EventParticipationChangeEvent" [("event", ofEvent L e'), ("attendee", ofAttendee L a),
        ("old_status", ofOption .str (e.getStatus a)), ("new_status", .none)]])
      (if e.getRole a = none then some (.py .KeyError) else none) .none ∧
      SameButParticipation e e' ∧
      (∀ x, e'.getStatus x = if x = a then none else e.getStatus x) ∧
      ∀ x, e'.getRole x = if x = a then none else e.getRole x := by
  have h := does_setStatus L e he a none
  rw [setStatus_none, if_neg hg] at h
  by_cases hr : e.getRole a = none
  · simp only [if_pos hr] at h ⊢
    refine ⟨_, h, rfl, fun x => get?_del_if _ _ _, fun x => ?_⟩
    by_cases hx : x = a
    · rw [if_pos hx, hx]; exact hr
    · rw [if_neg hx]; rfl
  · simp only [if_neg hr] at h ⊢
    exact ⟨_, h, rfl, fun x => get?_del_if _ _ _, fun x => get?_del_if _ _ _⟩

/-- C137: `setParticipationRole` as written.  An unknown role raises AssertionError; another one is set for the attendee, who
need not have a status, and nobody is notified. -/
theorem C137_setRole (L : Listing) (e : Event) (a : AttId) (r : String) :
    (r ∉ roles → Does (ofEvent L e) "setParticipationRole" [ofAttendee L a, .str r] [ofEvent L e, ofAttendee L a, .str r] []
      (some (.py .AssertionError)) .none) ∧
    (r ∈ roles → ∃ e', Does (ofEvent L e) "setParticipationRole" [ofAttendee L a, .str r] [ofEvent L e', ofAttendee L a, .str r] []
      none .none ∧ SameButParticipation e e' ∧ e'.pstate = e.pstate ∧
      ∀ x, e'.getRole x = if x = a then some r else e.getRole x) := by
  have h : Does (ofEvent L e) "setParticipationRole" [ofAttendee L a, .str r]
      [ofEvent L (e.setRole a r).1, ofAttendee L a, .str r] [] (endOf (e.setRole a r).2) .none :=
    answers_of 0 2 (fun W n _ => setRole_prog W n L e a r)
  unfold Event.setRole at h
  constructor
  · intro hr
    rw [if_pos hr] at h
    exact h
  · intro hr
    rw [if_neg (not_not.2 hr)] at h
    exact ⟨_, h, rfl, rfl, fun x => get?_set_if _ _ _ _⟩

/-- C137: `invite` as written.  It returns; those without a status get NEEDS-ACTION and the usual role, everybody else keeps
what they have; and there is one notification for each new attendee, and no other. -/
theorem C137_invite (L : Listing) (e : Event) (he : e.Parts) (l : List AttId) :
    ∃ e' notes, SameButParticipation e e' ∧
      (∀ a, e'.getStatus a = if a ∈ l ∧ e.getStatus a = none then some "NEEDS-ACTION" else e.getStatus a) ∧
      (∀ a, e'.getRole a = if a ∈ l ∧ e.getStatus a = none then some "REQ-PARTICIPANT" else e.getRole a) ∧
      notes.Nodup ∧ (∀ n, n ∈ notes ↔ ∃ a ∈ l, e.getStatus a = none ∧ n = .participation e.uid a none (some "NEEDS-ACTION")) ∧
      ∀ W n, ∃ vs, List.Forall₂ (Reports L) vs notes ∧
        Source.prog.invoke W (n + 4) (ofEvent L e) "invite" [.list (l.map (ofAttendee L))] []
          = .ok (procVal [ofEvent L e', .list (l.map (ofAttendee L))] vs none .none) := by
  obtain ⟨h1, h2, h3, h4⟩ := C40_invite e l
  obtain ⟨h5, h6⟩ := C40_notifications e l
  refine ⟨(e.invite l).1, (e.invite l).2.1, h2, fun a => ?_, fun a => ?_, h5, h6, fun W n => ?_⟩
  · by_cases ha : a ∈ l ∧ e.getStatus a = none
    · rw [if_pos ha]; exact (h4 a ha.1 ha.2).1
    · rw [if_neg ha]
      exact (h3 a (by by_cases hl : a ∈ l; exact .inl (fun h => ha ⟨hl, h⟩); exact .inr hl)).1
  · by_cases ha : a ∈ l ∧ e.getStatus a = none
    · rw [if_pos ha]; exact (h4 a ha.1 ha.2).2
    · rw [if_neg ha]
      exact (h3 a (by by_cases hl : a ∈ l; exact .inl (fun h => ha ⟨hl, h⟩); exact .inr hl)).2
  · obtain ⟨vs, f, h⟩ := invite_prog W n L e ⟨he.state, he.role⟩ l
    rw [h1] at h
    exact ⟨vs, f, h⟩

/-! ### all-day events -/

/-- C137: `alldayAdjust` as written, for events without a duration or with one of at most 999999999 days either way: the event
begins at midnight and takes whole days. -/
theorem C137_allday (L : Listing) (e : Event) (h : ∀ d, e.duration = some d → -(999999999 * DAY) ≤ d ∧ d ≤ 999999999 * DAY) :
    Does (ofEvent L e) "alldayAdjust" []
      [ofEvent L { e with dtstart := dtDate e.dtstart * DAY, duration := some ((e.duration.map daysTaken).getD 1 * DAY) }]
      [] none .none := by
  rw [← alldayAdjust_days]
  exact answers_of 0 1 (fun W n _ => allday_fits W n L e h)

/-- C137: the longest durations, those that need another day beyond 999999999, raise OverflowError; the start is moved to midnight
all the same. -/
theorem C137_allday_overflow (L : Listing) (e : Event) (d : TimeDelta) (hd : e.duration = some d) (hl : 999999999 * DAY < d)
    (hu : d < 1000000000 * DAY) :
    Does (ofEvent L e) "alldayAdjust" [] [ofEvent L { e with dtstart := dtDate e.dtstart * DAY }] []
      (some (.py .OverflowError)) .none := by
  refine answers_of 0 1 (fun W n _ => ?_)
  have h := allday_some W n L e d hd (by unfold DAY at *; omega) hu
  have h0 : combine (dtDate e.dtstart) 0 = dtDate e.dtstart * DAY := by simp [combine]
  rw [if_neg (by omega)] at h
  unfold startAt at h
  rw [h0] at h
  exact h

/-! ### specifications -/

/-- C137: `EventSpecification(...)` as written, with everything given, and with only the start and the duration. -/
theorem C137_specification (L : Listing) (hL : L.Faithful) (s : Spec) (t : DateTime) (d : Option TimeDelta) :
    Makes "EventSpecification" (specArgs L s) (.ok (ofSpec L s)) ∧
    Makes "EventSpecification" [.datetime t, ofOption .delta d] (.ok (ofSpec L
      { dtstart := t, duration := d, title := "", description := "", location := "", status := "TENTATIVE", organizer := none,
        recurrence := none, allday := false, categories := ∅, transparent := false, access := "PUBLIC", document := none,
        attendees := [] })) :=
  ⟨makes_of 0 1 (fun W n _ => spec_init_prog W n L s), makes_of 0 1 (fun W n _ => spec_plain_prog W n L hL t d)⟩

/-- C137: `setOnObject` as written.  The event gets every attribute of the specification and its organizer, who accepts in the
usual role; then the attendees up to the first entry with an unknown role (AssertionError) or without an attendee
(AttributeError), whose exception leaves everything set so far.  The specification stays, and nobody is notified. -/
theorem C137_setOnObject (L : Listing) (hL : L.Faithful) (s : Spec) (e : Event) :
    ∃ e', Does (ofSpec L s) "setOnObject" [ofEvent L e] [ofSpec L s, ofEvent L e'] [] ((badEntry s).map .py) .none ∧
      HasAttributes s e' ∧ e'.uid = e.uid ∧ e'.organizerId = s.organizer ∧
      ∀ a, e'.getStatus a = statusAfter s (e.getStatus a) a ∧ e'.getRole a = roleAfter s (e.getRole a) a := by
  obtain ⟨h1, h2⟩ := setOnObject_outcome s e
  obtain ⟨h3, h4, h5⟩ := setOnObject_has s e
  have h : Does (ofSpec L s) "setOnObject" [ofEvent L e] [ofSpec L s, ofEvent L (s.setOnObject e).1] []
      (endOf (s.setOnObject e).2) .none := answers_of 0 4 (fun W n _ => setOnObject_prog W n L hL s e)
  have h0 : endOf (s.setOnObject e).2 = (badEntry s).map .py := by
    rw [h1]
    cases badEntry s <;> rfl
  rw [h0] at h
  exact ⟨_, h, h3, h4, h5, h2⟩

/-- C137: `willModify` as written.  It says so when an attribute differs; otherwise it raises AttributeError if no organizer is
asked for; otherwise it says so when the organizer differs or has not accepted in the usual role; otherwise the first entry of
the attendee list that is not fulfilled decides, and if there is none, None is returned. -/
theorem C137_willModify (L : Listing) (hL : L.Faithful) (s : Spec) (e : Event) :
    (¬ HasAttributes s e → Answers (ofSpec L s) "willModify" [ofEvent L e] (.ok (.bool true))) ∧
    (HasAttributes s e → s.organizer = none → Answers (ofSpec L s) "willModify" [ofEvent L e] (.error (.py .AttributeError))) ∧
    ∀ o, HasAttributes s e → s.organizer = some o →
      (e.organizerId ≠ some o ∨ ¬ Fulfilled e (some o, "REQ-PARTICIPANT", "ACCEPTED") →
        Answers (ofSpec L s) "willModify" [ofEvent L e] (.ok (.bool true))) ∧
      (e.organizerId = some o → Fulfilled e (some o, "REQ-PARTICIPANT", "ACCEPTED") →
        (∀ l p m, s.attendees = l ++ p :: m → (∀ q ∈ l, Fulfilled e q) → ¬ Fulfilled e p →
          Answers (ofSpec L s) "willModify" [ofEvent L e] (if p.1 = none then .error (.py .AttributeError) else .ok (.bool true))) ∧
        ((∀ q ∈ s.attendees, Fulfilled e q) → Answers (ofSpec L s) "willModify" [ofEvent L e] (.ok .none))) := by
  have h : Answers (ofSpec L s) "willModify" [ofEvent L e] (toM ofModify (s.willModify e)) :=
    answers_of 0 4 (fun W n _ => willModify_prog W n L hL s e)
  refine ⟨fun hd => ?_, fun hd ho => ?_, fun o hd ho => ⟨fun hne => ?_, fun he hf => ⟨fun l p m hl h1 h2 => ?_, fun hall => ?_⟩⟩⟩
  · rw [hasAttributes_iff] at hd
    unfold Spec.willModify at h
    rw [if_pos (by simpa using hd)] at h
    exact h
  · rw [hasAttributes_iff] at hd
    unfold Spec.willModify at h
    rw [if_neg (by simp [hd]), ho] at h
    exact h
  · rw [hasAttributes_iff] at hd
    unfold Spec.willModify at h
    rw [if_neg (by simp [hd]), ho] at h
    simp only [] at h
    rw [if_pos (by
      rcases hne with hne | hne
      · exact .inl hne
      · right
        by_cases h1 : e.getStatus o = some "ACCEPTED"
        · exact .inr (fun h2 => hne ⟨o, rfl, h1, h2⟩)
        · exact .inl h1)] at h
    exact h
  all_goals
    rw [hasAttributes_iff] at hd
    unfold Spec.willModify at h
    rw [if_neg (by simp [hd]), ho] at h
    simp only [] at h
    obtain ⟨o', ho', h3, h4⟩ := hf
    simp only [Option.some.injEq] at ho'
    subst ho'
    rw [if_neg (by simp [he, h3, h4])] at h
  · rw [hl, willModifyLoop_first e l m p h1 h2] at h
    split at h <;> rename_i hp <;> first | rw [if_pos hp] | rw [if_neg hp]
    · exact h
    · exact h
  · rw [willModifyLoop_all e _ hall] at h
    exact h

/-! ### making and storing events -/

/-- The specification does not ask for an all-day event of more than 999999999 days. -/
def Spec.Moderate (s : Spec) : Prop :=
  s.allday = true → ∀ d, s.duration = some d → -(999999999 * DAY) ≤ d ∧ d ≤ 999999999 * DAY

/-- C137: `Event(unique_id, spec)` as written.  It fails as the first bad entry of the attendee list says; otherwise the event has
the id, the organizer, the statuses and roles that are asked for, and the attributes that are asked for, except that an all-day
event begins at midnight and takes whole days. -/
theorem C137_event (L : Listing) (u : Uid) (s : Spec) (hs : Spec.Moderate s) :
    (∀ x, badEntry s = some x → Makes "Event" [.str u, ofSpec L s] (.error (.py x))) ∧
    (badEntry s = none → ∃ e, Makes "Event" [.str u, ofSpec L s] (.ok (ofEvent L e)) ∧ newEvent u s = .ok e ∧
      e.uid = u ∧ e.organizerId = s.organizer ∧
      (∀ a, e.getStatus a = statusAfter s none a ∧ e.getRole a = roleAfter s none a) ∧
      HasAttributes (asMade s) e) := by
  have h : Makes "Event" [.str u, ofSpec L s] (toM (ofEvent L) (newEvent u s)) :=
    makes_of 0 5 (fun W n _ => event_init_prog W n L u s hs)
  obtain ⟨h1, h2⟩ := setOnObject_outcome s (blankEvent u)
  obtain ⟨h3, h4, h5⟩ := setOnObject_has s (blankEvent u)
  unfold newEvent at h ⊢
  generalize s.setOnObject (blankEvent u) = z at h h1 h2 h3 h4 h5 ⊢
  obtain ⟨e, r⟩ := z
  simp only at h1 h2 h3 h4 h5
  constructor
  · intro x hx
    rw [hx] at h1
    subst h1
    exact h
  · intro hx
    rw [hx] at h1
    subst h1
    simp only [toM_ok] at h ⊢
    refine ⟨_, h, rfl, ?_⟩
    rw [h3.allday]
    unfold asMade
    cases ha : s.allday with
    | false => exact ⟨h4, h5, h2, h3⟩
    | true =>
      rw [if_pos rfl, if_pos rfl, alldayAdjust_days, h3.dtstart, h3.duration]
      exact ⟨h4, h5, h2, ⟨rfl, rfl, h3.title, h3.description, h3.location, h3.status, h3.recurrence, h3.allday.trans ha, h3.categories,
        h3.transparent, h3.access, h3.document⟩⟩

/-- C137: an all-day event of more than 999999999 days cannot be made. -/
theorem C137_event_overflow (L : Listing) (u : Uid) (s : Spec) (hb : badEntry s = none) (ha : s.allday = true) (d : TimeDelta)
    (hd : s.duration = some d) (hl : 999999999 * DAY < d) (hu : d < 1000000000 * DAY) :
    Makes "Event" [.str u, ofSpec L s] (.error (.py .OverflowError)) := by
  obtain ⟨h1, _⟩ := setOnObject_outcome s (blankEvent u)
  rw [hb] at h1
  exact makes_of 0 5 (fun W n _ => event_init_over W n L u s (s.setOnObject (blankEvent u)).1
    (Prod.ext rfl h1) ha d hd hl hu)

/-- C137: `createEventFromSpecification` as written, with an id.  What making the event raises is raised, nothing is stored and nobody
is notified; otherwise the event that was made is returned, is found under its id, other ids lead where they did, and there is
one notification, that the event was created. -/
theorem C137_create (L : Listing) (w : World) (u : Uid) (s : Spec) (hs : Spec.Moderate s) :
    (∀ x, badEntry s = some x → Does (ofManager L w.store) "createEventFromSpecification" [.str u, ofSpec L s]
      [ofManager L w.store, .str u, ofSpec L s] [] (some (.py x)) .none) ∧
    (∀ e, newEvent u s = .ok e → ∃ st, st.map = w.store.map.put u (some e) ∧
      Does (ofManager L w.store) "createEventFromSpecification" [.str u, ofSpec L s]
        [ofManager L st, .str u, ofSpec L s] [.obj "EventCreatedEvent" [("event", ofEvent L e)]] none (ofEvent L e)) := by
  have h : Does (ofManager L w.store) "createEventFromSpecification" [.str u, ofSpec L s]
      [ofManager L (w.createEvent 0 (some u) s).1.store, .str u, ofSpec L s]
      (telling L "EventCreatedEvent" (w.createEvent 0 (some u) s).2)
      (endOf (w.createEvent 0 (some u) s).2) (given (ofEvent L) (w.createEvent 0 (some u) s).2) :=
    answers_of 0 8 (fun W n _ => manager_createEvent_prog W n L w 0 u s hs)
  constructor
  · intro x hx
    obtain ⟨h1, _⟩ := setOnObject_outcome s (blankEvent u)
    have hn : newEvent u s = .error (.py x) := by
      unfold newEvent
      rw [hx] at h1
      generalize s.setOnObject (blankEvent u) = z at h1 ⊢
      obtain ⟨e, r⟩ := z
      simp only at h1
      subst h1
      rfl
    unfold World.createEvent Storage.createEvent at h
    simp only [Option.getD_some, hn] at h
    exact h
  · intro e he
    have hm := C32_latest w 0 (some u) s e
    unfold World.createEvent Storage.createEvent at h hm
    simp only [Option.getD_some, he] at h hm
    refine ⟨_, ?_, h⟩
    funext k
    rw [hm trivial k, newEvent_uid he]
    rfl

/-- C137: `deleteEvent` as written.  An event whose id is not stored raises KeyError and changes nothing; otherwise what is stored
under the id of the event is gone, the rest stays, and there is one notification, that the event was deleted. -/
theorem C137_delete (L : Listing) (w : World) (hw : w.store.WF) (e : Event) :
    (w.store.map e.uid = none → Does (ofManager L w.store) "deleteEvent" [ofEvent L e] [ofManager L w.store, ofEvent L e] []
      (some (.py .KeyError)) .none) ∧
    (∀ e', w.store.map e.uid = some e' → ∃ st, st.map = w.store.map.put e.uid none ∧
      Does (ofManager L w.store) "deleteEvent" [ofEvent L e] [ofManager L st, ofEvent L e]
        [.obj "EventDeletedEvent" [("event", ofEvent L e)]] none .none) := by
  have h : Does (ofManager L w.store) "deleteEvent" [ofEvent L e]
      [ofManager L (w.deleteEvent e.uid).1.store, ofEvent L e]
      (telling L "EventDeletedEvent" ((w.deleteEvent e.uid).2.map (fun _ => e))) (endOf (w.deleteEvent e.uid).2) .none :=
    answers_of 0 2 (fun W n _ => manager_deleteEvent_prog W n L w hw.nodup e)
  have hm : w.store.map e.uid = Dict.get? w.store.events e.uid := rfl
  rcases w.deleteEvent_eq e.uid with ⟨hh, h'⟩ | ⟨hh, h'⟩
  · rw [h'] at h
    refine ⟨fun _ => h, fun e' he' => ?_⟩
    rw [Dict.has_false_iff] at hh
    rw [hm, hh] at he'
    cases he'
  · rw [h'] at h
    refine ⟨fun hn => ?_, fun e' he' => ⟨_, ?_, h⟩⟩
    · obtain ⟨v, hv⟩ := (Dict.has_iff_get? _ _).1 hh
      rw [hm, hv] at hn
      cases hn
    · funext k
      show Dict.get? (Dict.del w.store.events e.uid) k = if k = e.uid then none else Dict.get? w.store.events k
      rw [Dict.get?_del]
      by_cases hk : k = e.uid
      · rw [if_pos hk, if_pos hk.symm]
      · rw [if_neg hk, if_neg (Ne.symm hk)]

/-! ### calendars and attendee sources -/

/-- C137: `addAttendee` and `removeAttendee` as written.  Removing somebody who is not in the calendar raises KeyError. -/
theorem C137_calendar (L : Listing) (s : Storage) (src : Source) (c : Calendar) (hc : (Dict.keys c).Nodup) (a : AttId) :
    (∃ c', Does (ofCalendar L s src c) "addAttendee" [ofAttendee L a] [ofCalendar L s src c', ofAttendee L a] [] none .none ∧
      ∀ x, x ∈ Dict.keys c' ↔ x = a ∨ x ∈ Dict.keys c) ∧
    (a ∈ Dict.keys c → ∃ c', Does (ofCalendar L s src c) "removeAttendee" [ofAttendee L a] [ofCalendar L s src c', ofAttendee L a] []
      none .none ∧ ∀ x, x ∈ Dict.keys c' ↔ x ≠ a ∧ x ∈ Dict.keys c) ∧
    (a ∉ Dict.keys c → Does (ofCalendar L s src c) "removeAttendee" [ofAttendee L a] [ofCalendar L s src c, ofAttendee L a] []
      (some (.py .KeyError)) .none) := by
  have h : Does (ofCalendar L s src c) "removeAttendee" [ofAttendee L a] [ofCalendar L s src (c.remove a).1, ofAttendee L a] []
      (endOf (c.remove a).2) .none := answers_of 0 2 (fun W n _ => removeAttendee_prog W n L s src c hc a)
  refine ⟨⟨c.add a, answers_of 0 2 (fun W n _ => addAttendee_prog W n L s src c a), fun x => ?_⟩, fun ha => ?_, fun ha => ?_⟩
  · exact Dict.mem_keys_set _ _ _ _
  · unfold Calendar.remove at h
    rw [if_pos ((Dict.has_iff_mem_keys _ _).2 ha)] at h
    exact ⟨_, h, fun x => Dict.mem_keys_del _ _ _⟩
  · unfold Calendar.remove at h
    rw [if_neg (fun hh => ha ((Dict.has_iff_mem_keys _ _).1 hh))] at h
    exact h

/-- C137: `createIndividual` and `createRoom` as written: the attendee with the given name and type is returned and found under the
id. -/
theorem C137_people (L : Listing) (s : Storage) (src : Source) (a : AttId) (name : String) :
    (L.person a = personAttrs name "INDIVIDUAL" (ofManager L s) →
      ∃ src', Does (ofSource L s src) "createIndividual" [.str a, .str name] [ofSource L s src', .str a, .str name] [] none
        (ofAttendee L a) ∧ ∀ x, Dict.get? src' x = if x = a then some ⟨name, "INDIVIDUAL"⟩ else Dict.get? src x) ∧
    (L.person a = personAttrs name "ROOM" (ofManager L s) →
      ∃ src', Does (ofSource L s src) "createRoom" [.str a, .str name] [ofSource L s src', .str a, .str name] [] none
        (ofAttendee L a) ∧ ∀ x, Dict.get? src' x = if x = a then some ⟨name, "ROOM"⟩ else Dict.get? src x) := by
  have hx : ∀ (t : String) x, Dict.get? (Dict.set src a (⟨name, t⟩ : Attendee)) x = if x = a then some ⟨name, t⟩ else Dict.get? src x := by
    intro t x
    rw [Dict.get?_set]
    by_cases hk : x = a
    · rw [if_pos hk, if_pos hk.symm]
    · rw [if_neg hk, if_neg (Ne.symm hk)]
  exact ⟨fun hp => ⟨_, answers_of 0 3 (fun W n _ => createIndividual_prog W n L s src a name hp), hx _⟩,
    fun hp => ⟨_, answers_of 0 3 (fun W n _ => createRoom_prog W n L s src a name hp), hx _⟩⟩

/-- C137: an attendee that was created with a type says so, and knows their id. -/
theorem C137_person (L : Listing) (s : Storage) (a : AttId) (name t : String) (hp : L.person a = personAttrs name t (ofManager L s)) :
    Answers (ofAttendee L a) "getAttendeeType" [] (.ok (.str t)) ∧ Answers (ofAttendee L a) "getAttendeeId" [] (.ok (.str a)) :=
  ⟨answers_of 0 1 (fun W n _ => getAttendeeType_prog W n L a (.str t) (by rw [hp]; rfl)),
    answers_of 0 1 (fun W n _ => getAttendeeId_prog W n L a)⟩

/-! ### examples -/

namespace Sample

/-- The meeting, to which Bob is invited. -/
def met : Event := (meeting.setOnObject (blankEvent "m")).1

/-- The meeting as a conference of a day and an hour; Carol chairs it, then somebody without a role is listed. -/
def conference : Spec :=
  { meeting with allday := true, duration := some (25 * HOUR), attendees := [(some "carol", "CHAIR", "ACCEPTED"), (some "dave", "", "DECLINED")] }

/-- Attendees with the name Eve, who are rooms. -/
def rooms : Listing := ⟨fun s => s.sort (· ≤ ·), fun _ => personAttrs "Eve" "ROOM" (ofManager listing store)⟩

theorem met_parts : met.Parts := setOnObject_parts ⟨by decide, by decide⟩ meeting

end Sample

/-- C137, concrete: Bob, who is invited, accepts, with one notification; Dave is given a role, cannot be given an unknown one;
inviting Bob and Dave notifies about Dave only. -/
example :
    Sample.met.Parts ∧ some "ACCEPTED" ∈ statuses ∧ Sample.met.getStatus "bob" = some "NEEDS-ACTION" ∧
    Source.prog.invoke 9 12 (ofEvent Sample.listing Sample.met) "setParticipationStatus" [ofAttendee Sample.listing "bob", .str "ACCEPTED"] []
      = .ok (procVal [ofEvent Sample.listing { Sample.met with pstate := [("alice", "ACCEPTED"), ("bob", "ACCEPTED")] },
          ofAttendee Sample.listing "bob", .str "ACCEPTED"]
        [.obj "EventParticipationChangeEvent"
          [("event", ofEvent Sample.listing { Sample.met with pstate := [("alice", "ACCEPTED"), ("bob", "ACCEPTED")] }),
           ("attendee", ofAttendee Sample.listing "bob"), ("old_status", .str "NEEDS-ACTION"), ("new_status", .str "ACCEPTED")]] none .none) ∧
    Source.prog.invoke 9 12 (ofEvent Sample.listing Sample.met) "setParticipationRole" [ofAttendee Sample.listing "dave", .str "BOSS"] []
      = .ok (procVal [ofEvent Sample.listing Sample.met, ofAttendee Sample.listing "dave", .str "BOSS"] [] (some (.py .AssertionError)) .none) ∧
    Source.prog.invoke 9 12 (ofEvent Sample.listing Sample.met) "invite"
        [.list [ofAttendee Sample.listing "bob", ofAttendee Sample.listing "dave"]] []
      = .ok (procVal [ofEvent Sample.listing { Sample.met with
            pstate := [("alice", "ACCEPTED"), ("bob", "NEEDS-ACTION"), ("dave", "NEEDS-ACTION")],
            prole := [("alice", "REQ-PARTICIPANT"), ("bob", "OPT-PARTICIPANT"), ("dave", "REQ-PARTICIPANT")] },
          .list [ofAttendee Sample.listing "bob", ofAttendee Sample.listing "dave"]]
        [.obj "EventParticipationChangeEvent"
          [("event", ofEvent Sample.listing { Sample.met with
              pstate := [("alice", "ACCEPTED"), ("bob", "NEEDS-ACTION"), ("dave", "NEEDS-ACTION")] }),
           ("attendee", ofAttendee Sample.listing "dave"), ("old_status", .none), ("new_status", .str "NEEDS-ACTION")]] none .none) :=
  ⟨Sample.met_parts, by decide, by decide +kernel, sameM_eq (by decide +kernel), sameM_eq (by decide +kernel), sameM_eq (by decide +kernel)⟩

/-- C137, concrete: somebody with a status and no role is removed, silently and with KeyError. -/
example :
    { Sample.met with pstate := [("dave", "ACCEPTED")], prole := [] }.Parts ∧
    Source.prog.invoke 9 12 (ofEvent Sample.listing { Sample.met with pstate := [("dave", "ACCEPTED")], prole := [] })
        "setParticipationStatus" [ofAttendee Sample.listing "dave", .none] []
      = .ok (procVal [ofEvent Sample.listing { Sample.met with pstate := [], prole := [] }, ofAttendee Sample.listing "dave", .none]
        [] (some (.py .KeyError)) .none) :=
  ⟨⟨by decide, by decide⟩, sameM_eq (by decide +kernel)⟩

/-- C137, concrete: the meeting of two hours takes one day from midnight as an all-day event; one of 999999999 days and an hour
raises OverflowError. -/
example :
    Source.prog.invoke 9 12 (ofEvent Sample.listing Sample.met) "alldayAdjust" [] []
      = .ok (procVal [ofEvent Sample.listing { Sample.met with dtstart := Sample.day, duration := some DAY }] [] none .none) ∧
    Source.prog.invoke 9 12 (ofEvent Sample.listing { Sample.met with duration := some (999999999 * DAY + 1) }) "alldayAdjust" [] []
      = .ok (procVal [ofEvent Sample.listing { Sample.met with dtstart := Sample.day, duration := some (999999999 * DAY + 1) }] []
        (some (.py .OverflowError)) .none) :=
  ⟨sameM_eq (by decide +kernel), sameM_eq (by decide +kernel)⟩

/-- C137, concrete: the conference is set on the meeting up to Carol, then AssertionError is raised; nothing will be modified by a
specification that gives its only attendee the usual role, but the meeting's own specification says it will modify the event made
from it, because Bob is optional. -/
example :
    Spec.Moderate Sample.conference ∧ badEntry Sample.conference = some .AssertionError ∧
    Source.prog.invoke 9 12 (ofSpec Sample.listing Sample.conference) "setOnObject" [ofEvent Sample.listing Sample.met] []
      = .ok (procVal [ofSpec Sample.listing Sample.conference, ofEvent Sample.listing { Sample.met with
          allday := true, duration := some (25 * Sample.HOUR),
          pstate := [("alice", "ACCEPTED"), ("bob", "NEEDS-ACTION"), ("carol", "ACCEPTED")],
          prole := [("alice", "REQ-PARTICIPANT"), ("bob", "OPT-PARTICIPANT"), ("carol", "CHAIR")] }] []
        (some (.py .AssertionError)) .none) ∧
    Source.prog.invoke 9 12 (ofSpec Sample.listing Sample.meeting) "willModify" [ofEvent Sample.listing Sample.met] []
      = .ok (.bool true) ∧
    Source.prog.invoke 9 12 (ofSpec Sample.listing { Sample.meeting with attendees := [(some "alice", "CHAIR", "ACCEPTED")] })
        "willModify" [ofEvent Sample.listing Sample.met] [] = .ok .none ∧
    Source.prog.invoke 9 12 (ofSpec Sample.listing { Sample.meeting with organizer := none })
        "willModify" [ofEvent Sample.listing Sample.met] [] = .error (.py .AttributeError) :=
  ⟨fun _ d hd => by
      have : d = 25 * Sample.HOUR := by injection hd with hd; exact hd.symm
      subst this
      decide, by decide, sameM_eq (by decide +kernel), sameM_eq (by decide +kernel), sameM_eq (by decide +kernel),
    sameM_eq (by decide +kernel)⟩

/-- C137, concrete: creating the conference fails and changes nothing; creating the meeting under a new id, or deleting the event "m",
changes what is found and notifies. -/
example :
    Source.prog.invoke 9 12 (ofManager Sample.listing Sample.store) "createEventFromSpecification"
        [.str "n", ofSpec Sample.listing Sample.conference] []
      = .ok (procVal [ofManager Sample.listing Sample.store, .str "n", ofSpec Sample.listing Sample.conference] []
        (some (.py .AssertionError)) .none) ∧
    Source.prog.invoke 9 12 (ofManager Sample.listing Sample.store) "createEventFromSpecification"
        [.str "n", ofSpec Sample.listing Sample.meeting] []
      = .ok (procVal [ofManager Sample.listing { Sample.store with events := Sample.store.events ++ [("n", { Sample.met with uid := "n" })] },
          .str "n", ofSpec Sample.listing Sample.meeting]
        [.obj "EventCreatedEvent" [("event", ofEvent Sample.listing { Sample.met with uid := "n" })]] none
        (ofEvent Sample.listing { Sample.met with uid := "n" })) ∧
    Source.prog.invoke 9 12 (ofManager Sample.listing Sample.store) "deleteEvent" [ofEvent Sample.listing Sample.met] []
      = .ok (procVal [ofManager Sample.listing { Sample.store with events := Sample.store.events.filter (fun p => p.1 ≠ "m") },
          ofEvent Sample.listing Sample.met]
        [.obj "EventDeletedEvent" [("event", ofEvent Sample.listing Sample.met)]] none .none) ∧
    Source.prog.invoke 9 12 (ofManager Sample.listing Sample.store) "deleteEvent" [ofEvent Sample.listing { Sample.met with uid := "x" }] []
      = .ok (procVal [ofManager Sample.listing Sample.store, ofEvent Sample.listing { Sample.met with uid := "x" }] []
        (some (.py .KeyError)) .none) :=
  ⟨sameM_eq (by decide +kernel), sameM_eq (by decide +kernel), sameM_eq (by decide +kernel), sameM_eq (by decide +kernel)⟩

/-- C137, concrete: Carol joins the calendar, Bob leaves it, Carol cannot leave it; and the room Eve is made. -/
example :
    (Dict.keys Sample.team).Nodup ∧ Sample.rooms.person "eve" = personAttrs "Eve" "ROOM" (ofManager Sample.rooms Sample.store) ∧
    Source.prog.invoke 9 12 (ofCalendar Sample.listing Sample.store Sample.people Sample.team) "addAttendee"
        [ofAttendee Sample.listing "carol"] []
      = .ok (procVal [ofCalendar Sample.listing Sample.store Sample.people [("bob", ()), ("alice", ()), ("carol", ())],
          ofAttendee Sample.listing "carol"] [] none .none) ∧
    Source.prog.invoke 9 12 (ofCalendar Sample.listing Sample.store Sample.people Sample.team) "removeAttendee"
        [ofAttendee Sample.listing "bob"] []
      = .ok (procVal [ofCalendar Sample.listing Sample.store Sample.people [("alice", ())], ofAttendee Sample.listing "bob"] [] none .none) ∧
    Source.prog.invoke 9 12 (ofCalendar Sample.listing Sample.store Sample.people Sample.team) "removeAttendee"
        [ofAttendee Sample.listing "carol"] []
      = .ok (procVal [ofCalendar Sample.listing Sample.store Sample.people Sample.team, ofAttendee Sample.listing "carol"] []
        (some (.py .KeyError)) .none) ∧
    Source.prog.invoke 9 12 (ofSource Sample.rooms Sample.store []) "createRoom" [.str "eve", .str "Eve"] []
      = .ok (procVal [ofSource Sample.rooms Sample.store [("eve", ⟨"Eve", "ROOM"⟩)], .str "eve", .str "Eve"] [] none
        (.obj "Attendee" (("_attendee_id", .str "eve") :: personAttrs "Eve" "ROOM" (ofManager Sample.listing Sample.store)))) :=
  ⟨by decide, rfl, sameM_eq (by decide +kernel), sameM_eq (by decide +kernel), sameM_eq (by decide +kernel), sameM_eq (by decide +kernel)⟩

/-- C137, concrete: Eve says that they are a room. -/
example : Answers (ofAttendee Sample.rooms "eve") "getAttendeeType" [] (.ok (.str "ROOM")) :=
  (C137_person Sample.rooms Sample.store "eve" "Eve" "ROOM" rfl).1

end CalCore
