import Verif.Lemmas.SourceDays
import Verif.Spec.Narrow
import Verif.Props.WrittenCal
import Verif.Props.Participation
/- Property C136: attendees, calendars and attendee sources as they are written in cal.py. -/
namespace CalCore
open Spec Lang

/-! ### the criteria -/

theorem orList_getD {α : Type} (x : Option (List α)) (l : List α) :
    orList x (some l) = some ((x.filter (fun l => !l.isEmpty)).getD l) := by
  cases x with
  | none => rfl
  | some x => cases x <;> rfl

theorem orList_filter {α : Type} (x : Option (List α)) : orList x none = x.filter (fun l => !l.isEmpty) := by
  cases x with
  | none => rfl
  | some x => cases x <;> rfl

theorem orStr_filter (x : Option String) : orStr x none = x.filter (fun s => s != "") := by
  cases x with
  | none => rfl
  | some x => by_cases h : x = "" <;> simp [orStr, h, Option.filter]

theorem or_getD {α : Type} (x : Option α) (a : α) : x.or (some a) = some (x.getD a) := by cases x <;> rfl

theorem clone_for (c : Criteria) (l : List AttId) : c.clone (attendees := some l) = For l (some c) := by
  unfold Criteria.clone For Stripped
  rw [orList_getD, orList_filter, orStr_filter, orStr_filter, Option.or_none]

theorem clone_forOrganizer (c : Criteria) (a : AttId) : c.clone (organizer := some a) = ForOrganizer a (some c) := by
  unfold Criteria.clone ForOrganizer Stripped
  rw [orList_filter, orList_filter, orStr_filter, orStr_filter, or_getD]

theorem attendeeCriteria_for (a : AttId) (c : Option Criteria) : attendeeCriteria a c = For [a] c := by
  cases c with
  | none => rfl
  | some c => exact clone_for c [a]

/-- C136: `clone` as written: what the criteria say counts, an empty string or list being no condition, and an argument
only where they say nothing. -/
theorem C136_clone (L : Listing) (c : Criteria) (att : Option (List AttId)) (st rl : Option String)
    (cats : Option (List String)) (org : Option AttId) :
    ∃ c' : Criteria,
      Answers (ofCriteria L c) "clone" [ofOption (fun l => .list (l.map (ofAttendee L))) att,
        ofOption .str st, ofOption .str rl, ofOption (fun l => .list (l.map .str)) cats, ofOption (ofAttendee L) org]
        (.ok (ofCriteria L c')) ∧
      c'.attendees = (Stripped c).attendees.or att ∧ c'.status = (Stripped c).status.or st ∧
      c'.role = (Stripped c).role.or rl ∧ c'.categories = (Stripped c).categories.or cats ∧
      c'.organizer = c.organizer.or org := by
  refine ⟨c.clone att st rl cats org, answers_of 0 2 (fun W n _ => clone_prog W n L c att st rl cats org), ?_, ?_, ?_, ?_, rfl⟩
  · unfold Stripped Criteria.clone orList
    cases c.attendees with
    | none => rfl
    | some l => cases l <;> rfl
  · unfold Stripped Criteria.clone orStr
    cases c.status with
    | none => rfl
    | some x => by_cases h : x = "" <;> simp [h, Option.filter]
  · unfold Stripped Criteria.clone orStr
    cases c.role with
    | none => rfl
    | some x => by_cases h : x = "" <;> simp [h, Option.filter]
  · unfold Stripped Criteria.clone orList
    cases c.categories with
    | none => rfl
    | some l => cases l <;> rfl

/-! ### queries -/

/-- A query that asks the storage for events. -/
theorem events_exact (L : Listing) (s : Storage) (hs : s.WF) (b e : Option Int) (c : Criteria) (o : Val) (m : String)
    (args : List Val) (key : Answers o m args (toM (fun l => .list (l.map (ofEvent L))) (s.getEvents b e (some c)))) :
    ((∀ b', b = some b' → ∀ ev, Stored s ev → Matches c ev →
        ∃ d, ev.duration = some d ∧ dtInRange (ev.dtstart + d) = true) →
      ∃ evs : List Event, Answers o m args (.ok (.list (evs.map (ofEvent L)))) ∧
        (evs.map (·.uid)).Nodup ∧ ∀ ev, ev ∈ evs ↔ Stored s ev ∧ Matches c ev ∧
          (∀ b', b = some b' → b' < ev.dtstart + ev.duration.getD 0) ∧ (∀ e', e = some e' → ev.dtstart < e')) ∧
    ((¬ ∀ b', b = some b' → ∀ ev, Stored s ev → Matches c ev →
        ∃ d, ev.duration = some d ∧ dtInRange (ev.dtstart + d) = true) →
      ∃ x, Answers o m args (.error x)) := by
  obtain ⟨h1, h2⟩ := C20_getEvents_exact s hs b e (some c)
  cases hx : s.getEvents b e (some c) with
  | ok l =>
    rw [hx] at key
    exact ⟨fun _ => ⟨l, key, h1 l hx⟩, fun h => absurd (h2.1 ⟨l, hx⟩) h⟩
  | error f =>
    rw [hx, toM_error] at key
    refine ⟨fun h => ?_, fun _ => ⟨_, key⟩⟩
    obtain ⟨l, h⟩ := h2.2 h
    rw [hx] at h
    cases h

/-- C136: `AttendeeBase.getEvents` as written returns, each once, exactly the stored events in the period that match the
criteria, for this attendee unless they name attendees themselves; it raises if the period has a beginning and such
an event has no end. -/
theorem C136_attendee_events (L : Listing) (hL : L.Faithful) (s : Storage) (hs : s.WF) (a : AttId) (ha : L.Uses s a)
    (b e : Option Int) (c : Option Criteria) :
    ((∀ b', b = some b' → ∀ ev, Stored s ev → Matches (For [a] c) ev →
        ∃ d, ev.duration = some d ∧ dtInRange (ev.dtstart + d) = true) →
      ∃ evs : List Event,
        Answers (ofAttendee L a) "getEvents" [ofPeriod b e, ofOption (ofCriteria L) c] (.ok (.list (evs.map (ofEvent L)))) ∧
        (evs.map (·.uid)).Nodup ∧ ∀ ev, ev ∈ evs ↔ Stored s ev ∧ Matches (For [a] c) ev ∧
          (∀ b', b = some b' → b' < ev.dtstart + ev.duration.getD 0) ∧ (∀ e', e = some e' → ev.dtstart < e')) ∧
    ((¬ ∀ b', b = some b' → ∀ ev, Stored s ev → Matches (For [a] c) ev →
        ∃ d, ev.duration = some d ∧ dtInRange (ev.dtstart + d) = true) →
      ∃ x, Answers (ofAttendee L a) "getEvents" [ofPeriod b e, ofOption (ofCriteria L) c] (.error x)) := by
  have key : Answers (ofAttendee L a) "getEvents" [ofPeriod b e, ofOption (ofCriteria L) c]
      (toM (fun l => .list (l.map (ofEvent L))) (s.attendeeGetEvents a b e c)) :=
    answers_of 0 8 (fun W n _ => att_getEvents_prog W n L hL s a ha b e c)
  unfold Storage.attendeeGetEvents at key
  rw [attendeeCriteria_for] at key
  exact events_exact L s hs b e _ _ _ _ key

/-- C136: `getOrganizedEvents` as written returns, each once, exactly the stored events that match the criteria, of this
organizer unless they name an organizer themselves. -/
theorem C136_organized (L : Listing) (hL : L.Faithful) (s : Storage) (hs : s.WF) (a : AttId) (ha : L.Uses s a)
    (c : Option Criteria) :
    ∃ evs : List Event,
      Answers (ofAttendee L a) "getOrganizedEvents" [ofOption (ofCriteria L) c] (.ok (.list (evs.map (ofEvent L)))) ∧
      (evs.map (·.uid)).Nodup ∧ ∀ ev, ev ∈ evs ↔ Stored s ev ∧ Matches (ForOrganizer a c) ev := by
  have key : Answers (ofAttendee L a) "getOrganizedEvents" [ofOption (ofCriteria L) c]
      (toM (fun l => .list (l.map (ofEvent L))) (s.getOrganizedEvents a c)) :=
    answers_of 0 8 (fun W n _ => getOrganizedEvents_prog W n L hL s a ha c)
  rw [show s.getOrganizedEvents a c = s.getEvents none none (some (ForOrganizer a c)) by
    unfold Storage.getOrganizedEvents
    cases c with
    | none => rfl
    | some c => simp only []; rw [clone_forOrganizer]] at key
  obtain ⟨evs, h1, h2, h3⟩ := (events_exact L s hs none none _ _ _ _ key).1 (fun b' h => (by cases h))
  refine ⟨evs, h1, h2, fun ev => (h3 ev).trans ⟨fun h => ⟨h.1, h.2.1⟩, fun h => ⟨h.1, h.2, ?_, ?_⟩⟩⟩
  · intro b h; cases h
  · intro b h; cases h

/-- All attendees of the calendar are known to the source. -/
def Known (c : Calendar) (src : Source) : Prop := ∀ a ∈ Dict.keys c, Dict.has src a = true

theorem criteria_known {c : Calendar} {src : Source} (h : Known c src) (cr : Option Criteria) :
    c.criteria src cr = .ok (For (Dict.keys c) cr) := by
  rw [calendar_criteria_ok]
  refine ⟨h, ?_⟩
  cases cr with
  | none => rfl
  | some cr => exact (clone_for cr _).symm

theorem lookupAll_unknown {src : Source} {l : List AttId} (h : ¬ ∀ a ∈ l, Dict.has src a = true) :
    lookupAll src l = raise .KeyError := by
  induction l with
  | nil => exact absurd (fun a ha => (by cases ha)) h
  | cons a l ih =>
    unfold lookupAll Source.getAttendee
    by_cases ha : Dict.has src a = true
    · rw [if_pos ha, ok_bind, ih]
      · rfl
      · intro h'
        apply h
        intro x hx
        rcases List.mem_cons.1 hx with rfl | hx
        · exact ha
        · exact h' x hx
    · rw [if_neg ha]
      rfl

theorem criteria_unknown {c : Calendar} {src : Source} (h : ¬ Known c src) (cr : Option Criteria) :
    c.criteria src cr = raise .KeyError := by
  unfold Calendar.criteria Calendar.getAttendees
  rw [lookupAll_unknown h]
  rfl

/-- C136: `CalendarBase.getEvents` as written returns, each once, exactly the stored events in the period that match the
criteria, for the attendees of the calendar unless they name attendees themselves; it raises if the period has a
beginning and such an event has no end, and KeyError if the source does not know an attendee of the calendar. -/
theorem C136_calendar_events (L : Listing) (hL : L.Faithful) (s : Storage) (hs : s.WF) (src : Source) (cal : Calendar)
    (b e : Option Int) (c : Option Criteria) :
    (Known cal src →
      ((∀ b', b = some b' → ∀ ev, Stored s ev → Matches (For (Dict.keys cal) c) ev →
          ∃ d, ev.duration = some d ∧ dtInRange (ev.dtstart + d) = true) →
        ∃ evs : List Event,
          Answers (ofCalendar L s src cal) "getEvents" [ofPeriod b e, ofOption (ofCriteria L) c] (.ok (.list (evs.map (ofEvent L)))) ∧
          (evs.map (·.uid)).Nodup ∧ ∀ ev, ev ∈ evs ↔ Stored s ev ∧ Matches (For (Dict.keys cal) c) ev ∧
            (∀ b', b = some b' → b' < ev.dtstart + ev.duration.getD 0) ∧ (∀ e', e = some e' → ev.dtstart < e')) ∧
      ((¬ ∀ b', b = some b' → ∀ ev, Stored s ev → Matches (For (Dict.keys cal) c) ev →
          ∃ d, ev.duration = some d ∧ dtInRange (ev.dtstart + d) = true) →
        ∃ x, Answers (ofCalendar L s src cal) "getEvents" [ofPeriod b e, ofOption (ofCriteria L) c] (.error x))) ∧
    (¬ Known cal src →
      Answers (ofCalendar L s src cal) "getEvents" [ofPeriod b e, ofOption (ofCriteria L) c] (.error (.py .KeyError))) := by
  have key : Answers (ofCalendar L s src cal) "getEvents" [ofPeriod b e, ofOption (ofCriteria L) c]
      (toM (fun l => .list (l.map (ofEvent L))) (cal.getEvents src s b e c)) :=
    answers_of 0 8 (fun W n _ => cal_getEvents_prog W n L hL s src cal b e c)
  unfold Calendar.getEvents at key
  refine ⟨fun hk => ?_, fun hk => ?_⟩
  · rw [criteria_known hk, ok_bind] at key
    exact events_exact L s hs b e _ _ _ _ key
  · rw [criteria_unknown hk] at key
    exact key

/-- C136: calendars as written find events by id whoever attends them: what is stored, and KeyError for nothing. -/
theorem C136_calendar_event (L : Listing) (s : Storage) (src : Source) (cal : Calendar) (u : Uid) :
    (∀ e, Dict.get? s.events u = some e →
      Answers (ofCalendar L s src cal) "getEvent" [.str u] (.ok (ofEvent L e)) ∧
      Answers (ofCalendar L s src cal) "hasEvent" [.str u] (.ok (.bool true))) ∧
    (Dict.get? s.events u = none →
      Answers (ofCalendar L s src cal) "getEvent" [.str u] (.error (.py .KeyError)) ∧
      Answers (ofCalendar L s src cal) "hasEvent" [.str u] (.ok (.bool false))) := by
  have h1 : Answers (ofCalendar L s src cal) "getEvent" [.str u] (toM (ofEvent L) (s.getEvent u)) :=
    answers_of 0 3 (fun W n _ => cal_getEvent_prog W n L s src cal u)
  have h2 : Answers (ofCalendar L s src cal) "hasEvent" [.str u] (.ok (.bool (s.hasEvent u))) :=
    answers_of 0 4 (fun W n _ => cal_hasEvent_prog W n L s src cal u)
  unfold Storage.getEvent at h1
  unfold Storage.hasEvent Storage.getEvent at h2
  constructor
  · intro e h
    rw [h] at h1 h2
    exact ⟨h1, h2⟩
  · intro h
    rw [h] at h1 h2
    exact ⟨h1, h2⟩

/-- C136: `getEventsInDay` as written, for a date that is not the last one: `getEvents` from its midnight to the next. -/
theorem C136_day_events (L : Listing) (hL : L.Faithful) (s : Storage) (src : Source) (cal : Calendar)
    (d : Int) (hd : 1 ≤ d ∧ d < MAXORD) (c : Option Criteria) (r : M Val) :
    Answers (ofCalendar L s src cal) "getEventsInDay" [.date d, ofOption (ofCriteria L) c] r ↔
    Answers (ofCalendar L s src cal) "getEvents" [ofPeriod (some (combine d 0)) (some (combine (d + 1) 0)), ofOption (ofCriteria L) c] r := by
  have h1 : Answers (ofCalendar L s src cal) "getEventsInDay" [.date d, ofOption (ofCriteria L) c]
      (toM (fun l => .list (l.map (ofEvent L))) (cal.getEventsInDay src s d c)) :=
    answers_of 0 9 (fun W n _ => eventsInDay_prog W n L hL s src cal d (by omega) c)
  have h2 : Answers (ofCalendar L s src cal) "getEvents" [ofPeriod (some (combine d 0)) (some (combine (d + 1) 0)), ofOption (ofCriteria L) c]
      (toM (fun l => .list (l.map (ofEvent L))) (cal.getEvents src s (some (combine d 0)) (some (combine (d + 1) 0)) c)) :=
    answers_of 0 8 (fun W n _ => cal_getEvents_prog W n L hL s src cal _ _ c)
  have h3 : dtAdd (combine d 0) DAY = .ok (combine (d + 1) 0) :=
    dtAdd_ok.2 ⟨by rw [dtInRange_iff]; unfold combine MAXORD DAY at *; omega, by unfold combine DAY; omega⟩
  unfold Calendar.getEventsInDay at h1
  rw [h3, ok_bind] at h1
  exact ⟨fun h => by rw [h.unique h1]; exact h2, fun h => by rw [h.unique h2]; exact h1⟩

/-- C136: on the last date both queries of a day raise OverflowError. -/
theorem C136_last_day (L : Listing) (hL : L.Faithful) (s : Storage) (src : Source) (cal : Calendar) (c : Option Criteria) :
    Answers (ofCalendar L s src cal) "getEventsInDay" [.date MAXORD, ofOption (ofCriteria L) c] (.error (.py .OverflowError)) ∧
    Answers (ofCalendar L s src cal) "getOccurrencesInDay" [.date MAXORD, ofOption (ofCriteria L) c] (.error (.py .OverflowError)) := by
  have h3 : dtAdd (combine MAXORD 0) DAY = raise .OverflowError := by decide +kernel
  have h1 : Answers (ofCalendar L s src cal) "getEventsInDay" [.date MAXORD, ofOption (ofCriteria L) c]
      (toM (fun l => .list (l.map (ofEvent L))) (cal.getEventsInDay src s MAXORD c)) :=
    answers_of 0 9 (fun W n _ => eventsInDay_prog W n L hL s src cal MAXORD (by decide) c)
  have h2 : Answers (ofCalendar L s src cal) "getOccurrencesInDay" [.date MAXORD, ofOption (ofCriteria L) c]
      (toM (fun l => .list (l.map (ofOcc (ofEvent L)))) (cal.getOccurrencesInDay src s MAXORD c)) :=
    answers_of 6 10 (fun W n hW => occurrencesInDay_prog W n L hL s src cal MAXORD (by decide) c
      (fun cr en h => (by rw [h3] at h; cases h)) hW)
  unfold Calendar.getEventsInDay at h1
  unfold Calendar.getOccurrencesInDay at h2
  rw [h3] at h1 h2
  exact ⟨h1, h2⟩

/-- C136: the queries of attendees and calendars for occurrences as written give what the functions of the model give,
unless a rule hangs. -/
theorem C136_same (L : Listing) (hL : L.Faithful) (s : Storage) (hs : s.WF) (src : Source) (cal : Calendar) (a : AttId)
    (ha : L.Uses s a) (b e : Option Int) (c : Option Criteria)
    (hg : ∀ en, e = some en → ∀ ev, Stored s ev → dtInRange ev.dtstart = true ∧
      ∀ r, ev.recurrence = some r → ¬ Hangs r ev.dtstart (some (dtDate en))) :
    Answers (ofAttendee L a) "getOccurrences" [ofPeriod b e, ofOption (ofCriteria L) c]
      (toM (fun l => .list (l.map (ofOcc (ofEvent L)))) (s.attendeeGetOccurrences a b e c)) ∧
    Answers (ofCalendar L s src cal) "getOccurrences" [ofPeriod b e, ofOption (ofCriteria L) c]
      (toM (fun l => .list (l.map (ofOcc (ofEvent L)))) (cal.getOccurrences src s b e c)) ∧
    Answers (ofCalendar L s src cal) "getOccurrencesSegmented" [ofPeriod b e, ofOption (ofCriteria L) c]
      (toM (fun l => .list (l.map (ofOcc (ofEvent L)))) (cal.getOccurrencesSegmented src s b e c)) ∧
    ∀ d, 1 ≤ d ∧ d ≤ MAXORD → e = some (combine (d + 1) 0) →
      Answers (ofCalendar L s src cal) "getOccurrencesInDay" [.date d, ofOption (ofCriteria L) c]
        (toM (fun l => .list (l.map (ofOcc (ofEvent L)))) (cal.getOccurrencesInDay src s d c)) := by
  obtain ⟨N, hN⟩ := exists_fuel s
  have hr : ∀ W, N ≤ W → ∀ c en, e = some en → Ready W s c en := fun W hW c en he =>
    ready_of c (fun ev hev => have h := hg en he ev ((hs.mem_values ev).1 hev); expandable_of h.1 h.2) (hN W hW)
  refine ⟨answers_of N 8 (fun W n hW => att_getOccurrences_prog W n L hL s a ha b e c (fun b' en _ he => hr W hW _ en he)),
    answers_of N 8 (fun W n hW => cal_getOccurrences_prog W n L hL s src cal b e c (fun c b' en _ he => hr W hW c en he)),
    answers_of (max N (((e.getD 0) / DAY - (b.getD 0) / DAY).toNat + 5)) 9 (fun W n hW =>
      cal_segmented_prog W n L hL s src cal b e c (fun c b' en hb he => ⟨hr W (by omega) c en he, ?_⟩)),
    fun d hd he => answers_of (max N 6) 10 (fun W n hW =>
      occurrencesInDay_prog W n L hL s src cal d hd c (fun c en h => hr W (by omega) c en ?_) (by omega))⟩
  · subst hb he
    simp only [Option.getD_some] at hW
    omega
  · rw [he, (dtAdd_ok.1 h).2]
    unfold combine DAY
    congr 1
    omega

/-! ### participants, attendees and sources -/

/-- A participant with the wanted status has no role, though a role is wanted. -/
def Roleless (d role : Dict AttId String) (ps pr : Option String) : Prop :=
  pr ≠ none ∧ ∃ a st, (a, st) ∈ d ∧ (∀ p, ps = some p → st = p) ∧ Dict.get? role a = none

theorem ids_outcome (role : Dict AttId String) (ps pr : Option String) (d : Dict AttId String) :
    (Roleless d role ps pr → getAttendeeIdsLoop role ps pr d = raise .KeyError) ∧
    (¬ Roleless d role ps pr → ∃ l, getAttendeeIdsLoop role ps pr d = .ok l) := by
  induction d with
  | nil =>
    refine ⟨?_, fun _ => ⟨[], rfl⟩⟩
    rintro ⟨_, a, st, h, _⟩
    cases h
  | cons p d ih =>
    obtain ⟨a, st⟩ := p
    rw [ids_cons]
    by_cases hp : ∀ p, ps = some p → st = p
    · rw [idsStep_listed (p := (a, st)) hp]
      unfold idsRole
      cases pr with
      | none =>
        refine ⟨fun h => absurd rfl h.1, fun _ => ?_⟩
        obtain ⟨l, hl⟩ := ih.2 (fun h => absurd rfl h.1)
        exact ⟨a :: l, by rw [hl]; rfl⟩
      | some q =>
        simp only []
        cases hg : Dict.get? role a with
        | none => exact ⟨fun _ => rfl, fun h => absurd ⟨by simp, a, st, List.mem_cons_self .., hp, hg⟩ h⟩
        | some q' =>
          have hiff : Roleless ((a, st) :: d) role ps (some q) ↔ Roleless d role ps (some q) := by
            refine ⟨fun ⟨h1, x, y, h2, h3, h4⟩ => ⟨h1, x, y, ?_, h3, h4⟩, fun ⟨h1, x, y, h2, h3⟩ => ⟨h1, x, y, List.mem_cons_of_mem _ h2, h3⟩⟩
            rcases List.mem_cons.1 h2 with h | h
            · injection h with h h'
              rw [h, hg] at h4
              cases h4
            · exact h
          rw [hiff]
          have hok : ∃ here, (if q ≠ q' then .ok [] else .ok [a] : Res (List AttId)) = .ok here := by
            split <;> exact ⟨_, rfl⟩
          obtain ⟨here, hok⟩ := hok
          simp only []
          rw [hok, ok_bind]
          refine ⟨fun h => by rw [ih.1 h]; rfl, fun h => ?_⟩
          obtain ⟨l, hl⟩ := ih.2 h
          exact ⟨here ++ l, by rw [hl]; rfl⟩
    · rw [idsStep_other (p := (a, st)) hp, ok_bind]
      have hiff : Roleless ((a, st) :: d) role ps pr ↔ Roleless d role ps pr := by
        refine ⟨fun ⟨h1, x, y, h2, h3, h4⟩ => ⟨h1, x, y, ?_, h3, h4⟩, fun ⟨h1, x, y, h2, h3⟩ => ⟨h1, x, y, List.mem_cons_of_mem _ h2, h3⟩⟩
        rcases List.mem_cons.1 h2 with h | h
        · injection h with h h'
          rw [h'] at h3
          exact absurd h3 hp
        · exact h
      rw [hiff]
      refine ⟨fun h => by rw [ih.1 h]; rfl, fun h => ?_⟩
      obtain ⟨l, hl⟩ := ih.2 h
      exact ⟨l, by rw [hl]; rfl⟩

/-- C136: `getAttendeeIds` as written lists, each once, exactly the participants with the wanted status and role; but if
a role is wanted and a participant with the wanted status has none, it raises KeyError. -/
theorem C136_ids (L : Listing) (e : Event) (he : e.Parts) (ps pr : Option String) :
    ((pr ≠ none ∧ ∃ a st, Dict.get? e.pstate a = some st ∧ (∀ p, ps = some p → st = p) ∧ Dict.get? e.prole a = none) →
      Answers (ofEvent L e) "getAttendeeIds" [ofOption .str ps, ofOption .str pr] (.error (.py .KeyError))) ∧
    (¬ (pr ≠ none ∧ ∃ a st, Dict.get? e.pstate a = some st ∧ (∀ p, ps = some p → st = p) ∧ Dict.get? e.prole a = none) →
      ∃ l : List AttId, Answers (ofEvent L e) "getAttendeeIds" [ofOption .str ps, ofOption .str pr] (.ok (.list (l.map .str))) ∧
        l.Nodup ∧ ∀ a, a ∈ l ↔ (∃ st, Dict.get? e.pstate a = some st ∧ ∀ p, ps = some p → st = p) ∧
          ∀ r, pr = some r → Dict.get? e.prole a = some r) := by
  have key : Answers (ofEvent L e) "getAttendeeIds" [ofOption .str ps, ofOption .str pr]
      (toM (fun l => .list (l.map .str)) (e.getAttendeeIds ps pr)) :=
    answers_of 0 1 (fun W n _ => getAttendeeIds_prog W n L e ps pr)
  have hiff : (pr ≠ none ∧ ∃ a st, Dict.get? e.pstate a = some st ∧ (∀ p, ps = some p → st = p) ∧ Dict.get? e.prole a = none)
      ↔ Roleless e.pstate e.prole ps pr := by
    unfold Roleless
    simp only [Dict.mem_iff_get? he.state]
  rw [hiff]
  obtain ⟨h1, h2⟩ := ids_outcome e.prole ps pr e.pstate
  refine ⟨fun h => ?_, fun h => ?_⟩
  · have hx : e.getAttendeeIds ps pr = raise .KeyError := h1 h
    rw [hx] at key
    exact key
  · obtain ⟨l, hl⟩ := h2 h
    have hl : e.getAttendeeIds ps pr = .ok l := hl
    rw [hl] at key
    exact ⟨l, key, getAttendeeIds_exact he hl⟩

/-- C136: an attendee source as written: it knows attendees by their ids; it finds them by address; searching by name
raises AttributeError unless there is nobody, and listing those of a type always does. -/
theorem C136_source (L : Listing) (s : Storage) (src : Source) (a : AttId) (ps : List (String × Val)) (q t : Val) :
    (Dict.has src a = true →
      Answers (ofSource L s src) "getAttendee" [.str a] (.ok (ofAttendee L a)) ∧
      Answers (ofSource L s src) "getAttendeeFromSpec" [.obj "vCalAddress" (("value", .str a) :: ps)] (.ok (ofAttendee L a))) ∧
    (Dict.has src a = false →
      Answers (ofSource L s src) "getAttendee" [.str a] (.error (.py .KeyError)) ∧
      Answers (ofSource L s src) "getAttendeeFromSpec" [.obj "vCalAddress" (("value", .str a) :: ps)] (.ok .none)) ∧
    (src ≠ [] → Answers (ofSource L s src) "findByName" [q, t] (.error (.py .AttributeError))) ∧
    (src = [] → Answers (ofSource L s src) "findByName" [q, t] (.ok (.list []))) ∧
    Answers (ofSource L s src) "getAttendeesOfType" [t] (.error (.py .AttributeError)) := by
  have h1 : Answers (ofSource L s src) "getAttendee" [.str a] (toM (ofAttendee L) (src.getAttendee a)) :=
    answers_of 0 1 (fun W n _ => source_getAttendee_prog W n L s src a)
  have h2 : Answers (ofSource L s src) "getAttendeeFromSpec" [.obj "vCalAddress" (("value", .str a) :: ps)]
      (.ok (ofOption (ofAttendee L) (src.fromSpec a))) :=
    answers_of 0 1 (fun W n _ => fromSpec_prog W n L s src a ps)
  have h3 : Answers (ofSource L s src) "findByName" [q, t] (if src = [] then .ok (.list []) else .error (.py .AttributeError)) :=
    answers_of 0 1 (fun W n _ => findByName_prog W n L s src q t)
  unfold Source.getAttendee at h1
  unfold Source.fromSpec at h2
  refine ⟨fun h => ?_, fun h => ?_, fun h => ?_, fun h => ?_, answers_of 0 1 (fun W n _ => ofType_prog W n L s src t)⟩
  · rw [if_pos h] at h1 h2
    exact ⟨h1, h2⟩
  · rw [if_neg (by rw [h]; decide)] at h1 h2
    exact ⟨h1, h2⟩
  · rwa [if_neg h] at h3
  · rwa [if_pos h] at h3

/-- C136: the attendees of a calendar as written, the first of them being the main one, which is the default organizer
too; KeyError if the source does not know one. -/
theorem C136_attendees (L : Listing) (s : Storage) (src : Source) (cal : Calendar) :
    (Known cal src →
      Answers (ofCalendar L s src cal) "getAttendees" [] (.ok (.list ((Dict.keys cal).map (ofAttendee L)))) ∧
      Answers (ofCalendar L s src cal) "getMainAttendee" [] (.ok (ofOption (ofAttendee L) (Dict.keys cal).head?))) ∧
    (¬ Known cal src → Answers (ofCalendar L s src cal) "getAttendees" [] (.error (.py .KeyError))) ∧
    Answers (ofCalendar L s src cal) "getMainAttendeeId" [] (.ok (ofOption .str (Dict.keys cal).head?)) := by
  have h1 : Answers (ofCalendar L s src cal) "getAttendees" [] (toM (fun l => .list (l.map (ofAttendee L))) (cal.getAttendees src)) :=
    answers_of 0 2 (fun W n _ => getAttendees_prog W n L s src cal)
  have h2 : Answers (ofCalendar L s src cal) "getMainAttendee" [] (toM (ofOption (ofAttendee L)) (cal.main src)) :=
    answers_of 0 2 (fun W n _ => main_prog W n L s src cal)
  unfold Calendar.getAttendees at h1
  refine ⟨fun hk => ⟨?_, ?_⟩, fun hk => ?_, answers_of 0 1 (fun W n _ => mainId_prog W n L s src cal)⟩
  · rw [lookupAll_known hk] at h1
    exact h1
  · unfold Calendar.main Calendar.mainId at h2
    cases hh : (Dict.keys cal).head? with
    | none => rw [hh] at h2; exact h2
    | some a =>
      rw [hh] at h2
      simp only [Source.getAttendee, if_pos (hk a (List.mem_of_mem_head? hh))] at h2
      exact h2
  · rw [lookupAll_unknown hk] at h1
    exact h1

namespace Sample

/-- The calendar of Alice and Bob; Bob is the one asked first. -/
def team : Calendar := [("bob", ()), ("alice", ())]

/-- Everybody. -/
def people : CalCore.Source := [("alice", ⟨"Alice", "INDIVIDUAL"⟩), ("bob", ⟨"Bob", "INDIVIDUAL"⟩), ("carol", ⟨"Carol", "INDIVIDUAL"⟩)]

/-- Attendees that use the storage. -/
def users : Listing := ⟨fun s => s.sort (· ≤ ·), fun _ => [("_storage_manager", ofManager listing store)]⟩

end Sample

/-- C136, concrete: on the second day the calendar of both shows the trip and the point; if the source knows nobody, it
raises KeyError; Bob is the main attendee; and searching by name raises. -/
example :
    Known Sample.team Sample.people ∧ Sample.listing.Faithful ∧
    Source.prog.invoke 9 12 (ofCalendar Sample.listing Sample.store Sample.people Sample.team) "getEventsInDay"
        [.date (dtDate Sample.day + 1), .none] []
      = .ok (.list (((Dict.values Sample.store.events).filter (fun e => e.uid ≠ "m")).map (ofEvent Sample.listing))) ∧
    Source.prog.invoke 9 12 (ofCalendar Sample.listing Sample.store [] Sample.team) "getEventsInDay"
        [.date (dtDate Sample.day + 1), .none] [] = .error (.py .KeyError) ∧
    Source.prog.invoke 9 12 (ofCalendar Sample.listing Sample.store Sample.people Sample.team) "getMainAttendee" [] []
      = .ok (ofAttendee Sample.listing "bob") ∧
    Source.prog.invoke 9 12 (ofSource Sample.listing Sample.store Sample.people) "findByName" [.str "Ali", .none] []
      = .error (.py .AttributeError) :=
  ⟨by unfold Known; decide +kernel, Sample.listing_faithful, sameM_eq (by decide +kernel), sameM_eq (by decide +kernel),
    sameM_eq (by decide +kernel), sameM_eq (by decide +kernel)⟩

/-- C136, concrete: attendees who use the storage.  Alice asks for the events of the second day and gets the trip, to which
Alice is invited, but not the point; asking with criteria that name Bob, Alice gets both.  The meeting is organized by
Alice, and Bob is its only optional participant. -/
example :
    Sample.users.Uses Sample.store "alice" ∧ Sample.users.Faithful ∧
    Source.prog.invoke 9 12 (ofAttendee Sample.users "alice") "getEvents"
        [ofPeriod (some (Sample.day + DAY)) (some (Sample.day + 2 * DAY)), .none] []
      = .ok (.list (((Dict.values Sample.store.events).filter (fun e => e.uid = "t")).map (ofEvent Sample.listing))) ∧
    Source.prog.invoke 9 12 (ofAttendee Sample.users "alice") "getEvents"
        [ofPeriod (some (Sample.day + DAY)) (some (Sample.day + 2 * DAY)), ofCriteria Sample.users { attendees := some ["bob"] }] []
      = .ok (.list (((Dict.values Sample.store.events).filter (fun e => e.uid ≠ "m")).map (ofEvent Sample.listing))) ∧
    Source.prog.invoke 9 12 (ofAttendee Sample.users "alice") "getOrganizedEvents" [.none] []
      = .ok (.list (((Dict.values Sample.store.events).filter (fun e => e.uid = "m")).map (ofEvent Sample.listing))) ∧
    ((Dict.values Sample.store.events).filter (fun e => e.uid = "m")).map (fun e =>
        sameM (Source.prog.invoke 9 12 (ofEvent Sample.listing e) "getAttendeeIds" [.none, .str "OPT-PARTICIPANT"] [])
          (.ok (.list [.str "bob"]))) = [true] :=
  ⟨rfl, fun _ _ => Finset.mem_sort (· ≤ ·), sameM_eq (by decide +kernel), sameM_eq (by decide +kernel), sameM_eq (by decide +kernel),
    by decide +kernel⟩

end CalCore
