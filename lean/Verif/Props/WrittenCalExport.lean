import Verif.Lemmas.SourceText
import Verif.Props.WrittenExport
import Verif.Props.WrittenCalendar
import Verif.Props.Errors
/- Property C141: `export` of calendars, as it is written. -/
namespace CalCore
open Spec Lang

/-- The event has an end, and the end is in the range of Python. -/
def Spec.Ends (ev : Event) : Prop := ∃ d, ev.duration = some d ∧ dtInRange (ev.dtstart + d) = true

/-- The events that are asked for: stored, matching the criteria, and in the period. -/
def Spec.Wanted (s : Storage) (cal : Calendar) (b e : Option DateTime) (c : Option Criteria) (ev : Event) : Prop :=
  Stored s ev ∧ Matches (For (Dict.keys cal) c) ev ∧
    (∀ b', b = some b' → b' < ev.dtstart + ev.duration.getD 0) ∧ (∀ e', e = some e' → ev.dtstart < e')

theorem export_ends {ev : Event} (h : Ends ev) (order : Finset String → List String) : ∃ v, ev.export false order = .ok v := by
  obtain ⟨d, hd, hr⟩ := h
  unfold Event.export
  rw [hd]
  simp only []
  rw [show dtAdd ev.dtstart d = .ok (ev.dtstart + d) from dtAdd_ok.2 ⟨hr, rfl⟩]
  exact ⟨_, rfl⟩

theorem export_not_ends {ev : Event} (h : ¬ Ends ev) (order : Finset String → List String) :
    ev.export false order = raise .TypeError ∨ ev.export false order = raise .OverflowError := by
  unfold Event.export
  cases hd : ev.duration with
  | none => exact .inl rfl
  | some d =>
    have hr : dtInRange (ev.dtstart + d) = false := by
      cases hr : dtInRange (ev.dtstart + d)
      · rfl
      · exact absurd ⟨d, hd, hr⟩ h
    have ha : dtAdd ev.dtstart d = raise .OverflowError := by
      unfold dtAdd
      rw [hr]
      rfl
    simp only [ha]
    exact .inr rfl

theorem exportAll_ends {evs : List Event} (h : ∀ ev ∈ evs, Ends ev) (order : Finset String → List String) :
    ∃ vs, exportAll order evs = .ok vs ∧ List.Forall₂ (fun ev v => ev.export false order = .ok v) evs vs := by
  induction evs with
  | nil => exact ⟨[], rfl, .nil⟩
  | cons ev evs ih =>
    obtain ⟨v, hv⟩ := export_ends (h ev (List.mem_cons_self ..)) order
    obtain ⟨vs, hvs, hf⟩ := ih (fun e he => h e (List.mem_cons_of_mem _ he))
    refine ⟨v :: vs, ?_, .cons hv hf⟩
    rw [exportAll, hv, ok_bind, hvs, ok_bind]

theorem exportAll_not_ends {evs : List Event} {ev : Event} (he : ev ∈ evs) (h : ¬ Ends ev) (order : Finset String → List String) :
    exportAll order evs = raise .TypeError ∨ exportAll order evs = raise .OverflowError := by
  induction evs with
  | nil => cases he
  | cons x evs ih =>
    rw [exportAll]
    by_cases hx : Ends x
    · obtain ⟨v, hv⟩ := export_ends hx order
      rw [hv, ok_bind]
      rcases List.mem_cons.1 he with rfl | he
      · exact absurd hx h
      · rcases ih he with h' | h' <;> rw [h']
        · exact .inl rfl
        · exact .inr rfl
    · rcases export_not_ends hx order with h' | h' <;> rw [h']
      · exact .inl rfl
      · exact .inr rfl

theorem calendar_export_answers (L : Listing) (hL : L.Faithful) (s : Storage) (src : Source) (cal : Calendar) (b e : Option Int)
    (c : Option Criteria) :
    Answers (ofCalendar L s src cal) "export" [ofPeriod b e, ofOption (ofCriteria L) c]
      (toM calendarText (cal.export src s b e c L.cats)) :=
  answers_of 0 9 (fun W n _ => cal_export_prog W n L hL s src cal b e c)

/-- C141: `CalendarBase.export` as written, when the source knows the attendees of the calendar and the events that are asked for
have ends: the text of a calendar that has, for exactly these events and each once, a component that shows the event. -/
theorem C141_export (L : Listing) (hL : L.Faithful) (s : Storage) (hs : s.WF) (src : Source) (cal : Calendar)
    (b e : Option Int) (c : Option Criteria) (hk : Known cal src)
    (hb : b ≠ none → ∀ ev, Stored s ev → Matches (For (Dict.keys cal) c) ev → Ends ev)
    (he : ∀ ev, Wanted s cal b e c ev → Ends ev) :
    ∃ evs vs, Answers (ofCalendar L s src cal) "export" [ofPeriod b e, ofOption (ofCriteria L) c] (.ok (calendarText vs)) ∧
      (evs.map (·.uid)).Nodup ∧ (∀ ev, ev ∈ evs ↔ Wanted s cal b e c ev) ∧
      List.Forall₂ (fun ev v => Shows ev false v) evs vs := by
  have key := calendar_export_answers L hL s src cal b e c
  obtain ⟨h1, h2⟩ := C20_getEvents_exact s hs b e (some (For (Dict.keys cal) c))
  obtain ⟨evs, hx⟩ := h2.2 (fun b' h ev h1 h2 => hb (by rw [h]; simp) ev h1 h2)
  obtain ⟨hn, hm⟩ := h1 evs hx
  obtain ⟨vs, hvs, hf⟩ := exportAll_ends (fun ev h => he ev ((hm ev).1 h)) L.cats
  unfold Calendar.export Calendar.getEvents at key
  rw [criteria_known hk, ok_bind, hx, ok_bind, hvs, toM_ok] at key
  exact ⟨evs, vs, key, hn, hm, hf.imp (fun _ _ h => export_shows hL h)⟩

/-- C141: `CalendarBase.export` as written raises KeyError if the source does not know an attendee of the calendar; otherwise
TypeError or OverflowError if an event that is asked for has no end, or if the period has a beginning and an event that matches the
criteria has no end; in the other cases it does not raise (C141_export). -/
theorem C141_errors (L : Listing) (hL : L.Faithful) (s : Storage) (hs : s.WF) (src : Source) (cal : Calendar)
    (b e : Option Int) (c : Option Criteria) :
    (¬ Known cal src → Answers (ofCalendar L s src cal) "export" [ofPeriod b e, ofOption (ofCriteria L) c] (.error (.py .KeyError))) ∧
    (Known cal src → ∀ ev, Stored s ev → Matches (For (Dict.keys cal) c) ev → ¬ Ends ev → b ≠ none ∨ Wanted s cal b e c ev →
      Answers (ofCalendar L s src cal) "export" [ofPeriod b e, ofOption (ofCriteria L) c] (.error (.py .TypeError)) ∨
      Answers (ofCalendar L s src cal) "export" [ofPeriod b e, ofOption (ofCriteria L) c] (.error (.py .OverflowError))) := by
  have key := calendar_export_answers L hL s src cal b e c
  unfold Calendar.export Calendar.getEvents at key
  refine ⟨fun hk => ?_, fun hk ev h1 h2 h3 h4 => ?_⟩
  · rw [criteria_unknown hk] at key
    exact key
  · rw [criteria_known hk, ok_bind] at key
    obtain ⟨hm, hok⟩ := C20_getEvents_exact s hs b e (some (For (Dict.keys cal) c))
    cases hx : s.getEvents b e (some (For (Dict.keys cal) c)) with
    | error f =>
      rw [hx] at key
      have hf : f = .py .TypeError ∨ f = .py .OverflowError := by
        obtain ⟨-, ev', -, -, h⟩ := C112_getEvents s hs b e _ f hx
        rcases h with ⟨-, h⟩ | ⟨_, -, -, h⟩
        · exact .inl h
        · exact .inr h
      rcases hf with rfl | rfl
      · exact .inl key
      · exact .inr key
    | ok evs =>
      have hmem : ev ∈ evs := by
        rcases h4 with h4 | h4
        · obtain ⟨b', hb'⟩ := Option.ne_none_iff_exists'.1 h4
          exact absurd (hok.1 ⟨evs, hx⟩ b' hb' ev h1 h2) h3
        · exact ((hm evs hx).2 ev).2 h4
      rw [hx, ok_bind] at key
      rcases exportAll_not_ends hmem h3 L.cats with h' | h' <;> rw [h'] at key
      · exact .inl key
      · exact .inr key

/-- C141: without arguments `CalendarBase.export` as written exports everything. -/
theorem C141_default (L : Listing) (hL : L.Faithful) (s : Storage) (src : Source) (cal : Calendar) (r : M Val) :
    Answers (ofCalendar L s src cal) "export" [] r ↔ Answers (ofCalendar L s src cal) "export" [ofPeriod none none, .none] r := by
  have h1 := calendar_export_answers L hL s src cal none none none
  have h2 : Answers (ofCalendar L s src cal) "export" [] (toM calendarText (cal.export src s none none none L.cats)) :=
    answers_of 0 9 (fun W n _ => cal_export_default W n L hL s src cal)
  exact ⟨fun h => h.unique h2 ▸ h1, fun h => h.unique h1 ▸ h2⟩

/-- C141: the components in the text of `CalendarBase.export` as written say, when the iCalendar library reads them again, when the
events take place — if their rules can be said so and, when they are all-day, they have whole days (C125). -/
theorem C141_says_partial (L : Listing) (hL : L.Faithful) (tz : LocalTz) (s : Storage) (hs : s.WF) (src : Source) (cal : Calendar)
    (b e : Option Int) (c : Option Criteria) (hk : Known cal src)
    (hb : b ≠ none → ∀ ev, Stored s ev → Matches (For (Dict.keys cal) c) ev → Ends ev)
    (he : ∀ ev, Wanted s cal b e c ev → Ends ev ∧ dtInRange ev.dtstart = true ∧
      (ev.allday = true → ev.dtstart % DAY = 0 ∧ ∀ d, ev.duration = some d → d % DAY = 0) ∧
      ∀ r, ev.recurrence = some r → Said r (dtDate ev.dtstart)) :
    ∃ evs vs, Answers (ofCalendar L s src cal) "export" [ofPeriod b e, ofOption (ofCriteria L) c] (.ok (calendarText vs)) ∧
      (∀ ev, ev ∈ evs ↔ Wanted s cal b e c ev) ∧
      List.Forall₂ (fun ev v => Parsed tz v (reread (writtenProps v)) ∧ ∃ st dur, v.uid = some ev.uid ∧ v.dtstart = some st ∧
        Means tz st ev.dtstart ∧ (IsDateValue st ↔ ev.allday = true) ∧ ev.duration = some dur ∧ Lasts tz v ev.dtstart dur ∧
        ∀ t, TakesPlace v [] ev.dtstart t ↔ StartsAt ev t) evs vs := by
  have key := calendar_export_answers L hL s src cal b e c
  obtain ⟨h1, h2⟩ := C20_getEvents_exact s hs b e (some (For (Dict.keys cal) c))
  obtain ⟨evs, hx⟩ := h2.2 (fun b' h ev h1 h2 => hb (by rw [h]; simp) ev h1 h2)
  obtain ⟨hn, hm⟩ := h1 evs hx
  obtain ⟨vs, hvs, hf⟩ := exportAll_ends (fun ev h => (he ev ((hm ev).1 h)).1) L.cats
  unfold Calendar.export Calendar.getEvents at key
  rw [criteria_known hk, ok_bind, hx, ok_bind, hvs, toM_ok] at key
  refine ⟨evs, vs, key, hm, ?_⟩
  have hw : ∀ ev ∈ evs, Wanted s cal b e c ev := fun ev h => (hm ev).1 h
  clear hx hvs key hm hn
  induction hf with
  | nil => exact .nil
  | @cons ev v evs vs hv hf ih =>
    refine .cons ?_ (ih (fun ev h => hw ev (List.mem_cons_of_mem _ h)))
    obtain ⟨hend, hst, hday, hrule⟩ := he ev (hw ev (List.mem_cons_self ..))
    obtain ⟨st, dur, k1, k2, k3, k4, k5, k6⟩ := C125_says_partial tz ev false L.cats v hv hst hday hrule
    have hsh := export_shows hL hv
    refine ⟨shows_parsed tz hsh (by rw [k4]; simp) (fun r hq => ?_), st, dur, hsh.uid, k1, k2, k3, k4, k5, k6⟩
    obtain ⟨-, -, -, hkk⟩ := hrule r hq
    rcases hkk with hkk | ⟨hkk, -⟩ | hkk | ⟨l, hkk, -⟩ <;> rw [hkk] <;> exact ⟨by simp, by simp⟩

/-- C141, concrete: before noon the calendar of both has the meeting; if the source knows nobody, KeyError; if an event has no
end, TypeError. -/
example :
    Sample.listing.Faithful ∧ Sample.store.WF ∧ Known Sample.team Sample.people ∧
    Source.prog.invoke 9 12 (ofCalendar Sample.listing Sample.store Sample.people Sample.team) "export"
        [ofPeriod (some Sample.day) (some (Sample.day + 12 * Sample.HOUR)), .none] []
      = .ok (textOf (ofParts [("prodid", .str "-//CalCore //nuxeo.com//"), ("version", .str "2.0")] [ofWritten [
          ("dtstart", .datetime (Sample.day + 10 * Sample.HOUR)), ("dtend", .datetime (Sample.day + 12 * Sample.HOUR)),
          ("transp", .str "OPAQUE"), ("uid", .str "m"), ("class", .str "PUBLIC"), ("summary", .str "meeting"),
          ("categories", .obj "vInline" [("list", .list [.str "work"])]), ("status", .str "TENTATIVE")]])) ∧
    Source.prog.invoke 9 12 (ofCalendar Sample.listing Sample.store [] Sample.team) "export" [] [] = .error (.py .KeyError) ∧
    Source.prog.invoke 9 12 (ofCalendar Sample.listing ⟨"st", "host", [("m", { Sample.series with duration := none })]⟩ Sample.people Sample.team)
      "export" [] [] = .error (.py .TypeError) :=
  ⟨Sample.listing_faithful, Sample.store_wf, by unfold Known; decide +kernel, sameM_eq (by decide +kernel), sameM_eq (by decide +kernel),
    sameM_eq (by decide +kernel)⟩

end CalCore
