import Verif.Lemmas.Queries
import Verif.Model.Calendar
import Verif.Props.Samples
/- Properties C20, C36, C37, C39, C58: event queries.  Every store reached by any history of calls is
`WF` (`run_wf`: each event is stored once, under its own uid). -/
namespace CalCore
open Spec

/-! ### C20 -/

/-- C20, for every period and every duration: exactly which events `getEvents` returns, in terms of
the ends of the event (not of overlap), and when it returns at all. -/
theorem C20_getEvents_exact (s : Storage) (hs : s.WF) (b e : Option Int) (c : Option Criteria) :
    (∀ l, s.getEvents b e c = .ok l → (l.map (·.uid)).Nodup ∧ ∀ ev, ev ∈ l ↔
      Stored s ev ∧ Matches (c.getD {}) ev ∧
        (∀ b', b = some b' → b' < ev.dtstart + ev.duration.getD 0) ∧
        (∀ e', e = some e' → ev.dtstart < e')) ∧
    ((∃ l, s.getEvents b e c = .ok l) ↔
      ∀ b', b = some b' → ∀ ev, Stored s ev → Matches (c.getD {}) ev →
        ∃ d, ev.duration = some d ∧ dtInRange (ev.dtstart + d) = true) := by
  unfold Storage.getEvents
  constructor
  · intro l h
    obtain ⟨h1, h2⟩ := filterInPeriod_ok.1 h
    constructor
    · rw [h2]
      exact List.Sublist.nodup (List.Sublist.map _ List.filter_sublist) (matching_uid_nodup hs c)
    · intro ev
      rw [h2, List.mem_filter, mem_matching hs, decide_eq_true_eq, and_assoc]
      constructor
      · rintro ⟨hst, hm, hk⟩
        exact ⟨hst, hm, (inPeriod_ok.1 hk).2.1 rfl⟩
      · rintro ⟨hst, hm, hk⟩
        obtain ⟨k, hk'⟩ := h1 ev ((mem_matching hs c ev).2 ⟨hst, hm⟩)
        have := (inPeriod_ok.1 hk').2.2 hk
        rw [this] at hk'
        exact ⟨hst, hm, hk'⟩
  · constructor
    · rintro ⟨l, h⟩ b' hb ev hst hm
      obtain ⟨h1, _⟩ := filterInPeriod_ok.1 h
      obtain ⟨k, hk⟩ := h1 ev ((mem_matching hs c ev).2 ⟨hst, hm⟩)
      rcases (inPeriod_ok.1 hk).1 with h | h
      · rw [h] at hb; cases hb
      · exact h
    · intro h
      refine ⟨_, filterInPeriod_ok.2 ⟨fun ev hev => ?_, rfl⟩⟩
      obtain ⟨hst, hm⟩ := (mem_matching hs c ev).1 hev
      refine ⟨decide ((∀ b', b = some b' → b' < ev.dtstart + ev.duration.getD 0) ∧
        ∀ e', e = some e' → ev.dtstart < e'), inPeriod_ok.2 ⟨?_, by simp⟩⟩
      cases b with
      | none => exact Or.inl rfl
      | some b => exact Or.inr (h b rfl ev hst hm)

/-- C20: for events without negative durations and periods that are not empty or inverted, `getEvents`
returns exactly the matching events that overlap the period.  Missing from the full property: empty and
inverted periods (false, see `C20_empty_period_counterexample`). -/
theorem C20_getEvents_partial (s : Storage) (hs : s.WF) (b e : Option Int) (c : Option Criteria)
    (hp : ProperPeriod b e) (hd : ∀ ev, Stored s ev → 0 ≤ ev.duration.getD 0) (l : List Event)
    (h : s.getEvents b e c = .ok l) :
    (l.map (·.uid)).Nodup ∧ ∀ ev, ev ∈ l ↔
      Stored s ev ∧ Matches (c.getD {}) ev ∧ Shown ev.dtstart (ev.duration.getD 0) b e := by
  obtain ⟨h1, h2⟩ := (C20_getEvents_exact s hs b e c).1 l h
  refine ⟨h1, fun ev => ?_⟩
  rw [h2]
  constructor
  · rintro ⟨hst, hm, hk⟩; exact ⟨hst, hm, (shown_iff (hd ev hst) hp).1 hk⟩
  · rintro ⟨hst, hm, hk⟩; exact ⟨hst, hm, (shown_iff (hd ev hst) hp).2 hk⟩

/-- C20, concrete: on the second day, Bob's trip and the point event are shown, the meeting is not. -/
example : ∃ l, Sample.store.getEvents (some (Sample.day + DAY)) (some (Sample.day + 2 * DAY)) none = .ok l ∧
    l.map (·.uid) = ["t", "p"] := ⟨_, rfl, by decide +kernel⟩

/-- C20 is false for empty periods: an event containing the point is returned though the period
contains no instant. -/
theorem C20_empty_period_counterexample :
    (∃ l, Sample.store.getEvents (some (Sample.day + 11 * Sample.HOUR)) (some (Sample.day + 11 * Sample.HOUR))
      none = .ok l ∧ l.map (·.uid) = ["m"]) ∧
    ∀ x d, ¬ Shown x d (some (Sample.day + 11 * Sample.HOUR)) (some (Sample.day + 11 * Sample.HOUR)) := by
  refine ⟨⟨_, rfl, by decide +kernel⟩, ?_⟩
  rintro x d (⟨t, _, _, h1, h2⟩ | ⟨_, h1, h2⟩)
  · have := h1 _ rfl; have := h2 _ rfl; omega
  · have := h1 _ rfl; have := h2 _ rfl; omega

/-! ### C36 -/

/-- C36: search criteria are the conjunction of their parts. -/
theorem C36_match_iff (c : Criteria) (e : Event) : c.match e = true ↔ Matches c e := match_iff c e

/-- C36: no criteria match everything. -/
theorem C36_match_none (e : Event) : ({} : Criteria).match e = true := rfl

/-- C36, concrete: status and role must hold of the same attendee. -/
example : ∃ e, Dict.get? Sample.store.events "m" = some e ∧
    ({ attendees := some ["zoe", "bob"], status := some "NEEDS-ACTION", role := some "OPT-PARTICIPANT",
       categories := some ["x", "work"], organizer := some "alice" } : Criteria).match e = true ∧
    ({ attendees := some ["alice", "bob"], status := some "ACCEPTED", role := some "OPT-PARTICIPANT" }
      : Criteria).match e = false ∧
    ({ attendees := some [] } : Criteria).match e = false := ⟨_, rfl, by decide +kernel⟩

/-! ### C37 -/

/-- The criteria name no attendees of their own. -/
def NoAttendees (c : Option Criteria) : Prop := ∀ c', c = some c' → c'.attendees = none ∨ c'.attendees = some []

theorem attendeeCriteria_attendees {a : AttId} {c : Option Criteria} (hc : NoAttendees c) :
    (attendeeCriteria a c).attendees = some [a] := by
  unfold attendeeCriteria
  cases c with
  | none => rfl
  | some c =>
    simp only [Criteria.clone]
    rcases hc c rfl with h | h <;> rw [h] <;> rfl

/-- C37, attendees: with criteria that name no attendees, only events the attendee attends are shown,
and these are all that satisfy the rest of the criteria.  Missing: criteria naming attendees, for which
the property is false (`C37_leak_counterexample`). -/
theorem C37_attendee_partial (s : Storage) (hs : s.WF) (a : AttId) (b e : Option Int) (c : Option Criteria)
    (hc : NoAttendees c) (l : List Event) (h : s.attendeeGetEvents a b e c = .ok l) :
    ∀ ev ∈ l, Attends ev a ∧ Stored s ev := by
  intro ev hev
  obtain ⟨hst, hm, _⟩ := (((C20_getEvents_exact s hs b e _).1 l h).2 ev).1 hev
  obtain ⟨a', ha, st, h1, _⟩ := hm.2.2 [a] (attendeeCriteria_attendees hc)
  rw [List.mem_singleton] at ha
  exact ⟨⟨st, ha ▸ h1⟩, hst⟩

theorem lookupAll_ok {src : Source} {l l' : List AttId} (h : lookupAll src l = .ok l') :
    l' = l ∧ ∀ a ∈ l, Dict.has src a = true := by
  induction l generalizing l' with
  | nil => injection h with h; exact ⟨h.symm, by simp⟩
  | cons a rest ih =>
    unfold lookupAll at h
    simp only [bind_ok] at h
    obtain ⟨x, hx, more, hm, h⟩ := h
    injection h with h
    unfold Source.getAttendee at hx
    split at hx
    · rename_i hh
      injection hx with hx
      obtain ⟨h1, h2⟩ := ih hm
      exact ⟨by rw [← h, h1, hx], fun y hy => by
        rcases List.mem_cons.1 hy with rfl | hy
        · exact hh
        · exact h2 y hy⟩
    · simp at hx

theorem lookupAll_known {src : Source} {l : List AttId} (h : ∀ a ∈ l, Dict.has src a = true) :
    lookupAll src l = .ok l := by
  induction l with
  | nil => rfl
  | cons a rest ih =>
    unfold lookupAll Source.getAttendee
    rw [if_pos (h a (List.mem_cons_self ..)), ih (fun y hy => h y (List.mem_cons_of_mem _ hy))]
    rfl

/-- The criteria used by a calendar. -/
theorem calendar_criteria_ok {c : Calendar} {src : Source} {cr : Option Criteria} {cr' : Criteria} :
    c.criteria src cr = .ok cr' ↔
      (∀ a ∈ Dict.keys c, Dict.has src a = true) ∧
      cr' = (match cr with
        | some cr => cr.clone (attendees := some (Dict.keys c))
        | none => { attendees := some (Dict.keys c) }) := by
  unfold Calendar.criteria Calendar.getAttendees
  simp only [bind_ok]
  constructor
  · rintro ⟨l, hl, h⟩
    obtain ⟨h1, h2⟩ := lookupAll_ok hl
    subst h1
    refine ⟨h2, ?_⟩
    cases cr with
    | none => injection h with h; exact h.symm
    | some cr => injection h with h; exact h.symm
  · rintro ⟨h1, h2⟩
    refine ⟨_, lookupAll_known h1, ?_⟩
    cases cr with
    | none => rw [h2]
    | some cr => rw [h2]

theorem calendar_getEvents_ok {c : Calendar} {src : Source} {s : Storage} {b e : Option Int}
    {cr : Option Criteria} {l : List Event} :
    c.getEvents src s b e cr = .ok l ↔
      (∀ a ∈ Dict.keys c, Dict.has src a = true) ∧
      s.getEvents b e (some (match cr with
        | some cr => cr.clone (attendees := some (Dict.keys c))
        | none => { attendees := some (Dict.keys c) })) = .ok l := by
  unfold Calendar.getEvents
  simp only [bind_ok, calendar_criteria_ok]
  constructor
  · rintro ⟨cr', ⟨h1, h2⟩, h3⟩; rw [h2] at h3; exact ⟨h1, h3⟩
  · rintro ⟨h1, h2⟩; exact ⟨_, ⟨h1, rfl⟩, h2⟩

/-- C37, calendars: with criteria that name no attendees, only events attended by an attendee of the
calendar are shown. -/
theorem C37_calendar_partial (s : Storage) (hs : s.WF) (cal : Calendar) (src : Source) (b e : Option Int)
    (c : Option Criteria) (hc : NoAttendees c) (l : List Event)
    (h : cal.getEvents src s b e c = .ok l) :
    ∀ ev ∈ l, (∃ a ∈ Dict.keys cal, Attends ev a) ∧ Stored s ev := by
  intro ev hev
  obtain ⟨_, h⟩ := calendar_getEvents_ok.1 h
  obtain ⟨hst, hm, _⟩ := (((C20_getEvents_exact s hs b e _).1 l h).2 ev).1 hev
  have ha := hm.2.2 (Dict.keys cal) (by
    cases c with
    | none => rfl
    | some c =>
      simp only [Criteria.clone, Option.getD_some]
      rcases hc c rfl with h | h <;> rw [h] <;> rfl)
  obtain ⟨a, ha, st, h1, _⟩ := ha
  exact ⟨⟨a, ha, st, h1⟩, hst⟩

/-- C37, concrete: criteria with a category and an empty attendee list. -/
example : NoAttendees (some { attendees := some [], categories := some ["work"] }) ∧
    ∃ l, Sample.store.attendeeGetEvents "bob" none none
      (some { attendees := some [], categories := some ["work"] }) = .ok l ∧ l.map (·.uid) = ["m"] :=
  ⟨fun _ h => by injection h with h; rw [← h]; exact Or.inr rfl, _, rfl, by decide +kernel⟩

/-- C37 is false for criteria naming attendees: Alice's query shows an event only Bob attends, though
the interface says that the arguments of `clone` override the criteria (interfaces.py:190). -/
theorem C37_leak_counterexample :
    ∃ l ev, Sample.store.attendeeGetEvents "alice" none none (some { attendees := some ["bob"] }) = .ok l ∧
      ev ∈ l ∧ ¬ Attends ev "alice" ∧
    ∃ l' ev', Calendar.getEvents [("alice", ())] [("alice", ⟨"Alice", "INDIVIDUAL"⟩)] Sample.store none none
        (some { attendees := some ["bob"] }) = .ok l' ∧ ev' ∈ l' ∧ ¬ Attends ev' "alice" := by
  have h : ∃ ev, Dict.get? Sample.store.events "p" = some ev ∧ Dict.get? ev.pstate "alice" = none ∧
      ({ attendees := some ["bob"] } : Criteria).match ev = true := ⟨_, rfl, by decide +kernel⟩
  obtain ⟨ev, h1, h2, h3⟩ := h
  have hu := Sample.store_wf.uid _ _ h1
  have hn : ¬ Attends ev "alice" := by rintro ⟨st, h⟩; rw [h2] at h; cases h
  have hex : ∃ l, Sample.store.getEvents none none (some { attendees := some ["bob"] }) = .ok l :=
    ((C20_getEvents_exact _ Sample.store_wf none none _).2).2 (by simp)
  obtain ⟨l, hl⟩ := hex
  have hm : ev ∈ l := (((C20_getEvents_exact _ Sample.store_wf none none _).1 l hl).2 ev).2
    ⟨by unfold Stored; rw [hu]; exact h1, (match_iff _ _).1 h3, by simp, by simp⟩
  exact ⟨l, ev, hl, hm, hn, l, ev, hl, hm, hn⟩

/-! ### C39 -/

/-- C39: `getOrganizedEvents` always returns, and returns exactly the events the attendee organizes. -/
theorem C39_organized_exact (s : Storage) (hs : s.WF) (a : AttId) :
    ∃ l, s.getOrganizedEvents a none = .ok l ∧ (l.map (·.uid)).Nodup ∧
      ∀ ev, ev ∈ l ↔ Stored s ev ∧ ev.organizerId = some a := by
  have hex := ((C20_getEvents_exact s hs none none (some { organizer := some a })).2).2 (by simp)
  obtain ⟨l, hl⟩ := hex
  obtain ⟨h1, h2⟩ := (C20_getEvents_exact s hs none none (some { organizer := some a })).1 l hl
  refine ⟨l, hl, h1, fun ev => ?_⟩
  rw [h2]
  simp [Matches]

/-- C39, concrete: an event without a duration is included. -/
example : ∃ l, Storage.getOrganizedEvents
      ((freshWorld "st" "host").run (Sample.ops ++ [.create 0 (some "o") Sample.open_])).store
      "carol" none = .ok l ∧ l.map (fun e => (e.uid, e.duration)) = [("o", none)] :=
  ⟨_, rfl, by decide +kernel⟩

/-! ### C58 -/

/-- C58: a calendar query without criteria succeeds exactly when all its attendees are known and each
of their queries succeeds, and shows exactly what at least one of them is shown. -/
theorem C58_calendar_union (s : Storage) (hs : s.WF) (cal : Calendar) (src : Source) (b e : Option Int) :
    ((∃ l, cal.getEvents src s b e none = .ok l) ↔
      ∀ a ∈ Dict.keys cal, Dict.has src a = true ∧ ∃ l, s.attendeeGetEvents a b e none = .ok l) ∧
    ∀ l, cal.getEvents src s b e none = .ok l → (l.map (·.uid)).Nodup ∧
      ∀ ev, ev ∈ l ↔ ∃ a ∈ Dict.keys cal, ∃ la, s.attendeeGetEvents a b e none = .ok la ∧ ev ∈ la := by
  have hM : ∀ (L : List AttId) ev, Matches { attendees := some L } ev ↔ ∃ a ∈ L, Attends ev a := by
    intro L ev; simp [Matches, Attends]
  have hq : ∀ a, (∃ l, s.attendeeGetEvents a b e none = .ok l) ↔
      ∀ b', b = some b' → ∀ ev, Stored s ev → Attends ev a →
        ∃ d, ev.duration = some d ∧ dtInRange (ev.dtstart + d) = true := by
    intro a
    have := (C20_getEvents_exact s hs b e (some { attendees := some [a] })).2
    simp only [Option.getD_some, hM, List.mem_singleton, exists_eq_left] at this
    exact this
  have hc := (C20_getEvents_exact s hs b e (some { attendees := some (Dict.keys cal) })).2
  simp only [Option.getD_some, hM] at hc
  constructor
  · constructor
    · rintro ⟨l, h⟩ a ha
      obtain ⟨h1, h2⟩ := calendar_getEvents_ok.1 h
      refine ⟨h1 a ha, (hq a).2 fun b' hb ev hst hat => ?_⟩
      exact hc.1 ⟨l, h2⟩ b' hb ev hst ⟨a, ha, hat⟩
    · intro h
      obtain ⟨l, hl⟩ := hc.2 (fun b' hb ev hst ⟨a, ha, hat⟩ => (hq a).1 (h a ha).2 b' hb ev hst hat)
      exact ⟨l, calendar_getEvents_ok.2 ⟨fun a ha => (h a ha).1, hl⟩⟩
  · intro l h
    obtain ⟨_, h⟩ := calendar_getEvents_ok.1 h
    obtain ⟨h1, h2⟩ := (C20_getEvents_exact s hs b e _).1 l h
    refine ⟨h1, fun ev => ?_⟩
    rw [h2]
    simp only [Option.getD_some, hM]
    constructor
    · rintro ⟨hst, ⟨a, ha, hat⟩, hp⟩
      have hok := (hq a).2 (fun b' hb ev' hst' hat' => hc.1 ⟨l, h⟩ b' hb ev' hst' ⟨a, ha, hat'⟩)
      obtain ⟨la, hla⟩ := hok
      refine ⟨a, ha, la, hla, ?_⟩
      have := ((C20_getEvents_exact s hs b e (some { attendees := some [a] })).1 la hla).2 ev
      simp only [Option.getD_some, hM] at this
      exact this.2 ⟨hst, ⟨a, by simp, hat⟩, hp⟩
    · rintro ⟨a, ha, la, hla, hev⟩
      have := ((C20_getEvents_exact s hs b e (some { attendees := some [a] })).1 la hla).2 ev
      simp only [Option.getD_some, hM] at this
      obtain ⟨hst, ⟨a', ha', hat⟩, hp⟩ := this.1 hev
      rw [List.mem_singleton] at ha'
      exact ⟨hst, ⟨a, ha, ha' ▸ hat⟩, hp⟩

/-- C58: an empty calendar shows nothing. -/
theorem C58_empty (s : Storage) (hs : s.WF) (src : Source) (b e : Option Int) :
    Calendar.getEvents [] src s b e none = .ok [] := by
  have h := (C58_calendar_union s hs [] src b e).1.2 (by simp [Dict.keys])
  obtain ⟨l, hl⟩ := h
  have := ((C58_calendar_union s hs [] src b e).2 l hl).2
  simp only [Dict.keys, List.map_nil, List.not_mem_nil, false_and, exists_false, iff_false] at this
  rw [hl, List.eq_nil_iff_forall_not_mem.2 this]

/-- C58: which attendees a calendar has after `addAttendee` and `removeAttendee`; removing raises
KeyError, and changes nothing, exactly when the attendee is not there. -/
theorem C58_add_remove (cal : Calendar) (a : AttId) :
    (∀ x, x ∈ Dict.keys (cal.add a) ↔ x = a ∨ x ∈ Dict.keys cal) ∧
    (a ∈ Dict.keys cal → (cal.remove a).2 = .ok () ∧
      ∀ x, x ∈ Dict.keys (cal.remove a).1 ↔ x ≠ a ∧ x ∈ Dict.keys cal) ∧
    (a ∉ Dict.keys cal → cal.remove a = (cal, raise .KeyError)) := by
  refine ⟨fun x => Dict.mem_keys_set _ _ _ _, fun h => ?_, fun h => ?_⟩
  · unfold Calendar.remove
    rw [if_pos ((Dict.has_iff_mem_keys _ _).2 h)]
    exact ⟨rfl, fun x => Dict.mem_keys_del _ _ _⟩
  · unfold Calendar.remove
    rw [if_neg (fun h' => h ((Dict.has_iff_mem_keys _ _).1 h'))]

/-- C58: so adding an attendee adds exactly that attendee's view. -/
theorem C58_add_view (s : Storage) (hs : s.WF) (cal : Calendar) (src : Source) (a : AttId) (b e : Option Int)
    (l l' la : List Event) (h : cal.getEvents src s b e none = .ok l)
    (h' : (cal.add a).getEvents src s b e none = .ok l') (ha : s.attendeeGetEvents a b e none = .ok la) :
    ∀ ev, ev ∈ l' ↔ ev ∈ l ∨ ev ∈ la := by
  intro ev
  rw [((C58_calendar_union s hs _ src b e).2 l' h').2, ((C58_calendar_union s hs _ src b e).2 l h).2]
  simp only [(C58_add_remove cal a).1]
  constructor
  · rintro ⟨x, rfl | hx, ly, hly, hev⟩
    · rw [ha] at hly; injection hly with hly; subst hly; exact Or.inr hev
    · exact Or.inl ⟨x, hx, ly, hly, hev⟩
  · rintro (⟨x, hx, ly, hly, hev⟩ | hev)
    · exact ⟨x, Or.inr hx, ly, hly, hev⟩
    · exact ⟨a, Or.inl rfl, la, ha, hev⟩

/-- C58, concrete: a calendar of Alice and Carol, on the first day. -/
example : ∃ l, Calendar.getEvents (Calendar.add (Calendar.add [] "alice") "carol")
      [("alice", ⟨"Alice", "INDIVIDUAL"⟩), ("carol", ⟨"Carol", "INDIVIDUAL"⟩)] Sample.store
      (some Sample.day) (some (Sample.day + DAY)) none = .ok l ∧ l.map (·.uid) = ["m", "t"] :=
  ⟨_, rfl, by decide +kernel⟩

end CalCore
