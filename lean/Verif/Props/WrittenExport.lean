import Verif.Lemmas.SourceExport
import Verif.Lemmas.SourceFuel
import Verif.Lemmas.LangSame
import Verif.Props.Exported
import Verif.Props.WrittenImport
/- Property C140: `export` of events, as it is written. -/
namespace CalCore
open Spec Lang

/-- The component `v` shows the event `ev`: everything but the organizer and the attendees, or, if `priv`, nothing but the times, the
rule, the transparency, the access and the unique id. -/
structure Spec.Shows (ev : Event) (priv : Bool) (v : VEvent) : Prop where
  uid : v.uid = some ev.uid
  timed : ev.allday = false → v.dtstart = some (.naive ev.dtstart) ∧
    ∀ d, ev.duration = some d → v.dtend = some (.naive (ev.dtstart + d))
  days : ev.allday = true → v.dtstart = some (.date (dtDate ev.dtstart)) ∧
    ∀ d, ev.duration = some d → v.dtend = some (.date (dtDate (ev.dtstart + d)))
  duration : v.duration = none
  once : ev.recurrence = none → v.rrule = none
  rule : ∀ r, ev.recurrence = some r → ∃ rr, v.rrule = some rr ∧ rr.freq = r.kind.icalFreq ∧ rr.interval = some [r.interval] ∧
    (rr.count = none ∧ r.count = none ∨ ∃ c, rr.count = some [c] ∧ r.count = some c) ∧
    (rr.untl = none ∧ r.untl = none ∨ ∃ u, rr.untl = some [u] ∧ r.untl = some u) ∧ rr.byday = none
  transp : v.transp = some (if ev.transparent = true then "TRANSPARENT" else "OPAQUE")
  access : v.cls = some ev.access
  summary : v.summary = some (if priv = true then "Private Event" else ev.title)
  description : ∀ x, v.description = some x ↔ priv = false ∧ x = ev.description ∧ x ≠ ""
  location : ∀ x, v.location = some x ↔ priv = false ∧ x = ev.location ∧ x ≠ ""
  document : ∀ x, v.attach = some x ↔ priv = false ∧ ev.document = some x ∧ x ≠ ""
  status : ∀ x, v.status = some x ↔ priv = false ∧ x = ev.status
  noCategories : priv = true ∨ ev.categories = ∅ → v.categories = .absent
  categories : priv = false → ev.categories ≠ ∅ → ∃ l, v.categories = .inline l ∧ ∀ x, x ∈ l ↔ x ∈ ev.categories
  organizer : v.organizer = none
  attendees : v.attendees = []

theorem export_shows {ev : Event} {priv : Bool} {L : Listing} (hL : L.Faithful) {v : VEvent} (h : ev.export priv L.cats = .ok v) :
    Shows ev priv v := by
  unfold Event.export at h
  cases hd : ev.duration with
  | none => rw [hd] at h; cases h
  | some dur =>
    rw [hd] at h
    simp only [bind_ok, dtAdd_ok] at h
    obtain ⟨x, ⟨hr, rfl⟩, h⟩ := h
    have hrule : ∀ r, ev.recurrence = some r → ∃ rr, ev.recurrence.map exportRule = some rr ∧ rr.freq = r.kind.icalFreq ∧
        rr.interval = some [r.interval] ∧ (rr.count = none ∧ r.count = none ∨ ∃ c, rr.count = some [c] ∧ r.count = some c) ∧
        (rr.untl = none ∧ r.untl = none ∨ ∃ u, rr.untl = some [u] ∧ r.untl = some u) ∧ rr.byday = none := by
      intro r hr
      refine ⟨exportRule r, by rw [hr]; rfl, rfl, rfl, ?_, ?_, rfl⟩
      · unfold exportRule
        cases r.count <;> simp
      · unfold exportRule
        cases r.untl <;> simp
    cases priv
    · simp only [Bool.false_eq_true, if_false, Except.ok.injEq] at h
      subst h
      constructor
      case rule => exact hrule
      case once => intro hn; simp [hn]
      case document =>
        intro x
        show (match ev.document with
          | some d => if d = "" then none else some d
          | none => none) = some x ↔ _
        cases hq : ev.document with
        | none => simp
        | some d =>
          by_cases h0 : d = ""
          · simp [h0]
          · simp only [h0, if_false, Option.some.injEq, true_and]
            constructor
            · rintro rfl; exact ⟨rfl, h0⟩
            · exact fun h => h.1
      case description =>
        intro x
        show (if ev.description = "" then none else some ev.description) = some x ↔ _
        by_cases h0 : ev.description = ""
        · simp [h0]
        · simp only [h0, if_false, Option.some.injEq, true_and]
          constructor
          · rintro rfl; exact ⟨rfl, h0⟩
          · exact fun h => h.1.symm
      case location =>
        intro x
        show (if ev.location = "" then none else some ev.location) = some x ↔ _
        by_cases h0 : ev.location = ""
        · simp [h0]
        · simp only [h0, if_false, Option.some.injEq, true_and]
          constructor
          · rintro rfl; exact ⟨rfl, h0⟩
          · exact fun h => h.1.symm
      case status => intro x; simp [eq_comm]
      case noCategories => intro h; simp only [Bool.false_eq_true, false_or] at h; simp [h]
      case categories =>
        intro _ hne
        refine ⟨L.cats ev.categories, by simp [hne], fun x => hL _ _⟩
      case timed => intro ha; simp [ha, hd]
      case days => intro ha; simp [ha, hd]
      all_goals rfl
    · simp only [if_true, Except.ok.injEq] at h
      subst h
      constructor
      case rule => exact hrule
      case once => intro hn; simp [hn]
      case timed => intro ha; simp [ha, hd]
      case days => intro ha; simp [ha, hd]
      all_goals simp

/-- C140: `export` as written, of events with a duration that end in the range of Python: a component that shows the event. -/
theorem C140_export (L : Listing) (hL : L.Faithful) (ev : Event) (priv : Bool) (dur : TimeDelta) (hd : ev.duration = some dur)
    (hr : dtInRange (ev.dtstart + dur) = true) :
    ∃ v, Shows ev priv v ∧ Answers (ofEvent L ev) "export" [.bool priv] (.ok (ofWritten (writtenProps v))) := by
  have h : Answers (ofEvent L ev) "export" [.bool priv] (toM (fun v => ofWritten (writtenProps v)) (ev.export priv L.cats)) :=
    answers_of 0 1 (fun W n _ => export_prog W n L hL ev priv)
  have hx : ∃ v, ev.export priv L.cats = .ok v := by
    unfold Event.export
    rw [hd]
    simp only []
    rw [show dtAdd ev.dtstart dur = .ok (ev.dtstart + dur) from dtAdd_ok.2 ⟨hr, rfl⟩]
    cases priv <;> exact ⟨_, rfl⟩
  obtain ⟨v, hv⟩ := hx
  rw [hv] at h
  exact ⟨v, export_shows hL hv, h⟩

/-- C140: without an argument the same as with `False`. -/
theorem C140_default (L : Listing) (hL : L.Faithful) (ev : Event) (r : M Val) :
    Answers (ofEvent L ev) "export" [] r ↔ Answers (ofEvent L ev) "export" [.bool false] r := by
  have h : Answers (ofEvent L ev) "export" [] (toM (fun v => ofWritten (writtenProps v)) (ev.export false L.cats)) :=
    answers_of 0 1 (fun W n _ => export_default W n L hL ev)
  have h' : Answers (ofEvent L ev) "export" [.bool false] (toM (fun v => ofWritten (writtenProps v)) (ev.export false L.cats)) :=
    answers_of 0 1 (fun W n _ => export_prog W n L hL ev false)
  constructor
  · intro hr
    rw [hr.unique h]
    exact h'
  · intro hr
    rw [hr.unique h']
    exact h

/-- C140: without a duration `export` as written raises TypeError; if the event ends out of the range of Python, OverflowError. -/
theorem C140_errors (L : Listing) (hL : L.Faithful) (ev : Event) (priv : Bool) :
    (ev.duration = none → Answers (ofEvent L ev) "export" [.bool priv] (.error (.py .TypeError))) ∧
    ∀ d, ev.duration = some d → dtInRange (ev.dtstart + d) = false →
      Answers (ofEvent L ev) "export" [.bool priv] (.error (.py .OverflowError)) := by
  have h : Answers (ofEvent L ev) "export" [.bool priv] (toM (fun v => ofWritten (writtenProps v)) (ev.export priv L.cats)) :=
    answers_of 0 1 (fun W n _ => export_prog W n L hL ev priv)
  constructor
  · intro hd
    have hx : ev.export priv L.cats = raise .TypeError := by
      unfold Event.export
      rw [hd]
    rw [hx] at h
    exact h
  · intro d hd hr
    have hx : ev.export priv L.cats = raise .OverflowError := by
      unfold Event.export
      rw [hd]
      simp only []
      have ha : dtAdd ev.dtstart d = raise .OverflowError := by
        unfold dtAdd
        rw [hr]
        rfl
      rw [ha]
      rfl
    rw [hx] at h
    exact h

/-- C140: the private export as written does the same for all events that agree on what everybody may see, also of calendars whose
sets are listed in another order. -/
theorem C140_private (L L' : Listing) (hL : L.Faithful) (hL' : L'.Faithful) (ev ev' : Event) (h : SameTimes ev ev') (r : M Val) :
    Answers (ofEvent L ev) "export" [.bool true] r ↔ Answers (ofEvent L' ev') "export" [.bool true] r := by
  have h1 : Answers (ofEvent L ev) "export" [.bool true] (toM (fun v => ofWritten (writtenProps v)) (ev.export true L.cats)) :=
    answers_of 0 1 (fun W n _ => export_prog W n L hL ev true)
  have h2 : Answers (ofEvent L' ev') "export" [.bool true] (toM (fun v => ofWritten (writtenProps v)) (ev'.export true L'.cats)) :=
    answers_of 0 1 (fun W n _ => export_prog W n L' hL' ev' true)
  rw [C51_private ev ev' h L.cats L'.cats] at h1
  constructor
  · intro hr
    rw [hr.unique h1]
    exact h2
  · intro hr
    rw [hr.unique h2]
    exact h1

theorem shows_parsed (tz : LocalTz) {ev : Event} {priv : Bool} {v : VEvent} (h : Shows ev priv v) (hd : ev.duration ≠ none)
    (hr : ∀ r, ev.recurrence = some r → r.kind ≠ .basic ∧ r.kind ≠ .no) : Parsed tz v (reread (writtenProps v)) := by
  obtain ⟨d, hd⟩ := Option.ne_none_iff_exists'.1 hd
  refine reread_parsed tz v h.duration h.organizer h.attendees (fun l hc => ?_) (fun t ht => ?_) (fun t ht => ?_) (fun rr hrr => ?_)
  · by_cases hn : priv = true ∨ ev.categories = ∅
    · rw [h.noCategories hn] at hc; cases hc
    · rw [not_or] at hn
      obtain ⟨l', hl, -⟩ := h.categories (by simpa using hn.1) hn.2
      rw [hl] at hc; cases hc
  · cases ha : ev.allday
    · rw [(h.timed ha).1] at ht; injection ht with ht; subst ht; trivial
    · rw [(h.days ha).1] at ht; injection ht with ht; subst ht; trivial
  · cases ha : ev.allday
    · rw [(h.timed ha).2 d hd] at ht; injection ht with ht; subst ht; trivial
    · rw [(h.days ha).2 d hd] at ht; injection ht with ht; subst ht; trivial
  · cases hq : ev.recurrence with
    | none => rw [h.once hq] at hrr; cases hrr
    | some r =>
      obtain ⟨rr', h1, hf, -, -, -, hb⟩ := h.rule r hq
      rw [hrr] at h1
      injection h1 with h1
      subst h1
      refine ⟨?_, hb⟩
      rw [hf]
      obtain ⟨k1, k2⟩ := hr r hq
      cases hk : r.kind with
      | basic => exact absurd hk k1
      | no => exact absurd hk k2
      | _ => simp [RuleKind.icalFreq]

/-- C140: what `export` as written writes says, when the iCalendar library reads it again, when the event takes place — for events
whose rules can be said so and, when they are all-day, with whole days (C125). -/
theorem C140_says_partial (L : Listing) (hL : L.Faithful) (tz : LocalTz) (ev : Event) (priv : Bool) (dur : TimeDelta)
    (hd : ev.duration = some dur) (hr : dtInRange (ev.dtstart + dur) = true) (hs : dtInRange ev.dtstart = true)
    (hday : ev.allday = true → ev.dtstart % DAY = 0 ∧ dur % DAY = 0)
    (hrule : ∀ r, ev.recurrence = some r → Said r (dtDate ev.dtstart)) :
    ∃ d v st, Answers (ofEvent L ev) "export" [.bool priv] (.ok (ofWritten d)) ∧ Parsed tz v (reread d) ∧
      v.dtstart = some st ∧ Means tz st ev.dtstart ∧ (IsDateValue st ↔ ev.allday = true) ∧ Lasts tz v ev.dtstart dur ∧
      ∀ t, TakesPlace v [] ev.dtstart t ↔ StartsAt ev t := by
  have h : Answers (ofEvent L ev) "export" [.bool priv] (toM (fun v => ofWritten (writtenProps v)) (ev.export priv L.cats)) :=
    answers_of 0 1 (fun W n _ => export_prog W n L hL ev priv)
  obtain ⟨v, hv⟩ : ∃ v, ev.export priv L.cats = .ok v := by
    unfold Event.export
    rw [hd]
    simp only []
    rw [show dtAdd ev.dtstart dur = .ok (ev.dtstart + dur) from dtAdd_ok.2 ⟨hr, rfl⟩]
    cases priv <;> exact ⟨_, rfl⟩
  rw [hv] at h
  obtain ⟨st, dur', h1, h2, h3, h4, h5, h6⟩ := C125_says_partial tz ev priv L.cats v hv hs
    (fun ha => ⟨(hday ha).1, fun d h => by rw [hd] at h; injection h with h; exact h ▸ (hday ha).2⟩) hrule
  rw [hd] at h4
  injection h4 with h4
  subst h4
  refine ⟨writtenProps v, v, st, h, shows_parsed tz (export_shows hL hv) (by rw [hd]; simp) (fun r hq => ?_), h1, h2, h3, h5, h6⟩
  obtain ⟨-, -, -, hk⟩ := hrule r hq
  rcases hk with hk | ⟨hk, -⟩ | hk | ⟨l, hk, -⟩ <;> rw [hk] <;> exact ⟨by simp, by simp⟩

/-- C140: what `export` as written writes, read again by the iCalendar library, `_importEventSpecification` as written turns into a
specification that asks for what the event is — for events that the exported properties say completely (C49).  It has the main
attendee of the calendar as organizer and no attendees. -/
theorem C140_round_trip_partial (L : Listing) (hL : L.Faithful) (st : Storage) (src : Source) (c : Calendar) (tz : LocalTz) (ev : Event)
    (hx : Exportable ev) (dur : TimeDelta) (hd : ev.duration = some dur) (hr : dtInRange (ev.dtstart + dur) = true)
    (hc : ∀ a ∈ Dict.keys c, a ∈ Dict.keys src) :
    ∃ d s L', Answers (ofEvent L ev) "export" [] (.ok (ofWritten d)) ∧ Dict.get? d "uid" = some (.str ev.uid) ∧ L'.Faithful ∧
      Answers (ofCalendar L st src c) "_importEventSpecification" [ofComponent (reread d)] (.ok (ofSpec L' s)) ∧
      s.dtstart = ev.dtstart ∧ s.duration = ev.duration ∧ s.allday = ev.allday ∧ s.title = ev.title ∧
      s.description = ev.description ∧ s.location = ev.location ∧ s.status = ev.status ∧ s.categories = ev.categories ∧
      s.transparent = ev.transparent ∧ s.access = ev.access ∧ s.document = ev.document ∧ s.recurrence = ev.recurrence ∧
      s.organizer = (Dict.keys c).head? ∧ s.attendees = [] := by
  have h : Answers (ofEvent L ev) "export" [] (toM (fun v => ofWritten (writtenProps v)) (ev.export false L.cats)) :=
    answers_of 0 1 (fun W n _ => export_default W n L hL ev)
  obtain ⟨v, hv⟩ : ∃ v, ev.export false L.cats = .ok v := by
    unfold Event.export
    rw [hd]
    simp only []
    rw [show dtAdd ev.dtstart dur = .ok (ev.dtstart + dur) from dtAdd_ok.2 ⟨hr, rfl⟩]
    exact ⟨_, rfl⟩
  rw [hv] at h
  have hsh := export_shows hL hv
  have hp : Parsed tz v (reread (writtenProps v)) := shows_parsed tz hsh (by rw [hd]; simp) (fun r hq => by
    rcases (hx.recurrence r hq).1 with hk | hk | hk | hk <;> rw [hk] <;> exact ⟨by simp, by simp⟩)
  have hm : c.main src = .ok (Dict.keys c).head? := by
    unfold Calendar.main Calendar.mainId
    cases hk : Dict.keys c with
    | nil => rfl
    | cons a l =>
      have ha := (Dict.has_iff_mem_keys src a).2 (hc a (by rw [hk]; exact List.mem_cons_self ..))
      simp only [List.head?_cons, Source.getAttendee, ha, if_true, ok_bind]
  have hlist : Lists L.cats := fun s => by
    ext x
    rw [List.mem_toFinset]
    exact hL s x
  obtain ⟨huid, -, s, hs, horg, hatt, hset⟩ := importSpec_export tz c src ev hx L.cats hlist v hv _ hm
  have hi : Answers (ofCalendar L st src c) "_importEventSpecification" [ofComponent (reread (writtenProps v))]
      (toM (ofSpec (relist L v.categories)) (importSpec tz c src v)) :=
    answers_of 0 5 (fun W n _ => importSpec_prog W n L st src c tz v _ hp (.inl (by rw [huid]; simp)))
  rw [hs] at hi
  refine ⟨writtenProps v, s, relist L v.categories, h, ?_, relist_faithful L hL _, hi, ?_⟩
  · unfold writtenProps
    simp [get_putting, huid, List.append_assoc]
  · exact ⟨congrArg Event.dtstart hset, congrArg Event.duration hset, congrArg Event.allday hset, congrArg Event.title hset,
      congrArg Event.description hset, congrArg Event.location hset, congrArg Event.status hset, congrArg Event.categories hset,
      congrArg Event.transparent hset, congrArg Event.access hset, congrArg Event.document hset, congrArg Event.recurrence hset,
      horg, hatt⟩

namespace Sample

/-- The meeting every second week, until the end of the month; it is about a document. -/
def series : Event :=
  { (meeting.setOnObject (blankEvent "m")).1 with recurrence := some ⟨.weekly [], 2, none, some (.date (dtDate day + 28)), []⟩, document := some "http://x/1", location := "here" }

end Sample

/-- C140, concrete: the series, the private series, and the series on whole days. -/
example :
    Sample.listing.Faithful ∧ Exportable Sample.series ∧
    Source.prog.invoke 9 12 (ofEvent Sample.listing Sample.series) "export" [] [] = .ok (ofWritten [
      ("dtstart", .datetime (Sample.day + 10 * Sample.HOUR)), ("dtend", .datetime (Sample.day + 12 * Sample.HOUR)),
      ("rrule", .obj "vRecur" [("parts", ofMap [("freq", .list [.str "WEEKLY"]), ("interval", .list [.int 2]),
        ("until", .list [.date (dtDate Sample.day + 28)])])]),
      ("transp", .str "OPAQUE"), ("uid", .str "m"), ("class", .str "PUBLIC"), ("summary", .str "meeting"), ("location", .str "here"),
      ("categories", .obj "vInline" [("list", .list [.str "work"])]), ("attach", .str "http://x/1"), ("status", .str "TENTATIVE")]) ∧
    Source.prog.invoke 9 12 (ofEvent Sample.listing { Sample.series with recurrence := none }) "export" [.bool true] [] = .ok (ofWritten [
      ("dtstart", .datetime (Sample.day + 10 * Sample.HOUR)), ("dtend", .datetime (Sample.day + 12 * Sample.HOUR)),
      ("transp", .str "OPAQUE"), ("uid", .str "m"), ("class", .str "PUBLIC"), ("summary", .str "Private Event")]) ∧
    Source.prog.invoke 9 12 (ofEvent Sample.listing { Sample.series with recurrence := none, allday := true, duration := some (25 * Sample.HOUR) })
        "export" [.bool true] [] = .ok (ofWritten [
      ("dtstart", dayProp (dtDate Sample.day)), ("dtend", dayProp (dtDate Sample.day + 1)),
      ("transp", .str "OPAQUE"), ("uid", .str "m"), ("class", .str "PUBLIC"), ("summary", .str "Private Event")]) ∧
    Source.prog.invoke 9 12 (ofEvent Sample.listing { Sample.series with duration := none }) "export" [] [] = .error (.py .TypeError) ∧
    (∃ s, Source.prog.invoke 9 12 (ofCalendar Sample.listing Sample.store Sample.people Sample.team) "_importEventSpecification"
        [ofComponent (reread [("dtstart", .datetime (Sample.day + 10 * Sample.HOUR)), ("dtend", .datetime (Sample.day + 12 * Sample.HOUR)),
          ("rrule", .obj "vRecur" [("parts", ofMap [("freq", .list [.str "WEEKLY"]), ("interval", .list [.int 2]),
            ("until", .list [.date (dtDate Sample.day + 28)])])]), ("uid", .str "m")])] [] = .ok (ofSpec Sample.listing s) ∧
      s.recurrence = Sample.series.recurrence) :=
  ⟨Sample.listing_faithful, ⟨fun h => absurd h (by decide +kernel), fun r h => by
      unfold Sample.series at h; injection h with h; subst h; exact ⟨.inr (.inr (.inl rfl)), rfl⟩, by decide +kernel⟩,
    sameM_eq (by decide +kernel), sameM_eq (by decide +kernel), sameM_eq (by decide +kernel), sameM_eq (by decide +kernel),
    ⟨{ dtstart := Sample.day + 10 * Sample.HOUR, duration := some (2 * Sample.HOUR), title := "", organizer := some "bob"
       recurrence := some ⟨.weekly [], 2, none, some (.date (dtDate Sample.day + 28)), []⟩, status := "TENTATIVE" }, sameM_eq (by decide +kernel), rfl⟩⟩

end CalCore
