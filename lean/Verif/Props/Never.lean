import Verif.Props.Interference
import Verif.Lemmas.Algebra
/- Events without occurrences (C106). -/
namespace CalCore
open Spec

/-- The event takes place at least once. -/
def HasOccurrences (e : Event) : Prop := ∃ x, StartsAt e x

/-- C106: an event without rule, or with the rule "no recurrence", takes place. -/
theorem C106_single (e : Event) (h : ∀ r, e.recurrence = some r → r.kind = .no) : HasOccurrences e := by
  unfold HasOccurrences StartsAt
  cases hr : e.recurrence with
  | none => exact ⟨_, rfl⟩
  | some r => exact ⟨_, _, by unfold IsDate; rw [if_pos (h r hr)], rfl⟩

/-- C106: a recurring event does not take place exactly when every date that its rule without exceptions admits is an
exception. -/
theorem C106_when (e : Event) (r : Rule) (hr : e.recurrence = some r) (hk : r.kind ≠ .no) :
    ¬ HasOccurrences e ↔ ∀ d, IsDate { r with exceptions := [] } (dtDate e.dtstart) d → d ∈ r.exceptions := by
  have hocc : HasOccurrences e ↔ ∃ d, IsDate { r with exceptions := [] } (dtDate e.dtstart) d ∧ d ∉ r.exceptions := by
    unfold HasOccurrences StartsAt
    rw [hr]
    have hseq : ruleSeq { r with exceptions := [] } (dtDate e.dtstart) = ruleSeq r (dtDate e.dtstart) := rfl
    unfold IsDate
    simp only [if_neg hk, hseq]
    constructor
    · rintro ⟨_, d, ⟨k, h1, h2, h3⟩, _⟩; exact ⟨d, ⟨k, h1, h2, by simp⟩, h3⟩
    · rintro ⟨d, ⟨k, h1, h2, _⟩, h3⟩; exact ⟨_, d, ⟨k, h1, h2, h3⟩, rfl⟩
  rw [hocc]
  simp only [not_exists, not_and, Classical.not_not]

/-- C106: the rule without exceptions admits no date exactly when count is not positive or until lies before the
start; otherwise it admits the start.  Missing: the rule "n-th last weekday" in the last month of the calendar
(`C106_last_month_counterexample`). -/
theorem C106_bounds_partial (e : Event) (r : Rule) (hr : e.recurrence = some r) (hk : r.kind ≠ .no) (hx : r.exceptions = [])
    (hg : Regular e) (hl : ¬ (r.kind = .monthly .lastweekday ∧ InLastMonth (dtDate e.dtstart))) :
    (¬ HasOccurrences e ↔ (∃ c, r.count = some c ∧ c ≤ 0) ∨ ∃ u, r.untl = some (.date u) ∧ u < dtDate e.dtstart) ∧
    (HasOccurrences e → StartsAt e e.dtstart) := by
  obtain ⟨hs, hrr⟩ := hg
  obtain ⟨hi, hu⟩ := hrr r hr
  have hz : ruleSeq r (dtDate e.dtstart) 0 = some (dtDate e.dtstart) := by
    rw [ruleSeq_eq hk hi (dtDate_range hs)]
    exact seqOf_zero hk (dtDate_range hs) hl
  have hst : Within r none (dtDate e.dtstart) 0 → StartsAt e e.dtstart := by
    intro h
    unfold StartsAt
    rw [hr]
    refine ⟨_, ?_, (combine_dt e.dtstart).symm⟩
    unfold IsDate
    rw [if_neg hk]
    exact ⟨0, hz, h, by simp [hx]⟩
  have hwithin : HasOccurrences e → Within r none (dtDate e.dtstart) 0 := by
    rintro ⟨x, h⟩
    unfold StartsAt at h
    rw [hr] at h
    obtain ⟨d, h, _⟩ := h
    unfold IsDate at h
    rw [if_neg hk] at h
    obtain ⟨k, h1, h2, _⟩ := h
    rw [ruleSeq_eq hk hi (dtDate_range hs)] at h1
    exact within_mono (seqOf_ge hi (dtDate_range hs) h1) (Nat.zero_le _) h2
  refine ⟨⟨fun h => ?_, ?_⟩, fun h => hst (hwithin h)⟩
  · by_contra hno
    refine h ⟨_, hst ⟨nofun, fun c hc => ?_, fun u hu => ?_⟩⟩
    · by_contra hc0; exact hno (Or.inl ⟨c, hc, by omega⟩)
    · by_contra hu0; exact hno (Or.inr ⟨u, hu, by omega⟩)
  · rintro (⟨c, hc, h0⟩ | ⟨u, hu, h0⟩) h
    · have := (hwithin h).2.1 c hc
      omega
    · have := (hwithin h).2.2 u hu
      omega

/-- C106 is false in the last month of the calendar: neither count nor until forbid the start, but the event does not
take place. -/
theorem C106_last_month_counterexample :
    let r : Rule := ⟨.monthly .lastweekday, 1, none, none, []⟩
    ∀ e : Event, e.recurrence = some r → dtDate e.dtstart = ymd2ord 9999 12 8 → ¬ HasOccurrences e := by
  rintro r e hr hd ⟨x, h⟩
  unfold StartsAt at h
  rw [hr] at h
  obtain ⟨d, h, _⟩ := h
  unfold IsDate at h
  rw [if_neg (by decide)] at h
  obtain ⟨k, h1, _⟩ := h
  rw [hd] at h1
  unfold ruleSeq at h1
  simp only [r] at h1
  rw [if_neg] at h1
  · cases h1
  · have : monthNr (ymd2ord 9999 12 8) = 12 * 9999 + 11 := by decide
    omega

/-- C106: an event that never takes place is in no view; one that does, and has a duration, is shown wherever
one of its occurrences overlaps the period. -/
theorem C106_views (s : Storage) (hs : s.WF) (hg : ∀ ev, Stored s ev → Regular ev) (e : Event) (he : Stored s e) :
    (¬ HasOccurrences e → ∀ c b en l, s.getOccurrences (some b) (some en) c = .ok l → ∀ o ∈ l, o.original ≠ e) ∧
    (HasOccurrences e → ∀ dur, e.duration = some dur → 0 ≤ dur → ∃ x, ∀ c b en l, Matches (c.getD {}) e →
      s.getOccurrences (some b) (some en) c = .ok l → b < x → x < en → ⟨x, dur, e⟩ ∈ l) := by
  refine ⟨fun hn c b en l hl o ho heq => ?_, ?_⟩
  · have := (C24_getOccurrences s hs c hg b en l hl o).1 ho
    rw [heq] at this
    exact hn ⟨_, this.2.2.1⟩
  · rintro ⟨x, hx⟩ dur hd hd0
    refine ⟨x, fun c b en l hm hl hb hen => ?_⟩
    exact (C24_getOccurrences s hs c hg b en l hl _).2 ⟨he, hm, hx, hd, by simp only []; omega, hen⟩

theorem segment_occurs {s : Storage} (hs : s.WF) (hg : ∀ ev, Stored s ev → Regular ev) {a : AttId} {b en : Int}
    {segs : List (Occurrence Event)}
    (h : s.getOccurrencesSegmented (some b) (some en) (some { attendees := some [a] }) = .ok segs)
    (seg : Occurrence Event) (hm : seg ∈ segs) : HasOccurrences seg.original := by
  obtain ⟨occs, ho, h⟩ := segmented_ok h
  obtain ⟨o, hoo, l, hl, hsl⟩ := mem_segments h seg hm
  have hor : seg.original = o.original := by
    obtain ⟨inner, _, _, rfl⟩ := segmentOne_ok hl
    rw [List.mem_map] at hsl
    obtain ⟨p, _, rfl⟩ := hsl
    rfl
  rw [hor]
  exact ⟨_, ((C24_getOccurrences s hs _ hg b en occs ho o).1 hoo).2.2.1⟩

/-- C106: events that never take place do not influence blocked time: two stores that agree on the events that take
place give the same periods, if both calls return. -/
theorem C106_blocked (s s' : Storage) (hs : s.WF) (hs' : s'.WF) (hg : ∀ ev, Stored s ev → Regular ev)
    (hg' : ∀ ev, Stored s' ev → Regular ev) (he : ∀ ev, HasOccurrences ev → (Stored s' ev ↔ Stored s ev))
    (atts : List AttId) (b en tb te : Int) (R R' : List (Int × Int)) (h : s.getBlockedPeriods atts b en tb te = .ok R)
    (h' : s'.getBlockedPeriods atts b en tb te = .ok R') : R' = R := by
  rw [getBlockedPeriods_eq] at h h'
  simp only [bind_ok] at h h'
  obtain ⟨B, hB, endD, hend, W, hW, h⟩ := h
  obtain ⟨B', hB', endD', hend', W', hW', h'⟩ := h'
  rw [hend] at hend'
  injection hend' with hend'
  subst hend'
  rw [hW] at hW'
  injection hW' with hW'
  subst hW'
  injection h with h
  injection h' with h'
  obtain ⟨hseg, hmem⟩ := attendeeBlocks_ok hB
  obtain ⟨hseg', hmem'⟩ := attendeeBlocks_ok hB'
  have hm : ∀ p, p ∈ B' ↔ p ∈ B := by
    intro p
    rw [hmem, hmem']
    refine or_congr Iff.rfl ?_
    constructor
    · rintro ⟨a, haa, segs', hsg', o, ho, hbl, hr⟩
      obtain ⟨segs, hsg⟩ := hseg a haa
      obtain ⟨k1, _⟩ := segment_original hs' hsg' o ho
      exact ⟨a, haa, segs, hsg, o, segment_transfer hs' hs hsg' hsg o ho
        ((he _ (segment_occurs hs' hg' hsg' o ho)).1 k1), hbl, hr⟩
    · rintro ⟨a, haa, segs, hsg, o, ho, hbl, hr⟩
      obtain ⟨segs', hsg'⟩ := hseg' a haa
      obtain ⟨k1, _⟩ := segment_original hs hsg o ho
      exact ⟨a, haa, segs', hsg', o, segment_transfer hs hs' hsg hsg' o ho
        ((he _ (segment_occurs hs hg hsg o ho)).2 k1), hbl, hr⟩
  have hperm : B'.Perm B := (List.perm_ext_iff_of_nodup (attendeeBlocks_nodup hB' List.nodup_nil)
    (attendeeBlocks_nodup hB List.nodup_nil)).2 hm
  rw [← h, ← h', removeOverlaps_perm (List.Perm.append_right W hperm)]

/-- A weekly event three times whose three dates are exceptions, and its store. -/
def neverSpec : Spec :=
  { dtstart := Sample.day + 9 * Sample.HOUR, duration := some Sample.HOUR, organizer := some "alice"
    recurrence := some ⟨.weekly [], 1, some 3, none, [ymd2ord 2026 3 2, ymd2ord 2026 3 9, ymd2ord 2026 3 16]⟩ }
/-- The sample world with this event. -/
def neverStore : Storage := (Sample.world.step (.create 0 (some "n") neverSpec)).1.store

theorem never_none : ∃ e, neverStore.getEvent "n" = .ok e ∧ ¬ HasOccurrences e := by
  have h : ∃ e, neverStore.getEvent "n" = .ok e ∧ ∃ r, e.recurrence = some r ∧ r.kind ≠ .no ∧ 1 ≤ r.interval ∧ r.untl = none ∧
      dtInRange e.dtstart = true ∧ ∀ d ∈ (({ r with exceptions := [] } : Rule).apply e.dtstart none).1, d ∈ r.exceptions :=
    ⟨_, rfl, _, rfl, by decide, by decide, rfl, by decide +kernel, by decide +kernel⟩
  obtain ⟨e, he, r, hr, hk, hi, hu, hd, hx⟩ := h
  refine ⟨e, he, (C106_when e r hr hk).2 fun d hdd => hx d ?_⟩
  have hg := apply_generates (r := { r with exceptions := [] }) hk hi (fun t ht => by simp only [hu] at ht; cases ht) hd none
  rw [hg.2]
  unfold IsDate at hdd
  rw [if_neg hk] at hdd
  exact hdd

/-- C106, concrete: the event is stored and never takes place, it has no occurrence in the year, and it leaves the
blocked time as it was. -/
example : ∃ e, neverStore.getEvent "n" = .ok e ∧
    (neverStore.getOccurrences (some Sample.day) (some (Sample.day + 365 * DAY)) none).toOption.map
      (·.filter (fun o => o.original = e)) = some [] ∧
    neverStore.getBlockedPeriods ["alice"] Sample.day (Sample.day + 20 * DAY) (8 * Sample.HOUR) (21 * Sample.HOUR) =
      Sample.store.getBlockedPeriods ["alice"] Sample.day (Sample.day + 20 * DAY) (8 * Sample.HOUR) (21 * Sample.HOUR) :=
  ⟨_, rfl, by decide +kernel⟩

/-- C106 is false for listing events: an event that never takes place is listed by getEvents on the day of its
start. -/
theorem C106_listed_counterexample : ∃ e, neverStore.getEvent "n" = .ok e ∧ ¬ HasOccurrences e ∧
    ∃ l, neverStore.getEvents (some Sample.day) (some (Sample.day + DAY)) none = .ok l ∧ e ∈ l := by
  obtain ⟨e, he, hn⟩ := never_none
  have h : ∃ e, neverStore.getEvent "n" = .ok e ∧
      ∃ l, neverStore.getEvents (some Sample.day) (some (Sample.day + DAY)) none = .ok l ∧ e ∈ l :=
    ⟨_, rfl, _, rfl, by decide +kernel⟩
  obtain ⟨e', he', h⟩ := h
  rw [he] at he'
  injection he' with he'
  subst he'
  exact ⟨e, he, hn, h⟩

end CalCore
