import Verif.Props.Blocked
/- Blocked and free time asked for in different ways (C100-C102).  Times are microseconds, `Covered l t` says
that one of the periods `l` contains the instant `t`. -/
namespace CalCore
open Spec

/-! ### C100 -/

/-- C100: whether an instant is reported as blocked does not depend on the period asked for.  Missing: stores
with rules of negative interval, which can be imported, and for which it is false
(`C100_backwards_counterexample`), or with a datetime as `until`, for which queries fail. -/
theorem C100_blocked_partial (s : Storage) (hs : s.WF) (hg : ∀ ev, Stored s ev → Regular ev) (atts : List AttId)
    (b en b' en' tb te : Int) (htb : IsTime tb) (hte : IsTime te) (R R' : List (Int × Int))
    (h : s.getBlockedPeriods atts b en tb te = .ok R) (h' : s.getBlockedPeriods atts b' en' tb te = .ok R')
    (t : Int) (h1 : b ≤ t ∧ t < en) (h2 : b' ≤ t ∧ t < en') : Covered R t ↔ Covered R' t := by
  rw [C26_blocked_partial s hs hg atts b en tb te htb hte R h t h1.1 h1.2,
    C26_blocked_partial s hs hg atts b' en' tb te htb hte R' h' t h2.1 h2.2]

/-- C100 for free periods.  Missing: in addition, events of negative duration, for which it is false
(`C100_negative_counterexample`). -/
theorem C100_free_partial (s : Storage) (hs : s.WF) (hg : ∀ ev, Stored s ev → Regular ev) (hn : NoNegative s)
    (atts : List AttId) (b en b' en' tb te : Int) (htb : IsTime tb) (hte : IsTime te) (F F' : List (Int × Int))
    (h : s.getFreePeriods atts b en tb te none = .ok F) (h' : s.getFreePeriods atts b' en' tb te none = .ok F')
    (t : Int) (h1 : b ≤ t ∧ t < en) (h2 : b' ≤ t ∧ t < en') : Covered F t ↔ Covered F' t := by
  obtain ⟨R, hR, hF, _⟩ := free_complement hs hn htb hte (by omega) h
  obtain ⟨R', hR', hF', _⟩ := free_complement hs hn htb hte (by omega) h'
  have d1 := lastDay_ge h1.1 h1.2
  have d2 := lastDay_ge h2.1 h2.2
  rw [hF, hF', C100_blocked_partial s hs hg atts b en b' en' tb te htb hte R R' hR hR' t h1 h2]
  exact ⟨fun h => ⟨d2.1, d2.2, h.2.2⟩, fun h => ⟨d1.1, d1.2, h.2.2⟩⟩

/-- C100, concrete: three days, and from the evening of the first to the morning of the third. -/
example : Sample.store.getFreePeriods ["alice", "bob"] Sample.day (Sample.day + 3 * DAY)
      (8 * Sample.HOUR) (21 * Sample.HOUR) none =
    .ok [(Sample.day + 8 * Sample.HOUR, Sample.day + 10 * Sample.HOUR),
         (Sample.day + 12 * Sample.HOUR, Sample.day + 20 * Sample.HOUR),
         (Sample.day + 56 * Sample.HOUR, Sample.day + 69 * Sample.HOUR)] ∧
    Sample.store.getFreePeriods ["alice", "bob"] (Sample.day + 20 * Sample.HOUR) (Sample.day + 72 * Sample.HOUR)
      (8 * Sample.HOUR) (21 * Sample.HOUR) none =
    .ok [(Sample.day + 8 * Sample.HOUR, Sample.day + 20 * Sample.HOUR),
         (Sample.day + 56 * Sample.HOUR, Sample.day + 69 * Sample.HOUR)] := by
  decide +kernel

/-- A store with a daily rule of interval -1, as imports make it. -/
def backStore : Storage := { id := "st", host := "host", events := [("n", { backwards with pstate := [("alice", "ACCEPTED")] })] }

/-- C100 is false for an imported rule of negative interval: the occurrence of Monday 10:00 blocks if the
week is asked for, and does not if Monday is asked for. -/
theorem C100_backwards_counterexample :
    getRecurrenceRule { freq := some "DAILY", interval := some [-1], count := some [5] } =
      .ok ⟨.daily, -1, some 5, none, []⟩ ∧ backwards.recurrence = some ⟨.daily, -1, some 5, none, []⟩ ∧
    (∃ R, backStore.getBlockedPeriods ["alice"] Sample.day (Sample.day + 7 * DAY) (8 * Sample.HOUR) (17 * Sample.HOUR) = .ok R ∧
      ∃ p ∈ R, p.1 ≤ Sample.day + 10 * Sample.HOUR ∧ Sample.day + 10 * Sample.HOUR < p.2) ∧
    backStore.getBlockedPeriods ["alice"] Sample.day (Sample.day + DAY) (8 * Sample.HOUR) (17 * Sample.HOUR) =
      .ok [(Sample.day, Sample.day + 8 * Sample.HOUR), (Sample.day + 17 * Sample.HOUR, Sample.day + 24 * Sample.HOUR)] :=
  ⟨by decide +kernel, by decide +kernel, ⟨_, rfl, by decide +kernel⟩, by decide +kernel⟩

/-- Alice has a meeting from 9:00 to 10:00, Bob an event that begins at 12:00 and lasts minus four hours. -/
def negStore : Storage := ((freshWorld "st" "host").run
  [.create 0 (some "m") { dtstart := Sample.day + 9 * Sample.HOUR, duration := some Sample.HOUR, organizer := some "alice" },
   .create 0 (some "n") { dtstart := Sample.day + 12 * Sample.HOUR, duration := some (-4 * Sample.HOUR)
                          organizer := some "bob" }]).store

/-- C100 is false for events of negative duration: asked for the whole day, 9:30 is reported as free, although
Alice is busy; asked from 8:30 on, it is not. -/
theorem C100_negative_counterexample :
    negStore.getFreePeriods ["alice", "bob"] Sample.day (Sample.day + DAY) (7 * Sample.HOUR) (17 * Sample.HOUR) none =
      .ok [(Sample.day + 7 * Sample.HOUR, Sample.day + 9 * Sample.HOUR),
           (Sample.day + 10 * Sample.HOUR, Sample.day + 12 * Sample.HOUR),
           (Sample.day + 8 * Sample.HOUR, Sample.day + 17 * Sample.HOUR)] ∧
    negStore.getFreePeriods ["alice", "bob"] (Sample.day + 17 * Sample.HOUR / 2) (Sample.day + DAY) (7 * Sample.HOUR)
        (17 * Sample.HOUR) none =
      .ok [(Sample.day + 7 * Sample.HOUR, Sample.day + 9 * Sample.HOUR),
           (Sample.day + 10 * Sample.HOUR, Sample.day + 17 * Sample.HOUR)] := by decide +kernel

/-! ### C101 -/

/-- C101: the blocked time of a group is the union of the blocked times of its parts; if it can be computed
for the group, it can be computed for the parts.  For every store. -/
theorem C101_blocked (s : Storage) (A B atts : List AttId) (hu : ∀ a, a ∈ atts ↔ a ∈ A ∨ a ∈ B) (b en tb te : Int)
    (R : List (Int × Int)) (h : s.getBlockedPeriods atts b en tb te = .ok R) :
    ∃ RA RB, s.getBlockedPeriods A b en tb te = .ok RA ∧ s.getBlockedPeriods B b en tb te = .ok RB ∧
      ∀ t, Covered R t ↔ Covered RA t ∨ Covered RB t := by
  obtain ⟨RA, hA⟩ := C28_returns s A atts (fun a ha => (hu a).2 (Or.inl ha)) b en tb te R h
  obtain ⟨RB, hB⟩ := C28_returns s B atts (fun a ha => (hu a).2 (Or.inr ha)) b en tb te R h
  refine ⟨RA, RB, hA, hB, fun t => ⟨fun hc => ?_, ?_⟩⟩
  · obtain ⟨_, L, rfl, hL⟩ := getBlockedPeriods_ok h
    obtain ⟨_, LA, rfl, hLA⟩ := getBlockedPeriods_ok hA
    obtain ⟨_, LB, rfl, hLB⟩ := getBlockedPeriods_ok hB
    rw [removeOverlaps_covered] at hc
    rw [removeOverlaps_covered, removeOverlaps_covered]
    obtain ⟨p, hp, hin⟩ := hc
    rcases (hL p).1 hp with ⟨a, ha, hr⟩ | hr
    · rcases (hu a).1 ha with ha | ha
      · exact Or.inl ⟨p, (hLA p).2 (Or.inl ⟨a, ha, hr⟩), hin⟩
      · exact Or.inr ⟨p, (hLB p).2 (Or.inl ⟨a, ha, hr⟩), hin⟩
    · exact Or.inl ⟨p, (hLA p).2 (Or.inr hr), hin⟩
  · rintro (hc | hc)
    · exact C28_monotone s A atts (fun a ha => (hu a).2 (Or.inl ha)) b en tb te RA R hA h t hc
    · exact C28_monotone s B atts (fun a ha => (hu a).2 (Or.inr ha)) b en tb te RB R hB h t hc

/-- C101: a group is free exactly when all its parts are free.  For every store without events of negative
duration, for which it is false (`C101_negative_counterexample`). -/
theorem C101_free_partial (s : Storage) (hs : s.WF) (hn : NoNegative s) (A B atts : List AttId)
    (hu : ∀ a, a ∈ atts ↔ a ∈ A ∨ a ∈ B) (b en tb te : Int) (htb : IsTime tb) (hte : IsTime te) (hbe : b < en)
    (F : List (Int × Int)) (h : s.getFreePeriods atts b en tb te none = .ok F) :
    ∃ FA FB, s.getFreePeriods A b en tb te none = .ok FA ∧ s.getFreePeriods B b en tb te none = .ok FB ∧
      ∀ t, Covered F t ↔ Covered FA t ∧ Covered FB t := by
  obtain ⟨R, hR, hF, _⟩ := free_complement hs hn htb hte hbe h
  obtain ⟨RA, RB, hA, hB, hU⟩ := C101_blocked s A B atts hu b en tb te R hR
  have hret : ∀ {X : List AttId} {RX : List (Int × Int)}, s.getBlockedPeriods X b en tb te = .ok RX →
      ∃ FX, s.getFreePeriods X b en tb te none = .ok FX ∧
        ∀ t, Covered FX t ↔ dtDate b ≤ dtDate t ∧ dtDate t ≤ lastDay en ∧ ¬ Covered RX t := by
    intro X RX hX
    have hfx : ∃ FX, s.getFreePeriods X b en tb te none = .ok FX := by
      unfold Storage.getFreePeriods
      rw [hX, ok_bind]
      exact ⟨_, rfl⟩
    obtain ⟨FX, hfx⟩ := hfx
    obtain ⟨R', hR', hF', _⟩ := free_complement hs hn htb hte hbe hfx
    rw [hX] at hR'
    injection hR' with hR'
    subst hR'
    exact ⟨FX, hfx, hF'⟩
  obtain ⟨FA, hfa, hFA⟩ := hret hA
  obtain ⟨FB, hfb, hFB⟩ := hret hB
  refine ⟨FA, FB, hfa, hfb, fun t => ?_⟩
  rw [hF, hFA, hFB, hU, not_or]
  exact ⟨fun h => ⟨⟨h.1, h.2.1, h.2.2.1⟩, h.1, h.2.1, h.2.2.2⟩, fun h => ⟨h.1.1, h.1.2.1, h.1.2.2, h.2.2.2⟩⟩

/-- Alice has a meeting from 9:00 to 10:00, Bob from 12:00 to 14:00. -/
def pairStore : Storage := ((freshWorld "st" "host").run
  [.create 0 (some "m") { dtstart := Sample.day + 9 * Sample.HOUR, duration := some Sample.HOUR, organizer := some "alice" },
   .create 0 (some "n") { dtstart := Sample.day + 12 * Sample.HOUR, duration := some (2 * Sample.HOUR)
                          organizer := some "bob" }]).store

/-- C101, concrete: Alice, Bob, and both. -/
example : pairStore.getFreePeriods ["alice"] Sample.day (Sample.day + DAY) (8 * Sample.HOUR) (17 * Sample.HOUR) none =
      .ok [(Sample.day + 8 * Sample.HOUR, Sample.day + 9 * Sample.HOUR),
           (Sample.day + 10 * Sample.HOUR, Sample.day + 17 * Sample.HOUR)] ∧
    pairStore.getFreePeriods ["bob"] Sample.day (Sample.day + DAY) (8 * Sample.HOUR) (17 * Sample.HOUR) none =
      .ok [(Sample.day + 8 * Sample.HOUR, Sample.day + 12 * Sample.HOUR),
           (Sample.day + 14 * Sample.HOUR, Sample.day + 17 * Sample.HOUR)] ∧
    pairStore.getFreePeriods ["alice", "bob"] Sample.day (Sample.day + DAY) (8 * Sample.HOUR) (17 * Sample.HOUR) none =
      .ok [(Sample.day + 8 * Sample.HOUR, Sample.day + 9 * Sample.HOUR),
           (Sample.day + 10 * Sample.HOUR, Sample.day + 12 * Sample.HOUR),
           (Sample.day + 14 * Sample.HOUR, Sample.day + 17 * Sample.HOUR)] := by decide +kernel

/-- C101 is false for events of negative duration: at 9:30 Alice alone is not free, together with Bob they are
reported as free. -/
theorem C101_negative_counterexample :
    negStore.getFreePeriods ["alice"] Sample.day (Sample.day + DAY) (7 * Sample.HOUR) (17 * Sample.HOUR) none =
      .ok [(Sample.day + 7 * Sample.HOUR, Sample.day + 9 * Sample.HOUR),
           (Sample.day + 10 * Sample.HOUR, Sample.day + 17 * Sample.HOUR)] ∧
    ∃ F, negStore.getFreePeriods ["alice", "bob"] Sample.day (Sample.day + DAY) (7 * Sample.HOUR) (17 * Sample.HOUR) none = .ok F ∧
      ∃ p ∈ F, p.1 ≤ Sample.day + 19 * Sample.HOUR / 2 ∧ Sample.day + 19 * Sample.HOUR / 2 < p.2 :=
  ⟨by decide +kernel, _, rfl, by decide +kernel⟩

/-! ### C102 -/

/-- Blocked time, by the segments of the attendees. -/
theorem blocked_by_segments {s : Storage} {atts : List AttId} {b en tb te : Int} (htb : IsTime tb) (hte : IsTime te)
    {R : List (Int × Int)} (h : s.getBlockedPeriods atts b en tb te = .ok R) (t : Int) :
    Covered R t ↔ (dtDate b ≤ dtDate t ∧ dtDate t ≤ lastDay en ∧ ¬ InWindow tb te t) ∨
      (InWindow tb te t ∧ ∃ a ∈ atts, ∃ segs,
        s.getOccurrencesSegmented (some b) (some en) (some { attendees := some [a] }) = .ok segs ∧
        ∃ o ∈ segs, blocks o.original a = true ∧ Covers o t) := by
  obtain ⟨_, B, rfl, hB⟩ := getBlockedPeriods_ok h
  rw [removeOverlaps_covered]
  have hW := window_covers (d0 := dtDate b) (d1 := lastDay en) htb hte t
  constructor
  · rintro ⟨p, hp, hin⟩
    rcases (hB p).1 hp with ⟨a, ha, segs, hsg, o, ho, hbl, _, _, rfl⟩ | hr
    · obtain ⟨occs, _, hseg⟩ := segmented_ok hsg
      obtain ⟨hc, hw⟩ := (clip_covers htb hte (segment_day hseg o ho).1 t).1 hin
      exact Or.inr ⟨hw, a, ha, segs, hsg, o, ho, hbl, hc⟩
    · exact Or.inl (hW.1 ⟨p, hr, hin⟩)
  · rintro (hd | ⟨hw, a, ha, segs, hsg, o, ho, hbl, hc⟩)
    · obtain ⟨p, hr, hin⟩ := hW.2 hd
      exact ⟨p, (hB p).2 (Or.inr hr), hin⟩
    · obtain ⟨occs, _, hseg⟩ := segmented_ok hsg
      have hd := segment_day hseg o ho
      exact ⟨clip tb te o, (hB _).2 (Or.inl ⟨a, ha, segs, hsg, o, ho, hbl, by omega, by omega, rfl⟩),
        (clip_covers htb hte hd.1 t).2 ⟨hc, hw⟩⟩

theorem windowLoop_other {tb te tb' te' endD : Int} : ∀ (fuel : Nat) (d : Int) (W : List (Int × Int)),
    windowLoop tb te endD fuel d = .ok W → ∃ W', windowLoop tb' te' endD fuel d = .ok W'
  | 0, _, _, h => by cases h
  | fuel + 1, d, W, h => by
    unfold windowLoop at h ⊢
    split at h
    · rename_i hd
      simp only [bind_ok] at h
      obtain ⟨next, hnext, more, hmore, _⟩ := h
      obtain ⟨W', hW'⟩ := windowLoop_other (tb' := tb') (te' := te') fuel next more hmore
      rw [if_pos hd, hnext, ok_bind, hW', ok_bind]
      exact ⟨_, rfl⟩
    · rename_i hd
      rw [if_neg hd]
      exact ⟨_, rfl⟩

/-- C102: at times of day that are in two windows, the blocked time is the same for both; whether the blocked
time can be computed does not depend on the window.  For every store. -/
theorem C102_blocked (s : Storage) (atts : List AttId) (b en tb te tb' te' : Int) (htb : IsTime tb) (hte : IsTime te)
    (htb' : IsTime tb') (hte' : IsTime te') (R : List (Int × Int)) (h : s.getBlockedPeriods atts b en tb te = .ok R) :
    ∃ R', s.getBlockedPeriods atts b en tb' te' = .ok R' ∧
      ∀ t, InWindow tb te t → InWindow tb' te' t → (Covered R t ↔ Covered R' t) := by
  have hret : ∃ R', s.getBlockedPeriods atts b en tb' te' = .ok R' := by
    rw [getBlockedPeriods_eq] at h ⊢
    simp only [bind_ok] at h
    obtain ⟨B, hB, endD, hend, W, hW, h⟩ := h
    obtain ⟨hseg, _⟩ := attendeeBlocks_ok hB
    obtain ⟨B', hB'⟩ := attendeeBlocks_returns (s := s) (b := b) (en := en) (tb := tb') (te := te') (atts := atts) (by
      intro a haa
      obtain ⟨segs, hsg⟩ := hseg a haa
      obtain ⟨occs, _, hsg'⟩ := segmented_ok hsg
      exact ⟨segs, hsg, fun o ho => segments_range hsg' o ho⟩) []
    obtain ⟨W', hW'⟩ := windowLoop_other (tb' := tb') (te' := te') _ _ _ hW
    rw [hB', ok_bind, hend, ok_bind, hW', ok_bind]
    exact ⟨_, rfl⟩
  obtain ⟨R', h'⟩ := hret
  refine ⟨R', h', fun t hw hw' => ?_⟩
  rw [blocked_by_segments htb hte h, blocked_by_segments htb' hte' h']
  constructor
  · rintro (⟨_, _, hx⟩ | ⟨_, hx⟩)
    · exact absurd hw hx
    · exact Or.inr ⟨hw', hx⟩
  · rintro (⟨_, _, hx⟩ | ⟨_, hx⟩)
    · exact absurd hw' hx
    · exact Or.inr ⟨hw, hx⟩

/-- C102: with a narrower window, the free time is exactly the part in the narrower window of the free time for the
wider one.  For every store without events of negative duration, for which it is false
(`C102_negative_counterexample`). -/
theorem C102_free_partial (s : Storage) (hs : s.WF) (hn : NoNegative s) (atts : List AttId) (b en tb te tb' te' : Int)
    (htb : IsTime tb) (hte : IsTime te) (htb' : IsTime tb') (hte' : IsTime te') (h1 : tb ≤ tb') (h2 : te' ≤ te)
    (hbe : b < en) (F : List (Int × Int)) (h : s.getFreePeriods atts b en tb te none = .ok F) :
    ∃ F', s.getFreePeriods atts b en tb' te' none = .ok F' ∧
      ∀ t, Covered F' t ↔ Covered F t ∧ InWindow tb' te' t := by
  obtain ⟨R, hR, hF, _⟩ := free_complement hs hn htb hte hbe h
  obtain ⟨R', hR', hcmp⟩ := C102_blocked s atts b en tb te tb' te' htb hte htb' hte' R hR
  have hfx : ∃ F', s.getFreePeriods atts b en tb' te' none = .ok F' := by
    unfold Storage.getFreePeriods
    rw [hR', ok_bind]
    exact ⟨_, rfl⟩
  obtain ⟨F', hF'⟩ := hfx
  obtain ⟨R'', hR'', hFF, _⟩ := free_complement hs hn htb' hte' hbe hF'
  rw [hR'] at hR''
  injection hR'' with hR''
  subst hR''
  refine ⟨F', hF', fun t => ?_⟩
  have hin : InWindow tb' te' t → InWindow tb te t := by unfold InWindow; omega
  rw [hFF, hF]
  constructor
  · rintro ⟨k1, k2, k3⟩
    have hw : InWindow tb' te' t := by
      by_contra hw
      exact k3 ((blocked_by_segments htb' hte' hR' t).2 (Or.inl ⟨k1, k2, hw⟩))
    exact ⟨⟨k1, k2, fun hc => k3 ((hcmp t (hin hw) hw).1 hc)⟩, hw⟩
  · rintro ⟨⟨k1, k2, k3⟩, hw⟩
    exact ⟨k1, k2, fun hc => k3 ((hcmp t (hin hw) hw).2 hc)⟩

/-- C102, concrete: the free time of Alice and Bob from 11:00 to 15:00. -/
example : Sample.store.getFreePeriods ["alice", "bob"] Sample.day (Sample.day + 3 * DAY)
      (11 * Sample.HOUR) (15 * Sample.HOUR) none =
    .ok [(Sample.day + 12 * Sample.HOUR, Sample.day + 15 * Sample.HOUR),
         (Sample.day + 59 * Sample.HOUR, Sample.day + 63 * Sample.HOUR)] := by decide +kernel

/-- C102 is false for events of negative duration: 9:30 is reported as free with working hours until 17:00, and not
with working hours until 11:00. -/
theorem C102_negative_counterexample :
    negStore.getFreePeriods ["alice", "bob"] Sample.day (Sample.day + DAY) (7 * Sample.HOUR) (11 * Sample.HOUR) none =
      .ok [(Sample.day + 7 * Sample.HOUR, Sample.day + 9 * Sample.HOUR),
           (Sample.day + 10 * Sample.HOUR, Sample.day + 11 * Sample.HOUR)] ∧
    ∃ F, negStore.getFreePeriods ["alice", "bob"] Sample.day (Sample.day + DAY) (7 * Sample.HOUR) (17 * Sample.HOUR) none = .ok F ∧
      ∃ p ∈ F, p.1 ≤ Sample.day + 19 * Sample.HOUR / 2 ∧ Sample.day + 19 * Sample.HOUR / 2 < p.2 :=
  ⟨by decide +kernel, _, rfl, by decide +kernel⟩

/-- C29 and C31 are false for events of negative duration as well: the third free period contains 9:30, when Alice is
busy. -/
theorem C31_negative_counterexample :
    (∃ F, negStore.getFreePeriods ["alice", "bob"] Sample.day (Sample.day + DAY) (7 * Sample.HOUR) (17 * Sample.HOUR) none = .ok F ∧
      ∃ p ∈ F, In (Sample.day + 19 * Sample.HOUR / 2) p) ∧
    BusyAt negStore "alice" (Sample.day + 19 * Sample.HOUR / 2) := by
  constructor
  · refine ⟨_, rfl, (Sample.day + 8 * Sample.HOUR, Sample.day + 17 * Sample.HOUR), by decide +kernel, ?_⟩
    unfold In; decide +kernel
  · have hm : ∃ e, Dict.get? negStore.events "m" = some e ∧ e.uid = "m" ∧ Dict.get? e.pstate "alice" = some "ACCEPTED" ∧
        e.transparent = false ∧ e.status = "TENTATIVE" ∧ e.recurrence = none ∧ e.dtstart = Sample.day + 9 * Sample.HOUR ∧
        e.duration = some Sample.HOUR := ⟨_, rfl, by decide +kernel⟩
    obtain ⟨e, h1, h2, h3, h4, h5, h6, h7, h8⟩ := hm
    refine ⟨e, ?_, ⟨_, h3⟩, ⟨h4, ?_, ?_, ?_⟩, Sample.day + 9 * Sample.HOUR, Sample.HOUR, ?_, h8, by decide +kernel, by decide +kernel⟩
    · unfold Stored; rw [h2]; exact h1
    · rw [h5]; decide
    · rw [h3]; decide
    · rw [h3]; decide
    · unfold StartsAt; rw [h6]; exact h7.symm

end CalCore
