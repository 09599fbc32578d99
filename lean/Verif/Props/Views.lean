import Verif.Props.Blocked
/- Properties C69 to C71: views of adjacent periods, days inside a period, `getEvents` against
`getOccurrences`. -/
namespace CalCore
open Spec

/-! ### C69 -/

/-- C69: splitting a period at `m` splits the result: the first half shows exactly the occurrences of the
whole that start before `m`, the second exactly those that end after `m`, in the same order; and the whole
returns if and only if the second half does. -/
theorem C69_adjacent_exact_partial (s : Storage) (hs : s.WF) (c : Option Criteria)
    (hg : ∀ ev, Stored s ev → dtInRange ev.dtstart = true ∧ ∀ r, ev.recurrence = some r → 1 ≤ r.interval)
    (b m e : Int) (hb : b ≤ m) (he : m ≤ e) :
    ((∃ l, s.getOccurrences (some b) (some e) c = .ok l) ↔ ∃ l, s.getOccurrences (some m) (some e) c = .ok l) ∧
    ∀ l, s.getOccurrences (some b) (some e) c = .ok l →
      s.getOccurrences (some b) (some m) c = .ok (l.filter (fun o => decide (o.dtstart < m))) ∧
      s.getOccurrences (some m) (some e) c = .ok (l.filter (fun o => decide (m < o.dtstart + o.duration))) := by
  constructor
  · constructor
    · rintro ⟨l, h⟩; exact ⟨_, getOccurrences_ok.2 ⟨(getOccurrences_ok.1 h).1, rfl⟩⟩
    · rintro ⟨l, h⟩; exact ⟨_, getOccurrences_ok.2 ⟨(getOccurrences_ok.1 h).1, rfl⟩⟩
  · intro l h
    have hall : ∀ o ∈ l, b < o.dtstart + o.duration ∧ o.dtstart < e := by
      intro o ho
      rw [(getOccurrences_ok.1 h).2, List.mem_flatMap] at ho
      obtain ⟨ev, _, ho⟩ := ho
      unfold Event.occs at ho
      rw [List.mem_filter] at ho
      have := ho.2
      unfold rawShown at this
      simpa using this
    rw [C23_nested_partial s hs c hg b m b e (Int.le_refl _) he l h,
      C23_nested_partial s hs c hg m e b e hb (Int.le_refl _) l h]
    constructor
    · congr 1
      refine List.filter_congr fun o ho => ?_
      have := hall o ho
      simp [this.1]
    · congr 1
      refine List.filter_congr fun o ho => ?_
      have := hall o ho
      simp [this.2]

/-- C69: nothing is lost and nothing invented by looking at two adjacent periods instead of the whole, and
what both show is exactly what runs across the border.  Missing: an occurrence of length zero at the border
itself, which the whole shows and neither half does (`C69_border_counterexample`). -/
theorem C69_adjacent_partial (s : Storage) (hs : s.WF) (hn : NoNegative s) (c : Option Criteria)
    (hg : ∀ ev, Stored s ev → dtInRange ev.dtstart = true ∧ ∀ r, ev.recurrence = some r → 1 ≤ r.interval)
    (b m e : Int) (hb : b ≤ m) (he : m ≤ e) (l l1 l2 : List (Occurrence Event))
    (h : s.getOccurrences (some b) (some e) c = .ok l)
    (h1 : s.getOccurrences (some b) (some m) c = .ok l1)
    (h2 : s.getOccurrences (some m) (some e) c = .ok l2) (o : Occurrence Event) :
    ((o ∈ l1 ∨ o ∈ l2) ↔ o ∈ l ∧ ¬ (o.dtstart = m ∧ o.duration = 0)) ∧
    ((o ∈ l1 ∧ o ∈ l2) ↔ o ∈ l ∧ o.dtstart < m ∧ m < o.dtstart + o.duration) := by
  obtain ⟨e1, e2⟩ := (C69_adjacent_exact_partial s hs c hg b m e hb he).2 l h
  rw [h1] at e1; injection e1 with e1
  rw [h2] at e2; injection e2 with e2
  have hd : o ∈ l → 0 ≤ o.duration := by
    intro ho
    obtain ⟨k1, k2⟩ := occurrence_duration hs h o ho
    exact hn _ k1 _ k2
  rw [e1, e2, List.mem_filter, List.mem_filter, decide_eq_true_eq, decide_eq_true_eq]
  constructor
  · constructor
    · rintro (⟨h3, h4⟩ | ⟨h3, h4⟩)
      · exact ⟨h3, fun hx => by omega⟩
      · exact ⟨h3, fun hx => by omega⟩
    · rintro ⟨h3, h4⟩
      have := hd h3
      by_cases hx : o.dtstart < m
      · exact Or.inl ⟨h3, hx⟩
      · exact Or.inr ⟨h3, by
          by_contra hc
          exact h4 ⟨by omega, by omega⟩⟩
  · constructor
    · rintro ⟨⟨h3, h4⟩, _, h5⟩; exact ⟨h3, h4, h5⟩
    · rintro ⟨h3, h4, h5⟩; exact ⟨⟨h3, h4⟩, h3, h5⟩

/-- C69, concrete: the sample week cut at noon of the second day.  The trip runs across the cut. -/
example :
    (∃ l, Sample.store.getOccurrences (some Sample.day) (some (Sample.day + 7 * DAY)) none = .ok l ∧
      l.map (fun o => o.original.uid) = ["m", "t", "p"]) ∧
    (∃ l, Sample.store.getOccurrences (some Sample.day) (some (Sample.day + 36 * Sample.HOUR)) none = .ok l ∧
      l.map (fun o => o.original.uid) = ["m", "t", "p"]) ∧
    ∃ l, Sample.store.getOccurrences (some (Sample.day + 36 * Sample.HOUR)) (some (Sample.day + 7 * DAY)) none = .ok l ∧
      l.map (fun o => o.original.uid) = ["t"] :=
  ⟨⟨_, rfl, by decide +kernel⟩, ⟨_, rfl, by decide +kernel⟩, ⟨_, rfl, by decide +kernel⟩⟩

/-- C69 fails at the border: the point event at 09:00 of the second day is shown by the whole week and by
neither part when the week is cut at that instant. -/
theorem C69_border_counterexample :
    (∃ l, Sample.store.getOccurrences (some Sample.day) (some (Sample.day + 7 * DAY)) none = .ok l ∧
      "p" ∈ l.map (fun o => o.original.uid)) ∧
    (∃ l, Sample.store.getOccurrences (some Sample.day) (some (Sample.day + 33 * Sample.HOUR)) none = .ok l ∧
      "p" ∉ l.map (fun o => o.original.uid)) ∧
    ∃ l, Sample.store.getOccurrences (some (Sample.day + 33 * Sample.HOUR)) (some (Sample.day + 7 * DAY)) none = .ok l ∧
      "p" ∉ l.map (fun o => o.original.uid) :=
  ⟨⟨_, rfl, by decide +kernel⟩, ⟨_, rfl, by decide +kernel⟩, ⟨_, rfl, by decide +kernel⟩⟩

/-! ### C70 -/

theorem segPairs_pos {lo : Int} {inner : List Int} {hi m : Int} (hw : Walk hi m inner)
    (h1 : m ≤ lo) (h2 : lo < m + DAY) (hm : m % DAY = 0) (p : Int × Int) (hp : p.1 < p.2) :
    p ∈ segPairs lo inner hi ↔
      ∃ k, k % DAY = 0 ∧ p = (if lo < k then k else lo, if k + DAY < hi then k + DAY else hi) := by
  induction inner generalizing lo m with
  | nil =>
    unfold Walk at hw
    rw [segPairs, List.mem_singleton]
    constructor
    · rintro rfl
      refine ⟨m, hm, ?_⟩
      rw [if_neg (by omega), if_neg (by omega)]
    · rintro ⟨k, hk, rfl⟩
      simp only [] at hp
      have hkm : k = m := by
        unfold DAY at *
        split at hp <;> split at hp <;> omega
      subst hkm
      rw [if_neg (by omega), if_neg (by omega)]
  | cons x rest ih =>
    obtain ⟨hx, hxl, hw⟩ := hw
    have hD : (0 : Int) < DAY := by decide
    have hxm : x % DAY = 0 := by rw [hx]; unfold DAY at *; omega
    rw [segPairs, List.mem_cons, ih hw (Int.le_refl _) (by omega) hxm]
    constructor
    · rintro (rfl | ⟨k, hk, rfl⟩)
      · refine ⟨m, hm, ?_⟩
        rw [if_neg (by omega)]
        by_cases hc : m + DAY < hi
        · rw [if_pos hc, hx]
        · rw [if_neg hc]
          have : x = hi := by omega
          rw [this]
      · refine ⟨k, hk, ?_⟩
        simp only [] at hp
        have hkx : x ≤ k := by
          unfold DAY at *
          split at hp <;> split at hp <;> omega
        rw [if_pos (show lo < k by omega)]
        have : (if x < k then k else x) = k := by split <;> omega
        rw [this]
    · rintro ⟨k, hk, rfl⟩
      simp only [] at hp
      by_cases hkm : k ≤ m
      · left
        have : k = m := by
          unfold DAY at *
          split at hp <;> split at hp <;> omega
        subst this
        rw [if_neg (by omega)]
        by_cases hc : k + DAY < hi
        · rw [if_pos hc, hx]
        · rw [if_neg hc]
          have : x = hi := by omega
          rw [this]
      · right
        have hkx : x ≤ k := by unfold DAY at *; omega
        refine ⟨k, hk, ?_⟩
        rw [if_pos (show lo < k by omega)]
        have : (if x < k then k else x) = k := by split <;> omega
        rw [this]

/-- The segments of positive length of one occurrence. -/
theorem segmentOne_pos {α : Type} {b en : Int} {o : Occurrence α} {l : List (Occurrence α)}
    (h : segmentOne b en o = .ok l) (seg : Occurrence α) (hp : 0 < seg.duration) :
    seg ∈ l ↔ seg.original = o.original ∧ ∃ k, k % DAY = 0 ∧
      (o.dtstart ≤ seg.dtstart ∧ b ≤ seg.dtstart ∧ k ≤ seg.dtstart ∧
        (seg.dtstart = o.dtstart ∨ seg.dtstart = b ∨ seg.dtstart = k)) ∧
      (seg.dtstart + seg.duration ≤ o.dtstart + o.duration ∧ seg.dtstart + seg.duration ≤ en ∧
        seg.dtstart + seg.duration ≤ k + DAY ∧
        (seg.dtstart + seg.duration = o.dtstart + o.duration ∨ seg.dtstart + seg.duration = en ∨
          seg.dtstart + seg.duration = k + DAY)) := by
  obtain ⟨inner, hw, _, rfl⟩ := segmentOne_ok h
  obtain ⟨h1, h2, h3⟩ := lo_le (x0 := o.dtstart) (b := b) _ rfl
  have hpair := segPairs_pos hw h1 h2 h3
  rw [List.mem_map]
  constructor
  · rintro ⟨p, hpm, rfl⟩
    rw [List.mem_filter, List.mem_reverse] at hpm
    simp only [mkSeg] at hp ⊢
    obtain ⟨k, hk, hpe⟩ := (hpair p (by omega)).1 hpm.1
    refine ⟨trivial, k, hk, ?_⟩
    rw [hpe]
    simp only []
    constructor
    · split <;> split at * <;> omega
    · split <;> split at * <;> omega
  · rintro ⟨ho, k, hk, ⟨a1, a2, a3, a4⟩, b1, b2, b3, b4⟩
    refine ⟨(seg.dtstart, seg.dtstart + seg.duration), ?_, ?_⟩
    · rw [List.mem_filter, List.mem_reverse]
      refine ⟨(hpair _ (by simp only []; omega)).2 ⟨k, hk, Prod.ext ?_ ?_⟩, ?_⟩
      · simp only []
        split <;> split <;> omega
      · simp only []
        split <;> split <;> omega
      · unfold keptPair
        simp only [decide_eq_true_eq]
        omega
    · obtain ⟨x, d, og⟩ := seg
      simp only [] at ho ⊢
      unfold mkSeg
      simp only []
      rw [ho]
      congr 1
      omega

/-- C70: in a view over whole days, the segments of positive length are, day by day, exactly those of the
views of the single days.  Missing: segments of length zero, which the views of several days show at
midnights where the views of the single days do not (`C70_empty_counterexample`). -/
theorem C70_day_views_partial (s : Storage) (hs : s.WF) (c : Option Criteria)
    (hg : ∀ ev, Stored s ev → dtInRange ev.dtstart = true ∧ ∀ r, ev.recurrence = some r → 1 ≤ r.interval)
    (first last d : Int) (h1 : first ≤ d) (h2 : d < last) (segs view : List (Occurrence Event))
    (h : s.getOccurrencesSegmented (some (combine first 0)) (some (combine last 0)) c = .ok segs)
    (hv : s.getOccurrencesSegmented (some (combine d 0)) (some (combine (d + 1) 0)) c = .ok view)
    (seg : Occurrence Event) :
    seg ∈ view ∧ 0 < seg.duration ↔ seg ∈ segs ∧ 0 < seg.duration ∧ dtDate seg.dtstart = d := by
  obtain ⟨L, hL, hS⟩ := segmented_ok h
  obtain ⟨L', hL', hS'⟩ := segmented_ok hv
  have hnest := C23_nested_partial s hs c hg (combine d 0) (combine (d + 1) 0) (combine first 0)
    (combine last 0) (by unfold combine DAY; omega) (by unfold combine DAY; omega) L hL
  rw [hL'] at hnest
  injection hnest with hnest
  constructor
  · rintro ⟨hm, hp⟩
    obtain ⟨o, ho, l, hl, hsl⟩ := mem_segments hS' seg hm
    obtain ⟨hor, k, hk, ⟨a1, a2, a3, a4⟩, b1, b2, b3, b4⟩ := (segmentOne_pos hl seg hp).1 hsl
    rw [hnest, List.mem_filter, decide_eq_true_eq] at ho
    obtain ⟨l2, hl2, hsub⟩ := segments_complete hS o ho.1
    refine ⟨hsub seg ((segmentOne_pos hl2 seg hp).2 ⟨hor, combine d 0, by unfold combine DAY; omega, ?_, ?_⟩), hp, ?_⟩
    · unfold combine DAY at *; omega
    · unfold combine DAY at *; omega
    · unfold combine dtDate DAY at *; omega
  · rintro ⟨hm, hp, hd⟩
    obtain ⟨o, ho, l, hl, hsl⟩ := mem_segments hS seg hm
    obtain ⟨hor, k, hk, ⟨a1, a2, a3, a4⟩, b1, b2, b3, b4⟩ := (segmentOne_pos hl seg hp).1 hsl
    have hkd : k = combine d 0 := by unfold combine dtDate DAY at *; omega
    have ho' : o ∈ L' := by
      rw [hnest, List.mem_filter, decide_eq_true_eq]
      refine ⟨ho, ?_⟩
      unfold combine dtDate DAY at *; omega
    obtain ⟨l2, hl2, hsub⟩ := segments_complete hS' o ho'
    refine ⟨hsub seg ((segmentOne_pos hl2 seg hp).2 ⟨hor, k, hk, ?_, ?_⟩), hp⟩
    · unfold combine dtDate DAY at *; omega
    · unfold combine dtDate DAY at *; omega

/-- C70, concrete: three days of the sample store at once, and the second day alone. -/
example :
    (∃ l, Sample.store.getOccurrencesSegmented (some (combine (ymd2ord 2026 3 2) 0))
        (some (combine (ymd2ord 2026 3 5) 0)) none = .ok l ∧
      l.map (fun o => (o.original.uid, o.dtstart - Sample.day, o.duration)) =
        [("m", 10 * Sample.HOUR, 2 * Sample.HOUR), ("t", 48 * Sample.HOUR, 6 * Sample.HOUR),
         ("t", 24 * Sample.HOUR, 24 * Sample.HOUR), ("t", 20 * Sample.HOUR, 4 * Sample.HOUR),
         ("p", 33 * Sample.HOUR, 0)]) ∧
    ∃ l, Sample.store.getOccurrencesSegmented (some (combine (ymd2ord 2026 3 3) 0))
        (some (combine (ymd2ord 2026 3 3 + 1) 0)) none = .ok l ∧
      l.map (fun o => (o.original.uid, o.dtstart - Sample.day, o.duration)) =
        [("t", 24 * Sample.HOUR, 24 * Sample.HOUR), ("p", 33 * Sample.HOUR, 0)] :=
  ⟨⟨_, rfl, by decide +kernel⟩, ⟨_, rfl, by decide +kernel⟩⟩

/-- A store with one event, from 20:00 to midnight. -/
def evening : Storage := ((freshWorld "st" "host").run
  [.create Sample.day (some "v") { dtstart := Sample.day + 20 * Sample.HOUR, duration := some (4 * Sample.HOUR) }]).store

/-- C70 fails for segments of length zero: the view of two days shows an empty segment at the midnight at
which the event ends, the view of the second day shows nothing. -/
theorem C70_empty_counterexample :
    (∃ l, evening.getOccurrencesSegmented (some (combine (ymd2ord 2026 3 2) 0))
        (some (combine (ymd2ord 2026 3 4) 0)) none = .ok l ∧
      l.map (fun o => (o.dtstart - Sample.day, o.duration)) = [(DAY, 0), (20 * Sample.HOUR, 4 * Sample.HOUR)]) ∧
    ∃ l, evening.getOccurrencesSegmented (some (combine (ymd2ord 2026 3 3) 0))
        (some (combine (ymd2ord 2026 3 4) 0)) none = .ok l ∧ l.length = 0 :=
  ⟨⟨_, rfl, by decide +kernel⟩, ⟨_, rfl, by decide +kernel⟩⟩

/-! ### C71 -/

/-- C71: for an event that does not recur, `getEvents` and `getOccurrences` agree: it is listed by one
exactly if it has an occurrence in the other, which then is the event itself.  Missing: recurring events,
which `getEvents` judges by their first occurrence alone (`C71_recurring_counterexample`). -/
theorem C71_events_occurrences_partial (s : Storage) (hs : s.WF) (c : Option Criteria) (b e : Int)
    (evs : List Event) (occs : List (Occurrence Event))
    (h : s.getEvents (some b) (some e) c = .ok evs) (ho : s.getOccurrences (some b) (some e) c = .ok occs)
    (ev : Event) (hr : ev.recurrence = none) :
    (ev ∈ evs ↔ ∃ o ∈ occs, o.original = ev) ∧
    ∀ o ∈ occs, o.original = ev → o.dtstart = ev.dtstart ∧ ev.duration = some o.duration := by
  obtain ⟨h1, h2⟩ := getOccurrences_ok.1 ho
  have hE := (C20_getEvents_exact s hs (some b) (some e) c).1 evs h
  have hocc : ∀ o, (o ∈ occs ∧ o.original = ev) ↔
      ev ∈ s.matching c ∧ o = ⟨ev.dtstart, ev.duration.getD 0, ev⟩ ∧ b < ev.dtstart + ev.duration.getD 0 ∧ ev.dtstart < e := by
    intro o
    rw [h2, List.mem_flatMap]
    have hd : ev.dates e = [dtDate ev.dtstart] := by unfold Event.dates; rw [hr]
    have hin : ∀ o, o ∈ ev.occs b e ↔ o = ⟨ev.dtstart, ev.duration.getD 0, ev⟩ ∧ b < ev.dtstart + ev.duration.getD 0 ∧ ev.dtstart < e := by
      intro o
      unfold Event.occs
      rw [hd, List.mem_filter, List.map_singleton, List.mem_singleton]
      unfold Event.at rawShown
      rw [combine_dt]
      constructor
      · rintro ⟨rfl, hx⟩; exact ⟨rfl, by simpa using hx⟩
      · rintro ⟨rfl, hx⟩; exact ⟨rfl, by simpa using hx⟩
    constructor
    · rintro ⟨⟨ev', hm, hoe⟩, hor⟩
      have : ev' = ev := by
        rw [← hor]
        unfold Event.occs at hoe
        rw [List.mem_filter, List.mem_map] at hoe
        obtain ⟨⟨d, _, rfl⟩, _⟩ := hoe
        rfl
      subst this
      exact ⟨hm, (hin o).1 hoe⟩
    · rintro ⟨hm, rfl, hx⟩
      exact ⟨⟨ev, hm, (hin _).2 ⟨rfl, hx⟩⟩, rfl⟩
  constructor
  · rw [hE.2 ev]
    constructor
    · rintro ⟨hst, hm, hb, he⟩
      have := (hocc ⟨ev.dtstart, ev.duration.getD 0, ev⟩).2
        ⟨(mem_matching hs c ev).2 ⟨hst, hm⟩, rfl, hb b rfl, he e rfl⟩
      exact ⟨_, this.1, this.2⟩
    · rintro ⟨o, ho1, ho2⟩
      obtain ⟨hm, _, hb, he⟩ := (hocc o).1 ⟨ho1, ho2⟩
      obtain ⟨hst, hm⟩ := (mem_matching hs c ev).1 hm
      exact ⟨hst, hm, fun b' hb' => by injection hb' with hb'; omega, fun e' he' => by injection he' with he'; omega⟩
  · intro o ho1 ho2
    obtain ⟨hm, rfl, _⟩ := (hocc o).1 ⟨ho1, ho2⟩
    refine ⟨rfl, ?_⟩
    obtain ⟨dur, hdur, _⟩ := (h1 ev hm).ends (dtDate ev.dtstart) (by unfold Event.dates; rw [hr]; simp)
    rw [hdur]; rfl

/-- C71, concrete: on the second day, the trip and the point, by either query. -/
example :
    (∃ l, Sample.store.getEvents (some (Sample.day + DAY)) (some (Sample.day + 2 * DAY)) none = .ok l ∧
      l.map (·.uid) = ["t", "p"] ∧ ∀ ev ∈ l, ev.recurrence = none) ∧
    ∃ l, Sample.store.getOccurrences (some (Sample.day + DAY)) (some (Sample.day + 2 * DAY)) none = .ok l ∧
      l.map (fun o => o.original.uid) = ["t", "p"] :=
  ⟨⟨_, rfl, by decide +kernel⟩, ⟨_, rfl, by decide +kernel⟩⟩

/-- C71 for all events with a duration, recurring ones included, whose start is one of their dates: `getEvents`
lists the event exactly if `getOccurrences` shows the occurrence at its own start.  Missing: the later
occurrences (`C71_recurring_counterexample`). -/
theorem C71_first_partial (s : Storage) (hs : s.WF) (hg : ∀ ev, Stored s ev → Regular ev) (c : Option Criteria)
    (b e : Int) (evs : List Event) (occs : List (Occurrence Event))
    (h : s.getEvents (some b) (some e) c = .ok evs) (ho : s.getOccurrences (some b) (some e) c = .ok occs)
    (ev : Event) (hst : StartsAt ev ev.dtstart) (dur : Int) (hd : ev.duration = some dur) :
    ev ∈ evs ↔ ∃ o ∈ occs, o.original = ev ∧ o.dtstart = ev.dtstart := by
  have hE := (C20_getEvents_exact s hs (some b) (some e) c).1 evs h
  rw [hE.2 ev, hd]
  constructor
  · rintro ⟨h1, h2, h3, h4⟩
    exact ⟨⟨ev.dtstart, dur, ev⟩, (C24_getOccurrences s hs c hg b e occs ho _).2
      ⟨h1, h2, hst, hd, h3 b rfl, h4 e rfl⟩, rfl, rfl⟩
  · rintro ⟨o, ho', rfl, hos⟩
    obtain ⟨h1, h2, _, h4, h5, h6⟩ := (C24_getOccurrences s hs c hg b e occs ho o).1 ho'
    rw [h4] at hd
    injection hd with hd
    subst hd
    rw [hos] at h5 h6
    refine ⟨h1, h2, ?_, ?_⟩
    · rintro x hx; injection hx with hx; subst hx; exact h5
    · rintro x hx; injection hx with hx; subst hx; exact h6

/-- A store with one daily event. -/
def dailyStore : Storage := ((freshWorld "st" "host").run
  [.create Sample.day (some "v") { dtstart := Sample.day + 10 * Sample.HOUR, duration := some Sample.HOUR,
                                   recurrence := some ⟨.daily, 1, none, none, []⟩ }]).store

/-- C71 fails for recurring events: the daily event has an occurrence on the second day and is not listed
by `getEvents` for that day. -/
theorem C71_recurring_counterexample :
    (∃ l, dailyStore.getOccurrences (some (Sample.day + DAY)) (some (Sample.day + 2 * DAY)) none = .ok l ∧
      l.map (fun o => o.original.uid) = ["v"]) ∧
    ∃ l, dailyStore.getEvents (some (Sample.day + DAY)) (some (Sample.day + 2 * DAY)) none = .ok l ∧
      l.length = 0 :=
  ⟨⟨_, rfl, by decide +kernel⟩, ⟨_, rfl, by decide +kernel⟩⟩

/-- C71, concrete: the daily event on its first day, by either query. -/
example :
    (∃ l, dailyStore.getOccurrences (some Sample.day) (some (Sample.day + DAY)) none = .ok l ∧
      l.map (fun o => (o.original.uid, o.dtstart)) = [("v", Sample.day + 10 * Sample.HOUR)]) ∧
    ∃ l, dailyStore.getEvents (some Sample.day) (some (Sample.day + DAY)) none = .ok l ∧
      l.map (·.uid) = ["v"] :=
  ⟨⟨_, rfl, by decide +kernel⟩, ⟨_, rfl, by decide +kernel⟩⟩

end CalCore
