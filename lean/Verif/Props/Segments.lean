import Verif.Lemmas.Segments
import Verif.Props.Expand
import Verif.Props.Queries
/- Properties C21, C22 and C60: segmentation of occurrences at midnight, and the day view. -/
namespace CalCore
open Spec

/-! ### C21 -/

theorem lo_le {x0 b : Int} : ∀ m, m = combine (dtDate (if x0 < b then b else x0)) 0 →
    m ≤ (if x0 < b then b else x0) ∧ (if x0 < b then b else x0) < m + DAY ∧ m % DAY = 0 := by
  intro m hm
  generalize (if x0 < b then b else x0) = lo at *
  subst hm
  unfold combine dtDate DAY
  omega

theorem segmentOne_count {α : Type} {b en : Int} {occ : Occurrence α} {l : List (Occurrence α)}
    (h : segmentOne b en occ = .ok l) (P : α → Bool) (t : Int) :
    l.countP (fun s => P s.original && decide (Covers s t)) =
      if b ≤ t ∧ t < en then [occ].countP (fun o => P o.original && decide (Covers o t)) else 0 := by
  obtain ⟨inner, hw, _, rfl⟩ := segmentOne_ok h
  obtain ⟨h1, h2, h3⟩ := lo_le (x0 := occ.dtstart) (b := b) _ rfl
  have hb := segPairs_bounds hw h1 h2 h3
  have hc := segPairs_count hw h2 t
  rw [List.countP_map, List.countP_filter, List.countP_reverse, List.countP_singleton]
  generalize hlo : (if occ.dtstart < b then b else occ.dtstart) = lo at *
  generalize hhi : (if en < occ.dtstart + occ.duration then en else occ.dtstart + occ.duration) = hi at *
  have hfun : ∀ p : Int × Int, Covers (mkSeg occ.original p) t ↔ p.1 ≤ t ∧ t < p.2 := by
    intro p; unfold Covers mkSeg; simp only []; constructor <;> intro h <;> omega
  by_cases hP : P occ.original = true
  · have e1 : (segPairs lo inner hi).countP (fun p =>
        ((fun s => P s.original && decide (Covers s t)) ∘ mkSeg occ.original) p && keptPair b en p) =
        (segPairs lo inner hi).countP (fun p => decide (b ≤ t ∧ t < en) && decide (p.1 ≤ t ∧ t < p.2)) := by
      refine List.countP_congr fun p hp => ?_
      have hpb := hb p hp
      simp only [Function.comp, keptPair, Bool.and_eq_true, decide_eq_true_eq, hfun]
      constructor
      · rintro ⟨⟨_, h4⟩, h5⟩
        refine ⟨?_, h4⟩
        have hle : lo ≤ hi := by
          by_contra hx
          have : inner = [] := by
            cases inner with
            | nil => rfl
            | cons a r => obtain ⟨ha, hb', _⟩ := hw; omega
          subst this
          rw [segPairs, List.mem_singleton] at hp
          subst hp
          simp only [] at h4; omega
        have hq := (hpb.2.2.1 hle).2
        have hblo : b ≤ lo := by rw [← hlo]; split <;> omega
        have hhien : hi ≤ en := by rw [← hhi]; split <;> omega
        omega
      · rintro ⟨h4, h5⟩
        exact ⟨⟨hP, h5⟩, by omega⟩
    rw [e1]
    by_cases ht : b ≤ t ∧ t < en
    · rw [if_pos ht]
      simp only [ht, and_self, decide_true, Bool.true_and]
      rw [hc, hP]
      have : (lo ≤ t ∧ t < hi) ↔ Covers occ t := by
        unfold Covers
        rw [← hlo, ← hhi]
        split <;> split <;> constructor <;> intro h <;> omega
      simp only [this, Bool.true_and, decide_eq_true_eq]
    · rw [if_neg ht]
      simp [ht]
  · have hP : P occ.original = false := by simpa using hP
    have e1 : (segPairs lo inner hi).countP (fun p =>
        ((fun s => P s.original && decide (Covers s t)) ∘ mkSeg occ.original) p && keptPair b en p) = 0 := by
      rw [List.countP_eq_zero]
      intro p _
      simp [mkSeg, hP]
    rw [e1]
    simp [hP]

/-- C21: whatever property `P` of originals we look at, the segments of occurrences with `P` cover an
instant of the period exactly as many times as these occurrences do, and an instant outside the period
not at all.  No hypothesis on the period or the durations. -/
theorem C21_segments_cover {α : Type} (b en : Int) (L segs : List (Occurrence α))
    (h : segmentOccurrences b en L = .ok segs) (P : α → Bool) (t : Int) :
    segs.countP (fun s => P s.original && decide (Covers s t)) =
      if b ≤ t ∧ t < en then L.countP (fun o => P o.original && decide (Covers o t)) else 0 := by
  induction L generalizing segs with
  | nil => injection h with h; subst h; simp
  | cons occ rest ih =>
    unfold segmentOccurrences at h
    simp only [bind_ok] at h
    obtain ⟨here, hh, more, hm, h⟩ := h
    injection h with h; subst h
    rw [List.countP_append, segmentOne_count hh, ih more hm]
    have e : (occ :: rest) = [occ] ++ rest := rfl
    rw [e, List.countP_append]
    split <;> simp

theorem segmentOne_returns {α : Type} {b en : Int} {occ : Occurrence α}
    (hb : dtInRange b = true) (he : dtInRange en = true) (hbd : dtDate b < MAXORD) (hed : dtDate en < MAXORD)
    (hx : dtInRange occ.dtstart = true) (hxd : dtDate occ.dtstart < MAXORD)
    (hy : dtInRange (occ.dtstart + occ.duration) = true) : ∃ l, segmentOne b en occ = .ok l := by
  unfold segmentOne
  simp only []
  have hya : dtAdd occ.dtstart occ.duration = .ok (occ.dtstart + occ.duration) := dtAdd_ok.2 ⟨hy, rfl⟩
  rw [hya, ok_bind]
  have hlo : dtInRange (if occ.dtstart < b then b else occ.dtstart) = true := by split <;> assumption
  have hlod : dtDate (if occ.dtstart < b then b else occ.dtstart) < MAXORD := by split <;> assumption
  rcases borderLoop_returns (en := en) (y := occ.dtstart + occ.duration)
    ((en / DAY - (if occ.dtstart < b then b else occ.dtstart) / DAY).toNat + 2) _ hlo hlod (Or.inl hed) with h | ⟨inner, hi⟩
  · exact absurd h (borders_ne_diverge _ _ _)
  · rw [hi, ok_bind]
    have hw := borderLoop_walk _ _ _ hi
    rw [bordersOf_eq hw, List.reverse_append, List.reverse_singleton, List.singleton_append]
    refine ⟨_, popLoop_ok.2 ⟨?_, rfl⟩⟩
    rw [revPairs_eq]
    intro p hp
    rw [List.mem_reverse] at hp
    obtain ⟨h1, h2, h3⟩ := lo_le (x0 := occ.dtstart) (b := b) _ rfl
    have hbd := segPairs_bounds hw h1 h2 h3 p hp
    have hhi : dtInRange (if en < occ.dtstart + occ.duration then en else occ.dtstart + occ.duration) = true := by
      split <;> assumption
    generalize (if occ.dtstart < b then b else occ.dtstart) = lo at *
    generalize (if en < occ.dtstart + occ.duration then en else occ.dtstart + occ.duration) = hi at *
    by_cases hle : lo ≤ hi
    · have := hbd.2.2.1 hle
      rw [dtInRange_iff] at *
      omega
    · have : inner = [] := by
        cases inner with
        | nil => rfl
        | cons a r => obtain ⟨ha, hb', _⟩ := hw; omega
      subst this
      rw [segPairs, List.mem_singleton] at hp
      subst hp
      exact hhi

/-- C21: segmentation returns, provided neither the period nor an occurrence starts, and the period does
not end, on 9999-12-31. -/
theorem C21_segments_return {α : Type} (b en : Int) (L : List (Occurrence α))
    (hb : dtInRange b = true) (he : dtInRange en = true) (hbd : dtDate b < MAXORD) (hed : dtDate en < MAXORD)
    (hL : ∀ o ∈ L, dtInRange o.dtstart = true ∧ dtDate o.dtstart < MAXORD ∧
      dtInRange (o.dtstart + o.duration) = true) : ∃ segs, segmentOccurrences b en L = .ok segs := by
  induction L with
  | nil => exact ⟨[], rfl⟩
  | cons o rest ih =>
    obtain ⟨h1, h2, h3⟩ := hL o (List.mem_cons_self ..)
    obtain ⟨l, hl⟩ := segmentOne_returns hb he hbd hed h1 h2 h3
    obtain ⟨segs, hs⟩ := ih (fun o ho => hL o (List.mem_cons_of_mem _ ho))
    exact ⟨l ++ segs, by unfold segmentOccurrences; rw [hl, ok_bind, hs, ok_bind]⟩

/-- C21: segmentation never hangs. -/
theorem C21_segments_terminate {α : Type} (b en : Int) (L : List (Occurrence α)) :
    segmentOccurrences b en L ≠ .error .diverge := by
  have hadd : ∀ t d, dtAdd t d ≠ .error .diverge := by
    intro t d h; unfold dtAdd at h; grind [raise]
  have hpop : ∀ (o : α) L e, popLoop b en o e L ≠ .error .diverge := by
    intro o L
    induction L with
    | nil => intro e h; cases h
    | cons s rest ih =>
      intro e h
      unfold popLoop at h
      rw [bind_error] at h
      rcases h with h | ⟨_, _, h⟩
      · rw [inPeriod_eq] at h; grind [raise]
      · rw [bind_error] at h
        rcases h with h | ⟨_, _, h⟩
        · exact ih s h
        · cases h
  induction L with
  | nil => intro h; cases h
  | cons o rest ih =>
    intro h
    unfold segmentOccurrences at h
    rw [bind_error] at h
    rcases h with h | ⟨_, _, h⟩
    · unfold segmentOne at h
      simp only [] at h
      rw [bind_error] at h
      rcases h with h | ⟨_, _, h⟩
      · exact hadd _ _ h
      · rw [bind_error] at h
        rcases h with h | ⟨inner, hi, h⟩
        · exact borders_ne_diverge _ _ _ h
        · split at h
          · cases h
          · exact hpop _ _ _ h
    · rw [bind_error] at h
      rcases h with h | ⟨_, _, h⟩
      · exact ih h
      · cases h

/-- C21, concrete: 34 hours from 20:00, in a period starting at 22:00 that day and ending at 04:00 on the
third: three segments. -/
example : segmentOccurrences (Sample.day + 22 * Sample.HOUR) (Sample.day + 52 * Sample.HOUR)
      [⟨Sample.day + 20 * Sample.HOUR, 34 * Sample.HOUR, "trip"⟩] =
    .ok [⟨Sample.day + 48 * Sample.HOUR, 4 * Sample.HOUR, "trip"⟩,
         ⟨Sample.day + 24 * Sample.HOUR, 24 * Sample.HOUR, "trip"⟩,
         ⟨Sample.day + 22 * Sample.HOUR, 2 * Sample.HOUR, "trip"⟩] := by decide +kernel

/-! ### C22 -/

theorem mem_segments {α : Type} {b en : Int} {L segs : List (Occurrence α)}
    (h : segmentOccurrences b en L = .ok segs) (seg : Occurrence α) (hs : seg ∈ segs) :
    ∃ o ∈ L, ∃ l, segmentOne b en o = .ok l ∧ seg ∈ l := by
  induction L generalizing segs with
  | nil => injection h with h; subst h; cases hs
  | cons occ rest ih =>
    unfold segmentOccurrences at h
    simp only [bind_ok] at h
    obtain ⟨here, hh, more, hm, h⟩ := h
    injection h with h; subst h
    rcases List.mem_append.1 hs with hs | hs
    · exact ⟨occ, List.mem_cons_self .., here, hh, hs⟩
    · obtain ⟨o, ho, h⟩ := ih hm hs
      exact ⟨o, List.mem_cons_of_mem _ ho, h⟩

theorem segmentOne_bounds {α : Type} {b en : Int} {o : Occurrence α} {l : List (Occurrence α)}
    (h : segmentOne b en o = .ok l) (hd : 0 ≤ o.duration) (seg : Occurrence α) (hs : seg ∈ l) :
    seg.original = o.original ∧ 0 ≤ seg.duration ∧ b ≤ seg.dtstart ∧ seg.dtstart + seg.duration ≤ en ∧
      o.dtstart ≤ seg.dtstart ∧ seg.dtstart + seg.duration ≤ o.dtstart + o.duration ∧
      seg.dtstart + seg.duration ≤ combine (dtDate seg.dtstart + 1) 0 ∧
      (seg.duration = 0 → o.duration = 0 ∨
        (seg.dtstart = o.dtstart + o.duration ∧ (o.dtstart + o.duration) % DAY = 0 ∧
          b < o.dtstart + o.duration ∧ o.dtstart + o.duration < en)) := by
  obtain ⟨inner, hw, _, rfl⟩ := segmentOne_ok h
  obtain ⟨h1, h2, h3⟩ := lo_le (x0 := o.dtstart) (b := b) _ rfl
  rw [List.mem_map] at hs
  obtain ⟨p, hp, rfl⟩ := hs
  rw [List.mem_filter, List.mem_reverse] at hp
  obtain ⟨hp, hk⟩ := hp
  have hb := segPairs_bounds hw h1 h2 h3 p hp
  unfold keptPair at hk
  rw [decide_eq_true_eq] at hk
  simp only [mkSeg]
  generalize hlo : (if o.dtstart < b then b else o.dtstart) = lo at *
  generalize hhi : (if en < o.dtstart + o.duration then en else o.dtstart + o.duration) = hi at *
  have hl1 : b ≤ lo ∧ o.dtstart ≤ lo ∧ (lo = b ∨ lo = o.dtstart) := by rw [← hlo]; split <;> omega
  have hh1 : hi ≤ en ∧ hi ≤ o.dtstart + o.duration ∧ (hi = en ∨ hi = o.dtstart + o.duration) := by
    rw [← hhi]; split <;> omega
  have hle : lo ≤ hi := by
    by_contra hx
    have : inner = [] := by
      cases inner with
      | nil => rfl
      | cons a r => obtain ⟨ha, hb', _⟩ := hw; omega
    subst this
    rw [segPairs, List.mem_singleton] at hp
    subst hp
    simp only [] at hk
    omega
  have hq := hb.2.2.1 hle
  refine ⟨trivial, by omega, by omega, by omega, by omega, by omega, ?_, ?_⟩
  · have := hb.2.1
    unfold combine dtDate DAY at *; omega
  · intro h0
    rcases hb.2.2.2 (by omega) with hpe | ⟨hpe, hm, hlt⟩
    · subst hpe
      simp only [] at *
      omega
    · subst hpe
      simp only [] at *
      right
      have : hi = o.dtstart + o.duration := by omega
      rw [this] at hm
      exact ⟨this, hm, by omega, by omega⟩

/-- C22: every segment belongs to one of the occurrences, lies within it, within the period and within
one calendar day. -/
theorem C22_segments_fit {α : Type} (b en : Int) (L segs : List (Occurrence α)) (hd : ∀ o ∈ L, 0 ≤ o.duration)
    (h : segmentOccurrences b en L = .ok segs) :
    ∀ seg ∈ segs, ∃ o ∈ L, seg.original = o.original ∧ 0 ≤ seg.duration ∧
      b ≤ seg.dtstart ∧ seg.dtstart + seg.duration ≤ en ∧
      o.dtstart ≤ seg.dtstart ∧ seg.dtstart + seg.duration ≤ o.dtstart + o.duration ∧
      seg.dtstart + seg.duration ≤ combine (dtDate seg.dtstart + 1) 0 := by
  intro seg hs
  obtain ⟨o, ho, l, hl, hsl⟩ := mem_segments h seg hs
  obtain ⟨h1, h2, h3, h4, h5, h6, h7, _⟩ := segmentOne_bounds hl (hd o ho) seg hsl
  exact ⟨o, ho, h1, h2, h3, h4, h5, h6, h7⟩

/-- C22: no segment is empty if no occurrence is empty and none ends at a midnight inside the period.
Missing: occurrences ending at midnight, for which the statement is false
(`C22_midnight_counterexample`). -/
theorem C22_nonempty_partial {α : Type} (b en : Int) (L segs : List (Occurrence α)) (hd : ∀ o ∈ L, 0 < o.duration)
    (hm : ∀ o ∈ L, dtTime (o.dtstart + o.duration) ≠ 0 ∨ en ≤ o.dtstart + o.duration)
    (h : segmentOccurrences b en L = .ok segs) : ∀ seg ∈ segs, 0 < seg.duration := by
  intro seg hs
  obtain ⟨o, ho, l, hl, hsl⟩ := mem_segments h seg hs
  have hdo := hd o ho
  obtain ⟨_, h2, _, _, _, _, _, h8⟩ := segmentOne_bounds hl (by omega) seg hsl
  rcases Int.lt_or_eq_of_le h2 with h | h
  · exact h
  · exfalso
    rcases h8 h.symm with h9 | ⟨_, h9, _, h10⟩
    · omega
    · rcases hm o ho with h11 | h11
      · exact h11 h9
      · omega

/-- C22: an empty segment belongs to an empty occurrence, or sits at the end of an occurrence that ends at a
midnight strictly inside the period.  Missing: that there are none of the second kind
(`C22_midnight_counterexample`). -/
theorem C22_empty_partial {α : Type} (b en : Int) (L segs : List (Occurrence α)) (hd : ∀ o ∈ L, 0 ≤ o.duration)
    (h : segmentOccurrences b en L = .ok segs) : ∀ seg ∈ segs, seg.duration = 0 →
      ∃ o ∈ L, seg.original = o.original ∧ (o.duration = 0 ∨
        (seg.dtstart = o.dtstart + o.duration ∧ dtTime seg.dtstart = 0 ∧ b < seg.dtstart ∧ seg.dtstart < en)) := by
  intro seg hs h0
  obtain ⟨o, ho, l, hl, hsl⟩ := mem_segments h seg hs
  obtain ⟨h1, _, _, _, _, _, _, h8⟩ := segmentOne_bounds hl (hd o ho) seg hsl
  refine ⟨o, ho, h1, ?_⟩
  rcases h8 h0 with h9 | ⟨h9, h10, h11, h12⟩
  · exact Or.inl h9
  · rw [h9]; exact Or.inr ⟨rfl, h10, h11, h12⟩

/-- C22 is false for an occurrence ending at midnight: a segment of length zero appears on the next
day. -/
theorem C22_midnight_counterexample :
    segmentOccurrences Sample.day (Sample.day + 2 * DAY) [⟨Sample.day + 20 * Sample.HOUR, 4 * Sample.HOUR, ()⟩] =
      .ok [⟨Sample.day + DAY, 0, ()⟩, ⟨Sample.day + 20 * Sample.HOUR, 4 * Sample.HOUR, ()⟩] := by decide +kernel

/-- C22: the hypotheses hold for the sample occurrence of C21, which gives three segments. -/
example : ∀ o ∈ [(⟨Sample.day + 20 * Sample.HOUR, 34 * Sample.HOUR, "trip"⟩ : Occurrence String)],
    0 < o.duration ∧ dtTime (o.dtstart + o.duration) ≠ 0 := by decide +kernel

/-! ### C60 -/

theorem segments_complete {α : Type} {b en : Int} {L segs : List (Occurrence α)}
    (h : segmentOccurrences b en L = .ok segs) (o : Occurrence α) (ho : o ∈ L) :
    ∃ l, segmentOne b en o = .ok l ∧ ∀ s ∈ l, s ∈ segs := by
  induction L generalizing segs with
  | nil => cases ho
  | cons occ rest ih =>
    unfold segmentOccurrences at h
    simp only [bind_ok] at h
    obtain ⟨here, hh, more, hm, h⟩ := h
    injection h with h; subst h
    rcases List.mem_cons.1 ho with rfl | ho
    · exact ⟨here, hh, fun s hs => List.mem_append.2 (Or.inl hs)⟩
    · obtain ⟨l, hl, hs⟩ := ih hm ho
      exact ⟨l, hl, fun s hx => List.mem_append.2 (Or.inr (hs s hx))⟩

/-- An occurrence of length zero strictly inside the period is kept. -/
theorem segmentOne_zero {α : Type} {b en : Int} {o : Occurrence α} {l : List (Occurrence α)}
    (h : segmentOne b en o = .ok l) (hd : o.duration = 0) (h1 : b < o.dtstart) (h2 : o.dtstart < en) :
    o ∈ l := by
  obtain ⟨inner, hw, _, rfl⟩ := segmentOne_ok h
  rw [hd] at hw ⊢
  rw [if_neg (show ¬ o.dtstart < b by omega), if_neg (show ¬ en < o.dtstart + 0 by omega)] at hw ⊢
  have : inner = [] := by
    cases inner with
    | nil => rfl
    | cons a r =>
      obtain ⟨ha, hb', _⟩ := hw
      unfold combine dtDate DAY at ha; omega
  subst this
  rw [List.mem_map]
  refine ⟨(o.dtstart, o.dtstart + 0), ?_, ?_⟩
  · rw [List.mem_filter]
    refine ⟨by simp [segPairs], ?_⟩
    simp only [keptPair, decide_eq_true_eq]; omega
  · obtain ⟨x, d, og⟩ := o
    simp only [] at hd
    subst hd
    simp [mkSeg]

theorem covered_iff {α : Type} {b en : Int} {L segs : List (Occurrence α)}
    (h : segmentOccurrences b en L = .ok segs) (P : α → Bool) (t : Int) :
    (∃ s ∈ segs, P s.original = true ∧ Covers s t) ↔ b ≤ t ∧ t < en ∧ ∃ o ∈ L, P o.original = true ∧ Covers o t := by
  have hc := C21_segments_cover b en L segs h P t
  have hpos : ∀ l : List (Occurrence α), (∃ s ∈ l, P s.original = true ∧ Covers s t) ↔
      0 < l.countP (fun s => P s.original && decide (Covers s t)) := by
    intro l; rw [List.countP_pos_iff]; simp
  rw [hpos, hpos, hc]
  split <;> rename_i hx
  · simp [hx]
  · constructor
    · intro h; omega
    · rintro ⟨h1, h2, _⟩; exact absurd ⟨h1, h2⟩ hx

theorem calendar_segmented_ok {c : Calendar} {src : Source} {s : Storage} {b e : Int} {segs : List (Occurrence Event)}
    (h : c.getOccurrencesSegmented src s (some b) (some e) none = .ok segs) :
    ∃ occs, s.getOccurrences (some b) (some e) (some { attendees := some (Dict.keys c) }) = .ok occs ∧
      segmentOccurrences b e occs = .ok segs := by
  unfold Calendar.getOccurrencesSegmented Calendar.getOccurrences at h
  simp only [bind_ok] at h
  obtain ⟨occs, ⟨cr, hcr, ho⟩, hs⟩ := h
  rw [calendar_criteria_ok] at hcr
  obtain ⟨_, rfl⟩ := hcr
  exact ⟨occs, ho, hs⟩

theorem day_ok {c : Calendar} {src : Source} {s : Storage} {d : Int} {segs : List (Occurrence Event)}
    (h : c.getOccurrencesInDay src s d none = .ok segs) :
    ∃ occs, s.getOccurrences (some (combine d 0)) (some (combine d 0 + DAY)) (some { attendees := some (Dict.keys c) }) = .ok occs ∧
      segmentOccurrences (combine d 0) (combine d 0 + DAY) occs = .ok segs := by
  unfold Calendar.getOccurrencesInDay at h
  rw [bind_ok] at h
  obtain ⟨en, hen, h⟩ := h
  rw [dtAdd_ok] at hen
  rw [hen.2] at h
  exact calendar_segmented_ok h

/-- C60: the day view of a calendar shows an event at an instant exactly when the instant is on that day,
the event is stored, attended by an attendee of the calendar, and takes place at that instant. -/
theorem C60_day_view (s : Storage) (hs : s.WF) (hg : ∀ ev, Stored s ev → Regular ev) (cal : Calendar)
    (src : Source) (d : Int) (segs : List (Occurrence Event))
    (h : cal.getOccurrencesInDay src s d none = .ok segs) (ev : Event) (t : Int) :
    (∃ seg ∈ segs, seg.original = ev ∧ Covers seg t) ↔
      dtDate t = d ∧ Stored s ev ∧ (∃ a ∈ Dict.keys cal, Attends ev a) ∧ OccursAt ev t := by
  obtain ⟨occs, ho, hsg⟩ := day_ok h
  have hk := covered_iff hsg (fun x => decide (x = ev)) t
  simp only [decide_eq_true_eq] at hk
  rw [hk]
  have hC := C24_getOccurrences s hs _ hg _ _ _ ho
  have hM : Matches (({ attendees := some (Dict.keys cal) } : Criteria)) ev ↔ ∃ a ∈ Dict.keys cal, Attends ev a := by
    simp [Matches, Attends]
  have hday : (combine d 0 ≤ t ∧ t < combine d 0 + DAY) ↔ dtDate t = d := by
    unfold combine dtDate DAY; omega
  constructor
  · rintro ⟨h1, h2, o, ho, rfl, hc⟩
    obtain ⟨k1, k2, k3, k4, _⟩ := (hC o).1 ho
    exact ⟨hday.1 ⟨h1, h2⟩, k1, hM.1 k2, o.dtstart, o.duration, k3, k4, hc⟩
  · rintro ⟨h1, h2, h3, x, dur, h4, h5, h6, h7⟩
    obtain ⟨h8, h9⟩ := hday.2 h1
    exact ⟨h8, h9, ⟨x, dur, ev⟩, (hC _).2 ⟨h2, hM.2 h3, h4, h5, by simp only []; omega, by simp only []; omega⟩,
      rfl, h6, h7⟩

/-- C60 for events of length zero: shown on the day of the start, unless this is at midnight, when the
statement is false (`C60_midnight_counterexample`). -/
theorem C60_zero_length_partial (s : Storage) (hs : s.WF) (hg : ∀ ev, Stored s ev → Regular ev) (cal : Calendar)
    (src : Source) (d : Int) (segs : List (Occurrence Event))
    (h : cal.getOccurrencesInDay src s d none = .ok segs) (ev : Event) (x : Int)
    (hst : Stored s ev) (ha : ∃ a ∈ Dict.keys cal, Attends ev a) (hd : ev.duration = some 0)
    (hx : StartsAt ev x) (hday : dtDate x = d) (hm : dtTime x ≠ 0) : ⟨x, 0, ev⟩ ∈ segs := by
  obtain ⟨occs, ho, hsg⟩ := day_ok h
  have hC := C24_getOccurrences s hs _ hg _ _ _ ho
  have hM : Matches (({ attendees := some (Dict.keys cal) } : Criteria)) ev := by
    simpa [Matches, Attends] using ha
  have hin : combine d 0 < x ∧ x < combine d 0 + DAY := by
    unfold combine dtDate dtTime DAY at *; omega
  have hmem := (hC ⟨x, 0, ev⟩).2 ⟨hst, hM, hx, hd, by simp only []; omega, by simp only []; omega⟩
  obtain ⟨l, hl, hsub⟩ := segments_complete hsg _ hmem
  exact hsub _ (segmentOne_zero hl rfl hin.1 hin.2)

/-- An event of length zero at midnight. -/
def midnightEvent : Event :=
  { blankEvent "z" with
    dtstart := Sample.day, duration := some 0, status := "TENTATIVE", access := "PUBLIC"
    organizerId := some "alice", pstate := [("alice", "ACCEPTED")], prole := [("alice", "REQ-PARTICIPANT")] }

/-- C60 is false for an event of length zero at midnight: it is in no day view at all. -/
theorem C60_midnight_counterexample :
    ∃ w, w = (freshWorld "st" "host").run
      [.create 0 (some "z") { dtstart := Sample.day, duration := some 0, organizer := some "alice" }] ∧
      Stored w.store midnightEvent ∧ Attends midnightEvent "alice" ∧ StartsAt midnightEvent Sample.day ∧
      ∀ d ∈ [dtDate Sample.day - 1, dtDate Sample.day, dtDate Sample.day + 1],
        Calendar.getOccurrencesInDay [("alice", ())] [("alice", ⟨"Alice", "INDIVIDUAL"⟩)] w.store d none = .ok [] := by
  refine ⟨_, rfl, ?_, ⟨"ACCEPTED", by decide⟩, rfl, by decide +kernel⟩
  unfold Stored; decide +kernel

/-- C60, concrete: the second day of the sample store shows a part of the trip and the point. -/
example : (∀ ev, Stored Sample.store ev → Regular ev) ∧
    ∃ l, Calendar.getOccurrencesInDay [("bob", ())] [("bob", ⟨"Bob", "INDIVIDUAL"⟩)] Sample.store
      (dtDate Sample.day + 1) none = .ok l ∧
      l.map (fun o => (o.original.uid, o.dtstart, o.duration)) =
        [("t", Sample.day + DAY, DAY), ("p", Sample.day + 33 * Sample.HOUR, 0)] := by
  refine ⟨fun ev hev => ?_, _, rfl, by decide +kernel⟩
  have hm := (Sample.store_wf.mem_values ev).2 hev
  have : ∀ ev ∈ Dict.values Sample.store.events, dtInRange ev.dtstart = true ∧ ev.recurrence = none := by
    decide +kernel
  refine ⟨(this ev hm).1, fun r h => ?_⟩
  rw [(this ev hm).2] at h; cases h

end CalCore
