import Verif.Lemmas.Blocked
import Verif.Props.Total
/- Properties C25 to C31: blocked and free periods. -/
namespace CalCore
open Spec

/-! ### C25 -/

/-- C25, first half: whatever the store, the blocked periods are in increasing order and neither overlap
nor touch. -/
theorem C25_separated (s : Storage) (atts : List AttId) (b en tb te : Int) (R : List (Int × Int))
    (h : s.getBlockedPeriods atts b en tb te = .ok R) : Separated R := by
  obtain ⟨_, B, rfl, _⟩ := getBlockedPeriods_ok h
  exact removeOverlaps_separated B

/-- C25, second half: every blocked period has begin ≤ end, if no stored event has a negative duration.
Missing: events of negative duration, for which it is false (`C25_negative_counterexample`). -/
theorem C25_ordered_partial (s : Storage) (hs : s.WF) (hn : NoNegative s) (atts : List AttId) (b en tb te : Int)
    (htb : IsTime tb) (hte : IsTime te) (R : List (Int × Int))
    (h : s.getBlockedPeriods atts b en tb te = .ok R) : ∀ p ∈ R, p.1 ≤ p.2 := by
  obtain ⟨_, B, rfl, hB⟩ := getBlockedPeriods_ok h
  exact removeOverlaps_settled (tuple_settled hs hn htb hte hB)

/-- C25 is false for events of negative duration, which `createEvent` and the import accept. -/
theorem C25_negative_counterexample :
    ((freshWorld "st" "host").run
      [.create 0 (some "n") { dtstart := Sample.day + 12 * Sample.HOUR, duration := some (-Sample.HOUR)
                              organizer := some "alice" }]).store.getBlockedPeriods ["alice"]
      Sample.day (Sample.day + DAY) (8 * Sample.HOUR) (17 * Sample.HOUR) =
    .ok [(Sample.day, Sample.day + 8 * Sample.HOUR),
         (Sample.day + 12 * Sample.HOUR, Sample.day + 11 * Sample.HOUR),
         (Sample.day + 17 * Sample.HOUR, Sample.day + 24 * Sample.HOUR)] := by decide +kernel

theorem sample_noNegative : NoNegative Sample.store := by
  intro e he d hd
  have hm := (Sample.store_wf.mem_values e).2 he
  have : ∀ ev ∈ Dict.values Sample.store.events, ∀ d ∈ ev.duration, 0 ≤ d := by decide +kernel
  exact this e hm d hd

theorem sample_regular : ∀ ev, Stored Sample.store ev → Regular ev := by
  intro ev hev
  have hm := (Sample.store_wf.mem_values ev).2 hev
  have : ∀ ev ∈ Dict.values Sample.store.events, dtInRange ev.dtstart = true ∧ ev.recurrence = none := by
    decide +kernel
  exact ⟨(this ev hm).1, fun r h => by rw [(this ev hm).2] at h; cases h⟩

/-- C25, concrete: three days of Alice and Bob; the meeting and the trip, clipped to the window. -/
theorem sample_blocked : Sample.store.getBlockedPeriods ["alice", "bob"] Sample.day (Sample.day + 3 * DAY)
      (8 * Sample.HOUR) (21 * Sample.HOUR) =
    .ok [(Sample.day, Sample.day + 8 * Sample.HOUR),
         (Sample.day + 10 * Sample.HOUR, Sample.day + 12 * Sample.HOUR),
         (Sample.day + 20 * Sample.HOUR, Sample.day + 56 * Sample.HOUR),
         (Sample.day + 69 * Sample.HOUR, Sample.day + 72 * Sample.HOUR)] := by decide +kernel

example : IsTime (8 * Sample.HOUR) ∧ IsTime (21 * Sample.HOUR) := by
  constructor <;> (unfold IsTime; decide +kernel)

/-! ### C26 -/

/-- Where the blocked periods are, at every instant. -/
theorem blocked_everywhere (s : Storage) (hs : s.WF) (hg : ∀ ev, Stored s ev → Regular ev) (atts : List AttId)
    (b en tb te : Int) (htb : IsTime tb) (hte : IsTime te) (R : List (Int × Int))
    (h : s.getBlockedPeriods atts b en tb te = .ok R) (t : Int) :
    Covered R t ↔ (dtDate b ≤ dtDate t ∧ dtDate t ≤ lastDay en ∧ ¬ InWindow tb te t) ∨
      (b ≤ t ∧ t < en ∧ InWindow tb te t ∧ ∃ a ∈ atts, BusyAt s a t) := by
  obtain ⟨hseg, B, rfl, hB⟩ := getBlockedPeriods_ok h
  rw [removeOverlaps_covered]
  have hW := window_covers (d0 := dtDate b) (d1 := lastDay en) htb hte t
  have hM : ∀ a ev, Matches (({ attendees := some [a] } : Criteria)) ev ↔ Attends ev a := by
    intro a ev; simp [Matches, Attends]
  constructor
  · rintro ⟨p, hp, hin⟩
    rcases (hB p).1 hp with ⟨a, ha, segs, hsg, o, ho, hbl, _, _, rfl⟩ | hp
    · right
      obtain ⟨occs, hocc, hsegs⟩ := segmented_ok hsg
      obtain ⟨hc, hw⟩ := (clip_covers htb hte (segment_day hsegs o ho).1 t).1 hin
      obtain ⟨h1, h2, o', ho', hbl', hc'⟩ := (covered_iff hsegs (fun ev => blocks ev a) t).1 ⟨o, ho, hbl, hc⟩
      obtain ⟨k1, k2, k3, k4, _⟩ := (C24_getOccurrences s hs _ hg _ _ _ hocc o').1 ho'
      exact ⟨h1, h2, hw, a, ha, o'.original, k1, (hM a _).1 k2, blocks_iff.1 hbl', o'.dtstart, o'.duration, k3, k4, hc'⟩
    · exact Or.inl (hW.1 ⟨p, hp, hin⟩)
  · rintro (hx | ⟨h1, h2, hw, a, ha, ev, k1, k2, k3, x, dur, k4, k5, k6, k7⟩)
    · obtain ⟨p, hp, hin⟩ := hW.2 hx
      exact ⟨p, (hB p).2 (Or.inr hp), hin⟩
    · obtain ⟨segs, hsg⟩ := hseg a ha
      obtain ⟨occs, hocc, hsegs⟩ := segmented_ok hsg
      have hmem := (C24_getOccurrences s hs _ hg _ _ _ hocc ⟨x, dur, ev⟩).2
        ⟨k1, (hM a _).2 k2, k4, k5, by simp only []; omega, by simp only []; omega⟩
      obtain ⟨o, ho, hbl, hc⟩ := (covered_iff hsegs (fun ev => blocks ev a) t).2
        ⟨h1, h2, _, hmem, blocks_iff.2 k3, k6, k7⟩
      have hd := segment_day hsegs o ho
      exact ⟨clip tb te o, (hB _).2 (Or.inl ⟨a, ha, segs, hsg, o, ho, hbl, by omega, by omega, rfl⟩),
        (clip_covers htb hte hd.1 t).2 ⟨hc, hw⟩⟩

/-- C26: an instant of the period is blocked exactly when its time of day is outside the window or some
attendee is busy.  Missing: stores with rules of negative interval (they cannot be created, but imported; see
`C100_backwards_counterexample`) or with a datetime as until, and events with the documented status 'CANCELLED', which count as busy
(`C26_cancelled_counterexample`). -/
theorem C26_blocked_partial (s : Storage) (hs : s.WF) (hg : ∀ ev, Stored s ev → Regular ev) (atts : List AttId)
    (b en tb te : Int) (htb : IsTime tb) (hte : IsTime te) (R : List (Int × Int))
    (h : s.getBlockedPeriods atts b en tb te = .ok R) (t : Int) (h1 : b ≤ t) (h2 : t < en) :
    Covered R t ↔ ¬ InWindow tb te t ∨ ∃ a ∈ atts, BusyAt s a t := by
  rw [blocked_everywhere s hs hg atts b en tb te htb hte R h t]
  have hd := lastDay_ge h1 h2
  constructor
  · rintro (⟨_, _, h⟩ | ⟨_, _, _, h⟩)
    · exact Or.inl h
    · exact Or.inr h
  · intro h
    by_cases hw : InWindow tb te t
    · rcases h with h | h
      · exact absurd hw h
      · exact Or.inr ⟨h1, h2, hw, h⟩
    · exact Or.inl ⟨hd.1, hd.2, hw⟩

/-- C26, concrete: the sample store and window meet the hypotheses; at 11:00 Bob is busy, at 13:00 nobody
is. -/
example : BusyAt Sample.store "bob" (Sample.day + 11 * Sample.HOUR) ∧
    ¬ BusyAt Sample.store "bob" (Sample.day + 13 * Sample.HOUR) := by
  have hR := fun t => C26_blocked_partial Sample.store Sample.store_wf sample_regular ["bob"] Sample.day
    (Sample.day + DAY) (8 * Sample.HOUR) (21 * Sample.HOUR) (by unfold IsTime; decide +kernel)
    (by unfold IsTime; decide +kernel)
    [(Sample.day, Sample.day + 8 * Sample.HOUR), (Sample.day + 10 * Sample.HOUR, Sample.day + 12 * Sample.HOUR),
     (Sample.day + 20 * Sample.HOUR, Sample.day + 24 * Sample.HOUR)] (by decide +kernel) t
  constructor
  · have := (hR (Sample.day + 11 * Sample.HOUR) (by decide) (by decide)).1 (by unfold Covered In; decide +kernel)
    rcases this with h | ⟨a, ha, h⟩
    · exact absurd (by unfold InWindow; decide +kernel) h
    · rw [List.mem_singleton] at ha; rwa [ha] at h
  · intro h
    have := (hR (Sample.day + 13 * Sample.HOUR) (by decide) (by decide)).2 (Or.inr ⟨"bob", by simp, h⟩)
    revert this
    unfold Covered In; decide +kernel

/-- C26: an event with status 'CANCELLED', the spelling documented in interfaces.py:49 and used by
iCalendar, still blocks its attendees. -/
theorem C26_cancelled_counterexample :
    ((freshWorld "st" "host").run
      [.create 0 (some "c") { dtstart := Sample.day + 12 * Sample.HOUR, duration := some Sample.HOUR
                              status := "CANCELLED", organizer := some "alice" }]).store.getBlockedPeriods ["alice"]
      Sample.day (Sample.day + DAY) (8 * Sample.HOUR) (17 * Sample.HOUR) =
    .ok [(Sample.day, Sample.day + 8 * Sample.HOUR),
         (Sample.day + 12 * Sample.HOUR, Sample.day + 13 * Sample.HOUR),
         (Sample.day + 17 * Sample.HOUR, Sample.day + 24 * Sample.HOUR)] := by decide +kernel

/-! ### C27 -/

theorem blocked_same {s s' : Storage} (hs : s.WF) (hs' : s'.WF)
    (he : ∀ uid, Dict.get? s'.events uid = Dict.get? s.events uid) {atts atts' : List AttId}
    (ha : ∀ a, a ∈ atts' ↔ a ∈ atts) {b en tb te : Int} {R : List (Int × Int)}
    (h : s.getBlockedPeriods atts b en tb te = .ok R) : s'.getBlockedPeriods atts' b en tb te = .ok R := by
  rw [getBlockedPeriods_eq] at h ⊢
  simp only [bind_ok] at h
  obtain ⟨B, hB, endD, hend, W, hW, h⟩ := h
  injection h with h
  obtain ⟨hseg, hmem⟩ := attendeeBlocks_ok hB
  obtain ⟨B', hB'⟩ := attendeeBlocks_returns (s := s') (b := b) (en := en) (tb := tb) (te := te) (atts := atts') (by
    intro a haa
    obtain ⟨segs, hsg⟩ := hseg a ((ha a).1 haa)
    obtain ⟨segs', hsg', _⟩ := segmented_same hs hs' he hsg
    obtain ⟨occs, _, hso⟩ := segmented_ok hsg'
    exact ⟨segs', hsg', segments_range hso⟩) []
  obtain ⟨hseg', hmem'⟩ := attendeeBlocks_ok hB'
  have hm : ∀ p, p ∈ B' ↔ p ∈ B := by
    intro p
    rw [hmem, hmem']
    refine or_congr Iff.rfl ?_
    constructor
    · rintro ⟨a, haa, segs', hsg', o, ho, hr⟩
      obtain ⟨segs, hsg, hss⟩ := segmented_same hs' hs (fun u => (he u).symm) hsg'
      exact ⟨a, (ha a).1 haa, segs, hsg, o, (hss o).2 ho, hr⟩
    · rintro ⟨a, haa, segs, hsg, o, ho, hr⟩
      obtain ⟨segs', hsg', hss⟩ := segmented_same hs hs' he hsg
      exact ⟨a, (ha a).2 haa, segs', hsg', o, (hss o).2 ho, hr⟩
  have hperm : B'.Perm B := (List.perm_ext_iff_of_nodup (attendeeBlocks_nodup hB' List.nodup_nil)
    (attendeeBlocks_nodup hB List.nodup_nil)).2 hm
  rw [hB', ok_bind, hend, ok_bind, hW, ok_bind, ← h]
  rw [removeOverlaps_perm (List.Perm.append_right W hperm)]

/-- C27: two stores with the same events (in any dictionary order) and two lists with the same attendees
(in any order, with any repetition) give identical blocked periods. -/
theorem C27_blocked_order (s s' : Storage) (hs : s.WF) (hs' : s'.WF)
    (he : ∀ uid, Dict.get? s'.events uid = Dict.get? s.events uid) (atts atts' : List AttId)
    (ha : ∀ a, a ∈ atts' ↔ a ∈ atts) (b en tb te : Int) (R : List (Int × Int)) :
    s.getBlockedPeriods atts b en tb te = .ok R ↔ s'.getBlockedPeriods atts' b en tb te = .ok R :=
  ⟨blocked_same hs hs' he ha, blocked_same hs' hs (fun u => (he u).symm) (fun a => (ha a).symm)⟩

/-- C27 for free periods. -/
theorem C27_free_order (s s' : Storage) (hs : s.WF) (hs' : s'.WF)
    (he : ∀ uid, Dict.get? s'.events uid = Dict.get? s.events uid) (atts atts' : List AttId)
    (ha : ∀ a, a ∈ atts' ↔ a ∈ atts) (b en tb te : Int) (md : Option Int) (F : List (Int × Int)) :
    s.getFreePeriods atts b en tb te md = .ok F ↔ s'.getFreePeriods atts' b en tb te md = .ok F := by
  unfold Storage.getFreePeriods
  simp only [bind_ok, C27_blocked_order s s' hs hs' he atts atts' ha]

/-- C27, concrete: the sample store with its dictionary reversed. -/
example : let s' : Storage := { Sample.store with events := Sample.store.events.reverse }
    s'.events ≠ Sample.store.events ∧ (∀ k ∈ ["m", "t", "p", "x"], Dict.get? s'.events k = Dict.get? Sample.store.events k) ∧
    s'.getBlockedPeriods ["bob", "alice", "bob"] Sample.day (Sample.day + 3 * DAY) (8 * Sample.HOUR) (21 * Sample.HOUR) =
      Sample.store.getBlockedPeriods ["alice", "bob"] Sample.day (Sample.day + 3 * DAY) (8 * Sample.HOUR) (21 * Sample.HOUR) := by
  decide +kernel

/-! ### C28 -/

/-- C28: more attendees, more blocked time; at every instant, for every store. -/
theorem C28_monotone (s : Storage) (atts atts' : List AttId) (hsub : ∀ a ∈ atts, a ∈ atts') (b en tb te : Int)
    (R R' : List (Int × Int)) (h : s.getBlockedPeriods atts b en tb te = .ok R)
    (h' : s.getBlockedPeriods atts' b en tb te = .ok R') (t : Int) (hc : Covered R t) : Covered R' t := by
  obtain ⟨_, B, rfl, hB⟩ := getBlockedPeriods_ok h
  obtain ⟨_, B', rfl, hB'⟩ := getBlockedPeriods_ok h'
  rw [removeOverlaps_covered] at *
  obtain ⟨p, hp, hin⟩ := hc
  refine ⟨p, (hB' p).2 ?_, hin⟩
  rcases (hB p).1 hp with ⟨a, ha, hr⟩ | hr
  · exact Or.inl ⟨a, hsub a ha, hr⟩
  · exact Or.inr hr

/-- C28: if the query for more attendees returns, so does the query for fewer. -/
theorem C28_returns (s : Storage) (atts atts' : List AttId) (hsub : ∀ a ∈ atts, a ∈ atts') (b en tb te : Int)
    (R' : List (Int × Int)) (h' : s.getBlockedPeriods atts' b en tb te = .ok R') :
    ∃ R, s.getBlockedPeriods atts b en tb te = .ok R := by
  rw [getBlockedPeriods_eq] at h' ⊢
  simp only [bind_ok] at h'
  obtain ⟨B, hB, endD, hend, W, hW, h⟩ := h'
  obtain ⟨hseg, _⟩ := attendeeBlocks_ok hB
  obtain ⟨B', hB'⟩ := attendeeBlocks_returns (s := s) (b := b) (en := en) (tb := tb) (te := te) (atts := atts) (by
    intro a haa
    obtain ⟨segs, hsg⟩ := hseg a (hsub a haa)
    obtain ⟨occs, _, hso⟩ := segmented_ok hsg
    exact ⟨segs, hsg, segments_range hso⟩) []
  exact ⟨_, by rw [hB', ok_bind, hend, ok_bind, hW, ok_bind]⟩

/-- C28, concrete: Alice alone has the first evening free, Alice and Bob do not (`sample_blocked`). -/
example : Sample.store.getBlockedPeriods ["carol"] Sample.day (Sample.day + DAY)
      (8 * Sample.HOUR) (21 * Sample.HOUR) =
    .ok [(Sample.day, Sample.day + 8 * Sample.HOUR),
         (Sample.day + 21 * Sample.HOUR, Sample.day + 24 * Sample.HOUR)] := by decide +kernel

/-! ### C29 -/

theorem covered_cons_iff (p : Int × Int) (l : List (Int × Int)) (t : Int) :
    Covered (p :: l) t ↔ In t p ∨ Covered l t := by
  unfold Covered; simp

theorem blocked_shape {s : Storage} (hs : s.WF) (hn : NoNegative s) {atts : List AttId} {b en tb te : Int}
    (htb : IsTime tb) (hte : IsTime te) (hbe : b < en) {R : List (Int × Int)}
    (h : s.getBlockedPeriods atts b en tb te = .ok R) :
    ∃ f rest, R = f :: rest ∧ f.1 = combine (dtDate b) 0 ∧ combine (dtDate b) tb ≤ f.2 ∧
      (∀ p ∈ rest, tb ≤ dtTime p.1) ∧ (∀ p ∈ R.getLast?, p.2 = combine (lastDay en + 1) 0) := by
  obtain ⟨_, B, rfl, hB⟩ := getBlockedPeriods_ok h
  have hset := tuple_settled hs hn htb hte hB
  have hsep := removeOverlaps_separated B
  have hord := removeOverlaps_settled hset
  have hdays : dtDate b ≤ lastDay en := (lastDay_ge (Int.le_refl b) hbe).2
  have htb' := htb
  have hte' := hte
  unfold IsTime at htb' hte'
  -- facts on tuples
  have htup : ∀ p ∈ B, combine (dtDate b) 0 ≤ p.1 ∧ p.2 ≤ combine (lastDay en + 1) 0 ∧
      p.1 ≤ combine (lastDay en + 1) 0 := by
    intro p hp
    rcases (hB p).1 hp with ⟨a, ha, segs, hsg, o, ho, _, _, hoen, rfl⟩ | ⟨x, h1, h2, rfl | rfl⟩
    · obtain ⟨occs, hocc, hseg⟩ := segmented_ok hsg
      have hsd := segment_day hseg o ho
      obtain ⟨o', ho', l, hl, hol⟩ := mem_segments hseg o ho
      have hdur : 0 ≤ o'.duration := hn _ (occurrence_duration hs hocc o' ho').1 _ (occurrence_duration hs hocc o' ho').2
      obtain ⟨_, hd0, hbs, _⟩ := segmentOne_bounds hl hdur o hol
      have hday := lastDay_ge hbs hoen
      obtain ⟨c1, c2, _, c4⟩ := clip_pos (te := te) htb o hd0
      generalize clip tb te o = c at *
      generalize lastDay en = ld at *
      unfold combine dtDate dtTime DAY at *
      omega
    · generalize lastDay en = ld at *
      simp only []; unfold combine DAY at *; omega
    · generalize lastDay en = ld at *
      simp only []; unfold combine DAY at *; omega
  have hcov : ∀ t, Covered ((removeOverlaps B).map dbl) t ↔ Covered (B.map dbl) t := by
    intro t; rw [← removeOverlaps_dbl, removeOverlaps_covered]
  have hdbl : ∀ (L : List (Int × Int)) t, Covered (L.map dbl) t ↔ ∃ p ∈ L, 2 * p.1 ≤ t ∧ t < 2 * p.2 + 1 := by
    intro L t
    unfold Covered In
    simp only [List.mem_map]
    constructor
    · rintro ⟨_, ⟨p, hp, rfl⟩, h⟩; exact ⟨p, hp, h⟩
    · rintro ⟨p, hp, h⟩; exact ⟨_, ⟨p, hp, rfl⟩, h⟩
  have h0 : (combine (dtDate b) 0, combine (dtDate b) tb) ∈ B := (hB _).2 (Or.inr ⟨_, Int.le_refl _, hdays, Or.inl rfl⟩)
  have hlast : (combine (lastDay en) te, combine (lastDay en + 1) 0) ∈ B :=
    (hB _).2 (Or.inr ⟨_, hdays, Int.le_refl _, Or.inr rfl⟩)
  -- every merged period starts at the start of a tuple
  have hstart : ∀ p ∈ removeOverlaps B, combine (dtDate b) 0 ≤ p.1 := by
    intro p hp
    obtain ⟨q, hq, hqe⟩ := removeOverlaps_start hp
    rw [← hqe]; exact (htup q hq).1
  have hfirst : ∃ p ∈ removeOverlaps B, p.1 = combine (dtDate b) 0 ∧ combine (dtDate b) tb ≤ p.2 := by
    have hc := (hcov (2 * combine (dtDate b) tb)).2 ((hdbl _ _).2 ⟨_, h0, by simp only []; unfold combine; omega,
      by simp only []; omega⟩)
    obtain ⟨p, hp, hp1, hp2⟩ := (hdbl _ _).1 hc
    refine ⟨p, hp, ?_, by omega⟩
    have hge := hstart p hp
    have hfr := start_fresh hset hp
    by_contra hne
    exact hfr ⟨_, h0, by simp only []; omega, by simp only []; omega⟩
  have hends : ∀ p ∈ removeOverlaps B, p.2 ≤ combine (lastDay en + 1) 0 := by
    intro p hp
    have hle := hord p hp
    have hc := (hcov (2 * p.2)).1 ((hdbl _ _).2 ⟨p, hp, by omega, by omega⟩)
    obtain ⟨q, hq, h1, h2⟩ := (hdbl _ _).1 hc
    have := (htup q hq).2.1
    omega
  have hlastp : ∃ p ∈ removeOverlaps B, p.2 = combine (lastDay en + 1) 0 := by
    have hc := (hcov (2 * combine (lastDay en + 1) 0)).2 ((hdbl _ _).2 ⟨_, hlast, by
      simp only []; unfold combine DAY at *; omega, by simp only []; omega⟩)
    obtain ⟨p, hp, hp1, hp2⟩ := (hdbl _ _).1 hc
    exact ⟨p, hp, by have := hends p hp; omega⟩
  obtain ⟨p0, hp0, hp01, hp02⟩ := hfirst
  have hnon : removeOverlaps B ≠ [] := by intro h; rw [h] at hp0; cases hp0
  obtain ⟨f, rest, hfr⟩ := List.exists_cons_of_ne_nil hnon
  rw [hfr] at hsep hord hstart hends hlastp hp0 ⊢
  unfold Separated at hsep
  have hsep' := hsep
  rw [List.pairwise_cons] at hsep
  have hpf : p0 = f := by
    rcases List.mem_cons.1 hp0 with h | h
    · exact h
    · have h1 := hsep.1 p0 h
      have h2 := hstart f (List.mem_cons_self ..)
      have h3 := hord f (List.mem_cons_self ..)
      omega
  subst hpf
  refine ⟨p0, rest, rfl, hp01, hp02, ?_, ?_⟩
  · intro p hp
    have hp' : p ∈ removeOverlaps B := by rw [hfr]; exact List.mem_cons_of_mem _ hp
    have hfresh := start_fresh hset hp'
    have hafter := (hsep.1 p hp).1
    obtain ⟨q, hq, hqe⟩ := removeOverlaps_start hp'
    rcases (hB q).1 hq with ⟨a, ha, segs, hsg, o, ho, _, _, hoen, rfl⟩ | ⟨x, h1, h2, rfl | rfl⟩
    · obtain ⟨occs, hocc, hseg⟩ := segmented_ok hsg
      obtain ⟨o', ho', l, hl, hol⟩ := mem_segments hseg o ho
      have hdur : 0 ≤ o'.duration := hn _ (occurrence_duration hs hocc o' ho').1 _ (occurrence_duration hs hocc o' ho').2
      obtain ⟨_, hd0, _⟩ := segmentOne_bounds hl hdur o hol
      rw [← hqe]
      exact (clip_pos (te := te) htb o hd0).2.1
    · exfalso
      simp only [] at hqe
      have hx : dtDate b < x := by
        by_contra hx
        have : x = dtDate b := by omega
        subst this
        unfold combine at *; omega
      refine hfresh ⟨(combine (x - 1) te, combine (x - 1 + 1) 0),
        (hB _).2 (Or.inr ⟨x - 1, by omega, by omega, Or.inr rfl⟩), ?_, ?_⟩
      · simp only []; rw [← hqe]; unfold combine DAY at *; omega
      · simp only []; rw [← hqe]; unfold combine DAY at *; omega
    · simp only [] at hqe
      by_contra hlt
      rw [← hqe, dtTime_combine _ _ hte'.1 hte'.2] at hlt
      have hx0 : (combine x 0, combine x tb) ∈ B := (hB _).2 (Or.inr ⟨x, h1, h2, Or.inl rfl⟩)
      by_cases h0' : te = 0
      · subst h0'
        have hx : dtDate b < x := by
          by_contra hx
          have : x = dtDate b := by omega
          subst this
          unfold combine at *; omega
        refine hfresh ⟨(combine (x - 1) 0, combine (x - 1 + 1) 0),
          (hB _).2 (Or.inr ⟨x - 1, by omega, by omega, Or.inr rfl⟩), ?_, ?_⟩
        · simp only []; rw [← hqe]; unfold combine DAY at *; omega
        · simp only []; rw [← hqe]; unfold combine DAY at *; omega
      · refine hfresh ⟨_, hx0, ?_, ?_⟩
        · simp only []; rw [← hqe]; unfold combine DAY at *; omega
        · simp only []; rw [← hqe]; unfold combine DAY at *; omega
  · intro p hp
    rw [Option.mem_def] at hp
    obtain ⟨pl, hpl, hpl2⟩ := hlastp
    have hpm := List.mem_of_getLast? hp
    have hle := hends p hpm
    obtain ⟨l, hl⟩ := List.getLast?_eq_some_iff.1 hp
    rw [hl] at hpl hsep'
    rw [List.pairwise_append] at hsep'
    rcases List.mem_append.1 hpl with h | h
    · have := hsep'.2.2 pl h p (List.mem_singleton.2 rfl)
      have := hord p hpm
      omega
    · rw [List.mem_singleton] at h
      rw [← h]; exact hpl2

/-- The free periods cover exactly the instants of the days touched by the period that no blocked period covers. -/
theorem free_complement {s : Storage} (hs : s.WF) (hn : NoNegative s)
    {atts : List AttId} {b en tb te : Int} (htb : IsTime tb) (hte : IsTime te) (hbe : b < en)
    {F : List (Int × Int)} (h : s.getFreePeriods atts b en tb te none = .ok F) :
    ∃ R, s.getBlockedPeriods atts b en tb te = .ok R ∧
    (∀ t, Covered F t ↔ dtDate b ≤ dtDate t ∧ dtDate t ≤ lastDay en ∧ ¬ Covered R t) ∧
      ((0 < tb ∨ dtTime b = 0) → dtTime en = 0 → ∀ p ∈ F, p.1 < p.2) := by
  unfold Storage.getFreePeriods at h
  simp only [bind_ok] at h
  obtain ⟨R, hR, h⟩ := h
  injection h with h
  refine ⟨R, hR, ?_⟩
  have hord := C25_ordered_partial s hs hn atts b en tb te htb hte R hR
  have hsep := C25_separated s atts b en tb te R hR
  obtain ⟨f, rest, rfl, hf1, hf2, hrest, hlast⟩ := blocked_shape hs hn htb hte hbe hR
  have htb' := htb
  have hte' := hte
  unfold IsTime at htb' hte'
  have hends : (if en > combine (dtDate en) te then combine (dtDate en) te else en) ≤ combine (lastDay en + 1) 0 ∧
      (dtTime en = 0 → (if en > combine (dtDate en) te then combine (dtDate en) te else en) = combine (lastDay en + 1) 0) := by
    unfold lastDay
    split <;> split <;> (unfold combine dtDate dtTime DAY at *; omega)
  generalize hb0 : (if b < combine (dtDate b) tb then combine (dtDate b) tb else b) = b0 at *
  have hb1 : f.1 ≤ b0 ∧ ((0 < tb ∨ dtTime b = 0) → tb = 0 → b0 = f.1) := by
    rw [hf1, ← hb0]
    split <;> (unfold combine dtDate dtTime DAY at *; omega)
  unfold Separated at hsep
  rw [List.pairwise_cons] at hsep
  -- what the first block contributes
  have hskip : ∀ ends, ∃ pre : List (Int × Int), (∀ p ∈ pre, p.2 ≤ p.1) ∧ ((0 < tb ∨ dtTime b = 0) → pre = []) ∧
      freeLoop tb ends none b0 (f :: rest) = pre ++ freeLoop tb ends none f.2 rest := by
    intro ends
    obtain ⟨f1, f2⟩ := f
    simp only [] at hf1 hb1
    simp only [freeLoop]
    by_cases hc : dtTime f1 ≥ tb ∧ b0 ≠ f1 ∧ longEnough none (f1 - b0) = true
    · rw [if_pos hc]
      refine ⟨[(b0, f1)], ?_, ?_, rfl⟩
      · intro p hp
        rw [List.mem_singleton] at hp
        subst hp
        exact hb1.1
      · intro h0
        refine absurd (hb1.2 h0 ?_) hc.2.1
        have := hc.1
        rw [hf1, dtTime_combine _ _ (Int.le_refl _) (by decide)] at this
        omega
    · rw [if_neg hc]
      exact ⟨[], by simp, fun _ => rfl, rfl⟩
  obtain ⟨pre, hpre1, hpre2, hpre⟩ := hskip (if en > combine (dtDate en) te then combine (dtDate en) te else en)
  rw [hpre] at h
  obtain ⟨_, g2, g3⟩ := freeLoop_gaps tb _ (combine (lastDay en + 1) 0) hends.1 rest f.2 hsep.2
    (fun p hp => ⟨hord p (List.mem_cons_of_mem _ hp), hrest p hp, (hsep.1 p hp).1⟩) (by
      cases hr : rest.getLast? with
      | none =>
        simp only []
        rw [List.getLast?_eq_none_iff] at hr
        subst hr
        exact hlast f (by simp)
      | some p =>
        simp only []
        refine hlast p ?_
        rw [Option.mem_def, List.getLast?_cons, hr]; rfl)
  subst h
  refine ⟨fun t => ?_, fun hb h0 => by rw [hpre2 hb]; exact g3 (hends.2 h0)⟩
  have happ : ∀ L : List (Int × Int), Covered (pre ++ L) t ↔ Covered L t := by
    intro L
    constructor
    · rintro ⟨p, hp, hin⟩
      rcases List.mem_append.1 hp with h | h
      · have := hpre1 p h; unfold In at hin; omega
      · exact ⟨p, h, hin⟩
    · rintro ⟨p, hp, hin⟩
      exact ⟨p, List.mem_append_right _ hp, hin⟩
  rw [happ, g2]
  rw [covered_cons_iff]
  have hfle := hord f (List.mem_cons_self ..)
  have hlt : t < combine (lastDay en + 1) 0 ↔ dtDate t ≤ lastDay en := by
    generalize lastDay en = ld
    unfold combine dtDate DAY; omega
  have hge : f.1 ≤ t ↔ dtDate b ≤ dtDate t := by
    rw [hf1]; unfold combine dtDate DAY; omega
  rw [hlt]
  constructor
  · rintro ⟨h1, h2, h3⟩
    refine ⟨hge.1 (by omega), h2, ?_⟩
    rintro (h | h)
    · unfold In at h; omega
    · exact h3 h
  · rintro ⟨h1, h2, hnc⟩
    refine ⟨?_, h2, fun h => hnc (Or.inr h)⟩
    by_contra hx
    exact hnc (Or.inl ⟨hge.2 h1, by omega⟩)

/-- C29 in general: for every period, the free periods cover exactly the instants of the days touched by the
period that are inside the window and, if they lie in the period, when nobody is busy.  So the code returns
too much on the first and the last day, and never too little.  Inverted periods cover no instant; there are
none except for a first one if the window begins at midnight and the period does not, and a last one if the
period does not end at midnight. -/
theorem C29_general (s : Storage) (hs : s.WF) (hg : ∀ ev, Stored s ev → Regular ev) (hn : NoNegative s)
    (atts : List AttId) (b en tb te : Int) (htb : IsTime tb) (hte : IsTime te) (hbe : b < en)
    (F : List (Int × Int)) (h : s.getFreePeriods atts b en tb te none = .ok F) :
    (∀ t, Covered F t ↔ dtDate b ≤ dtDate t ∧ t < (if dtTime en = 0 then en else combine (dtDate en + 1) 0) ∧
        InWindow tb te t ∧ (b ≤ t → t < en → ∀ a ∈ atts, ¬ BusyAt s a t)) ∧
      ((0 < tb ∨ dtTime b = 0) → dtTime en = 0 → ∀ p ∈ F, p.1 < p.2) := by
  obtain ⟨R, hR, hF, hpos⟩ := free_complement hs hn htb hte hbe h
  have hev := blocked_everywhere s hs hg atts b en tb te htb hte R hR
  refine ⟨fun t => ?_, hpos⟩
  have hlt : t < (if dtTime en = 0 then en else combine (dtDate en + 1) 0) ↔ dtDate t ≤ lastDay en := by
    unfold lastDay
    split <;> (unfold combine dtDate dtTime DAY at *; omega)
  rw [hF, hev t, hlt]
  constructor
  · rintro ⟨h1, h2, h3⟩
    have hw : InWindow tb te t := by
      by_contra hw
      exact h3 (Or.inl ⟨h1, h2, hw⟩)
    exact ⟨h1, h2, hw, fun hbt hte2 a ha hbusy => h3 (Or.inr ⟨hbt, hte2, hw, a, ha, hbusy⟩)⟩
  · rintro ⟨h1, h2, hw, h4⟩
    refine ⟨h1, h2, ?_⟩
    rintro (⟨_, _, h⟩ | ⟨k1, k2, _, a, ha, hbusy⟩)
    · exact h hw
    · exact h4 k1 k2 a ha hbusy

/-- C29: for periods that begin on or before the begin of the window of their first day and end at
midnight, the free periods are exactly the instants of the period inside the window when nobody is busy,
and none is empty or inverted.  Missing: periods beginning or ending at other times, for which the
statement is false (`C29_begin_counterexample`, `C29_end_counterexample`, `C29_general`), stores with negative
durations (`C31_negative_counterexample`), or with rules as in C26. -/
theorem C29_free_partial (s : Storage) (hs : s.WF) (hg : ∀ ev, Stored s ev → Regular ev) (hn : NoNegative s)
    (atts : List AttId) (b en tb te : Int) (htb : IsTime tb) (hte : IsTime te) (hbe : b < en)
    (hb : dtTime b ≤ tb) (hen : dtTime en = 0 ∨ te ≤ dtTime en) (F : List (Int × Int))
    (h : s.getFreePeriods atts b en tb te none = .ok F) :
    (∀ t, Covered F t ↔ b ≤ t ∧ t < en ∧ InWindow tb te t ∧ ∀ a ∈ atts, ¬ BusyAt s a t) ∧
      (dtTime en = 0 → ∀ p ∈ F, p.1 < p.2) := by
  obtain ⟨g1, g2⟩ := C29_general s hs hg hn atts b en tb te htb hte hbe F h
  have htb' := htb
  have hte' := hte
  unfold IsTime at htb' hte'
  refine ⟨fun t => ?_, g2 (by unfold dtTime DAY at *; omega)⟩
  rw [g1 t]
  constructor
  · rintro ⟨h1, h2, hw, h4⟩
    have hw' := hw
    unfold InWindow at hw'
    have hbt : b ≤ t := by unfold dtDate dtTime DAY at *; omega
    have hte2 : t < en := by
      split at h2
      · exact h2
      · rcases hen with h0 | h0
        · contradiction
        · unfold combine dtDate dtTime DAY at *; omega
    exact ⟨hbt, hte2, hw, h4 hbt hte2⟩
  · rintro ⟨h1, h2, hw, h4⟩
    refine ⟨by unfold dtDate DAY; omega, ?_, hw, fun _ _ => h4⟩
    split
    · exact h2
    · unfold combine dtDate dtTime DAY at *; omega

/-- C29, concrete: three days of Alice and Bob. -/
theorem sample_free : Sample.store.getFreePeriods ["alice", "bob"] Sample.day (Sample.day + 3 * DAY)
      (8 * Sample.HOUR) (21 * Sample.HOUR) none =
    .ok [(Sample.day + 8 * Sample.HOUR, Sample.day + 10 * Sample.HOUR),
         (Sample.day + 12 * Sample.HOUR, Sample.day + 20 * Sample.HOUR),
         (Sample.day + 56 * Sample.HOUR, Sample.day + 69 * Sample.HOUR)] := by decide +kernel

example : dtTime Sample.day ≤ 8 * Sample.HOUR ∧ dtTime (Sample.day + 3 * DAY) = 0 := by decide +kernel

/-- C29 is false for a period that begins inside the window: asked from 11:00, the answer begins at 8:00. -/
theorem C29_begin_counterexample :
    (freshWorld "st" "host").store.getFreePeriods ["alice"] (Sample.day + 11 * Sample.HOUR) (Sample.day + DAY)
      (8 * Sample.HOUR) (17 * Sample.HOUR) none =
    .ok [(Sample.day + 8 * Sample.HOUR, Sample.day + 17 * Sample.HOUR)] := by
  decide +kernel

/-- C29 is false for a period that ends inside the window: asked until 11:00, the answer extends to 17:00,
followed by an inverted period. -/
theorem C29_end_counterexample :
    (freshWorld "st" "host").store.getFreePeriods ["alice"] Sample.day (Sample.day + 11 * Sample.HOUR)
      (8 * Sample.HOUR) (17 * Sample.HOUR) none =
    .ok [(Sample.day + 8 * Sample.HOUR, Sample.day + 17 * Sample.HOUR),
         (Sample.day + 24 * Sample.HOUR, Sample.day + 11 * Sample.HOUR)] := by
  decide +kernel

/-! ### C30 -/

/-- C30: a minimal duration only filters the answer. -/
theorem C30_minimal_duration (s : Storage) (atts : List AttId) (b en tb te m : Int) :
    s.getFreePeriods atts b en tb te (some m) =
      (s.getFreePeriods atts b en tb te none).map (fun F => F.filter (fun p => decide (m ≤ p.2 - p.1))) := by
  unfold Storage.getFreePeriods
  cases s.getBlockedPeriods atts b en tb te with
  | error x => rfl
  | ok R =>
    rw [ok_bind, ok_bind]
    simp only [freeLoop_filter]
    rfl

/-- C30, concrete: at least three hours. -/
example : Sample.store.getFreePeriods ["alice", "bob"] Sample.day (Sample.day + 3 * DAY)
      (8 * Sample.HOUR) (21 * Sample.HOUR) (some (3 * Sample.HOUR)) =
    .ok [(Sample.day + 12 * Sample.HOUR, Sample.day + 20 * Sample.HOUR),
         (Sample.day + 56 * Sample.HOUR, Sample.day + 69 * Sample.HOUR)] := by decide +kernel

/-! ### C31 -/

/-- C31: a free period, of whatever minimal duration, has no instant in common with an occurrence of an
event that blocks one of the attendees, for periods that begin on or before the begin of the window of
their first day and end at midnight or after the end of the window.  Missing: other periods, for which the
statement is false (`C31_begin_counterexample`, `C31_end_counterexample`). -/
theorem C31_bookable_partial (s : Storage) (hs : s.WF) (hg : ∀ ev, Stored s ev → Regular ev) (hn : NoNegative s)
    (atts : List AttId) (b en tb te : Int) (htb : IsTime tb) (hte : IsTime te) (hbe : b < en)
    (hb : dtTime b ≤ tb) (hen : dtTime en = 0 ∨ te ≤ dtTime en) (md : Option Int) (F : List (Int × Int))
    (h : s.getFreePeriods atts b en tb te md = .ok F) :
    ∀ p ∈ F, ∀ t, In t p → ∀ a ∈ atts, ¬ BusyAt s a t := by
  have key : ∀ F, s.getFreePeriods atts b en tb te none = .ok F →
      ∀ p ∈ F, ∀ t, In t p → ∀ a ∈ atts, ¬ BusyAt s a t := by
    intro F h p hp t ht a ha
    have := (C29_free_partial s hs hg hn atts b en tb te htb hte hbe hb hen F h).1 t
    exact (this.1 ⟨p, hp, ht⟩).2.2.2 a ha
  cases md with
  | none => exact key F h
  | some m =>
    rw [C30_minimal_duration] at h
    cases hF : s.getFreePeriods atts b en tb te none with
    | error x => rw [hF] at h; cases h
    | ok F' =>
      rw [hF] at h
      injection h with h
      subst h
      intro p hp
      exact key F' hF p (List.mem_filter.1 hp).1

/-- C31 in general: whatever the period, a free period has no instant of the period in common with an
occurrence of an event that blocks one of the attendees. -/
theorem C31_general (s : Storage) (hs : s.WF) (hg : ∀ ev, Stored s ev → Regular ev) (hn : NoNegative s)
    (atts : List AttId) (b en tb te : Int) (htb : IsTime tb) (hte : IsTime te) (hbe : b < en)
    (md : Option Int) (F : List (Int × Int)) (h : s.getFreePeriods atts b en tb te md = .ok F) :
    ∀ p ∈ F, ∀ t, In t p → b ≤ t → t < en → ∀ a ∈ atts, ¬ BusyAt s a t := by
  have key : ∀ F, s.getFreePeriods atts b en tb te none = .ok F →
      ∀ p ∈ F, ∀ t, In t p → b ≤ t → t < en → ∀ a ∈ atts, ¬ BusyAt s a t := by
    intro F h p hp t ht h1 h2 a ha
    have := (C29_general s hs hg hn atts b en tb te htb hte hbe F h).1 t
    exact (this.1 ⟨p, hp, ht⟩).2.2.2 h1 h2 a ha
  cases md with
  | none => exact key F h
  | some m =>
    rw [C30_minimal_duration] at h
    cases hF : s.getFreePeriods atts b en tb te none with
    | error x => rw [hF] at h; cases h
    | ok F' =>
      rw [hF] at h
      injection h with h
      subst h
      intro p hp
      exact key F' hF p (List.mem_filter.1 hp).1

/-- C31 is false for a period beginning inside the window: the meeting of Alice from 10 to 12 lies in a
"free" period. -/
theorem C31_begin_counterexample :
    Sample.store.getFreePeriods ["alice"] (Sample.day + 13 * Sample.HOUR) (Sample.day + DAY)
      (8 * Sample.HOUR) (17 * Sample.HOUR) none =
    .ok [(Sample.day + 8 * Sample.HOUR, Sample.day + 17 * Sample.HOUR)] ∧
    BusyAt Sample.store "alice" (Sample.day + 11 * Sample.HOUR) := by
  refine ⟨by decide +kernel, ?_⟩
  have := (C26_blocked_partial Sample.store Sample.store_wf sample_regular ["alice"] Sample.day
    (Sample.day + DAY) (8 * Sample.HOUR) (17 * Sample.HOUR) (by unfold IsTime; decide +kernel)
    (by unfold IsTime; decide +kernel) _ (show _ = Except.ok
    [(Sample.day, Sample.day + 8 * Sample.HOUR), (Sample.day + 10 * Sample.HOUR, Sample.day + 12 * Sample.HOUR),
     (Sample.day + 17 * Sample.HOUR, Sample.day + 24 * Sample.HOUR)] by decide +kernel)
    (Sample.day + 11 * Sample.HOUR) (by decide) (by decide)).1 (by unfold Covered In; decide +kernel)
  rcases this with h | ⟨a, ha, h⟩
  · exact absurd (by unfold InWindow; decide +kernel) h
  · rw [List.mem_singleton] at ha; rwa [ha] at h

/-- C31 is false for a period ending inside the window: asked until 9:00, the answer extends over the
meeting. -/
theorem C31_end_counterexample :
    Sample.store.getFreePeriods ["alice"] Sample.day (Sample.day + 9 * Sample.HOUR)
      (8 * Sample.HOUR) (17 * Sample.HOUR) none =
    .ok [(Sample.day + 8 * Sample.HOUR, Sample.day + 17 * Sample.HOUR),
         (Sample.day + 24 * Sample.HOUR, Sample.day + 9 * Sample.HOUR)] := by decide +kernel

/-! ### C59 for these queries -/

/-- C59: blocked and free periods are returned for periods ending by the year 2100, for every store of safe
events. -/
theorem C59_blocked_return_partial (s : Storage) (hs : s.WF) (hg : ∀ ev, Stored s ev → Safe ev)
    (atts : List AttId) (b e tb te : Int) (hb : dtInRange b = true) (hr : dtInRange e = true)
    (hbe : dtDate b ≤ dtDate e) (h2 : 2 ≤ dtDate e) (hy : dyear (dtDate e) ≤ 2100) :
    (∃ R, s.getBlockedPeriods atts b e tb te = .ok R) ∧ ∀ md, ∃ F, s.getFreePeriods atts b e tb te md = .ok F := by
  have hmax : dtDate e < MAXORD := by
    have h1 := (dyear_bounds (dtDate e)).2
    have h2 := daysBeforeYear_mono (y := dyear (dtDate e) + 1) (y' := 2101) (by omega)
    have : daysBeforeYear 2101 < MAXORD := by decide
    omega
  have hR : ∃ R, s.getBlockedPeriods atts b e tb te = .ok R := by
    refine getBlockedPeriods_returns (fun a ha => ?_) hb hmax (fun _ => h2)
    obtain ⟨occs, hocc⟩ := C59_queries_return_partial s hs hg b e hr hy (some { attendees := some [a] })
    obtain ⟨segs, hsg⟩ := C21_segments_return b e occs hb hr (by omega) hmax (by
      intro o ho
      obtain ⟨hc, rfl⟩ := getOccurrences_ok.1 hocc
      rw [List.mem_flatMap] at ho
      obtain ⟨ev, hev, ho⟩ := ho
      unfold Event.occs at ho
      rw [List.mem_filter, List.mem_map] at ho
      obtain ⟨⟨d, hd, rfl⟩, hraw⟩ := ho
      obtain ⟨dur, hdur, hrange⟩ := (hc ev hev).ends d hd
      have hsafe := hg ev ((mem_matching hs _ ev).1 hev).1
      unfold rawShown at hraw
      rw [decide_eq_true_eq] at hraw
      have hdd : dtDate ev.dtstart ≤ d := by
        unfold Event.dates at hd
        cases hrec : ev.recurrence with
        | none => rw [hrec, List.mem_singleton] at hd; omega
        | some r =>
          rw [hrec] at hd
          simp only [] at hd
          exact (C14_increasing r (hsafe.rule r hrec).1 ev.dtstart hsafe.start (some (dtDate e)) r.fuel).2 d (by
            rwa [apply_fst] at hd)
      have hst := hsafe.start
      have ht := dtTime_range ev.dtstart
      refine ⟨?_, ?_, ?_⟩
      · rw [dtInRange_iff] at hst ⊢
        have := hraw.2
        simp only [Event.at] at this ⊢
        rw [dtInRange_iff] at hr
        unfold combine dtDate dtTime DAY at *; omega
      · have := hraw.2
        simp only [Event.at] at this ⊢
        unfold combine dtDate dtTime DAY at *; omega
      · simp only [Event.at]
        rw [hdur]; exact hrange)
    refine ⟨segs, ?_, segments_range hsg⟩
    unfold Storage.getOccurrencesSegmented
    rw [hocc, ok_bind]
    exact hsg
  refine ⟨hR, fun md => ?_⟩
  obtain ⟨R, hR⟩ := hR
  unfold Storage.getFreePeriods
  exact ⟨_, by rw [hR, ok_bind]⟩

end CalCore
