import Verif.Props.Segments
import Verif.Props.Blocked
import Verif.Props.Errors
/- Queries that look at days at the ends of the calendar (C127). -/
namespace CalCore
open Spec

namespace Spec

/-- 9999-12-31 00:00. -/
def lastMidnight : Int := 3652059 * 86400000000

/-- 0001-01-01 00:00. -/
def firstMidnight : Int := 86400000000

/-- Splitting an occurrence at the midnights needs the midnight after 9999-12-31: the part in the period begins on this
day, or reaches it. -/
def NeedsNextDay (b en : Int) (start dur : Int) : Prop :=
  lastMidnight ≤ b ∨ lastMidnight ≤ start ∨ lastMidnight ≤ en ∧ lastMidnight ≤ start + dur

end Spec

theorem next_midnight {x : Int} (h : dtInRange x = true) :
    dtAdd (combine (dtDate x) 0) DAY = if lastMidnight ≤ x then raise .OverflowError else .ok (combine (dtDate x) 0 + DAY) := by
  have hx := (dtInRange_iff x).1 h
  have hmx : (MAXORD : Int) = 3652059 := rfl
  unfold dtAdd
  by_cases hl : lastMidnight ≤ x
  · rw [if_pos hl, if_neg]
    rw [dtInRange_iff]
    unfold lastMidnight at hl
    unfold combine dtDate DAY at *; omega
  · rw [if_neg hl, if_pos]
    rw [dtInRange_iff]
    unfold lastMidnight at hl
    unfold combine dtDate DAY at *; omega

theorem borderLoop_error {en y : Int} (fuel : Nat) (x : Int) (hx : dtInRange x = true) (hf : en / DAY - x / DAY < fuel) :
    (lastMidnight ≤ x ∨ lastMidnight ≤ en ∧ lastMidnight ≤ y → borderLoop en y (fuel + 1) x = raise .OverflowError) ∧
    (¬ (lastMidnight ≤ x ∨ lastMidnight ≤ en ∧ lastMidnight ≤ y) → ∃ l, borderLoop en y (fuel + 1) x = .ok l) := by
  induction fuel generalizing x with
  | zero =>
    unfold borderLoop
    rw [next_midnight hx]
    have hgt : combine (dtDate x) 0 + DAY > en := by
      unfold combine dtDate DAY at *; omega
    by_cases hl : lastMidnight ≤ x
    · rw [if_pos hl]
      exact ⟨fun _ => rfl, fun h => absurd (Or.inl hl) h⟩
    · rw [if_neg hl, ok_bind, if_pos (Or.inl hgt)]
      refine ⟨?_, fun _ => ⟨[], rfl⟩⟩
      rintro (h | ⟨h, _⟩)
      · exact absurd h hl
      · exfalso
        unfold lastMidnight at *
        unfold combine dtDate DAY at *; omega
  | succ n ih =>
    unfold borderLoop
    rw [next_midnight hx]
    by_cases hl : lastMidnight ≤ x
    · rw [if_pos hl]
      exact ⟨fun _ => rfl, fun h => absurd (Or.inl hl) h⟩
    · rw [if_neg hl, ok_bind]
      have hle : combine (dtDate x) 0 + DAY ≤ lastMidnight := by
        unfold lastMidnight at *
        unfold combine dtDate DAY at *; omega
      have hr : dtInRange (combine (dtDate x) 0 + DAY) = true := by
        have h1 := (dtInRange_iff x).1 hx
        rw [dtInRange_iff]
        have hmx : (MAXORD : Int) = 3652059 := rfl
        unfold lastMidnight at *
        unfold combine dtDate DAY at *; omega
      by_cases hc : combine (dtDate x) 0 + DAY > en ∨ combine (dtDate x) 0 + DAY > y
      · rw [if_pos hc]
        refine ⟨?_, fun _ => ⟨[], rfl⟩⟩
        rintro (h | ⟨h, h'⟩)
        · exact absurd h hl
        · omega
      · rw [if_neg hc]
        obtain ⟨i1, i2⟩ := ih (combine (dtDate x) 0 + DAY) hr (by unfold combine dtDate DAY at *; omega)
        constructor
        · rintro (h | h)
          · exact absurd h hl
          · rw [i1 (Or.inr h)]; rfl
        · intro h
          obtain ⟨l, hl'⟩ := i2 (by
            rintro (h' | h')
            · exact h (Or.inr ⟨by omega, by omega⟩)
            · exact h (Or.inr h'))
          exact ⟨_, by rw [hl', ok_bind]⟩

theorem segmentOne_error {α : Type} {b en : Int} {occ : Occurrence α}
    (hb : dtInRange b = true) (he : dtInRange en = true) (hx : dtInRange occ.dtstart = true)
    (hy : dtInRange (occ.dtstart + occ.duration) = true) (hs : b < occ.dtstart + occ.duration) :
    (NeedsNextDay b en occ.dtstart occ.duration → segmentOne b en occ = raise .OverflowError) ∧
    (¬ NeedsNextDay b en occ.dtstart occ.duration → ∃ l, segmentOne b en occ = .ok l) := by
  unfold segmentOne
  simp only []
  have hya : dtAdd occ.dtstart occ.duration = .ok (occ.dtstart + occ.duration) := dtAdd_ok.2 ⟨hy, rfl⟩
  rw [hya, ok_bind]
  have hlo : dtInRange (if occ.dtstart < b then b else occ.dtstart) = true := by split <;> assumption
  obtain ⟨i1, i2⟩ := borderLoop_error (en := en) (y := occ.dtstart + occ.duration)
    ((en / DAY - (if occ.dtstart < b then b else occ.dtstart) / DAY).toNat + 1) _ hlo (by omega)
  have hiff : NeedsNextDay b en occ.dtstart occ.duration ↔
      lastMidnight ≤ (if occ.dtstart < b then b else occ.dtstart) ∨ lastMidnight ≤ en ∧ lastMidnight ≤ occ.dtstart + occ.duration := by
    unfold NeedsNextDay
    split <;> omega
  rw [hiff]
  constructor
  · intro h
    rw [i1 h]; rfl
  · intro h
    obtain ⟨inner, hi⟩ := i2 h
    rw [hi, ok_bind]
    have hw := borderLoop_walk _ _ _ hi
    rw [bordersOf_eq hw, List.reverse_append, List.reverse_singleton, List.singleton_append]
    refine ⟨_, popLoop_ok.2 ⟨?_, rfl⟩⟩
    rw [revPairs_eq]
    intro p hp
    rw [List.mem_reverse] at hp
    obtain ⟨h1, h2, h3⟩ := lo_le (x0 := occ.dtstart) (b := b) _ rfl
    have hbd := segPairs_bounds hw h1 h2 h3 p hp
    have hhi : dtInRange (if en < occ.dtstart + occ.duration then en else occ.dtstart + occ.duration) = true := by
      split <;> assumption
    generalize (if occ.dtstart < b then b else occ.dtstart) = lo at *
    generalize (if en < occ.dtstart + occ.duration then en else occ.dtstart + occ.duration) = hi at *
    by_cases hle : lo ≤ hi
    · have := hbd.2.2.1 hle
      rw [dtInRange_iff] at *
      omega
    · have : inner = [] := by
        cases inner with
        | nil => rfl
        | cons a r => obtain ⟨ha, hb', _⟩ := hw; omega
      subst this
      rw [segPairs, List.mem_singleton] at hp
      subst hp
      exact hhi

/-- C127: splitting shown occurrences raises OverflowError if one of them needs the midnight after 9999-12-31, and
returns otherwise. -/
theorem C127_segments {α : Type} (b en : Int) (hb : dtInRange b = true) (he : dtInRange en = true)
    (L : List (Occurrence α)) (hL : ∀ o ∈ L, dtInRange o.dtstart = true ∧ dtInRange (o.dtstart + o.duration) = true ∧
      b < o.dtstart + o.duration) :
    ((∃ o ∈ L, NeedsNextDay b en o.dtstart o.duration) → segmentOccurrences b en L = raise .OverflowError) ∧
    ((∀ o ∈ L, ¬ NeedsNextDay b en o.dtstart o.duration) → ∃ segs, segmentOccurrences b en L = .ok segs) := by
  induction L with
  | nil => exact ⟨(by rintro ⟨o, ho, _⟩; cases ho), fun _ => ⟨[], rfl⟩⟩
  | cons o rest ih =>
    obtain ⟨h1, h2, h3⟩ := hL o (List.mem_cons_self ..)
    obtain ⟨i1, i2⟩ := ih (fun o ho => hL o (List.mem_cons_of_mem _ ho))
    obtain ⟨j1, j2⟩ := segmentOne_error hb he h1 h2 h3
    unfold segmentOccurrences
    constructor
    · rintro ⟨x, hx, hn⟩
      by_cases ho : NeedsNextDay b en o.dtstart o.duration
      · rw [j1 ho]; rfl
      · obtain ⟨l, hl⟩ := j2 ho
        rw [hl, ok_bind, i1]
        · rfl
        · rcases List.mem_cons.1 hx with rfl | hx
          · exact absurd hn ho
          · exact ⟨x, hx, hn⟩
    · intro h
      obtain ⟨l, hl⟩ := j2 (h o (List.mem_cons_self ..))
      obtain ⟨segs, hs⟩ := i2 (fun o ho => h o (List.mem_cons_of_mem _ ho))
      exact ⟨l ++ segs, by rw [hl, ok_bind, hs, ok_bind]⟩

/-- The occurrences a query returns are in the calendar. -/
theorem occurrence_inRange {s : Storage} (hs : s.WF) (hg : ∀ ev, Stored s ev → Regular ev) {b en : Int}
    (he : dtInRange en = true) {c : Option Criteria} {l : List (Occurrence Event)}
    (h : s.getOccurrences (some b) (some en) c = .ok l) (o : Occurrence Event) (ho : o ∈ l) :
    dtInRange o.dtstart = true ∧ dtInRange (o.dtstart + o.duration) = true ∧ b < o.dtstart + o.duration := by
  obtain ⟨hc, rfl⟩ := getOccurrences_ok.1 h
  rw [List.mem_flatMap] at ho
  obtain ⟨ev, hev, ho⟩ := ho
  unfold Event.occs at ho
  rw [List.mem_filter, List.mem_map] at ho
  obtain ⟨⟨d, hd, rfl⟩, hraw⟩ := ho
  obtain ⟨dur, hdur, hrange⟩ := (hc ev hev).ends d hd
  obtain ⟨hst, hrule⟩ := hg ev ((mem_matching hs _ ev).1 hev).1
  unfold rawShown at hraw
  rw [decide_eq_true_eq] at hraw
  have hdd : dtDate ev.dtstart ≤ d := by
    unfold Event.dates at hd
    cases hrec : ev.recurrence with
    | none => rw [hrec, List.mem_singleton] at hd; omega
    | some r =>
      rw [hrec] at hd
      simp only [] at hd
      exact (C14_increasing r (hrule r hrec).1 ev.dtstart hst (some (dtDate en)) r.fuel).2 d (by
        rwa [apply_fst] at hd)
  have ht := dtTime_range ev.dtstart
  refine ⟨?_, ?_, hraw.1⟩
  · rw [dtInRange_iff] at hst ⊢
    have := hraw.2
    simp only [Event.at] at this ⊢
    rw [dtInRange_iff] at he
    unfold combine dtDate dtTime DAY at *; omega
  · simp only [Event.at]
    rw [hdur]; exact hrange

/-- C127: a query by days raises what the query for occurrences raises; if that returns, it raises OverflowError if an
occurrence of a matching event in the period needs the midnight after 9999-12-31, and returns otherwise. -/
theorem C127_segmented (s : Storage) (hs : s.WF) (hg : ∀ ev, Stored s ev → Regular ev) (b en : Int)
    (hb : dtInRange b = true) (he : dtInRange en = true) (c : Option Criteria) :
    (∀ f, s.getOccurrences (some b) (some en) c = .error f → s.getOccurrencesSegmented (some b) (some en) c = .error f) ∧
    ∀ l, s.getOccurrences (some b) (some en) c = .ok l →
      ((∃ ev x dur, Stored s ev ∧ Matches (c.getD {}) ev ∧ StartsAt ev x ∧ ev.duration = some dur ∧ b < x + dur ∧ x < en ∧
          NeedsNextDay b en x dur) → s.getOccurrencesSegmented (some b) (some en) c = .error (.py .OverflowError)) ∧
      ((¬ ∃ ev x dur, Stored s ev ∧ Matches (c.getD {}) ev ∧ StartsAt ev x ∧ ev.duration = some dur ∧ b < x + dur ∧ x < en ∧
          NeedsNextDay b en x dur) → ∃ segs, s.getOccurrencesSegmented (some b) (some en) c = .ok segs) := by
  unfold Storage.getOccurrencesSegmented
  simp only []
  refine ⟨fun f h => by rw [h]; rfl, fun l h => ?_⟩
  rw [h, ok_bind]
  obtain ⟨h1, h2⟩ := C127_segments b en hb he l (occurrence_inRange hs hg he h)
  have hm := C24_getOccurrences s hs c hg b en l h
  constructor
  · rintro ⟨ev, x, dur, g1, g2, g3, g4, g5, g6, g7⟩
    exact h1 ⟨⟨x, dur, ev⟩, (hm _).2 ⟨g1, g2, g3, g4, g5, g6⟩, g7⟩
  · intro hn
    refine h2 (fun o ho hneed => hn ?_)
    obtain ⟨g1, g2, g3, g4, g5, g6⟩ := (hm o).1 ho
    exact ⟨o.original, o.dtstart, o.duration, g1, g2, g3, g4, g5, g6, hneed⟩

theorem windowLoop_last {tb te : Int} (n : Nat) (d : Int) (h1 : 1 ≤ d) (hd : d ≤ MAXORD) (hn : MAXORD - d < n) :
    windowLoop tb te MAXORD (n + 1) d = raise .OverflowError := by
  induction n generalizing d with
  | zero => omega
  | succ n ih =>
    unfold windowLoop
    rw [if_pos hd]
    unfold dateAdd
    by_cases hm : d = MAXORD
    · rw [if_neg (by rw [dateInRange_iff]; omega)]
      rfl
    · rw [if_pos ((dateInRange_iff _).2 (by omega)), ok_bind, ih (d + 1) (by omega) (by omega) (by omega)]
      rfl

/-- The queries of the attendees, in order: the first to raise, or none. -/
def firstFault (s : Storage) (b en : Int) : List AttId → Option Fault
  | [] => none
  | a :: rest =>
    match s.getOccurrencesSegmented (some b) (some en) (some { attendees := some [a] }) with
    | .error f => some f
    | .ok _ => firstFault s b en rest

theorem attendeeBlocks_fault {s : Storage} {b en tb te : Int} (atts : List AttId) (acc : List (Int × Int)) :
    (∀ f, firstFault s b en atts = some f → s.attendeeBlocks b en tb te atts acc = .error f) ∧
    (firstFault s b en atts = none → ∃ acc', s.attendeeBlocks b en tb te atts acc = .ok acc') := by
  induction atts generalizing acc with
  | nil => exact ⟨(fun f h => by cases h), fun _ => ⟨acc, rfl⟩⟩
  | cons a rest ih =>
    unfold Storage.attendeeBlocks firstFault
    cases hq : s.getOccurrencesSegmented (some b) (some en) (some { attendees := some [a] }) with
    | error g =>
      refine ⟨fun f h => ?_, fun h => by cases h⟩
      injection h with h
      rw [h]; rfl
    | ok segs =>
      rw [ok_bind]
      simp only []
      obtain ⟨occs, _, hseg⟩ := segmented_ok hq
      obtain ⟨acc1, h1⟩ := blockLoop_returns (b := b) (en := en) (tb := tb) (te := te) (a := a) (segments_range hseg) acc
      rw [h1, ok_bind]
      exact ih acc1

/-- C127: blocked periods raise the first exception of the queries of the attendees by days; if these all return, they
raise OverflowError if the period ends at 0001-01-01 00:00 or after 9999-12-31 00:00, and are returned otherwise. -/
theorem C127_blocked (s : Storage) (atts : List AttId) (b en tb te : Int) (hb : dtInRange b = true)
    (he : dtInRange en = true) :
    (∀ before a after f, atts = before ++ a :: after →
      (∀ a' ∈ before, ∃ segs, s.getOccurrencesSegmented (some b) (some en) (some { attendees := some [a'] }) = .ok segs) →
      s.getOccurrencesSegmented (some b) (some en) (some { attendees := some [a] }) = .error f →
      s.getBlockedPeriods atts b en tb te = .error f) ∧
    ((∀ a ∈ atts, ∃ segs, s.getOccurrencesSegmented (some b) (some en) (some { attendees := some [a] }) = .ok segs) →
      ((en = firstMidnight ∨ lastMidnight < en) → s.getBlockedPeriods atts b en tb te = .error (.py .OverflowError)) ∧
      (¬ (en = firstMidnight ∨ lastMidnight < en) → ∃ R, s.getBlockedPeriods atts b en tb te = .ok R)) := by
  have hbr := (dtInRange_iff _).1 hb
  have her := (dtInRange_iff _).1 he
  have hmx : (MAXORD : Int) = 3652059 := rfl
  constructor
  · rintro before a after f rfl hbef ha
    have : firstFault s b en (before ++ a :: after) = some f := by
      induction before with
      | nil => rw [List.nil_append]; unfold firstFault; rw [ha]
      | cons x rest ih =>
        obtain ⟨segs, hx⟩ := hbef x (List.mem_cons_self ..)
        rw [List.cons_append]; unfold firstFault; rw [hx]
        exact ih (fun a' h => hbef a' (List.mem_cons_of_mem _ h))
    rw [getBlockedPeriods_eq, (attendeeBlocks_fault _ _).1 f this]
    rfl
  · intro hall
    have : firstFault s b en atts = none := by
      induction atts with
      | nil => rfl
      | cons x rest ih =>
        obtain ⟨segs, hx⟩ := hall x (List.mem_cons_self ..)
        unfold firstFault; rw [hx]
        exact ih (fun a' h => hall a' (List.mem_cons_of_mem _ h))
    obtain ⟨B, hB⟩ := (attendeeBlocks_fault (tb := tb) (te := te) atts []).2 this
    rw [getBlockedPeriods_eq, hB, ok_bind]
    constructor
    · rintro (h | h)
      · rw [if_pos (by rw [h]; decide)]
        have : dateAdd (dtDate en) (-1) = raise .OverflowError := by rw [h]; decide
        rw [this]; rfl
      · have hlast : lastMidnight = 3652059 * 86400000000 := rfl
        have h1 : dtDate en = MAXORD := by
          rw [hmx] at her ⊢
          unfold dtDate DAY at *; omega
        rw [if_neg (by unfold dtTime dtDate DAY at *; omega), ok_bind, h1]
        rw [windowLoop_last (n := (MAXORD - dtDate b).toNat + 1) (dtDate b) (by unfold dtDate DAY at *; omega)
          (by unfold dtDate DAY at *; omega) (by omega)]
        rfl
    · intro hn
      have hend : ∃ endD, (if dtTime en = 0 then dateAdd (dtDate en) (-1) else Except.ok (dtDate en)) = .ok endD ∧ endD < MAXORD := by
        unfold firstMidnight lastMidnight at hn
        split
        · rename_i ht
          refine ⟨dtDate en + -1, dateAdd_ok.2 ⟨(dateInRange_iff _).2 ?_, rfl⟩, ?_⟩ <;>
            (unfold dtDate dtTime DAY at *; omega)
        · rename_i ht
          refine ⟨_, rfl, ?_⟩
          unfold dtDate dtTime DAY at *; omega
      obtain ⟨endD, hend, hm⟩ := hend
      have hb1 := (dateInRange_iff _).1 (dtDate_range hb)
      rcases windowLoop_returns (tb := tb) (te := te) hm ((endD - dtDate b).toNat + 2) (dtDate b) (by omega) with h | ⟨W, hW⟩
      · exact absurd h (windowLoop_ne_diverge _ _ _ _)
      · refine ⟨removeOverlaps (B ++ W), ?_⟩
        rw [hend, ok_bind, hW, ok_bind]

/-- C127: free periods are returned if and only if the blocked periods are, and raise the same exceptions. -/
theorem C127_free (s : Storage) (atts : List AttId) (b en tb te : Int) (md : Option Int) :
    (∀ f, s.getFreePeriods atts b en tb te md = .error f ↔ s.getBlockedPeriods atts b en tb te = .error f) ∧
    ((∃ F, s.getFreePeriods atts b en tb te md = .ok F) ↔ ∃ R, s.getBlockedPeriods atts b en tb te = .ok R) := by
  unfold Storage.getFreePeriods
  cases h : s.getBlockedPeriods atts b en tb te with
  | error g =>
    refine ⟨fun f => Iff.rfl, ?_⟩
    constructor <;> (rintro ⟨x, hx⟩; cases hx)
  | ok R =>
    rw [ok_bind]
    refine ⟨fun f => ?_, fun _ => ⟨R, rfl⟩, fun _ => ⟨_, rfl⟩⟩
    constructor <;> (intro hx; cases hx)

namespace Sample

/-- A meeting on 9999-12-31 from 10 to 11, and one the day before from 10 to 11. -/
def lastDays : Storage :=
  ((freshWorld "st" "host").run
    [.create 0 (some "m") { dtstart := lastMidnight + 10 * HOUR, duration := some HOUR, organizer := some "alice" },
     .create 0 (some "n") { dtstart := lastMidnight - 14 * HOUR, duration := some HOUR, organizer := some "bob" }]).store

end Sample

/-- C127, concrete: the occurrences of 9999-12-31 are returned, but not by days; of the day before, also by days. -/
example :
    (∀ ev, Stored Sample.lastDays ev → Regular ev) ∧
    NeedsNextDay (lastMidnight - DAY) (lastMidnight + 12 * Sample.HOUR) (lastMidnight + 10 * Sample.HOUR) Sample.HOUR ∧
    (Sample.lastDays.getOccurrences (some (lastMidnight - DAY)) (some (lastMidnight + 12 * Sample.HOUR)) none).map
      (fun l => l.map (·.dtstart)) = .ok [lastMidnight + 10 * Sample.HOUR, lastMidnight - 14 * Sample.HOUR] ∧
    (Sample.lastDays.getOccurrencesSegmented (some (lastMidnight - DAY)) (some (lastMidnight + 12 * Sample.HOUR))
      none).map (fun l => l.map (·.dtstart)) = raise .OverflowError ∧
    (Sample.lastDays.getOccurrencesSegmented (some (lastMidnight - DAY)) (some lastMidnight) none).map
      (fun l => l.map (·.dtstart)) = .ok [lastMidnight - 14 * Sample.HOUR] := by
  refine ⟨?_, by unfold NeedsNextDay; decide, by decide +kernel, by decide +kernel, by decide +kernel⟩
  intro ev hev
  have hm := ((run_wf _ _ _).mem_values ev).2 hev
  have : ∀ ev ∈ Dict.values Sample.lastDays.events, dtInRange ev.dtstart = true ∧ ev.recurrence = none := by
    decide +kernel
  exact ⟨(this ev hm).1, fun r h => by rw [(this ev hm).2] at h; cases h⟩

/-- C127, concrete: who looks for free time of Bob until the noon of 9999-12-31 gets an exception, though Bob's
occurrences by days are returned; until the midnight before it, the free time is returned. -/
example :
    (Sample.lastDays.getOccurrencesSegmented (some (lastMidnight - DAY)) (some (lastMidnight + 12 * Sample.HOUR))
      (some { attendees := some ["bob"] })).map (fun l => l.map (·.dtstart)) = .ok [lastMidnight - 14 * Sample.HOUR] ∧
    Sample.lastDays.getFreePeriods ["bob"] (lastMidnight - DAY) (lastMidnight + 12 * Sample.HOUR) (8 * Sample.HOUR)
      (17 * Sample.HOUR) none = raise .OverflowError ∧
    Sample.lastDays.getFreePeriods ["bob"] (lastMidnight - DAY) lastMidnight (8 * Sample.HOUR) (17 * Sample.HOUR) none =
      .ok [(lastMidnight - 16 * Sample.HOUR, lastMidnight - 14 * Sample.HOUR),
           (lastMidnight - 13 * Sample.HOUR, lastMidnight - 7 * Sample.HOUR)] ∧
    Sample.lastDays.getBlockedPeriods [] firstMidnight firstMidnight (8 * Sample.HOUR) (17 * Sample.HOUR) =
      raise .OverflowError := by
  refine ⟨?_, ?_, ?_, ?_⟩ <;> decide +kernel

end CalCore
