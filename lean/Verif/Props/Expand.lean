import Verif.Lemmas.Expand
import Verif.Props.Samples
/- Properties C23, C24, C35 and C59, and C17 at the level of the store: occurrences. -/
namespace CalCore
open Spec

/-! ### C24 -/

theorem shown_proper {x d b en : Int} (hd : 0 ≤ d) (hp : b < en) :
    (b < x + d ∧ x < en) ↔ Shown x d (some b) (some en) := by
  rw [← shown_iff hd (fun b' e' hb he => by injection hb; injection he; omega)]
  simp

/-- C24: the occurrences of an event with a rule of positive interval are, in increasing order, exactly one per
date of the rule (without enddate) whose interval overlaps the period, i.e. ends after its beginning and
starts before its end. -/
theorem C24_expand_exact (e : Event) (r : Rule) (hr : e.recurrence = some r) (hv : 1 ≤ r.interval)
    (hu : UntilIsDate r) (hs : dtInRange e.dtstart = true) (b en : Int) (l : List (Occurrence Event))
    (h : e.expand b en = .ok l) :
    (l.map (·.dtstart)).Pairwise (· < ·) ∧
    ∀ o, o ∈ l ↔ ∃ d dur, e.duration = some dur ∧ IsDate r (dtDate e.dtstart) d ∧
      o = ⟨combine d (dtTime e.dtstart), dur, e⟩ ∧ b < o.dtstart + dur ∧ o.dtstart < en := by
  have hg : e.Good := ⟨hs, fun r' h' => by rw [hr] at h'; injection h' with h'; exact h' ▸ hv⟩
  obtain ⟨hc, hl⟩ := expand_ok.1 h
  constructor
  · rw [hl]
    have : ((e.dates en).map (fun d => combine d (dtTime e.dtstart))).Pairwise (· < ·) :=
      List.Pairwise.map _ (fun a b hab => by unfold combine DAY; omega) (dates_sorted hg en)
    refine List.Pairwise.sublist ?_ this
    have hsub : List.Sublist (((e.dates en).map e.at).filter (fun o => rawShown b en o.dtstart o.duration))
      ((e.dates en).map e.at) := List.filter_sublist
    have := hsub.map (fun o => o.dtstart)
    rw [List.map_map] at this
    exact this
  · intro o
    rw [hl]
    unfold Event.occs
    rw [List.mem_filter, List.mem_map]
    constructor
    · rintro ⟨⟨d, hd, rfl⟩, hsh⟩
      obtain ⟨dur, hdur, _⟩ := hc.ends d hd
      refine ⟨d, dur, hdur, ?_, ?_, ?_⟩
      · rcases (mem_dates_rule hg hr d).1 hd with h | h
        · exact h.1
        · unfold IsDate; rw [if_pos h.1]; exact h.2
      · unfold Event.at; rw [hdur]; rfl
      · simp only [rawShown, Event.at, hdur, Option.getD_some, decide_eq_true_eq] at hsh ⊢
        exact hsh
    · rintro ⟨d, dur, hdur, hd, rfl, h1, h2⟩
      have ht := dtTime_range e.dtstart
      have hle : d ≤ dtDate en := by
        simp only [combine, dtDate, DAY] at h2 ⊢; omega
      refine ⟨⟨d, (mem_dates_rule hg hr d).2 (Or.inl ⟨hd, hu, Or.inr hle⟩), ?_⟩, ?_⟩
      · unfold Event.at; rw [hdur]; rfl
      · simp only [rawShown, decide_eq_true_eq]; exact ⟨h1, h2⟩

/-- C24, in terms of instants: for a non-negative duration and a period that is not empty, an occurrence
is returned exactly when it shares an instant with the period (or has no length and lies inside). -/
theorem C24_expand_shown (e : Event) (r : Rule) (hr : e.recurrence = some r) (hv : 1 ≤ r.interval)
    (hu : UntilIsDate r) (hs : dtInRange e.dtstart = true) (hd : 0 ≤ e.duration.getD 0) (b en : Int)
    (hp : b < en) (l : List (Occurrence Event)) (h : e.expand b en = .ok l) (o : Occurrence Event) :
    o ∈ l ↔ ∃ d dur, e.duration = some dur ∧ IsDate r (dtDate e.dtstart) d ∧
      o = ⟨combine d (dtTime e.dtstart), dur, e⟩ ∧ Shown o.dtstart dur (some b) (some en) := by
  rw [(C24_expand_exact e r hr hv hu hs b en l h).2]
  constructor
  · rintro ⟨d, dur, hdur, h1, h2, h3⟩
    rw [hdur] at hd
    exact ⟨d, dur, hdur, h1, h2, (shown_proper hd hp).1 h3⟩
  · rintro ⟨d, dur, hdur, h1, h2, h3⟩
    rw [hdur] at hd
    exact ⟨d, dur, hdur, h1, h2, (shown_proper hd hp).2 h3⟩

/-- C24, events without a rule: the event itself if it overlaps. -/
theorem C24_expand_single (e : Event) (hr : e.recurrence = none) (b en : Int) (l : List (Occurrence Event))
    (h : e.expand b en = .ok l) :
    ∃ dur, e.duration = some dur ∧
      l = if b < e.dtstart + dur ∧ e.dtstart < en then [⟨e.dtstart, dur, e⟩] else [] := by
  unfold Event.expand at h
  rw [hr] at h
  obtain ⟨⟨dur, hd, _⟩, h2⟩ := occAt_ok.1 h
  refine ⟨dur, hd, ?_⟩
  rw [h2, hd]
  simp only [rawShown, decide_eq_true_eq, Option.getD_some]

/-- C24 for the store: the occurrences returned are exactly the starts of the stored events that meet the
criteria and overlap the period, with the event's duration. -/
theorem C24_getOccurrences (s : Storage) (hs : s.WF) (c : Option Criteria)
    (hg : ∀ ev, Stored s ev → Regular ev) (b en : Int) (l : List (Occurrence Event))
    (h : s.getOccurrences (some b) (some en) c = .ok l) (o : Occurrence Event) :
    o ∈ l ↔ Stored s o.original ∧ Matches (c.getD {}) o.original ∧ StartsAt o.original o.dtstart ∧
      o.original.duration = some o.duration ∧ b < o.dtstart + o.duration ∧ o.dtstart < en := by
  obtain ⟨hc, hl⟩ := getOccurrences_ok.1 h
  rw [hl, List.mem_flatMap]
  have key : ∀ ev, ev ∈ s.matching c → ∀ o, (o ∈ ev.occs b en ↔ o.original = ev ∧ StartsAt ev o.dtstart ∧
      ev.duration = some o.duration ∧ b < o.dtstart + o.duration ∧ o.dtstart < en) := by
    intro ev hev o
    have hst := ((mem_matching hs c ev).1 hev).1
    have hx : ev.expand b en = .ok (ev.occs b en) := expand_ok.2 ⟨hc ev hev, rfl⟩
    cases hr : ev.recurrence with
    | none =>
      obtain ⟨dur, hd, he⟩ := C24_expand_single ev hr b en _ hx
      rw [he]
      unfold StartsAt
      rw [hr]
      simp only []
      constructor
      · intro ho
        split at ho
        · rename_i hc
          rw [List.mem_singleton] at ho
          subst ho
          exact ⟨rfl, rfl, hd, hc⟩
        · cases ho
      · rintro ⟨h1, h2, h3, h4⟩
        rw [hd] at h3; injection h3 with h3
        obtain ⟨x, d, og⟩ := o
        simp only [] at h1 h2 h3 h4
        subst h1 h2 h3
        rw [if_pos h4]; simp
    | some r =>
      obtain ⟨hsr, hrr⟩ := hg ev hst
      obtain ⟨hv, hu⟩ := hrr r hr
      rw [(C24_expand_exact ev r hr hv hu hsr b en _ hx).2 o]
      unfold StartsAt
      rw [hr]
      simp only []
      constructor
      · rintro ⟨d, dur, h1, h2, rfl, h3⟩
        exact ⟨rfl, ⟨d, h2, rfl⟩, h1, h3⟩
      · rintro ⟨h1, ⟨d, h2, h3⟩, h4, h5⟩
        obtain ⟨x, du, og⟩ := o
        simp only [] at h1 h3 h4 h5
        subst h1 h3
        exact ⟨d, du, h4, h2, rfl, h5⟩
  constructor
  · rintro ⟨ev, hev, ho⟩
    obtain ⟨h1, h2⟩ := (key ev hev o).1 ho
    rw [h1]
    obtain ⟨h3, h4⟩ := (mem_matching hs c ev).1 hev
    exact ⟨h3, h4, h2⟩
  · rintro ⟨h1, h2, h3⟩
    have hev : o.original ∈ s.matching c := (mem_matching hs c _).2 ⟨h1, h2⟩
    exact ⟨_, hev, (key _ hev o).2 ⟨rfl, h3⟩⟩

/-- C24, concrete: a weekly event of 3 days seen in a period beginning in the middle of its second
occurrence. -/
example :
    let r : Rule := ⟨.weekly [], 1, none, none, [ymd2ord 2026 3 16]⟩
    let spec : Spec := { dtstart := Sample.day + 10 * Sample.HOUR, duration := some (3 * DAY), recurrence := some r }
    ∃ e, newEvent "w" spec = .ok e ∧ e.recurrence = some r ∧ ValidRule r ∧ UntilIsDate r ∧
      dtInRange e.dtstart = true ∧ 0 ≤ e.duration.getD 0 ∧
      e.expand (Sample.day + 8 * DAY) (Sample.day + 23 * DAY) =
        .ok [⟨Sample.day + 7 * DAY + 10 * Sample.HOUR, 3 * DAY, e⟩,
             ⟨Sample.day + 21 * DAY + 10 * Sample.HOUR, 3 * DAY, e⟩] := by
  refine ⟨_, rfl, rfl, ⟨by decide, by decide, fun l h => ?_⟩, fun t h => (by cases h), by decide, by decide,
    by decide +kernel⟩
  injection h with h; subst h; simp

/-! ### C23 -/

/-- A period query on occurrences, as a test on the occurrence. -/
def overlaps (b en : Int) (o : Occurrence Event) : Bool :=
  decide (b < o.dtstart + o.duration ∧ o.dtstart < en)

theorem canExpand_narrow {e : Event} {e1 e2 : Int} (he : e1 ≤ e2) (h : e.CanExpand e2) : e.CanExpand e1 := by
  have hle : dtDate e1 ≤ dtDate e2 := by unfold dtDate; exact Int.ediv_le_ediv (by decide) he
  have hn : ∀ r, e.recurrence = some r → (r.apply e.dtstart (some (dtDate e1))).2 = .ok () ∧
      (r.apply e.dtstart (some (dtDate e1))).1 <+: (r.apply e.dtstart (some (dtDate e2))).1 := fun r hr =>
    apply_narrow r e.dtstart (fun e2' h2 => by injection h2 with h2; omega) (h.rule r hr)
  refine ⟨fun d hd => h.ends d ?_, fun r hr => (hn r hr).1⟩
  unfold Event.dates at hd ⊢
  cases hr : e.recurrence with
  | none => rw [hr] at hd; exact hd
  | some r => rw [hr] at hd; exact (hn r hr).2.subset hd

theorem occs_narrow {e : Event} (hg : e.Good) {b1 e1 b2 e2 : Int} (hb : b2 ≤ b1) (he : e1 ≤ e2) :
    e.occs b1 e1 = (e.occs b2 e2).filter (overlaps b1 e1) := by
  unfold Event.occs
  rw [List.filter_filter]
  have hsame : ∀ L : List Int, ((L.map e.at).filter (fun o => rawShown b1 e1 o.dtstart o.duration)) =
      (L.map e.at).filter (fun o => overlaps b1 e1 o && rawShown b2 e2 o.dtstart o.duration) := by
    intro L
    refine List.filter_congr fun o _ => ?_
    simp only [rawShown, overlaps]
    by_cases h : b1 < o.dtstart + o.duration ∧ o.dtstart < e1
    · simp [h]; omega
    · simp [h]
  unfold Event.dates
  cases hr : e.recurrence with
  | none => exact hsame _
  | some r =>
    simp only []
    by_cases hk : r.kind = .no
    · have : ∀ en, (r.apply e.dtstart en).1 = [dtDate e.dtstart] := by
        intro en; rw [apply_fst]; unfold Rule.applyRun; rw [hk]
      rw [this, this]; exact hsame _
    · have hle : dtDate e1 ≤ dtDate e2 := by unfold dtDate; exact Int.ediv_le_ediv (by decide) he
      rw [← hsame, C16_truncation_partial r hk (hg.rule r hr) e.dtstart hg.start (dtDate e1)
        (some (dtDate e2)) (fun e2' h2 => by injection h2 with h2; omega)]
      rw [List.filter_map, List.filter_map, List.filter_filter]
      congr 1
      refine List.filter_congr fun d _ => ?_
      have ht := dtTime_range e.dtstart
      simp only [Function.comp, rawShown, Event.at]
      by_cases h : combine d (dtTime e.dtstart) < e1
      · have : d ≤ dtDate e1 := by simp only [combine, dtDate, DAY] at h ⊢; omega
        simp [this]
      · simp [h]

/-- C23: for nested bounded periods, the query on the inner one succeeds whenever the query on the outer
one does, and gives exactly the part of its result that overlaps the inner one, in the same order.  Missing:
stores with rules that were imported with a negative interval, for which the statement is false
(`C23_import_counterexample`). -/
theorem C23_nested_partial (s : Storage) (hs : s.WF) (c : Option Criteria)
    (hg : ∀ ev, Stored s ev → dtInRange ev.dtstart = true ∧ ∀ r, ev.recurrence = some r → 1 ≤ r.interval)
    (b1 e1 b2 e2 : Int) (hb : b2 ≤ b1) (he : e1 ≤ e2) (l : List (Occurrence Event))
    (h : s.getOccurrences (some b2) (some e2) c = .ok l) :
    s.getOccurrences (some b1) (some e1) c =
      .ok (l.filter (fun o => decide (b1 < o.dtstart + o.duration ∧ o.dtstart < e1))) := by
  obtain ⟨h1, h2⟩ := getOccurrences_ok.1 h
  refine getOccurrences_ok.2 ⟨fun ev hev => canExpand_narrow he (h1 ev hev), ?_⟩
  rw [h2, List.filter_flatMap]
  have : ∀ L : List Event, (∀ ev ∈ L, ev ∈ s.matching c) →
      L.flatMap (fun e => (e.occs b2 e2).filter (overlaps b1 e1)) = L.flatMap (fun e => e.occs b1 e1) := by
    intro L hL
    induction L with
    | nil => rfl
    | cons ev rest ih =>
      have hst := ((mem_matching hs c ev).1 (hL ev (List.mem_cons_self ..))).1
      rw [List.flatMap_cons, List.flatMap_cons, ih (fun x hx => hL x (List.mem_cons_of_mem _ hx)),
        occs_narrow ⟨(hg ev hst).1, (hg ev hst).2⟩ hb he]
  exact this _ (fun _ h => h)

/-- C23, concrete: the second day inside the whole week. -/
example :
    (∀ ev, Stored Sample.store ev → dtInRange ev.dtstart = true ∧ ∀ r, ev.recurrence = some r → 1 ≤ r.interval) ∧
    (∃ l, Sample.store.getOccurrences (some Sample.day) (some (Sample.day + 7 * DAY)) none = .ok l ∧
      l.map (fun o => o.original.uid) = ["m", "t", "p"]) ∧
    ∃ l, Sample.store.getOccurrences (some (Sample.day + DAY)) (some (Sample.day + 2 * DAY)) none = .ok l ∧
      l.map (fun o => o.original.uid) = ["t", "p"] := by
  refine ⟨fun ev hev => ?_, ⟨_, rfl, by decide +kernel⟩, ⟨_, rfl, by decide +kernel⟩⟩
  have hm := (Sample.store_wf.mem_values ev).2 hev
  have : ∀ ev ∈ Dict.values Sample.store.events, dtInRange ev.dtstart = true ∧ ev.recurrence = none := by
    decide +kernel
  refine ⟨(this ev hm).1, fun r h => ?_⟩
  rw [(this ev hm).2] at h; cases h

/-- The event created for `INTERVAL=-1;COUNT=5` starting on the fifth day at 10:00. -/
def backwards : Event :=
  { blankEvent "n" with
    dtstart := Sample.day + 4 * DAY + 10 * Sample.HOUR, duration := some Sample.HOUR
    status := "TENTATIVE", access := "PUBLIC", recurrence := some ⟨.daily, -1, some 5, none, []⟩ }

/-- C23 fails for an event imported with `INTERVAL=-1;COUNT=5`: the whole week shows an occurrence on its
first day, the query for that day alone shows nothing. -/
theorem C23_import_counterexample :
    getRecurrenceRule { freq := some "DAILY", interval := some [-1], count := some [5] } =
      .ok ⟨.daily, -1, some 5, none, []⟩ ∧
    newEvent "n" { dtstart := Sample.day + 4 * DAY + 10 * Sample.HOUR, duration := some Sample.HOUR
                   recurrence := some ⟨.daily, -1, some 5, none, []⟩ } = .ok backwards ∧
    (∃ l, backwards.expand Sample.day (Sample.day + 7 * DAY) = .ok l ∧
      ∃ o ∈ l, Sample.day < o.dtstart + o.duration ∧ o.dtstart < Sample.day + DAY) ∧
    backwards.expand Sample.day (Sample.day + DAY) = .ok [] := by
  refine ⟨by decide +kernel, by decide +kernel, ⟨_, rfl, by decide +kernel⟩, by decide +kernel⟩

/-! ### C35 -/

/-- C35: `getEvents` never reports a uid twice, in any history. -/
theorem C35_events_once (id host : String) (ops : List Op) (b e : Option Int) (c : Option Criteria)
    (l : List Event) (h : ((freshWorld id host).run ops).store.getEvents b e c = .ok l) :
    (l.map (·.uid)).Nodup := by
  obtain ⟨_, h2⟩ := filterInPeriod_ok.1 h
  rw [h2]
  exact List.Sublist.nodup (List.Sublist.map _ List.filter_sublist) (matching_uid_nodup (run_wf id host ops) c)

theorem occs_key_nodup {e : Event} (hg : e.Good) (b en : Int) :
    ((e.occs b en).map (fun o => (o.original.uid, o.dtstart))).Nodup := by
  unfold Event.occs
  have h1 : ((e.dates en).map (fun d => (e.uid, combine d (dtTime e.dtstart)))).Nodup := by
    refine List.Pairwise.map _ (fun a b hab => ?_) (dates_sorted hg en)
    intro heq
    injection heq with _ heq
    unfold combine DAY at heq; omega
  have hsub : List.Sublist (((e.dates en).map e.at).filter (fun o => rawShown b en o.dtstart o.duration))
      ((e.dates en).map e.at) := List.filter_sublist
  have := hsub.map (fun o => (o.original.uid, o.dtstart))
  rw [List.map_map] at this
  exact this.nodup h1

/-- C35: in any history, `getOccurrences` never reports the same start of the same uid twice, if the
stored rules have positive intervals.  Missing: rules imported with interval 0 (`C35_import_counterexample`). -/
theorem C35_occurrences_once_partial (id host : String) (ops : List Op) (b e : Option Int) (c : Option Criteria)
    (hg : ∀ ev, Stored ((freshWorld id host).run ops).store ev →
      dtInRange ev.dtstart = true ∧ ∀ r, ev.recurrence = some r → 1 ≤ r.interval)
    (l : List (Occurrence Event))
    (h : ((freshWorld id host).run ops).store.getOccurrences b e c = .ok l) :
    (l.map (fun o => (o.original.uid, o.dtstart))).Nodup := by
  have hs := run_wf id host ops
  generalize ((freshWorld id host).run ops).store = s at *
  cases b with
  | none => unfold Storage.getOccurrences at h; cases h
  | some b =>
    cases e with
    | none => unfold Storage.getOccurrences at h; cases h
    | some e =>
      obtain ⟨_, h2⟩ := getOccurrences_ok.1 h
      rw [h2]
      have hgood : ∀ ev ∈ s.matching c, ev.Good := fun ev hev =>
        ⟨(hg ev ((mem_matching hs c ev).1 hev).1).1, (hg ev ((mem_matching hs c ev).1 hev).1).2⟩
      have hnd := matching_uid_nodup hs c
      generalize s.matching c = L at *
      clear h h2
      rename_i hx0
      clear hx0
      induction L with
      | nil => simp
      | cons ev rest ih =>
        simp only [List.map_cons, List.nodup_cons] at hnd
        rw [List.flatMap_cons, List.map_append, List.nodup_append]
        refine ⟨occs_key_nodup (hgood ev (List.mem_cons_self ..)) b e,
          ih (fun x hx => hgood x (List.mem_cons_of_mem _ hx)) hnd.2, ?_⟩
        intro x hx y hy hxy
        subst hxy
        apply hnd.1
        rw [List.mem_map] at hx hy ⊢
        obtain ⟨o, ho, rfl⟩ := hx
        obtain ⟨o', ho', heq⟩ := hy
        rw [List.mem_flatMap] at ho'
        obtain ⟨ev', hev', ho'⟩ := ho'
        refine ⟨ev', hev', ?_⟩
        have horig : ∀ (ev : Event) (o : Occurrence Event), o ∈ ev.occs b e → o.original = ev := by
          intro ev o ho
          unfold Event.occs at ho
          rw [List.mem_filter, List.mem_map] at ho
          obtain ⟨⟨d, _, rfl⟩, _⟩ := ho
          rfl
        injection heq with h1 _
        rw [horig ev o ho, horig ev' o' ho'] at h1
        exact h1

/-- C35 fails for an event imported with `INTERVAL=0;COUNT=2`: the same occurrence is reported twice. -/
theorem C35_import_counterexample :
    ∃ l, ((freshWorld "st" "host").run
        [.import_ (fun _ => 0) [("alice", ())] [("alice", ⟨"Alice", "INDIVIDUAL"⟩)]
          [{ uid := some "i", dtstart := some (.naive Sample.day), duration := some Sample.HOUR
             rrule := some { freq := some "DAILY", interval := some [0], count := some [2] } }]
          none none none false]).store.getOccurrences (some Sample.day) (some (Sample.day + DAY)) none = .ok l ∧
      ¬ (l.map (fun o => (o.original.uid, o.dtstart))).Nodup := ⟨_, rfl, by decide +kernel⟩

/-- C35, concrete: the sample history reports three occurrences in the week. -/
example : ∃ l, Sample.store.getOccurrences (some Sample.day) (some (Sample.day + 7 * DAY)) none = .ok l ∧
    l.map (fun o => o.original.uid) = ["m", "t", "p"] := ⟨_, rfl, by decide +kernel⟩

end CalCore
