import Verif.Props.Import2
import Verif.Props.Imported
/- Property C124: after an import, a calendar shows the occurrences that the imported data stand for. -/
namespace CalCore
open Spec

variable (parse : List Char → Res (Option (List VEvent))) (tz : LocalTz) (c : Calendar) (src : Source)
  (text : List Char) (b e : Option Int) (cr : Option Criteria) (sync : Bool)

/-! ### what is stored -/

/-- Rounding leaves a positive or negative number of days as it is, and makes a day of nothing. -/
theorem rounded {dur : Int} (h : DAY ∣ dur) :
    (if dur - dur / DAY * DAY ≠ 0 ∨ dur / DAY = 0 then dur / DAY + 1 else dur / DAY) * DAY =
      if dur = 0 then DAY else dur := by
  unfold DAY at *
  split <;> split <;> omega

/-- The times and the rule of what an import of one component leaves. -/
theorem importAt_time {known : List Uid} {v : VEvent} {u : Uid} {old : Option Event}
    (h : (importAt tz c src known v u old).2 = .ok ()) (hk : u ∈ known ∨ old = none) {x dur : Int} {st : ICalTime}
    (hst : v.dtstart = some st) (hx : Means tz st x) (hdur : Lasts tz v x dur)
    (hwd : CountedDays v (old = none) dur) :
    ∃ ev, (importAt tz c src known v u old).1 = some ev ∧ ev.dtstart = x ∧ ev.duration = some dur ∧
      importRule v.rrule = .ok ev.recurrence := by
  obtain ⟨spec, ev, hspec, hev, hcase⟩ := importAt_ok tz c src h hk
  refine ⟨ev, hev, ?_⟩
  unfold importSpec at hspec
  simp only [bind_ok] at hspec
  obtain ⟨⟨x', dur', ad⟩, ht, o, horg, r, hr, hspec⟩ := hspec
  injection hspec with hspec
  have e1 : spec.dtstart = x' := by rw [← hspec]
  have e2 : spec.duration = some dur' := by rw [← hspec]
  have e3 : spec.allday = ad := by rw [← hspec]
  have e4 : spec.recurrence = r := by rw [← hspec]
  obtain ⟨st', hst', hm1, hm2, hm3, hm4, hm5⟩ := (C52_meaning tz v x' dur' ad).1 ht
  rw [hst] at hst'
  injection hst' with hst'
  subst hst'
  have huniq : ∀ {q : ICalTime} {a a' : Int}, Means tz q a → Means tz q a' → a = a' := by
    intro q a a' h1 h2
    cases h1 <;> cases h2 <;> rfl
  have hxx : x' = x := huniq hm1 hx
  subst hxx
  -- the duration, except for the default of all-day events
  have hdd : (v.dtend ≠ none ∨ v.duration ≠ none ∨ ad = false) → dur' = dur := by
    intro hh
    cases hen : v.dtend with
    | some en =>
      have := huniq (hm3 en hen) (hdur.1 en hen)
      omega
    | none =>
      cases hdu : v.duration with
      | some d => rw [hm4 hen d hdu, hdur.2.1 hen d hdu]
      | none =>
        rcases hh with hh | hh | hh
        · exact absurd hen hh
        · exact absurd hdu hh
        · have hnd : ¬ IsDateValue st := fun hd => by rw [hm2.2 hd] at hh; cases hh
          rw [hm5 hen hdu, (hdur.2.2 hen hdu st hst).2 hnd]
  have hold : old ≠ none → dur' = dur := by
    intro ho
    refine hdd ?_
    cases had : ad with
    | false => exact Or.inr (Or.inr rfl)
    | true =>
      rcases (hwd st hst (hm2.1 had)).2 (by simp [ho]) with h | h
      · exact Or.inl h
      · exact Or.inr (Or.inl h)
  rcases hcase with ⟨e0, hold', hwm, rfl⟩ | ⟨e0, hold', hset⟩ | ⟨hold', hnew⟩
  · obtain ⟨ha, -⟩ := willModify_false hwm
    have hd := hold (by rw [hold']; simp)
    subst hd
    refine ⟨?_, ?_, ?_⟩
    · rw [← e1]; exact (congrArg Event.dtstart ha).symm
    · rw [← e2]; exact (congrArg Event.duration ha).symm
    · rw [hr, ← e4]; exact congrArg Except.ok (congrArg Event.recurrence ha)
  · have hat := setOnObject_attributes spec e0
    rw [hset] at hat
    have hd := hold (by rw [hold']; simp)
    subst hd
    refine ⟨?_, ?_, ?_⟩
    · rw [← e1]; exact congrArg Event.dtstart hat
    · rw [← e2]; exact congrArg Event.duration hat
    · rw [hr, ← e4]; exact congrArg Except.ok (congrArg Event.recurrence hat).symm
  · obtain ⟨e0, hset, had, hev'⟩ := newEvent_made hnew
    have hat := setOnObject_attributes spec (blankEvent u)
    rw [hset] at hat
    have f1 : e0.dtstart = x' := by rw [← e1]; exact congrArg Event.dtstart hat
    have f2 : e0.duration = some dur' := by rw [← e2]; exact congrArg Event.duration hat
    have f3 : e0.recurrence = r := by rw [← e4]; exact congrArg Event.recurrence hat
    rw [e3] at hev'
    cases hadv : ad with
    | false =>
      rw [hadv] at hev'
      simp only [Bool.false_eq_true, if_false] at hev'
      subst hev'
      rw [f1, f2, f3, hdd (Or.inr (Or.inr hadv))]
      exact ⟨rfl, rfl, hr⟩
    | true =>
      rw [hadv] at hev'
      simp only [if_true] at hev'
      subst hev'
      have hdate := hm2.1 hadv
      obtain ⟨⟨hwh, hne⟩, -⟩ := And.intro ((hwd st hst hdate).1 (by simp [hold'])) trivial
      have hd' : DAY ∣ dur' ∧ (if dur' = 0 then DAY else dur') = dur := by
        by_cases hh : v.dtend ≠ none ∨ v.duration ≠ none
        · have hd : dur' = dur := hdd (by tauto)
          subst hd
          exact ⟨hwh, if_neg hne⟩
        · have h1 : v.dtend = none := by by_contra h1; exact hh (Or.inl h1)
          have h2 : v.duration = none := by by_contra h2; exact hh (Or.inr h2)
          rw [hm5 h1 h2, (hdur.2.2 h1 h2 st hst).1 hdate]
          exact ⟨by simp, rfl⟩
      have hmid : combine (dtDate x') 0 = x' := by
        cases hm1 with
        | date d => unfold combine dtDate DAY; omega
        | floating t => exact absurd hdate (by simp [IsDateValue])
        | zoned t off _ _ => exact absurd hdate (by simp [IsDateValue])
      refine ⟨?_, ?_, ?_⟩
      · unfold Event.alldayAdjust; simp only []; rw [f1, hmid]
      · unfold Event.alldayAdjust; simp only []
        rw [f2]
        simp only []
        rw [rounded hd'.1, hd'.2]
      · unfold Event.alldayAdjust; simp only []; rw [f3]; exact hr

/-! ### what is shown -/

/-- The last month of the calendar begins on 1 December 9999. -/
theorem before_last_month {d : Int} (h : d < ymd2ord 9999 12 1) : ¬ InLastMonth d := by
  intro hl
  have h1 : monthNr d ≤ monthNr (ymd2ord 9999 12 1 - 1) := monthNr_mono (by omega)
  have h2 : monthNr (ymd2ord 9999 12 1 - 1) = 12 * 9999 + 10 := by decide +kernel
  have h3 : monthNr d = 12 * 9999 + 11 := by unfold monthNr; rw [hl.1, hl.2]; rfl
  omega

/-- The occurrences of an event that has the times and the rule of a component. -/
theorem occs_meant {v : VEvent} {ev : Event} {x dur : Int} {bm : List Int} (hr : importRule v.rrule = .ok ev.recurrence)
    (hx : ev.dtstart = x) (hd : ev.duration = some dur) (hxr : dtInRange x = true) (hun : HasUnderstood v bm x)
    {b' e' : Int} (he : e' ≤ combine (ymd2ord 9999 12 1) 0) (o : Occurrence Event) :
    o ∈ ev.occs b' e' ↔ o.original = ev ∧ o.duration = dur ∧ TakesPlace v bm x o.dtstart ∧
      b' < o.dtstart + dur ∧ o.dtstart < e' := by
  have hdates : ∀ t, (∃ d ∈ ev.dates e', t = combine d (dtTime x)) ∧ t < e' ↔ TakesPlace v bm x t ∧ t < e' := by
    intro t
    unfold TakesPlace Event.dates
    unfold importRule at hr
    cases hrr : v.rrule with
    | none =>
      rw [hrr] at hr
      injection hr with hr
      rw [← hr]
      simp only [List.mem_singleton, exists_eq_left, hx, combine_dt]
    | some rr =>
      rw [hrr] at hr
      simp only [bind_ok] at hr
      obtain ⟨r, hr1, hr2⟩ := hr
      injection hr2 with hr2
      rw [← hr2]
      simp only []
      obtain ⟨hut, R, hm, hu⟩ := hun rr hrr
      have hex : R.exdates = [] := by
        unfold meaning at hm
        cases hfr : rr.freq.bind freqOf with
        | none => rw [hfr] at hm; cases hm
        | some fr =>
          rw [hfr] at hm
          simp only [Option.bind_some] at hm
          cases hdays : (rr.byday.getD []).mapM fun s => readDay s.toList with
          | none => rw [hdays] at hm; cases hm
          | some days =>
            rw [hdays] at hm
            simp only [Option.map_some, Option.some.injEq] at hm
            rw [← hm]
      have ht := dtTime_range x
      have key : ∀ d, combine d (dtTime x) < e' →
          (d ∈ (r.apply ev.dtstart (some (dtDate e'))).1 ↔ Recurs R x d) := by
        intro d hlt
        have hlast : d < ymd2ord 9999 12 1 := by
          unfold combine at hlt he
          unfold DAY at *
          omega
        rw [hx, rule_means hr1 hm hut hxr hu _ d (by rw [hex]; simp) (fun _ => before_last_month hlast)]
        simp only [Option.some.injEq, forall_eq', and_iff_left_iff_imp]
        intro _
        unfold combine at hlt
        unfold dtDate
        unfold DAY at *
        omega
      constructor
      · rintro ⟨⟨d, h1, rfl⟩, h2⟩
        exact ⟨⟨R, d, hm, (key d h2).1 h1, rfl⟩, h2⟩
      · rintro ⟨⟨R', d, hm', h1, rfl⟩, h2⟩
        rw [hm] at hm'
        injection hm' with hm'
        subst hm'
        exact ⟨⟨d, (key d h2).2 h1, rfl⟩, h2⟩
  unfold Event.occs
  rw [List.mem_filter, List.mem_map]
  simp only [rawShown, decide_eq_true_eq]
  constructor
  · rintro ⟨⟨d, h1, rfl⟩, h2, h3⟩
    simp only [Event.at, hd, Option.getD_some, hx] at h2 h3 ⊢
    exact ⟨trivial, trivial, ((hdates _).1 ⟨⟨d, h1, rfl⟩, h3⟩).1, h2, h3⟩
  · rintro ⟨h1, h2, h3, h4, h5⟩
    obtain ⟨⟨d, hd1, hd2⟩, -⟩ := (hdates _).2 ⟨h3, h5⟩
    refine ⟨⟨d, hd1, ?_⟩, by rw [h2]; exact h4, h5⟩
    obtain ⟨t, du, og⟩ := o
    simp only [] at h1 h2 hd2
    subst h1
    simp only [Event.at, hd, Option.getD_some, hx, hd2, h2]

/-! ### C124 -/

/-- C124: after an import that returned, a query of the calendar shows for the uid of a component exactly the occurrences
that the component stands for, if it concerns the calendar or was shown before; otherwise nothing.
Missing: recurrences that are not understood (C123), EXDATE, queries beyond November 9999, all-day events that are no
number of days, and updates of all-day events that have neither DTEND nor DURATION (`C124_twice_counterexample`);
uids of events that were stored but not shown (C82). -/
theorem C124_shown_partial (w : World) (hw : w.store.WF) (vs : List VEvent) (hd : (dataUids vs).Nodup)
    (l : List Event) (hp : parse (repairText text) = .ok (some vs)) (hcr : NoAttendees cr)
    (hl : c.getEvents src w.store b e cr = .ok l)
    (h : (w.import_ parse tz c src text b e cr sync).2 = .ok ()) (v : VEvent) (hv : v ∈ vs) (u : Uid)
    (hu : v.uid = some u) (hk : (∃ ev ∈ l, ev.uid = u) ∨ w.store.hasEvent u = false)
    (st : ICalTime) (hst : v.dtstart = some st) (x dur : Int) (hx : Means tz st x) (hxr : dtInRange x = true)
    (hdur : Lasts tz v x dur) (hwd : CountedDays v (!w.store.hasEvent u) dur)
    (bymonthday : List Int) (hun : HasUnderstood v bymonthday x)
    (b' e' : Int) (he : e' ≤ combine (ymd2ord 9999 12 1) 0) (l' : List (Occurrence Event))
    (hl' : c.getOccurrences src (w.import_ parse tz c src text b e cr sync).1.store (some b') (some e') none = .ok l') :
    (∀ t, (∃ o ∈ l', o.original.uid = u ∧ o.dtstart = t) ↔
      ((∃ ev ∈ l, ev.uid = u) ∨ Concerns src c v) ∧ TakesPlace v bymonthday x t ∧ b' < t + dur ∧ t < e') ∧
    ∀ o ∈ l', o.original.uid = u → o.duration = dur := by
  obtain ⟨hiff, hres⟩ := import_at parse tz c src text b e cr sync w hw vs hd l hp hl
  have hres := (hres h).1 v hv u hu
  obtain ⟨u', hu', hok⟩ := hiff.1 h v hv
  rw [hu] at hu'; injection hu' with hu'; subst hu'
  obtain ⟨ev, hev, _, _, _, h4, h5⟩ := importAt_carries tz c src hok (knownOrNew hk)
  have hwd' : CountedDays v (Dict.get? w.store.events u = none) dur := by
    have : (!w.store.hasEvent u) = decide (Dict.get? w.store.events u = none) := by
      cases hg : Dict.get? w.store.events u with
      | none =>
        cases hh : w.store.hasEvent u with
        | false => rfl
        | true =>
          obtain ⟨y, hy⟩ := Storage.hasEvent_iff.1 hh
          rw [hg] at hy; cases hy
      | some y => rw [Storage.hasEvent_iff.2 ⟨y, hg⟩]; rfl
    rw [← this]; exact hwd
  obtain ⟨ev', hev', g1, g2, g3⟩ := importAt_time tz c src hok (knownOrNew hk) hst hx hdur hwd'
  rw [hev] at hev'; injection hev' with hev'; subst hev'
  rw [hev] at hres
  have hw' : (w.import_ parse tz c src text b e cr sync).1.store.WF := (World.import_many w parse tz c src text b e cr sync).wf hw
  generalize (w.import_ parse tz c src text b e cr sync).1.store = s' at *
  have hevu : ev.uid = u := hw'.uid u ev hres
  -- the matching event
  unfold Calendar.getOccurrences at hl'
  simp only [bind_ok] at hl'
  obtain ⟨cr', hcr', hl'⟩ := hl'
  have hatt : cr' = { attendees := some (Dict.keys c) } := by
    exact (calendar_criteria_ok.1 hcr').2
  subst hatt
  obtain ⟨-, rfl⟩ := getOccurrences_ok.1 hl'
  have hmatch : ev ∈ s'.matching (some { attendees := some (Dict.keys c) }) ↔ ∃ a ∈ Dict.keys c, Attends ev a := by
    rw [mem_matching hw']
    unfold Stored Matches Attends
    rw [hevu]
    simp [hres]
  have hshown : (∃ a ∈ Dict.keys c, Attends ev a) ↔ (∃ ev ∈ l, ev.uid = u) ∨ Concerns src c v := by
    rw [attended_iff c src h4 h5]
    constructor
    · rintro (h | ⟨e0, he0, a, ha, hat⟩)
      · exact Or.inr h
      · rcases hk with hk | hk
        · exact Or.inl hk
        · rw [Storage.hasEvent_iff.2 ⟨e0, he0⟩] at hk; cases hk
    · rintro (⟨ev0, hev0, hu0⟩ | h)
      · obtain ⟨⟨a, ha, hat⟩, hst⟩ := C37_calendar_partial w.store hw c src b e cr hcr l hl ev0 hev0
        unfold Stored at hst
        rw [hu0] at hst
        exact Or.inr ⟨ev0, hst, a, ha, hat⟩
      · exact Or.inl h
  have hocc := fun o => occs_meant g3 g1 g2 hxr hun (b' := b') he o
  have horig : ∀ ev0 ∈ s'.matching (some { attendees := some (Dict.keys c) }), ∀ o ∈ ev0.occs b' e',
      o.original.uid = u → ev0 = ev := by
    intro ev0 h0 o ho hou
    have hst0 := ((mem_matching hw' _ _).1 h0).1
    have : o.original = ev0 := by
      unfold Event.occs at ho
      rw [List.mem_filter, List.mem_map] at ho
      obtain ⟨⟨d, _, rfl⟩, _⟩ := ho
      rfl
    rw [this] at hou
    unfold Stored at hst0
    rw [hou, hres] at hst0
    injection hst0 with hst0
    exact hst0.symm
  constructor
  · intro t
    rw [← hshown, ← hmatch]
    constructor
    · rintro ⟨o, ho, hou, rfl⟩
      obtain ⟨ev0, h0, ho⟩ := List.mem_flatMap.1 ho
      have := horig ev0 h0 o ho hou
      subst this
      exact ⟨h0, ((hocc o).1 ho).2.2⟩
    · rintro ⟨h0, h1⟩
      exact ⟨⟨t, dur, ev⟩, List.mem_flatMap.2 ⟨ev, h0, (hocc _).2 ⟨rfl, rfl, h1⟩⟩, hevu, rfl⟩
  · intro o ho hou
    obtain ⟨ev0, h0, ho⟩ := List.mem_flatMap.1 ho
    have := horig ev0 h0 o ho hou
    subst this
    exact ((hocc o).1 ho).2.1

/-- C124 fails for an update of an all-day event without DTEND: the first import shows it on its day, the second import
of the same data makes it disappear from there. -/
theorem C124_twice_counterexample :
    let v : VEvent := { uid := some "b", dtstart := some (.date (ymd2ord 2026 3 3)), summary := some "birthday" }
    let w1 := (freshWorld "st" "host").run [Sample.imp [v] false]
    let w2 := w1.run [Sample.imp [v] false]
    let q := fun w : World => Sample.cal.getOccurrences Sample.src w.store (some (combine (ymd2ord 2026 3 3) 0))
      (some (combine (ymd2ord 2026 3 4) 0)) none
    (q w1).map (·.map (fun o => (o.original.uid, o.duration))) = .ok [("b", DAY)] ∧ q w2 = .ok [] ∧
      Lasts (fun _ => 0) v (combine (ymd2ord 2026 3 3) 0) DAY := by
  refine ⟨by decide +kernel, by decide +kernel, by simp, by simp, ?_⟩
  rintro - - st h
  injection h with h
  subst h
  simp [IsDateValue]

/-- C124, concrete: a component for the first Tuesday of every month, with a new uid, that concerns the calendar. -/
example :
    let rr : RRule := { freq := some "MONTHLY", byday := some ["1TU"], untl := some [.date (ymd2ord 2026 5 31)] }
    let v : VEvent :=
      { uid := some "m", dtstart := some (.naive (combine (ymd2ord 2026 3 3) 36000000000)), duration := some Sample.HOUR
        rrule := some rr }
    let w := freshWorld "st" "host"
    let r := w.import_ (fun _ => .ok (some [v])) (fun _ => 0) Sample.cal Sample.src [] none none none false
    let x := combine (ymd2ord 2026 3 3) 36000000000
    r.2 = .ok () ∧ Sample.cal.getEvents Sample.src w.store none none none = .ok [] ∧ dtInRange x = true ∧
    w.store.hasEvent "m" = false ∧ Lasts (fun _ => 0) v x Sample.HOUR ∧ CountedDays v true Sample.HOUR ∧
    HasUnderstood v [] x ∧ Concerns Sample.src Sample.cal v ∧
    (Sample.cal.getOccurrences Sample.src r.1.store (some (combine (ymd2ord 2026 3 4) 0))
        (some (combine (ymd2ord 2026 12 31) 0)) none).map (·.map (fun o => o.dtstart)) =
      .ok [combine (ymd2ord 2026 4 7) 36000000000, combine (ymd2ord 2026 5 5) 36000000000] := by
  refine ⟨by decide +kernel, by decide +kernel, by decide +kernel, by decide +kernel, ⟨by simp, by simp, by simp⟩, ?_, ?_, ?_,
    by decide +kernel⟩
  · intro st h
    injection h with h
    subst h
    simp [IsDateValue]
  · intro rr h
    injection h with h
    subst h
    exact ⟨by simp, { freq := .monthly, untl := some (ymd2ord 2026 5 31 * 86400000000 + 86399999999), byday := [(1, 1)] },
      by decide +kernel, by decide, Or.inr (Or.inl ⟨by decide +kernel, by decide +kernel, rfl⟩)⟩
  · exact Or.inr (Or.inr ⟨by simp [HasKnownOrganizer], by decide⟩)

end CalCore
