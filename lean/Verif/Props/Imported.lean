import Verif.Spec.Imported
import Verif.Props.RFC
/- Property C123: the dates of an imported recurring event are those that its RRULE stands for. -/
namespace CalCore
open Spec

/-! ### days -/

theorem days_table : ∀ j, ∀ h : j < icalWeekdays.length, readDay (icalWeekdays[j]).toList = some (0, (j : Int)) := by
  decide +kernel

theorem weekdayIndexes_days {l : List String} {wds : List Int} (h : weekdayIndexes l = .ok wds) :
    (l.mapM fun s => readDay s.toList) = some (wds.map fun w => ((0 : Int), w)) := by
  induction l generalizing wds with
  | nil => cases h; rfl
  | cons s l ih =>
    unfold weekdayIndexes at h
    simp only [bind_ok] at h
    obtain ⟨i, hi, more, hm, h⟩ := h
    injection h with h; subst h
    rw [optMapM_cons, ih hm]
    have : readDay s.toList = some (0, i) := by
      unfold weekdayIndex at hi
      split at hi
      · rename_i j hj
        injection hi with hi; subst hi
        rw [List.findIdx?_eq_some_iff_getElem] at hj
        obtain ⟨hlt, hs, -⟩ := hj
        have hs : icalWeekdays[j] = s := by simpa using hs
        subst hs
        exact days_table j hlt
      · cases hi
    rw [this]
    rfl

/-- The sign of the ordinal is the first character. -/
theorem readDay_sign {l : List Char} {n w : Int} (h : readDay l = some (n, w)) :
    (0 < n → ∃ c rest, l = c :: rest ∧ c ≠ '-') ∧ (n < 0 → ∃ rest, l = '-' :: rest) := by
  unfold readDay at h
  simp only [] at h
  split at h
  · cases hr : (if l.take (l.length - 2) = [] then some 0 else readInt (l.take (l.length - 2))) with
    | none => rw [hr] at h; cases h
    | some k =>
      rw [hr] at h
      simp only [Option.map_some, Option.some.injEq, Prod.mk.injEq] at h
      obtain ⟨rfl, -⟩ := h
      split at hr
      · injection hr with hr
        constructor <;> intro hh <;> omega
      · rename_i hne
        cases hl : l with
        | nil => rw [hl] at hne; exact absurd rfl hne
        | cons c rest =>
          rw [hl] at hr hne
          obtain ⟨m, hm⟩ : ∃ m, (c :: rest).length - 2 = m + 1 := by
            cases hx : (c :: rest).length - 2 with
            | zero => rw [hx] at hne; exact absurd rfl hne
            | succ m => exact ⟨m, rfl⟩
          rw [hm, List.take_succ_cons] at hr
          have neg : ∀ x : Option Nat, (x.map fun n : Nat => -(n : Int)) = some k → k ≤ 0 := by
            intro x hx
            cases x with
            | none => cases hx
            | some x => simp only [Option.map_some, Option.some.injEq] at hx; omega
          have pos : ∀ x : Option Nat, (x.map fun n : Nat => (n : Int)) = some k → 0 ≤ k := by
            intro x hx
            cases x with
            | none => cases hx
            | some x => simp only [Option.map_some, Option.some.injEq] at hx; omega
          unfold readInt at hr
          split at hr
          · rename_i heq
            injection heq with h1 h2
            have := neg _ hr
            exact ⟨fun hh => by omega, fun _ => ⟨rest, by rw [h1]⟩⟩
          · rename_i heq
            injection heq with h1 h2
            have := pos _ hr
            exact ⟨fun _ => ⟨c, rest, rfl, by rw [h1]; decide⟩, fun hh => by omega⟩
          · rename_i hnm _
            have := pos _ hr
            refine ⟨fun _ => ⟨c, rest, rfl, ?_⟩, fun hh => by omega⟩
            rintro rfl
            exact hnm _ rfl
  · cases h

/-! ### the rule -/

theorem new_fields {k : RuleKind} {r : Rule} (h : Rule.new k = .ok r) : r = ⟨k, 1, none, none, []⟩ := by
  unfold Rule.new at h
  simp only [bind_ok] at h
  obtain ⟨_, _, h⟩ := h
  injection h with h
  exact h.symm

theorem firstOf_head {α : Type} {o : Option (List α)} {x : Option α} (h : firstOf o = .ok x) : x = (o.getD []).head? := by
  unfold firstOf at h
  split at h
  · injection h with h; subst h; rfl
  · cases h
  · injection h with h; subst h; rfl

/-- The parts of an imported rule. -/
theorem getRecurrenceRule_parts {rr : RRule} {r : Rule} (h : getRecurrenceRule rr = .ok r) :
    ∃ f k, rr.freq = some f ∧ ruleOfFreq rr f = .ok ⟨k, 1, none, none, []⟩ ∧
      r = ⟨k, ((rr.interval.getD []).head?).getD 1, (rr.count.getD []).head?, (rr.untl.getD []).head?, []⟩ := by
  unfold getRecurrenceRule at h
  split at h
  · cases h
  · rename_i f hf
    simp only [bind_ok] at h
    obtain ⟨r0, h0, iv, i1, ct, i2, u, i3, h⟩ := h
    injection h with h
    have hr0 : ∃ k, r0 = ⟨k, 1, none, none, []⟩ := by
      have h0' := h0
      unfold ruleOfFreq at h0'
      split at h0'
      · exact ⟨_, new_fields h0'⟩
      · split at h0'
        · exact ⟨_, new_fields h0'⟩
        · split at h0'
          · simp only [bind_ok] at h0'
            obtain ⟨_, _, h0'⟩ := h0'
            exact ⟨_, new_fields h0'⟩
          · split at h0'
            · split at h0'
              · exact ⟨_, new_fields h0'⟩
              · split at h0'
                · cases h0'
                · split at h0'
                  · cases h0'
                  · exact ⟨_, new_fields h0'⟩
            · cases h0'
    obtain ⟨k, rfl⟩ := hr0
    refine ⟨f, k, hf, h0, ?_⟩
    rw [← h, firstOf_head i1, firstOf_head i2, firstOf_head i3]
    simp

/-- The UNTIL of the text of a rule, which is at midnight. -/
def midnight : Until → Option Int
  | .date u => some (combine u 0)
  | .datetime _ => none

/-- A recurrence that is understood says what the rule says, up to what BYMONTHDAY repeats. -/
theorem understood_says {rr : RRule} {r : Rule} (h : getRecurrenceRule rr = .ok r) {bm ex : List Int} {R : Recur}
    (hm : meaning rr bm ex = some R) {dt : Int} (hu : Understood R (dtDate dt)) :
    Plain r dt ∧ ∃ bm', Says { R with bymonthday := bm', exdates := [], untl := r.untl.bind midnight } r (dtDate dt) ∧
      (∀ d, Selected { R with bymonthday := bm', exdates := [], untl := r.untl.bind midnight } (dtDate dt) d ↔
        Selected R (dtDate dt) d) ∧
      (r.kind = .monthly .lastweekday → R.byday = [(-1, weekday (dtDate dt))]) := by
  obtain ⟨f, k, hf, hk, rfl⟩ := getRecurrenceRule_parts h
  unfold meaning at hm
  rw [hf] at hm
  simp only [Option.bind_some] at hm
  cases hfr : freqOf f with
  | none => rw [hfr] at hm; cases hm
  | some fr =>
    rw [hfr] at hm
    simp only [Option.bind_some] at hm
    cases hdays : (rr.byday.getD []).mapM fun s => readDay s.toList with
    | none => rw [hdays] at hm; cases hm
    | some days =>
      rw [hdays] at hm
      simp only [Option.map_some, Option.some.injEq] at hm
      subst hm
      obtain ⟨hi, hu⟩ := hu
      simp only [] at hi hu ⊢
      have hunt : ∀ t, ((rr.untl.getD []).head?).bind midnight = some t ↔
          ∃ u, (rr.untl.getD []).head? = some (.date u) ∧ t = combine u 0 := by
        intro t
        cases (rr.untl.getD []).head? with
        | none => simp
        | some u => cases u <;> simp [midnight, eq_comm]
      unfold freqOf at hfr
      unfold ruleOfFreq at hk
      by_cases f1 : f = "DAILY"
      · rw [if_pos f1] at hfr hk
        injection hfr with hfr; subst hfr
        have hk := new_fields hk
        injection hk with hk _ _ _ _; subst hk
        simp only [] at hu
        obtain ⟨rfl, rfl⟩ := hu
        refine ⟨⟨?_, ?_, ?_, ?_⟩, [], ⟨rfl, rfl, hunt, rfl, rfl, rfl, rfl⟩, fun d => Iff.rfl, ?_⟩ <;> simp
      · rw [if_neg f1] at hfr hk
        by_cases f2 : f = "YEARLY"
        · subst f2
          simp only [String.reduceEq, if_true, if_false] at hfr hk
          injection hfr with hfr; subst hfr
          have hk := new_fields hk
          injection hk with hk _ _ _ _; subst hk
          simp only [] at hu
          obtain ⟨h29, rfl, rfl⟩ := hu
          refine ⟨⟨?_, fun _ => h29, ?_, ?_⟩, [], ⟨rfl, rfl, hunt, rfl, rfl, rfl, rfl⟩, fun d => Iff.rfl, ?_⟩ <;> simp
        · rw [if_neg f2] at hk
          by_cases f3 : f = "WEEKLY"
          · rw [if_pos f3] at hfr hk
            injection hfr with hfr; subst hfr
            simp only [bind_ok] at hk
            obtain ⟨wds, hw, hk⟩ := hk
            have hk := new_fields hk
            injection hk with hk _ _ _ _; subst hk
            have hd := weekdayIndexes_days hw
            rw [hdays] at hd
            injection hd with hd; subst hd
            simp only [] at hu
            obtain ⟨hu, rfl⟩ := hu
            refine ⟨⟨?_, ?_, ?_, ?_⟩, [], ⟨rfl, rfl, hunt, rfl, rfl, rfl, rfl⟩, fun d => Iff.rfl, ?_⟩
            · intro w hw
              injection hw with hw; subst hw
              rcases hu with hu | ⟨p, hp, hu⟩
              · left; simpa using hu
              · right
                obtain ⟨x, hx, rfl⟩ := List.mem_map.1 hp
                rw [← hu]; exact hx
            all_goals simp
          · rw [if_neg f3] at hfr hk
            by_cases f4 : f = "MONTHLY"
            · rw [if_pos f4] at hfr hk
              injection hfr with hfr; subst hfr
              simp only [] at hu
              cases hb : rr.byday with
              | none =>
                rw [hb] at hk hdays
                have hk := new_fields hk
                injection hk with hk _ _ _ _; subst hk
                have hdays : days = [] := by
                  simp only [Option.getD_none, List.mapM_nil] at hdays
                  injection hdays with hdays; exact hdays.symm
                subst hdays
                simp only [true_and, List.ne_cons_self, false_and, or_false] at hu
                refine ⟨⟨?_, ?_, ?_, ?_⟩, [dday (dtDate dt)], ⟨rfl, rfl, hunt, rfl, rfl, rfl, rfl⟩, fun d => ?_, ?_⟩
                · simp
                · simp
                · simp
                · simp
                · have hd := validYmd_date d
                  have hd' := validYmd_date (dtDate dt)
                  unfold validYmd at hd hd'
                  have key : ∀ n, n = dday (dtDate dt) → (OnMonthday n d ↔ dday d = dday (dtDate dt)) := by
                    rintro n rfl
                    unfold OnMonthday
                    omega
                  unfold Selected ByMonthday
                  simp only [List.cons_ne_nil, and_false, if_false, List.mem_singleton, exists_eq_left, true_or, true_and,
                    false_or]
                  refine and_congr_right fun _ => ?_
                  rw [key _ rfl]
                  split
                  · exact Iff.rfl
                  · rename_i hne
                    constructor
                    · intro hh
                      right
                      cases bm with
                      | nil => exact absurd rfl hne
                      | cons n l => exact ⟨n, by simp, (key n (hu n (by simp))).2 hh⟩
                    · rintro (hh | ⟨n, hn, hh⟩)
                      · exact absurd hh hne
                      · exact (key n (hu n hn)).1 hh
                · simp
              | some l =>
                rw [hb] at hk hdays
                cases l with
                | nil => cases hk
                | cons str l =>
                  simp only [Option.getD_some, optMapM_cons] at hdays
                  simp only [] at hk
                  cases hd0 : readDay str.toList with
                  | none => rw [hd0] at hdays; cases hdays
                  | some p =>
                    obtain ⟨n, w⟩ := p
                    rw [hd0] at hdays
                    simp only [Option.bind_some] at hdays
                    cases hmore : l.mapM fun s => readDay s.toList with
                    | none => rw [hmore] at hdays; cases hdays
                    | some more =>
                      rw [hmore] at hdays
                      simp only [Option.map_some, Option.some.injEq] at hdays
                      subst hdays
                      simp only [List.cons_ne_nil, false_and, false_or, List.cons.injEq, Prod.mk.injEq] at hu
                      obtain ⟨sg1, sg2⟩ := readDay_sign hd0
                      have h1 : 1 ≤ dday (dtDate dt) := (validYmd_date (dtDate dt)).2.2.1
                      rcases hu with ⟨⟨⟨rfl, rfl⟩, rfl⟩, h28, rfl⟩ | ⟨⟨⟨rfl, rfl⟩, rfl⟩, hlast, rfl⟩
                      · obtain ⟨c, rest, hc, hne⟩ := sg1 (by omega)
                        rw [hc] at hk
                        simp only [hne, if_false] at hk
                        have hk := new_fields hk
                        injection hk with hk _ _ _ _; subst hk
                        refine ⟨⟨?_, ?_, fun _ => h28, ?_⟩, [], ⟨rfl, rfl, hunt, rfl, rfl, rfl, rfl⟩, fun d => Iff.rfl, ?_⟩ <;>
                          simp
                      · obtain ⟨rest, hc⟩ := sg2 (by omega)
                        rw [hc] at hk
                        simp only [if_true] at hk
                        have hk := new_fields hk
                        injection hk with hk _ _ _ _; subst hk
                        refine ⟨⟨?_, ?_, ?_, fun _ => hlast⟩, [], ⟨rfl, rfl, hunt, rfl, rfl, rfl, rfl⟩, fun d => Iff.rfl, ?_⟩ <;>
                          simp
            · rw [if_neg f4] at hk
              cases hk

/-! ### C123 -/

/-- What an imported rule generates, for a recurrence that is understood. -/
theorem rule_means {rr : RRule} {r : Rule} (h : getRecurrenceRule rr = .ok r) {bm ex : List Int} {R : Recur}
    (hm : meaning rr bm ex = some R) (hd : ∀ t l, rr.untl ≠ some (.datetime t :: l)) {dt : Int}
    (hdt : dtInRange dt = true) (hu : Understood R (dtDate dt)) (en : Option Int) (d : Int)
    (hex : d ∉ R.exdates) (hlast : R.byday = [(-1, weekday (dtDate dt))] → ¬ InLastMonth d) :
    d ∈ (r.apply dt en).1 ↔ Recurs R dt d ∧ ∀ e, en = some e → d ≤ e := by
  obtain ⟨hp, bm', hs, hsel, hl⟩ := understood_says h hm hu
  obtain ⟨f, k, hf, hk, rfl⟩ := getRecurrenceRule_parts h
  have hR : R.interval = ((rr.interval.getD []).head?).getD 1 ∧ R.count = (rr.count.getD []).head? ∧
      R.untl = ((rr.untl.getD []).head?).map untilOf := by
    unfold meaning at hm
    cases hfr : rr.freq.bind freqOf with
    | none => rw [hfr] at hm; cases hm
    | some fr =>
      rw [hfr] at hm
      simp only [Option.bind_some] at hm
      cases hdays : (rr.byday.getD []).mapM fun s => readDay s.toList with
      | none => rw [hdays] at hm; cases hm
      | some days =>
        rw [hdays] at hm
        simp only [Option.map_some, Option.some.injEq] at hm
        subst hm
        exact ⟨rfl, rfl, rfl⟩
  obtain ⟨e1, e2, e3⟩ := hR
  have hud : UntilIsDate ⟨k, ((rr.interval.getD []).head?).getD 1, (rr.count.getD []).head?, (rr.untl.getD []).head?, []⟩ := by
    intro t ht
    simp only [] at ht
    cases hul : rr.untl with
    | none => rw [hul] at ht; cases ht
    | some l =>
      cases l with
      | nil => rw [hul] at ht; cases ht
      | cons u l =>
        rw [hul] at ht
        simp only [Option.getD_some, List.head?_cons, Option.some.injEq] at ht
        exact hd t l (by rw [hul, ht])
  rw [apply_inSet (by rw [← e1]; exact hu.1) hdt hp hud hs en d]
  have hset : ∀ d, InSet { R with bymonthday := bm', exdates := [], untl := ((rr.untl.getD []).head?).bind midnight } (dtDate dt) d ↔
      InSet R (dtDate dt) d := by
    intro d
    unfold InSet
    rw [hsel d]
  simp only [hset] at *
  unfold Recurs
  rw [e2, e3]
  have huntil : (∀ u, (rr.untl.getD []).head? = some (.date u) → d ≤ u) ↔
      ∀ t, ((rr.untl.getD []).head?).map untilOf = some t → combine d (dtTime dt) ≤ t := by
    have ht := dtTime_range dt
    cases hul : (rr.untl.getD []).head? with
    | none => simp
    | some u =>
      cases u with
      | datetime t =>
        exact absurd hul (hud t)
      | date u =>
        simp only [Option.some.injEq, Until.date.injEq, forall_eq', Option.map_some, untilOf]
        unfold combine
        unfold DAY at *
        omega
  constructor
  · rintro ⟨h1, h2, h3, -, h5, -⟩
    exact ⟨⟨h1, h2, huntil.1 h3, hex⟩, h5⟩
  · rintro ⟨⟨h1, h2, h3, -⟩, h5⟩
    exact ⟨h1, h2, huntil.2 h3, by simp, h5, fun hh => hlast (hl hh.1) hh.2⟩

/-- C123: the dates of an imported event are those its RRULE stands for.  Missing: UNTIL with a time; BY parts that say more
than the start; EXDATE; 29 February; last weekdays in December 9999 (false, the counterexamples below). -/
theorem C123_dates_partial (tz : LocalTz) (c : Calendar) (src : Source) (v : VEvent) (spec : Spec)
    (h : importSpec tz c src v = .ok spec) (rr : RRule) (hr : v.rrule = some rr)
    (bymonthday exdates : List Int) (R : Recur) (hm : meaning rr bymonthday exdates = some R)
    (hd : ∀ t l, rr.untl ≠ some (.datetime t :: l)) (hdt : dtInRange spec.dtstart = true)
    (hu : Understood R (dtDate spec.dtstart)) :
    ∃ r, spec.recurrence = some r ∧ ∀ en d, d ∉ R.exdates →
      (R.byday = [(-1, weekday (dtDate spec.dtstart))] → ¬ InLastMonth d) →
      (d ∈ (r.apply spec.dtstart en).1 ↔ Recurs R spec.dtstart d ∧ ∀ e, en = some e → d ≤ e) := by
  unfold importSpec at h
  simp only [bind_ok] at h
  obtain ⟨⟨dtstart, dur, allday⟩, h1, org, h2, rec, h3, h⟩ := h
  injection h with h; subst h
  rw [hr] at h3
  unfold importRule at h3
  simp only [bind_ok] at h3
  obtain ⟨r, h3, h4⟩ := h3
  injection h4 with h4; subst h4
  exact ⟨r, rfl, fun en d hex hl => rule_means h3 hm hd hdt hu en d hex hl⟩

/-- C123, the other parts: an event whose component has no RRULE does not recur. -/
theorem C123_once (tz : LocalTz) (c : Calendar) (src : Source) (v : VEvent) (spec : Spec)
    (h : importSpec tz c src v = .ok spec) (hr : v.rrule = none) : spec.recurrence = none := by
  unfold importSpec at h
  simp only [bind_ok] at h
  obtain ⟨⟨dtstart, dur, allday⟩, h1, org, h2, rec, h3, h⟩ := h
  injection h with h; subst h
  rw [hr] at h3
  injection h3 with h3
  exact h3.symm

/-- C123 fails for UNTIL with a time, as most programs write it: the event never takes place. -/
theorem C123_until_counterexample :
    ∃ r R, getRecurrenceRule { freq := some "DAILY", untl := some [.datetime (combine (ymd2ord 2026 3 5) 36000000000)] } = .ok r ∧
      meaning { freq := some "DAILY", untl := some [.datetime (combine (ymd2ord 2026 3 5) 36000000000)] } [] [] = some R ∧
      (r.apply Sample.day none).1 = [] ∧ Recurs R Sample.day (ymd2ord 2026 3 4) := by
  refine ⟨_, { freq := .daily, untl := some (combine (ymd2ord 2026 3 5) 36000000000) }, rfl, by decide +kernel, by decide +kernel,
    by decide +kernel, fun c h => (by cases h), fun u h => ?_, by decide⟩
  injection h with h
  subst h
  decide +kernel

/-- C123 fails for EXDATE: the excluded dates stay. -/
theorem C123_exdate_counterexample :
    ∃ r R, getRecurrenceRule { freq := some "DAILY" } = .ok r ∧
      meaning { freq := some "DAILY" } [] [ymd2ord 2026 3 4] = some R ∧
      ymd2ord 2026 3 4 ∈ (r.apply Sample.day (some (ymd2ord 2026 3 10))).1 ∧ ¬ Recurs R Sample.day (ymd2ord 2026 3 4) :=
  ⟨_, { freq := .daily, exdates := [ymd2ord 2026 3 4] }, rfl, by decide +kernel, by decide +kernel,
    fun h => h.2.2.2 (by decide)⟩

/-- C123 fails for a daily rule with BYDAY: Monday to Friday becomes every day. -/
theorem C123_workdays_counterexample :
    ∃ r R, getRecurrenceRule { freq := some "DAILY", byday := some ["MO", "TU", "WE", "TH", "FR"] } = .ok r ∧
      meaning { freq := some "DAILY", byday := some ["MO", "TU", "WE", "TH", "FR"] } [] [] = some R ∧
      (ymd2ord 2026 3 7) ∈ (r.apply Sample.day (some (ymd2ord 2026 3 10))).1 ∧
      ¬ Recurs R Sample.day (ymd2ord 2026 3 7) :=
  ⟨_, { freq := .daily, byday := [(0, 0), (0, 1), (0, 2), (0, 3), (0, 4)] }, rfl, by decide +kernel, by decide +kernel, fun h => absurd h.1 (by decide +kernel)⟩

/-- C123 fails for a weekly rule whose days do not include that of the start. -/
theorem C123_weekly_counterexample :
    ∃ r R, getRecurrenceRule { freq := some "WEEKLY", byday := some ["WE"] } = .ok r ∧
      meaning { freq := some "WEEKLY", byday := some ["WE"] } [] [] = some R ∧
      (ymd2ord 2026 3 9) ∈ (r.apply Sample.day (some (ymd2ord 2026 3 10))).1 ∧
      ¬ Recurs R Sample.day (ymd2ord 2026 3 9) :=
  ⟨_, { freq := .weekly, byday := [(0, 2)] }, rfl, by decide +kernel, by decide +kernel, fun h => absurd h.1 (by decide +kernel)⟩

/-- C123 fails for a monthly rule with a day without ordinal: every Monday becomes the first Monday of the month. -/
theorem C123_every_counterexample :
    ∃ r R, getRecurrenceRule { freq := some "MONTHLY", byday := some ["MO"] } = .ok r ∧
      meaning { freq := some "MONTHLY", byday := some ["MO"] } [] [] = some R ∧
      (ymd2ord 2026 3 9) ∉ (r.apply Sample.day (some (ymd2ord 2026 3 31))).1 ∧
      Recurs R Sample.day (ymd2ord 2026 3 9) :=
  ⟨_, { freq := .monthly, byday := [(0, 0)] }, rfl, by decide +kernel, by decide +kernel, ⟨by decide +kernel, fun c h => (by cases h), fun u h => (by cases h), by decide⟩⟩

/-- C123 fails for a monthly rule that does not fit its start: the second Tuesday becomes the first Monday. -/
theorem C123_other_day_counterexample :
    ∃ r R, getRecurrenceRule { freq := some "MONTHLY", byday := some ["2TU"] } = .ok r ∧
      meaning { freq := some "MONTHLY", byday := some ["2TU"] } [] [] = some R ∧
      (ymd2ord 2026 4 6) ∈ (r.apply Sample.day (some (ymd2ord 2026 4 30))).1 ∧
      (ymd2ord 2026 3 10) ∉ (r.apply Sample.day (some (ymd2ord 2026 4 30))).1 ∧
      ¬ Recurs R Sample.day (ymd2ord 2026 4 6) ∧
      Recurs R Sample.day (ymd2ord 2026 3 10) :=
  ⟨_, { freq := .monthly, byday := [(2, 1)] }, rfl, by decide +kernel, by decide +kernel, by decide +kernel, fun h => absurd h.1 (by decide +kernel), ⟨by decide +kernel, fun c h => (by cases h), fun u h => (by cases h), by decide⟩⟩

/-- C123 fails for a monthly rule with several days: all but the first are dropped. -/
theorem C123_several_counterexample :
    ∃ r R, getRecurrenceRule { freq := some "MONTHLY", byday := some ["1MO", "3MO"] } = .ok r ∧
      meaning { freq := some "MONTHLY", byday := some ["1MO", "3MO"] } [] [] = some R ∧
      (ymd2ord 2026 3 16) ∉ (r.apply Sample.day (some (ymd2ord 2026 3 31))).1 ∧
      Recurs R Sample.day (ymd2ord 2026 3 16) :=
  ⟨_, { freq := .monthly, byday := [(1, 0), (3, 0)] }, rfl, by decide +kernel, by decide +kernel, ⟨by decide +kernel, fun c h => (by cases h), fun u h => (by cases h), by decide⟩⟩

/-- C123 fails for BYMONTHDAY: the last day of every month becomes every 31st. -/
theorem C123_bymonthday_counterexample :
    ∃ r R, getRecurrenceRule { freq := some "MONTHLY" } = .ok r ∧
      meaning { freq := some "MONTHLY" } [-1] [] = some R ∧
      (ymd2ord 2026 4 30) ∉ (r.apply (dayAt 2026 3 31) (some (ymd2ord 2026 4 30))).1 ∧
      Recurs R (dayAt 2026 3 31) (ymd2ord 2026 4 30) :=
  ⟨_, { freq := .monthly, bymonthday := [-1] }, rfl, by decide +kernel, by decide +kernel, ⟨by decide +kernel, fun c h => (by cases h), fun u h => (by cases h), by decide⟩⟩

/-- C123 fails for the fifth Monday, which not every month has. -/
theorem C123_fifth_counterexample :
    ∃ r R, getRecurrenceRule { freq := some "MONTHLY", byday := some ["5MO"] } = .ok r ∧
      meaning { freq := some "MONTHLY", byday := some ["5MO"] } [] [] = some R ∧
      (ymd2ord 2026 5 4) ∈ (r.apply (dayAt 2026 3 30) (some (ymd2ord 2026 5 10))).1 ∧
      ¬ Recurs R (dayAt 2026 3 30) (ymd2ord 2026 5 4) :=
  ⟨_, { freq := .monthly, byday := [(5, 0)] }, rfl, by decide +kernel, by decide +kernel, fun h => absurd h.1 (by decide +kernel)⟩

/-- C123 fails for 29 February. -/
theorem C123_feb29_counterexample :
    ∃ r R, getRecurrenceRule { freq := some "YEARLY" } = .ok r ∧
      meaning { freq := some "YEARLY" } [] [] = some R ∧
      (ymd2ord 2032 2 29) ∉ (r.apply (dayAt 2028 2 29) none).1 ∧
      Recurs R (dayAt 2028 2 29) (ymd2ord 2032 2 29) :=
  ⟨_, { freq := .yearly }, rfl, by decide +kernel, by decide +kernel, ⟨by decide +kernel, fun c h => (by cases h), fun u h => (by cases h), by decide⟩⟩

/-- C123, concrete: the last Tuesday of every second month, three times. -/
example :
    let rr : RRule := { freq := some "MONTHLY", interval := some [2], byday := some ["-1TU"], count := some [3] }
    ∃ r R, getRecurrenceRule rr = .ok r ∧ meaning rr [] [] = some R ∧ dtInRange (dayAt 2026 3 31) = true ∧
      Understood R (dtDate (dayAt 2026 3 31)) ∧
      r.apply (dayAt 2026 3 31) none = ([ymd2ord 2026 3 31, ymd2ord 2026 5 26, ymd2ord 2026 7 28], .ok ()) := by
  refine ⟨_, { freq := .monthly, interval := 2, byday := [(-1, 1)], count := some 3 }, rfl, by decide +kernel, by decide +kernel,
    ⟨by decide, Or.inr (Or.inr (by decide +kernel))⟩, by decide +kernel⟩

end CalCore
