import Verif.Props.Dates
/- Property C75: the ISO weeks given by `weeknr2datetime` and `getWeeksInYear` tile the calendar. -/
namespace CalCore
open Spec

/-- A week of the calendar: `week` is one of the weeks of `year`, and starts at midnight `t`. -/
def IsWeekStart (year week t : Int) : Prop :=
  1 ≤ year ∧ year ≤ 9999 ∧ ∃ n, getWeeksInYear year = .ok n ∧ 1 ≤ week ∧ week ≤ n ∧
    weeknr2datetime year week none = .ok t

theorem weekStart_eq {year week t : Int} (h : IsWeekStart year week t) :
    t = combine (isoWeek1Monday year + 7 * (week - 1)) 0 ∧ 0 ≤ 7 * (week - 1) ∧
      7 * week ≤ isoWeek1Monday (year + 1) - isoWeek1Monday year := by
  obtain ⟨h1, h2, n, hn, h3, h4, ht⟩ := h
  obtain ⟨n', hn', _, hlen⟩ := C05_getWeeksInYear year h1 h2
  rw [hn] at hn'
  injection hn' with hn'
  subst hn'
  have hlen := hlen _ _ ((week1_iff _ _).2 rfl) ((week1_iff _ _).2 rfl)
  rw [weeknr_eq h1 h2, bind_ok] at ht
  obtain ⟨r, hr, ht⟩ := ht
  rw [dtAdd_ok] at hr
  injection ht with ht
  refine ⟨?_, by omega, by omega⟩
  rw [← ht, hr.2]
  unfold combine DAY; omega

/-- The Mondays of week 1 of later years are later. -/
theorem isoWeek1Monday_mono {y y' : Int} (h : y < y') : isoWeek1Monday y + 364 ≤ isoWeek1Monday y' := by
  have b0 := isoWeek1Monday_bounds y
  have b1 := isoWeek1Monday_bounds y'
  have m0 := isoWeek1Monday_mod y
  have m1 := isoWeek1Monday_mod y'
  have := daysBeforeYear_mono (y := y) (y' := y') (by omega)
  by_cases hy : y' = y + 1
  · subst hy
    rcases isoYear_length y with h | h <;> omega
  · omega

/-- C75: every date lies in exactly one week: there are a year, and a week of it, whose start is at most
six days before the date; and no other. -/
theorem C75_weeks_tile (d : Int) (hd : dateInRange d = true) :
    (∃ year week t, IsWeekStart year week t ∧ dtDate t ≤ d ∧ d < dtDate t + 7) ∧
    ∀ y w t y' w' t', IsWeekStart y w t → dtDate t ≤ d → d < dtDate t + 7 →
      IsWeekStart y' w' t' → dtDate t' ≤ d → d < dtDate t' + 7 → y = y' ∧ w = w' ∧ t = t' := by
  constructor
  · -- the year is that of the date or a neighbour
    have hy := (dateInRange_iff_year d).1 hd
    have hb := dyear_bounds d
    obtain ⟨year, hl, hr, h1, h2⟩ : ∃ y, isoWeek1Monday y ≤ d ∧ d < isoWeek1Monday (y + 1) ∧ 1 ≤ y ∧ y ≤ 9999 := by
      have b0 := isoWeek1Monday_bounds (dyear d)
      have b1 := isoWeek1Monday_bounds (dyear d + 1)
      have b2 := isoWeek1Monday_bounds (dyear d + 1 + 1)
      have b3 := isoWeek1Monday_bounds (dyear d - 1)
      have s1 := daysBeforeYear_succ (dyear d)
      have s2 := daysBeforeYear_succ (dyear d + 1)
      have s3 := daysBeforeYear_succ (dyear d - 1)
      have e3 : dyear d - 1 + 1 = dyear d := by omega
      rw [e3] at s3
      by_cases hlo : d < isoWeek1Monday (dyear d)
      · refine ⟨dyear d - 1, ?_, by rw [e3]; exact hlo, ?_, by omega⟩
        · split at s3 <;> omega
        · -- in year 1, week 1 starts on January 1st
          refine Decidable.byContradiction fun hc => ?_
          have h1 : dyear d = 1 := by omega
          rw [h1] at hlo
          have : isoWeek1Monday 1 = 1 := by decide
          have := (dateInRange_iff d).1 hd
          omega
      · by_cases hhi : d < isoWeek1Monday (dyear d + 1)
        · exact ⟨dyear d, by omega, hhi, hy.1, hy.2⟩
        · refine ⟨dyear d + 1, by omega, ?_, by omega, ?_⟩
          · split at s2 <;> omega
          · refine Decidable.byContradiction fun hc => ?_
            have h1 : dyear d = 9999 := by omega
            rw [h1] at hhi
            have : isoWeek1Monday (9999 + 1) = 3652062 := by decide
            have hm : (MAXORD : Int) = 3652059 := rfl
            have := (dateInRange_iff d).1 hd
            omega
    obtain ⟨n, hn, _, hlen⟩ := C05_getWeeksInYear year h1 h2
    have hlen := hlen _ _ ((week1_iff _ _).2 rfl) ((week1_iff _ _).2 rfl)
    refine ⟨year, (d - isoWeek1Monday year) / 7 + 1,
      combine (isoWeek1Monday year + 7 * ((d - isoWeek1Monday year) / 7)) 0,
      ⟨h1, h2, n, hn, by omega, by omega, ?_⟩, ?_, ?_⟩
    · rw [weeknr_eq h1 h2, bind_ok]
      refine ⟨combine (isoWeek1Monday year) 0 + 7 * ((d - isoWeek1Monday year) / 7 + 1 - 1) * DAY, dtAdd_ok.2 ⟨?_, rfl⟩, ?_⟩
      · have hlow : 1 ≤ isoWeek1Monday year := by
          have a := daysBeforeYear_mono (y := 1) h1
          have c1 : daysBeforeYear 1 = 0 := by decide
          rw [isoWeek1Monday_eq, jan4_eq]; unfold weekday; omega
        have hr := (dateInRange_iff d).1 hd
        rw [dtInRange_iff]
        unfold combine DAY MAXORD at *
        omega
      · simp only []
        congr 1
        unfold combine DAY; omega
    · rw [dtDate_midnight]; omega
    · rw [dtDate_midnight]; omega
  · intro y w t y' w' t' h h1 h2 h' h1' h2'
    obtain ⟨rfl, a1, a2⟩ := weekStart_eq h
    obtain ⟨rfl, a1', a2'⟩ := weekStart_eq h'
    rw [dtDate_midnight] at *
    have hyy : y = y' := by
      rcases Int.lt_trichotomy y y' with hlt | heq | hlt
      · by_cases hy : y' = y + 1
        · subst hy; omega
        · have k1 := isoWeek1Monday_mono (y := y + 1) (y' := y') (by omega); omega
      · exact heq
      · by_cases hy : y = y' + 1
        · subst hy; omega
        · have k1 := isoWeek1Monday_mono (y := y' + 1) (y' := y) (by omega); omega
    subst hyy
    have m := isoWeek1Monday_mod y
    have : w = w' := by omega
    subst this
    exact ⟨rfl, rfl, rfl⟩

/-- C75: consecutive weeks are seven days apart, also from the last week of a year to the first of the
next. -/
theorem C75_weeks_consecutive (year week t t' : Int) (h : IsWeekStart year week t) :
    (IsWeekStart year (week + 1) t' → t' = t + 7 * DAY) ∧
    (getWeeksInYear year = .ok week → IsWeekStart (year + 1) 1 t' → t' = t + 7 * DAY) := by
  obtain ⟨rfl, a1, a2⟩ := weekStart_eq h
  constructor
  · intro h'
    obtain ⟨rfl, a1', a2'⟩ := weekStart_eq h'
    unfold combine DAY; omega
  · intro hn h'
    obtain ⟨rfl, a1', a2'⟩ := weekStart_eq h'
    obtain ⟨n', hn', _, hlen⟩ := C05_getWeeksInYear year h.1 h.2.1
    rw [hn] at hn'
    injection hn' with hn'
    subst hn'
    have hlen := hlen _ _ ((week1_iff _ _).2 rfl) ((week1_iff _ _).2 rfl)
    unfold combine DAY; omega

/-- C75, concrete: 2021-01-02 is in week 53 of 2020, which is followed by week 1 of 2021. -/
example : getWeeksInYear 2020 = .ok 53 ∧ getWeeksInYear 2021 = .ok 52 ∧
    weeknr2datetime 2020 53 none = mkDateTime 2020 12 28 ∧ weeknr2datetime 2021 1 none = mkDateTime 2021 1 4 ∧
    dateInRange (ymd2ord 2021 1 2) = true ∧
    ymd2ord 2020 12 28 ≤ ymd2ord 2021 1 2 ∧ ymd2ord 2021 1 2 < ymd2ord 2020 12 28 + 7 := by decide

end CalCore
