import Verif.Lemmas.Calendar
import Verif.Spec.Dates
/- Properties C04-C07: isoweek.py, weekspan and monthindex. -/
namespace CalCore
open Spec

theorem mondayOf_unique {m m' d : Int} (h : IsMondayOf m d) (h' : IsMondayOf m' d) : m = m' := by
  unfold IsMondayOf weekday at *; omega

theorem isMondayOf_self (d : Int) : IsMondayOf (d - weekday d) d := by
  unfold IsMondayOf weekday; omega

theorem week1_iff (y m : Int) : IsWeek1Monday y m ↔ m = isoWeek1Monday y := by
  unfold IsWeek1Monday
  rw [isoWeek1Monday_eq]
  constructor
  · intro h; exact mondayOf_unique h (isMondayOf_self _)
  · rintro rfl; exact isMondayOf_self _

theorem mkDateTime_ok {y m d : Int} (h : validYmd y m d) (h1 : 1 ≤ y) (h2 : y ≤ 9999) :
    mkDateTime y m d = .ok (combine (ymd2ord y m d) 0) := by
  unfold mkDateTime; rw [mkDate_ok h h1 h2]; rfl

theorem dtDate_midnight (d : Int) : dtDate (combine d 0) = d :=
  dtDate_combine d 0 (by omega) (by decide)

theorem isoYear_length (y : Int) :
    isoWeek1Monday (y + 1) - isoWeek1Monday y = 364 ∨
      isoWeek1Monday (y + 1) - isoWeek1Monday y = 371 := by
  have b0 := isoWeek1Monday_bounds y
  have b1 := isoWeek1Monday_bounds (y + 1)
  have m0 := isoWeek1Monday_mod y
  have m1 := isoWeek1Monday_mod (y + 1)
  have s0 := daysBeforeYear_succ y
  split at s0 <;> omega

/-- C05: for every year, getWeeksInYear returns `n` exactly when the Mondays of week 1 of this and
of the next year are `n` weeks apart; it is 52 or 53. -/
theorem C05_getWeeksInYear (year : Int) (h1 : 1 ≤ year) (h2 : year ≤ 9999) :
    ∃ n, getWeeksInYear year = .ok n ∧ (n = 52 ∨ n = 53) ∧
      ∀ m m', IsWeek1Monday year m → IsWeek1Monday (year + 1) m' → m' - m = 7 * n := by
  have e1 : mkDateTime year 1 1 = .ok (combine (ymd2ord year 1 1) 0) :=
    mkDateTime_ok ⟨by omega, by omega, by omega, by have := daysInMonth_pos year 1; omega⟩ h1 h2
  have e2 : mkDateTime year 12 31 = .ok (combine (ymd2ord year 12 31) 0) :=
    mkDateTime_ok ⟨by omega, by omega, by omega, by simp [daysInMonth]⟩ h1 h2
  have key : ∀ m m', IsWeek1Monday year m → IsWeek1Monday (year + 1) m' →
      m' - m = 7 * (if weekday (ymd2ord year 1 1) + 1 = 4 ∨ weekday (ymd2ord year 12 31) + 1 = 4
        then 53 else 52) := by
    intro m m' hm hm'
    rw [week1_iff] at hm hm'
    subst hm hm'
    have l := isoYear_length year
    rw [isoWeek1Monday_eq, isoWeek1Monday_eq, jan4_eq, jan4_eq] at *
    rw [jan1_eq, dec31_eq]
    have s0 := daysBeforeYear_succ year
    unfold weekday at *
    split at s0 <;> split <;> omega
  unfold getWeeksInYear
  rw [e1, e2]
  simp only [ok_bind, dtDate_midnight]
  split
  · rename_i h; exact ⟨53, rfl, Or.inr rfl, fun m m' hm hm' => by rw [key m m' hm hm', if_pos h]⟩
  · rename_i h; exact ⟨52, rfl, Or.inl rfl, fun m m' hm hm' => by rw [key m m' hm hm', if_neg h]⟩

/-- C05: a 53-week year and a 52-week year. -/
example : getWeeksInYear 2004 = .ok 53 ∧ getWeeksInYear 2005 = .ok 52 := by decide

theorem weeknr_eq {year : Int} (h1 : 1 ≤ year) (h2 : year ≤ 9999) (week : Int) (wd : Option Int) :
    weeknr2datetime year week wd =
      (do
        let result ← dtAdd (combine (isoWeek1Monday year) 0) (7 * (week - 1) * DAY)
        match wd with
        | none => .ok result
        | some w => dtAdd result ((w - 1) * DAY)) := by
  have e1 : mkDateTime year 1 4 = .ok (combine (ymd2ord year 1 4) 0) :=
    mkDateTime_ok ⟨by omega, by omega, by omega, by have := daysInMonth_pos year 1; omega⟩ h1 h2
  have e2 : (isocalendar (ymd2ord year 1 4)).2.1 = 1 := by
    have hl := isoYear_length year
    have : isoWeek1Monday year = ymd2ord year 1 4 - weekday (ymd2ord year 1 4) :=
      isoWeek1Monday_eq year
    have hw := weekday_range (ymd2ord year 1 4)
    rw [isocalendar_eq (y := year) (by omega) (by omega)]
    simp only []; omega
  have e3 : dtAdd (combine (ymd2ord year 1 4) 0) (-(weekday (ymd2ord year 1 4)) * DAY)
      = .ok (combine (isoWeek1Monday year) 0) := by
    rw [dtAdd_ok, isoWeek1Monday_eq, dtInRange_iff, jan4_eq]
    have a := daysBeforeYear_mono (y := 1) h1
    have b := daysBeforeYear_mono (y := year) (y' := 9999) h2
    have c1 : daysBeforeYear 1 = 0 := by decide
    have c2 : daysBeforeYear 9999 = 3651694 := by decide
    unfold combine DAY MAXORD weekday
    omega
  unfold weeknr2datetime
  rw [e1]
  simp only [ok_bind, dtDate_midnight, e2, if_true]
  rw [e3]
  simp only [ok_bind]
  congr 1

/-- C04: for every year, ISO week of that year and weekday, the result (if any) is midnight of the
day whose isocalendar is (year, week, weekday); the call fails only with OverflowError and only if
that day is outside the datetime range; omitting the weekday means Monday. -/
theorem C04_weeknr2datetime (year week wd n : Int) (h1 : 1 ≤ year) (h2 : year ≤ 9999)
    (hn : getWeeksInYear year = .ok n) (hw : 1 ≤ week ∧ week ≤ n) (hd : 1 ≤ wd ∧ wd ≤ 7) :
    (∀ t, weeknr2datetime year week (some wd) = .ok t →
        isocalendar (dtDate t) = (year, week, wd) ∧ IsIsoDay year week wd (dtDate t) ∧ dtTime t = 0) ∧
    (∀ f, weeknr2datetime year week (some wd) = .error f →
        f = .py .OverflowError ∧ ∀ d, IsIsoDay year week wd d → dateInRange d = false) ∧
    weeknr2datetime year week none = weeknr2datetime year week (some 1) := by
  obtain ⟨n', hn', _, hlen⟩ := C05_getWeeksInYear year h1 h2
  rw [hn] at hn'
  injection hn' with hn'
  subst hn'
  have hlen := hlen _ _ ((week1_iff _ _).2 rfl) ((week1_iff _ _).2 rfl)
  have hlow : 1 ≤ isoWeek1Monday year := by
    have a := daysBeforeYear_mono (y := 1) h1
    have c1 : daysBeforeYear 1 = 0 := by decide
    rw [isoWeek1Monday_eq, jan4_eq]; unfold weekday; omega
  rw [weeknr_eq h1 h2 week (some wd), weeknr_eq h1 h2 week none, weeknr_eq h1 h2 week (some 1)]
  refine ⟨?_, ?_, ?_⟩
  · intro t ht
    rw [bind_ok] at ht
    obtain ⟨r, hr, ht⟩ := ht
    rw [dtAdd_ok] at hr
    obtain ⟨_, rfl⟩ := hr
    simp only [] at ht
    rw [dtAdd_ok] at ht
    obtain ⟨_, rfl⟩ := ht
    have e : combine (isoWeek1Monday year) 0 + 7 * (week - 1) * DAY + (wd - 1) * DAY
        = combine (isoWeek1Monday year + 7 * (week - 1) + (wd - 1)) 0 := by
      unfold combine DAY; omega
    rw [e, dtDate_midnight, isocalendar_eq (y := year) (by omega) (by omega)]
    refine ⟨?_, ⟨_, (week1_iff _ _).2 rfl, rfl⟩, dtTime_combine _ 0 (by omega) (by decide)⟩
    refine Prod.ext rfl (Prod.ext ?_ ?_)
    · simp only []; omega
    · simp only []; omega
  · intro f hf
    have key : ∀ x : Int, (dtAdd (combine (isoWeek1Monday year) 0) x = .error f →
        f = .py .OverflowError ∧ dtInRange (combine (isoWeek1Monday year) 0 + x) = false) := by
      intro x hx
      unfold dtAdd at hx
      split at hx
      · cases hx
      · rename_i hh
        injection hx with hx
        exact ⟨hx.symm, by simpa using hh⟩
    rw [bind_error] at hf
    have hr : f = .py .OverflowError ∧ dtInRange (combine (isoWeek1Monday year
        + 7 * (week - 1) + (wd - 1)) 0) = false := by
      rcases hf with hf | ⟨r, hr, hf⟩
      · obtain ⟨a, b⟩ := key _ hf
        refine ⟨a, ?_⟩
        rw [Bool.eq_false_iff] at *
        intro hc; apply b
        rw [dtInRange_iff] at *
        unfold combine DAY MAXORD at *
        omega
      · rw [dtAdd_ok] at hr
        obtain ⟨_, rfl⟩ := hr
        simp only [] at hf
        unfold dtAdd at hf
        split at hf
        · cases hf
        · rename_i hh
          injection hf with hf
          refine ⟨hf.symm, ?_⟩
          rw [Bool.eq_false_iff]
          intro hc; apply hh
          rw [dtInRange_iff] at *
          unfold combine DAY MAXORD at *
          omega
    refine ⟨hr.1, ?_⟩
    rintro d ⟨m, hm, rfl⟩
    rw [week1_iff] at hm
    subst hm
    rw [← hr.2]
    rw [Bool.eq_iff_iff, dtInRange_date, dtDate_midnight]
  · generalize hx : dtAdd (combine (isoWeek1Monday year) 0) (7 * (week - 1) * DAY) = x
    cases x with
    | error f => rfl
    | ok r =>
      rw [dtAdd_ok] at hx
      simp only [ok_bind]
      symm
      rw [dtAdd_ok]
      have : (1 - 1) * DAY = 0 := by decide
      rw [this, Int.add_zero, hx.2]
      exact ⟨hx.1, rfl⟩

/-- C04: week 53 of 2004 reaches into 2005; the last ISO week of 9999 is partly out of range. -/
example : weeknr2datetime 2004 53 (some 7) = mkDateTime 2005 1 2 ∧
    getWeeksInYear 9999 = .ok 52 ∧
    (weeknr2datetime 9999 52 (some 5)).isOk = true ∧
    weeknr2datetime 9999 52 (some 6) = raise .OverflowError := by decide

/-- C06: weekspan is defined on all dates; it counts the weeks between the Mondays of the two dates,
is zero exactly within one ISO week, additive, antisymmetric, and moves by one with seven days. -/
theorem C06_weekspan (a b c : Int) (ha : dateInRange a = true) (hb : dateInRange b = true)
    (hc : dateInRange c = true) :
    ∃ k, weekspan a b = .ok k ∧
      (∀ m m', IsMondayOf m a → IsMondayOf m' b → m' - m = 7 * k) ∧
      (k = 0 ↔ ∃ m, IsMondayOf m a ∧ IsMondayOf m b) ∧
      weekspan b a = .ok (-k) ∧
      (∀ k', weekspan b c = .ok k' → weekspan a c = .ok (k + k')) ∧
      (c = b + 7 → weekspan a c = .ok (k + 1)) := by
  refine ⟨_, weekspan_eq ha hb, ?_, ?_, ?_, ?_, ?_⟩
  · intro m m' hm hm'
    have := mondayOf_unique hm (isMondayOf_self a)
    have := mondayOf_unique hm' (isMondayOf_self b)
    unfold weekday at *; omega
  · constructor
    · intro h
      refine ⟨a - weekday a, isMondayOf_self a, ?_⟩
      unfold IsMondayOf weekday at *; omega
    · rintro ⟨m, hm, hm'⟩
      have := mondayOf_unique hm (isMondayOf_self a)
      have := mondayOf_unique hm' (isMondayOf_self b)
      omega
  · rw [weekspan_eq hb ha]; congr 1; unfold weekday; omega
  · intro k' hk'
    rw [weekspan_eq hb hc] at hk'
    injection hk' with hk'
    rw [weekspan_eq ha hc, ← hk']; congr 1; unfold weekday; omega
  · rintro rfl
    rw [weekspan_eq ha hc]; congr 1; unfold weekday; omega

/-- C06: Sunday 2005-04-03 and Monday 2005-04-04 are in consecutive weeks. -/
example : weekspan (ymd2ord 2005 4 3) (ymd2ord 2005 4 4) = .ok 1 ∧
    weekspan (ymd2ord 2005 4 4) (ymd2ord 2005 4 10) = .ok 0 := by decide

theorem countWeekday_eq (y m wd : Int) (hw : 0 ≤ wd ∧ wd ≤ 6) (n : Nat) :
    (countWeekday y m wd n : Int) =
      (n + 6 - (wd - weekday (ymd2ord y m 1)) % 7) / 7 := by
  induction n with
  | zero => simp only [countWeekday, List.range_zero, List.countP_nil]; omega
  | succ n ih =>
    unfold countWeekday at *
    rw [List.range_succ, List.countP_append]
    simp only [List.countP_cons, List.countP_nil, decide_eq_true_eq, Nat.zero_add]
    rw [ymd2ord_day1 y m (n + 1)]
    push_cast
    rw [ih]
    generalize ymd2ord y m 1 = o
    unfold weekday
    split <;> omega

/-- C07: for index 1..4 the result is the day of that month, with that weekday, before which exactly
`index - 1` days of the month have that weekday. -/
theorem C07_monthindex_pos (y m i wd : Int) (hy : 1 ≤ y ∧ y ≤ 9999) (hm : 1 ≤ m ∧ m ≤ 12)
    (hw : 0 ≤ wd ∧ wd ≤ 6) (hi : 1 ≤ i ∧ i ≤ 4) :
    ∃ d, monthindex y m i wd = .ok d ∧ dyear d = y ∧ dmonth d = m ∧ weekday d = wd ∧
      (countWeekday y m wd (dday d - 1).toNat : Int) = i - 1 := by
  have hd := daysInMonth_pos y m
  obtain ⟨k, hk⟩ : ∃ k, k = (wd - weekday (ymd2ord y m 1)) % 7 + 1 + (i - 1) * 7 := ⟨_, rfl⟩
  have hv : validYmd y m k := ⟨hm.1, hm.2, by omega, by omega⟩
  obtain ⟨d1, d2, d3⟩ := date_of_ord hv
  have hr : dateInRange (ymd2ord y m 1 + (k - 1)) = true := by
    rw [dateInRange_iff_year, d1]; exact hy
  refine ⟨ymd2ord y m 1 + (k - 1), ?_, d1, d2, ?_, ?_⟩
  · rw [monthindex_pos hy hm hw (by omega), dateAdd_ok]
    have e : ymd2ord y m 1 + (wd - weekday (ymd2ord y m 1)) % 7 + (i - 1) * 7
      = ymd2ord y m 1 + (k - 1) := by omega
    rw [e]; exact ⟨hr, rfl⟩
  · unfold weekday at *; omega
  · rw [countWeekday_eq y m wd hw, d3]; omega

/-- C07: for index -4..-1 the result is the day of that month, with that weekday, after which exactly
`-index - 1` days of the month have that weekday (the total minus those up to it).  In December 9999
the code raises ValueError instead, see `C07_monthindex_december_9999`. -/
theorem C07_monthindex_neg_partial (y m i wd : Int) (hy : 1 ≤ y ∧ y ≤ 9999) (hm : 1 ≤ m ∧ m ≤ 12)
    (hlast : y ≠ 9999 ∨ m ≠ 12) (hw : 0 ≤ wd ∧ wd ≤ 6) (hi : -4 ≤ i ∧ i ≤ -1) :
    ∃ d, monthindex y m i wd = .ok d ∧ dyear d = y ∧ dmonth d = m ∧ weekday d = wd ∧
      (countWeekday y m wd (daysInMonth y m).toNat : Int) - countWeekday y m wd (dday d).toNat
        = -i - 1 := by
  have hd := daysInMonth_pos y m
  obtain ⟨k, hk⟩ : ∃ k, k = daysInMonth y m + 1
      + (wd - weekday (ymd2ord y m 1 + daysInMonth y m)) % 7 + i * 7 := ⟨_, rfl⟩
  have hv : validYmd y m k := ⟨hm.1, hm.2, by omega, by omega⟩
  obtain ⟨d1, d2, d3⟩ := date_of_ord hv
  have hr : dateInRange (ymd2ord y m 1 + (k - 1)) = true := by
    rw [dateInRange_iff_year, d1]; exact hy
  refine ⟨ymd2ord y m 1 + (k - 1), ?_, d1, d2, ?_, ?_⟩
  · rw [monthindex_neg hy hm hlast hw (by omega), dateAdd_ok]
    have e : ymd2ord y m 1 + daysInMonth y m
        + (wd - weekday (ymd2ord y m 1 + daysInMonth y m)) % 7 + i * 7
      = ymd2ord y m 1 + (k - 1) := by omega
    rw [e]; exact ⟨hr, rfl⟩
  · unfold weekday at *; omega
  · rw [countWeekday_eq y m wd hw, countWeekday_eq y m wd hw, d3]
    unfold weekday at *; omega

/-- C07: index 5 (and in general every positive index): right weekday, `7 * (index - 1)` days after
the first such day of the month; it may leave the month. -/
theorem C07_monthindex_fifth (y m i wd : Int) (hy : 1 ≤ y ∧ y ≤ 9999) (hm : 1 ≤ m ∧ m ≤ 12)
    (hw : 0 ≤ wd ∧ wd ≤ 6) (hi : 1 ≤ i) (d : Int) (h : monthindex y m i wd = .ok d) :
    weekday d = wd ∧ ∃ d1, monthindex y m 1 wd = .ok d1 ∧ d = d1 + 7 * (i - 1) := by
  obtain ⟨d1, h1, _, _, h2, _⟩ := C07_monthindex_pos y m 1 wd hy hm hw (by omega)
  rw [monthindex_pos hy hm hw (by omega), dateAdd_ok] at h h1
  refine ⟨?_, d1, ?_, ?_⟩
  · rw [h.2]; unfold weekday; omega
  · rw [monthindex_pos hy hm hw (by omega), dateAdd_ok]; exact h1
  · rw [h.2, h1.2]; omega

/-- C07: index -5 (and in general every negative index): right weekday, 7 days earlier per step than
the last such day of the month; it may leave the month. -/
theorem C07_monthindex_minus_fifth (y m i wd : Int) (hy : 1 ≤ y ∧ y ≤ 9999) (hm : 1 ≤ m ∧ m ≤ 12)
    (hlast : y ≠ 9999 ∨ m ≠ 12) (hw : 0 ≤ wd ∧ wd ≤ 6) (hi : i ≤ -1) (d : Int)
    (h : monthindex y m i wd = .ok d) :
    weekday d = wd ∧ ∃ d1, monthindex y m (-1) wd = .ok d1 ∧ d = d1 + 7 * (i + 1) := by
  obtain ⟨d1, h1, _, _, h2, _⟩ := C07_monthindex_neg_partial y m (-1) wd hy hm hlast hw (by omega)
  rw [monthindex_neg hy hm hlast hw (by omega), dateAdd_ok] at h h1
  refine ⟨?_, d1, ?_, ?_⟩
  · rw [h.2]; unfold weekday; omega
  · rw [monthindex_neg hy hm hlast hw (by omega), dateAdd_ok]; exact h1
  · rw [h.2, h1.2]; omega

/-- C07: in December 9999 every negative index raises ValueError. -/
theorem C07_monthindex_december_9999 (i wd : Int) (hi : i < 0) :
    monthindex 9999 12 i wd = raise .ValueError := monthindex_neg_last hi

/-- C07: third and second-last Wednesday of April 2005; the fifth Wednesday of April 2005 "is" in
May, the fifth-last one in March. -/
example : monthindex 2005 4 3 2 = mkDate 2005 4 20 ∧ monthindex 2005 4 (-2) 2 = mkDate 2005 4 20 ∧
    monthindex 2005 4 5 2 = mkDate 2005 5 4 ∧ monthindex 2005 4 (-5) 2 = mkDate 2005 3 30 := by
  decide

end CalCore
