import Verif.Lemmas.DateTime
import Verif.Lemmas.Res
import Verif.Model.Util
import Verif.Model.Recurrent
/- ISO weeks, weekspan, monthindex. -/
namespace CalCore

theorem jan1_eq (y : Int) : ymd2ord y 1 1 = daysBeforeYear y + 1 := by
  unfold ymd2ord; rw [daysBeforeMonth_one]; omega

theorem jan4_eq (y : Int) : ymd2ord y 1 4 = daysBeforeYear y + 4 := by
  unfold ymd2ord; rw [daysBeforeMonth_one]; omega

theorem dec31_eq (y : Int) : ymd2ord y 12 31 = daysBeforeYear (y + 1) := by
  have := daysBeforeMonth_twelve y
  have := daysBeforeYear_succ y
  unfold ymd2ord; omega

theorem dyear_bounds (d : Int) : daysBeforeYear (dyear d) < d ∧ d ≤ daysBeforeYear (dyear d + 1) := by
  have a := ymd2ord_in_year (validYmd_date d)
  rwa [ymd2ord_date] at a

theorem dyear_unique {d y : Int} (h : daysBeforeYear y < d ∧ d ≤ daysBeforeYear (y + 1)) :
    dyear d = y := by
  have a := dyear_bounds d
  rcases Int.lt_trichotomy (dyear d) y with h' | h' | h'
  · have := daysBeforeYear_mono (y := dyear d + 1) (y' := y) (by omega); omega
  · exact h'
  · have := daysBeforeYear_mono (y := y + 1) (y' := dyear d) (by omega); omega

/-- The Monday of week 1 is the Monday of the week of January 4th. -/
theorem isoWeek1Monday_eq (y : Int) :
    isoWeek1Monday y = ymd2ord y 1 4 - weekday (ymd2ord y 1 4) := by
  unfold isoWeek1Monday
  rw [jan1_eq, jan4_eq]
  unfold weekday
  simp only []
  split <;> omega

theorem isoWeek1Monday_mod (y : Int) : isoWeek1Monday y % 7 = 1 := by
  rw [isoWeek1Monday_eq, jan4_eq]; unfold weekday; omega

theorem isoWeek1Monday_bounds (y : Int) :
    daysBeforeYear y - 2 ≤ isoWeek1Monday y ∧ isoWeek1Monday y ≤ daysBeforeYear y + 4 := by
  rw [isoWeek1Monday_eq, jan4_eq]; unfold weekday; omega

theorem isocalendar_eq {d y : Int} (h1 : isoWeek1Monday y ≤ d) (h2 : d < isoWeek1Monday (y + 1)) :
    isocalendar d = (y, (d - isoWeek1Monday y) / 7 + 1, (d - isoWeek1Monday y) % 7 + 1) := by
  have b0 := isoWeek1Monday_bounds y
  have b1 := isoWeek1Monday_bounds (y + 1)
  have b2 := isoWeek1Monday_bounds (y - 1)
  have m0 := isoWeek1Monday_mod y
  have m1 := isoWeek1Monday_mod (y + 1)
  have m2 := isoWeek1Monday_mod (y - 1)
  have s0 := daysBeforeYear_succ y
  have s1 := daysBeforeYear_succ (y + 1)
  have s2 := daysBeforeYear_succ (y - 1)
  rw [show y - 1 + 1 = y by omega] at s2
  have l0 : (if isLeap y = true then (1 : Int) else 0) = 0 ∨
      (if isLeap y = true then (1 : Int) else 0) = 1 := by split <;> simp
  have l1 : (if isLeap (y + 1) = true then (1 : Int) else 0) = 0 ∨
      (if isLeap (y + 1) = true then (1 : Int) else 0) = 1 := by split <;> simp
  have l2 : (if isLeap (y - 1) = true then (1 : Int) else 0) = 0 ∨
      (if isLeap (y - 1) = true then (1 : Int) else 0) = 1 := by split <;> simp
  generalize (if isLeap y = true then (1 : Int) else 0) = l0v at *
  generalize (if isLeap (y + 1) = true then (1 : Int) else 0) = l1v at *
  generalize (if isLeap (y - 1) = true then (1 : Int) else 0) = l2v at *
  have hy : dyear d = y ∨ dyear d = y - 1 ∨ dyear d = y + 1 := by
    by_cases c1 : d ≤ daysBeforeYear y
    · right; left
      apply dyear_unique
      rw [show y - 1 + 1 = y by omega]; omega
    · by_cases c2 : d ≤ daysBeforeYear (y + 1)
      · left; exact dyear_unique ⟨by omega, c2⟩
      · right; right; exact dyear_unique ⟨by omega, by omega⟩
  have hb := dyear_bounds d
  unfold isocalendar
  rcases hy with hy | hy | hy
  · rw [hy] at hb ⊢
    simp only []
    rw [if_neg (by omega), if_neg (by omega)]
  · rw [hy, show y - 1 + 1 = y by omega] at hb
    rw [hy]
    simp only [show y - 1 + 1 = y by omega]
    rw [if_neg (by omega), if_pos (by omega)]
    refine Prod.ext rfl (Prod.ext ?_ ?_)
    · show (1 : Int) = (d - isoWeek1Monday y) / 7 + 1
      omega
    · show (d - isoWeek1Monday (y - 1)) % 7 + 1 = (d - isoWeek1Monday y) % 7 + 1
      omega
  · rw [hy] at hb
    rw [hy]
    simp only [show y + 1 - 1 = y by omega]
    rw [if_pos (by omega)]

theorem weekspan_eq {a b : Int} (ha : dateInRange a = true) (hb : dateInRange b = true) :
    weekspan a b = .ok ((b - weekday b - (a - weekday a)) / 7) := by
  rw [dateInRange_iff] at ha hb
  have e1 : dateAdd a (-(weekday a)) = .ok (a - weekday a) := by
    rw [dateAdd_ok, dateInRange_iff]; unfold weekday; omega
  have e2 : dateAdd b (-(weekday b)) = .ok (b - weekday b) := by
    rw [dateAdd_ok, dateInRange_iff]; unfold weekday; omega
  unfold weekspan
  rw [e1, e2]; rfl

theorem ymd2ord_day (y m d k : Int) : ymd2ord y m (d + k) = ymd2ord y m d + k := by
  unfold ymd2ord; omega

theorem ymd2ord_day1 (y m k : Int) : ymd2ord y m k = ymd2ord y m 1 + (k - 1) := by
  unfold ymd2ord; omega

/-- First day of the month falling on weekday `wd`. -/
theorem firstWeekday_eq {y m wd : Int} (hy : 1 ≤ y ∧ y ≤ 9999) (hm : 1 ≤ m ∧ m ≤ 12)
    (hw : 0 ≤ wd ∧ wd ≤ 6) :
    firstWeekdayLoop y m wd 0 [1, 2, 3, 4, 5, 6, 7]
      = .ok ((wd - weekday (ymd2ord y m 1)) % 7 + 1) := by
  have hd := daysInMonth_pos y m
  have ok : ∀ k, 1 ≤ k → k ≤ 7 → mkDate y m k = .ok (ymd2ord y m 1 + (k - 1)) := by
    intro k h1 h2
    rw [mkDate_ok ⟨hm.1, hm.2, h1, by omega⟩ hy.1 hy.2, ymd2ord_day1]
  simp only [firstWeekdayLoop, ok 1 (by omega) (by omega), ok 2 (by omega) (by omega),
    ok 3 (by omega) (by omega), ok 4 (by omega) (by omega), ok 5 (by omega) (by omega),
    ok 6 (by omega) (by omega), ok 7 (by omega) (by omega), ok_bind]
  generalize ymd2ord y m 1 = o
  unfold weekday
  split
  · congr 1; omega
  split
  · congr 1; omega
  split
  · congr 1; omega
  split
  · congr 1; omega
  split
  · congr 1; omega
  split
  · congr 1; omega
  split
  · congr 1; omega
  · exfalso; omega

/-- Value of `monthindex` for a non-negative index. -/
theorem monthindex_pos {y m i wd : Int} (hy : 1 ≤ y ∧ y ≤ 9999) (hm : 1 ≤ m ∧ m ≤ 12)
    (hw : 0 ≤ wd ∧ wd ≤ 6) (hi : 0 ≤ i) :
    monthindex y m i wd =
      dateAdd (ymd2ord y m 1 + (wd - weekday (ymd2ord y m 1)) % 7) ((i - 1) * 7) := by
  unfold monthindex
  rw [if_neg (by omega), if_neg (by omega), if_neg (by omega)]
  simp only []
  rw [firstWeekday_eq hy hm hw]
  have hd := daysInMonth_pos y m
  simp only [ok_bind]
  rw [mkDate_ok ⟨hm.1, hm.2, by omega, by omega⟩ hy.1 hy.2, ymd2ord_day1]
  simp only [ok_bind]
  congr 1
  omega

/-- First day of the month after `(y, m)`. -/
theorem next_month_first (y m : Int) (hm : 1 ≤ m ∧ m ≤ 12) :
    ymd2ord (y + m / 12) (m % 12 + 1) 1 = ymd2ord y m 1 + daysInMonth y m := by
  rcases (by omega : m = 12 ∨ m ≤ 11) with h | h
  · subst h
    have h1 := dec31_eq y
    have h2 := jan1_eq (y + 1)
    have h3 : daysInMonth y 12 = 31 := by simp [daysInMonth]
    rw [h3]
    rw [ymd2ord_day1] at h1
    simp only [show (12 : Int) / 12 = 1 by decide, show (12 : Int) % 12 + 1 = 1 by decide]
    omega
  · have h1 : m / 12 = 0 := by omega
    have h2 : m % 12 = m := by omega
    rw [h1, h2, show y + 0 = y by omega]
    have := daysBeforeMonth_succ y m hm.1 h
    unfold ymd2ord; omega

/-- Value of `monthindex` for a negative index. -/
theorem monthindex_neg {y m i wd : Int} (hy : 1 ≤ y ∧ y ≤ 9999) (hm : 1 ≤ m ∧ m ≤ 12)
    (hlast : y ≠ 9999 ∨ m ≠ 12) (hw : 0 ≤ wd ∧ wd ≤ 6) (hi : i < 0) :
    monthindex y m i wd =
      dateAdd (ymd2ord y m 1 + daysInMonth y m
        + (wd - weekday (ymd2ord y m 1 + daysInMonth y m)) % 7) (i * 7) := by
  have hy' : 1 ≤ y + m / 12 ∧ y + m / 12 ≤ 9999 := by omega
  have hm' : 1 ≤ m % 12 + 1 ∧ m % 12 + 1 ≤ 12 := by omega
  unfold monthindex
  rw [if_pos hi, if_pos hi, if_pos hi]
  simp only []
  rw [firstWeekday_eq hy' hm' hw]
  have hd := daysInMonth_pos (y + m / 12) (m % 12 + 1)
  simp only [ok_bind]
  rw [mkDate_ok ⟨hm'.1, hm'.2, by omega, by omega⟩ hy'.1 hy'.2, ymd2ord_day1]
  simp only [ok_bind]
  rw [next_month_first y m hm]
  congr 1 <;> omega

/-- `monthindex` of December 9999 with a negative index fails. -/
theorem monthindex_neg_last {i wd : Int} (hi : i < 0) :
    monthindex 9999 12 i wd = raise .ValueError := by
  unfold monthindex
  rw [if_pos hi, if_pos hi, if_pos hi]
  rfl

theorem date_of_ord {y m k : Int} (h : validYmd y m k) :
    dyear (ymd2ord y m 1 + (k - 1)) = y ∧ dmonth (ymd2ord y m 1 + (k - 1)) = m ∧
      dday (ymd2ord y m 1 + (k - 1)) = k := by
  have := ymd_of_ymd2ord h
  rwa [ymd2ord_day1] at this

end CalCore
