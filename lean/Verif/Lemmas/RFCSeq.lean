import Verif.Lemmas.RFC
import Verif.Lemmas.Translate
/- The dates of the rule classes against the recurrence sets of RFC 2445. -/
namespace CalCore
open Spec

/-- A date of a month, by its offset. -/
theorem in_month {n o : Int} (h0 : 0 ≤ o) (h1 : o < daysInMonth (monthYear n) (monthMonth n)) :
    monthNr (monthFirst n + o) = n ∧ dday (monthFirst n + o) = o + 1 ∧
      daysInMonth (dyear (monthFirst n + o)) (dmonth (monthFirst n + o)) = daysInMonth (monthYear n) (monthMonth n) := by
  have hm := monthMonth_range n
  have v : validYmd (monthYear n) (monthMonth n) (o + 1) := ⟨hm.1, hm.2, by omega, by omega⟩
  have e : ymd2ord (monthYear n) (monthMonth n) (o + 1) = monthFirst n + o := by
    rw [ymd2ord_day1]; unfold monthFirst; omega
  have := ymd_of_ymd2ord v
  rw [e] at this
  refine ⟨?_, this.2.2, ?_⟩
  · unfold monthNr; rw [this.1, this.2.1]; unfold monthYear monthMonth; omega
  · rw [this.1, this.2.1]

theorem monthNr_mono {d d' : Int} (h : d ≤ d') : monthNr d ≤ monthNr d' := by
  by_contra hc
  have h1 := monthFirst_lt (n := monthNr d') (n' := monthNr d) (by omega)
  have h2 := start_in_month d
  have h3 := start_in_month d'
  have h4 := validYmd_date d
  have h5 := validYmd_date d'
  have h6 := monthFirst_succ (monthNr d')
  rw [(monthNr_year d').1, (monthNr_year d').2] at h6
  have h7 : monthFirst (monthNr d' + 1) ≤ monthFirst (monthNr d) := by
    rcases Int.lt_or_eq_of_le (show monthNr d' + 1 ≤ monthNr d by omega) with h | h
    · have := monthFirst_lt h; omega
    · rw [h]
  unfold validYmd at h4 h5
  omega

/-- A later month is a multiple of the interval after the start's month. -/
theorem dvd_nat {iv a b : Int} (hi : 1 ≤ iv) (h : iv ∣ b - a) (hab : a ≤ b) : ∃ j : Nat, b = a + j * iv := by
  obtain ⟨c, hc⟩ := h
  have : 0 ≤ c := by
    by_contra hn
    have : iv * c ≤ iv * (-1) := Int.mul_le_mul_of_nonneg_left (by omega) (by omega)
    omega
  refine ⟨c.toNat, ?_⟩
  rw [Int.toNat_of_nonneg this, Int.mul_comm]
  omega

theorem dvd_of_mul {iv a b : Int} {j : Nat} (h : b = a + j * iv) : iv ∣ b - a := ⟨j, by rw [h, Int.mul_comm]; omega⟩

section
variable {s iv : Int}

theorem daily_values (hi : 1 ≤ iv) (d : Int) :
    (∃ k, dailySeq s iv k = some d) ↔ s ≤ d ∧ d ≤ MAXORD ∧ iv ∣ d - s := by
  simp only [dailySeq_some]
  constructor
  · rintro ⟨k, h, h'⟩
    have : (0 : Int) ≤ k * iv := Int.mul_nonneg (by omega) (by omega)
    exact ⟨by omega, h', dvd_of_mul h⟩
  · rintro ⟨h1, h2, h3⟩
    obtain ⟨j, hj⟩ := dvd_nat hi h3 h1
    exact ⟨j, hj, h2⟩

theorem weekly_values (wds : List Int) (d : Int) :
    (∃ k, weeklySeq s iv wds k = some d) ↔ s ≤ d ∧ d ≤ MAXORD ∧ 7 * iv ∣ mondayOf d - mondayOf s ∧
      (weekday d ∈ wds ∨ weekday d = weekday s) := by
  simp only [weeklySeq_some]
  constructor
  · rintro ⟨k, h, h'⟩
    exact ⟨by omega, h'⟩
  · rintro ⟨h1, h2⟩
    exact ⟨(d - s).toNat, by omega, h2⟩

theorem ord_le_of_ymd {d d' : Int} (h : dyear d < dyear d' ∨ dyear d = dyear d' ∧ dmonth d = dmonth d' ∧ dday d = dday d') :
    d ≤ d' := by
  rcases h with h | ⟨h1, h2, h3⟩
  · have := year_lt_of_lt h; omega
  · rw [← ymd2ord_date d, ← ymd2ord_date d', h1, h2, h3]

theorem yearly_values (hi : 1 ≤ iv) (hr : dateInRange s = true) (h29 : ¬ IsFeb29 s) (d : Int) :
    (∃ k, initial (yearlySeq s iv) k = some d) ↔
      s ≤ d ∧ d ≤ MAXORD ∧ iv ∣ dyear d - dyear s ∧ dmonth d = dmonth s ∧ dday d = dday s := by
  constructor
  · rintro ⟨k, h⟩
    have h' := (initial_eq_some.1 h).2
    unfold yearlySeq at h'
    rw [dateOf_eq_some] at h'
    obtain ⟨h1, h2, h3, h4⟩ := h'
    have hk : (0 : Int) ≤ k * iv := Int.mul_nonneg (by omega) (by omega)
    refine ⟨ord_le_of_ymd ?_, ((dateInRange_iff d).1 h1).2, dvd_of_mul h2, h3, h4⟩
    rcases Int.lt_or_eq_of_le hk with h | h
    · left; omega
    · right; exact ⟨by omega, h3.symm, h4.symm⟩
  · rintro ⟨h1, h2, h3, h4, h5⟩
    obtain ⟨j, hj⟩ := dvd_nat hi h3 (dyear_mono h1)
    have hd : dateInRange d = true := by
      rw [dateInRange_iff]; have := (dateInRange_iff s).1 hr; omega
    have hy := yearlySeq s iv j
    have e : yearlySeq s iv j = some d := by
      unfold yearlySeq; rw [dateOf_eq_some]; exact ⟨hd, hj, h4, h5⟩
    refine ⟨j, initial_eq_some.2 ⟨fun i hij => ?_, e⟩⟩
    refine yearlySeq_noFeb29 hi hr h29 i ?_
    have := (dateInRange_iff_year d).1 hd
    have : (i : Int) * iv ≤ j * iv := Int.mul_le_mul_of_nonneg_right (by omega) (by omega)
    omega

theorem monthday_values (hi : 1 ≤ iv) (hr : dateInRange s = true) (d : Int) :
    (∃ k, monthdaySeq s iv k = some d) ↔ s ≤ d ∧ d ≤ MAXORD ∧ iv ∣ monthNr d - monthNr s ∧ dday d = dday s := by
  constructor
  · rintro ⟨k, h⟩
    unfold monthdaySeq at h
    obtain ⟨h1, h2, h3⟩ := dateOf_monthNr h
    have hk : (0 : Int) ≤ k * iv := Int.mul_nonneg (by omega) (by omega)
    refine ⟨?_, ((dateInRange_iff d).1 h3).2, dvd_of_mul h1, h2⟩
    by_contra hlt
    have hm := monthNr_mono (show d ≤ s by omega)
    have : monthNr d = monthNr s := by omega
    have e1 := start_in_month d
    have e2 := start_in_month s
    rw [this, h2] at e1
    omega
  · rintro ⟨h1, h2, h3, h4⟩
    obtain ⟨j, hj⟩ := dvd_nat hi h3 (monthNr_mono h1)
    have hd : dateInRange d = true := by
      rw [dateInRange_iff]; have := (dateInRange_iff s).1 hr; omega
    refine ⟨j, ?_⟩
    unfold monthdaySeq
    simp only []
    rw [← hj, dateOf_eq_some, (monthNr_year d).1, (monthNr_year d).2]
    exact ⟨hd, rfl, rfl, h4⟩

/-- In which order dates of months come. -/
theorem month_order {d : Int} (h : monthNr s < monthNr d ∨ monthNr s = monthNr d ∧ dday s ≤ dday d) : s ≤ d := by
  rcases h with h | ⟨h, h'⟩
  · by_contra hc
    have := monthNr_mono (show d ≤ s by omega)
    omega
  · have e1 := start_in_month s
    have e2 := start_in_month d
    rw [h] at e1
    omega

theorem weekday_values (hi : 1 ≤ iv) (hr : dateInRange s = true) (h28 : dday s ≤ 28) (d : Int) :
    (∃ k, weekdayDriftSeq s iv k = some d) ↔ s ≤ d ∧ d ≤ MAXORD ∧ iv ∣ monthNr d - monthNr s ∧
      weekday d = weekday s ∧ (dday d - 1) / 7 = (dday s - 1) / 7 := by
  have hw := weekday_range s
  have hv := validYmd_date s
  have hd1 : 1 ≤ dday s := hv.2.2.1
  have hn := monthNr_pos hr
  constructor
  · rintro ⟨k, h⟩
    have hy := weekday_seq_year (by rw [h]; rfl : (weekdayDriftSeq s iv k).isSome = true)
    have hk : (0 : Int) ≤ k * iv := Int.mul_nonneg (by omega) (by omega)
    unfold weekdayDriftSeq at h
    rw [idxOf_start hr, weekdaysOfMonth_eq hy hw] at h
    simp only [List.cons_append, List.head?_cons, Option.bind_some] at h
    split at h
    · rename_i hmax
      injection h with h
      have ho : 0 ≤ firstOff (monthNr s + k * iv) (weekday s) ∧ firstOff (monthNr s + k * iv) (weekday s) < 7 := by
        unfold firstOff; omega
      have hL := daysInMonth_pos (monthYear (monthNr s + k * iv)) (monthMonth (monthNr s + k * iv))
      have hin := in_month (n := monthNr s + k * iv)
        (o := firstOff (monthNr s + k * iv) (weekday s) + 7 * ((dday s - 1) / 7)) (by omega) (by omega)
      rw [show monthFirst (monthNr s + k * iv) + (firstOff (monthNr s + k * iv) (weekday s) + 7 * ((dday s - 1) / 7)) = d by
        omega] at hin
      have hwd : weekday d = weekday s := by
        subst h
        unfold firstOff
        unfold weekday at hw ⊢
        omega
      have hdiv : (dday d - 1) / 7 = (dday s - 1) / 7 := by omega
      refine ⟨month_order ?_, by omega, dvd_of_mul hin.1, hwd, hdiv⟩
      rcases Int.lt_or_eq_of_le hk with h | h
      · left; omega
      · right
        refine ⟨by omega, ?_⟩
        have e1 := start_off s
        rw [← h, Int.add_zero] at hin
        omega
    · cases h
  · rintro ⟨h1, h2, h3, h4, h5⟩
    obtain ⟨j, hj⟩ := dvd_nat hi h3 (monthNr_mono h1)
    have hd : dateInRange d = true := by
      rw [dateInRange_iff]; have := (dateInRange_iff s).1 hr; omega
    have hy := (dateInRange_iff_year d).1 hd
    have e1 := start_in_month d
    have e2 := start_off d
    have hd1' : 1 ≤ dday d := (validYmd_date d).2.2.1
    refine ⟨j, ?_⟩
    unfold weekdayDriftSeq
    rw [idxOf_start hr, ← hj, ← h4, weekdaysOfMonth_eq (by rw [(monthNr_year d).1]; exact hy) (weekday_range d)]
    simp only [List.cons_append, List.head?_cons, Option.bind_some]
    rw [if_pos (by omega)]
    congr 1
    omega

theorem lastWeekday_last {n wd x : Int} (hw : 0 ≤ wd ∧ wd ≤ 6) :
    (weekdaysOfMonth n wd).getLast? = some x ↔ (1 ≤ monthYear n ∧ monthYear n ≤ 9999) ∧ monthFirst n ≤ x ∧
      x < monthFirst n + daysInMonth (monthYear n) (monthMonth n) ∧
      monthFirst n + daysInMonth (monthYear n) (monthMonth n) ≤ x + 7 ∧ weekday x = wd := by
  have hL := daysInMonth_pos (monthYear n) (monthMonth n)
  by_cases hy : 1 ≤ monthYear n ∧ monthYear n ≤ 9999
  · rw [weekdaysOfMonth_eq hy hw]
    have ho : 0 ≤ firstOff n wd ∧ firstOff n wd < 7 := by unfold firstOff; omega
    have hwx : weekday (monthFirst n + firstOff n wd) = wd := by unfold firstOff; unfold weekday; omega
    have hx0 : monthFirst n ≤ monthFirst n + firstOff n wd ∧ monthFirst n + firstOff n wd < monthFirst n + 7 := by omega
    generalize monthFirst n + firstOff n wd = x0 at hwx hx0 ⊢
    simp only []
    split
    · simp only [List.cons_append, List.nil_append, List.getLast?_cons_cons, List.getLast?_singleton, Option.some.injEq]
      unfold weekday at hwx ⊢
      omega
    · simp only [List.append_nil, List.getLast?_cons_cons, List.getLast?_singleton, Option.some.injEq]
      unfold weekday at hwx ⊢
      omega
  · unfold weekdaysOfMonth
    rw [if_neg hy]
    simp only [List.getLast?_nil]
    constructor
    · intro h; cases h
    · rintro ⟨h, _⟩; exact absurd h hy

theorem lastweekday_values (hi : 1 ≤ iv) (hr : dateInRange s = true)
    (h7 : daysInMonth (dyear s) (dmonth s) < dday s + 7) (d : Int) :
    (∃ k : Nat, (if monthNr s + k * iv < 12 * 9999 + 11 then lastWeekdayDriftSeq s iv k else none) = some d) ↔
      ¬ InLastMonth d ∧ s ≤ d ∧ d ≤ MAXORD ∧ iv ∣ monthNr d - monthNr s ∧
      weekday d = weekday s ∧ daysInMonth (dyear d) (dmonth d) < dday d + 7 := by
  have hw := weekday_range s
  have hv := validYmd_date s
  have hd1 : 1 ≤ dday s := hv.2.2.1
  have hd2 : dday s ≤ daysInMonth (dyear s) (dmonth s) := hv.2.2.2
  have hn := monthNr_pos hr
  have hq : ((daysInMonth (dyear s) (dmonth s) - dday s) / 7).toNat = 0 := by omega
  have hlast : ∀ d, InLastMonth d ↔ monthNr d = 12 * 9999 + 11 := by
    intro d
    have := validYmd_date d
    unfold validYmd at this
    unfold InLastMonth monthNr
    omega
  constructor
  · rintro ⟨k, h⟩
    have hk : (0 : Int) ≤ k * iv := Int.mul_nonneg (by omega) (by omega)
    split at h
    · rename_i hlt
      unfold lastWeekdayDriftSeq at h
      rw [idxOf_start_rev hr, hq, Option.map_eq_some_iff] at h
      obtain ⟨x, hx, h⟩ := h
      have hxd : x = d := by simpa using h
      subst hxd
      obtain ⟨hy, a1, a2, a3, a4⟩ := (lastWeekday_last hw).1 hx
      have hin := in_month (n := monthNr s + k * iv) (o := x - monthFirst (monthNr s + k * iv)) (by omega) (by omega)
      rw [show monthFirst (monthNr s + k * iv) + (x - monthFirst (monthNr s + k * iv)) = x by omega] at hin
      have hmax := monthFirst_max hy.2
      refine ⟨by rw [hlast]; omega, month_order ?_, by omega, dvd_of_mul hin.1, a4, by omega⟩
      rcases Int.lt_or_eq_of_le hk with h | h
      · left; omega
      · right
        refine ⟨by omega, ?_⟩
        have e1 := start_in_month s
        rw [← h, Int.add_zero, (monthNr_year s).1, (monthNr_year s).2] at a3 a2
        rw [← h, Int.add_zero] at hin
        unfold weekday at a4
        omega
    · cases h
  · rintro ⟨h0, h1, h2, h3, h4, h5⟩
    obtain ⟨j, hj⟩ := dvd_nat hi h3 (monthNr_mono h1)
    have hd : dateInRange d = true := by
      rw [dateInRange_iff]; have := (dateInRange_iff s).1 hr; omega
    have hy := (dateInRange_iff_year d).1 hd
    have hv' := validYmd_date d
    rw [hlast] at h0
    refine ⟨j, ?_⟩
    rw [if_pos (by
      rw [← hj]
      unfold validYmd at hv'
      unfold monthNr at h0 ⊢
      omega)]
    unfold lastWeekdayDriftSeq
    rw [idxOf_start_rev hr, hq, ← hj, ← h4, Option.map_eq_some_iff]
    refine ⟨d, ?_, by simp⟩
    rw [lastWeekday_last (weekday_range d), (monthNr_year d).1, (monthNr_year d).2]
    have e1 := start_in_month d
    unfold validYmd at hv'
    exact ⟨hy, by omega, by omega, by omega, rfl⟩

end

end CalCore
