import Verif.Lemmas.Apply
/- The n-th weekday of a month, as a list of the dates of the month, against `monthindex`. -/
namespace CalCore
open Spec

theorem filter_mod7 : ∀ l : Fin 4, ∀ a : Fin 7,
    (List.range (28 + l.val)).filter (fun k => k % 7 = a.val) =
      [a.val, a.val + 7, a.val + 14, a.val + 21] ++
        if a.val + 28 < 28 + l.val then [a.val + 28] else [] := by
  decide +kernel

/-- Offset of the first day with weekday `wd` in the month. -/
def firstOff (n wd : Int) : Int := (wd - weekday (monthFirst n)) % 7

theorem weekdaysOfMonth_eq {n wd : Int} (hy : 1 ≤ monthYear n ∧ monthYear n ≤ 9999)
    (hw : 0 ≤ wd ∧ wd ≤ 6) :
    weekdaysOfMonth n wd =
      let x := monthFirst n + firstOff n wd
      [x, x + 7, x + 14, x + 21] ++
        if x + 28 < monthFirst n + daysInMonth (monthYear n) (monthMonth n) then [x + 28] else [] := by
  have hL := daysInMonth_pos (monthYear n) (monthMonth n)
  unfold weekdaysOfMonth
  rw [if_pos hy]
  generalize hLe : daysInMonth (monthYear n) (monthMonth n) = L at *
  have ha : 0 ≤ firstOff n wd ∧ firstOff n wd < 7 := by unfold firstOff; omega
  obtain ⟨l, hl⟩ : ∃ l : Nat, L = 28 + l ∧ l < 4 := ⟨(L - 28).toNat, by omega, by omega⟩
  obtain ⟨a, hae, hal⟩ : ∃ a : Nat, firstOff n wd = a ∧ a < 7 :=
    ⟨(firstOff n wd).toNat, by omega, by omega⟩
  have hfun : (fun k : Nat => ymd2ord (monthYear n) (monthMonth n) ((k : Int) + 1)) =
      fun k : Nat => monthFirst n + k := by
    funext k; rw [ymd2ord_day1]; unfold monthFirst; omega
  rw [hfun, List.filter_map]
  have hp : ((fun d => decide (weekday d = wd)) ∘ fun k : Nat => monthFirst n + k) =
      fun k : Nat => decide (k % 7 = a) := by
    funext k
    simp only [Function.comp_apply, decide_eq_decide]
    unfold firstOff at hae
    unfold weekday at *
    omega
  rw [hp, show L.toNat = 28 + l by omega, filter_mod7 ⟨l, hl.2⟩ ⟨a, hal⟩, hae]
  simp only [List.map_append, List.map_cons, List.map_nil]
  have hc : (a + 28 < 28 + l) ↔ (monthFirst n + (a : Int) + 28 < monthFirst n + L) := by omega
  congr 1
  · simp only [List.cons.injEq, and_true, true_and]
    refine ⟨?_, ?_, ?_⟩ <;> omega
  · by_cases h : a + 28 < 28 + l
    · rw [if_pos h, if_pos (hc.1 h)]; simp [Int.add_assoc]
    · rw [if_neg h, if_neg (fun hh => h (hc.2 hh))]; rfl

/-- Position of an element in a list of dates a week apart. -/
theorem idxOf_week (x : Int) (p : Nat) (hp : p ≤ 4) (t : List Int) (ht : p = 4 → t = [x + 28]) :
    ([x, x + 7, x + 14, x + 21] ++ t).idxOf (x + 7 * (p : Int)) = p := by
  have : p = 0 ∨ p = 1 ∨ p = 2 ∨ p = 3 ∨ p = 4 := by omega
  rcases this with rfl | rfl | rfl | rfl | rfl
  · simp
  all_goals
    try rw [ht rfl]
    simp only [List.cons_append, List.nil_append, List.idxOf_cons]
    simp only [beq_iff_eq, cond_eq_ite]
    grind

theorem start_in_month (start : Int) :
    start = monthFirst (monthNr start) + (dday start - 1) := by
  have h := ymd2ord_date start
  rw [ymd2ord_day1] at h
  unfold monthFirst
  rw [(monthNr_year start).1, (monthNr_year start).2]
  omega

theorem start_off (start : Int) : firstOff (monthNr start) (weekday start) = (dday start - 1) % 7 := by
  have h := start_in_month start
  have h1 : 1 ≤ dday start := (validYmd_date start).2.2.1
  unfold firstOff
  generalize monthFirst (monthNr start) = F at *
  unfold weekday
  omega

theorem monthSeq_weekday {start interval : Int} (hi : 1 ≤ interval) (hr : dateInRange start = true)
    (hd : dday start ≤ 28) (j : Nat) :
    monthSeq start interval (startIndex .weekday start) j = weekdaySeq start interval j := by
  have hy := (dateInRange_iff_year _).1 hr
  have hv := validYmd_date start
  have hw := weekday_range start
  have hm := monthNr_year start
  have h1 : 1 ≤ dday start := hv.2.2.1
  have hL0 := hv.2.2.2
  have hn0 : 12 ≤ monthNr start := by unfold monthNr; unfold validYmd at hv; omega
  have hj : (0 : Int) ≤ j * interval := Int.mul_nonneg (by omega) (by omega)
  generalize hn : monthNr start + j * interval = n at *
  have hy1 : 1 ≤ monthYear n := by unfold monthYear; omega
  have idx : (weekdaysOfMonth (monthNr start) (weekday start)).idxOf start
      = ((dday start - 1) / 7).toNat := by
    rw [weekdaysOfMonth_eq (by rw [hm.1]; exact hy) hw]
    simp only
    generalize hp : ((dday start - 1) / 7).toNat = p
    have hp' : p ≤ 3 := by omega
    have hs := start_in_month start
    have ho := start_off start
    generalize hx : monthFirst (monthNr start) + firstOff (monthNr start) (weekday start) = x at *
    have : start = x + 7 * (p : Int) := by omega
    conv => lhs; rw [show start = x + 7 * (p : Int) from this]
    exact idxOf_week x p (by omega) _ (by omega)
  unfold weekdaySeq monthSeq startIndex
  simp only [hn]
  rw [idx]
  generalize hp : ((dday start - 1) / 7).toNat = p
  have hp' : p ≤ 3 := by omega
  have hp2 : (dday start - 1) / 7 + 1 = (p : Int) + 1 := by omega
  rw [hp2]
  by_cases hy2 : monthYear n ≤ 9999
  · rw [weekdaysOfMonth_eq ⟨hy1, hy2⟩ hw, monthindex_pos ⟨hy1, hy2⟩ (monthMonth_range n) hw (by omega)]
    simp only
    have hL := daysInMonth_pos (monthYear n) (monthMonth n)
    have ha : 0 ≤ firstOff n (weekday start) ∧ firstOff n (weekday start) < 7 := by
      unfold firstOff; omega
    have hadd : dateAdd (ymd2ord (monthYear n) (monthMonth n) 1 +
        (weekday start - weekday (ymd2ord (monthYear n) (monthMonth n) 1)) % 7) (((p : Int) + 1 - 1) * 7) =
        .ok (monthFirst n + firstOff n (weekday start) + 7 * p) := by
      change dateAdd (monthFirst n + firstOff n (weekday start)) _ = _
      rw [dateAdd_ok]
      refine ⟨?_, by omega⟩
      have v : validYmd (monthYear n) (monthMonth n) (firstOff n (weekday start) + 7 * p + 1) :=
        ⟨(monthMonth_range n).1, (monthMonth_range n).2, by omega, by omega⟩
      have hd := (ymd_of_ymd2ord v).1
      rw [ymd2ord_day1] at hd
      change dyear (monthFirst n + _) = _ at hd
      rw [dateInRange_iff_year, show monthFirst n + firstOff n (weekday start) + ((p : Int) + 1 - 1) * 7 =
        monthFirst n + (firstOff n (weekday start) + 7 * p + 1 - 1) by omega, hd]
      exact ⟨hy1, hy2⟩
    rw [hadd]
    have : p = 0 ∨ p = 1 ∨ p = 2 ∨ p = 3 := by omega
    rcases this with rfl | rfl | rfl | rfl <;> simp [Except.toOption]
  · have : weekdaysOfMonth n (weekday start) = [] := by
      unfold weekdaysOfMonth; rw [if_neg (by omega)]
    rw [this]
    cases hmi : monthindex (monthYear n) (monthMonth n) (↑p + 1) (weekday start) with
    | error e => simp [Except.toOption]
    | ok a =>
      have := monthindex_year hmi
      unfold miMonth at this
      rw [if_neg (by omega)] at this
      omega

/-- Position from the end. -/
theorem idxOf_week_rev (x : Int) (q : Nat) (hq : q ≤ 4) (L : Int) (b : Int)
    (hb : b = if x + 28 < L then x + 28 else x + 21) (hq4 : q = 4 → x + 28 < L) :
    ([x, x + 7, x + 14, x + 21] ++ if x + 28 < L then [x + 28] else []).reverse.idxOf
      (b - 7 * (q : Int)) = q := by
  by_cases h : x + 28 < L
  · rw [if_pos h] at hb ⊢
    subst hb
    have : q = 0 ∨ q = 1 ∨ q = 2 ∨ q = 3 ∨ q = 4 := by omega
    simp only [List.cons_append, List.nil_append, List.reverse_cons, List.reverse_nil, List.idxOf_cons,
      beq_iff_eq, cond_eq_ite]
    rcases this with rfl | rfl | rfl | rfl | rfl <;> grind
  · rw [if_neg h] at hb ⊢
    subst hb
    have : q = 0 ∨ q = 1 ∨ q = 2 ∨ q = 3 := by omega
    simp only [List.append_nil, List.cons_append, List.nil_append, List.reverse_cons, List.reverse_nil, List.idxOf_cons,
      beq_iff_eq, cond_eq_ite]
    rcases this with rfl | rfl | rfl | rfl <;> grind

theorem getElem_week_rev (x : Int) (q : Nat) (hq : q ≤ 3) (L : Int) :
    ([x, x + 7, x + 14, x + 21] ++ if x + 28 < L then [x + 28] else []).reverse[q]? =
      some ((if x + 28 < L then x + 28 else x + 21) - 7 * (q : Int)) := by
  have : q = 0 ∨ q = 1 ∨ q = 2 ∨ q = 3 := by omega
  by_cases h : x + 28 < L
  · rw [if_pos h, if_pos h]
    rcases this with rfl | rfl | rfl | rfl <;> simp <;> omega
  · rw [if_neg h, if_neg h]
    rcases this with rfl | rfl | rfl | rfl <;> simp <;> omega

theorem monthSeq_lastweekday {start interval : Int} (hi : 1 ≤ interval) (hr : dateInRange start = true)
    (hd : daysInMonth (dyear start) (dmonth start) - dday start < 28) (j : Nat)
    (hlast : monthNr start + j * interval ≠ 12 * 9999 + 11) :
    monthSeq start interval (startIndex .lastweekday start) j = lastWeekdaySeq start interval j := by
  have hy := (dateInRange_iff_year _).1 hr
  have hv := validYmd_date start
  have hw := weekday_range start
  have hm := monthNr_year start
  have h1 : 1 ≤ dday start := hv.2.2.1
  have hL0 := hv.2.2.2
  have hLp := daysInMonth_pos (dyear start) (dmonth start)
  have hn0 : 12 ≤ monthNr start := by unfold monthNr; unfold validYmd at hv; omega
  have hj : (0 : Int) ≤ j * interval := Int.mul_nonneg (by omega) (by omega)
  generalize hn : monthNr start + j * interval = n at *
  have hy1 : 1 ≤ monthYear n := by unfold monthYear; omega
  have idx : (weekdaysOfMonth (monthNr start) (weekday start)).reverse.idxOf start
      = ((daysInMonth (dyear start) (dmonth start) - dday start) / 7).toNat := by
    rw [weekdaysOfMonth_eq (by rw [hm.1]; exact hy) hw]
    simp only
    generalize hp : ((daysInMonth (dyear start) (dmonth start) - dday start) / 7).toNat = q
    have hp' : q ≤ 3 := by omega
    have hs := start_in_month start
    have ho := start_off start
    rw [hm.1, hm.2]
    generalize hF : monthFirst (monthNr start) = F at *
    generalize hL : daysInMonth (dyear start) (dmonth start) = L at *
    generalize hx : F + firstOff (monthNr start) (weekday start) = x at *
    have hb : start = (if x + 28 < F + L then x + 28 else x + 21) - 7 * (q : Int) := by
      split <;> omega
    conv => lhs; rw [hb]
    exact idxOf_week_rev x q (by omega) (F + L) _ rfl (by omega)
  unfold lastWeekdaySeq monthSeq startIndex
  simp only [hn]
  rw [idx]
  generalize hp : ((daysInMonth (dyear start) (dmonth start) - dday start) / 7).toNat = q
  have hp' : q ≤ 3 := by omega
  have hp2 : (dday start - daysInMonth (dyear start) (dmonth start) - 1) / 7 = -(q : Int) - 1 := by omega
  rw [hp2]
  by_cases hy2 : monthYear n ≤ 9999
  · rw [weekdaysOfMonth_eq ⟨hy1, hy2⟩ hw,
      monthindex_neg ⟨hy1, hy2⟩ (monthMonth_range n) (by unfold monthYear monthMonth at *; omega) hw
        (by omega)]
    simp only
    rw [getElem_week_rev _ _ hp']
    have hL := daysInMonth_pos (monthYear n) (monthMonth n)
    have ha : 0 ≤ firstOff n (weekday start) ∧ firstOff n (weekday start) < 7 := by
      unfold firstOff; omega
    have hFo : firstOff n (weekday start) = (weekday start - weekday (monthFirst n)) % 7 := rfl
    generalize hb : (if monthFirst n + firstOff n (weekday start) + 28 <
      monthFirst n + daysInMonth (monthYear n) (monthMonth n)
      then monthFirst n + firstOff n (weekday start) + 28
      else monthFirst n + firstOff n (weekday start) + 21) = b
    have hbb : monthFirst n + 21 ≤ b ∧ b < monthFirst n + daysInMonth (monthYear n) (monthMonth n) := by
      rw [← hb]; split <;> omega
    have hadd : dateAdd (ymd2ord (monthYear n) (monthMonth n) 1 + daysInMonth (monthYear n) (monthMonth n) +
        (weekday start - weekday (ymd2ord (monthYear n) (monthMonth n) 1 +
          daysInMonth (monthYear n) (monthMonth n))) % 7) ((-(q : Int) - 1) * 7) =
        .ok (b - 7 * q) := by
      change dateAdd (monthFirst n + _ + (_ - weekday (monthFirst n + _)) % 7) _ = _
      have e : monthFirst n + daysInMonth (monthYear n) (monthMonth n) +
          (weekday start - weekday (monthFirst n + daysInMonth (monthYear n) (monthMonth n))) % 7 +
            (-(q : Int) - 1) * 7 = b - 7 * q := by
        rw [← hb, hFo]
        generalize monthFirst n = F
        generalize daysInMonth (monthYear n) (monthMonth n) = L at *
        unfold weekday at *
        split <;> omega
      rw [dateAdd_ok, e]
      refine ⟨?_, rfl⟩
      have v : validYmd (monthYear n) (monthMonth n) (b - 7 * q - monthFirst n + 1) :=
        ⟨(monthMonth_range n).1, (monthMonth_range n).2, by omega, by omega⟩
      have hd := (ymd_of_ymd2ord v).1
      rw [ymd2ord_day1] at hd
      change dyear (monthFirst n + _) = _ at hd
      rw [dateInRange_iff_year, show b - 7 * (q : Int) =
        monthFirst n + (b - 7 * (q : Int) - monthFirst n + 1 - 1) by omega, hd]
      exact ⟨hy1, hy2⟩
    rw [hadd]; rfl
  · have : weekdaysOfMonth n (weekday start) = [] := by
      unfold weekdaysOfMonth; rw [if_neg (by omega)]
    rw [this]
    cases hmi : monthindex (monthYear n) (monthMonth n) (-↑q - 1) (weekday start) with
    | error e => simp [Except.toOption]
    | ok a =>
      have := monthindex_year hmi
      unfold miMonth at this
      rw [if_pos (by omega)] at this
      unfold monthYear at *
      omega

theorem idxOf_start {start : Int} (hr : dateInRange start = true) :
    (weekdaysOfMonth (monthNr start) (weekday start)).idxOf start = ((dday start - 1) / 7).toNat := by
  have hy := (dateInRange_iff_year _).1 hr
  have hv := validYmd_date start
  have hw := weekday_range start
  have hm := monthNr_year start
  have h1 : 1 ≤ dday start := hv.2.2.1
  have hL0 := hv.2.2.2
  have hLp := daysInMonth_pos (dyear start) (dmonth start)
  rw [weekdaysOfMonth_eq (by rw [hm.1]; exact hy) hw]
  simp only
  generalize hp : ((dday start - 1) / 7).toNat = p
  have hp' : p ≤ 4 := by omega
  have hs := start_in_month start
  have ho := start_off start
  rw [hm.1, hm.2]
  generalize hF : monthFirst (monthNr start) = F at *
  generalize hL : daysInMonth (dyear start) (dmonth start) = L at *
  generalize hx : F + firstOff (monthNr start) (weekday start) = x at *
  have : start = x + 7 * (p : Int) := by omega
  conv => lhs; rw [show start = x + 7 * (p : Int) from this]
  refine idxOf_week x p (by omega) _ ?_
  intro h4
  rw [if_pos (by omega)]

theorem idxOf_start_rev {start : Int} (hr : dateInRange start = true) :
    (weekdaysOfMonth (monthNr start) (weekday start)).reverse.idxOf start
      = ((daysInMonth (dyear start) (dmonth start) - dday start) / 7).toNat := by
  have hy := (dateInRange_iff_year _).1 hr
  have hv := validYmd_date start
  have hw := weekday_range start
  have hm := monthNr_year start
  have h1 : 1 ≤ dday start := hv.2.2.1
  have hL0 := hv.2.2.2
  have hLp := daysInMonth_pos (dyear start) (dmonth start)
  rw [weekdaysOfMonth_eq (by rw [hm.1]; exact hy) hw]
  simp only
  generalize hp : ((daysInMonth (dyear start) (dmonth start) - dday start) / 7).toNat = q
  have hs := start_in_month start
  have ho := start_off start
  rw [hm.1, hm.2]
  generalize hF : monthFirst (monthNr start) = F at *
  generalize hL : daysInMonth (dyear start) (dmonth start) = L at *
  generalize hx : F + firstOff (monthNr start) (weekday start) = x at *
  have hb : start = (if x + 28 < F + L then x + 28 else x + 21) - 7 * (q : Int) := by
    split <;> omega
  conv => lhs; rw [hb]
  exact idxOf_week_rev x q (by omega) (F + L) _ rfl (by omega)

theorem dateAdd_toOption (d n : Int) :
    (dateAdd d n).toOption = if dateInRange (d + n) = true then some (d + n) else none := by
  unfold dateAdd
  split <;> rfl

theorem monthFirst_pos {n : Int} (h : 1 ≤ monthYear n) : 1 ≤ monthFirst n := by
  have v : validYmd (monthYear n) (monthMonth n) 1 :=
    ⟨(monthMonth_range n).1, (monthMonth_range n).2, by omega, by
      have := daysInMonth_pos (monthYear n) (monthMonth n); omega⟩
  have := ymd2ord_in_year v
  have := daysBeforeYear_mono (y := 1) (y' := monthYear n) h
  have : daysBeforeYear 1 = 0 := by decide
  unfold monthFirst
  omega

theorem monthFirst_max {n : Int} (h : monthYear n ≤ 9999) :
    monthFirst n + daysInMonth (monthYear n) (monthMonth n) - 1 ≤ MAXORD := by
  have v : validYmd (monthYear n) (monthMonth n) (daysInMonth (monthYear n) (monthMonth n)) :=
    ⟨(monthMonth_range n).1, (monthMonth_range n).2, by
      have := daysInMonth_pos (monthYear n) (monthMonth n); omega, by omega⟩
  have h1 := ymd2ord_in_year v
  have h2 := daysBeforeYear_mono (y := monthYear n + 1) (y' := 10000) (by omega)
  have : daysBeforeYear 10000 = MAXORD := by decide
  rw [ymd2ord_day1] at h1
  unfold monthFirst
  omega

theorem monthSeq_weekday_drift {start interval : Int} (hi : 1 ≤ interval) (hr : dateInRange start = true)
    (j : Nat) :
    monthSeq start interval (startIndex .weekday start) j = weekdayDriftSeq start interval j := by
  have hy := (dateInRange_iff_year _).1 hr
  have hv := validYmd_date start
  have hw := weekday_range start
  have h1 : 1 ≤ dday start := hv.2.2.1
  have hn0 : 12 ≤ monthNr start := by unfold monthNr; unfold validYmd at hv; omega
  have hj : (0 : Int) ≤ j * interval := Int.mul_nonneg (by omega) (by omega)
  unfold weekdayDriftSeq monthSeq startIndex
  simp only
  rw [idxOf_start hr]
  generalize hn : monthNr start + j * interval = n at *
  have hy1 : 1 ≤ monthYear n := by unfold monthYear; omega
  have hF := monthFirst_pos hy1
  by_cases hy2 : monthYear n ≤ 9999
  · rw [weekdaysOfMonth_eq ⟨hy1, hy2⟩ hw, monthindex_pos ⟨hy1, hy2⟩ (monthMonth_range n) hw (by omega),
      dateAdd_toOption]
    have ha : 0 ≤ firstOff n (weekday start) ∧ firstOff n (weekday start) < 7 := by
      unfold firstOff; omega
    simp only [List.cons_append, List.head?_cons, Option.bind_some]
    change (if dateInRange (monthFirst n + firstOff n (weekday start) + _) = true then
      some (monthFirst n + firstOff n (weekday start) + _) else none) = _
    have e : monthFirst n + firstOff n (weekday start) + ((dday start - 1) / 7 + 1 - 1) * 7 =
        monthFirst n + firstOff n (weekday start) + 7 * (((dday start - 1) / 7).toNat : Int) := by omega
    rw [e]
    by_cases hM : monthFirst n + firstOff n (weekday start) + 7 * (((dday start - 1) / 7).toNat : Int) ≤ MAXORD
    · rw [if_pos hM, if_pos (by rw [dateInRange_iff]; omega)]
    · rw [if_neg hM, if_neg (by rw [dateInRange_iff]; omega)]
  · have : weekdaysOfMonth n (weekday start) = [] := by
      unfold weekdaysOfMonth; rw [if_neg (by omega)]
    rw [this]
    cases hmi : monthindex (monthYear n) (monthMonth n) ((dday start - 1) / 7 + 1) (weekday start) with
    | error e => simp [Except.toOption]
    | ok a =>
      have := monthindex_year hmi
      unfold miMonth at this
      rw [if_neg (by omega)] at this
      omega

theorem monthSeq_lastweekday_drift {start interval : Int} (hi : 1 ≤ interval)
    (hr : dateInRange start = true) (j : Nat)
    (hlast : monthNr start + j * interval ≠ 12 * 9999 + 11) :
    monthSeq start interval (startIndex .lastweekday start) j = lastWeekdayDriftSeq start interval j := by
  have hy := (dateInRange_iff_year _).1 hr
  have hv := validYmd_date start
  have hw := weekday_range start
  have h1 : 1 ≤ dday start := hv.2.2.1
  have hL0 := hv.2.2.2
  have hn0 : 12 ≤ monthNr start := by unfold monthNr; unfold validYmd at hv; omega
  have hj : (0 : Int) ≤ j * interval := Int.mul_nonneg (by omega) (by omega)
  have hst := start_in_month start
  have hord := (dateInRange_iff start).1 hr
  have hmy := monthNr_year start
  unfold lastWeekdayDriftSeq monthSeq startIndex
  simp only
  rw [idxOf_start_rev hr]
  have hLp0 := daysInMonth_pos (dyear start) (dmonth start)
  generalize hL0' : daysInMonth (dyear start) (dmonth start) = L0 at *
  have hFge : monthFirst (monthNr start) ≤ monthFirst (monthNr start + j * interval) := by
    rcases Int.lt_or_eq_of_le hj with h | h
    · have := monthFirst_lt (n := monthNr start) (n' := monthNr start + j * interval) (by omega); omega
    · rw [← h]; simp
  have hone : monthFirst (monthNr start) = monthFirst (monthNr start + j * interval) ∨
      monthFirst (monthNr start) + L0 ≤ monthFirst (monthNr start + j * interval) := by
    rcases Int.lt_or_eq_of_le hj with h | h
    · right
      have h2 := monthFirst_succ (monthNr start)
      rw [hmy.1, hmy.2, hL0'] at h2
      rcases (by omega : monthNr start + 1 = monthNr start + j * interval ∨
        monthNr start + 1 < monthNr start + j * interval) with h3 | h3
      · rw [← h3]; omega
      · have := monthFirst_lt h3; omega
    · left; rw [← h]; simp
  have hsame : monthFirst (monthNr start) = monthFirst (monthNr start + j * interval) →
      daysInMonth (monthYear (monthNr start + j * interval)) (monthMonth (monthNr start + j * interval)) = L0 := by
    intro h
    have : (j : Int) * interval = 0 := by
      rcases Int.lt_or_eq_of_le hj with h' | h'
      · have := monthFirst_lt (n := monthNr start) (n' := monthNr start + j * interval) (by omega); omega
      · exact h'.symm
    rw [this, Int.add_zero, hmy.1, hmy.2, hL0']
  generalize hn : monthNr start + j * interval = n at *
  have hy1 : 1 ≤ monthYear n := by unfold monthYear; omega
  have hF := monthFirst_pos hy1
  by_cases hy2 : monthYear n ≤ 9999
  · have hmax := monthFirst_max hy2
    have hL := daysInMonth_pos (monthYear n) (monthMonth n)
    rw [weekdaysOfMonth_eq ⟨hy1, hy2⟩ hw,
      monthindex_neg ⟨hy1, hy2⟩ (monthMonth_range n) (by unfold monthYear monthMonth at *; omega) hw
        (by omega), dateAdd_toOption]
    have ha : 0 ≤ firstOff n (weekday start) ∧ firstOff n (weekday start) < 7 := by
      unfold firstOff; omega
    have hFo : firstOff n (weekday start) = (weekday start - weekday (monthFirst n)) % 7 := rfl
    change (if dateInRange (monthFirst n + _ + (_ - weekday (monthFirst n + _)) % 7 + _) = true then
      some (monthFirst n + _ + (_ - weekday (monthFirst n + _)) % 7 + _) else none) = _
    generalize hLn : daysInMonth (monthYear n) (monthMonth n) = L at *
    simp only
    generalize hb : (if monthFirst n + firstOff n (weekday start) + 28 < monthFirst n + L
      then monthFirst n + firstOff n (weekday start) + 28
      else monthFirst n + firstOff n (weekday start) + 21) = b
    have hlastb : ([monthFirst n + firstOff n (weekday start), monthFirst n + firstOff n (weekday start) + 7,
        monthFirst n + firstOff n (weekday start) + 14, monthFirst n + firstOff n (weekday start) + 21] ++
        if monthFirst n + firstOff n (weekday start) + 28 < monthFirst n + L then
          [monthFirst n + firstOff n (weekday start) + 28] else []).getLast? = some b := by
      rw [← hb]
      split <;> simp
    rw [hlastb]
    have e : monthFirst n + L + (weekday start - weekday (monthFirst n + L)) % 7 +
        (dday start - L0 - 1) / 7 * 7 = b - 7 * (((L0 - dday start) / 7).toNat : Int) := by
      rw [← hb, hFo]
      generalize monthFirst n = F
      unfold weekday at *
      split <;> omega
    rw [e]
    have hbb : monthFirst n + 21 ≤ b ∧ b < monthFirst n + L := by
      rw [← hb]; split <;> omega
    rw [if_pos]
    · rfl
    · rw [dateInRange_iff]
      refine ⟨?_, by omega⟩
      rcases hone with h | h
      · have hs := hsame h
        have ho := start_off start
        have hwk : b % 7 = start % 7 := by
          rw [← hb, hFo]
          unfold weekday at *
          generalize monthFirst n = F at *
          split <;> omega
        omega
      · omega
  · have : weekdaysOfMonth n (weekday start) = [] := by
      unfold weekdaysOfMonth; rw [if_neg (by omega)]
    rw [this]
    cases hmi : monthindex (monthYear n) (monthMonth n) ((dday start - L0 - 1) / 7) (weekday start) with
    | error e => simp [Except.toOption]
    | ok a =>
      have := monthindex_year hmi
      unfold miMonth at this
      rw [if_pos (by omega)] at this
      unfold monthYear at *
      omega

end CalCore
