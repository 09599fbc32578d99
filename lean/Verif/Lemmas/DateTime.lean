import Verif.Model.DateTime
/- The calendar arithmetic is coherent: ordinals and (year, month, day) are in bijection. -/
namespace CalCore

theorem isLeap_iff (y : Int) : isLeap y = true ↔ y % 4 = 0 ∧ (y % 100 ≠ 0 ∨ y % 400 = 0) := by
  simp [isLeap]

/-- A calendar date exists. -/
def validYmd (y m d : Int) : Prop := 1 ≤ m ∧ m ≤ 12 ∧ 1 ≤ d ∧ d ≤ daysInMonth y m

theorem daysInMonth_pos (y m : Int) : 28 ≤ daysInMonth y m ∧ daysInMonth y m ≤ 31 := by
  unfold daysInMonth
  split
  · split <;> omega
  · split <;> omega

theorem daysBeforeMonth_succ (y m : Int) (h1 : 1 ≤ m) (h2 : m ≤ 11) :
    daysBeforeMonth y (m + 1) = daysBeforeMonth y m + daysInMonth y m := by
  have hm : m = 1 ∨ m = 2 ∨ m = 3 ∨ m = 4 ∨ m = 5 ∨ m = 6 ∨ m = 7 ∨ m = 8 ∨ m = 9 ∨ m = 10
    ∨ m = 11 := by omega
  unfold daysBeforeMonth daysInMonth daysBeforeMonth0
  cases isLeap y <;> rcases hm with h|h|h|h|h|h|h|h|h|h|h <;> subst h <;> simp

theorem daysBeforeMonth_one (y : Int) : daysBeforeMonth y 1 = 0 := by
  simp [daysBeforeMonth, daysBeforeMonth0]

theorem daysBeforeMonth_twelve (y : Int) :
    daysBeforeMonth y 12 + 31 = 365 + (if isLeap y = true then 1 else 0) := by
  unfold daysBeforeMonth daysBeforeMonth0
  cases isLeap y <;> simp

theorem daysBeforeYear_succ (y : Int) :
    daysBeforeYear (y + 1) = daysBeforeYear y + 365 + (if isLeap y = true then 1 else 0) := by
  unfold daysBeforeYear
  by_cases h : isLeap y = true
  · rw [if_pos h]; rw [isLeap_iff] at h; omega
  · rw [if_neg h]; rw [isLeap_iff] at h; omega

theorem daysBeforeYear_mono {y y' : Int} (h : y ≤ y') :
    daysBeforeYear y + 365 * (y' - y) ≤ daysBeforeYear y' := by
  unfold daysBeforeYear; omega

theorem daysBeforeMonth_lt {y m m' : Int} (h1 : 1 ≤ m) (h2 : m < m') (h3 : m' ≤ 12) :
    daysBeforeMonth y m + daysInMonth y m ≤ daysBeforeMonth y m' := by
  unfold daysBeforeMonth daysInMonth daysBeforeMonth0
  have hm : m = 1 ∨ m = 2 ∨ m = 3 ∨ m = 4 ∨ m = 5 ∨ m = 6 ∨ m = 7 ∨ m = 8 ∨ m = 9 ∨ m = 10
    ∨ m = 11 := by omega
  have hm' : m' = 2 ∨ m' = 3 ∨ m' = 4 ∨ m' = 5 ∨ m' = 6 ∨ m' = 7 ∨ m' = 8 ∨ m' = 9 ∨ m' = 10
    ∨ m' = 11 ∨ m' = 12 := by omega
  cases isLeap y <;>
  rcases hm with h|h|h|h|h|h|h|h|h|h|h <;> subst h <;>
  rcases hm' with h|h|h|h|h|h|h|h|h|h|h <;> subst h <;> first | omega | simp

/-- Every valid date of year `y` lies strictly after the years before, and at most at year end. -/
theorem ymd2ord_in_year {y m d : Int} (h : validYmd y m d) :
    daysBeforeYear y < ymd2ord y m d ∧ ymd2ord y m d ≤ daysBeforeYear (y + 1) := by
  obtain ⟨h1, h2, h3, h4⟩ := h
  have hs := daysBeforeYear_succ y
  have h12 := daysBeforeMonth_twelve y
  have h0 : 0 ≤ daysBeforeMonth y m := by
    rcases (by omega : m = 1 ∨ 1 < m) with h | h
    · subst h; rw [daysBeforeMonth_one]; exact Int.le_refl 0
    · have := daysBeforeMonth_lt (y := y) (Int.le_refl 1) h h2
      have := daysInMonth_pos y 1
      rw [daysBeforeMonth_one] at *; omega
  unfold ymd2ord
  refine ⟨by omega, ?_⟩
  rcases (by omega : m = 12 ∨ m < 12) with h | h
  · subst h
    have : daysInMonth y 12 = 31 := by simp [daysInMonth]
    omega
  · have := daysBeforeMonth_lt (y := y) h1 h (Int.le_refl 12)
    omega

theorem ymd2ord_lt_of_year {y m d y' m' d' : Int} (h : validYmd y m d) (h' : validYmd y' m' d')
    (hy : y < y') : ymd2ord y m d < ymd2ord y' m' d' := by
  have a := ymd2ord_in_year h
  have b := ymd2ord_in_year h'
  have := daysBeforeYear_mono (y := y + 1) (y' := y') (by omega)
  omega

theorem ymd2ord_lt_of_month {y m d m' d' : Int} (h : validYmd y m d) (h' : validYmd y m' d')
    (hm : m < m') : ymd2ord y m d < ymd2ord y m' d' := by
  have := daysBeforeMonth_lt (y := y) h.1 hm h'.2.1
  have := h.2.2.2
  have := h'.2.2.1
  unfold ymd2ord; omega

/-- Dates are ordered as (year, month, day) triples. -/
theorem ymd2ord_lt_iff {y m d y' m' d' : Int} (h : validYmd y m d) (h' : validYmd y' m' d') :
    ymd2ord y m d < ymd2ord y' m' d' ↔ y < y' ∨ (y = y' ∧ (m < m' ∨ (m = m' ∧ d < d'))) := by
  rcases Int.lt_trichotomy y y' with hy | hy | hy
  · have := ymd2ord_lt_of_year h h' hy; constructor <;> intro <;> omega
  · subst hy
    rcases Int.lt_trichotomy m m' with hm | hm | hm
    · have := ymd2ord_lt_of_month h h' hm; constructor <;> intro <;> omega
    · subst hm; unfold ymd2ord; constructor <;> intro <;> omega
    · have := ymd2ord_lt_of_month h' h hm; constructor <;> intro <;> omega
  · have := ymd2ord_lt_of_year h' h hy; constructor <;> intro <;> omega

theorem ymd2ord_inj {y m d y' m' d' : Int} (h : validYmd y m d) (h' : validYmd y' m' d')
    (e : ymd2ord y m d = ymd2ord y' m' d') : y = y' ∧ m = m' ∧ d = d' := by
  have a := ymd2ord_lt_iff h h'
  have b := ymd2ord_lt_iff h' h
  have a' : ¬ (ymd2ord y m d < ymd2ord y' m' d') := by omega
  have b' : ¬ (ymd2ord y' m' d' < ymd2ord y m d) := by omega
  rw [a] at a'; rw [b] at b'
  omega

/-- The month/day computation of CPython's `_ord2ymd` on the day of the year (0-based). -/
def monthDay (leap : Bool) (n : Int) : Int × Int :=
  let month := (n + 50) / 32
  let preceding := daysBeforeMonth0 month + (if 2 < month ∧ leap = true then 1 else 0)
  if preceding > n then
    let month := month - 1
    let preceding := daysBeforeMonth0 month + (if 2 < month ∧ leap = true then 1 else 0)
    (month, n - preceding + 1)
  else (month, n - preceding + 1)

def dimTable (leap : Bool) (m : Int) : Int :=
  if m = 2 then (if leap then 29 else 28)
  else if m = 4 ∨ m = 6 ∨ m = 9 ∨ m = 11 then 30 else 31

theorem daysInMonth_eq (y m : Int) : daysInMonth y m = dimTable (isLeap y) m := rfl

theorem monthDay_table : ∀ leap : Bool, ∀ n : Fin 366, (leap = true ∨ n.val < 365) →
    let r := monthDay leap (n.val : Int)
    1 ≤ r.1 ∧ r.1 ≤ 12 ∧ 1 ≤ r.2 ∧ r.2 ≤ dimTable leap r.1 ∧
      daysBeforeMonth0 r.1 + (if 2 < r.1 ∧ leap = true then 1 else 0) + r.2 = n.val + 1 := by
  decide +kernel

theorem monthDay_spec (leap : Bool) (n : Int) (h0 : 0 ≤ n) (h1 : n < 365) :
    let r := monthDay leap n
    1 ≤ r.1 ∧ r.1 ≤ 12 ∧ 1 ≤ r.2 ∧ r.2 ≤ dimTable leap r.1 ∧
      daysBeforeMonth0 r.1 + (if 2 < r.1 ∧ leap = true then 1 else 0) + r.2 = n + 1 := by
  have h := monthDay_table leap ⟨n.toNat, by omega⟩ (Or.inr (by simp; omega))
  have e : ((n.toNat : Nat) : Int) = n := by omega
  simp only [e] at h
  exact h

theorem ord2ymd_eq (n : Int) :
    ord2ymd n =
      let n0 := n - 1
      let r := n0 % 146097
      let r2 := r % 36524
      let r3 := r2 % 1461
      let year := n0 / 146097 * 400 + 1 + r / 36524 * 100 + r2 / 1461 * 4 + r3 / 365
      if r3 / 365 = 4 ∨ r / 36524 = 4 then (year - 1, 12, 31)
      else (year, monthDay (decide (r3 / 365 = 3) && (decide (r2 / 1461 ≠ 24) || decide (r / 36524 = 3)))
        (r3 % 365)) := by
  simp only [ord2ymd, monthDay]
  split
  · rfl
  · rw [← apply_ite (Prod.mk _)]

theorem ord2ymd_spec (n : Int) :
    validYmd (ord2ymd n).1 (ord2ymd n).2.1 (ord2ymd n).2.2 ∧
      ymd2ord (ord2ymd n).1 (ord2ymd n).2.1 (ord2ymd n).2.2 = n := by
  rw [ord2ymd_eq]
  simp only []
  generalize ha : (n - 1) / 146097 = a
  generalize hr : (n - 1) % 146097 = r
  generalize hb : r / 36524 = b
  generalize hr2 : r % 36524 = r2
  generalize hc : r2 / 1461 = c
  generalize hr3 : r2 % 1461 = r3
  generalize hd : r3 / 365 = d
  generalize hr4 : r3 % 365 = r4
  have e1 : n - 1 = 146097 * a + r := by omega
  have e2 : r = 36524 * b + r2 := by omega
  have e3 : r2 = 1461 * c + r3 := by omega
  have e4 : r3 = 365 * d + r4 := by omega
  have b1 : 0 ≤ b ∧ b ≤ 4 := by omega
  have b2 : 0 ≤ c ∧ c ≤ 24 := by omega
  have b3 : 0 ≤ d ∧ d ≤ 4 := by omega
  have b4 : 0 ≤ r4 ∧ r4 < 365 := by omega
  have b5 : b = 4 → c = 0 ∧ d = 0 ∧ r4 = 0 := by omega
  have b6 : d = 4 → r4 = 0 := by omega
  have b7 : c = 24 → b < 3 → d ≠ 4 := by omega
  clear ha hr hb hr2 hc hr3 hd hr4
  by_cases hcase : d = 4 ∨ b = 4
  · rw [if_pos hcase]
    simp only []
    have hl : isLeap (a * 400 + 1 + b * 100 + c * 4 + d - 1) = true := by
      rw [isLeap_iff]; omega
    refine ⟨⟨by omega, by omega, by omega, by simp [daysInMonth]⟩, ?_⟩
    have h12 := daysBeforeMonth_twelve (a * 400 + 1 + b * 100 + c * 4 + d - 1)
    rw [if_pos hl] at h12
    unfold ymd2ord
    have : daysBeforeYear (a * 400 + 1 + b * 100 + c * 4 + d - 1) + 366 = n := by
      unfold daysBeforeYear
      rcases hcase with h | h
      · subst h; omega
      · obtain ⟨h1, h2, h3⟩ := b5 h
        subst h h1 h2 h3; omega
    omega
  · rw [if_neg hcase]
    simp only []
    have hl : isLeap (a * 400 + 1 + b * 100 + c * 4 + d) =
        (decide (d = 3) && (decide (c ≠ 24) || decide (b = 3))) := by
      rw [Bool.eq_iff_iff, isLeap_iff]
      simp only [Bool.and_eq_true, Bool.or_eq_true, decide_eq_true_eq]
      omega
    rw [← hl]
    obtain ⟨m1, m2, m3, m4, m5⟩ :=
      monthDay_spec (isLeap (a * 400 + 1 + b * 100 + c * 4 + d)) r4 b4.1 b4.2
    generalize monthDay (isLeap (a * 400 + 1 + b * 100 + c * 4 + d)) r4 = md at *
    refine ⟨⟨m1, m2, m3, m4⟩, ?_⟩
    have hy : daysBeforeYear (a * 400 + 1 + b * 100 + c * 4 + d) + r4 + 1 = n := by
      unfold daysBeforeYear; omega
    unfold ymd2ord daysBeforeMonth
    omega

theorem validYmd_date (n : Int) : validYmd (dyear n) (dmonth n) (dday n) := (ord2ymd_spec n).1

theorem ymd2ord_date (n : Int) : ymd2ord (dyear n) (dmonth n) (dday n) = n := (ord2ymd_spec n).2

theorem ymd_of_ymd2ord {y m d : Int} (h : validYmd y m d) :
    dyear (ymd2ord y m d) = y ∧ dmonth (ymd2ord y m d) = m ∧ dday (ymd2ord y m d) = d :=
  ymd2ord_inj (validYmd_date _) h (ymd2ord_date _)

theorem year_lt_of_lt {n n' : Int} (h : dyear n < dyear n') : n < n' := by
  have := ymd2ord_lt_of_year (validYmd_date n) (validYmd_date n') h
  rwa [ymd2ord_date, ymd2ord_date] at this

theorem dyear_mono {n n' : Int} (h : n ≤ n') : dyear n ≤ dyear n' := by
  rcases Int.lt_or_le (dyear n') (dyear n) with h' | h'
  · have := year_lt_of_lt h'; omega
  · exact h'

theorem dyear_one : dyear 1 = 1 := by decide
theorem dyear_max : dyear MAXORD = 9999 := by decide

theorem dateInRange_iff (d : Int) : dateInRange d = true ↔ 1 ≤ d ∧ d ≤ MAXORD := by
  simp [dateInRange]

/-- A date is in Python's range exactly when its year is 1..9999. -/
theorem dateInRange_iff_year (d : Int) : dateInRange d = true ↔ 1 ≤ dyear d ∧ dyear d ≤ 9999 := by
  rw [dateInRange_iff]
  constructor
  · rintro ⟨h1, h2⟩
    have a := dyear_mono h1
    have b := dyear_mono h2
    rw [dyear_one] at a; rw [dyear_max] at b
    exact ⟨a, b⟩
  · rintro ⟨h1, h2⟩
    have a := ymd2ord_in_year (validYmd_date d)
    rw [ymd2ord_date] at a
    have b := daysBeforeYear_mono (y := 1) h1
    have c := daysBeforeYear_mono (y := dyear d + 1) (y' := 10000) (by omega)
    have e1 : daysBeforeYear 1 = 0 := by decide
    have e2 : daysBeforeYear 10000 = MAXORD := by decide
    have e3 : MAXORD = 3652059 := rfl
    omega

/-- `date(y, m, d)` returns `n` exactly when `n` is the in-range date with these fields. -/
theorem mkDate_eq_ok (y m d n : Int) :
    mkDate y m d = .ok n ↔ dateInRange n = true ∧ dyear n = y ∧ dmonth n = m ∧ dday n = d := by
  unfold mkDate
  constructor
  · split
    · intro h; cases h
    · split
      · rename_i h1 h2
        intro h
        injection h with h
        obtain ⟨a, b, c⟩ := ymd_of_ymd2ord (y := y) (m := m) (d := d)
          ⟨h2.2.2.1, h2.2.2.2.1, h2.2.2.2.2.1, h2.2.2.2.2.2⟩
        rw [← h, dateInRange_iff_year, a]
        exact ⟨⟨h2.1, h2.2.1⟩, rfl, b, c⟩
      · intro h; cases h
  · rintro ⟨h, rfl, rfl, rfl⟩
    rw [dateInRange_iff_year] at h
    obtain ⟨v1, v2, v3, v4⟩ := validYmd_date n
    rw [if_neg (by simp only [CINT]; omega), if_pos ⟨h.1, h.2, v1, v2, v3, v4⟩, ymd2ord_date]

theorem mkDate_ok {y m d : Int} (h : validYmd y m d) (h1 : 1 ≤ y) (h2 : y ≤ 9999) :
    mkDate y m d = .ok (ymd2ord y m d) := by
  obtain ⟨v1, v2, v3, v4⟩ := h
  unfold mkDate
  rw [if_neg (by simp only [CINT]; omega), if_pos ⟨h1, h2, v1, v2, v3, v4⟩]

theorem weekday_range (d : Int) : 0 ≤ weekday d ∧ weekday d ≤ 6 := by unfold weekday; omega

theorem dtDate_combine (d t : Int) (h : 0 ≤ t) (h' : t < DAY) : dtDate (combine d t) = d := by
  unfold dtDate combine DAY at *; omega

theorem dtTime_combine (d t : Int) (h : 0 ≤ t) (h' : t < DAY) : dtTime (combine d t) = t := by
  unfold dtTime combine DAY at *; omega

theorem combine_dt (t : Int) : combine (dtDate t) (dtTime t) = t := by
  unfold combine dtDate dtTime DAY; omega

theorem dtTime_range (t : Int) : 0 ≤ dtTime t ∧ dtTime t < DAY := by unfold dtTime DAY; omega

theorem dtInRange_iff (t : Int) : dtInRange t = true ↔ DAY ≤ t ∧ t < (MAXORD + 1) * DAY := by
  simp [dtInRange]

theorem dtInRange_date (t : Int) : dtInRange t = true ↔ dateInRange (dtDate t) = true := by
  rw [dtInRange_iff, dateInRange_iff]; unfold dtDate DAY MAXORD; omega

theorem dtAdd_ok {t td r : Int} : dtAdd t td = .ok r ↔ dtInRange (t + td) = true ∧ r = t + td := by
  unfold dtAdd
  split
  · constructor
    · intro h; injection h with h; exact ⟨by assumption, h.symm⟩
    · rintro ⟨_, rfl⟩; rfl
  · constructor
    · intro h; cases h
    · rintro ⟨h, _⟩; contradiction

theorem dateAdd_ok {d n r : Int} : dateAdd d n = .ok r ↔ dateInRange (d + n) = true ∧ r = d + n := by
  unfold dateAdd
  split
  · constructor
    · intro h; injection h with h; exact ⟨by assumption, h.symm⟩
    · rintro ⟨_, rfl⟩; rfl
  · constructor
    · intro h; cases h
    · rintro ⟨h, _⟩; contradiction

end CalCore
