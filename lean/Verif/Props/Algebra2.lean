import Verif.Lemmas.Algebra
/- Properties C66-C68: rules compared with each other. -/
namespace CalCore
open Spec

/-! ### C66: multiples of the interval -/

theorem ruleSeq_multiple {r : Rule} (hi : 1 ≤ r.interval) {m : Nat} (hm : 1 ≤ m) {s : Int}
    (hr : dateInRange s = true) (h29 : ¬ (r.kind = .yearly ∧ IsFeb29 s)) {k : Nat} {d : Int}
    (h : ruleSeq { r with interval := m * r.interval } s k = some d) : ∃ j, ruleSeq r s j = some d := by
  have e : ((k * m : Nat) : Int) * r.interval = k * (m * r.interval) := by
    rw [Int.natCast_mul, Int.mul_assoc]
  have hmi : 1 ≤ (m : Int) * r.interval := by
    have : (1 : Int) * 1 ≤ m * r.interval := Int.mul_le_mul (by omega) hi (by omega) (by omega)
    omega
  unfold ruleSeq at h ⊢
  cases hkind : r.kind with
  | no =>
    simp only [hkind] at h ⊢
    exact ⟨k, h⟩
  | basic =>
    simp only [hkind] at h ⊢
    refine ⟨k * m, ?_⟩
    unfold dailySeq at h ⊢; rw [e]; exact h
  | daily =>
    simp only [hkind] at h ⊢
    refine ⟨k * m, ?_⟩
    unfold dailySeq at h ⊢; rw [e]; exact h
  | yearly =>
    simp only [hkind] at h ⊢
    rw [initial_eq_some] at h
    refine ⟨k * m, initial_eq_some.2 ⟨fun j hj => ?_, ?_⟩⟩
    · refine yearlySeq_noFeb29 hi hr (fun h => h29 ⟨hkind, h⟩) j ?_
      have h2 := (dateOf_eq_some _ _ _ _).1 h.2
      have hy := (dateInRange_iff_year _).1 h2.1
      have : (j : Int) * r.interval ≤ ((k * m : Nat) : Int) * r.interval :=
        Int.mul_le_mul_of_nonneg_right (by omega) (by omega)
      omega
    · have h2 := h.2
      unfold yearlySeq at h2 ⊢; rw [e]; exact h2
  | weekly wds =>
    simp only [hkind] at h ⊢
    refine ⟨k, ?_⟩
    rw [weeklySeq_some] at h ⊢
    obtain ⟨h1, h2, h3, h4⟩ := h
    refine ⟨h1, h2, Int.dvd_trans ?_ h3, h4⟩
    exact ⟨m, by rw [Int.mul_assoc, Int.mul_comm r.interval]⟩
  | monthly mk =>
    cases mk with
    | monthday =>
      simp only [hkind] at h ⊢
      refine ⟨k * m, ?_⟩
      unfold monthdaySeq at h ⊢; rw [e]; exact h
    | weekday =>
      simp only [hkind] at h ⊢
      refine ⟨k * m, ?_⟩
      unfold weekdayDriftSeq at h ⊢; rw [e]; exact h
    | lastweekday =>
      simp only [hkind] at h ⊢
      refine ⟨k * m, ?_⟩
      unfold lastWeekdayDriftSeq at h ⊢; rw [e]; exact h

/-- C66: a rule without count and with `m` times the interval generates only dates that the rule with the
interval generates.  Missing: yearly rules starting on 29 February, where it is false
(`C66_feb29_counterexample`). -/
theorem C66_multiple_partial (r : Rule) (hi : 1 ≤ r.interval) (hc : r.count = none) (m : Nat) (hm : 1 ≤ m)
    (dt : Int) (hr : dtInRange dt = true) (h29 : ¬ (r.kind = .yearly ∧ IsFeb29 (dtDate dt)))
    (en : Option Int) (d : Int) (h : d ∈ (({ r with interval := m * r.interval } : Rule).apply dt en).1) :
    d ∈ (r.apply dt en).1 := by
  by_cases hk : r.kind = .no
  · have : ∀ i, (({ r with interval := i } : Rule).apply dt en).1 = [dtDate dt] := by
      intro i
      rw [apply_fst]
      unfold Rule.applyRun
      rw [show ({ r with interval := i } : Rule).kind = .no from hk]
    rw [this] at h
    rw [show r.apply dt en = ({ r with interval := r.interval } : Rule).apply dt en from rfl, this]
    exact h
  · by_cases hu : UntilIsDate r
    · have hmi : 1 ≤ (m : Int) * r.interval := by
        have : (1 : Int) * 1 ≤ m * r.interval := Int.mul_le_mul (by omega) hi (by omega) (by omega)
        omega
      rw [(apply_generates (r := { r with interval := m * r.interval }) hk hmi hu hr en).2] at h
      rw [(apply_generates hk hi hu hr en).2]
      obtain ⟨k, h1, h2, h3⟩ := h
      obtain ⟨j, hj⟩ := ruleSeq_multiple hi hm (dtDate_range hr) h29 h1
      refine ⟨j, hj, ⟨h2.1, fun c hc' => ?_, h2.2.2⟩, h3⟩
      rw [hc] at hc'; cases hc'
    · rw [apply_datetime_nil (r := { r with interval := m * r.interval }) hk hu] at h; cases h

/-- C66 fails for yearly rules on 29 February: every 4 years gives 2008, every year only 2004. -/
theorem C66_feb29_counterexample :
    let r : Rule := ⟨.yearly, 1, none, none, []⟩
    let dt := dayAt 2004 2 29
    (({ r with interval := ((4 : Nat) : Int) * r.interval } : Rule).apply dt (some (ymd2ord 2010 1 1))).1 =
        [ymd2ord 2004 2 29, ymd2ord 2008 2 29] ∧
      (r.apply dt (some (ymd2ord 2010 1 1))).1 = [ymd2ord 2004 2 29] := by
  refine ⟨by decide +kernel, by decide +kernel⟩

/-- C66, a case: every second week among every week. -/
example :
    let r : Rule := ⟨.weekly [0], 1, none, none, []⟩
    let dt := dayAt 2005 1 3
    (({ r with interval := ((2 : Nat) : Int) * r.interval } : Rule).apply dt (some (ymd2ord 2005 1 31))).1 =
        [ymd2ord 2005 1 3, ymd2ord 2005 1 17, ymd2ord 2005 1 31] ∧
      (r.apply dt (some (ymd2ord 2005 1 31))).1 = [ymd2ord 2005 1 3, ymd2ord 2005 1 10, ymd2ord 2005 1 17,
        ymd2ord 2005 1 24, ymd2ord 2005 1 31] := by
  refine ⟨by decide +kernel, by decide +kernel⟩

/-! ### C67: the same dates by different rules -/

/-- Rules with the same bounds whose sequences have the same values generate the same dates. -/
theorem apply_same {r r' : Rule} (hk : r.kind ≠ .no) (hk' : r'.kind ≠ .no) (hi : 1 ≤ r.interval)
    (hi' : 1 ≤ r'.interval) (hc : r'.count = r.count) (hu : r'.untl = r.untl)
    (hx : r'.exceptions = r.exceptions) {dt : Int} (hr : dtInRange dt = true)
    (hv : ∀ d, (∃ k, ruleSeq r (dtDate dt) k = some d) ↔ ∃ k, ruleSeq r' (dtDate dt) k = some d)
    (en : Option Int) : (r.apply dt en).1 = (r'.apply dt en).1 := by
  by_cases hud : UntilIsDate r
  · have hud' : UntilIsDate r' := by unfold UntilIsDate; rw [hu]; exact hud
    exact Generates.congr hc hu hx (ruleSeq_mono hi (dtDate_range hr)) (ruleSeq_mono hi' (dtDate_range hr))
      hv (apply_generates hk hi hud hr en) (apply_generates hk' hi' hud' hr en)
  · have hud' : ¬ UntilIsDate r' := by unfold UntilIsDate; rw [hu]; exact hud
    rw [apply_datetime_nil hk hud, apply_datetime_nil hk' hud']

/-- C67: weekly without weekdays every `i` weeks is daily every `7 i` days. -/
theorem C67_weekly_daily (i : Int) (hi : 1 ≤ i) (c : Option Int) (u : Option Until) (x : List Int) (dt : Int)
    (hr : dtInRange dt = true) (en : Option Int) :
    ((⟨.weekly [], i, c, u, x⟩ : Rule).apply dt en).1 = ((⟨.daily, 7 * i, c, u, x⟩ : Rule).apply dt en).1 := by
  apply apply_same (hr := hr)
  · simp
  · simp
  · exact hi
  · simp only []; omega
  · rfl
  · rfl
  · rfl
  intro d
  unfold ruleSeq
  simp only []
  constructor
  · rintro ⟨k, h⟩
    rw [weeklySeq_some] at h
    obtain ⟨h1, h2, ⟨q, h3⟩, h4⟩ := h
    have hwd : weekday d = weekday (dtDate dt) := by
      rcases h4 with h4 | h4
      · cases h4
      · exact h4
    have hd : d = dtDate dt + 7 * i * q := by unfold mondayOf at h3; omega
    have hq : 0 ≤ q := by
      by_contra hq
      have : 7 * i * q < 0 := Int.mul_neg_of_pos_of_neg (by omega) (by omega)
      omega
    refine ⟨q.toNat, dailySeq_some.2 ⟨?_, h2⟩⟩
    rw [Int.toNat_of_nonneg hq, Int.mul_comm]; exact hd
  · rintro ⟨k, h⟩
    rw [dailySeq_some] at h
    obtain ⟨h1, h2⟩ := h
    have hk : (0 : Int) ≤ k * (7 * i) := Int.mul_nonneg (by omega) (by omega)
    have h7 : (k : Int) * (7 * i) = 7 * (k * i) := by rw [Int.mul_left_comm]
    have hwd : weekday d = weekday (dtDate dt) := by unfold weekday; omega
    refine ⟨((k : Int) * (7 * i)).toNat, weeklySeq_some.2 ⟨?_, h2, ?_, Or.inr hwd⟩⟩
    · rw [Int.toNat_of_nonneg hk]; exact h1
    · unfold mondayOf; rw [hwd, h1]; exact ⟨k, by rw [Int.mul_comm]; omega⟩

/-- C67: weekly on all seven weekdays every week is daily. -/
theorem C67_alldays_daily (wds : List Int) (hw : ∀ w, 0 ≤ w → w ≤ 6 → w ∈ wds) (c : Option Int)
    (u : Option Until) (x : List Int) (dt : Int) (hr : dtInRange dt = true) (en : Option Int) :
    ((⟨.weekly wds, 1, c, u, x⟩ : Rule).apply dt en).1 = ((⟨.daily, 1, c, u, x⟩ : Rule).apply dt en).1 := by
  apply apply_same (hr := hr)
  · simp
  · simp
  · exact Int.le_refl 1
  · exact Int.le_refl 1
  · rfl
  · rfl
  · rfl
  intro d
  unfold ruleSeq
  simp only []
  constructor
  · rintro ⟨k, h⟩
    rw [weeklySeq_some] at h
    exact ⟨k, dailySeq_some.2 ⟨by omega, h.2.1⟩⟩
  · rintro ⟨k, h⟩
    rw [dailySeq_some] at h
    refine ⟨k, weeklySeq_some.2 ⟨by omega, h.2, ?_, Or.inl (hw _ (weekday_range d).1 (weekday_range d).2)⟩⟩
    unfold mondayOf weekday; omega

/-- C67: a weekly rule depends only on the set of its weekdays together with the weekday of the start. -/
theorem C67_weekdays_set (wds wds' : List Int) (i : Int) (hi : 1 ≤ i) (c : Option Int) (u : Option Until)
    (x : List Int) (dt : Int) (hr : dtInRange dt = true)
    (hw : ∀ w, w ≠ weekday (dtDate dt) → (w ∈ wds ↔ w ∈ wds')) (en : Option Int) :
    ((⟨.weekly wds, i, c, u, x⟩ : Rule).apply dt en).1 = ((⟨.weekly wds', i, c, u, x⟩ : Rule).apply dt en).1 := by
  apply apply_same (hr := hr)
  · simp
  · simp
  · exact hi
  · exact hi
  · rfl
  · rfl
  · rfl
  intro d
  unfold ruleSeq
  simp only [weeklySeq_some]
  have : (weekday d ∈ wds ∨ weekday d = weekday (dtDate dt)) ↔
      (weekday d ∈ wds' ∨ weekday d = weekday (dtDate dt)) := by
    by_cases h : weekday d = weekday (dtDate dt)
    · simp [h]
    · simp [h, hw _ h]
  simp only [this]

/-- C67: yearly every `i` years is monthly on the same day every `12 i` months, for starts other than 29
February.  Missing: 29 February, where the yearly rule fails (`C67_feb29_counterexample`). -/
theorem C67_yearly_monthly_partial (i : Int) (hi : 1 ≤ i) (c : Option Int) (u : Option Until) (x : List Int)
    (dt : Int) (hr : dtInRange dt = true) (h29 : ¬ IsFeb29 (dtDate dt)) (en : Option Int) :
    ((⟨.yearly, i, c, u, x⟩ : Rule).apply dt en).1 =
      ((⟨.monthly .monthday, 12 * i, c, u, x⟩ : Rule).apply dt en).1 := by
  apply apply_same (hr := hr)
  · simp
  · simp
  · exact hi
  · simp only []; omega
  · rfl
  · rfl
  · rfl
  intro d
  unfold ruleSeq
  simp only []
  have hs : monthdaySeq (dtDate dt) (12 * i) = yearlySeq (dtDate dt) i := by
    funext k
    unfold monthdaySeq yearlySeq
    simp only []
    have hm := monthNr_year (dtDate dt)
    have e : (k : Int) * (12 * i) = 12 * (k * i) := by rw [Int.mul_left_comm]
    rw [e]
    have e1 : monthYear (monthNr (dtDate dt) + 12 * (k * i)) = dyear (dtDate dt) + k * i := by
      unfold monthYear at *; omega
    have e2 : monthMonth (monthNr (dtDate dt) + 12 * (k * i)) = dmonth (dtDate dt) := by
      unfold monthMonth at *; omega
    rw [e1, e2]
  rw [hs, initial_closed]
  intro j k hjk h
  refine yearlySeq_noFeb29 hi (dtDate_range hr) h29 j ?_
  obtain ⟨e, he⟩ := Option.isSome_iff_exists.1 h
  have h2 := (dateOf_eq_some _ _ _ _).1 he
  have hy := (dateInRange_iff_year _).1 h2.1
  have : (j : Int) * i ≤ (k : Int) * i := Int.mul_le_mul_of_nonneg_right (by omega) (by omega)
  omega

/-- C67 fails on 29 February: every year raises ValueError, every 12 months gives the leap years. -/
theorem C67_feb29_counterexample :
    (⟨.yearly, 1, none, none, []⟩ : Rule).apply (dayAt 2004 2 29) (some (ymd2ord 2010 1 1)) =
        ([ymd2ord 2004 2 29], .error (.py .ValueError)) ∧
      (⟨.monthly .monthday, 12, none, none, []⟩ : Rule).apply (dayAt 2004 2 29) (some (ymd2ord 2010 1 1)) =
        ([ymd2ord 2004 2 29, ymd2ord 2008 2 29], .ok ()) := by
  refine ⟨by decide +kernel, by decide +kernel⟩

/-- C67: `BasicRecurrenceRule` and `DailyRecurrenceRule` behave alike, for every interval. -/
theorem C67_basic_daily (i : Int) (c : Option Int) (u : Option Until) (x : List Int) (dt : Int)
    (en : Option Int) :
    (⟨.basic, i, c, u, x⟩ : Rule).apply dt en = (⟨.daily, i, c, u, x⟩ : Rule).apply dt en := rfl

/-- C67, cases. -/
example : ((⟨.weekly [], 2, some 3, none, [ymd2ord 2005 1 17]⟩ : Rule).apply (dayAt 2005 1 3) none).1 =
      [ymd2ord 2005 1 3, ymd2ord 2005 1 31] ∧ dtInRange (dayAt 2005 1 3) = true ∧
    (∀ w : Int, 0 ≤ w → w ≤ 6 → w ∈ [0, 1, 2, 3, 4, 5, 6]) ∧
    ((⟨.monthly .monthday, 24, some 2, none, []⟩ : Rule).apply (dayAt 2005 1 31) none).1 =
      [ymd2ord 2005 1 31, ymd2ord 2007 1 31] := by
  refine ⟨by decide +kernel, by decide, ?_, by decide +kernel⟩
  intro w h1 h2
  simp only [List.mem_cons, List.not_mem_nil, or_false]
  omega

/-! ### C68: this and the following -/

/-- The start `s` of a rule can be moved to a later date `d`: for weekly rules the weekday of `s` is among
the weekdays or that of `d`; for the monthly weekday rules `s` is not in the fifth week. -/
def Movable (r : Rule) (s d : Int) : Prop :=
  (∀ wds, r.kind = .weekly wds → weekday s ∈ wds ∨ weekday d = weekday s) ∧
  (r.kind = .monthly .weekday → dday s ≤ 28) ∧
  (r.kind = .monthly .lastweekday → daysInMonth (dyear s) (dmonth s) - 28 < dday s)

theorem ruleSeq_shift {r : Rule} (hk : r.kind ≠ .no) (hi : 1 ≤ r.interval) {s : Int}
    (hr : dateInRange s = true) {k : Nat} {d : Int} (h : ruleSeq r s k = some d) (hm : Movable r s d) :
    dateInRange d = true ∧
      (∀ x, (∃ j, ruleSeq r d j = some x) ↔ ∃ j, ruleSeq r s j = some x ∧ d ≤ x) := by
  have hmono := ruleSeq_mono hi hr
  have hge : s ≤ d := by
    rw [ruleSeq_eq hk hi hr] at h
    exact seqOf_ge hi hr h
  -- it is enough that the sequence is shifted
  have key : (dateInRange d = true ∧ ∀ j, ruleSeq r d j = ruleSeq r s (k + j)) → dateInRange d = true ∧
      (∀ x, (∃ j, ruleSeq r d j = some x) ↔ ∃ j, ruleSeq r s j = some x ∧ d ≤ x) := by
    rintro ⟨hd, hsh⟩
    refine ⟨hd, fun x => ⟨?_, ?_⟩⟩
    · rintro ⟨j, hj⟩
      rw [hsh] at hj
      refine ⟨k + j, hj, ?_⟩
      rcases Nat.eq_zero_or_pos j with h0 | h0
      · subst h0; rw [Nat.add_zero, h] at hj; injection hj with hj; omega
      · have := hmono _ _ _ _ (show k < k + j by omega) h hj; omega
    · rintro ⟨j, hj, hx⟩
      have : k ≤ j := by
        by_contra hlt
        have := hmono _ _ _ _ (show j < k by omega) hj h
        omega
      exact ⟨j - k, by rw [hsh, show k + (j - k) = j by omega]; exact hj⟩
  have hadd : ∀ j : Nat, ((k + j : Nat) : Int) * r.interval = k * r.interval + j * r.interval := by
    intro j; rw [Int.natCast_add, Int.add_mul]
  have hord := (dateInRange_iff s).1 hr
  cases hkind : r.kind with
  | no => exact absurd hkind hk
  | basic =>
    refine key ?_
    unfold ruleSeq at h ⊢
    simp only [hkind] at h ⊢
    rw [dailySeq_some] at h
    refine ⟨(dateInRange_iff d).2 (by omega), fun j => ?_⟩
    unfold dailySeq; rw [hadd, h.1, Int.add_assoc]
  | daily =>
    refine key ?_
    unfold ruleSeq at h ⊢
    simp only [hkind] at h ⊢
    rw [dailySeq_some] at h
    refine ⟨(dateInRange_iff d).2 (by omega), fun j => ?_⟩
    unfold dailySeq; rw [hadd, h.1, Int.add_assoc]
  | yearly =>
    refine key ?_
    unfold ruleSeq at h ⊢
    simp only [hkind] at h ⊢
    rw [initial_eq_some] at h
    obtain ⟨h0, h⟩ := h
    have hd := (dateOf_eq_some _ _ _ _).1 h
    have hsh : ∀ j, yearlySeq d r.interval j = yearlySeq s r.interval (k + j) := by
      intro j; unfold yearlySeq; rw [hadd, hd.2.1, hd.2.2.1, hd.2.2.2, Int.add_assoc]
    refine ⟨hd.1, fun j => ?_⟩
    unfold initial
    by_cases hc : ∀ i ≤ j, (yearlySeq d r.interval i).isSome = true
    · rw [if_pos hc, if_pos, hsh]
      intro i hij
      by_cases hik : i ≤ k
      · exact h0 i hik
      · have := hc (i - k) (by omega)
        rw [hsh, show k + (i - k) = i by omega] at this
        exact this
    · rw [if_neg hc, if_neg]
      intro hc'
      exact hc fun i hij => by rw [hsh]; exact hc' (k + i) (by omega)
  | weekly wds =>
    have hw := hm.1 wds hkind
    unfold ruleSeq at h ⊢
    simp only [hkind, weeklySeq_some] at h ⊢
    obtain ⟨h1, h2, h3, h4⟩ := h
    refine ⟨(dateInRange_iff d).2 (by omega), fun x => ?_⟩
    have hset : ∀ w, (w ∈ wds ∨ w = weekday d) ↔ (w ∈ wds ∨ w = weekday s) := by
      intro w
      rcases hw with hw | hw
      · have h5 : weekday d ∈ wds := by
          rcases h4 with h4 | h4
          · exact h4
          · rw [h4]; exact hw
        constructor
        · rintro (h6 | h6)
          · exact Or.inl h6
          · left; rw [h6]; exact h5
        · rintro (h6 | h6)
          · exact Or.inl h6
          · left; rw [h6]; exact hw
      · rw [hw]
    have hdvd : 7 * r.interval ∣ mondayOf x - mondayOf d ↔ 7 * r.interval ∣ mondayOf x - mondayOf s := by
      have e : mondayOf x - mondayOf s = (mondayOf x - mondayOf d) + (mondayOf d - mondayOf s) := by omega
      rw [e]
      constructor
      · intro h; exact Int.dvd_add h h3
      · intro h
        have := Int.dvd_sub h h3
        rwa [Int.add_sub_cancel] at this
    rw [hdvd, hset]
    constructor
    · rintro ⟨j, hj, hx⟩
      exact ⟨k + j, ⟨by omega, hx⟩, by omega⟩
    · rintro ⟨j, ⟨hj, hx⟩, hdx⟩
      exact ⟨(x - d).toNat, by omega, hx⟩
  | monthly mk =>
    cases mk with
    | monthday =>
      refine key ?_
      unfold ruleSeq at h ⊢
      simp only [hkind] at h ⊢
      have hd := dateOf_monthNr h
      refine ⟨hd.2.2, fun j => ?_⟩
      unfold monthdaySeq
      rw [hadd, hd.1, hd.2.1, Int.add_assoc]
    | weekday =>
      have h28 := hm.2.1 hkind
      refine key ?_
      unfold ruleSeq at h ⊢
      simp only [hkind] at h ⊢
      have hv := validYmd_date s
      have hp1 : 1 ≤ dday s := hv.2.2.1
      have h' := h
      rw [drift_eq_weekdaySeq hi hr h28] at h'
      have hmem := mem_weekdaysOfMonth (List.mem_of_getElem? h')
      obtain ⟨hn, hwd, hdr⟩ := hmem
      have hyk := weekday_seq_year (by rw [h]; rfl : (weekdayDriftSeq s r.interval k).isSome = true)
      have hidx : ((dday d - 1) / 7).toNat = ((dday s - 1) / 7).toNat := by
        unfold weekdayDriftSeq at h
        rw [idxOf_start hr, weekdaysOfMonth_eq hyk (weekday_range s)] at h
        simp only [List.cons_append, List.head?_cons, Option.bind_some] at h
        split at h
        · injection h with h
          have hst := start_in_month d
          rw [hn] at hst
          have hf : 0 ≤ firstOff (monthNr s + k * r.interval) (weekday s) ∧
              firstOff (monthNr s + k * r.interval) (weekday s) < 7 := by unfold firstOff; omega
          omega
        · cases h
      refine ⟨hdr, fun j => ?_⟩
      unfold weekdayDriftSeq
      rw [idxOf_start hdr, idxOf_start hr, hidx, hadd, hn, hwd, Int.add_assoc]
    | lastweekday =>
      have h28 := hm.2.2 hkind
      refine key ?_
      unfold ruleSeq at h ⊢
      simp only [hkind] at h ⊢
      have hv := validYmd_date s
      have hp1 := hv.2.2.2
      split at h
      · have hy1 : 1 ≤ monthYear (monthNr s + k * r.interval) ∧
            monthYear (monthNr s + k * r.interval) ≤ 9999 := by
          have hn0 : 12 ≤ monthNr s := by
            have := (dateInRange_iff_year s).1 hr
            unfold monthNr; unfold validYmd at hv; omega
          have : (0 : Int) ≤ k * r.interval := Int.mul_nonneg (by omega) (by omega)
          unfold monthYear; omega
        have hL := daysInMonth_pos (monthYear (monthNr s + k * r.interval)) (monthMonth (monthNr s + k * r.interval))
        have hwd7 := weekday_range s
        have hfacts : monthNr d = monthNr s + k * r.interval ∧ weekday d = weekday s ∧
            dateInRange d = true ∧
            ((daysInMonth (dyear d) (dmonth d) - dday d) / 7).toNat =
              ((daysInMonth (dyear s) (dmonth s) - dday s) / 7).toNat := by
          unfold lastWeekdayDriftSeq at h
          rw [idxOf_start_rev hr] at h
          have hmem : d ∈ weekdaysOfMonth (monthNr s + k * r.interval) (weekday s) := by
            rw [weekdaysOfMonth_eq hy1 hwd7] at h ⊢
            simp only [List.cons_append, List.nil_append] at h ⊢
            obtain ⟨q, hq, hq3⟩ : ∃ q : Nat, q = ((daysInMonth (dyear s) (dmonth s) - dday s) / 7).toNat ∧ q ≤ 3 :=
              ⟨_, rfl, by omega⟩
            rw [← hq] at h
            generalize monthFirst (monthNr s + k * r.interval) +
              firstOff (monthNr s + k * r.interval) (weekday s) = X at h ⊢
            split at h <;> (
              rename_i hc
              simp only [List.getLast?_cons_cons, List.getLast?_singleton, Option.map_some,
                Option.some.injEq] at h
              simp only [hc, if_true, if_false, List.mem_cons, List.not_mem_nil, or_false]
              omega)
          obtain ⟨hn, hwd, hdr⟩ := mem_weekdaysOfMonth hmem
          refine ⟨hn, hwd, hdr, ?_⟩
          have hst := start_in_month d
          have hmd := monthNr_year d
          rw [← hmd.1, ← hmd.2, hn]
          rw [hn] at hst
          rw [weekdaysOfMonth_eq hy1 hwd7] at h
          have hf : 0 ≤ firstOff (monthNr s + k * r.interval) (weekday s) ∧
              firstOff (monthNr s + k * r.interval) (weekday s) < 7 := by unfold firstOff; omega
          simp only [List.cons_append, List.nil_append] at h
          split at h <;> (
            simp only [List.getLast?_cons_cons, List.getLast?_singleton, Option.map_some,
              Option.some.injEq] at h
            omega)
        obtain ⟨hn, hwd, hdr, hidx⟩ := hfacts
        refine ⟨hdr, fun j => ?_⟩
        unfold lastWeekdayDriftSeq
        rw [idxOf_start_rev hdr, idxOf_start_rev hr, hidx, hadd, hn, hwd, Int.add_assoc]
      · cases h

/-- C68: the dates generated from one of the dates of the rule on are the dates of the rule from there on,
for rules without count.  Missing: the cases excluded by `Movable`, where it is false
(`C68_weekly_counterexample`, `C68_weekday_counterexample`), and `NoRecurrenceRule`, which has one date. -/
theorem C68_following_partial (r : Rule) (hk : r.kind ≠ .no) (hi : 1 ≤ r.interval) (hc : r.count = none)
    (dt dt' : Int) (hr : dtInRange dt = true) (en : Option Int) (hd : dtDate dt' ∈ (r.apply dt en).1)
    (hm : Movable r (dtDate dt) (dtDate dt')) :
    (r.apply dt' en).1 = (r.apply dt en).1.filter (fun d => decide (dtDate dt' ≤ d)) := by
  by_cases hu : UntilIsDate r
  · have g := apply_generates hk hi hu hr en
    obtain ⟨k, h1, h2, h3⟩ := (g.2 _).1 hd
    obtain ⟨hr', hs⟩ := ruleSeq_shift hk hi (dtDate_range hr) h1 hm
    have g' := apply_generates hk hi hu ((dtInRange_date dt').2 hr') en
    have hw : ∀ d k k', Within r en d k → Within r en d k' := by
      intro d k k' h
      refine ⟨h.1, fun c h' => ?_, h.2.2⟩
      rw [hc] at h'; cases h'
    refine sorted_ext g'.1 (g.1.filter _) fun d => ?_
    rw [List.mem_filter, g.2 d, g'.2 d, decide_eq_true_eq]
    constructor
    · rintro ⟨j, h4, h5, h6⟩
      obtain ⟨j', h7, h8⟩ := (hs d).1 ⟨j, h4⟩
      exact ⟨⟨j', h7, hw _ _ _ h5, h6⟩, h8⟩
    · rintro ⟨⟨j, h4, h5, h6⟩, h8⟩
      obtain ⟨j', h7⟩ := (hs d).2 ⟨j, h4, h8⟩
      exact ⟨j', h7, hw _ _ _ h5, h6⟩
  · rw [apply_datetime_nil hk hu] at hd; cases hd

/-- C68 fails for a weekly rule on Tuesdays whose start is a Monday: moved to the first Tuesday, it no
longer falls on Mondays. -/
theorem C68_weekly_counterexample :
    let r : Rule := ⟨.weekly [1], 1, none, none, []⟩
    ValidRule r ∧
      (r.apply (dayAt 2005 1 3) (some (ymd2ord 2005 1 11))).1 =
        [ymd2ord 2005 1 3, ymd2ord 2005 1 4, ymd2ord 2005 1 10, ymd2ord 2005 1 11] ∧
      (r.apply (dayAt 2005 1 4) (some (ymd2ord 2005 1 11))).1 = [ymd2ord 2005 1 4, ymd2ord 2005 1 11] := by
  refine ⟨⟨by decide, by decide, fun l h => ?_⟩, by decide +kernel, by decide +kernel⟩
  injection h with h; subst h; decide

/-- C68 fails for monthly rules in the fifth week. -/
theorem C68_weekday_counterexample :
    let r : Rule := ⟨.monthly .weekday, 1, none, none, []⟩
    ValidRule r ∧
      (r.apply (dayAt 2005 1 29) (some (ymd2ord 2005 5 1))).1 =
        [ymd2ord 2005 1 29, ymd2ord 2005 3 5, ymd2ord 2005 4 2, ymd2ord 2005 4 30] ∧
      (r.apply (dayAt 2005 3 5) (some (ymd2ord 2005 5 1))).1 = [ymd2ord 2005 3 5, ymd2ord 2005 4 2] := by
  refine ⟨⟨by decide, by decide, fun l h => (by cases h)⟩, by decide +kernel, by decide +kernel⟩

/-- C68, a case: the last Friday of the month, moved to the second date. -/
example :
    let r : Rule := ⟨.monthly .lastweekday, 1, none, none, [ymd2ord 2005 3 25]⟩
    r.kind ≠ .no ∧ dtInRange (dayAt 2005 1 28) = true ∧
      Movable r (dtDate (dayAt 2005 1 28)) (dtDate (dayAt 2005 2 25)) ∧
      (r.apply (dayAt 2005 1 28) (some (ymd2ord 2005 5 1))).1 =
        [ymd2ord 2005 1 28, ymd2ord 2005 2 25, ymd2ord 2005 4 29] ∧
      (r.apply (dayAt 2005 2 25) (some (ymd2ord 2005 5 1))).1 = [ymd2ord 2005 2 25, ymd2ord 2005 4 29] := by
  refine ⟨by simp, by decide, ⟨fun w h => (by cases h), fun h => (by cases h), fun _ => by decide⟩,
    by decide +kernel, by decide +kernel⟩

end CalCore
