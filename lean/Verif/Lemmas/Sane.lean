import Verif.Lemmas.Expand
/- The generation of dates up to the year 2100 ends normally, and never hangs. -/
namespace CalCore
open Spec

theorem step_past {a t i : Int} (hi : 1 ≤ i) (h : a ≤ t) :
    ∃ j : Nat, t < a + j * i ∧ a + j * i ≤ t + i := by
  have hq := Int.mul_ediv_add_emod (t - a) i
  have hm := Int.emod_lt_of_pos (t - a) (show 0 < i by omega)
  have hm' := Int.emod_nonneg (t - a) (show i ≠ 0 by omega)
  have hq0 : 0 ≤ (t - a) / i := Int.ediv_nonneg (by omega) (by omega)
  generalize hqq : (t - a) / i = q at *
  have hc : i * (q + 1) = i * q + i := by rw [Int.mul_add]; omega
  have hn : (((q + 1).toNat : Nat) : Int) * i = i * q + i := by
    rw [show (((q + 1).toNat : Nat) : Int) = q + 1 by omega, Int.mul_comm]; exact hc
  exact ⟨(q + 1).toNat, by omega, by omega⟩

theorem isLeap_400 (y k : Int) : isLeap (y + 400 * k) = isLeap y := by
  rw [Bool.eq_iff_iff, isLeap_iff, isLeap_iff]; omega

theorem dateOf_400 {d k : Int} (hr : dateInRange d = true) (h0 : 0 ≤ k) (hk : dyear d + 400 * k ≤ 9999) :
    ∃ d', dateOf (dyear d + 400 * k) (dmonth d) (dday d) = some d' := by
  have hy := (dateInRange_iff_year d).1 hr
  obtain ⟨h1, h2, h3, h4⟩ := validYmd_date d
  unfold dateOf
  rw [if_pos]
  · exact ⟨_, rfl⟩
  · refine ⟨by omega, hk, h1, h2, h3, ?_⟩
    rw [daysInMonth_eq] at h4 ⊢
    rw [isLeap_400]; exact h4

theorem lt_of_dyear_lt {e d : Int} (h : dyear e < dyear d) : e < d := by
  have := (ymd2ord_lt_iff (validYmd_date e) (validYmd_date d)).2 (Or.inl h)
  rwa [ymd2ord_date, ymd2ord_date] at this

theorem le_monthFirst (e : Int) : e < monthFirst (monthNr e + 1) := by
  have h := monthFirst_succ (monthNr e)
  rw [(monthNr_year e).1, (monthNr_year e).2] at h
  have := start_in_month e
  have := (validYmd_date e).2.2.2
  omega

theorem drift_some {n wd : Int} {p : Nat} (hp : p ≤ 4) (hw : 0 ≤ wd ∧ wd ≤ 6)
    (hy : 1 ≤ monthYear n ∧ monthYear n < 9999) :
    (∃ d, ((weekdaysOfMonth n wd).head?.bind (fun x => let d := x + 7 * (p : Int); if d ≤ MAXORD then some d else none))
      = some d ∧ monthFirst n ≤ d) ∧
    ∃ d, (weekdaysOfMonth n wd).getLast?.map (fun x => x - 7 * (p : Int)) = some d ∧ monthFirst n - 7 ≤ d := by
  have ha : 0 ≤ firstOff n wd ∧ firstOff n wd < 7 := by unfold firstOff; omega
  have hL := daysInMonth_pos (monthYear n) (monthMonth n)
  have hmax := monthFirst_max (n := n + 12) (by unfold monthYear at *; omega)
  have hlt := monthFirst_lt (n := n) (n' := n + 1) (by omega)
  have hlt2 := monthFirst_lt (n := n + 1) (n' := n + 12) (by omega)
  have hL2 := daysInMonth_pos (monthYear (n + 12)) (monthMonth (n + 12))
  rw [weekdaysOfMonth_eq ⟨hy.1, by omega⟩ hw]
  simp only [List.cons_append, List.head?_cons, Option.bind_some]
  constructor
  · rw [if_pos (by omega)]
    exact ⟨_, rfl, by omega⟩
  · split
    · refine ⟨_, (by simp only [List.nil_append, List.getLast?_cons_cons, List.getLast?_singleton, Option.map_some]; rfl), ?_⟩
      omega
    · refine ⟨_, (by simp only [List.nil_append, List.getLast?_cons_cons, List.getLast?_singleton, Option.map_some]; rfl), ?_⟩
      omega

/-- Rules whose dates up to the year 2100 can always be computed. -/
theorem rule_ok_2100 (r : Rule) (hv : 1 ≤ r.interval) (hu : UntilIsDate r) (hiv : r.interval ≤ 7800) (dt : Int)
    (hr : dtInRange dt = true) (hy29 : r.kind = .yearly → ¬ IsFeb29 (dtDate dt))
    (hm29 : r.kind = .monthly .monthday → IsFeb29 (dtDate dt) → r.interval ≤ 19)
    (hl : r.kind = .monthly .lastweekday → ¬ InLastMonth (dtDate dt)) (e : Int) (her : dateInRange e = true)
    (he : dyear e ≤ 2100) : (r.apply dt (some e)).2 = .ok () := by
  have hi := hv
  have hr' := dtDate_range hr
  by_cases hk : r.kind = .no
  · unfold Rule.apply Rule.applyRun; rw [hk]
  have E := rule_exact hu hi hk dt hr
  by_cases h0 : e < dtDate dt
  · exact E.ok (seqOf_zero hk hr' (fun h => hl h.1 h.2)) (not_within_enddate h0)
  have h0 : dtDate dt ≤ e := by omega
  have hmax : e + 2800000 ≤ MAXORD := by
    have h1 := (dyear_bounds e).2
    have h2 := daysBeforeYear_mono (y := dyear e + 1) (y' := 2101) (by omega)
    have : daysBeforeYear 2101 + 2800000 ≤ MAXORD := by decide
    omega
  have hey := (dateInRange_iff_year e).1 her
  have hsy := (dateInRange_iff_year _).1 hr'
  have hmn : monthNr (dtDate dt) ≤ monthNr e := by
    rcases Int.lt_or_le (monthNr e) (monthNr (dtDate dt)) with h | h
    · have h1 := le_monthFirst e
      have h2 := start_in_month (dtDate dt)
      have h3 := (validYmd_date (dtDate dt)).2.2.1
      rcases (by omega : monthNr e + 1 = monthNr (dtDate dt) ∨ monthNr e + 1 < monthNr (dtDate dt)) with h4 | h4
      · rw [h4] at h1; omega
      · have := monthFirst_lt h4; omega
    · exact h
  have hmd := validYmd_date e
  have hn12 : 12 ≤ monthNr (dtDate dt) := by
    have := validYmd_date (dtDate dt)
    unfold monthNr; unfold validYmd at this; omega
  have hcand : ∀ c, seqOf r (dtDate dt) = ruleSeq r (dtDate dt) → ruleSeq r (dtDate dt) = c →
      (∃ j d, c j = some d ∧ e < d) → (r.apply dt (some e)).2 = .ok () := by
    rintro c h1 h2 ⟨j, d, hj, hd⟩
    rw [← h2, ← h1] at hj
    exact E.ok hj (not_within_enddate hd)
  have hseq := (ruleSeq_eq hk hi hr').symm
  cases hkind : r.kind with
  | no => exact absurd hkind hk
  | basic =>
    refine hcand _ hseq (by unfold ruleSeq; rw [hkind]) ?_
    obtain ⟨j, h1, h2⟩ := step_past hi h0
    refine ⟨j, _, ?_, h1⟩
    simp only []; unfold dailySeq; rw [if_pos (by omega)]
  | daily =>
    refine hcand _ hseq (by unfold ruleSeq; rw [hkind]) ?_
    obtain ⟨j, h1, h2⟩ := step_past hi h0
    refine ⟨j, _, ?_, h1⟩
    simp only []; unfold dailySeq; rw [if_pos (by omega)]
  | yearly =>
    exact (C09_yearly_partial r hkind hv hu dt hr (hy29 hkind) (some e)).2.2 e rfl (by omega) her
  | weekly wds => exact C10_weekly_ok r wds hkind hv hu dt hr e (by omega)
  | monthly m =>
    cases m with
    | monthday =>
      by_cases h29 : IsFeb29 (dtDate dt)
      · have hi19 := hm29 hkind h29
        refine hcand _ hseq (by unfold ruleSeq; rw [hkind]) ?_
        obtain ⟨j, h1, h2⟩ := step_past (i := 400 * r.interval) (by omega)
          (show dyear (dtDate dt) ≤ dyear e from dyear_mono h0)
        have hj0 : 0 ≤ (j : Int) * r.interval := Int.mul_nonneg (by omega) (by omega)
        have hje : (j : Int) * (400 * r.interval) = 400 * (j * r.interval) := by
          rw [Int.mul_left_comm]
        rw [hje] at h1 h2
        obtain ⟨d, hd⟩ := dateOf_400 hr' hj0 (by omega)
        refine ⟨4800 * j, d, ?_, ?_⟩
        · unfold monthdaySeq
          simp only
          have hm := monthNr_year (dtDate dt)
          have e1 : monthNr (dtDate dt) + ((4800 * j : Nat) : Int) * r.interval =
              monthNr (dtDate dt) + 12 * (400 * (j * r.interval)) := by
            rw [Int.natCast_mul, Int.mul_assoc]
            generalize (j : Int) * r.interval = q
            omega
          rw [e1]
          have e2 : monthYear (monthNr (dtDate dt) + 12 * (400 * (j * r.interval))) =
              dyear (dtDate dt) + 400 * (j * r.interval) := by
            rw [← hm.1]; unfold monthYear; omega
          have e3 : monthMonth (monthNr (dtDate dt) + 12 * (400 * (j * r.interval))) = dmonth (dtDate dt) := by
            rw [← hm.2]; unfold monthMonth; omega
          rw [e2, e3]; exact hd
        · rw [dateOf_eq_some] at hd
          exact lt_of_dyear_lt (by omega)
      · exact C11_monthday_ok r hkind hv hu dt hr h29 e her (by omega)
    | weekday =>
      refine hcand _ hseq (by unfold ruleSeq; rw [hkind]) ?_
      obtain ⟨j, h1, h2⟩ := step_past hi (show monthNr (dtDate dt) ≤ monthNr e + 1 by omega)
      have hme : monthNr e ≤ 12 * 2100 + 11 := by unfold monthNr; unfold validYmd at hmd; omega
      obtain ⟨⟨d, hd, hdm⟩, _⟩ := drift_some (n := monthNr (dtDate dt) + j * r.interval)
        (p := (weekdaysOfMonth (monthNr (dtDate dt)) (weekday (dtDate dt))).idxOf (dtDate dt))
        (wd := weekday (dtDate dt))
        (by rw [idxOf_start hr']
            have := (validYmd_date (dtDate dt)).2.2
            have := daysInMonth_pos (dyear (dtDate dt)) (dmonth (dtDate dt)); omega)
        (weekday_range _) (by unfold monthYear; omega)
      refine ⟨j, d, hd, ?_⟩
      have := le_monthFirst e
      have := monthFirst_lt (n := monthNr e + 1) (n' := monthNr (dtDate dt) + j * r.interval) h1
      omega
    | lastweekday =>
      refine hcand _ hseq (by unfold ruleSeq; rw [hkind]) ?_
      obtain ⟨j, h1, h2⟩ := step_past hi (show monthNr (dtDate dt) ≤ monthNr e + 1 by omega)
      have hme : monthNr e ≤ 12 * 2100 + 11 := by unfold monthNr; unfold validYmd at hmd; omega
      obtain ⟨_, ⟨d, hd, hdm⟩⟩ := drift_some (n := monthNr (dtDate dt) + j * r.interval)
        (p := (weekdaysOfMonth (monthNr (dtDate dt)) (weekday (dtDate dt))).reverse.idxOf (dtDate dt))
        (wd := weekday (dtDate dt))
        (by rw [idxOf_start_rev hr']
            have := (validYmd_date (dtDate dt)).2.2
            have := daysInMonth_pos (dyear (dtDate dt)) (dmonth (dtDate dt)); omega)
        (weekday_range _) (by unfold monthYear; omega)
      refine ⟨j, d, ?_, ?_⟩
      · simp only []
        rw [if_pos (by omega)]
        exact hd
      have := le_monthFirst e
      have := monthFirst_lt (n := monthNr e + 1) (n' := monthNr (dtDate dt) + j * r.interval) h1
      omega

end CalCore
