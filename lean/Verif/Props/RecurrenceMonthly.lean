import Verif.Props.Recurrence
/- Properties C10-C13: weekly and monthly rules. -/
namespace CalCore
open Spec

/-! ### C10 -/

/-- C10: a weekly rule of positive interval generates, in increasing order, exactly the dates `d` from the start
on whose week is a multiple of `interval` weeks after the start's week and whose weekday is one of the
rule's or the start's, restricted to the first `count` of these, to until and enddate, and without the
exceptions. -/
theorem C10_weekly (r : Rule) (wds : List Int) (hk : r.kind = .weekly wds) (hv : 1 ≤ r.interval)
    (hu : UntilIsDate r) (dt : Int) (hr : dtInRange dt = true) (en : Option Int) :
    Generates r en (weeklySeq (dtDate dt) r.interval wds) (r.apply dt en).1 :=
  (weekly_exact hu hv hk dt hr).generates en

/-- C10: no exception when the enddate is before the last representable date. -/
theorem C10_weekly_ok (r : Rule) (wds : List Int) (hk : r.kind = .weekly wds) (hv : 1 ≤ r.interval)
    (hu : UntilIsDate r) (dt : Int) (hr : dtInRange dt = true) (e : Int) (he : e < MAXORD) :
    (r.apply dt (some e)).2 = .ok () := by
  have E := weekly_exact hu hv hk dt hr
  have hr' := hr
  rw [dtInRange_date] at hr'
  rcases E.status (some e) with h | ⟨f, _, h, _⟩
  · exact h
  · exfalso
    have hrun : (r.applyRun dt (some e) r.fuel).2 = .raised f ∨
        (f = .diverge ∧ (r.applyRun dt (some e) r.fuel).2 = .running) := ((apply_snd r dt (some e)).2 f).1 h
    rcases hrun with hf | ⟨_, hf⟩
    · have happ : r.applyRun dt (some e) r.fuel =
          runGen (r.weeklyStep (wds ++ [weekday (dtDate dt)]) (dtDate dt) (some e)) r.fuel (dtDate dt, 0) := by
        unfold Rule.applyRun; rw [hk]
      rw [happ] at hf
      refine runGen_fault _ (fun _ => False) (fun s => dateInRange s.1 = true) ?_ ?_ ?_ _ _ hr' f hf
      · intro s g hs hfail
        rcases weeklyStep_fail hfail with h1 | ⟨_, h1⟩
        · rcases within_iff_stops r (some e) s.1 s.2 hu with ⟨_, h2⟩ | ⟨_, h2⟩ <;> rw [h2] at h1 <;> cases h1
        · rw [weeklyHit_eq hv wds hr' hs] at h1; cases h1
      · intro s out g hs hy
        obtain ⟨h1, h2⟩ := weeklyStep_yield hy
        have hw := (stops_false h1).1.1 e rfl
        have hs' := (dateInRange_iff _).1 hs
        have : dateAdd s.1 1 = .ok (s.1 + 1) := by
          rw [dateAdd_ok]; exact ⟨(dateInRange_iff _).2 (by omega), rfl⟩
        rcases h2 with ⟨_, _, h2⟩ | ⟨_, _, h2⟩ <;> rw [this] at h2 <;> cases h2
      · intro s out s' hs hy
        obtain ⟨h1, h2⟩ := weeklyStep_yield hy
        rcases h2 with ⟨_, _, h2⟩ | ⟨_, _, h2⟩ <;>
        · obtain ⟨a, ha, rfl⟩ := map_ok h2.symm
          rw [dateAdd_ok] at ha
          rw [← ha.2] at ha; exact ha.1
    · exact E.ends (some e) _ (fuel_ge r) hf

/-- C10, a case: every second week on Monday and Friday from Wednesday 2005-03-02, five times. -/
example :
    let r : Rule := ⟨.weekly [0, 4], 2, some 5, none, []⟩
    ValidRule r ∧ UntilIsDate r ∧ dtInRange (dayAt 2005 3 2) = true ∧
      r.apply (dayAt 2005 3 2) (some (ymd2ord 2005 12 31)) =
        ([ymd2ord 2005 3 2, ymd2ord 2005 3 4, ymd2ord 2005 3 14, ymd2ord 2005 3 16, ymd2ord 2005 3 18],
          .ok ()) := by
  refine ⟨⟨by decide, by decide, fun l h => ?_⟩, fun t h => (by cases h), by decide, ?_⟩
  · injection h with h; subst h; decide
  · decide +kernel

/-! ### C11 -/

/-- C11: a monthly rule of positive interval of kind 'monthday' generates, in increasing order, exactly the dates
with the start's day number in the months `j * interval` after the start's month that have such a day,
within the bounds, the count counting only months that have the day. -/
theorem C11_monthday (r : Rule) (hk : r.kind = .monthly .monthday) (hv : 1 ≤ r.interval)
    (hu : UntilIsDate r) (dt : Int) (hr : dtInRange dt = true) (en : Option Int) :
    Generates r en (monthdaySeq (dtDate dt) r.interval) (r.apply dt en).1 :=
  (monthday_exact hu hv hk dt hr).generates en

/-- C11: an exception is only raised when every date of the sequence within the calendar is within the
bounds. -/
theorem C11_monthday_raises (r : Rule) (hk : r.kind = .monthly .monthday) (hv : 1 ≤ r.interval)
    (hu : UntilIsDate r) (dt : Int) (hr : dtInRange dt = true) (en : Option Int) (f : Fault)
    (h : (r.apply dt en).2 = .error f) (j : Nat) (d : Int)
    (hd : monthdaySeq (dtDate dt) r.interval j = some d) :
    Within r en d (rank (monthdaySeq (dtDate dt) r.interval) j) := by
  rcases (monthday_exact hu hv hk dt hr).status en with h' | ⟨g, _, _, hw⟩
  · rw [h'] at h; cases h
  · exact hw j d hd

/-- C11: no exception when the enddate is at least `interval` years before the end of 9999 and the
start is not 29 February. -/
theorem C11_monthday_ok (r : Rule) (hk : r.kind = .monthly .monthday) (hv : 1 ≤ r.interval)
    (hu : UntilIsDate r) (dt : Int) (hr : dtInRange dt = true) (h29 : ¬ IsFeb29 (dtDate dt)) (e : Int)
    (her : dateInRange e = true) (he : dyear e + r.interval ≤ 9999) : (r.apply dt (some e)).2 = .ok () := by
  have E := monthday_exact hu hv hk dt hr
  have hi := hv
  have hr' := hr
  rw [dtInRange_date] at hr'
  have hy := (dateInRange_iff_year _).1 hr'
  have hey := (dateInRange_iff_year e).1 her
  have : ∃ k : Nat, dyear e < dyear (dtDate dt) + k * r.interval ∧ dyear (dtDate dt) + k * r.interval ≤ 9999 := by
    by_cases h0 : dyear e < dyear (dtDate dt)
    · exact ⟨0, by simpa using h0, by simpa using hy.2⟩
    · have hq := Int.mul_ediv_add_emod (dyear e - dyear (dtDate dt)) r.interval
      have hm := Int.emod_lt_of_pos (dyear e - dyear (dtDate dt)) (show 0 < r.interval by omega)
      have hm' := Int.emod_nonneg (dyear e - dyear (dtDate dt)) (show r.interval ≠ 0 by omega)
      have hq0 : 0 ≤ (dyear e - dyear (dtDate dt)) / r.interval := Int.ediv_nonneg (by omega) (by omega)
      generalize hqq : (dyear e - dyear (dtDate dt)) / r.interval = q at *
      have hc : r.interval * (q + 1) = r.interval * q + r.interval := by rw [Int.mul_add]; omega
      have hn : (((q + 1).toNat : Nat) : Int) * r.interval = r.interval * q + r.interval := by
        rw [show (((q + 1).toNat : Nat) : Int) = q + 1 by omega, Int.mul_comm]; exact hc
      exact ⟨(q + 1).toNat, by omega, by omega⟩
  obtain ⟨k, h1, h2⟩ := this
  have hs := yearlySeq_noFeb29 hi hr' h29 k h2
  obtain ⟨d, hd⟩ := Option.isSome_iff_exists.1 hs
  have hc : monthdaySeq (dtDate dt) r.interval (12 * k) = some d := by
    unfold monthdaySeq
    unfold yearlySeq at hd
    simp only
    have hm := monthNr_year (dtDate dt)
    have e1 : monthNr (dtDate dt) + ((12 * k : Nat) : Int) * r.interval =
        monthNr (dtDate dt) + 12 * (k * r.interval) := by
      push_cast; rw [Int.mul_assoc]
    rw [e1]
    have e2 : monthYear (monthNr (dtDate dt) + 12 * (k * r.interval)) = dyear (dtDate dt) + k * r.interval := by
      rw [← hm.1]; unfold monthYear; omega
    have e3 : monthMonth (monthNr (dtDate dt) + 12 * (k * r.interval)) = dmonth (dtDate dt) := by
      rw [← hm.2]; unfold monthMonth; omega
    rw [e2, e3]; exact hd
  refine E.ok hc (not_within_enddate ?_)
  unfold yearlySeq at hd
  rw [dateOf_eq_some] at hd
  have := (ymd2ord_lt_iff (validYmd_date e) (validYmd_date d)).2 (Or.inl (by omega))
  rwa [ymd2ord_date, ymd2ord_date] at this

/-- C11, a case: the 31st, skipping the short months. -/
example :
    let r : Rule := ⟨.monthly .monthday, 1, some 4, none, []⟩
    ValidRule r ∧ UntilIsDate r ∧ dtInRange (dayAt 2005 1 31) = true ∧
      ¬ IsFeb29 (dtDate (dayAt 2005 1 31)) ∧
      r.apply (dayAt 2005 1 31) (some (ymd2ord 2005 12 31)) =
        ([ymd2ord 2005 1 31, ymd2ord 2005 3 31, ymd2ord 2005 5 31, ymd2ord 2005 7 31], .ok ()) := by
  refine ⟨⟨by decide, by decide, fun l h => (by cases h)⟩, fun t h => (by cases h), by decide,
    by unfold IsFeb29; decide, ?_⟩
  decide +kernel

/-! ### C12 -/

theorem initial_closed {f : Nat → Option Int} (h : ∀ j k, j ≤ k → (f k).isSome = true → (f j).isSome = true) :
    initial f = f := by
  funext k
  unfold initial
  split
  · rfl
  · rename_i hn
    cases hk : f k with
    | none => rfl
    | some d => exact absurd (fun j hj => h j k hj (by rw [hk]; rfl)) hn

theorem rank_closed {f : Nat → Option Int} (h : ∀ j k, j ≤ k → (f k).isSome = true → (f j).isSome = true)
    {k : Nat} {d : Int} (hk : f k = some d) : rank f k = k :=
  rank_full _ _ fun j hj => h j k (by omega) (by rw [hk]; rfl)

/-- The members of `weekdaysOfMonth` are the dates of the month with the weekday. -/
theorem mem_weekdaysOfMonth {n wd d : Int} (h : d ∈ weekdaysOfMonth n wd) :
    monthNr d = n ∧ weekday d = wd ∧ dateInRange d = true := by
  unfold weekdaysOfMonth at h
  split at h
  · rename_i hy
    rw [List.mem_filter, List.mem_map] at h
    obtain ⟨⟨k, hk, rfl⟩, hw⟩ := h
    rw [List.mem_range] at hk
    have := monthMonth_range n
    have hd : dateOf (monthYear n) (monthMonth n) ((k : Int) + 1)
        = some (ymd2ord (monthYear n) (monthMonth n) ((k : Int) + 1)) := by
      unfold dateOf; rw [if_pos (by omega)]
    exact ⟨(dateOf_monthNr hd).1, of_decide_eq_true hw, (dateOf_monthNr hd).2.2⟩
  · cases h

theorem weekday_seq_year {start iv : Int} {j : Nat} (h : (weekdayDriftSeq start iv j).isSome = true) :
    1 ≤ monthYear (monthNr start + j * iv) ∧ monthYear (monthNr start + j * iv) ≤ 9999 := by
  unfold weekdayDriftSeq weekdaysOfMonth at h
  split at h
  · assumption
  · cases h

theorem monthSeq_weekday_closed {start iv : Int} (hi : 1 ≤ iv) (hr : dateInRange start = true) (j k : Nat)
    (hjk : j ≤ k) (h : (weekdayDriftSeq start iv k).isSome = true) :
    (weekdayDriftSeq start iv j).isSome = true := by
  rcases (Nat.lt_or_eq_of_le hjk).symm with rfl | hlt
  · exact h
  have hy := (dateInRange_iff_year _).1 hr
  have hv := validYmd_date start
  have hw := weekday_range start
  have hyk := weekday_seq_year h
  have hn0 : 12 ≤ monthNr start := by unfold monthNr; unfold validYmd at hv; omega
  have hj : (0 : Int) ≤ j * iv := Int.mul_nonneg (by omega) (by omega)
  have hst := mul_mono_step hi hlt
  unfold weekdayDriftSeq at h ⊢
  have hyj : 1 ≤ monthYear (monthNr start + j * iv) ∧ monthYear (monthNr start + j * iv) ≤ 9999 := by
    unfold monthYear at *; omega
  rw [weekdaysOfMonth_eq hyk hw] at h
  rw [weekdaysOfMonth_eq hyj hw]
  have hlt' := monthFirst_lt (n := monthNr start + j * iv) (n' := monthNr start + k * iv) (by omega)
  have ha : ∀ n, 0 ≤ firstOff n (weekday start) ∧ firstOff n (weekday start) < 7 := by
    intro n; unfold firstOff; omega
  have h1 := ha (monthNr start + j * iv)
  have h2 := ha (monthNr start + k * iv)
  simp only [List.cons_append, List.head?_cons, Option.bind_some] at h ⊢
  split at h
  · rw [if_pos (by omega)]; rfl
  · cases h

/-- C12 in general: the dates generated are, for the months `j * interval` after the start's month, the
first date with the start's weekday plus as many weeks as for the start.  When the start is in the
fifth week of its month (day 29-31) this date may be in the following month. -/
theorem C12_weekday_general (r : Rule) (hk : r.kind = .monthly .weekday) (hv : 1 ≤ r.interval)
    (hu : UntilIsDate r) (dt : Int) (hr : dtInRange dt = true) (en : Option Int) :
    (r.apply dt en).1.Pairwise (· < ·) ∧
    ∀ d, d ∈ (r.apply dt en).1 ↔ ∃ j : Nat, weekdayDriftSeq (dtDate dt) r.interval j = some d ∧
      Within r en d j ∧ d ∉ r.exceptions := by
  have E := weekday_exact hu hv hk dt hr
  have hr' := hr
  rw [dtInRange_date] at hr'
  have hf : monthSeq (dtDate dt) r.interval (startIndex .weekday (dtDate dt)) =
      weekdayDriftSeq (dtDate dt) r.interval := funext (monthSeq_weekday_drift hv hr')
  have hcl := monthSeq_weekday_closed hv hr'
  rw [hf, initial_closed hcl] at E
  refine ⟨(E.generates en).1, fun d => ?_⟩
  rw [(E.generates en).2 d]
  constructor
  · rintro ⟨k, hc, hw, hx⟩
    exact ⟨k, hc, by rw [rank_closed hcl hc] at hw; exact hw, hx⟩
  · rintro ⟨k, hc, hw, hx⟩
    exact ⟨k, hc, by rw [rank_closed hcl hc]; exact hw, hx⟩

/-- For starts on days 1-28, `weekdayDriftSeq` stays in the month. -/
theorem drift_eq_weekdaySeq {start iv : Int} (hi : 1 ≤ iv) (hr : dateInRange start = true)
    (h28 : dday start ≤ 28) (j : Nat) : weekdayDriftSeq start iv j = weekdaySeq start iv j := by
  rw [← monthSeq_weekday_drift hi hr, monthSeq_weekday hi hr h28]

/-- C12 for starts on days 1-28: the dates generated are exactly, for each month `j * interval` after
the start's month, the date of this month with the start's weekday and the start's place among them
(counted from the first), within the bounds.  Missing: starts on days 29-31, for which the statement is
false (`C12_weekday_counterexample`). -/
theorem C12_weekday_partial (r : Rule) (hk : r.kind = .monthly .weekday) (hv : 1 ≤ r.interval)
    (hu : UntilIsDate r) (dt : Int) (hr : dtInRange dt = true) (h28 : dday (dtDate dt) ≤ 28)
    (en : Option Int) :
    (r.apply dt en).1.Pairwise (· < ·) ∧
    (∀ d, d ∈ (r.apply dt en).1 ↔ ∃ j : Nat, weekdaySeq (dtDate dt) r.interval j = some d ∧
      Within r en d j ∧ d ∉ r.exceptions) ∧
    ∀ j d, weekdaySeq (dtDate dt) r.interval j = some d →
      monthNr d = monthNr (dtDate dt) + j * r.interval ∧ weekday d = weekday (dtDate dt) := by
  have h := C12_weekday_general r hk hv hu dt hr en
  rw [dtInRange_date] at hr
  refine ⟨h.1, ?_, ?_⟩
  · intro d
    rw [h.2 d]
    simp only [drift_eq_weekdaySeq hv hr h28]
  · intro j d hd
    unfold weekdaySeq at hd
    have := mem_weekdaysOfMonth (List.mem_of_getElem? hd)
    exact ⟨this.1, this.2.1⟩

/-- C12 fails: an event on Monday 2006-01-30 (fifth Monday of January) repeated monthly by weekday
generates 2006-03-06 for February, which is outside February and the first Monday of March. -/
theorem C12_weekday_counterexample :
    let r : Rule := ⟨.monthly .weekday, 1, none, none, []⟩
    ValidRule r ∧ UntilIsDate r ∧ dtInRange (dayAt 2006 1 30) = true ∧
      r.apply (dayAt 2006 1 30) (some (ymd2ord 2006 3 31)) =
        ([ymd2ord 2006 1 30, ymd2ord 2006 3 6], .ok ()) ∧
      ∀ j, weekdaySeq (ymd2ord 2006 1 30) 1 j ≠ some (ymd2ord 2006 3 6) := by
  refine ⟨⟨by decide, by decide, fun l h => (by cases h)⟩, fun t h => (by cases h), by decide,
    by decide +kernel, ?_⟩
  intro j hj
  have hm := mem_weekdaysOfMonth (List.mem_of_getElem? (show (weekdaysOfMonth _ _)[_]? = _ from hj))
  have e1 : monthNr (ymd2ord 2006 3 6) = 24074 := by decide
  have e2 : monthNr (ymd2ord 2006 1 30) = 24072 := by decide
  rw [e1, e2] at hm
  have : j = 2 := by omega
  subst this
  revert hj
  decide +kernel

/-- C12, a case: the third Tuesday. -/
example :
    let r : Rule := ⟨.monthly .weekday, 1, some 3, none, []⟩
    ValidRule r ∧ UntilIsDate r ∧ dtInRange (dayAt 2005 1 18) = true ∧ dday (dtDate (dayAt 2005 1 18)) ≤ 28 ∧
      r.apply (dayAt 2005 1 18) (some (ymd2ord 2005 12 31)) =
        ([ymd2ord 2005 1 18, ymd2ord 2005 2 15, ymd2ord 2005 3 15], .ok ()) := by
  refine ⟨⟨by decide, by decide, fun l h => (by cases h)⟩, fun t h => (by cases h), by decide,
    by decide, ?_⟩
  decide +kernel

/-! ### C13 -/

/-- `lastWeekdayDriftSeq` without December 9999. -/
def lastDrift (start iv : Int) (j : Nat) : Option Int :=
  if monthNr start + j * iv < 12 * 9999 + 11 then lastWeekdayDriftSeq start iv j else none

theorem lastDrift_closed {start iv : Int} (hi : 1 ≤ iv) (hr : dateInRange start = true) (j k : Nat)
    (hjk : j ≤ k) (h : (lastDrift start iv k).isSome = true) : (lastDrift start iv j).isSome = true := by
  have hy := (dateInRange_iff_year _).1 hr
  have hv := validYmd_date start
  have hw := weekday_range start
  have hn0 : 12 ≤ monthNr start := by unfold monthNr; unfold validYmd at hv; omega
  have hj : (0 : Int) ≤ j * iv := Int.mul_nonneg (by omega) (by omega)
  have : (j : Int) * iv ≤ k * iv := Int.mul_le_mul_of_nonneg_right (by omega) (by omega)
  unfold lastDrift at h ⊢
  split at h
  · rw [if_pos (by omega)]
    unfold lastWeekdayDriftSeq
    simp only [Option.isSome_map]
    rw [weekdaysOfMonth_eq (n := monthNr start + j * iv) (by unfold monthYear; omega) hw]
    simp only
    split <;> rfl
  · cases h

theorem monthSeq_last_initial {start iv : Int} (hi : 1 ≤ iv) (hr : dateInRange start = true) :
    initial (monthSeq start iv (startIndex .lastweekday start)) = lastDrift start iv := by
  have hy := (dateInRange_iff_year _).1 hr
  have hv := validYmd_date start
  have hn0 : 12 ≤ monthNr start := by unfold monthNr; unfold validYmd at hv; omega
  have hidx : startIndex .lastweekday start < 0 := by
    unfold startIndex; simp only; unfold validYmd at hv; omega
  have hf : monthSeq start iv (startIndex .lastweekday start) = lastDrift start iv := by
    funext j
    unfold lastDrift
    split
    · exact monthSeq_lastweekday_drift hi hr j (by omega)
    · cases hs : monthSeq start iv (startIndex .lastweekday start) j with
      | none => rfl
      | some d =>
        have := monthindex_year (monthSeq_eq_some.1 hs)
        unfold miMonth at this
        rw [if_pos hidx] at this
        unfold monthYear at this
        omega
  rw [hf, initial_closed (lastDrift_closed hi hr)]

/-- C13 in general: the dates generated are, for the months `j * interval` after the start's month and
before December 9999, the last date with the start's weekday minus as many weeks as for the start.  When
the start is in the fifth week from the end this date may be in the preceding month. -/
theorem C13_lastweekday_general (r : Rule) (hk : r.kind = .monthly .lastweekday) (hv : 1 ≤ r.interval)
    (hu : UntilIsDate r) (dt : Int) (hr : dtInRange dt = true) (en : Option Int) :
    (r.apply dt en).1.Pairwise (· < ·) ∧
    ∀ d, d ∈ (r.apply dt en).1 ↔ ∃ j : Nat, monthNr (dtDate dt) + j * r.interval < 12 * 9999 + 11 ∧
      lastWeekdayDriftSeq (dtDate dt) r.interval j = some d ∧ Within r en d j ∧ d ∉ r.exceptions := by
  have E := lastweekday_exact hu hv hk dt hr
  have hr' := hr
  rw [dtInRange_date] at hr'
  rw [monthSeq_last_initial hv hr'] at E
  have hcl := lastDrift_closed hv hr'
  have hs : ∀ j d, lastDrift (dtDate dt) r.interval j = some d ↔
      monthNr (dtDate dt) + j * r.interval < 12 * 9999 + 11 ∧
      lastWeekdayDriftSeq (dtDate dt) r.interval j = some d := by
    intro j d
    unfold lastDrift
    split
    · rename_i h; exact ⟨fun e => ⟨h, e⟩, fun e => e.2⟩
    · rename_i h; exact ⟨fun e => (by cases e), fun e => absurd e.1 h⟩
  refine ⟨(E.generates en).1, fun d => ?_⟩
  rw [(E.generates en).2 d]
  constructor
  · rintro ⟨k, hc, hw, hx⟩
    exact ⟨k, ((hs k d).1 hc).1, ((hs k d).1 hc).2, by rw [rank_closed hcl hc] at hw; exact hw, hx⟩
  · rintro ⟨k, h1, h2, hw, hx⟩
    have hc := (hs k d).2 ⟨h1, h2⟩
    exact ⟨k, hc, by rw [rank_closed hcl hc]; exact hw, hx⟩

/-- C13 for starts in the last 28 days of their month and enddates before December 9999: the dates
generated are exactly, for each month `j * interval` after the start's month, the date of this month with
the start's weekday and the start's place among them counted from the last, within the bounds; the first
is the start itself unless excluded.  Missing: other starts and December 9999, for which the statement is
false (`C13_lastweekday_counterexample`, `C13_lastweekday_december_9999`). -/
theorem C13_lastweekday_partial (r : Rule) (hk : r.kind = .monthly .lastweekday) (hv : 1 ≤ r.interval)
    (hu : UntilIsDate r) (dt : Int) (hr : dtInRange dt = true)
    (h28 : daysInMonth (dyear (dtDate dt)) (dmonth (dtDate dt)) - dday (dtDate dt) < 28)
    (e : Int) (he : e < ymd2ord 9999 12 1) :
    (r.apply dt (some e)).1.Pairwise (· < ·) ∧
    (∀ d, d ∈ (r.apply dt (some e)).1 ↔ ∃ j : Nat, lastWeekdaySeq (dtDate dt) r.interval j = some d ∧
      Within r (some e) d j ∧ d ∉ r.exceptions) ∧
    (∀ j d, lastWeekdaySeq (dtDate dt) r.interval j = some d →
      monthNr d = monthNr (dtDate dt) + j * r.interval ∧ weekday d = weekday (dtDate dt)) ∧
    lastWeekdaySeq (dtDate dt) r.interval 0 = some (dtDate dt) := by
  have h := C13_lastweekday_general r hk hv hu dt hr (some e)
  rw [dtInRange_date] at hr
  have hmem : ∀ j d, lastWeekdaySeq (dtDate dt) r.interval j = some d →
      monthNr d = monthNr (dtDate dt) + j * r.interval ∧ weekday d = weekday (dtDate dt) ∧
        dateInRange d = true := by
    intro j d hd
    unfold lastWeekdaySeq at hd
    have := mem_weekdaysOfMonth (List.mem_reverse.1 (List.mem_of_getElem? hd))
    exact this
  have heq : ∀ j : Nat, monthNr (dtDate dt) + j * r.interval ≠ 12 * 9999 + 11 →
      lastWeekdayDriftSeq (dtDate dt) r.interval j = lastWeekdaySeq (dtDate dt) r.interval j := by
    intro j hj
    rw [← monthSeq_lastweekday_drift hv hr j hj, monthSeq_lastweekday hv hr h28 j hj]
  refine ⟨h.1, ?_, fun j d hd => ⟨(hmem j d hd).1, (hmem j d hd).2.1⟩, ?_⟩
  · intro d
    rw [h.2 d]
    constructor
    · rintro ⟨j, h1, h2, h3⟩
      exact ⟨j, by rw [← heq j (by omega)]; exact h2, h3⟩
    · rintro ⟨j, h1, h2, h3⟩
      have hm := hmem j d h1
      have hlt : monthNr d < 12 * 9999 + 11 := by
        have hy := (dateInRange_iff_year d).1 hm.2.2
        have hv' := validYmd_date d
        have hd := h2.1 e rfl
        by_contra hc
        have h5 : dyear d = 9999 ∧ dmonth d = 12 := by
          unfold monthNr at hc; unfold validYmd at hv'; omega
        have h6 := ymd2ord_date d
        rw [h5.1, h5.2, ymd2ord_day1] at h6
        unfold validYmd at hv'
        omega
      rw [hm.1] at hlt
      exact ⟨j, hlt, by rw [heq j (by omega)]; exact h1, h2, h3⟩
  · have hz : ∃ i, (weekdaysOfMonth (monthNr (dtDate dt)) (weekday (dtDate dt))).reverse[i]? = some (dtDate dt) ∧
        i = (weekdaysOfMonth (monthNr (dtDate dt)) (weekday (dtDate dt))).reverse.idxOf (dtDate dt) := by
      have hin : dtDate dt ∈ (weekdaysOfMonth (monthNr (dtDate dt)) (weekday (dtDate dt))).reverse := by
        rw [List.mem_reverse]
        have hm := monthNr_year (dtDate dt)
        have hy := (dateInRange_iff_year _).1 hr
        have hv' := validYmd_date (dtDate dt)
        unfold weekdaysOfMonth
        rw [hm.1, hm.2, if_pos hy, List.mem_filter, List.mem_map]
        refine ⟨⟨(dday (dtDate dt) - 1).toNat, ?_, ?_⟩, by simp⟩
        · rw [List.mem_range]; unfold validYmd at hv'; omega
        · have : (((dday (dtDate dt) - 1).toNat : Nat) : Int) + 1 = dday (dtDate dt) := by
            unfold validYmd at hv'; omega
          rw [this, ymd2ord_date]
      exact ⟨_, by rw [List.getElem?_eq_getElem (List.idxOf_lt_length_of_mem hin), List.getElem_idxOf], rfl⟩
    obtain ⟨i, hi, rfl⟩ := hz
    unfold lastWeekdaySeq
    simpa using hi

/-- C13 fails: an event on Wednesday 2006-03-01 (fifth-last Wednesday of March) repeated monthly by last
weekday generates 2006-03-29 for April. -/
theorem C13_lastweekday_counterexample :
    let r : Rule := ⟨.monthly .lastweekday, 1, none, none, []⟩
    ValidRule r ∧ UntilIsDate r ∧ dtInRange (dayAt 2006 3 1) = true ∧
      r.apply (dayAt 2006 3 1) (some (ymd2ord 2006 4 30)) =
        ([ymd2ord 2006 3 1, ymd2ord 2006 3 29], .ok ()) ∧
      ∀ j, lastWeekdaySeq (ymd2ord 2006 3 1) 1 j ≠ some (ymd2ord 2006 3 29) := by
  refine ⟨⟨by decide, by decide, fun l h => (by cases h)⟩, fun t h => (by cases h), by decide,
    by decide +kernel, ?_⟩
  intro j hj
  have hm := mem_weekdaysOfMonth (List.mem_reverse.1 (List.mem_of_getElem? (show (weekdaysOfMonth _ _).reverse[_]? = _ from hj)))
  have e1 : monthNr (ymd2ord 2006 3 29) = 24074 := by decide
  have e2 : monthNr (ymd2ord 2006 3 1) = 24074 := by decide
  rw [e1, e2] at hm
  have : j = 0 := by omega
  subst this
  revert hj
  decide +kernel

/-- C13 fails in December 9999: the start itself is not generated, ValueError is raised. -/
theorem C13_lastweekday_december_9999 :
    let r : Rule := ⟨.monthly .lastweekday, 1, some 1, none, []⟩
    ValidRule r ∧ UntilIsDate r ∧ dtInRange (dayAt 9999 12 15) = true ∧
      r.apply (dayAt 9999 12 15) (some (ymd2ord 9999 12 31)) = ([], raise .ValueError) := by
  refine ⟨⟨by decide, by decide, fun l h => (by cases h)⟩, fun t h => (by cases h), by decide, ?_⟩
  decide +kernel

/-- C13, a case: the last Friday of every second month. -/
example :
    let r : Rule := ⟨.monthly .lastweekday, 2, some 3, none, []⟩
    ValidRule r ∧ UntilIsDate r ∧ dtInRange (dayAt 2005 1 28) = true ∧
      daysInMonth (dyear (dtDate (dayAt 2005 1 28))) (dmonth (dtDate (dayAt 2005 1 28)))
        - dday (dtDate (dayAt 2005 1 28)) < 28 ∧ ymd2ord 2005 12 31 < ymd2ord 9999 12 1 ∧
      r.apply (dayAt 2005 1 28) (some (ymd2ord 2005 12 31)) =
        ([ymd2ord 2005 1 28, ymd2ord 2005 3 25, ymd2ord 2005 5 27], .ok ()) := by
  refine ⟨⟨by decide, by decide, fun l h => (by cases h)⟩, fun t h => (by cases h), by decide,
    by decide, by decide, ?_⟩
  decide +kernel

end CalCore
