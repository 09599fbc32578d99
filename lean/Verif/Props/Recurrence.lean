import Verif.Lemmas.MonthSeq
import Verif.Lemmas.Terminate
/- Properties C08-C17: the dates generated by recurrence rules. -/
namespace CalCore
open Spec

/-- Midnight of a calendar date, for the concrete cases below. -/
def dayAt (y m d : Int) : Int := combine (ymd2ord y m d) 0

theorem mul_mono_step {iv : Int} (hi : 1 ≤ iv) {i k : Nat} (h : i < k) :
    (i : Int) * iv + iv ≤ k * iv := by
  have : ((i : Int) + 1) * iv ≤ k * iv := Int.mul_le_mul_of_nonneg_right (by omega) (by omega)
  rw [Int.add_mul] at this
  omega

theorem dailySeq_some {s iv d : Int} {k : Nat} :
    dailySeq s iv k = some d ↔ d = s + k * iv ∧ d ≤ MAXORD := by
  unfold dailySeq
  split
  · rename_i h
    constructor
    · intro e; injection e with e; subst e; exact ⟨rfl, h⟩
    · rintro ⟨rfl, _⟩; rfl
  · rename_i h
    constructor
    · intro e; cases e
    · rintro ⟨rfl, h'⟩; exact absurd h' h

theorem dailySeq_rank {s iv d : Int} (hi : 1 ≤ iv) {k : Nat} (h : dailySeq s iv k = some d) :
    rank (dailySeq s iv) k = k := by
  refine rank_full _ _ fun j hj => ?_
  have h' := (dailySeq_some.1 h)
  have := mul_mono_step hi hj
  have : dailySeq s iv j = some (s + j * iv) := dailySeq_some.2 ⟨rfl, by omega⟩
  rw [this]; rfl

/-! ### C08 -/

/-- C08: a daily rule of positive interval generates, in increasing order, exactly the dates
`start + k * interval` within the representable range that are within enddate, count (`k < count`)
and until and are not excepted. -/
theorem C08_daily (r : Rule) (hk : r.kind = .daily) (hv : 1 ≤ r.interval) (hu : UntilIsDate r) (dt : Int)
    (hr : dtInRange dt = true) (en : Option Int) :
    (r.apply dt en).1.Pairwise (· < ·) ∧
    ∀ d, d ∈ (r.apply dt en).1 ↔
      ∃ k : Nat, d = dtDate dt + k * r.interval ∧ d ≤ MAXORD ∧ Within r en d k ∧ d ∉ r.exceptions := by
  have E := daily_exact hu hv (Or.inl hk) dt hr
  refine ⟨(E.generates en).1, fun d => ?_⟩
  rw [(E.generates en).2 d]
  constructor
  · rintro ⟨k, hc, hw, hx⟩
    rw [dailySeq_rank hv hc] at hw
    exact ⟨k, (dailySeq_some.1 hc).1, (dailySeq_some.1 hc).2, hw, hx⟩
  · rintro ⟨k, h1, h2, hw, hx⟩
    have hc := dailySeq_some.2 ⟨h1, h2⟩
    exact ⟨k, hc, by rw [dailySeq_rank hv hc]; exact hw, hx⟩

/-- C08: the generation ends without an exception as soon as one date beyond the enddate, the until
or the count is representable. -/
theorem C08_daily_ok (r : Rule) (hk : r.kind = .daily) (hv : 1 ≤ r.interval) (hu : UntilIsDate r) (dt : Int)
    (hr : dtInRange dt = true) (en : Option Int) (k : Nat)
    (h : dtDate dt + k * r.interval ≤ MAXORD) (hw : ¬ Within r en (dtDate dt + k * r.interval) k) :
    (r.apply dt en).2 = .ok () := by
  have E := daily_exact hu hv (Or.inl hk) dt hr
  have hc : dailySeq (dtDate dt) r.interval k = some _ := dailySeq_some.2 ⟨rfl, h⟩
  exact E.ok hc (by rw [dailySeq_rank hv hc]; exact hw)

/-- C08: with an enddate at least one interval before the last representable date, the generation
ends without an exception. -/
theorem C08_daily_enddate_ok (r : Rule) (hk : r.kind = .daily) (hv : 1 ≤ r.interval) (hu : UntilIsDate r)
    (dt : Int) (hr : dtInRange dt = true) (e : Int) (he : e + r.interval ≤ MAXORD) :
    (r.apply dt (some e)).2 = .ok () := by
  have hi := hv
  have hr' := hr
  rw [dtInRange_date, dateInRange_iff] at hr'
  by_cases h0 : e < dtDate dt
  · refine C08_daily_ok r hk hv hu dt hr (some e) 0 (by simp; omega) (not_within_enddate (by simp; omega))
  · have hq := Int.mul_ediv_add_emod (e - dtDate dt) r.interval
    have hm := Int.emod_lt_of_pos (e - dtDate dt) (show 0 < r.interval by omega)
    have hm' := Int.emod_nonneg (e - dtDate dt) (show r.interval ≠ 0 by omega)
    have hq0 : 0 ≤ (e - dtDate dt) / r.interval := Int.ediv_nonneg (by omega) (by omega)
    generalize hqq : (e - dtDate dt) / r.interval = q at *
    have hc : r.interval * (q + 1) = r.interval * q + r.interval := by rw [Int.mul_add]; omega
    have hn : (((q + 1).toNat : Nat) : Int) * r.interval = r.interval * q + r.interval := by
      rw [show (((q + 1).toNat : Nat) : Int) = q + 1 by omega, Int.mul_comm]; exact hc
    exact C08_daily_ok r hk hv hu dt hr (some e) (q + 1).toNat (by omega)
      (not_within_enddate (by omega))

/-- C08, a case: every second day from 2005-02-27, four times, one date excepted. -/
example :
    let r : Rule := ⟨.daily, 2, some 4, none, [ymd2ord 2005 3 1]⟩
    ValidRule r ∧ UntilIsDate r ∧ dtInRange (dayAt 2005 2 27) = true ∧
      r.apply (dayAt 2005 2 27) (some (ymd2ord 2005 12 31)) =
        ([ymd2ord 2005 2 27, ymd2ord 2005 3 3, ymd2ord 2005 3 5], .ok ()) := by
  refine ⟨⟨by decide, by decide, fun l h => (by cases h)⟩, fun t h => (by cases h), by decide, ?_⟩
  decide +kernel

/-! ### C09 -/

theorem yearlySeq_rank {s iv : Int} {k : Nat} {d : Int} (h : initial (yearlySeq s iv) k = some d) :
    rank (initial (yearlySeq s iv)) k = k := by
  refine rank_full _ _ fun j hj => ?_
  rw [initial_eq_some] at h
  unfold initial
  rw [if_pos (fun i hi => h.1 i (by omega))]
  exact h.1 j (by omega)

theorem yearlySeq_noFeb29 {s iv : Int} (hi : 1 ≤ iv) (hr : dateInRange s = true) (h29 : ¬ IsFeb29 s)
    (k : Nat) (hk : dyear s + k * iv ≤ 9999) : (yearlySeq s iv k).isSome = true := by
  have hv := validYmd_date s
  have hy := (dateInRange_iff_year s).1 hr
  have : 0 ≤ (k : Int) * iv := Int.mul_nonneg (by omega) (by omega)
  unfold yearlySeq dateOf
  rw [if_pos]; rfl
  obtain ⟨h1, h2, h3, h4⟩ := hv
  refine ⟨by omega, by omega, h1, h2, h3, ?_⟩
  unfold IsFeb29 at h29
  by_cases hm : dmonth s = 2
  · rw [hm] at h4 ⊢
    have e : ∀ y, daysInMonth y 2 = if isLeap y then 29 else 28 := by intro y; rfl
    rw [e] at h4 ⊢
    split at h4 <;> split <;> omega
  · have e : ∀ y y', daysInMonth y (dmonth s) = daysInMonth y' (dmonth s) := by
      intro y y'; unfold daysInMonth; simp [hm]
    rw [e _ (dyear s)]; exact h4

/-- C09 for starts other than 29 February: exactly the dates with the month and day of the start
in the years `start.year + k * interval ≤ 9999`, within the bounds, and no exception when the
enddate is at least `interval` years before 9999.  Missing from the full statement: starts on 29
February, for which it is false (`C09_yearly_counterexample`). -/
theorem C09_yearly_partial (r : Rule) (hk : r.kind = .yearly) (hv : 1 ≤ r.interval) (hu : UntilIsDate r)
    (dt : Int) (hr : dtInRange dt = true) (h29 : ¬ IsFeb29 (dtDate dt)) (en : Option Int) :
    (r.apply dt en).1.Pairwise (· < ·) ∧
    (∀ d, d ∈ (r.apply dt en).1 ↔
      ∃ k : Nat, dateOf (dyear (dtDate dt) + k * r.interval) (dmonth (dtDate dt)) (dday (dtDate dt)) = some d ∧
        Within r en d k ∧ d ∉ r.exceptions) ∧
    (∀ e, en = some e → dyear e + r.interval ≤ 9999 → dateInRange e = true → (r.apply dt en).2 = .ok ()) := by
  have E := yearly_exact hu hv hk dt hr
  have hi := hv
  have hr' := hr
  rw [dtInRange_date] at hr'
  have hy := (dateInRange_iff_year _).1 hr'
  have hini : ∀ k d, initial (yearlySeq (dtDate dt) r.interval) k = some d ↔
      yearlySeq (dtDate dt) r.interval k = some d := by
    intro k d
    rw [initial_eq_some]
    refine ⟨fun h => h.2, fun h => ⟨fun j hj => ?_, h⟩⟩
    refine yearlySeq_noFeb29 hi hr' h29 j ?_
    have h' := h
    unfold yearlySeq at h'
    rw [dateOf_eq_some] at h'
    have := (dateInRange_iff_year d).1 h'.1
    have : (j : Int) * r.interval ≤ k * r.interval := Int.mul_le_mul_of_nonneg_right (by omega) (by omega)
    omega
  refine ⟨(E.generates en).1, fun d => ?_, ?_⟩
  · rw [(E.generates en).2 d]
    constructor
    · rintro ⟨k, hc, hw, hx⟩
      rw [yearlySeq_rank hc] at hw
      exact ⟨k, (hini k d).1 hc, hw, hx⟩
    · rintro ⟨k, h1, hw, hx⟩
      have hc := (hini k d).2 h1
      exact ⟨k, hc, by rw [yearlySeq_rank hc]; exact hw, hx⟩
  · rintro e rfl he her
    have hey := (dateInRange_iff_year e).1 her
    -- the first candidate in a year after the enddate
    have : ∃ k : Nat, dyear e < dyear (dtDate dt) + k * r.interval ∧ dyear (dtDate dt) + k * r.interval ≤ 9999 := by
      by_cases h0 : dyear e < dyear (dtDate dt)
      · exact ⟨0, by simpa using h0, by simpa using hy.2⟩
      · have hq := Int.mul_ediv_add_emod (dyear e - dyear (dtDate dt)) r.interval
        have hm := Int.emod_lt_of_pos (dyear e - dyear (dtDate dt)) (show 0 < r.interval by omega)
        have hm' := Int.emod_nonneg (dyear e - dyear (dtDate dt)) (show r.interval ≠ 0 by omega)
        have hq0 : 0 ≤ (dyear e - dyear (dtDate dt)) / r.interval := Int.ediv_nonneg (by omega) (by omega)
        generalize hqq : (dyear e - dyear (dtDate dt)) / r.interval = q at *
        have hc : r.interval * (q + 1) = r.interval * q + r.interval := by rw [Int.mul_add]; omega
        have hn : (((q + 1).toNat : Nat) : Int) * r.interval = r.interval * q + r.interval := by
          rw [show (((q + 1).toNat : Nat) : Int) = q + 1 by omega, Int.mul_comm]; exact hc
        exact ⟨(q + 1).toNat, by omega, by omega⟩
    obtain ⟨k, h1, h2⟩ := this
    have hs := yearlySeq_noFeb29 hi hr' h29 k h2
    obtain ⟨d, hd⟩ := Option.isSome_iff_exists.1 hs
    refine E.ok ((hini k d).2 hd) (not_within_enddate ?_)
    have hd' := hd
    unfold yearlySeq at hd'
    rw [dateOf_eq_some] at hd'
    have := (ymd2ord_lt_iff (validYmd_date e) (validYmd_date d)).2 (Or.inl (by omega))
    rwa [ymd2ord_date, ymd2ord_date] at this

/-- C09: what happens in general, including 29 February: the sequence is cut at the first year in
which the date does not exist. -/
theorem C09_yearly_general (r : Rule) (hk : r.kind = .yearly) (hv : 1 ≤ r.interval) (hu : UntilIsDate r)
    (dt : Int) (hr : dtInRange dt = true) (en : Option Int) :
    Generates r en (initial (yearlySeq (dtDate dt) r.interval)) (r.apply dt en).1 :=
  (yearly_exact hu hv hk dt hr).generates en

/-- C09: an event on 29 February with a yearly rule whose next year is not a leap year generates at
most the start, then raises, whatever the count, until and enddate, unless they exclude the start
itself. -/
theorem C09_yearly_feb29_raises (r : Rule) (hk : r.kind = .yearly) (hv : 1 ≤ r.interval) (hu : UntilIsDate r)
    (dt : Int) (hr : dtInRange dt = true) (h29 : IsFeb29 (dtDate dt))
    (hl : isLeap (dyear (dtDate dt) + r.interval) = false)
    (en : Option Int) (hw : Within r en (dtDate dt) 0) :
    (∀ d ∈ (r.apply dt en).1, d = dtDate dt) ∧
      ((r.apply dt en).2 = raise .ValueError ∨ (r.apply dt en).2 = raise .OverflowError) := by
  have E := yearly_exact hu hv hk dt hr
  have hnone : yearlySeq (dtDate dt) r.interval 1 = none := by
    unfold yearlySeq dateOf
    rw [if_neg]
    rw [h29.1, h29.2]
    have e : ∀ y, daysInMonth y 2 = if isLeap y then 29 else 28 := by intro y; rfl
    rw [e]
    simp [hl]
  have honly : ∀ k d, initial (yearlySeq (dtDate dt) r.interval) k = some d → k = 0 ∧ d = dtDate dt := by
    intro k d h
    by_cases hk0 : 1 ≤ k
    · rw [initial_none_of hnone hk0] at h; cases h
    · have : k = 0 := by omega
      subst this
      rw [initial_eq_some] at h
      have h2 := h.2
      unfold yearlySeq at h2
      simp only [Int.natCast_zero, Int.zero_mul, Int.add_zero] at h2
      rw [(dateOf_eq_some _ _ _ (dtDate dt)).2 ⟨by rwa [dtInRange_date] at hr, rfl, rfl, rfl⟩] at h2
      injection h2 with h2
      exact ⟨rfl, h2.symm⟩
  refine ⟨fun d hd => ?_, ?_⟩
  · obtain ⟨k, hc, _⟩ := ((E.generates en).2 d).1 hd
    exact (honly k d hc).2
  · rcases E.status en with h | ⟨f, hf, h, _⟩
    · exfalso
      -- a normal end is only possible at a candidate out of bounds
      have hrun : r.applyRun dt en r.fuel = runGen (r.basicStep en) r.fuel (dtDate dt, 0) := by
        unfold Rule.applyRun; rw [hk]
      have hfin := (apply_snd r dt en).1.1 h
      rw [hrun] at hfin
      have hfu := fuel_ge r
      obtain ⟨n, hn⟩ : ∃ n, r.fuel = n + 1 := ⟨r.fuel - 1, by omega⟩
      rw [hn] at hfin
      unfold runGen at hfin
      rcases basicStep_cases hu en (dtDate dt, 0) with ⟨h1, _⟩ | ⟨_, h2⟩
      · exact h1 hw
      · rw [h2] at hfin
        have hne : ∃ g, r.nextRecurrence (dtDate dt) = .error g := by
          unfold Rule.nextRecurrence
          rw [hk]
          unfold yearlySeq at hnone
          simp only [Int.natCast_one, Int.one_mul] at hnone
          obtain ⟨g, _, hg⟩ := mkDate_fault hnone
          exact ⟨g, hg⟩
        obtain ⟨g, hg⟩ := hne
        simp only [hg] at hfin
        cases hfin
    · rcases hf with rfl | rfl
      · exact Or.inl h
      · exact Or.inr h

/-- C09 fails: a yearly rule with count 1 on an event of 2004-02-29 raises ValueError, although the
start is the only date to generate. -/
theorem C09_yearly_counterexample :
    let r : Rule := ⟨.yearly, 1, some 1, none, []⟩
    ValidRule r ∧ UntilIsDate r ∧ dtInRange (dayAt 2004 2 29) = true ∧
      r.apply (dayAt 2004 2 29) (some (ymd2ord 2004 12 31)) =
        ([ymd2ord 2004 2 29], raise .ValueError) := by
  refine ⟨⟨by decide, by decide, fun l h => (by cases h)⟩, fun t h => (by cases h), by decide, ?_⟩
  decide +kernel

/-- C09, a case. -/
example :
    let r : Rule := ⟨.yearly, 2, none, some (.date (ymd2ord 2009 6 1)), []⟩
    ValidRule r ∧ UntilIsDate r ∧ dtInRange (dayAt 2004 6 1) = true ∧ ¬ IsFeb29 (dtDate (dayAt 2004 6 1)) ∧
      r.apply (dayAt 2004 6 1) (some (ymd2ord 2010 12 31)) =
        ([ymd2ord 2004 6 1, ymd2ord 2006 6 1, ymd2ord 2008 6 1], .ok ()) := by
  refine ⟨⟨by decide, by decide, fun l h => (by cases h)⟩, fun t h => (by cases h), by decide,
    by unfold IsFeb29; decide, ?_⟩
  decide +kernel

end CalCore
