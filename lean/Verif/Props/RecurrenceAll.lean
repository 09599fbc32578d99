import Verif.Props.RecurrenceMonthly
import Verif.Model.Calendar
/- Properties C14-C17: all rule classes. -/
namespace CalCore
open Spec

/-! ### C14 -/

theorem dtDate_range {dt : Int} (h : dtInRange dt = true) : dateInRange (dtDate dt) = true := by
  rwa [dtInRange_date] at h

/-- Every sequence begins at or after the start. -/
theorem seqOf_ge {r : Rule} (hi : 1 ≤ r.interval) {s : Int} (hr : dateInRange s = true) {k : Nat} {d : Int}
    (h : seqOf r s k = some d) : s ≤ d := by
  have hv := validYmd_date s
  have hy := (dateInRange_iff_year _).1 hr
  have hk0 : (0 : Int) ≤ k * r.interval := Int.mul_nonneg (by omega) (by omega)
  have hself : dateOf (dyear s) (dmonth s) (dday s) = some s := (dateOf_eq_some _ _ _ _).2 ⟨hr, rfl, rfl, rfl⟩
  have hn0 : 12 ≤ monthNr s := by unfold monthNr; unfold validYmd at hv; omega
  have hmono : ∀ index, initial (monthSeq s r.interval index) k = some d →
      monthindex (dyear s) (dmonth s) index (weekday s) = .ok s → s ≤ d := by
    intro index h h0
    rw [initial_eq_some] at h
    have hm := monthNr_year s
    by_cases hk : k = 0
    · have h2 := h.2
      rw [hk, monthSeq_eq_some] at h2
      simp only [Int.natCast_zero, Int.zero_mul, Int.add_zero] at h2
      rw [hm.1, hm.2, h0] at h2
      injection h2 with h2; omega
    · have hlt := mul_mono_step hi (show 0 < k by omega)
      have := monthindex_lt (n := monthNr s) (n' := monthNr s + k * r.interval) (by omega)
        (by unfold monthYear; omega) (weekday_range s) (by rw [hm.1, hm.2]; exact h0)
        (monthSeq_eq_some.1 h.2)
      omega
  have hcases : ∀ k m, (r.kind = .monthly m → seqOf r s k = some d →
      (m = .monthday ∧ monthdaySeq s r.interval k = some d) ∨
      (m = .weekday ∧ initial (monthSeq s r.interval (startIndex .weekday s)) k = some d) ∨
      (m = .lastweekday ∧ initial (monthSeq s r.interval (startIndex .lastweekday s)) k = some d)) := by
    intro k m hm h
    unfold seqOf at h
    rw [hm] at h
    cases m
    · exact Or.inl ⟨rfl, h⟩
    · exact Or.inr (Or.inl ⟨rfl, h⟩)
    · exact Or.inr (Or.inr ⟨rfl, h⟩)
  cases hkind : r.kind with
  | no => unfold seqOf at h; rw [hkind] at h; cases h
  | basic =>
    unfold seqOf at h; rw [hkind] at h
    have := (dailySeq_some.1 h).1; omega
  | daily =>
    unfold seqOf at h; rw [hkind] at h
    have := (dailySeq_some.1 h).1; omega
  | yearly =>
    unfold seqOf at h; rw [hkind] at h
    simp only at h
    rw [initial_eq_some] at h
    have h2 := h.2
    unfold yearlySeq at h2
    by_cases hk : (k : Int) * r.interval = 0
    · rw [hk, Int.add_zero, hself] at h2; injection h2 with h2; omega
    · have := dateOf_lt hself h2 (Or.inl (by omega)); omega
  | weekly wds =>
    unfold seqOf at h; rw [hkind] at h
    simp only at h
    unfold weeklySeq at h
    split at h
    · injection h with h; omega
    · cases h
  | monthly m =>
    rcases hcases k m hkind h with ⟨_, h⟩ | ⟨_, h⟩ | ⟨_, h⟩
    · unfold monthdaySeq at h
      simp only at h
      by_cases hk : (k : Int) * r.interval = 0
      · rw [hk, Int.add_zero, (monthNr_year s).1, (monthNr_year s).2, hself] at h
        injection h with h; omega
      · have hl := dateOf_lt (n := s) (y := monthYear (monthNr s)) (m := monthMonth (monthNr s))
          (d := dday s) (by rw [(monthNr_year s).1, (monthNr_year s).2, hself]) h
          (by unfold monthYear monthMonth; omega)
        omega
    · exact hmono _ h (monthindex_start hr)
    · by_cases hl : dyear s ≠ 9999 ∨ dmonth s ≠ 12
      · exact hmono _ h (monthindex_start_last hr hl)
      · rw [monthSeq_last_initial hi hr] at h
        unfold lastDrift at h
        rw [if_neg (by unfold monthNr; omega)] at h
        cases h

theorem seqOf_zero {r : Rule} (hk : r.kind ≠ .no) {s : Int}
    (hr : dateInRange s = true) (hl : ¬ (r.kind = .monthly .lastweekday ∧ InLastMonth s)) :
    seqOf r s 0 = some s := by
  have hself : dateOf (dyear s) (dmonth s) (dday s) = some s := (dateOf_eq_some _ _ _ _).2 ⟨hr, rfl, rfl, rfl⟩
  have hmax := (dateInRange_iff s).1 hr
  have hini : ∀ f : Nat → Option Int, f 0 = some s → initial f 0 = some s := by
    intro f h
    rw [initial_eq_some]
    refine ⟨fun j hj => ?_, h⟩
    rw [Nat.le_zero.1 hj, h]; rfl
  have hm : ∀ index, monthindex (dyear s) (dmonth s) index (weekday s) = .ok s →
      monthSeq s r.interval index 0 = some s := by
    intro index h
    rw [monthSeq_eq_some]
    simp only [Int.natCast_zero, Int.zero_mul, Int.add_zero]
    rw [(monthNr_year s).1, (monthNr_year s).2, h]
  unfold seqOf
  cases hkind : r.kind with
  | no => exact absurd hkind hk
  | basic => exact dailySeq_some.2 ⟨by simp, hmax.2⟩
  | daily => exact dailySeq_some.2 ⟨by simp, hmax.2⟩
  | yearly =>
    refine hini _ ?_
    unfold yearlySeq
    simpa using hself
  | weekly wds =>
    simp only
    unfold weeklySeq
    rw [if_pos]
    · simp
    · refine ⟨by simpa using hmax.2, ?_, Or.inr (by simp)⟩
      simp
  | monthly m =>
    cases m with
    | monthday =>
      simp only
      unfold monthdaySeq
      simp only [Int.natCast_zero, Int.zero_mul, Int.add_zero]
      rw [(monthNr_year s).1, (monthNr_year s).2, hself]
    | weekday => exact hini _ (hm _ (monthindex_start hr))
    | lastweekday =>
      have : dyear s ≠ 9999 ∨ dmonth s ≠ 12 := by
        unfold InLastMonth at hl
        rcases Decidable.em (dyear s = 9999) with h1 | h1
        · exact Or.inr (fun h2 => hl ⟨hkind, h1, h2⟩)
        · exact Or.inl h1
      exact hini _ (hm _ (monthindex_start_last hr this))

/-- C14, for every rule class and every prefix of the generation: the dates are strictly increasing and
none precedes the start. -/
theorem C14_increasing (r : Rule) (hi : 1 ≤ r.interval) (dt : Int) (hr : dtInRange dt = true)
    (en : Option Int) (n : Nat) :
    (r.applyRun dt en n).1.Pairwise (· < ·) ∧ ∀ d ∈ (r.applyRun dt en n).1, dtDate dt ≤ d := by
  by_cases hk : r.kind = .no
  · unfold Rule.applyRun
    rw [hk]
    simp
  · by_cases hu : UntilIsDate r
    · have E := rule_exact hu hi hk dt hr
      obtain ⟨h1, h2, _⟩ := E.run en n
      refine ⟨h1, fun d hd => ?_⟩
      obtain ⟨k, _, hc, _⟩ := h2 d hd
      exact seqOf_ge hi (dtDate_range hr) hc
    · have : (r.applyRun dt en n).1 = [] := by
        rw [List.eq_nil_iff_forall_not_mem]
        intro d hd
        obtain ⟨_, ⟨k, _, h⟩, _⟩ := applyRun_bounds r hk dt en n d hd
        exact hu h
      rw [this]; simp

/-- C14: the start is the first date generated, unless it is excepted or outside a bound.  The start of a
'lastweekday' rule in December 9999 is excluded: there the statement is false
(`C13_lastweekday_december_9999`). -/
theorem C14_start_first_partial (r : Rule) (hi : 1 ≤ r.interval) (hu : UntilIsDate r) (dt : Int)
    (hr : dtInRange dt = true) (en : Option Int) (hw : Within r en (dtDate dt) 0)
    (hx : dtDate dt ∉ r.exceptions) (hl : ¬ (r.kind = .monthly .lastweekday ∧ InLastMonth (dtDate dt)))
    (n : Nat) : ∃ t, (r.applyRun dt en (n + 1)).1 = dtDate dt :: t := by
  by_cases hk : r.kind = .no
  · unfold Rule.applyRun
    rw [hk]
    exact ⟨[], rfl⟩
  · exact (rule_exact hu hi hk dt hr).first en n _ (seqOf_zero hk (dtDate_range hr) hl) hw hx

/-- C14: the start is generated only if it is not excepted and within the bounds. -/
theorem C14_start_only_within (r : Rule) (hk : r.kind ≠ .no) (dt : Int) (en : Option Int)
    (n : Nat) (h : dtDate dt ∈ (r.applyRun dt en n).1) :
    Within r en (dtDate dt) 0 ∧ dtDate dt ∉ r.exceptions := by
  obtain ⟨_, ⟨k, hw, _⟩, hx⟩ := applyRun_bounds r hk dt en n _ h
  exact ⟨within_mono (Int.le_refl _) (Nat.zero_le k) hw, hx⟩

/-- C14, a case: a prefix of three iterations of an unbounded rule. -/
example :
    let r : Rule := ⟨.weekly [0, 1], 1, none, none, []⟩
    1 ≤ r.interval ∧ UntilIsDate r ∧ dtInRange (dayAt 2005 1 1) = true ∧
      Within r none (dtDate (dayAt 2005 1 1)) 0 ∧
      r.applyRun (dayAt 2005 1 1) none 4 =
        ([ymd2ord 2005 1 1, ymd2ord 2005 1 3, ymd2ord 2005 1 4], .running) := by
  refine ⟨by decide, fun t h => (by cases h), by decide, ⟨?_, ?_, ?_⟩, by decide +kernel⟩ <;>
    (intro _ h; cases h)

/-! ### C15 -/

/-- C15 for all classes but `NoRecurrenceRule`, for every rule (validated or not) and every prefix: no
date exceeds enddate or until, none is excepted, and at most `count` dates are generated.  Missing:
`NoRecurrenceRule`, for which the statement is false (`C15_no_counterexample`). -/
theorem C15_bounds_partial (r : Rule) (hk : r.kind ≠ .no) (dt : Int) (en : Option Int) (n : Nat) :
    (∀ d ∈ (r.applyRun dt en n).1, (∀ e, en = some e → d ≤ e) ∧
      (∀ u, r.untl = some (.date u) → d ≤ u) ∧ d ∉ r.exceptions) ∧
    (∀ c, r.count = some c → ((r.applyRun dt en n).1.length : Int) ≤ max c 0) ∧
    (∀ t, r.untl = some (.datetime t) → (r.applyRun dt en n).1 = []) := by
  refine ⟨fun d hd => ?_, fun c hc => applyRun_count r hk dt en n c hc, fun t ht => ?_⟩
  · obtain ⟨h1, ⟨k, hw, _⟩, h3⟩ := applyRun_bounds r hk dt en n d hd
    exact ⟨h1, hw.2.2, h3⟩
  · rw [List.eq_nil_iff_forall_not_mem]
    intro d hd
    obtain ⟨_, ⟨k, _, h⟩, _⟩ := applyRun_bounds r hk dt en n d hd
    exact h t ht

/-- C15 fails for `NoRecurrenceRule`: the start is generated although it is after the enddate and
excepted. -/
theorem C15_no_counterexample :
    let r : Rule := ⟨.no, 1, none, none, [ymd2ord 2005 2 1]⟩
    ValidRule r ∧ r.apply (dayAt 2005 2 1) (some (ymd2ord 2005 1 1)) = ([ymd2ord 2005 2 1], .ok ()) := by
  refine ⟨⟨by decide, by decide, fun l h => (by cases h)⟩, by decide⟩

/-- C15, a case: a rule with interval 0 (imported), count 2. -/
example : (⟨.daily, 0, some 2, none, []⟩ : Rule).applyRun (dayAt 2005 2 1) none 10 =
    ([ymd2ord 2005 2 1, ymd2ord 2005 2 1], .finished) := by decide +kernel

/-! ### C16 -/

/-- C16 for all classes but `NoRecurrenceRule`: the dates generated up to `e1` are exactly those generated
up to `e2` (or without enddate) that are `≤ e1`.  Missing: `NoRecurrenceRule`, for which the statement is
false (`C16_no_counterexample`). -/
theorem C16_truncation_partial (r : Rule) (hk : r.kind ≠ .no) (hv : 1 ≤ r.interval) (dt : Int)
    (hr : dtInRange dt = true) (e1 : Int) (en : Option Int) (he : ∀ e2, en = some e2 → e1 ≤ e2) :
    (r.apply dt (some e1)).1 = (r.apply dt en).1.filter (fun d => decide (d ≤ e1)) := by
  by_cases hu : UntilIsDate r
  · have E := rule_exact hu hv hk dt hr
    have g1 := E.generates (some e1)
    have g2 := E.generates en
    refine sorted_ext g1.1 (g2.1.filter _) fun d => ?_
    rw [List.mem_filter, g1.2 d, g2.2 d]
    constructor
    · rintro ⟨k, hc, hw, hx⟩
      have h1 := hw.1 e1 rfl
      exact ⟨⟨k, hc, ⟨fun e2 h2 => by have := he e2 h2; omega, hw.2⟩, hx⟩, by simpa using h1⟩
    · rintro ⟨⟨k, hc, hw, hx⟩, hd⟩
      refine ⟨k, hc, ⟨fun e h => ?_, hw.2⟩, hx⟩
      injection h with h; subst h
      simpa using hd
  · have hnil : ∀ en, (r.apply dt en).1 = [] := by
      intro en
      rw [List.eq_nil_iff_forall_not_mem]
      intro d hd
      obtain ⟨_, ⟨k, _, h⟩, _⟩ := applyRun_bounds r hk dt en r.fuel d hd
      exact hu h
    rw [hnil, hnil]; rfl

/-- C16 fails for `NoRecurrenceRule`. -/
theorem C16_no_counterexample :
    let r : Rule := ⟨.no, 1, none, none, []⟩
    ValidRule r ∧ (r.apply (dayAt 2005 2 1) (some (ymd2ord 2005 1 1))).1 ≠
      (r.apply (dayAt 2005 2 1) (some (ymd2ord 2006 1 1))).1.filter
        (fun d => decide (d ≤ ymd2ord 2005 1 1)) := by
  refine ⟨⟨by decide, by decide, fun l h => (by cases h)⟩, by decide⟩

/-- C16, a case. -/
example :
    let r : Rule := ⟨.monthly .lastweekday, 1, none, none, []⟩
    ValidRule r ∧ dtInRange (dayAt 2005 1 28) = true ∧
      r.apply (dayAt 2005 1 28) (some (ymd2ord 2005 2 28)) = ([ymd2ord 2005 1 28, ymd2ord 2005 2 25], .ok ()) ∧
      r.apply (dayAt 2005 1 28) (some (ymd2ord 2005 4 1)) =
        ([ymd2ord 2005 1 28, ymd2ord 2005 2 25, ymd2ord 2005 3 25], .ok ()) := by
  refine ⟨⟨by decide, by decide, fun l h => (by cases h)⟩, by decide, by decide +kernel, by decide +kernel⟩

/-! ### C17 -/

/-- C17: exactly which rules make `apply` run for ever: the loop never ends, for any number of
iterations, if and only if the interval is 0, the class is not weekly or no-recurrence, there is no count
and the start is within the bounds. -/
theorem C17_hangs_iff (r : Rule) (dt : Int) (hr : dtInRange dt = true) (en : Option Int) :
    (∀ n, (r.applyRun dt en n).2 = .running) ↔ Hangs r dt en := by
  constructor
  · intro h
    by_contra hc
    exact (hangs_or_ends r dt hr en).2 hc r.fuel (Nat.le_refl _) (h _)
  · exact (hangs_or_ends r dt hr en).1

/-- C17 for every rule with nonzero interval (in particular every validated one): the generation ends
after finitely many iterations.  Missing: rules with interval 0, which `import_` creates
(`C17_import_counterexample`). -/
theorem C17_terminates_partial (r : Rule) (hi : r.interval ≠ 0) (dt : Int) (hr : dtInRange dt = true)
    (en : Option Int) : ∃ n, (r.applyRun dt en n).2 ≠ .running :=
  ⟨r.fuel, (hangs_or_ends r dt hr en).2 (fun h => hi h.1) _ (Nat.le_refl _)⟩

/-- C17: the result of `apply` in the model is `diverge` exactly when the loop never ends. -/
theorem C17_diverge_iff (r : Rule) (dt : Int) (hr : dtInRange dt = true) (en : Option Int) :
    (r.apply dt en).2 = .error .diverge ↔ ∀ n, (r.applyRun dt en n).2 = .running := by
  rw [apply_diverges_iff r dt hr en, C17_hangs_iff r dt hr en]

/-- C17 fails: importing `RRULE:FREQ=DAILY;INTERVAL=0` gives a rule whose generation never ends, for
any enddate from the start on. -/
theorem C17_import_counterexample :
    ∃ r, getRecurrenceRule { freq := some "DAILY", interval := some [0] } = .ok r ∧
      ∀ dt, dtInRange dt = true → ∀ e, dtDate dt ≤ e → ∀ n, (r.applyRun dt (some e) n).2 = .running := by
  refine ⟨⟨.daily, 0, none, none, []⟩, by decide, fun dt hr e he => ?_⟩
  rw [C17_hangs_iff _ dt hr]
  refine ⟨rfl, by simp, by simp, fun t h => (by cases h), rfl, ⟨?_, ?_, ?_⟩, by simp⟩
  · intro e' h; injection h with h; omega
  · intro c h; cases h
  · intro c h; cases h

/-- C17, a case: an unbounded monthly rule is cut by the enddate. -/
example :
    let r : Rule := ⟨.monthly .monthday, 12, none, none, []⟩
    r.interval ≠ 0 ∧ dtInRange (dayAt 2004 2 29) = true ∧
      r.applyRun (dayAt 2004 2 29) (some (ymd2ord 2010 1 1)) 3 =
        ([ymd2ord 2004 2 29, ymd2ord 2008 2 29], .finished) := by
  refine ⟨by decide, by decide, by decide +kernel⟩

end CalCore
