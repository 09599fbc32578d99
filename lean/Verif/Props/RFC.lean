import Verif.Lemmas.RFCSeq
/- Properties C98 and C99: the iCalendar text of a rule, read according to RFC 2445. -/
namespace CalCore
open Spec

/-! ### C98 -/

/-- The parts of the recurrence `R` are those of the rule `r` on an event starting on the date `d`. -/
def Spec.Says (R : Recur) (r : Rule) (d : Int) : Prop :=
  R.interval = r.interval ∧ R.count = r.count ∧
  (∀ t, R.untl = some t ↔ ∃ u, r.untl = some (.date u) ∧ t = combine u 0) ∧ R.exdates = r.exceptions ∧
  match r.kind with
  | .daily => R.freq = .daily ∧ R.byday = [] ∧ R.bymonthday = []
  | .yearly => R.freq = .yearly ∧ R.byday = [] ∧ R.bymonthday = []
  | .weekly wds => R.freq = .weekly ∧ R.byday = wds.map (fun w => (0, w)) ∧ R.bymonthday = []
  | .monthly .monthday => R.freq = .monthly ∧ R.byday = [] ∧ R.bymonthday = [dday d]
  | .monthly .weekday => R.freq = .monthly ∧ R.byday = [((dday d - 1) / 7 + 1, weekday d)] ∧ R.bymonthday = []
  | .monthly .lastweekday => R.freq = .monthly ∧ R.byday = [(-1, weekday d)] ∧ R.bymonthday = []
  | .basic => False
  | .no => False

/-- C98: a reader of RFC 2445 finds in the text the parts of the rule, and no others.  Missing: rules with a count
below 1 or whose `until` is a datetime (`C57_counterexample`, `C98_negative_counterexample`). -/
theorem C98_reads_partial (r : Rule) (hv : ValidRule r) (hr : Tellable r) (hc : ∀ c, r.count = some c → 0 < c) (s : Int)
    (T : List String) (h : r.icalRepresentation s = .ok T) : ∃ R, readText T = some R ∧ Says R r (dtDate s) := by
  have hi := hv.1
  obtain ⟨F, hF, hT⟩ := readText_rule hr (by omega) (fun c hh => by have := hc c hh; omega) h
  refine ⟨_, hT, rfl, rfl, ?_, rfl, ?_⟩
  · intro t
    simp only []
    cases hu : r.untl with
    | none => simp [untilTime]
    | some u =>
      cases u with
      | date d =>
        simp only [untilTime, Option.some.injEq, Until.date.injEq]
        constructor
        · rintro rfl; exact ⟨d, rfl, by unfold combine; omega⟩
        · rintro ⟨u, rfl, rfl⟩; unfold combine; omega
      | datetime d => simp [untilTime]
  · cases hk : r.kind with
    | basic => rw [hk] at hF; cases hF
    | no => rw [hk] at hF; cases hF
    | daily => rw [hk] at hF; injection hF with hF; exact ⟨hF.symm, rfl, rfl⟩
    | yearly => rw [hk] at hF; injection hF with hF; exact ⟨hF.symm, rfl, rfl⟩
    | weekly wds => rw [hk] at hF; injection hF with hF; exact ⟨hF.symm, rfl, rfl⟩
    | monthly m => rw [hk] at hF; injection hF with hF; cases m <;> exact ⟨hF.symm, rfl, rfl⟩

theorem mapM_total {α β : Type} {f : α → Res β} {l : List α} (h : ∀ a ∈ l, ∃ b, f a = .ok b) : ∃ r, l.mapM f = .ok r := by
  induction l with
  | nil => exact ⟨[], rfl⟩
  | cons a l ih =>
    obtain ⟨b, hb⟩ := h a (by simp)
    obtain ⟨bs, hbs⟩ := ih fun a ha => h a (by simp [ha])
    exact ⟨b :: bs, mapM_ok_cons.2 ⟨b, bs, hb, hbs, rfl⟩⟩

theorem icalWeekday_total {w : Int} (h : 0 ≤ w ∧ w ≤ 6) : ∃ n, icalWeekday w = .ok n := by
  have : w = 0 ∨ w = 1 ∨ w = 2 ∨ w = 3 ∨ w = 4 ∨ w = 5 ∨ w = 6 := by omega
  rcases this with rfl | rfl | rfl | rfl | rfl | rfl | rfl <;> exact ⟨_, rfl⟩

/-- C98: there is a text for every rule of the four frequencies, unless it mentions a date before 1900. -/
theorem C98_written (r : Rule) (hv : ValidRule r) (hk : r.kind ≠ .no ∧ r.kind ≠ .basic)
    (hu : ∀ u, r.untl = some (.date u) → 1900 ≤ dyear u) (hu' : UntilIsDate r) (hx : ∀ d ∈ r.exceptions, 1900 ≤ dyear d) (s : Int) :
    ∃ T, r.icalRepresentation s = .ok T := by
  have hdate : ∀ d, 1900 ≤ dyear d → ∃ t, icalDate d = .ok t := by
    intro d hd
    unfold icalDate
    rw [if_neg (by omega)]
    exact ⟨_, rfl⟩
  have hud : ∀ u, r.untl = some u → ∃ t, icalDateTime u = .ok t := by
    intro u h
    cases u with
    | date d =>
      obtain ⟨t, ht⟩ := hdate d (hu d h)
      exact ⟨_, by simp only [icalDateTime, ht, ok_bind]; rfl⟩
    | datetime d => exact absurd h (hu' d)
  have hb : ∃ b, r.icalBound = .ok b := by
    unfold Rule.icalBound
    cases hun : r.untl with
    | none =>
      cases r.count with
      | none => exact ⟨_, rfl⟩
      | some c =>
        by_cases h : c = 0
        · exact ⟨_, by simp only [h, ne_eq, not_true, if_false]; rfl⟩
        · exact ⟨_, by simp only [h, ne_eq, not_false_eq_true, if_true]; rfl⟩
    | some u =>
      obtain ⟨t, ht⟩ := hud u hun
      cases r.count with
      | none => exact ⟨_, by simp only [ht, ok_bind]; rfl⟩
      | some c =>
        by_cases h : c = 0
        · exact ⟨_, by simp only [h, ne_eq, not_true, if_false, ht, ok_bind]; rfl⟩
        · exact ⟨_, by simp only [h, ne_eq, not_false_eq_true, if_true]; rfl⟩
  have ha : ∃ x, r.icalArgs s = .ok x := by
    unfold Rule.icalArgs
    simp only []
    cases hkind : r.kind with
    | basic => exact ⟨_, rfl⟩
    | no => exact ⟨_, rfl⟩
    | daily => exact ⟨_, rfl⟩
    | yearly => exact ⟨_, rfl⟩
    | weekly wds =>
      simp only []
      split
      · exact ⟨_, rfl⟩
      · obtain ⟨names, hn⟩ := mapM_total (f := icalWeekday) (l := wds) fun w hw =>
          icalWeekday_total (hv.2.2 wds hkind w hw)
        exact ⟨_, by simp only [hn, ok_bind]; rfl⟩
    | monthly m =>
      obtain ⟨n, hn⟩ := icalWeekday_total (weekday_range (dtDate s))
      cases m with
      | monthday => exact ⟨_, rfl⟩
      | weekday => exact ⟨_, by simp only [hn, ok_bind]; rfl⟩
      | lastweekday => exact ⟨_, by simp only [hn, ok_bind]; rfl⟩
  obtain ⟨b, hb⟩ := hb
  obtain ⟨x, ha⟩ := ha
  obtain ⟨dates, hd⟩ := mapM_total (f := icalDate) (l := r.exceptions) fun d h => hdate d (hx d h)
  unfold Rule.icalRepresentation
  cases hf : r.kind.icalFreq with
  | none =>
    exfalso
    cases hkind : r.kind with
    | basic => exact hk.2 hkind
    | no => exact hk.1 hkind
    | daily => rw [hkind] at hf; cases hf
    | yearly => rw [hkind] at hf; cases hf
    | weekly => rw [hkind] at hf; cases hf
    | monthly => rw [hkind] at hf; cases hf
  | some f =>
    simp only [hb, ha, ok_bind]
    split
    · exact ⟨_, rfl⟩
    · exact ⟨_, by rw [hd, ok_bind]⟩

/-- C98: the rules of the two classes without a frequency, `BasicRecurrenceRule` and `NoRecurrenceRule`, have no text:
AssertionError. -/
theorem C98_no_frequency (r : Rule) (h : r.kind = .basic ∨ r.kind = .no) (dtstart : DateTime) :
    r.icalRepresentation dtstart = raise .AssertionError := by
  unfold Rule.icalRepresentation
  rcases h with h | h <;> rw [h] <;> rfl

/-- C98: a count of zero is not written; the text is the one without count. -/
theorem C98_zero (r : Rule) (dtstart : DateTime) :
    ({ r with count := some 0 } : Rule).icalRepresentation dtstart = ({ r with count := none } : Rule).icalRepresentation dtstart := by
  unfold Rule.icalRepresentation Rule.icalBound
  rfl

/-- C98, concrete: a rule with a count of zero and an end. -/
example : ({ kind := .daily, interval := 1, count := some 0, untl := some (.date (ymd2ord 2026 3 4)), exceptions := [] } : Rule).icalRepresentation
    Sample.day = .ok ["RRULE:FREQ=DAILY;UNTIL=20260304T000000;INTERVAL=1"] := by decide +kernel

/-- C98 fails for a negative count: the rule can be constructed, its text is no text of RFC 2445. -/
theorem C98_negative_counterexample :
    ∃ r, Rule.new .daily 1 (some (-2)) = .ok r ∧
      r.icalRepresentation Sample.day = .ok ["RRULE:FREQ=DAILY;COUNT=-2;INTERVAL=1"] ∧
      readText ["RRULE:FREQ=DAILY;COUNT=-2;INTERVAL=1"] = none :=
  ⟨_, rfl, by decide +kernel, by decide +kernel⟩

/-- C98, concrete. -/
example :
    let r : Rule := { kind := .weekly [0, 2], interval := 2, count := none, untl := some (.date (ymd2ord 2026 12 31))
                      exceptions := [ymd2ord 2026 3 4, ymd2ord 2026 3 16] }
    ValidRule r ∧ (∀ c, r.count = some c → 0 < c) ∧
    r.icalRepresentation Sample.day = .ok
      ["RRULE:FREQ=WEEKLY;UNTIL=20261231T000000;BYDAY=MO,WE;INTERVAL=2", "EXDATE;VALUE=DATE:20260304,20260316"] ∧
    readText ["RRULE:FREQ=WEEKLY;UNTIL=20261231T000000;BYDAY=MO,WE;INTERVAL=2", "EXDATE;VALUE=DATE:20260304,20260316"] =
      some { freq := .weekly, interval := 2, untl := some (combine (ymd2ord 2026 12 31) 0), byday := [(0, 0), (0, 2)]
             exdates := [ymd2ord 2026 3 4, ymd2ord 2026 3 16] } := by
  refine ⟨⟨by decide, by decide, ?_⟩, (fun c h => by cases h), by decide +kernel, by decide +kernel⟩
  intro l h
  injection h with h
  subst h
  decide

/-- The reader on texts of other programs: parts in other order, several days with ordinals. -/
example :
    readText ["RRULE:FREQ=MONTHLY;INTERVAL=2;BYDAY=1MO,-2FR;COUNT=10"] =
      some { freq := .monthly, interval := 2, byday := [(1, 0), (-2, 4)], count := some 10 } ∧
    readText ["RRULE:FREQ=DAILY;UNTIL=20260229T000000"] = none ∧ readText ["RRULE:FREQ=DAILY;BYDAY=XX"] = none := by
  decide +kernel

/-! ### C99 -/

/-- The text says the same as the code does: the weekdays of a weekly rule include that of the start; a yearly rule
does not start on 29 February; a monthly weekday rule starts in one of the first four weeks, a last-weekday rule
in the last week of the month; an `until` is not used, or the event starts at midnight. -/
structure Spec.Plain (r : Rule) (dt : Int) : Prop where
  weekly : ∀ wds, r.kind = .weekly wds → wds = [] ∨ weekday (dtDate dt) ∈ wds
  yearly : r.kind = .yearly → ¬ IsFeb29 (dtDate dt)
  weekday : r.kind = .monthly .weekday → dday (dtDate dt) ≤ 28
  lastweekday : r.kind = .monthly .lastweekday →
    daysInMonth (dyear (dtDate dt)) (dmonth (dtDate dt)) < dday (dtDate dt) + 7

theorem inSet_of {R : Recur} {s d : Int} {P : Prop} (hs : s ≤ MAXORD) (h0 : P → s ≤ d ∧ d ≤ MAXORD ∧ Selected R s d)
    (h1 : s ≤ d ∧ d ≤ MAXORD ∧ Selected R s d → P) (h2 : Selected R s s) : P ↔ InSet R s d := by
  unfold InSet
  constructor
  · intro h; obtain ⟨a, b, c⟩ := h0 h; exact ⟨a, b, Or.inr c⟩
  · rintro ⟨a, b, c⟩
    rcases c with rfl | c
    · exact h1 ⟨a, b, h2⟩
    · exact h1 ⟨a, b, c⟩

/-- The dates of the rule before the bounds are those of the recurrence set. -/
theorem ruleSeq_values {r : Rule} {dt : Int} (hi : 1 ≤ r.interval) (hr : dtInRange dt = true) (hp : Plain r dt) {R : Recur}
    (hR : Says R r (dtDate dt)) (d : Int) :
    (∃ k, ruleSeq r (dtDate dt) k = some d) ↔
      InSet R (dtDate dt) d ∧ ¬ (r.kind = .monthly .lastweekday ∧ InLastMonth d) := by
  have hr' := dtDate_range hr
  have hs := ((dateInRange_iff _).1 hr').2
  obtain ⟨p1, p2, p3, p4⟩ := hp
  generalize dtDate dt = s at *
  obtain ⟨e1, _, _, _, e5⟩ := hR
  unfold ruleSeq
  have zero : ∀ x : Int, r.interval ∣ x - x := fun x => ⟨0, by omega⟩
  cases hk : r.kind with
  | no => rw [hk] at e5; exact absurd e5 id
  | basic => rw [hk] at e5; exact absurd e5 id
  | daily =>
    rw [hk] at e5
    simp only [reduceCtorEq, false_and, not_false_eq_true, and_true]
    rw [daily_values hi]
    have hsel : ∀ d, Selected R s d ↔ r.interval ∣ d - s := by
      intro d
      unfold Selected ByMonthday
      rw [e5.1, e5.2.1, e5.2.2, e1]
      simp
    refine inSet_of hs ?_ ?_ ?_ <;> rw [hsel]
    · exact id
    · exact id
    · exact zero s
  | yearly =>
    rw [hk] at e5
    simp only [reduceCtorEq, false_and, not_false_eq_true, and_true]
    rw [yearly_values hi hr' (p2 hk)]
    have hsel : ∀ d, Selected R s d ↔ r.interval ∣ dyear d - dyear s ∧ dmonth d = dmonth s ∧ dday d = dday s := by
      intro d
      unfold Selected
      rw [e5.1, e5.2.1, e5.2.2, e1]
      simp
    refine inSet_of hs ?_ ?_ ?_ <;> rw [hsel]
    · exact id
    · exact id
    · exact ⟨zero _, rfl, rfl⟩
  | weekly wds =>
    rw [hk] at e5
    simp only [reduceCtorEq, false_and, not_false_eq_true, and_true]
    rw [weekly_values]
    have hsel : ∀ d, Selected R s d ↔ 7 * r.interval ∣ mondayOf d - mondayOf s ∧ (weekday d ∈ wds ∨ weekday d = weekday s) := by
      intro d
      unfold Selected ByMonthday
      rw [e5.1, e5.2.1, e5.2.2, e1]
      simp only [List.map_eq_nil_iff, true_or, and_true]
      by_cases hw : wds = []
      · rw [if_pos hw, hw]; simp
      · rw [if_neg hw]
        rcases p1 wds hk with h | h
        · exact absurd h hw
        · refine and_congr_right fun _ => ?_
          constructor
          · rintro ⟨p, hp, hd⟩
            rw [List.mem_map] at hp
            obtain ⟨w, hw, rfl⟩ := hp
            left; rw [hd]; exact hw
          · intro hd
            refine ⟨(0, weekday d), List.mem_map.2 ⟨weekday d, ?_, rfl⟩, rfl⟩
            rcases hd with hd | hd
            · exact hd
            · rw [hd]; exact h
    refine inSet_of hs ?_ ?_ ?_
    · rw [hsel]; exact id
    · rw [hsel]; exact id
    · rw [hsel]; exact ⟨⟨0, by omega⟩, Or.inr rfl⟩
  | monthly m =>
    rw [hk] at e5
    cases m with
    | monthday =>
      simp only [RuleKind.monthly.injEq, reduceCtorEq, false_and, not_false_eq_true, and_true]
      rw [monthday_values hi hr']
      have hsel : ∀ d, Selected R s d ↔ r.interval ∣ monthNr d - monthNr s ∧ dday d = dday s := by
        intro d
        have hd := validYmd_date d
        have hd' := validYmd_date s
        unfold validYmd at hd hd'
        unfold Selected ByMonthday OnMonthday
        rw [e5.1, e5.2.1, e5.2.2, e1]
        simp only [List.cons_ne_nil, and_false, if_false, List.mem_singleton, exists_eq_left, true_or, true_and, false_or]
        refine and_congr_right fun _ => ?_
        omega
      refine inSet_of hs ?_ ?_ ?_ <;> rw [hsel]
      · exact id
      · exact id
      · exact ⟨zero _, rfl⟩
    | weekday =>
      simp only [RuleKind.monthly.injEq, reduceCtorEq, false_and, not_false_eq_true, and_true]
      rw [weekday_values hi hr' (p3 hk)]
      have h1 : 1 ≤ dday s := (validYmd_date s).2.2.1
      have hsel : ∀ d, Selected R s d ↔ r.interval ∣ monthNr d - monthNr s ∧ weekday d = weekday s ∧
          (dday d - 1) / 7 = (dday s - 1) / 7 := by
        intro d
        have hd := validYmd_date d
        unfold validYmd at hd
        unfold Selected OnDay ByMonthday
        rw [e5.1, e5.2.1, e5.2.2, e1]
        simp only [List.cons_ne_nil, if_false, List.mem_singleton, exists_eq_left, true_or, and_true, false_or]
        refine and_congr_right fun _ => and_congr_right fun _ => ?_
        omega
      refine inSet_of hs ?_ ?_ ?_
      · rw [hsel]; exact id
      · rw [hsel]; exact id
      · rw [hsel]; exact ⟨zero _, rfl, rfl⟩
    | lastweekday =>
      simp only [true_and]
      rw [lastweekday_values hi hr' (p4 hk), and_comm]
      have hsel : ∀ d, Selected R s d ↔ r.interval ∣ monthNr d - monthNr s ∧ weekday d = weekday s ∧
          daysInMonth (dyear d) (dmonth d) < dday d + 7 := by
        intro d
        have hd := validYmd_date d
        unfold validYmd at hd
        unfold Selected OnDay ByMonthday
        rw [e5.1, e5.2.1, e5.2.2, e1]
        simp only [List.cons_ne_nil, if_false, List.mem_singleton, exists_eq_left, true_or, and_true, false_or]
        refine and_congr_right fun _ => and_congr_right fun _ => ?_
        omega
      refine and_congr_left fun _ => ?_
      refine inSet_of hs ?_ ?_ ?_
      · rw [hsel]; exact id
      · rw [hsel]; exact id
      · rw [hsel]; exact ⟨zero _, rfl, p4 hk⟩

/-- The part of the recurrence set with a property, as a sequence. -/
def recurSeq (R : Recur) (P : Int → Prop) [DecidablePred P] (s : Int) (k : Nat) : Option Int :=
  if InSet R s (s + k) ∧ P (s + k) then some (s + k) else none

theorem recurSeq_some {R : Recur} {P : Int → Prop} [DecidablePred P] {s d : Int} {k : Nat} :
    recurSeq R P s k = some d ↔ d = s + k ∧ InSet R s d ∧ P d := by
  unfold recurSeq
  constructor
  · intro h
    split at h
    · rename_i hc
      injection h with h
      subst h
      exact ⟨rfl, hc⟩
    · cases h
  · rintro ⟨rfl, hc⟩
    rw [if_pos hc]

/-- What the code generates for a plain rule, in terms of the recurrence set of its parts. -/
theorem apply_inSet {r : Rule} {dt : Int} (hi : 1 ≤ r.interval) (hdt : dtInRange dt = true) (hp : Plain r dt)
    (hu : UntilIsDate r) {R : Recur} (hs : Says R r (dtDate dt)) (en : Option Int) (d : Int) :
    d ∈ (r.apply dt en).1 ↔
      InSet R (dtDate dt) d ∧
      (∀ c, r.count = some c →
        ((List.range (d - dtDate dt).toNat).countP (fun j => InSet R (dtDate dt) (dtDate dt + (j : Nat))) : Int) < c) ∧
      (∀ u, r.untl = some (.date u) → d ≤ u) ∧ d ∉ r.exceptions ∧ (∀ e, en = some e → d ≤ e) ∧
      ¬ (r.kind = .monthly .lastweekday ∧ InLastMonth d) := by
  have hk : r.kind ≠ .no := by
    intro hk
    have := hs.2.2.2.2
    rw [hk] at this
    exact this
  have hval := ruleSeq_values hi hdt hp hs
  have hr' := dtDate_range hdt
  obtain ⟨_, e2, e3, e4, _⟩ := hs
  classical
  have hinc : Increasing (recurSeq R (fun d => ¬ (r.kind = .monthly .lastweekday ∧ InLastMonth d)) (dtDate dt)) := by
    intro j k x y h hx hy
    have h1 := (recurSeq_some.1 hx).1
    have h2 := (recurSeq_some.1 hy).1
    omega
  have hvals : ∀ d, (∃ k, ruleSeq r (dtDate dt) k = some d) ↔
      ∃ k, recurSeq R (fun d => ¬ (r.kind = .monthly .lastweekday ∧ InLastMonth d)) (dtDate dt) k = some d := by
    intro d
    rw [hval d]
    constructor
    · intro h
      have := h.1.1
      exact ⟨(d - dtDate dt).toNat, recurSeq_some.2 ⟨by omega, h⟩⟩
    · rintro ⟨k, h⟩; exact (recurSeq_some.1 h).2
  have hrank : ∀ k, ruleSeq r (dtDate dt) k = some d → rank (ruleSeq r (dtDate dt)) k =
      (List.range (d - dtDate dt).toNat).countP (fun j => InSet R (dtDate dt) (dtDate dt + (j : Nat))) := by
    intro k hk
    obtain ⟨k', hk'⟩ := (hvals d).1 ⟨k, hk⟩
    rw [rank_congr (ruleSeq_mono hi hr') hinc hvals hk hk']
    obtain ⟨h1, h2, h3⟩ := recurSeq_some.1 hk'
    rw [show (d - dtDate dt).toNat = k' by omega]
    unfold rank
    refine List.countP_congr fun j hj => ?_
    rw [List.mem_range] at hj
    unfold recurSeq
    have hP : ¬ (r.kind = .monthly .lastweekday ∧ InLastMonth (dtDate dt + (j : Int))) := by
      rintro ⟨h4, h5⟩
      refine h3 ⟨h4, ?_⟩
      have hm : InLastMonth d ↔ monthNr d = 12 * 9999 + 11 := by
        have := validYmd_date d; unfold validYmd at this; unfold InLastMonth monthNr; omega
      have h6 : monthNr (dtDate dt + (j : Int)) = 12 * 9999 + 11 := by
        unfold monthNr; rw [h5.1, h5.2]; omega
      have h7 := monthNr_mono (show dtDate dt + (j : Int) ≤ d by omega)
      have h8 := monthNr_mono (show d ≤ MAXORD from h2.2.1)
      have h9 : monthNr MAXORD = 12 * 9999 + 11 := by decide
      rw [hm]
      omega
    by_cases hin : InSet R (dtDate dt) (dtDate dt + (j : Int))
    · simp [hin, hP]
    · simp [hin]
  rw [(apply_generates hk hi hu hdt en).2 d]
  unfold Within
  constructor
  · rintro ⟨k, h1, ⟨h2, h3, h4⟩, h5⟩
    have hin := (hval d).1 ⟨k, h1⟩
    refine ⟨hin.1, ?_, h4, h5, h2, hin.2⟩
    intro c hcc
    rw [← hrank k h1]
    exact h3 c hcc
  · rintro ⟨h1, h2, h3, h4, h5, h6⟩
    obtain ⟨k, hk⟩ := (hval d).2 ⟨h1, h6⟩
    refine ⟨k, hk, ⟨h5, ?_, h3⟩, h4⟩
    intro c hcc
    rw [hrank k hk]
    exact h2 c hcc

/-- What the code generates and what the text says, for every plain rule: the text allows fewer dates only through its
UNTIL, which is at midnight; the code leaves out the last month of the calendar for last-weekday rules. -/
theorem C99_general (r : Rule) (hv : ValidRule r) (hr : Tellable r) (hc : ∀ c, r.count = some c → 0 < c) (dt : Int)
    (hdt : dtInRange dt = true) (hp : Plain r dt) (T : List String) (h : r.icalRepresentation dt = .ok T) (en : Option Int) :
    ∃ R, readText T = some R ∧ ∀ d,
      (d ∈ (r.apply dt en).1 ∧ ∀ u, r.untl = some (.date u) → combine d (dtTime dt) ≤ combine u 0) ↔
      (Recurs R dt d ∧ (∀ e, en = some e → d ≤ e) ∧ ¬ (r.kind = .monthly .lastweekday ∧ InLastMonth d)) := by
  obtain ⟨R, hR, hs⟩ := C98_reads_partial r hv hr hc dt T h
  refine ⟨R, hR, fun d => ?_⟩
  have hi := hv.1
  have hu : UntilIsDate r := by
    intro t ht
    obtain ⟨d, hd, _⟩ := hr.untl _ ht
    cases hd
  rw [apply_inSet hi hdt hp hu hs en d]
  obtain ⟨_, e2, e3, e4, _⟩ := hs
  unfold Recurs
  rw [e2, e4]
  constructor
  · rintro ⟨⟨h1, h2, _, h4, h5, h6⟩, h7⟩
    refine ⟨⟨h1, h2, ?_, h4⟩, h5, h6⟩
    intro t ht
    obtain ⟨u, hu, rfl⟩ := (e3 t).1 ht
    exact h7 u hu
  · rintro ⟨⟨h1, h2, h3, h4⟩, h5, h6⟩
    refine ⟨⟨h1, h2, ?_, h4, h5, h6⟩, ?_⟩
    · intro u hu
      have := h3 _ ((e3 _).2 ⟨u, hu, rfl⟩)
      have ht := dtTime_range dt
      unfold combine DAY at this
      omega
    · intro u hu
      exact h3 _ ((e3 _).2 ⟨u, hu, rfl⟩)

/-- C99: the dates the code generates are those that the text stands for.  Missing: rules that are not plain, `until`
with an event not starting at midnight, and last-weekday rules in December 9999, for which it is false (the
counterexamples below). -/
theorem C99_meaning_partial (r : Rule) (hv : ValidRule r) (hr : Tellable r) (hc : ∀ c, r.count = some c → 0 < c) (dt : Int)
    (hdt : dtInRange dt = true) (hp : Plain r dt) (hu : r.untl = none ∨ dtTime dt = 0) (T : List String)
    (h : r.icalRepresentation dt = .ok T) :
    ∃ R, readText T = some R ∧ ∀ d, ¬ (r.kind = .monthly .lastweekday ∧ InLastMonth d) →
      (d ∈ (r.apply dt none).1 ↔ Recurs R dt d) := by
  obtain ⟨R, hR, hg⟩ := C99_general r hv hr hc dt hdt hp T h none
  refine ⟨R, hR, fun d hd => ?_⟩
  have hg := hg d
  constructor
  · intro hm
    refine (hg.1 ⟨hm, fun u hun => ?_⟩).1
    rcases hu with hu | hu
    · rw [hu] at hun; cases hun
    · have hk : r.kind ≠ .no := by
        intro hk
        obtain ⟨R, hR, hs⟩ := C98_reads_partial r hv hr hc dt T h
        have := hs.2.2.2.2
        rw [hk] at this
        exact this
      have := (C15_bounds_partial r hk dt none r.fuel).1 d hm
      have := this.2.1 u hun
      rw [hu]
      unfold combine DAY
      omega
  · intro hm
    exact (hg.2 ⟨hm, (by intro e he; cases he), hd⟩).1

/-- C99 fails for `until`: on the last day a meeting at 10:00 is after the UNTIL of the text. -/
theorem C99_until_counterexample :
    ∃ r R, Rule.new .daily 1 none (some (.date (ymd2ord 2026 3 5))) = .ok r ∧
      r.icalRepresentation (Sample.day + 10 * Sample.HOUR) = .ok ["RRULE:FREQ=DAILY;UNTIL=20260305T000000;INTERVAL=1"] ∧
      readText ["RRULE:FREQ=DAILY;UNTIL=20260305T000000;INTERVAL=1"] = some R ∧
      ymd2ord 2026 3 5 ∈ (r.apply (Sample.day + 10 * Sample.HOUR) none).1 ∧
      ¬ Recurs R (Sample.day + 10 * Sample.HOUR) (ymd2ord 2026 3 5) := by
  refine ⟨_, { freq := .daily, untl := some (combine (ymd2ord 2026 3 5) 0) }, rfl, by decide +kernel, by decide +kernel,
    by decide +kernel, fun h => ?_⟩
  exact absurd (h.2.2.1 _ rfl) (by decide +kernel)

/-- C99 fails for a weekly rule whose weekdays do not include that of the start: the code goes on with the weekday of the
start, which the text does not mention. -/
theorem C99_weekly_counterexample :
    ∃ r R, Rule.new (.weekly [2]) 1 = .ok r ∧
      r.icalRepresentation Sample.day = .ok ["RRULE:FREQ=WEEKLY;BYDAY=WE;INTERVAL=1"] ∧
      readText ["RRULE:FREQ=WEEKLY;BYDAY=WE;INTERVAL=1"] = some R ∧
      ymd2ord 2026 3 9 ∈ (r.apply Sample.day (some (ymd2ord 2026 3 10))).1 ∧ ¬ Recurs R Sample.day (ymd2ord 2026 3 9) := by
  refine ⟨_, { freq := .weekly, byday := [(0, 2)] }, rfl, by decide +kernel, by decide +kernel, by decide +kernel, fun h => ?_⟩
  exact absurd h.1 (by decide +kernel)

/-- C99 fails for 29 February: the text stands for every leap year, the code ends with an exception. -/
theorem C99_feb29_counterexample :
    ∃ r R, Rule.new .yearly 1 = .ok r ∧
      r.icalRepresentation (dayAt 2028 2 29) = .ok ["RRULE:FREQ=YEARLY;INTERVAL=1"] ∧
      readText ["RRULE:FREQ=YEARLY;INTERVAL=1"] = some R ∧
      r.apply (dayAt 2028 2 29) none = ([ymd2ord 2028 2 29], raise .ValueError) ∧
      Recurs R (dayAt 2028 2 29) (ymd2ord 2032 2 29) := by
  refine ⟨_, { freq := .yearly }, rfl, by decide +kernel, by decide +kernel, by decide +kernel, by decide +kernel,
    fun c h => (by cases h), fun u h => (by cases h), by decide⟩

/-- C99 fails for the fifth Monday: in a month with four the code takes the first Monday of the next month. -/
theorem C99_fifth_counterexample :
    ∃ r R, Rule.new (.monthly .weekday) 1 = .ok r ∧
      r.icalRepresentation (dayAt 2026 3 30) = .ok ["RRULE:FREQ=MONTHLY;BYDAY=5MO;INTERVAL=1"] ∧
      readText ["RRULE:FREQ=MONTHLY;BYDAY=5MO;INTERVAL=1"] = some R ∧
      ymd2ord 2026 5 4 ∈ (r.apply (dayAt 2026 3 30) (some (ymd2ord 2026 5 10))).1 ∧
      ¬ Recurs R (dayAt 2026 3 30) (ymd2ord 2026 5 4) := by
  refine ⟨_, { freq := .monthly, byday := [(5, 0)] }, rfl, by decide +kernel, by decide +kernel, by decide +kernel, fun h => ?_⟩
  exact absurd h.1 (by decide +kernel)

/-- C99 fails for the last Monday but one: the code repeats it, the text says the last Monday. -/
theorem C99_last_counterexample :
    ∃ r R, Rule.new (.monthly .lastweekday) 1 = .ok r ∧
      r.icalRepresentation (dayAt 2026 3 23) = .ok ["RRULE:FREQ=MONTHLY;BYDAY=-1MO;INTERVAL=1"] ∧
      readText ["RRULE:FREQ=MONTHLY;BYDAY=-1MO;INTERVAL=1"] = some R ∧
      r.apply (dayAt 2026 3 23) (some (ymd2ord 2026 4 30)) = ([ymd2ord 2026 3 23, ymd2ord 2026 4 20], .ok ()) ∧
      ¬ Recurs R (dayAt 2026 3 23) (ymd2ord 2026 4 20) ∧ Recurs R (dayAt 2026 3 23) (ymd2ord 2026 4 27) := by
  refine ⟨_, { freq := .monthly, byday := [(-1, 0)] }, rfl, by decide +kernel, by decide +kernel, by decide +kernel, fun h => ?_,
    by decide +kernel, fun c h => (by cases h), fun u h => (by cases h), by decide⟩
  exact absurd h.1 (by decide +kernel)

/-- C99 fails in December 9999 for last-weekday rules. -/
theorem C99_9999_counterexample :
    ∃ r R, Rule.new (.monthly .lastweekday) 1 = .ok r ∧
      r.icalRepresentation (dayAt 9999 11 30) = .ok ["RRULE:FREQ=MONTHLY;BYDAY=-1TU;INTERVAL=1"] ∧
      readText ["RRULE:FREQ=MONTHLY;BYDAY=-1TU;INTERVAL=1"] = some R ∧
      (r.apply (dayAt 9999 11 30) none).1 = [ymd2ord 9999 11 30] ∧
      Recurs R (dayAt 9999 11 30) (ymd2ord 9999 12 28) := by
  refine ⟨_, { freq := .monthly, byday := [(-1, 1)] }, rfl, by decide +kernel, by decide +kernel, by decide +kernel,
    by decide +kernel, fun c h => (by cases h), fun u h => (by cases h), by decide⟩

/-- C99, concrete: every second Monday and Wednesday, six times, without one date. -/
example :
    let r : Rule := { kind := .weekly [0, 2], interval := 2, count := some 6, untl := none, exceptions := [ymd2ord 2026 3 4] }
    ValidRule r ∧ Tellable r ∧ (∀ c, r.count = some c → 0 < c) ∧ Plain r Sample.day ∧ dtInRange Sample.day = true ∧
      r.icalRepresentation Sample.day = .ok
        ["RRULE:FREQ=WEEKLY;COUNT=6;BYDAY=MO,WE;INTERVAL=2", "EXDATE;VALUE=DATE:20260304"] ∧
      r.apply Sample.day none = ([ymd2ord 2026 3 2, ymd2ord 2026 3 16, ymd2ord 2026 3 18, ymd2ord 2026 3 30,
        ymd2ord 2026 4 1], .ok ()) := by
  refine ⟨⟨by decide, by decide, ?_⟩, ⟨by decide, by decide, ?_, by decide⟩, ?_, ⟨?_, ?_, ?_, ?_⟩, by decide +kernel,
    by decide +kernel, by decide +kernel⟩
  · intro l h; injection h with h; subst h; decide
  · intro u h; cases h
  · intro c h; injection h with h; omega
  · intro l h; injection h with h; subst h; decide +kernel
  · intro h; cases h
  · intro h; cases h
  · intro h; cases h

end CalCore
