import Verif.Props.Shown
import Verif.Props.Copy
/- Property C125: what an exported event says according to RFC 2445 is when the event takes place. -/
namespace CalCore
open Spec

/-- The rules whose dates the exported properties (frequency, interval, count, until) say, for an event starting on
the date `s`. -/
def Spec.Said (r : Rule) (s : Int) : Prop :=
  1 ≤ r.interval ∧ UntilIsDate r ∧ r.exceptions = [] ∧
    (r.kind = .daily ∨ (r.kind = .yearly ∧ ¬ IsFeb29 s) ∨ r.kind = .monthly .monthday ∨
      ∃ l, r.kind = .weekly l ∧ ∀ w ∈ l, w = weekday s)

/-- Naming the weekday of the start adds nothing. -/
theorem isDate_weekly {r : Rule} {l : List Int} {s : Int} (hk : r.kind = .weekly l) (h : ∀ w ∈ l, w = weekday s)
    (he : r.exceptions = []) (d : Int) :
    IsDate { r with kind := .weekly [], exceptions := [] } s d ↔ IsDate r s d := by
  have hseq : ruleSeq { r with kind := .weekly [], exceptions := [] } s = ruleSeq r s := by
    funext k
    unfold ruleSeq
    rw [hk]
    simp only []
    unfold weeklySeq
    have : (weekday (s + k) ∈ ([] : List Int) ∨ weekday (s + k) = weekday s) ↔
        (weekday (s + k) ∈ l ∨ weekday (s + k) = weekday s) := by
      constructor
      · rintro (h' | h')
        · cases h'
        · exact Or.inr h'
      · rintro (h' | h')
        · exact Or.inr (h _ h')
        · exact Or.inr h'
    simp only [this]
  unfold IsDate
  rw [hseq, hk, he, if_neg (by simp), if_neg (by simp)]
  rfl

/-- The exported rule has a meaning, and its dates are those of the rule. -/
theorem exportRule_means {r : Rule} {dt : Int} (hdt : dtInRange dt = true) (h : Said r (dtDate dt)) :
    ∃ R, meaning (exportRule r) [] [] = some R ∧ ∀ d, Recurs R dt d ↔ IsDate r (dtDate dt) d := by
  obtain ⟨hi, hud, hex, hkind⟩ := h
  -- the meaning
  have hm : ∃ f R, r.kind.icalFreq.bind freqOf = some f ∧ meaning (exportRule r) [] [] = some R ∧
      R = { freq := f, interval := r.interval, count := r.count, untl := r.untl.map untilOf } := by
    have : ∃ f, r.kind.icalFreq.bind freqOf = some f := by
      rcases hkind with h | ⟨h, -⟩ | h | ⟨l, h, -⟩ <;> rw [h] <;> exact ⟨_, rfl⟩
    obtain ⟨f, hf⟩ := this
    refine ⟨f, _, hf, ?_, rfl⟩
    unfold meaning exportRule
    simp only [hf, Option.bind_some, Option.getD_none, List.mapM_nil, Option.pure_def, Option.map_some]
    cases r.count <;> cases r.untl <;> rfl
  obtain ⟨f, R, hf, hm, hR⟩ := hm
  refine ⟨R, hm, fun d => ?_⟩
  obtain ⟨r', hr', hdates⟩ : ∃ r', copyRule r = some r' ∧ (IsDate r' (dtDate dt) d ↔ IsDate r (dtDate dt) d) := by
    rcases hkind with h | ⟨h, -⟩ | h | ⟨l, h, hl⟩
    · refine ⟨_, by unfold copyRule; rw [h], ?_⟩
      rw [← hex, ← h]
    · refine ⟨_, by unfold copyRule; rw [h], ?_⟩
      rw [← hex, ← h]
    · refine ⟨_, by unfold copyRule; rw [h], ?_⟩
      rw [← hex, ← h]
    · exact ⟨_, by unfold copyRule; rw [h], isDate_weekly h hl hex d⟩
  have hget : getRecurrenceRule (exportRule r) = .ok r' := by rw [getRecurrenceRule_export, hr']
  have hu : Understood R (dtDate dt) := by
    rw [hR]
    refine ⟨hi, ?_⟩
    rcases hkind with h | ⟨h, h29⟩ | h | ⟨l, h, hl⟩ <;> rw [h] at hf <;> injection hf with hf <;> subst hf
    · exact ⟨rfl, rfl⟩
    · exact ⟨h29, rfl, rfl⟩
    · exact Or.inl ⟨rfl, by simp⟩
    · exact ⟨Or.inl rfl, rfl⟩
  have hut : ∀ t l, (exportRule r).untl ≠ some (.datetime t :: l) := by
    intro t l
    unfold exportRule
    simp only []
    cases hun : r.untl with
    | none => simp
    | some u =>
      simp only [Option.map_some, ne_eq, Option.some.injEq, List.cons.injEq, not_and]
      intro hh
      subst hh
      exact absurd hun (hud t)
  have hbd : R.byday = [(-1, weekday (dtDate dt))] → ¬ InLastMonth d := by rw [hR]; simp
  have hex' : d ∉ R.exdates := by rw [hR]; simp
  have key := rule_means hget hm hut hdt hu none d hex' hbd
  have hk' : r'.kind ≠ .no := by
    unfold copyRule at hr'
    rcases hkind with h | ⟨h, h29⟩ | h | ⟨l, h, hl⟩ <;> rw [h] at hr' <;> injection hr' with hr' <;> rw [← hr'] <;>
      simp
  have hi' : r'.interval = r.interval ∧ r'.untl = r.untl := by
    unfold copyRule at hr'
    rcases hkind with h | ⟨h, h29⟩ | h | ⟨l, h, hl⟩ <;> rw [h] at hr' <;> injection hr' with hr' <;> rw [← hr'] <;>
      exact ⟨rfl, rfl⟩
  have hud' : UntilIsDate r' := by unfold UntilIsDate; rw [hi'.2]; exact hud
  have hgen := (apply_generates hk' (by rw [hi'.1]; exact hi) hud' hdt none).2 d
  rw [← hdates]
  unfold IsDate
  rw [if_neg hk', ← hgen, key]
  simp

/-- C125: an exported event, private or not, says when the event takes place: DTSTART and DTEND give its start and
duration, and the recurrence its dates.  Missing: all-day events that are no whole days; rules other than those of
`Said`, whose dates are not said (counterexamples below). -/
theorem C125_says_partial (tz : LocalTz) (ev : Event) (priv : Bool) (order : Finset String → List String) (v : VEvent)
    (h : ev.export priv order = .ok v) (hs : dtInRange ev.dtstart = true)
    (hday : ev.allday = true → ev.dtstart % DAY = 0 ∧ ∀ d, ev.duration = some d → d % DAY = 0)
    (hr : ∀ r, ev.recurrence = some r → Said r (dtDate ev.dtstart)) :
    ∃ st dur, v.dtstart = some st ∧ Means tz st ev.dtstart ∧ (IsDateValue st ↔ ev.allday = true) ∧
      ev.duration = some dur ∧ Lasts tz v ev.dtstart dur ∧ ∀ t, TakesPlace v [] ev.dtstart t ↔ StartsAt ev t := by
  unfold Event.export at h
  cases hd : ev.duration with
  | none => rw [hd] at h; cases h
  | some dur =>
    rw [hd] at h
    simp only [bind_ok, dtAdd_ok] at h
    obtain ⟨en, ⟨-, rfl⟩, h⟩ := h
    have hv : v.dtstart = some (if ev.allday then .date (dtDate ev.dtstart) else .naive ev.dtstart) ∧
        v.dtend = some (if ev.allday then .date (dtDate (ev.dtstart + dur)) else .naive (ev.dtstart + dur)) ∧
        v.rrule = ev.recurrence.map exportRule := by
      split at h <;> injection h with h <;> rw [← h] <;> exact ⟨rfl, rfl, rfl⟩
    obtain ⟨v1, v2, v3⟩ := hv
    refine ⟨_, dur, v1, ?_, ?_, rfl, ⟨?_, ?_, ?_⟩, ?_⟩
    · cases had : ev.allday with
      | false => exact Means.floating _
      | true =>
        have : ev.dtstart = dtDate ev.dtstart * DAY := by
          have := (hday had).1
          unfold dtDate DAY at *
          omega
        have hm := Means.date (tz := tz) (dtDate ev.dtstart)
        rw [← this] at hm
        exact hm
    · cases ev.allday <;> simp [IsDateValue]
    · intro en hen
      rw [v2] at hen
      injection hen with hen
      subst hen
      cases had : ev.allday with
      | false => exact Means.floating _
      | true =>
        have : ev.dtstart + dur = dtDate (ev.dtstart + dur) * DAY := by
          have h1 := (hday had).1
          have h2 := (hday had).2 dur hd
          unfold dtDate DAY at *
          omega
        have hm := Means.date (tz := tz) (dtDate (ev.dtstart + dur))
        rw [← this] at hm
        exact hm
    · intro hh; rw [v2] at hh; cases hh
    · intro hh; rw [v2] at hh; cases hh
    · intro t
      unfold TakesPlace StartsAt
      rw [v3]
      cases hrec : ev.recurrence with
      | none => exact Iff.rfl
      | some r =>
        simp only [Option.map_some]
        obtain ⟨R, hm, hR⟩ := exportRule_means hs (hr r hrec)
        constructor
        · rintro ⟨R', d, hm', h1, h2⟩
          rw [hm] at hm'
          injection hm' with hm'
          subst hm'
          exact ⟨d, (hR d).1 h1, h2⟩
        · rintro ⟨d, h1, h2⟩
          exact ⟨R, d, hm, (hR d).2 h1, h2⟩

/-- C125 fails for weekdays, exceptions and the kinds of monthly rules: none of them is exported.  Here an event on
Tuesdays and Thursdays except on one day, and one on the last Tuesday of the month. -/
theorem C125_lost_counterexample :
    let r : Rule := ⟨.weekly [1, 3], 1, some 4, none, [ymd2ord 2026 3 10]⟩
    let r' : Rule := ⟨.monthly .lastweekday, 1, none, none, []⟩
    let dt := combine (ymd2ord 2026 3 3) 36000000000
    let dt' := combine (ymd2ord 2026 3 31) 36000000000
    (∃ R, meaning (exportRule r) [] [] = some R ∧ Recurs R dt (ymd2ord 2026 3 10) ∧ ¬ Recurs R dt (ymd2ord 2026 3 5)) ∧
    ymd2ord 2026 3 5 ∈ (r.apply dt none).1 ∧ ymd2ord 2026 3 10 ∉ (r.apply dt none).1 ∧
    (∃ R, meaning (exportRule r') [] [] = some R ∧ ¬ Recurs R dt' (ymd2ord 2026 4 28)) ∧
    ymd2ord 2026 4 28 ∈ (r'.apply dt' (some (ymd2ord 2026 4 30))).1 := by
  refine ⟨⟨{ freq := .weekly, count := some 4 }, by decide +kernel, ⟨by decide +kernel, ?_, by simp, by decide⟩, fun h => ?_⟩,
    by decide +kernel, by decide +kernel, ⟨{ freq := .monthly }, by decide +kernel, fun h => ?_⟩, by decide +kernel⟩
  · intro c h
    injection h with h
    subst h
    decide +kernel
  · exact absurd h.1 (by decide +kernel)
  · exact absurd h.1 (by decide +kernel)

/-- C125 fails for a rule whose until is a time (set in Python or imported): it has no dates, but the export says some. -/
theorem C125_until_counterexample :
    let r : Rule := ⟨.daily, 1, none, some (.datetime (combine (ymd2ord 2026 3 5) 36000000000)), []⟩
    (∃ R, meaning (exportRule r) [] [] = some R ∧ Recurs R Sample.day (ymd2ord 2026 3 4)) ∧ (r.apply Sample.day none).1 = [] := by
  refine ⟨⟨{ freq := .daily, untl := some (combine (ymd2ord 2026 3 5) 36000000000) }, by decide +kernel, by decide +kernel,
    fun c h => (by cases h), fun u h => ?_, by decide⟩, by decide +kernel⟩
  injection h with h
  subst h
  decide +kernel

/-- C125 fails for all-day events with hours: from 3 March 10:00 for 3 hours is exported as no time at all. -/
theorem C125_allday_counterexample :
    let ev : Event :=
      { Sample.event Sample.party with
        allday := true, dtstart := combine (ymd2ord 2026 3 3) 36000000000, duration := some (3 * Sample.HOUR) }
    ∃ v, ev.export false (fun _ => []) = .ok v ∧ v.dtstart = some (.date (ymd2ord 2026 3 3)) ∧
      v.dtend = some (.date (ymd2ord 2026 3 3)) := ⟨_, rfl, by decide +kernel, by decide +kernel⟩

/-- C125, concrete: a weekly event on the weekday of its start, until a date. -/
example :
    let r : Rule := ⟨.weekly [1], 2, none, some (.date (ymd2ord 2026 5 1)), []⟩
    let ev := Sample.event { Sample.party with dtstart := combine (ymd2ord 2026 3 3) 36000000000, recurrence := some r }
    (∃ v, ev.export true (fun _ => []) = .ok v) ∧ dtInRange ev.dtstart = true ∧ Said r (dtDate ev.dtstart) ∧
      (r.apply ev.dtstart none).1 = [ymd2ord 2026 3 3, ymd2ord 2026 3 17, ymd2ord 2026 3 31, ymd2ord 2026 4 14, ymd2ord 2026 4 28] := by
  refine ⟨⟨_, rfl⟩, by decide +kernel, ⟨by decide, by simp [UntilIsDate], rfl, Or.inr (Or.inr (Or.inr ⟨[1], rfl, ?_⟩))⟩, by decide +kernel⟩
  intro w hw
  rw [List.mem_singleton] at hw
  subst hw
  decide +kernel

end CalCore
