import Verif.Lemmas.Translate
/- Property C93: recurrence does not depend on where in the calendar the event is. -/
namespace CalCore
open Spec

namespace Spec

/-- The `until` of a rule moved by `D` days. -/
def movedUntil (D : Int) : Until → Until
  | .date u => .date (u + D)
  | .datetime t => .datetime (t + D * DAY)

/-- The rule with the days it names, its until and its exceptions, moved by `D` days. -/
def movedRule (r : Rule) (D : Int) : Rule :=
  { r with untl := r.untl.map (movedUntil D), exceptions := r.exceptions.map (· + D) }

end Spec

theorem movedRule_until (r : Rule) (D u : Int) :
    (movedRule r D).untl = some (.date (u + D)) ↔ r.untl = some (.date u) := by
  unfold movedRule
  rcases r.untl with _ | (v | t)
  · simp
  · simp only [Option.map_some, movedUntil, Option.some.injEq, Until.date.injEq]
    omega
  · simp [movedUntil]

theorem movedRule_isDate (r : Rule) (D : Int) : UntilIsDate (movedRule r D) ↔ UntilIsDate r := by
  unfold UntilIsDate movedRule
  rcases r.untl with _ | (v | t) <;> simp [movedUntil]

theorem movedRule_exceptions (r : Rule) (D d : Int) :
    d + D ∈ (movedRule r D).exceptions ↔ d ∈ r.exceptions := by
  unfold movedRule
  simp only [List.mem_map]
  constructor
  · rintro ⟨x, hx, h⟩
    rwa [show d = x by omega]
  · intro h; exact ⟨d, h, rfl⟩

theorem dtDate_moved (dt D : Int) : dtDate (dt + D * DAY) = dtDate dt + D := by
  unfold dtDate DAY; omega

/-- From the sequence of dates to the generated dates. -/
theorem apply_moved {r : Rule} (hk : r.kind ≠ .no) (hi : 1 ≤ r.interval) {dt e D : Int}
    (hr : dtInRange dt = true) (hr' : dtInRange (dt + D * DAY) = true) {R : Nat → Prop}
    (h : MovedSeq (ruleSeq r (dtDate dt)) (ruleSeq r (dtDate dt + D)) D e R) :
    ((movedRule r D).apply (dt + D * DAY) (some (e + D))).1 = (r.apply dt (some e)).1.map (· + D) := by
  by_cases hu : UntilIsDate r
  · have g := apply_generates hk hi hu hr (some e)
    have g' := apply_generates (r := movedRule r D) hk hi ((movedRule_isDate r D).2 hu) hr' (some (e + D))
    rw [dtDate_moved] at g'
    exact h.generates (r := r) (r' := movedRule r D) rfl (movedRule_until r D) (movedRule_exceptions r D) g g'
  · rw [apply_datetime_nil hk hu, apply_datetime_nil (r := movedRule r D) hk
      (fun hh => hu ((movedRule_isDate r D).1 hh))]
    rfl

/-- C93: the calendar repeats after 400 years, which are 146097 days.  An event `c` times 400 years later,
whose rule names the days that much later, has exactly the dates that much later, for rules of every class,
with any interval, count, until and exceptions, up to every enddate of which the moved one lies more than
400 days before the end of Python's calendar. -/
theorem C93_centuries (r : Rule) (hi : 1 ≤ r.interval) (dt e : Int) (c : Nat) (hr : dtInRange dt = true)
    (hr' : dtInRange (dt + 146097 * c * DAY) = true) (he : e + 146097 * c + 400 ≤ MAXORD) :
    ((movedRule r (146097 * c)).apply (dt + 146097 * c * DAY) (some (e + 146097 * c))).1 =
      (r.apply dt (some e)).1.map (· + 146097 * (c : Int)) := by
  by_cases hk : r.kind = .no
  · have h1 : ∀ (q : Rule) (t x : Int), q.kind = .no → (q.apply t (some x)).1 = [dtDate t] := by
      intro q t x hq
      unfold Rule.apply Rule.applyRun
      rw [hq]
    rw [h1 r _ _ hk, h1 (movedRule r _) _ _ hk, dtDate_moved]
    rfl
  · obtain ⟨R, h⟩ := ruleSeq_400 (c := c) hi hk (dtDate_range hr)
      (by have := dtDate_range hr'; rwa [dtDate_moved] at this) (by omega) he
    exact apply_moved hk hi hr hr' h

/-- C93 for daily rules: they may be moved by any number of days. -/
theorem C93_daily (r : Rule) (hk : r.kind = .daily ∨ r.kind = .basic) (hi : 1 ≤ r.interval) (dt e : Int)
    (D : Nat) (hr : dtInRange dt = true) (hr' : dtInRange (dt + D * DAY) = true) (he : e + D ≤ MAXORD) :
    ((movedRule r D).apply (dt + D * DAY) (some (e + D))).1 =
      (r.apply dt (some e)).1.map (· + (D : Int)) := by
  have h := dailySeq_moved (s := dtDate dt) hi D (by omega) he
  have hs : ∀ s, ruleSeq r s = dailySeq s r.interval := by
    intro s; unfold ruleSeq; rcases hk with hk | hk <;> rw [hk]
  rw [← hs, ← hs] at h
  exact apply_moved (by rcases hk with hk | hk <;> rw [hk] <;> simp) hi hr hr' h

/-- C93 for weekly rules: they may be moved by any number of weeks. -/
theorem C93_weekly (r : Rule) {wds : List Int} (hk : r.kind = .weekly wds) (hi : 1 ≤ r.interval) (dt e : Int)
    (w : Nat) (hr : dtInRange dt = true) (hr' : dtInRange (dt + 7 * w * DAY) = true)
    (he : e + 7 * w ≤ MAXORD) :
    ((movedRule r (7 * w)).apply (dt + 7 * w * DAY) (some (e + 7 * w))).1 =
      (r.apply dt (some e)).1.map (· + 7 * (w : Int)) := by
  have h := weeklySeq_moved (s := dtDate dt) (iv := r.interval) (wds := wds) (7 * w) (by omega) (by omega) he
  have hs : ∀ s, ruleSeq r s = weeklySeq s r.interval wds := by
    intro s; unfold ruleSeq; rw [hk]
  rw [← hs, ← hs] at h
  exact apply_moved (by rw [hk]; simp) hi hr hr' h

/-- C93, a case: the fifth Saturday of January 2000, monthly, drifting, with an exception, and the same in
2400. -/
example :
    let r : Rule := ⟨.monthly .weekday, 1, some 4, none, [ymd2ord 2000 4 29]⟩
    (r.apply (dayAt 2000 1 29) (some (ymd2ord 2000 12 31))).1 =
      [ymd2ord 2000 1 29, ymd2ord 2000 3 4, ymd2ord 2000 4 1] ∧
    (movedRule r 146097).exceptions = [ymd2ord 2400 4 29] ∧
    ((movedRule r 146097).apply (dayAt 2400 1 29) (some (ymd2ord 2400 12 31))).1 =
      [ymd2ord 2400 1 29, ymd2ord 2400 3 4, ymd2ord 2400 4 1] ∧
    dayAt 2000 1 29 + 146097 * DAY = dayAt 2400 1 29 := by
  refine ⟨by decide +kernel, by decide +kernel, by decide +kernel, by decide +kernel⟩

/-- C93, a case: a yearly rule and its first two dates, moved by 800 years. -/
example :
    let r : Rule := ⟨.yearly, 2, none, some (.date (ymd2ord 2007 1 1)), []⟩
    (r.apply (dayAt 2004 10 13) (some (ymd2ord 2008 1 1))).1 =
      [ymd2ord 2004 10 13, ymd2ord 2006 10 13] ∧
    dtInRange (dayAt 2004 10 13 + 146097 * (2 : Nat) * DAY) = true ∧
    ymd2ord 2008 1 1 + 146097 * (2 : Nat) + 400 ≤ MAXORD ∧
    ((movedRule r (146097 * (2 : Nat))).apply (dayAt 2004 10 13 + 146097 * (2 : Nat) * DAY)
      (some (ymd2ord 2008 1 1 + 146097 * (2 : Nat)))).1 = [ymd2ord 2804 10 13, ymd2ord 2806 10 13] := by
  refine ⟨by decide +kernel, by decide +kernel, by decide +kernel, by decide +kernel⟩

end CalCore
