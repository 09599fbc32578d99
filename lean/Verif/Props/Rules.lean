import Verif.Model.Calendar
import Verif.Spec.Recurrence
import Verif.Lemmas.Res
/- Properties C18 and C19: equality, replacement and validity of rules. -/
namespace CalCore
open Spec

/-! ### C18 -/

/-- C18: two rules are equal (`==`) exactly when they are of the same class with the same attributes. -/
theorem C18_eq_iff (a b : Rule) : a.eq b = true ↔
    a.kind = b.kind ∧ a.interval = b.interval ∧ a.count = b.count ∧ a.untl = b.untl ∧
      a.exceptions = b.exceptions := by
  obtain ⟨k, i, c, u, x⟩ := a
  obtain ⟨k', i', c', u', x'⟩ := b
  unfold Rule.eq Rule.key
  simp only [decide_eq_true_eq, Prod.mk.injEq]
  constructor
  · rintro ⟨h1, rfl, rfl, rfl, rfl, h2⟩
    refine ⟨?_, rfl, rfl, rfl, rfl⟩
    cases k <;> cases k' <;> simp_all [RuleKind.className]
  · rintro ⟨rfl, rfl, rfl, rfl, rfl⟩
    exact ⟨rfl, rfl, rfl, rfl, rfl, rfl⟩

/-- C18: equality is an equivalence, `!=` is its negation, and equal rules have equal hash for any tuple
hash. -/
theorem C18_equivalence (h : String × Int × Option Int × Option Until × List Date × ExtraKey → Int) :
    (∀ a : Rule, a.eq a = true) ∧ (∀ a b : Rule, a.eq b = b.eq a) ∧
    (∀ a b c : Rule, a.eq b = true → b.eq c = true → a.eq c = true) ∧
    (∀ a b : Rule, a.ne b = true ↔ a.eq b = false) ∧
    (∀ a b : Rule, a.eq b = true → a.hash h = b.hash h) := by
  refine ⟨fun a => by simp [Rule.eq], fun a b => ?_, fun a b c h1 h2 => ?_, fun a b => by simp [Rule.ne],
    fun a b h1 => ?_⟩
  · unfold Rule.eq; exact decide_eq_decide.2 eq_comm
  · simp only [Rule.eq, decide_eq_true_eq] at *; rw [h1, h2]
  · simp only [Rule.eq, decide_eq_true_eq] at h1; simp [Rule.hash, h1]

theorem validate_iff (r : Rule) : (r.validate = .ok () ↔ ValidRule r) ∧
    (r.validate = .ok () ∨ r.validate = raise .ValueError) := by
  obtain ⟨k, i, c, u, x⟩ := r
  unfold Rule.validate ValidRule
  simp only
  constructor
  · by_cases h1 : c.isSome = true ∧ u.isSome = true
    · rw [if_pos h1]
      refine ⟨fun h => (by cases h), fun h => ?_⟩
      rcases h.2.1 with h | h <;> simp [h] at h1
    · rw [if_neg h1]
      have h1' : c = none ∨ u = none := by
        cases c <;> cases u <;> simp_all
      by_cases h2 : i ≥ 1
      · rw [if_neg (by simpa using h2)]
        cases k with
        | weekly l =>
          simp only
          split
          · rename_i h
            rw [List.all_eq_true] at h
            refine ⟨fun _ => ⟨h2, h1', fun l' hl w hw => ?_⟩, fun _ => rfl⟩
            injection hl with hl; subst hl
            simpa using h w hw
          · rename_i h
            refine ⟨fun h => (by cases h), fun h' => absurd ?_ h⟩
            rw [List.all_eq_true]
            intro w hw
            simpa using h'.2.2 l rfl w hw
        | _ => exact ⟨fun _ => ⟨h2, h1', fun l hl => (by cases hl)⟩, fun _ => rfl⟩
      · rw [if_pos h2]
        exact ⟨fun h => (by cases h), fun h => absurd h.1 h2⟩
  · split
    · exact Or.inr rfl
    · split
      · exact Or.inr rfl
      · split
        · split
          · exact Or.inl rfl
          · exact Or.inr rfl
        · exact Or.inl rfl

theorem new_eq (k : RuleKind) (i : Int) (c : Option Int) (u : Option Until) (x : List Date) :
    (ValidRule ⟨k, i, c, u, x⟩ ∧ Rule.new k i c u x = .ok ⟨k, i, c, u, x⟩) ∨
    (¬ ValidRule ⟨k, i, c, u, x⟩ ∧ Rule.new k i c u x = raise .ValueError) := by
  have hv := validate_iff ⟨k, i, c, u, x⟩
  unfold Rule.new
  simp only
  by_cases h : ValidRule ⟨k, i, c, u, x⟩
  · left; rw [hv.1.2 h]; exact ⟨h, rfl⟩
  · right
    rcases hv.2 with h' | h'
    · exact absurd (hv.1.1 h') h
    · rw [h']; exact ⟨h, rfl⟩

/-- The rule with the given attributes replaced; a `weekdays` or `monthly` value only applies to its
class. -/
def Spec.replaced (r : Rule) (interval : Option Int) (count : Option (Option Int))
    (untl : Option (Option Until)) (exceptions : Option (List Date)) (weekdays : Option (List Int))
    (monthly : Option MonthlyKind) (r' : Rule) : Prop :=
  (∀ i, interval = some i → r'.interval = i) ∧ (interval = none → r'.interval = r.interval) ∧
  (∀ c, count = some c → r'.count = c) ∧ (count = none → r'.count = r.count) ∧
  (∀ u, untl = some u → r'.untl = u) ∧ (untl = none → r'.untl = r.untl) ∧
  (∀ x, exceptions = some x → r'.exceptions = x) ∧ (exceptions = none → r'.exceptions = r.exceptions) ∧
  (∀ l, r.kind = .weekly l → r'.kind = .weekly (match weekdays with | some w => w | none => l)) ∧
  (∀ m, r.kind = .monthly m → r'.kind = .monthly (match monthly with | some v => v | none => m)) ∧
  ((∀ l, r.kind ≠ .weekly l) → (∀ m, r.kind ≠ .monthly m) → r'.kind = r.kind)

/-- C18: `replace` changes exactly the given attributes, or raises ValueError exactly when the result
would not be valid. -/
theorem C18_replace (r : Rule) (interval : Option Int) (count : Option (Option Int))
    (untl : Option (Option Until)) (exceptions : Option (List Date)) (weekdays : Option (List Int))
    (monthly : Option MonthlyKind) :
    ∃ r', replaced r interval count untl exceptions weekdays monthly r' ∧
      ((ValidRule r' ∧ r.replace interval count untl exceptions weekdays monthly = .ok r') ∨
       (¬ ValidRule r' ∧ r.replace interval count untl exceptions weekdays monthly = raise .ValueError)) := by
  refine ⟨⟨match r.kind with
    | .weekly w => .weekly (weekdays.getD w)
    | .monthly m => .monthly (monthly.getD m)
    | k => k, interval.getD r.interval, count.getD r.count, untl.getD r.untl,
    exceptions.getD r.exceptions⟩, ?_, ?_⟩
  · refine ⟨?_, ?_, ?_, ?_, ?_, ?_, ?_, ?_, ?_, ?_, ?_⟩
    iterate 4
      · intro _ h; subst h; rfl
      · intro h; subst h; rfl
    · intro l h; simp only [h]; cases weekdays <;> rfl
    · intro l h; simp only [h]; cases monthly <;> rfl
    · intro h1 h2
      simp only
  · exact new_eq _ _ _ _ _

/-- C18: without arguments, `replace` returns an equal rule when the rule is valid. -/
theorem C18_replace_nothing (r : Rule) (hv : ValidRule r) :
    ∃ r', r.replace = .ok r' ∧ r'.eq r = true := by
  obtain ⟨r', hr, h⟩ := C18_replace r none none none none none none
  have : r' = r := by
    obtain ⟨k, i, c, u, x⟩ := r
    obtain ⟨k', i', c', u', x'⟩ := r'
    obtain ⟨_, h2, _, h4, _, h6, _, h8, h9, h10, h11⟩ := hr
    replace h2 := h2 rfl; replace h4 := h4 rfl; replace h6 := h6 rfl; replace h8 := h8 rfl
    simp only at h2 h4 h6 h8 h9 h10 h11
    subst h2 h4 h6 h8
    congr 1
    cases k with
    | weekly l => exact h9 l rfl
    | monthly m => exact h10 m rfl
    | _ => exact h11 (by simp) (by simp)
  subst this
  rcases h with ⟨_, h⟩ | ⟨h, _⟩
  · exact ⟨r', h, by simp [Rule.eq]⟩
  · exact absurd hv h

/-- C18, cases: rules of different classes with the same attributes differ; changing the weekdays. -/
example : (⟨.daily, 1, none, none, []⟩ : Rule).eq ⟨.yearly, 1, none, none, []⟩ = false ∧
    ((⟨.weekly [1], 1, some 3, none, []⟩ : Rule).replace (weekdays := some [2, 3])) =
      .ok ⟨.weekly [2, 3], 1, some 3, none, []⟩ ∧
    ((⟨.weekly [1], 1, some 3, none, []⟩ : Rule).replace (untl := some (some (.date 5)))) = raise .ValueError := by
  decide

/-! ### C19 -/

/-- C19, first half: a constructor succeeds exactly on valid arguments, gives a rule with these
attributes, and raises ValueError otherwise. -/
theorem C19_new (k : RuleKind) (i : Int) (c : Option Int) (u : Option Until) (x : List Date) :
    (ValidRule ⟨k, i, c, u, x⟩ → Rule.new k i c u x = .ok ⟨k, i, c, u, x⟩) ∧
    (¬ ValidRule ⟨k, i, c, u, x⟩ → Rule.new k i c u x = raise .ValueError) := by
  rcases new_eq k i c u x with ⟨h, e⟩ | ⟨h, e⟩
  · exact ⟨fun _ => e, fun h' => absurd h h'⟩
  · exact ⟨fun h' => absurd h' h, fun _ => e⟩

/-- C19: the monthly constructor accepts exactly the three names (and then the conditions above). -/
theorem C19_newMonthly (i : Int) (c : Option Int) (u : Option Until) (x : List Date) (s : String) :
    ((s = "monthday" ∨ s = "weekday" ∨ s = "lastweekday") ∧ 1 ≤ i ∧ (c = none ∨ u = none) →
      ∃ m, newMonthly i c u x s = .ok ⟨.monthly m, i, c, u, x⟩ ∧
        (m = .monthday ↔ s = "monthday") ∧ (m = .weekday ↔ s = "weekday")) ∧
    (¬ ((s = "monthday" ∨ s = "weekday" ∨ s = "lastweekday") ∧ 1 ≤ i ∧ (c = none ∨ u = none)) →
      newMonthly i c u x s = raise .ValueError) := by
  have hv : ∀ m, ValidRule ⟨.monthly m, i, c, u, x⟩ ↔ 1 ≤ i ∧ (c = none ∨ u = none) := by
    intro m
    exact ⟨fun h => ⟨h.1, h.2.1⟩, fun h => ⟨h.1, h.2, fun l hl => (by cases hl)⟩⟩
  have hm : (s = "monthday" ∧ monthlyKindOf s = .ok .monthday) ∨ (s = "weekday" ∧ monthlyKindOf s = .ok .weekday) ∨
      (s = "lastweekday" ∧ monthlyKindOf s = .ok .lastweekday) ∨
      (¬ (s = "monthday" ∨ s = "weekday" ∨ s = "lastweekday") ∧ monthlyKindOf s = raise .ValueError) := by
    unfold monthlyKindOf
    by_cases h1 : s = "monthday"
    · simp [h1]
    · by_cases h2 : s = "weekday"
      · simp [h2]
      · by_cases h3 : s = "lastweekday"
        · simp [h3]
        · simp [h1, h2, h3]
  unfold newMonthly
  rcases hm with ⟨rfl, h⟩ | ⟨rfl, h⟩ | ⟨rfl, h⟩ | ⟨h1, h⟩ <;> rw [h]
  · rw [ok_bind]
    refine ⟨fun h => ⟨_, (C19_new _ _ _ _ _).1 ((hv _).2 h.2), by simp, by simp⟩,
      fun h => (C19_new _ _ _ _ _).2 fun hc => h ⟨by simp, (hv _).1 hc⟩⟩
  · rw [ok_bind]
    refine ⟨fun h => ⟨_, (C19_new _ _ _ _ _).1 ((hv _).2 h.2), by simp, by simp⟩,
      fun h => (C19_new _ _ _ _ _).2 fun hc => h ⟨by simp, (hv _).1 hc⟩⟩
  · rw [ok_bind]
    refine ⟨fun h => ⟨_, (C19_new _ _ _ _ _).1 ((hv _).2 h.2), by simp, by simp⟩,
      fun h => (C19_new _ _ _ _ _).2 fun hc => h ⟨by simp, (hv _).1 hc⟩⟩
  · exact ⟨fun h' => absurd h'.1 h1, fun _ => rfl⟩

theorem weekdayIndex_range {s : String} {i : Int} (h : weekdayIndex s = .ok i) : 0 ≤ i ∧ i ≤ 6 := by
  unfold weekdayIndex at h
  split at h
  · rename_i j hj
    injection h with h
    have := (List.findIdx?_eq_some_iff_findIdx_eq.1 hj).1
    have hl : icalWeekdays.length = 7 := rfl
    omega
  · cases h

theorem weekdayIndexes_range {l : List String} : ∀ {r : List Int}, weekdayIndexes l = .ok r →
    ∀ w ∈ r, 0 ≤ w ∧ w ≤ 6 := by
  induction l with
  | nil => intro r h w hw; injection h with h; subst h; cases hw
  | cons s l ih =>
    intro r h w hw
    unfold weekdayIndexes at h
    rw [bind_ok] at h
    obtain ⟨i, hi, h⟩ := h
    rw [bind_ok] at h
    obtain ⟨m, hm, h⟩ := h
    injection h with h; subst h
    rcases List.mem_cons.1 hw with rfl | hw
    · exact weekdayIndex_range hi
    · exact ih hm w hw

theorem ruleOfFreq_valid {rr : RRule} {f : String} {r : Rule} (h : ruleOfFreq rr f = .ok r) :
    ValidRule r ∧ r.interval = 1 ∧ r.count = none ∧ r.untl = none := by
  have hn : ∀ {k} {r : Rule}, Rule.new k = .ok r → ValidRule r ∧ r.interval = 1 ∧ r.count = none ∧ r.untl = none := by
    intro k r h
    rcases new_eq k 1 none none [] with ⟨hv, e⟩ | ⟨_, e⟩ <;> rw [e] at h
    · injection h with h; subst h; exact ⟨hv, rfl, rfl, rfl⟩
    · cases h
  unfold ruleOfFreq at h
  split at h
  · exact hn h
  · split at h
    · exact hn h
    · split at h
      · rw [bind_ok] at h
        obtain ⟨w, _, h⟩ := h
        exact hn h
      · split at h
        · split at h
          · exact hn h
          · split at h
            · cases h
            · split at h
              · cases h
              · exact hn h
        · cases h

/-- C19, second half, under conditions on the RRULE: an imported rule is valid when the RRULE's INTERVAL,
if any, is at least 1 and it does not have both COUNT and UNTIL.  Missing: other RRULEs, for which the
statement is false (`C19_import_counterexample`). -/
theorem C19_import_partial (rr : RRule) (r : Rule) (h : getRecurrenceRule rr = .ok r)
    (hi : ∀ i l, rr.interval = some (i :: l) → 1 ≤ i) (hc : rr.count = none ∨ rr.untl = none) :
    ValidRule r := by
  unfold getRecurrenceRule at h
  split at h
  · cases h
  · rw [bind_ok] at h
    obtain ⟨r0, h0, h⟩ := h
    have hv := ruleOfFreq_valid h0
    rw [bind_ok] at h
    obtain ⟨iv, h1, h⟩ := h
    rw [bind_ok] at h
    obtain ⟨c, h2, h⟩ := h
    rw [bind_ok] at h
    obtain ⟨u, h3, h⟩ := h
    injection h with h; subst h
    obtain ⟨hv, e1, e2, e3⟩ := hv
    refine ⟨?_, ?_, hv.2.2⟩
    · simp only [e1]
      cases hiv : rr.interval with
      | none => rw [hiv] at h1; injection h1 with h1; subst h1; simp
      | some l =>
        cases l with
        | nil => rw [hiv] at h1; cases h1
        | cons i l => rw [hiv] at h1; injection h1 with h1; subst h1; simpa using hi i l hiv
    · simp only [e2, e3]
      rcases hc with hc | hc
      · left; rw [hc] at h2; injection h2 with h2; subst h2; rfl
      · right; rw [hc] at h3; injection h3 with h3; subst h3; rfl

/-- C19 fails for imported rules: INTERVAL=0, and both COUNT and UNTIL. -/
theorem C19_import_counterexample :
    (∃ r, getRecurrenceRule { freq := some "DAILY", interval := some [0] } = .ok r ∧ ¬ ValidRule r) ∧
    (∃ r, getRecurrenceRule { freq := some "DAILY", count := some [3], untl := some [.date 732000] } = .ok r ∧
      ¬ ValidRule r) := by
  refine ⟨⟨⟨.daily, 0, none, none, []⟩, by decide, fun h => ?_⟩,
    ⟨⟨.daily, 1, some 3, some (.date 732000), []⟩, by decide, fun h => ?_⟩⟩
  · exact absurd h.1 (by decide)
  · exact absurd h.2.1 (by decide)

/-- C19, a case: a valid imported rule. -/
example : getRecurrenceRule { freq := some "WEEKLY", interval := some [2], byday := some ["MO", "FR"], count := some [4] }
    = .ok ⟨.weekly [0, 4], 2, some 4, none, []⟩ := by decide

end CalCore
