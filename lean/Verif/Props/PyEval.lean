import Verif.Lemmas.PyEval
/- Property C117: the `repr` of a rule is a Python expression for the rule. -/
namespace CalCore
open Spec

/-- What is written for the fifth argument. -/
def fifth : RuleKind → List (List Char × PyExpr)
  | .weekly w => [((pyTuple pyInt w).toList, .tuple (w.map .int))]
  | .monthly m => [((pyMonthly m).toList, .str (monthlyWord m).toList)]
  | _ => []

/-- The arguments after the first. -/
def argsOf (r : Rule) : List (List Char × PyExpr) :=
  [((pyOption pyInt r.count).toList, optExpr .int r.count), ((pyOption pyUntil r.untl).toList, optExpr untilExpr r.untl),
    ((pyTuple pyDate r.exceptions).toList, .tuple (r.exceptions.map fun d =>
      .call "datetime.date".toList [.int (dyear d), .int (dmonth d), .int (dday d)]))] ++ fifth r.kind

theorem argsOf_parses (r : Rule) : ∀ y ∈ argsOf r, Parses y.1 y.2 := by
  intro y hy
  unfold argsOf at hy
  simp only [List.mem_append, List.mem_cons, List.not_mem_nil, or_false] at hy
  rcases hy with (rfl | rfl | rfl) | hy
  · exact parses_option parses_int _
  · exact parses_option parses_until _
  · exact parses_tuple parses_date _
  · revert hy
    cases r.kind with
    | weekly w =>
      intro hy
      rw [List.mem_singleton.1 hy]
      exact parses_tuple parses_int _
    | monthly m =>
      intro hy
      rw [List.mem_singleton.1 hy]
      exact parses_monthly _
    | _ => intro hy; cases hy

theorem repr_text (r : Rule) :
    r.repr.toList = r.kind.className.toList ++ '(' :: ((pyInt r.interval).toList ++ moreArgs (argsOf r)) := by
  unfold Rule.repr argsOf
  cases r.kind <;> simp [moreArgs, fifth]

theorem className_chars (k : RuleKind) :
    (∀ c ∈ k.className.toList, c.isAlpha = true ∨ c = '.') ∧ ∃ c l, k.className.toList = c :: l ∧ c.isAlpha = true := by
  cases k <;> refine ⟨by simp [RuleKind.className], _, _, by simp [RuleKind.className]; exact ⟨rfl, rfl⟩, by decide⟩

/-- The `repr` of a rule is read as a call of its class. -/
theorem parse_repr (r : Rule) :
    parsePy r.repr = some (.call r.kind.className.toList (.int r.interval :: (argsOf r).map (·.2))) := by
  have h := parses_call_any (className_chars r.kind).1 (className_chars r.kind).2 ((pyInt r.interval).toList, .int r.interval)
    (argsOf r) (parses_int _) (argsOf_parses r) r.repr.length (by
      rw [← String.length_toList, repr_text]) []
  simp only [List.append_nil] at h
  unfold parsePy
  rw [repr_text, h]

/-- C117: the `repr` of a rule, evaluated as a Python expression, is the rule. -/
theorem C117_eval (r : Rule) (h : ProperRule r) : (parsePy r.repr).bind evalRule = some r := by
  rw [parse_repr, Option.bind_some]
  have hc : evalCount (optExpr .int r.count) = some r.count := by
    cases r.count <;> rfl
  have hu : evalUntil (optExpr untilExpr r.untl) = some r.untl := by
    have h1 := h.untl_date
    have h2 := h.untl_datetime
    revert h1 h2
    cases r.untl with
    | none => intros; rfl
    | some u =>
      intro h1 h2
      exact evalUntil_until (fun d hd => h1 d (by rw [hd])) (fun t ht => h2 t (by rw [ht]))
  have hx := evalDates_dates h.exceptions
  have hm := h.made
  unfold argsOf
  revert hm
  cases hk : r.kind with
  | weekly w =>
    intro hm
    simp only [fifth, List.cons_append, List.nil_append, List.map_cons, List.map_nil, evalRule, hc, hu, hx, evalInt, evalInts_ints,
      Option.bind_eq_bind, Option.bind_some, hm]
    simp [RuleKind.className, Except.toOption]
  | monthly m =>
    intro hm
    have hw : newMonthly r.interval r.count r.untl r.exceptions (monthlyWord m) = .ok r := by
      rw [← hm]
      cases m <;> rfl
    simp only [fifth, List.cons_append, List.nil_append, List.map_cons, List.map_nil, evalRule, hc, hu, hx, evalInt, evalStr,
      Option.bind_eq_bind, Option.bind_some, String.ofList_toList, hw]
    simp [RuleKind.className, Except.toOption]
  | _ =>
    intro hm
    simp only [fifth, List.cons_append, List.nil_append, List.map_cons, List.map_nil, evalRule, hc, hu, hx, evalInt,
      Option.bind_eq_bind, Option.bind_some, hm]
    simp [RuleKind.className, Except.toOption]

/-- C117: nothing but the rule itself can come out: for a rule that was not made by its class (invalid weekdays, a count together
with an end), the text either fails to evaluate or evaluates to the same rule. -/
theorem C117_only (r r' : Rule) (hx : ∀ d ∈ r.exceptions, 1 ≤ d ∧ d ≤ MAXORD)
    (hd : ∀ d, r.untl = some (.date d) → 1 ≤ d ∧ d ≤ MAXORD) (ht : ∀ t, r.untl = some (.datetime t) → dtInRange t = true) :
    (parsePy r.repr).bind evalRule = some r' ↔ r' = r ∧ Rule.new r.kind r.interval r.count r.untl r.exceptions = .ok r := by
  have hnew : ∀ x, Rule.new r.kind r.interval r.count r.untl r.exceptions = .ok x → x = r := by
    intro x hx
    unfold Rule.new at hx
    obtain ⟨_, _, h⟩ := bind_ok.1 hx
    injection h with h
    rw [← h]
  constructor
  · intro h
    rw [parse_repr, Option.bind_some] at h
    have hc : evalCount (optExpr .int r.count) = some r.count := by
      cases r.count <;> rfl
    have hu : evalUntil (optExpr untilExpr r.untl) = some r.untl := by
      revert hd ht
      cases r.untl with
      | none => intros; rfl
      | some u =>
        intro h1 h2
        exact evalUntil_until (fun d hd => h1 d (by rw [hd])) (fun t ht => h2 t (by rw [ht]))
    have hx := evalDates_dates hx
    unfold argsOf at h
    have key : (Rule.new r.kind r.interval r.count r.untl r.exceptions).toOption = some r' := by
      revert h
      cases hk : r.kind with
      | weekly w =>
        intro h
        simp only [fifth, List.cons_append, List.nil_append, List.map_cons, List.map_nil, evalRule, hc, hu, hx, evalInt, evalInts_ints,
          Option.bind_eq_bind, Option.bind_some] at h
        simpa [RuleKind.className] using h
      | monthly m =>
        intro h
        have hw : newMonthly r.interval r.count r.untl r.exceptions (monthlyWord m) =
            Rule.new (.monthly m) r.interval r.count r.untl r.exceptions := by
          cases m <;> rfl
        simp only [fifth, List.cons_append, List.nil_append, List.map_cons, List.map_nil, evalRule, hc, hu, hx, evalInt, evalStr,
          Option.bind_eq_bind, Option.bind_some, String.ofList_toList, hw] at h
        simpa [RuleKind.className] using h
      | _ =>
        intro h
        simp only [fifth, List.cons_append, List.nil_append, List.map_cons, List.map_nil, evalRule, hc, hu, hx, evalInt,
          Option.bind_eq_bind, Option.bind_some] at h
        simpa [RuleKind.className] using h
    revert key
    cases hn : Rule.new r.kind r.interval r.count r.untl r.exceptions with
    | error e => intro key; cases key
    | ok x =>
      intro key
      injection key with key
      have := hnew x hn
      subst this
      exact ⟨key.symm, rfl⟩
  · rintro ⟨rfl, h⟩
    exact C117_eval r' ⟨h, hx, hd, ht⟩

/-- C117, concrete: a weekly and a monthly rule with an end, exceptions, seconds and microseconds. -/
example :
    (⟨.weekly [0, 3], 2, some 5, none, [ymd2ord 2004 10 13, ymd2ord 2004 10 20]⟩ : Rule).repr =
      "WeeklyRecurrenceRule(2, 5, None, (datetime.date(2004, 10, 13), datetime.date(2004, 10, 20)), (0, 3))" ∧
    (parsePy "WeeklyRecurrenceRule(2, 5, None, (datetime.date(2004, 10, 13), datetime.date(2004, 10, 20)), (0, 3))").bind evalRule =
      some ⟨.weekly [0, 3], 2, some 5, none, [ymd2ord 2004 10 13, ymd2ord 2004 10 20]⟩ ∧
    (parsePy "MonthlyRecurrenceRule(1, None, datetime.datetime(2004, 12, 1, 12, 30, 0, 7), (), 'lastweekday')").bind evalRule =
      some ⟨.monthly .lastweekday, 1, none, some (.datetime (ymd2ord 2004 12 1 * DAY + 45000000007)), []⟩ := by decide +kernel

/-- C117, concrete: the hypothesis is met, for a date until which a daily rule recurs. -/
example : ProperRule ⟨.daily, 3, none, some (.date (ymd2ord 2004 12 1)), [ymd2ord 2004 10 13]⟩ := by
  refine ⟨by decide, by decide, ?_, ?_⟩
  · intro d h; injection h with h; injection h with h; rw [← h]; decide
  · intro t h; injection h with h; cases h

/-- C117, concrete: what is no rule is no rule when evaluated either. -/
example :
    (parsePy "DailyRecurrenceRule(0, None, None, ())").bind evalRule = none ∧
    (parsePy "DailyRecurrenceRule(1, 3, datetime.date(2004, 12, 1), ())").bind evalRule = none ∧
    (parsePy "YearlyRecurrenceRule(1, None, datetime.date(2003, 2, 29), ())").bind evalRule = none ∧
    (parsePy "MonthlyRecurrenceRule(1, None, None, (), 'weekend')").bind evalRule = none := by decide +kernel

end CalCore
