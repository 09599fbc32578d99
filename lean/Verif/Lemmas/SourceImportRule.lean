import Verif.Lemmas.SourceImport
/- Reading recurrence rules, categories and text, as written. -/
namespace CalCore.Lang
open CalCore.Spec
set_option linter.unusedSectionVars false

/-- The names of the weekdays are those of the text. -/
class Weekdays [G : Source.Globals] : Prop where
  glob : getGlobal "ical_weekdays" G.vars = .ok (.list (icalWeekdays.map .str))

instance : Weekdays := ⟨rfl⟩

variable [Source.Globals] [Weekdays]

/-! ### constructors with default values -/

omit [Source.Globals] [Weekdays] in
theorem ctx_new_eq (P : Prog) (W n : Nat) : (P.ctx W n).new = P.new W n := rfl

theorem new_daily_default (W n : Nat) :
    Source.prog.new W (n + 2) "DailyRecurrenceRule" [] [] = toM ofRule (Rule.new .daily) := by
  rw [← new_plain W n .daily ⟨by simp, by simp⟩ 1 none none [] (.tuple []) (.inl rfl)]
  rfl

theorem new_yearly_default (W n : Nat) :
    Source.prog.new W (n + 2) "YearlyRecurrenceRule" [] [] = toM ofRule (Rule.new .yearly) := by
  rw [← new_plain W n .yearly ⟨by simp, by simp⟩ 1 none none [] (.tuple []) (.inl rfl)]
  rfl

theorem new_weekly_days (W n : Nat) (l : List Int) :
    Source.prog.new W (n + 3) "WeeklyRecurrenceRule" [] [("weekdays", .list (l.map .int))] = toM ofRule (Rule.new (.weekly l)) := by
  rw [← new_weekly W n 1 none none [] l (.tuple []) _ (.inl rfl) (.inr rfl)]
  rfl

theorem new_monthly_name (W n : Nat) (k : MonthlyKind) :
    Source.prog.new W (n + 3) "MonthlyRecurrenceRule" [] [("monthly", .str (monthlyName k))] = toM ofRule (Rule.new (.monthly k)) := by
  rw [← newMonthly_name, ← new_monthly W n 1 none none [] (monthlyName k) (.tuple []) (.inl rfl)]
  rfl

/-! ### weekdays -/

theorem weekdays_glob (W n : Nat) :
    getGlobal "ical_weekdays" (Source.prog.ctx W n).globals = .ok (.list (icalWeekdays.map .str)) := Weekdays.glob

theorem indexOf_str (l : List String) (s : String) : ∀ k : Int,
    indexOf (.str s) (l.map .str) k = match l.findIdx? (· = s) with
      | some i => .ok (k + i)
      | none => .error (.py .ValueError) := by
  induction l with
  | nil => intro k; rfl
  | cons a l ih =>
    intro k
    by_cases h : a = s
    · subst h
      simp [List.map_cons, indexOf, List.findIdx?_cons, Val.eq]
    · have := ih (k + 1)
      rw [List.map_cons, indexOf, this]
      simp only [List.findIdx?_cons, Val.eq, h, decide_false]
      cases List.findIdx? (fun x => decide (x = s)) l with
      | none => rfl
      | some i =>
        simp only [M_bind_ok, Option.map_some, Bool.false_eq_true, if_false]
        congr 1
        omega

theorem meth_index (s : String) :
    callMeth .index (.list (icalWeekdays.map .str)) [.str s] [] = toM .int (weekdayIndex s) := by
  have h : callMeth .index (.list (icalWeekdays.map .str)) [.str s] [] = (do .ok (.int (← indexOf (.str s) (icalWeekdays.map .str) 0))) := rfl
  rw [h, indexOf_str]
  unfold weekdayIndex
  cases List.findIdx? (fun x => decide (x = s)) icalWeekdays with
  | none => rfl
  | some i => simp [toM_ok, M_bind_ok]

/-- The environment of `_getRecurrenceRule`. -/
def ruleEnv (S R f r b w y m i c u : Option Val) : Env :=
  [("self", S), ("rrule", R), ("freq", f), ("r", r), ("byday", b), ("weekdays", w), ("day", y), ("monthly", m),
    ("interval", i), ("count", c), ("until", u)]

theorem days_loop (W n : Nat) (S R f r b m i c u : Option Val) (l : List String) : ∀ (acc : List Int) (y : Option Val),
    ∃ w' y', forLoop (forBody (Source.prog.ctx W (n + 1)) W (.name "day") Source.CalendarBase_getRecurrenceRule_loop1) (l.map .str)
      ⟨ruleEnv S R f r b (some (.list (acc.map .int))) y m i c u, []⟩
    = match weekdayIndexes l with
      | .ok t => (⟨ruleEnv S R f r b (some (.list ((acc ++ t).map .int))) y' m i c u, []⟩, .next)
      | .error e => (⟨ruleEnv S R f r b w' y' m i c u, []⟩, .stop (ofFault e)) := by
  induction l with
  | nil => intro acc y; exact ⟨none, y, by simp [weekdayIndexes, forLoop]⟩
  | cons s l ih =>
    intro acc y
    have hx := meth_index s
    cases hs : weekdayIndex s with
    | error e =>
      rw [hs, toM_error] at hx
      refine ⟨some (.list (acc.map .int)), some (.str s), ?_⟩
      rw [weekdayIndexes, hs]
      simp only [List.map_cons, forLoop, forBody]
      lang [Source.CalendarBase_getRecurrenceRule_loop1, ruleEnv, weekdays_glob, hx]
      rfl
    | ok k =>
      rw [hs, toM_ok] at hx
      obtain ⟨w', y', h⟩ := ih (acc ++ [k]) (some (.str s))
      refine ⟨w', y', ?_⟩
      have hr : weekdayIndexes (s :: l) = (weekdayIndexes l >>= fun t => .ok (k :: t)) := by
        rw [weekdayIndexes, hs]; rfl
      rw [hr]
      have hstep : forBody (Source.prog.ctx W (n + 1)) W (.name "day") Source.CalendarBase_getRecurrenceRule_loop1 (.str s)
          ⟨ruleEnv S R f r b (some (.list (acc.map .int))) y m i c u, []⟩
          = (⟨ruleEnv S R f r b (some (.list ((acc ++ [k]).map .int))) (some (.str s)) m i c u, []⟩, .next) := by
        simp only [forBody]
        lang [Source.CalendarBase_getRecurrenceRule_loop1, ruleEnv, weekdays_glob, hx, List.map_append, List.map_cons, List.map_nil]
      rw [List.map_cons, forLoop, hstep]
      simp only []
      rw [h]
      cases weekdayIndexes l with
      | error e => rfl
      | ok t => simp only [ok_bind, List.append_assoc, List.singleton_append]

/-- `if byday is not None: ...` for weekly rules, and the rule. -/
def weeklyStmts : List Stmt := [
  .assign (.name "byday") (.meth (.var "rrule") .get [(.const (.str "BYDAY"))] []),
  .assign (.name "weekdays") (.list []),
  .ite (.cmp .isNot (.var "byday") (.const .none)) [
    .for (.name "day") (.var "byday") Source.CalendarBase_getRecurrenceRule_loop1 []] [],
  .assign (.name "r") (.new "WeeklyRecurrenceRule" [] [("weekdays", (.var "weekdays"))])]

/-- The same for monthly rules. -/
def monthlyStmts : List Stmt := [
  .assign (.name "byday") (.meth (.var "rrule") .get [(.const (.str "BYDAY"))] []),
  .ite (.cmp .isNot (.var "byday") (.const .none)) [
    .ite (.cmp .eq (.index (.index (.var "byday") (.const (.int 0))) (.const (.int 0))) (.const (.str "-"))) [
      .assign (.name "monthly") (.const (.str "lastweekday"))] [
      .assign (.name "monthly") (.const (.str "weekday"))]] [
    .assign (.name "monthly") (.const (.str "monthday"))],
  .assign (.name "r") (.new "MonthlyRecurrenceRule" [] [("monthly", (.var "monthly"))])]

/-- `if freq == 'DAILY': ...` -/
def pickStmt : Stmt :=
  .ite (.cmp .eq (.var "freq") (.const (.str "DAILY"))) [
    .assign (.name "r") (.new "DailyRecurrenceRule" [] [])] [
    .ite (.cmp .eq (.var "freq") (.const (.str "YEARLY"))) [
      .assign (.name "r") (.new "YearlyRecurrenceRule" [] [])] [
      .ite (.cmp .eq (.var "freq") (.const (.str "WEEKLY"))) weeklyStmts [
        .ite (.cmp .eq (.var "freq") (.const (.str "MONTHLY"))) monthlyStmts []]]]

/-- What a statement that sets `r` leaves. -/
def Sets (W n : Nat) (stmts : List Stmt) (S R f : Option Val) (x : Res Rule) : Prop :=
  ∃ b w y m, execs (Source.prog.ctx W (n + 3)) W stmts ⟨ruleEnv S R f none none none none none none none none, []⟩
    = match x with
      | .ok r => (⟨ruleEnv S R f (some (ofRule r)) b w y m none none none, []⟩, .next)
      | .error e => (⟨ruleEnv S R f none b w y m none none none, []⟩, .stop (ofFault e))

theorem weekly_stmts (W n : Nat) (rr : RRule) (d : Dict String Val) (hr : IsRule rr d) (S f : Option Val) :
    Sets W n weeklyStmts S (some (ofMap d)) f (do
      let wds ← weekdayIndexes (rr.byday.getD [])
      Rule.new (.weekly wds)) := by
  have hg := get_map d "BYDAY"
  rw [hr.byday] at hg
  cases hb : rr.byday with
  | none =>
    rw [hb] at hg
    simp only [Option.map_none, Option.getD_none] at hg
    have hn := new_weekly_days W n []
    simp only [Option.getD_none, weekdayIndexes, ok_bind]
    rw [List.map_nil] at hn
    generalize Rule.new (.weekly []) = x at hn ⊢
    cases x with
    | ok r =>
      rw [toM_ok] at hn
      refine ⟨some .none, some (.list []), none, none, ?_⟩
      lang [weeklyStmts, ruleEnv, hg, ctx_new_eq, hn]
    | error e =>
      rw [toM_error] at hn
      refine ⟨some .none, some (.list []), none, none, ?_⟩
      lang [weeklyStmts, ruleEnv, hg, ctx_new_eq, hn]
  | some l =>
    rw [hb] at hg
    simp only [Option.map_some, Option.getD_some] at hg
    obtain ⟨w', y', hl⟩ := days_loop W (n + 2) S (some (ofMap d)) f none (some (.list (l.map .str))) none none none none l [] none
    rw [Option.getD_some]
    generalize hd : weekdayIndexes l = t at hl ⊢
    unfold ruleEnv at hl
    cases t with
    | error e =>
      simp only [List.map_nil] at hl
      refine ⟨some (.list (l.map .str)), w', y', none, ?_⟩
      lang [weeklyStmts, ruleEnv, hg, ctx_new_eq, hl]
      rfl
    | ok t =>
      simp only [List.nil_append, List.map_nil] at hl
      have hn := new_weekly_days W n t
      simp only [ok_bind]
      generalize Rule.new (.weekly t) = x at hn ⊢
      cases x with
      | ok r =>
        rw [toM_ok] at hn
        refine ⟨some (.list (l.map .str)), some (.list (t.map .int)), y', none, ?_⟩
        lang [weeklyStmts, ruleEnv, hg, ctx_new_eq, hl, hn]
      | error e =>
        rw [toM_error] at hn
        refine ⟨some (.list (l.map .str)), some (.list (t.map .int)), y', none, ?_⟩
        lang [weeklyStmts, ruleEnv, hg, ctx_new_eq, hl, hn]

theorem first_nil : getIndex.pick [] 0 = .error (.py .IndexError) := rfl
theorem first_cons (a : Val) (l : List Val) : getIndex.pick (a :: l) 0 = .ok a := rfl
theorem index_str (s : String) (i : Int) :
    getIndex (.str s) (.int i) = getIndex.pick (s.toList.map (fun c => .str (String.singleton c))) i := rfl

theorem letter_nil (s : String) (h : s.toList = []) : getIndex (.str s) (.int 0) = .error (.py .IndexError) := by
  rw [index_str, h]
  rfl

theorem letter_cons (s : String) (ch : Char) (t : List Char) (h : s.toList = ch :: t) :
    getIndex (.str s) (.int 0) = .ok (.str (String.singleton ch)) := by
  rw [index_str, h]
  rfl

theorem letter_eq (ch : Char) : Val.eq (.str (String.singleton ch)) (.str "-") = .ok (decide (ch = '-')) := by
  have h : Val.eq (.str (String.singleton ch)) (.str "-") = .ok (decide (String.singleton ch = "-")) := rfl
  rw [h]
  congr 1
  apply decide_eq_decide.mpr
  constructor
  · intro h
    have := congrArg String.toList h
    rw [String.toList_singleton] at this
    have e : "-".toList = ['-'] := by decide +kernel
    rw [e] at this
    injection this
  · intro h; subst h; decide +kernel

theorem monthly_stmts (W n : Nat) (rr : RRule) (d : Dict String Val) (hr : IsRule rr d) (S f : Option Val) :
    Sets W n monthlyStmts S (some (ofMap d)) f (match rr.byday with
      | none => Rule.new (.monthly .monthday)
      | some l =>
        match l with
        | [] => raise .IndexError
        | s :: _ =>
          match s.toList with
          | [] => raise .IndexError
          | ch :: _ => Rule.new (.monthly (if ch = '-' then .lastweekday else .weekday))) := by
  have hg := get_map d "BYDAY"
  rw [hr.byday] at hg
  cases hb : rr.byday with
  | none =>
    rw [hb] at hg
    simp only [Option.map_none, Option.getD_none] at hg
    have hn := new_monthly_name W n .monthday
    unfold monthlyName at hn
    simp only [] at hn ⊢
    refine ⟨some .none, none, none, some (.str "monthday"), ?_⟩
    generalize Rule.new (.monthly .monthday) = x at hn ⊢
    cases x with
    | ok r =>
      rw [toM_ok] at hn
      lang [monthlyStmts, ruleEnv, hg, ctx_new_eq, hn]
    | error e =>
      rw [toM_error] at hn
      lang [monthlyStmts, ruleEnv, hg, ctx_new_eq, hn]
  | some l =>
    rw [hb] at hg
    simp only [Option.map_some, Option.getD_some] at hg
    cases l with
    | nil =>
      refine ⟨some (.list []), none, none, none, ?_⟩
      lang [monthlyStmts, ruleEnv, hg, first_nil, List.map_nil]
      rfl
    | cons s l =>
      rw [List.map_cons] at hg
      simp only []
      cases hs : s.toList with
      | nil =>
        refine ⟨some (.list (.str s :: l.map .str)), none, none, none, ?_⟩
        lang [monthlyStmts, ruleEnv, hg, first_cons, letter_nil s hs]
        rfl
      | cons ch t =>
        simp only []
        have hl := letter_cons s ch t hs
        have he := letter_eq ch
        by_cases hc : ch = '-'
        · rw [if_pos hc]
          rw [decide_eq_true hc] at he
          have hn := new_monthly_name W n .lastweekday
          unfold monthlyName at hn
          simp only [] at hn
          refine ⟨some (.list (.str s :: l.map .str)), none, none, some (.str "lastweekday"), ?_⟩
          generalize Rule.new (.monthly .lastweekday) = x at hn ⊢
          cases x with
          | ok r =>
            rw [toM_ok] at hn
            lang [monthlyStmts, ruleEnv, hg, first_cons, ↓hl, ↓he, ctx_new_eq, hn]
          | error e =>
            rw [toM_error] at hn
            lang [monthlyStmts, ruleEnv, hg, first_cons, ↓hl, ↓he, ctx_new_eq, hn]
        · rw [if_neg hc]
          rw [decide_eq_false hc] at he
          have hn := new_monthly_name W n .weekday
          unfold monthlyName at hn
          simp only [] at hn
          refine ⟨some (.list (.str s :: l.map .str)), none, none, some (.str "weekday"), ?_⟩
          generalize Rule.new (.monthly .weekday) = x at hn ⊢
          cases x with
          | ok r =>
            rw [toM_ok] at hn
            lang [monthlyStmts, ruleEnv, hg, first_cons, ↓hl, ↓he, ctx_new_eq, hn]
          | error e =>
            rw [toM_error] at hn
            lang [monthlyStmts, ruleEnv, hg, first_cons, ↓hl, ↓he, ctx_new_eq, hn]

theorem andThen_id (r : State × Ctl) : andThen r (fun s => (s, .next)) = r := by
  obtain ⟨s, c⟩ := r
  cases c <;> rfl

theorem pick_stmt (W n : Nat) (rr : RRule) (d : Dict String Val) (hr : IsRule rr d) (S : Option Val) (f : String)
    (hf : f = "DAILY" ∨ f = "YEARLY" ∨ f = "WEEKLY" ∨ f = "MONTHLY") :
    Sets W n [pickStmt] S (some (ofMap d)) (some (.str f)) (ruleOfFreq rr f) := by
  unfold Sets
  simp only [execs_single]
  rcases hf with rfl | rfl | rfl | rfl
  · have hn := new_daily_default W (n + 1)
    have h : ruleOfFreq rr "DAILY" = Rule.new .daily := rfl
    rw [h]
    refine ⟨none, none, none, none, ?_⟩
    generalize Rule.new .daily = x at hn ⊢
    cases x with
    | ok r =>
      rw [toM_ok] at hn
      lang [pickStmt, ruleEnv, ctx_new_eq, hn]
    | error e =>
      rw [toM_error] at hn
      lang [pickStmt, ruleEnv, ctx_new_eq, hn]
  · have hn := new_yearly_default W (n + 1)
    have h : ruleOfFreq rr "YEARLY" = Rule.new .yearly := rfl
    rw [h]
    refine ⟨none, none, none, none, ?_⟩
    generalize Rule.new .yearly = x at hn ⊢
    cases x with
    | ok r =>
      rw [toM_ok] at hn
      lang [pickStmt, ruleEnv, ctx_new_eq, hn]
    | error e =>
      rw [toM_error] at hn
      lang [pickStmt, ruleEnv, ctx_new_eq, hn]
  · obtain ⟨b, w, y, m, h⟩ := weekly_stmts W n rr d hr S (some (.str "WEEKLY"))
    refine ⟨b, w, y, m, ?_⟩
    refine Eq.trans ?_ h
    unfold pickStmt
    generalize weeklyStmts = l
    generalize monthlyStmts = l'
    lang [ruleEnv, andThen_id]
  · obtain ⟨b, w, y, m, h⟩ := monthly_stmts W n rr d hr S (some (.str "MONTHLY"))
    refine ⟨b, w, y, m, ?_⟩
    refine Eq.trans ?_ h
    unfold pickStmt
    generalize weeklyStmts = l
    generalize monthlyStmts = l'
    lang [ruleEnv, andThen_id]

theorem pick_unknown (W n : Nat) (S R : Option Val) (f : String)
    (hf : ¬ (f = "DAILY" ∨ f = "YEARLY" ∨ f = "WEEKLY" ∨ f = "MONTHLY")) :
    exec (Source.prog.ctx W (n + 3)) W pickStmt ⟨ruleEnv S R (some (.str f)) none none none none none none none none, []⟩
    = (⟨ruleEnv S R (some (.str f)) none none none none none none none none, []⟩, .next) := by
  simp only [not_or] at hf
  obtain ⟨h1, h2, h3, h4⟩ := hf
  unfold pickStmt
  generalize weeklyStmts = l
  generalize monthlyStmts = l'
  lang [ruleEnv, h1, h2, h3, h4]

/-- `interval = rrule.get('INTERVAL')` and what follows. -/
def intervalStmts : List Stmt := [
  .assign (.name "interval") (.meth (.var "rrule") .get [(.const (.str "INTERVAL"))] []),
  .ite (.cmp .isNot (.var "interval") (.const .none)) [
    .assign (.attr "r" "interval") (.index (.var "interval") (.const (.int 0)))] []]

@[inherit_doc intervalStmts] def countStmts : List Stmt := [
  .assign (.name "count") (.meth (.var "rrule") .get [(.const (.str "COUNT"))] []),
  .ite (.cmp .isNot (.var "count") (.const .none)) [
    .assign (.attr "r" "count") (.index (.var "count") (.const (.int 0)))] []]

@[inherit_doc intervalStmts] def untilStmts : List Stmt := [
  .assign (.name "until") (.meth (.var "rrule") .get [(.const (.str "UNTIL"))] []),
  .ite (.cmp .isNot (.var "until") (.const .none)) [
    .assign (.attr "r" "until") (.index (.var "until") (.const (.int 0)))] []]

theorem getRecurrenceRule_eq : Source.CalendarBase_getRecurrenceRule = {
    kind := .fn
    params := [("self", none), ("rrule", none)]
    locals := ["freq", "r", "byday", "weekdays", "day", "monthly", "interval", "count", "until"]
    body := [
      .assign (.name "freq") (.index (.index (.var "rrule") (.const (.str "FREQ"))) (.const (.int 0))),
      pickStmt] ++ (intervalStmts ++ (countStmts ++ (untilStmts ++ [.ret (.var "r")]))) } := rfl

theorem set_interval (r : Rule) (v : Int) : setAttrOf "interval" (.int v) (ofRule r) = .ok (ofRule { r with interval := v }) := rfl
theorem set_count (r : Rule) (v : Int) : setAttrOf "count" (.int v) (ofRule r) = .ok (ofRule { r with count := some v }) := rfl
theorem set_until (r : Rule) (v : Until) : setAttrOf "until" (ofUntil v) (ofRule r) = .ok (ofRule { r with untl := some v }) := rfl

theorem interval_stmts (G : Ctx) (W : Nat) (rr : RRule) (d : Dict String Val) (hr : IsRule rr d) (S f b w y m : Option Val) (r : Rule) :
    ∃ i, execs G W intervalStmts ⟨ruleEnv S (some (ofMap d)) f (some (ofRule r)) b w y m none none none, []⟩
    = match firstOf rr.interval with
      | .ok o => (⟨ruleEnv S (some (ofMap d)) f (some (ofRule { r with interval := o.getD r.interval })) b w y m i none none, []⟩, .next)
      | .error e => (⟨ruleEnv S (some (ofMap d)) f (some (ofRule r)) b w y m i none none, []⟩, .stop (ofFault e)) := by
  have hg := get_map d "INTERVAL"
  rw [hr.interval] at hg
  refine ⟨some ((rr.interval.map (fun l => Val.list (l.map .int))).getD .none), ?_⟩
  generalize rr.interval = v at hg ⊢
  cases v with
  | none =>
    simp only [Option.map_none, Option.getD_none] at hg ⊢
    lang [intervalStmts, ruleEnv, hg, firstOf, Option.getD_none]
  | some l =>
    simp only [Option.map_some, Option.getD_some] at hg ⊢
    cases l with
    | nil =>
      lang [intervalStmts, ruleEnv, hg, first_nil, List.map_nil, firstOf]
      rfl
    | cons x l =>
      rw [List.map_cons] at hg ⊢
      lang [intervalStmts, ruleEnv, hg, first_cons, ↓assign_attr, set_interval, firstOf, Option.getD_some]

theorem count_stmts (G : Ctx) (W : Nat) (rr : RRule) (d : Dict String Val) (hr : IsRule rr d) (S f b w y m i : Option Val) (r : Rule) :
    ∃ c, execs G W countStmts ⟨ruleEnv S (some (ofMap d)) f (some (ofRule r)) b w y m i none none, []⟩
    = match firstOf rr.count with
      | .ok o => (⟨ruleEnv S (some (ofMap d)) f (some (ofRule { r with count := o.or r.count })) b w y m i c none, []⟩, .next)
      | .error e => (⟨ruleEnv S (some (ofMap d)) f (some (ofRule r)) b w y m i c none, []⟩, .stop (ofFault e)) := by
  have hg := get_map d "COUNT"
  rw [hr.count] at hg
  refine ⟨some ((rr.count.map (fun l => Val.list (l.map .int))).getD .none), ?_⟩
  generalize rr.count = v at hg ⊢
  cases v with
  | none =>
    simp only [Option.map_none, Option.getD_none] at hg ⊢
    lang [countStmts, ruleEnv, hg, firstOf, Option.none_or]
  | some l =>
    simp only [Option.map_some, Option.getD_some] at hg ⊢
    cases l with
    | nil =>
      lang [countStmts, ruleEnv, hg, first_nil, List.map_nil, firstOf]
      rfl
    | cons x l =>
      rw [List.map_cons] at hg ⊢
      lang [countStmts, ruleEnv, hg, first_cons, ↓assign_attr, set_count, firstOf, Option.some_or]

theorem until_stmts (G : Ctx) (W : Nat) (rr : RRule) (d : Dict String Val) (hr : IsRule rr d) (S f b w y m i c : Option Val) (r : Rule) :
    ∃ u, execs G W untilStmts ⟨ruleEnv S (some (ofMap d)) f (some (ofRule r)) b w y m i c none, []⟩
    = match firstOf rr.untl with
      | .ok o => (⟨ruleEnv S (some (ofMap d)) f (some (ofRule { r with untl := o.or r.untl })) b w y m i c u, []⟩, .next)
      | .error e => (⟨ruleEnv S (some (ofMap d)) f (some (ofRule r)) b w y m i c u, []⟩, .stop (ofFault e)) := by
  have hg := get_map d "UNTIL"
  rw [hr.untl] at hg
  refine ⟨some ((rr.untl.map (fun l => Val.list (l.map ofUntil))).getD .none), ?_⟩
  generalize rr.untl = v at hg ⊢
  cases v with
  | none =>
    simp only [Option.map_none, Option.getD_none] at hg ⊢
    lang [untilStmts, ruleEnv, hg, firstOf, Option.none_or]
  | some l =>
    simp only [Option.map_some, Option.getD_some] at hg ⊢
    cases l with
    | nil =>
      lang [untilStmts, ruleEnv, hg, first_nil, List.map_nil, firstOf]
      rfl
    | cons x l =>
      rw [List.map_cons] at hg ⊢
      lang [untilStmts, ruleEnv, hg, first_cons, ↓assign_attr, set_until, firstOf, Option.some_or]

/-- Without a rule, something is not set. -/
theorem rest_unknown (G : Ctx) (W : Nat) (rr : RRule) (d : Dict String Val) (hr : IsRule rr d) (S f : Option Val) :
    ∃ s, execs G W (intervalStmts ++ (countStmts ++ (untilStmts ++ [.ret (.var "r")])))
      ⟨ruleEnv S (some (ofMap d)) f none none none none none none none none, []⟩ = (s, .stop (.py (unboundRule rr))) := by
  have h1 := get_map d "INTERVAL"
  have h2 := get_map d "COUNT"
  have h3 := get_map d "UNTIL"
  rw [hr.interval] at h1
  rw [hr.count] at h2
  rw [hr.untl] at h3
  unfold unboundRule
  refine ⟨⟨ruleEnv S (some (ofMap d)) f none none none none none
      (some ((rr.interval.map (fun l => Val.list (l.map .int))).getD .none))
      (if rr.interval = none then some ((rr.count.map (fun l => Val.list (l.map .int))).getD .none) else none)
      (if rr.interval = none ∧ rr.count = none then some ((rr.untl.map (fun l => Val.list (l.map ofUntil))).getD .none) else none), []⟩, ?_⟩
  cases hi : rr.interval with
  | some l =>
    cases l with
    | nil =>
      rw [hi] at h1
      simp only [Option.map_some, Option.getD_some, List.map_nil] at h1
      lang [intervalStmts, countStmts, untilStmts, ruleEnv, h1, first_nil, ↓assign_attr, List.cons_append, List.nil_append]
      rfl
    | cons x l =>
      rw [hi] at h1
      simp only [Option.map_some, Option.getD_some, List.map_cons] at h1
      lang [intervalStmts, countStmts, untilStmts, ruleEnv, h1, first_cons, ↓assign_attr, List.cons_append, List.nil_append]
      rfl
  | none =>
    rw [hi] at h1
    simp only [Option.map_none, Option.getD_none] at h1
    cases hc : rr.count with
    | some l =>
      cases l with
      | nil =>
        rw [hc] at h2
        simp only [Option.map_some, Option.getD_some, List.map_nil] at h2
        lang [intervalStmts, countStmts, untilStmts, ruleEnv, h1, h2, first_nil, ↓assign_attr, List.cons_append, List.nil_append]
        rfl
      | cons x l =>
        rw [hc] at h2
        simp only [Option.map_some, Option.getD_some, List.map_cons] at h2
        lang [intervalStmts, countStmts, untilStmts, ruleEnv, h1, h2, first_cons, ↓assign_attr, List.cons_append, List.nil_append]
        rfl
    | none =>
      rw [hc] at h2
      simp only [Option.map_none, Option.getD_none] at h2
      cases hu : rr.untl with
      | some l =>
        cases l with
        | nil =>
          rw [hu] at h3
          simp only [Option.map_some, Option.getD_some, List.map_nil] at h3
          lang [intervalStmts, countStmts, untilStmts, ruleEnv, h1, h2, h3, first_nil, ↓assign_attr, List.cons_append, List.nil_append]
          rfl
        | cons x l =>
          rw [hu] at h3
          simp only [Option.map_some, Option.getD_some, List.map_cons] at h3
          lang [intervalStmts, countStmts, untilStmts, ruleEnv, h1, h2, h3, first_cons, ↓assign_attr, List.cons_append, List.nil_append]
          rfl
      | none =>
        rw [hu] at h3
        simp only [Option.map_none, Option.getD_none] at h3
        lang [intervalStmts, countStmts, untilStmts, ruleEnv, h1, h2, h3, List.cons_append, List.nil_append]
        rfl

theorem getRecurrenceRule_prog (W n : Nat) (rr : RRule) (d : Dict String Val) (hr : IsRule rr d) (S : Val) :
    Source.prog.call W (n + 4) "CalendarBase._getRecurrenceRule" [S, ofMap d] [] = toM ofRule (getRecurrenceRule rr) := by
  rw [call_eq (d := Source.CalendarBase_getRecurrenceRule) rfl]
  have hb : Source.CalendarBase_getRecurrenceRule.call (Source.prog.ctx W (n + 3)) W [S, ofMap d] []
      = Source.CalendarBase_getRecurrenceRule.result (execs (Source.prog.ctx W (n + 3)) W Source.CalendarBase_getRecurrenceRule.body
        ⟨ruleEnv (some S) (some (ofMap d)) none none none none none none none none none, []⟩) := rfl
  rw [hb, getRecurrenceRule_eq]
  simp only [List.cons_append, List.nil_append]
  have hi := index_map d "FREQ"
  rw [hr.freq] at hi
  unfold getRecurrenceRule
  cases hf : rr.freq with
  | none =>
    rw [hf] at hi
    simp only [Option.map_none] at hi
    have h0 : ∀ l, execs (Source.prog.ctx W (n + 3)) W (.assign (.name "freq") (.index (.index (.var "rrule") (.const (.str "FREQ"))) (.const (.int 0))) :: l)
        ⟨ruleEnv (some S) (some (ofMap d)) none none none none none none none none none, []⟩
        = (⟨ruleEnv (some S) (some (ofMap d)) none none none none none none none none none, []⟩, .stop (.py .KeyError)) := by
      intro l
      lang [ruleEnv, hi]
    rw [h0]
    rfl
  | some f =>
    rw [hf] at hi
    simp only [Option.map_some] at hi
    have h0 : ∀ l, execs (Source.prog.ctx W (n + 3)) W (.assign (.name "freq") (.index (.index (.var "rrule") (.const (.str "FREQ"))) (.const (.int 0))) :: l)
        ⟨ruleEnv (some S) (some (ofMap d)) none none none none none none none none none, []⟩
        = execs (Source.prog.ctx W (n + 3)) W l
          ⟨ruleEnv (some S) (some (ofMap d)) (some (.str f)) none none none none none none none none, []⟩ := by
      intro l
      lang [ruleEnv, hi, first_cons]
    rw [h0, execs_cons]
    simp only []
    by_cases hk : f = "DAILY" ∨ f = "YEARLY" ∨ f = "WEEKLY" ∨ f = "MONTHLY"
    · obtain ⟨b, w, y, m, hp⟩ := pick_stmt W n rr d hr (some S) f hk
      rw [execs_single] at hp
      rw [hp]
      cases ruleOfFreq rr f with
      | error e => cases e <;> rfl
      | ok r =>
        simp only [ok_bind]
        obtain ⟨i, h1⟩ := interval_stmts (Source.prog.ctx W (n + 3)) W rr d hr (some S) (some (.str f)) b w y m r
        rw [andThen_next, execs_append, h1]
        cases firstOf rr.interval with
        | error e => cases e <;> rfl
        | ok o1 =>
          simp only [ok_bind]
          obtain ⟨c, h2⟩ := count_stmts (Source.prog.ctx W (n + 3)) W rr d hr (some S) (some (.str f)) b w y m i
            { r with interval := o1.getD r.interval }
          rw [andThen_next, execs_append, h2]
          cases firstOf rr.count with
          | error e => cases e <;> rfl
          | ok o2 =>
            simp only [ok_bind]
            obtain ⟨u, h3⟩ := until_stmts (Source.prog.ctx W (n + 3)) W rr d hr (some S) (some (.str f)) b w y m i c
              { r with interval := o1.getD r.interval, count := o2.or r.count }
            rw [andThen_next, execs_append, h3]
            cases firstOf rr.untl with
            | error e => cases e <;> rfl
            | ok o3 => rfl
    · rw [pick_unknown W n _ _ f hk, andThen_next]
      have hu : ruleOfFreq rr f = raise (unboundRule rr) := by
        simp only [not_or] at hk
        unfold ruleOfFreq
        rw [if_neg hk.1, if_neg hk.2.1, if_neg hk.2.2.1, if_neg hk.2.2.2]
      rw [hu]
      obtain ⟨s, hs⟩ := rest_unknown (Source.prog.ctx W (n + 3)) W rr d hr (some S) (some (.str f))
      rw [hs]
      rfl

end CalCore.Lang
