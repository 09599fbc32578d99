import Verif.Lemmas.SourceRecurrent
import Verif.Lemmas.Terminate
/- Running the rule classes of recurrent.py. -/
namespace CalCore.Lang
set_option linter.unusedSectionVars false
variable [Source.Globals]

/-- The test that ends the loops of `apply`. -/
def stopExpr : Expr :=
  .or (.and (.var "enddate") (.cmp .gt (.var "cur") (.var "enddate"))) (.or (.and (.cmp .isNot (.attr (.var "self") "count") (.const .none)) (.cmp .ge (.var "count") (.attr (.var "self") "count"))) (.and (.attr (.var "self") "until") (.cmp .gt (.var "cur") (.attr (.var "self") "until"))))

/-- The three parts of the test. -/
def pastEnd (e : Option Int) (cur : Int) : Bool := match e with | some e => decide (cur > e) | none => false
@[inherit_doc pastEnd] def pastCount (c : Option Int) (count : Nat) : Bool :=
  match c with | some c => decide ((count : Int) ≥ c) | none => false
@[inherit_doc pastEnd] def pastUntil (u : Option Until) (cur : Int) : Res Bool := match u with
  | none => .ok false
  | some (.date u) => .ok (decide (cur > u))
  | some (.datetime _) => raise .TypeError

theorem stops_parts (r : Rule) (e : Option Int) (cur : Int) (count : Nat) : r.stops e cur count
    = if pastEnd e cur = true then .ok true else if pastCount r.count count = true then .ok true else pastUntil r.untl cur := rfl

theorem stops_eval (G : Ctx) (env : Env) (r : Rule) (e : Option Int) (cur : Int) (count : Nat)
    (he : env.get "enddate" = .ok (ofOption .date e)) (hc : env.get "cur" = .ok (.date cur))
    (hn : env.get "count" = .ok (.int count)) (hs : env.get "self" = .ok (ofRule r)) :
    ∃ v : Val, eval G env stopExpr = toM (fun _ => v) (r.stops e cur count)
      ∧ ∀ b, r.stops e cur count = .ok b → v.truthy = b := by
  unfold ofRule at hs
  have h3 : ∃ v : Val, eval G env (.and (.attr (.var "self") "until") (.cmp .gt (.var "cur") (.attr (.var "self") "until")))
      = toM (fun _ => v) (pastUntil r.untl cur) ∧ ∀ b, pastUntil r.untl cur = .ok b → v.truthy = b := by
    rcases hu : r.untl with _ | u | u
    · refine ⟨.none, ?_, ?_⟩
      · lang [hs, hc, hu, ofOption, toM_ok, pastUntil]
      · intro b h; injection h
    · refine ⟨.bool (decide (cur > u)), ?_, ?_⟩
      · lang [hs, hc, hu, ofOption, ofUntil, toM_ok, pastUntil]
      · intro b h; injection h
    · refine ⟨.none, ?_, ?_⟩
      · lang [hs, hc, hu, ofOption, ofUntil, toM_ok, raise, toM_py, pastUntil]
      · intro b h; cases h
  have h2 : ∃ v : Val, eval G env (.and (.cmp .isNot (.attr (.var "self") "count") (.const .none)) (.cmp .ge (.var "count") (.attr (.var "self") "count")))
      = .ok v ∧ v.truthy = pastCount r.count count := by
    cases hk : r.count with
    | none => exact ⟨.bool false, by lang [hs, hn, hk, ofOption], rfl⟩
    | some c => exact ⟨.bool (decide ((count : Int) ≥ c)), by lang [hs, hn, hk, ofOption], rfl⟩
  have h1 : ∃ v : Val, eval G env (.and (.var "enddate") (.cmp .gt (.var "cur") (.var "enddate")))
      = .ok v ∧ v.truthy = pastEnd e cur := by
    cases e with
    | none => exact ⟨.none, by lang [he, hc, ofOption], rfl⟩
    | some e => exact ⟨.bool (decide (cur > e)), by lang [he, hc, ofOption], rfl⟩
  obtain ⟨v1, e1, t1⟩ := h1
  obtain ⟨v2, e2, t2⟩ := h2
  obtain ⟨v3, e3, t3⟩ := h3
  rw [stops_parts, ← t1, ← t2]
  unfold stopExpr
  by_cases c1 : v1.truthy = true
  · refine ⟨v1, ?_, ?_⟩
    · rw [eval, e1]; simp only [M_bind_ok, c1, ↓reduceIte]; rfl
    · intro b h; simp only [c1, ↓reduceIte] at h; injection h with h; rw [c1, h]
  · by_cases c2 : v2.truthy = true
    · refine ⟨v2, ?_, ?_⟩
      · rw [eval, e1]; simp only [M_bind_ok, c1]; rw [eval, e2]; simp only [M_bind_ok, c2, ↓reduceIte]; rfl
      · intro b h; simp only [c1, c2, ↓reduceIte] at h; injection h with h; rw [c2, h]
    · refine ⟨v3, ?_, ?_⟩
      · rw [eval, e1]; simp only [M_bind_ok, c1]; rw [eval, e2]; simp only [M_bind_ok, c2]; exact e3
      · intro b h; simp only [c1, c2] at h; exact t3 b h

theorem contains_dates (x : Int) (l : List Int) : contains (.date x) (l.map .date) = .ok (decide (x ∈ l)) := by
  induction l with
  | nil => rfl
  | cons a l ih =>
    simp only [List.map_cons, contains, eq_date, M_bind_ok, ih, decide_eq_true_eq]
    by_cases h : a = x
    · simp [h]
    · have : x ≠ a := fun h' => h h'.symm
      simp [h, this]

theorem contains_ints (x : Int) (l : List Int) : contains (.int x) (l.map .int) = .ok (decide (x ∈ l)) := by
  induction l with
  | nil => rfl
  | cons a l ih =>
    simp only [List.map_cons, contains, eq_int, M_bind_ok, ih, decide_eq_true_eq]
    by_cases h : a = x
    · simp [h]
    · have : x ≠ a := fun h' => h h'.symm
      simp [h, this]

/-! ### generators -/

/-- How a generator ends. -/
def ofStatus : Status → Option Stop
  | .finished => none
  | .raised e => some (ofFault e)
  | .running => some .timeout

/-- A generator of dates. -/
def ofRun (x : List Int × Status) : Val := .gen (x.1.map .date) (ofStatus x.2)

/-- What a loop body does in one step of a generator. -/
def StepOk {σ : Type} (inv : σ → Env → Prop) (out : List Val) (st : Step σ) (r : State × Ctl) : Prop :=
  match st with
  | .stop => r.1.out = out ∧ (r.2 = .brk ∨ ∃ v, r.2 = .ret v)
  | .fail e => r.1.out = out ∧ r.2 = .stop (ofFault e)
  | .yield o (.error e) => r.1.out = out ++ o.toList.map .date ∧ r.2 = .stop (ofFault e)
  | .yield o (.ok x) => r.1.out = out ++ o.toList.map .date ∧ r.2 = .next ∧ inv x r.1.env

/-- How the loop of a generator ends. -/
def EndOk : Status → Ctl → Prop
  | .finished, c => c = .next ∨ ∃ v, c = .ret v
  | .raised e, c => c = .stop (ofFault e)
  | .running, c => c = .stop .timeout

theorem whileLoop_gen {σ : Type} {step : σ → Step σ} {inv : σ → Env → Prop} {cond : State → M Val} {body : State → State × Ctl}
    (hc : ∀ s, cond s = .ok (.bool true))
    (hb : ∀ x env out, inv x env → StepOk inv out (step x) (body ⟨env, out⟩)) (n : Nat) :
    ∀ (x : σ) (env : Env) (out : List Val), inv x env →
      (whileLoop cond body n ⟨env, out⟩).1.out = out ++ (runGen step n x).1.map .date
      ∧ EndOk (runGen step n x).2 (whileLoop cond body n ⟨env, out⟩).2 := by
  induction n with
  | zero => intro x env out _; exact ⟨by simp [whileLoop, runGen], rfl⟩
  | succ n ih =>
    intro x env out hi
    have h := hb x env out hi
    simp only [whileLoop, runGen, hc, truthy_bool, if_true]
    generalize body ⟨env, out⟩ = r at h ⊢
    obtain ⟨s, c⟩ := r
    cases hst : step x with
    | stop =>
      rw [hst] at h
      obtain ⟨h1, rfl | ⟨v, rfl⟩⟩ := h
      · exact ⟨by simpa using h1, .inl rfl⟩
      · exact ⟨by simpa using h1, .inr ⟨v, rfl⟩⟩
    | fail e =>
      rw [hst] at h
      obtain ⟨h1, rfl⟩ := h
      exact ⟨by simpa using h1, rfl⟩
    | yield o nx =>
      rw [hst] at h
      cases nx with
      | error e =>
        obtain ⟨h1, rfl⟩ := h
        exact ⟨h1, rfl⟩
      | ok x' =>
        obtain ⟨h1, rfl, h3⟩ := h
        have := ih x' s.env s.out h3
        simp only [List.map_append, ← List.append_assoc]
        rw [← h1]
        exact this

theorem result_gen {f : FunDef} {r : State × Ctl} {x : List Int × Status} (hk : f.kind = .gen)
    (h1 : r.1.out = x.1.map .date) (h2 : EndOk x.2 r.2) : f.result r = .ok (ofRun x) := by
  obtain ⟨s, c⟩ := r
  obtain ⟨l, st⟩ := x
  simp only at h1 h2
  unfold FunDef.result ofRun
  rw [hk]
  cases st with
  | finished =>
    rcases h2 with rfl | ⟨v, rfl⟩ <;> simp [h1, ofStatus]
  | raised e => cases h2; simp [h1, ofStatus]
  | running => cases h2; simp [h1, ofStatus]

theorem execs_single (G : Ctx) (W : Nat) (a : Stmt) (s : State) : execs G W [a] s = exec G W a s := by
  rw [execs_cons]
  rcases exec G W a s with ⟨s', c⟩
  cases c <;> lang []

/-- A function whose last statement is of interest. -/
theorem call_split {f : FunDef} {G : Ctx} {W : Nat} {args : List Val} {kw : List (String × Val)} {s s' : State} {last : Stmt}
    (k : Nat) (hl : f.body.drop k = [last]) (hr : f.run G W args kw = .ok (execs G W f.body s))
    (h : execs G W (f.body.take k) s = (s', .next)) : f.call G W args kw = f.result (exec G W last s') := by
  unfold FunDef.call
  rw [hr, M_bind_ok, execs_split k h, hl, execs_single]

theorem dtDate_inRange {t : Int} (h : dtInRange t = true) : dateInRange (dtDate t) = true := by
  rw [dtInRange_iff] at h
  rw [dateInRange_iff]
  unfold dtDate DAY at *
  omega

/-! ### BasicRecurrenceRule.apply -/

/-- The variables of `BasicRecurrenceRule.apply`. -/
def basicEnv (r : Rule) (ev : Val) (e : Option Int) (cur count : Option Val) : Env :=
  [("self", some (ofRule r)), ("event", some ev), ("enddate", some (ofOption .date e)), ("cur", cur), ("count", count)]

theorem nextRecurrence_inRange {r : Rule} {d d' : Int} (h : r.nextRecurrence d = .ok d') : dateInRange d' = true := by
  unfold Rule.nextRecurrence at h
  split at h
  · exact ((mkDate_eq_ok _ _ _ _).mp h).1
  · rw [← (CalCore.monthNr_year d).1, ← (CalCore.monthNr_year d).2] at h
    exact (nextMonthlyLoop_ok _ _ _ h).1
  · obtain ⟨h1, rfl⟩ := dateAdd_ok.mp h; exact h1

theorem basic_step (G : Ctx) (W : Nat) (r : Rule) (ev : Val) (e : Option Int) (f : String)
    (hm : G.method r.kind.className "_nextRecurrence" = some f)
    (hf : ∀ d, dateInRange d = true → G.call f [ofRule r, .date d] [] = toM .date (r.nextRecurrence d))
    (x : Int × Nat) (env : Env) (out : List Val)
    (hi : dateInRange x.1 = true ∧ env = basicEnv r ev e (some (.date x.1)) (some (.int x.2))) :
    StepOk (fun (x : Int × Nat) env => dateInRange x.1 = true ∧ env = basicEnv r ev e (some (.date x.1)) (some (.int x.2))) out
      (r.basicStep e x) (execs G W Source.BasicRecurrenceRule_apply_loop1 ⟨env, out⟩) := by
  obtain ⟨cur, count⟩ := x
  obtain ⟨hd, rfl⟩ := hi
  simp only at hd
  have hcall := hf cur hd
  obtain ⟨v, hv, ht⟩ := stops_eval G (basicEnv r ev e (some (.date cur)) (some (.int count))) r e cur count
    rfl rfl rfl rfl
  have hex := contains_dates cur r.exceptions
  unfold stopExpr basicEnv ofRule at hv
  unfold ofRule at hcall
  unfold Rule.basicStep
  simp only []
  cases hs : r.stops e cur count with
  | error e =>
    rw [hs, toM_error] at hv
    unfold Source.BasicRecurrenceRule_apply_loop1 basicEnv ofRule
    rw [execs_cons, exec_ite]
    simp only [hv]
    exact ⟨rfl, rfl⟩
  | ok b =>
    rw [hs, toM_ok] at hv
    have hb := ht b hs
    unfold Source.BasicRecurrenceRule_apply_loop1 basicEnv ofRule
    rw [execs_cons, exec_ite]
    simp only [hv]
    cases b with
    | true => lang [hb]; exact ⟨rfl, .inl rfl⟩
    | false =>
      unfold Rule.emit
      by_cases hx : cur ∈ r.exceptions
      · simp only [hx, decide_true] at hex
        cases hn : r.nextRecurrence cur with
        | error e =>
          rw [hn, toM_error] at hcall
          lang [hb, hex, hm, hcall, hx]
          exact ⟨by simp, rfl⟩
        | ok d' =>
          rw [hn, toM_ok] at hcall
          lang [hb, hex, hm, hcall, hx]
          exact ⟨by simp, rfl, nextRecurrence_inRange hn, rfl⟩
      · simp only [hx, decide_false] at hex
        cases hn : r.nextRecurrence cur with
        | error e =>
          rw [hn, toM_error] at hcall
          lang [hb, hex, hm, hcall, hx]
          exact ⟨by simp, rfl⟩
        | ok d' =>
          rw [hn, toM_ok] at hcall
          lang [hb, hex, hm, hcall, hx]
          exact ⟨by simp, rfl, nextRecurrence_inRange hn, rfl⟩

/-- The assertions on `enddate` hold for dates. -/
theorem basic_apply (G : Ctx) (W : Nat) (r : Rule) (c : String) (attrs : List (String × Val)) (t : Int) (e : Option Int)
    (f : String) (ht : dtInRange t = true) (hev : getAttr "dtstart" attrs = .ok (.datetime t))
    (hm : G.method r.kind.className "_nextRecurrence" = some f)
    (hf : ∀ d, dateInRange d = true → G.call f [ofRule r, .date d] [] = toM .date (r.nextRecurrence d)) :
    Source.BasicRecurrenceRule_apply.call G W [ofRule r, .obj c attrs, ofOption .date e] []
    = .ok (ofRun (runGen (r.basicStep e) W (dtDate t, 0))) := by
  have hw := whileLoop_gen (cond := whileCond G (.const (.bool true))) (body := execs G W Source.BasicRecurrenceRule_apply_loop1)
    (fun s => by unfold whileCond; rw [eval]) (basic_step G W r (.obj c attrs) e f hm hf) W (dtDate t, 0)
    (basicEnv r (.obj c attrs) e (some (.date (dtDate t))) (some (.int 0))) []
    ⟨dtDate_inRange ht, rfl⟩
  refine Eq.trans ?_ (result_gen (f := Source.BasicRecurrenceRule_apply) rfl hw.1 hw.2)
  rw [← exec_while]
  refine call_split 3 (s := ⟨basicEnv r (.obj c attrs) e none none, []⟩) rfl rfl ?_
  cases e with
  | none => lang [Source.BasicRecurrenceRule_apply, List.take_succ_cons, List.take_zero, basicEnv, hev, ofOption]
  | some e =>
    lang [Source.BasicRecurrenceRule_apply, List.take_succ_cons, List.take_zero, basicEnv, hev, ofOption, List.any_cons,
      List.any_nil, isInstance, Bool.or_false, Bool.or_true]

/-! ### _nextRecurrence -/

theorem basic_next (G : Ctx) (W : Nat) (r : Rule) (d : Int) (hd : dateInRange d = true) :
    Source.BasicRecurrenceRule_nextRecurrence.call G W [ofRule r, .date d] [] = toM .date (dateAdd d r.interval) := by
  rw [← dateAdd_delta hd]
  cases h : mkDelta (r.interval * DAY) with
  | error e => lang [Source.BasicRecurrenceRule_nextRecurrence, ofRule, h]
  | ok v =>
    lang [Source.BasicRecurrenceRule_nextRecurrence, ofRule, h]
    cases binop .add (.date d) v <;> lang []

theorem weekly_next (G : Ctx) (W : Nat) (r : Rule) (d : Int) :
    Source.WeeklyRecurrenceRule_nextRecurrence.call G W [ofRule r, .date d] [] = toM .date (dateAdd d 1) := by
  have h : DAY / DAY = 1 := by simp only [DAY]; omega
  cases hd : dateAdd d 1 with
  | error e => lang [Source.WeeklyRecurrenceRule_nextRecurrence, ofRule, h, hd, lift_error, toM_error]
  | ok v => lang [Source.WeeklyRecurrenceRule_nextRecurrence, ofRule, h, hd, toM_ok]

theorem yearly_next (G : Ctx) (W : Nat) (r : Rule) (d : Int) :
    Source.YearlyRecurrenceRule_nextRecurrence.call G W [ofRule r, .date d] []
    = toM .date (mkDate (dyear d + r.interval) (dmonth d) (dday d)) := by
  have hm : ∀ y, callMeth .replace (.date d) [] [("year", .int y)] = toM .date (mkDate y (dmonth d) (dday d)) := fun y => rfl
  cases hd : mkDate (dyear d + r.interval) (dmonth d) (dday d) with
  | error e => lang [Source.YearlyRecurrenceRule_nextRecurrence, ofRule, hm, hd, lift_error, toM_error]
  | ok v => lang [Source.YearlyRecurrenceRule_nextRecurrence, ofRule, hm, hd, toM_ok]

/-- The variables of `MonthlyRecurrenceRule._nextRecurrence`. -/
def nextEnv (r : Rule) (d : Int) (year month : Option Val) : Env :=
  [("self", some (ofRule r)), ("date", some (.date d)), ("year", year), ("month", month)]

theorem monthly_next_loop (G : Ctx) (W : Nat) (r : Rule) (d : Int) (n : Nat) :
    ∀ year month : Int, Source.MonthlyRecurrenceRule_nextRecurrence.result
      (whileLoop (whileCond G (.const (.bool true))) (execs G W Source.MonthlyRecurrenceRule_nextRecurrence_loop1) n
        ⟨nextEnv r d (some (.int year)) (some (.int month)), []⟩)
    = toM .date (nextMonthlyLoop r.interval (dday d) n year month) := by
  have hm : ∀ y m, callMeth .replace (.date d) [] [("year", .int y), ("month", .int m)] = toM .date (mkDate y m (dday d)) :=
    fun y m => rfl
  induction n with
  | zero => intro year month; rfl
  | succ n ih =>
    intro year month
    have hc : ∀ s, whileCond G (.const (.bool true)) s = .ok (.bool true) := fun s => by unfold whileCond; rw [eval]
    unfold nextMonthlyLoop
    simp only [whileLoop, hc, truthy_bool, if_true]
    have h12 : ¬ (12 : Int) = 0 := by decide
    have e1 := fdiv_pos (year * 12 + month - 1 + r.interval) (show (0 : Int) < 12 by decide)
    have e2 := fmod_pos (year * 12 + month - 1 + r.interval) (show (0 : Int) < 12 by decide)
    cases h : mkDate ((year * 12 + month - 1 + r.interval) / 12) ((year * 12 + month - 1 + r.interval) % 12 + 1) (dday d) with
    | ok x =>
      lang [Source.MonthlyRecurrenceRule_nextRecurrence_loop1, nextEnv, ofRule, h12, e1, e2, hm, h, toM_ok]
      rfl
    | error e =>
      rcases mkDate_error h with rfl | rfl
      · have hi := ih ((year * 12 + month - 1 + r.interval) / 12) ((year * 12 + month - 1 + r.interval) % 12 + 1)
        simp only []
        rw [← hi]
        lang [Source.MonthlyRecurrenceRule_nextRecurrence_loop1, nextEnv, ofRule, h12, e1, e2, hm, h, toM_py, List.mem_singleton]
      · lang [Source.MonthlyRecurrenceRule_nextRecurrence_loop1, nextEnv, ofRule, h12, e1, e2, hm, h, toM_py, List.mem_singleton]
        rfl

theorem monthly_next_fuel (G : Ctx) (W : Nat) (r : Rule) (d : Int) :
    Source.MonthlyRecurrenceRule_nextRecurrence.call G W [ofRule r, .date d] []
    = toM .date (nextMonthlyLoop r.interval (dday d) W (dyear d) (dmonth d)) := by
  rw [← monthly_next_loop G W r d W, ← exec_while]
  refine call_split 2 (s := ⟨nextEnv r d none none, []⟩) rfl rfl ?_
  lang [Source.MonthlyRecurrenceRule_nextRecurrence, List.take_succ_cons, List.take_zero, nextEnv]

theorem nextMonthlyLoop_more {iv day : Int} (n k : Nat) : ∀ (year month : Int),
    nextMonthlyLoop iv day n year month ≠ .error .diverge →
    nextMonthlyLoop iv day (n + k) year month = nextMonthlyLoop iv day n year month := by
  induction n with
  | zero => intro _ _ h; exact absurd rfl h
  | succ n ih =>
    intro year month h
    rw [show n + 1 + k = (n + k) + 1 by omega]
    unfold nextMonthlyLoop at h ⊢
    simp only [] at h ⊢
    split
    · rename_i h1
      rw [h1] at h
      exact ih _ _ h
    · rfl

theorem monthly_next (G : Ctx) (W : Nat) (hW : nextMonthFuel ≤ W) (r : Rule) (d : Int) (hd : dateInRange d = true) :
    Source.MonthlyRecurrenceRule_nextRecurrence.call G W [ofRule r, .date d] []
    = toM .date (nextMonthlyLoop r.interval (dday d) nextMonthFuel (dyear d) (dmonth d)) := by
  rw [monthly_next_fuel]
  obtain ⟨k, rfl⟩ := Nat.exists_eq_add_of_le hW
  rw [nextMonthlyLoop_more _ _ _ _ (nextMonthly_ne_diverge hd)]

/-! ### NoRecurrenceRule.apply and WeeklyRecurrenceRule.apply -/

theorem no_apply (G : Ctx) (W : Nat) (self e : Val) (c : String) (attrs : List (String × Val)) (t : Int)
    (hev : getAttr "dtstart" attrs = .ok (.datetime t)) :
    Source.NoRecurrenceRule_apply.call G W [self, .obj c attrs, e] [] = .ok (ofRun ([dtDate t], .finished)) := by
  lang [Source.NoRecurrenceRule_apply, hev, ofRun, ofStatus]

/-- The variables of `WeeklyRecurrenceRule.apply`. -/
def weeklyEnv (r : Rule) (ev : Val) (e : Option Int) (cur start count weekdays : Option Val) : Env :=
  [("self", some (ofRule r)), ("event", some ev), ("enddate", some (ofOption .date e)), ("cur", cur), ("start", start),
   ("count", count), ("weekdays", weekdays)]

/-- The test whether a day is one of the weekly rule. -/
def hitExpr : Expr :=
  .and (.cmp .eq (.bin .mod (.call "weekspan" [(.var "start"), (.var "cur")] []) (.attr (.var "self") "interval")) (.const (.int 0))) (.cmp .isIn (.meth (.var "cur") .weekday [] []) (.var "weekdays"))

theorem hit_eval (G : Ctx) (env : Env) (r : Rule) (wds l : List Int) (start cur : Int)
    (hg : G.call "weekspan" [.date start, .date cur] [] = toM .int (weekspan start cur))
    (hl : ∀ x, x ∈ l ↔ x ∈ wds)
    (h1 : env.get "start" = .ok (.date start)) (hc : env.get "cur" = .ok (.date cur))
    (hw : env.get "weekdays" = .ok (.set (l.map .int))) (hs : env.get "self" = .ok (ofRule r)) :
    ∃ v : Val, eval G env hitExpr = toM (fun _ => v) (r.weeklyHit wds start cur)
      ∧ ∀ b, r.weeklyHit wds start cur = .ok b → v.truthy = b := by
  unfold ofRule at hs
  unfold hitExpr Rule.weeklyHit
  have hin := contains_ints (weekday cur) l
  cases hsp : weekspan start cur with
  | error e =>
    rw [hsp, toM_error] at hg
    refine ⟨.none, ?_, ?_⟩
    · rw [error_bind, toM_error]; lang [h1, hc, hs, hg]
    · intro b h; rw [error_bind] at h; cases h
  | ok w =>
    rw [hsp, toM_ok] at hg
    rw [ok_bind]
    by_cases h0 : r.interval = 0
    · refine ⟨.none, ?_, ?_⟩
      · rw [if_pos h0, raise, toM_py]; lang [h1, hc, hs, hg, h0]
      · intro b h; rw [if_pos h0] at h; cases h
    · rw [if_neg h0]
      have hz : (w.fmod r.interval = 0) = (w % r.interval = 0) := by
        rw [← Int.dvd_iff_fmod_eq_zero, ← Int.dvd_iff_emod_eq_zero]
      by_cases hm : w % r.interval = 0
      · refine ⟨.bool (decide (weekday cur ∈ l)), ?_, ?_⟩
        · lang [h1, hc, hs, hg, h0, hz, hm, hw, hin, toM_ok]
        · intro b h
          simp only [hm, decide_true, Bool.true_and] at h
          injection h with h
          rw [← h, truthy_bool]
          exact decide_eq_decide.mpr (hl _)
      · refine ⟨.bool false, ?_, ?_⟩
        · lang [h1, hc, hs, hg, h0, hz, hm, hw, hin, toM_ok]
        · intro b h
          simp only [hm, decide_false, Bool.false_and] at h
          injection h with h

theorem weekly_step (G : Ctx) (W : Nat) (r : Rule) (ev : Val) (e : Option Int) (f : String) (wds l : List Int) (start : Int)
    (hm : G.method r.kind.className "_nextRecurrence" = some f)
    (hf : ∀ d, G.call f [ofRule r, .date d] [] = toM .date (dateAdd d 1))
    (hg : ∀ d, G.call "weekspan" [.date start, .date d] [] = toM .int (weekspan start d))
    (hl : ∀ x, x ∈ l ↔ x ∈ wds)
    (x : Int × Nat) (env : Env) (out : List Val)
    (hi : env = weeklyEnv r ev e (some (.date x.1)) (some (.date start)) (some (.int x.2)) (some (.set (l.map .int)))) :
    StepOk (fun (x : Int × Nat) env =>
        env = weeklyEnv r ev e (some (.date x.1)) (some (.date start)) (some (.int x.2)) (some (.set (l.map .int)))) out
      (r.weeklyStep wds start e x) (execs G W Source.WeeklyRecurrenceRule_apply_loop1 ⟨env, out⟩) := by
  obtain ⟨cur, count⟩ := x
  subst hi
  have hcall := hf cur
  obtain ⟨v, hv, ht⟩ := stops_eval G (weeklyEnv r ev e (some (.date cur)) (some (.date start)) (some (.int count))
    (some (.set (l.map .int)))) r e cur count rfl rfl rfl rfl
  obtain ⟨v', hv', ht'⟩ := hit_eval G (weeklyEnv r ev e (some (.date cur)) (some (.date start)) (some (.int count))
    (some (.set (l.map .int)))) r wds l start cur (hg cur) hl rfl rfl rfl rfl
  have hex := contains_dates cur r.exceptions
  unfold stopExpr weeklyEnv ofRule at hv
  unfold hitExpr weeklyEnv ofRule at hv'
  unfold ofRule at hcall
  unfold Rule.weeklyStep
  simp only []
  cases hs : r.stops e cur count with
  | error e =>
    rw [hs, toM_error] at hv
    unfold Source.WeeklyRecurrenceRule_apply_loop1 weeklyEnv ofRule
    rw [execs_cons, exec_ite]
    simp only [hv]
    exact ⟨rfl, rfl⟩
  | ok b =>
    rw [hs, toM_ok] at hv
    have hb := ht b hs
    unfold Source.WeeklyRecurrenceRule_apply_loop1 weeklyEnv ofRule
    rw [execs_cons, exec_ite]
    simp only [hv]
    cases b with
    | true => lang [hb]; exact ⟨rfl, .inr ⟨_, rfl⟩⟩
    | false =>
      simp only [withVal_ok, hb, Bool.false_eq_true, if_false, execs_nil, andThen_next]
      rw [execs_cons, exec_ite]
      simp only []
      cases hh : r.weeklyHit wds start cur with
      | error e =>
        rw [hh, toM_error] at hv'
        simp only [hv']
        exact ⟨rfl, rfl⟩
      | ok b' =>
        rw [hh, toM_ok] at hv'
        have hb' := ht' b' hh
        simp only [hv']
        unfold Rule.emit
        cases b' with
        | false =>
          cases hn : dateAdd cur 1 with
          | error e =>
            rw [hn, toM_error] at hcall
            lang [hb', hm, hcall]
            exact ⟨by simp, rfl⟩
          | ok d' =>
            rw [hn, toM_ok] at hcall
            lang [hb', hm, hcall]
            exact ⟨by simp, rfl, rfl⟩
        | true =>
          by_cases hx : cur ∈ r.exceptions
          · simp only [hx, decide_true] at hex
            cases hn : dateAdd cur 1 with
            | error e =>
              rw [hn, toM_error] at hcall
              lang [hb', hex, hm, hcall, hx]
              exact ⟨by simp, rfl⟩
            | ok d' =>
              rw [hn, toM_ok] at hcall
              lang [hb', hex, hm, hcall, hx]
              exact ⟨by simp, rfl, rfl⟩
          · simp only [hx, decide_false] at hex
            cases hn : dateAdd cur 1 with
            | error e =>
              rw [hn, toM_error] at hcall
              lang [hb', hex, hm, hcall, hx]
              exact ⟨by simp, rfl⟩
            | ok d' =>
              rw [hn, toM_ok] at hcall
              lang [hb', hex, hm, hcall, hx]
              exact ⟨by simp, rfl, rfl⟩

theorem weekly_apply (G : Ctx) (W : Nat) (r : Rule) (wds : List Int) (hk : r.kind = .weekly wds) (c : String)
    (attrs : List (String × Val)) (t : Int) (e : Option Int) (f : String)
    (hev : getAttr "dtstart" attrs = .ok (.datetime t))
    (hm : G.method "WeeklyRecurrenceRule" "_nextRecurrence" = some f)
    (hf : ∀ d, G.call f [ofRule r, .date d] [] = toM .date (dateAdd d 1))
    (hg : ∀ d d', G.call "weekspan" [.date d, .date d'] [] = toM .int (weekspan d d')) :
    Source.WeeklyRecurrenceRule_apply.call G W [ofRule r, .obj c attrs, ofOption .date e] []
    = .ok (ofRun (runGen (r.weeklyStep (wds ++ [weekday (dtDate t)]) (dtDate t) e) W (dtDate t, 0))) := by
  have hex := contains_ints (weekday (dtDate t)) wds
  have hm' : G.method r.kind.className "_nextRecurrence" = some f := by rw [hk]; exact hm
  have main : ∀ l : List Int, (∀ x, x ∈ l ↔ x ∈ wds ++ [weekday (dtDate t)]) →
      (execs G W (Source.WeeklyRecurrenceRule_apply.body.take 6) ⟨weeklyEnv r (.obj c attrs) e none none none none, []⟩
        = (⟨weeklyEnv r (.obj c attrs) e (some (.date (dtDate t))) (some (.date (dtDate t))) (some (.int 0))
            (some (.set (l.map .int))), []⟩, .next)) →
      Source.WeeklyRecurrenceRule_apply.call G W [ofRule r, .obj c attrs, ofOption .date e] []
      = .ok (ofRun (runGen (r.weeklyStep (wds ++ [weekday (dtDate t)]) (dtDate t) e) W (dtDate t, 0))) := by
    intro l hl hstart
    have hw := whileLoop_gen (cond := whileCond G (.const (.bool true)))
      (body := execs G W Source.WeeklyRecurrenceRule_apply_loop1)
      (fun s => by unfold whileCond; rw [eval])
      (weekly_step G W r (.obj c attrs) e f (wds ++ [weekday (dtDate t)]) l (dtDate t) hm' hf (hg _) hl) W (dtDate t, 0)
      _ [] rfl
    refine Eq.trans ?_ (result_gen (f := Source.WeeklyRecurrenceRule_apply) rfl hw.1 hw.2)
    rw [← exec_while]
    exact call_split 6 rfl rfl hstart
  by_cases hin : weekday (dtDate t) ∈ wds
  · refine main wds (fun x => ?_) ?_
    · simp only [List.mem_append, List.mem_singleton]
      constructor
      · exact .inl
      · rintro (h | rfl)
        · exact h
        · exact hin
    · simp only [hin, decide_true] at hex
      cases e with
      | none =>
        lang [Source.WeeklyRecurrenceRule_apply, List.take_succ_cons, List.take_zero, weeklyEnv, ofRule, hev, hk, kindAttrs,
          ofOption, hex]
      | some e =>
        lang [Source.WeeklyRecurrenceRule_apply, List.take_succ_cons, List.take_zero, weeklyEnv, ofRule, hev, hk, kindAttrs,
          ofOption, hex, List.any_cons, List.any_nil, isInstance, Bool.or_false, Bool.or_true]
  · refine main (wds ++ [weekday (dtDate t)]) (fun x => Iff.rfl) ?_
    simp only [hin, decide_false] at hex
    cases e with
    | none =>
      lang [Source.WeeklyRecurrenceRule_apply, List.take_succ_cons, List.take_zero, weeklyEnv, ofRule, hev, hk, kindAttrs,
        ofOption, hex, List.map_append]
    | some e =>
      lang [Source.WeeklyRecurrenceRule_apply, List.take_succ_cons, List.take_zero, weeklyEnv, ofRule, hev, hk, kindAttrs,
        ofOption, hex, List.any_cons, List.any_nil, isInstance, Bool.or_false, Bool.or_true, List.map_append]

/-! ### MonthlyRecurrenceRule -/

/-- The variables of `MonthlyRecurrenceRule._applyWeekday`. -/
def wdEnv (r : Rule) (ev : Val) (e : Option Int) (cur start count year month wd index : Option Val) : Env :=
  [("self", some (ofRule r)), ("event", some ev), ("enddate", some (ofOption .date e)), ("cur", cur), ("start", start),
   ("count", count), ("year", year), ("month", month), ("weekday", wd), ("index", index)]

theorem wdmonth_step (G : Ctx) (W : Nat) (r : Rule) (ev : Val) (e : Option Int) (start : Option Val) (wd index : Int)
    (hg : ∀ y m, G.call "monthindex" [.int y, .int m, .int index, .int wd] [] = toM .date (monthindex y m index wd))
    (x : Int × Int × Nat) (env : Env) (out : List Val)
    (hi : ∃ cur, env = wdEnv r ev e cur start (some (.int x.2.2)) (some (.int x.1)) (some (.int x.2.1)) (some (.int wd))
      (some (.int index))) :
    StepOk (fun (x : Int × Int × Nat) env => ∃ cur, env = wdEnv r ev e cur start (some (.int x.2.2)) (some (.int x.1))
        (some (.int x.2.1)) (some (.int wd)) (some (.int index))) out
      (r.monthStep index wd e x) (execs G W Source.MonthlyRecurrenceRule_applyWeekday_loop1 ⟨env, out⟩) := by
  obtain ⟨year, month, count⟩ := x
  obtain ⟨cur0, rfl⟩ := hi
  have hcall := hg year month
  unfold Rule.monthStep
  simp only []
  cases hmi : monthindex year month index wd with
  | error e =>
    rw [hmi, toM_error] at hcall
    lang [Source.MonthlyRecurrenceRule_applyWeekday_loop1, wdEnv, hcall]
    exact ⟨rfl, rfl⟩
  | ok cur =>
    rw [hmi, toM_ok] at hcall
    obtain ⟨v, hv, ht⟩ := stops_eval G (wdEnv r ev e (some (.date cur)) start (some (.int count)) (some (.int year))
      (some (.int month)) (some (.int wd)) (some (.int index))) r e cur count rfl rfl rfl rfl
    have hex := contains_dates cur r.exceptions
    have h12 : ¬ (12 : Int) = 0 := by decide
    have e1 := fdiv_pos (year * 12 + month + r.interval - 1) (show (0 : Int) < 12 by decide)
    have e2 := fmod_pos (year * 12 + month + r.interval - 1) (show (0 : Int) < 12 by decide)
    unfold stopExpr wdEnv ofRule at hv
    rw [execs_split (l := Source.MonthlyRecurrenceRule_applyWeekday_loop1) (k := 1) (s' := ⟨wdEnv r ev e (some (.date cur)) start
      (some (.int count)) (some (.int year)) (some (.int month)) (some (.int wd)) (some (.int index)), out⟩) (by
        lang [Source.MonthlyRecurrenceRule_applyWeekday_loop1, List.take_succ_cons, List.take_zero, wdEnv, hcall])]
    simp only [Source.MonthlyRecurrenceRule_applyWeekday_loop1, List.drop_succ_cons, List.drop_zero]
    rw [execs_cons, exec_ite]
    unfold wdEnv ofRule
    simp only [hv]
    cases hs : r.stops e cur count with
    | error e => rw [toM_error, withVal_error, andThen_stop]; exact ⟨rfl, rfl⟩
    | ok b =>
      have hb := ht b hs
      rw [toM_ok]
      cases b with
      | true => lang [hb]; exact ⟨rfl, .inl rfl⟩
      | false =>
        unfold Rule.emit
        by_cases hx : cur ∈ r.exceptions
        · simp only [hx, decide_true] at hex
          lang [hb, hex, hx, h12, e1, e2]
          exact ⟨by simp, rfl, _, rfl⟩
        · simp only [hx, decide_false] at hex
          lang [hb, hex, hx, h12, e1, e2]
          exact ⟨by simp, rfl, _, rfl⟩

theorem wdmonth_apply (G : Ctx) (W : Nat) (r : Rule) (c : String) (attrs : List (String × Val)) (t : Int) (e : Option Int)
    (hev : getAttr "dtstart" attrs = .ok (.datetime t))
    (hg : ∀ y m i w, G.call "monthindex" [.int y, .int m, .int i, .int w] [] = toM .date (monthindex y m i w)) :
    Source.MonthlyRecurrenceRule_applyWeekday.call G W [ofRule r, .obj c attrs, ofOption .date e] []
    = .ok (ofRun (runGen (r.monthStep ((dday (dtDate t) - 1) / 7 + 1) (weekday (dtDate t)) e) W
        (dyear (dtDate t), dmonth (dtDate t), 0))) := by
  have hw := whileLoop_gen (cond := whileCond G (.const (.bool true))) (body := execs G W Source.MonthlyRecurrenceRule_applyWeekday_loop1)
    (fun s => by unfold whileCond; rw [eval])
    (wdmonth_step G W r (.obj c attrs) e (some (.date (dtDate t))) (weekday (dtDate t)) ((dday (dtDate t) - 1) / 7 + 1) (fun y m => hg _ _ _ _))
    W (dyear (dtDate t), dmonth (dtDate t), 0) _ [] ⟨some (.date (dtDate t)), rfl⟩
  refine Eq.trans ?_ (result_gen (f := Source.MonthlyRecurrenceRule_applyWeekday) rfl hw.1 hw.2)
  rw [← exec_while]
  have h7 : ¬ (7 : Int) = 0 := by decide
  have e1 := fun a => fdiv_pos a (show (0 : Int) < 7 by decide)
  refine call_split 7 (s := ⟨wdEnv r (.obj c attrs) e none none none none none none none, []⟩) rfl rfl ?_
  lang [Source.MonthlyRecurrenceRule_applyWeekday, List.take_succ_cons, List.take_zero, wdEnv, hev, h7, e1]
  rfl

/-- The variables of `MonthlyRecurrenceRule._applyLastWeekday`. -/
def lastEnv (r : Rule) (ev : Val) (e : Option Int) (cur start count year month wd dm index : Option Val) : Env :=
  [("self", some (ofRule r)), ("event", some ev), ("enddate", some (ofOption .date e)), ("cur", cur), ("start", start),
   ("count", count), ("year", year), ("month", month), ("weekday", wd), ("daysinmonth", dm), ("index", index)]

theorem lastmonth_step (G : Ctx) (W : Nat) (r : Rule) (ev : Val) (e : Option Int) (start : Option Val) (wd index : Int) (dm : Option Val)
    (hg : ∀ y m, G.call "monthindex" [.int y, .int m, .int index, .int wd] [] = toM .date (monthindex y m index wd))
    (x : Int × Int × Nat) (env : Env) (out : List Val)
    (hi : ∃ cur, env = lastEnv r ev e cur start (some (.int x.2.2)) (some (.int x.1)) (some (.int x.2.1)) (some (.int wd)) dm
      (some (.int index))) :
    StepOk (fun (x : Int × Int × Nat) env => ∃ cur, env = lastEnv r ev e cur start (some (.int x.2.2)) (some (.int x.1))
        (some (.int x.2.1)) (some (.int wd)) dm (some (.int index))) out
      (r.monthStep index wd e x) (execs G W Source.MonthlyRecurrenceRule_applyLastWeekday_loop1 ⟨env, out⟩) := by
  obtain ⟨year, month, count⟩ := x
  obtain ⟨cur0, rfl⟩ := hi
  have hcall := hg year month
  unfold Rule.monthStep
  simp only []
  cases hmi : monthindex year month index wd with
  | error e =>
    rw [hmi, toM_error] at hcall
    lang [Source.MonthlyRecurrenceRule_applyLastWeekday_loop1, lastEnv, hcall]
    exact ⟨rfl, rfl⟩
  | ok cur =>
    rw [hmi, toM_ok] at hcall
    obtain ⟨v, hv, ht⟩ := stops_eval G (lastEnv r ev e (some (.date cur)) start (some (.int count)) (some (.int year))
      (some (.int month)) (some (.int wd)) dm (some (.int index))) r e cur count rfl rfl rfl rfl
    have hex := contains_dates cur r.exceptions
    have h12 : ¬ (12 : Int) = 0 := by decide
    have e1 := fdiv_pos (year * 12 + month + r.interval - 1) (show (0 : Int) < 12 by decide)
    have e2 := fmod_pos (year * 12 + month + r.interval - 1) (show (0 : Int) < 12 by decide)
    unfold stopExpr lastEnv ofRule at hv
    rw [execs_split (l := Source.MonthlyRecurrenceRule_applyLastWeekday_loop1) (k := 1) (s' := ⟨lastEnv r ev e (some (.date cur)) start
      (some (.int count)) (some (.int year)) (some (.int month)) (some (.int wd)) dm (some (.int index)), out⟩) (by
        lang [Source.MonthlyRecurrenceRule_applyLastWeekday_loop1, List.take_succ_cons, List.take_zero, lastEnv, hcall])]
    simp only [Source.MonthlyRecurrenceRule_applyLastWeekday_loop1, List.drop_succ_cons, List.drop_zero]
    rw [execs_cons, exec_ite]
    unfold lastEnv ofRule
    simp only [hv]
    cases hs : r.stops e cur count with
    | error e => rw [toM_error, withVal_error, andThen_stop]; exact ⟨rfl, rfl⟩
    | ok b =>
      have hb := ht b hs
      rw [toM_ok]
      cases b with
      | true => lang [hb]; exact ⟨rfl, .inl rfl⟩
      | false =>
        unfold Rule.emit
        by_cases hx : cur ∈ r.exceptions
        · simp only [hx, decide_true] at hex
          lang [hb, hex, hx, h12, e1, e2]
          exact ⟨by simp, rfl, _, rfl⟩
        · simp only [hx, decide_false] at hex
          lang [hb, hex, hx, h12, e1, e2]
          exact ⟨by simp, rfl, _, rfl⟩

theorem lastmonth_apply (G : Ctx) (W : Nat) (r : Rule) (c : String) (attrs : List (String × Val)) (t : Int) (e : Option Int)
    (hev : getAttr "dtstart" attrs = .ok (.datetime t))
    (hg : ∀ y m i w, G.call "monthindex" [.int y, .int m, .int i, .int w] [] = toM .date (monthindex y m i w)) :
    Source.MonthlyRecurrenceRule_applyLastWeekday.call G W [ofRule r, .obj c attrs, ofOption .date e] []
    = .ok (ofRun (runGen (r.monthStep ((dday (dtDate t) - daysInMonth (dyear (dtDate t)) (dmonth (dtDate t)) - 1) / 7) (weekday (dtDate t)) e) W
        (dyear (dtDate t), dmonth (dtDate t), 0))) := by
  have hw := whileLoop_gen (cond := whileCond G (.const (.bool true))) (body := execs G W Source.MonthlyRecurrenceRule_applyLastWeekday_loop1)
    (fun s => by unfold whileCond; rw [eval])
    (lastmonth_step G W r (.obj c attrs) e (some (.date (dtDate t))) (weekday (dtDate t)) ((dday (dtDate t) - daysInMonth (dyear (dtDate t)) (dmonth (dtDate t)) - 1) / 7) (some (.int (daysInMonth (dyear (dtDate t)) (dmonth (dtDate t))))) (fun y m => hg _ _ _ _))
    W (dyear (dtDate t), dmonth (dtDate t), 0) _ [] ⟨some (.date (dtDate t)), rfl⟩
  refine Eq.trans ?_ (result_gen (f := Source.MonthlyRecurrenceRule_applyLastWeekday) rfl hw.1 hw.2)
  rw [← exec_while]
  have h7 : ¬ (7 : Int) = 0 := by decide
  have e1 := fun a => fdiv_pos a (show (0 : Int) < 7 by decide)
  refine call_split 8 (s := ⟨lastEnv r (.obj c attrs) e none none none none none none none none, []⟩) rfl rfl ?_
  have hm : ¬ ¬ (1 ≤ dmonth (dtDate t) ∧ dmonth (dtDate t) ≤ 12) := by
    have := validYmd_date (dtDate t)
    unfold validYmd at this
    omega
  have hp : getIndex.pick [.int (weekday (ymd2ord (dyear (dtDate t)) (dmonth (dtDate t)) 1)),
      .int (daysInMonth (dyear (dtDate t)) (dmonth (dtDate t)))] 1
      = .ok (.int (daysInMonth (dyear (dtDate t)) (dmonth (dtDate t)))) := rfl
  simp only [not_not] at hm
  lang [Source.MonthlyRecurrenceRule_applyLastWeekday, List.take_succ_cons, List.take_zero, lastEnv, hev, h7, e1, hm, and_self, hp]
  rfl

/-- The variables of `MonthlyRecurrenceRule.apply`. -/
def monthlyEnv (r : Rule) (ev : Val) (e : Option Int) (date : Option Val) : Env :=
  [("self", some (ofRule r)), ("event", some ev), ("enddate", some (ofOption .date e)), ("date", date)]

theorem passOn (G : Ctx) (W : Nat) (r : Rule) (ev : Val) (e : Option Int) (l : List Val) :
    ∀ (d : Option Val) (out : List Val), ∃ d',
      forLoop (forBody G W (.name "date") [.yield (.var "date")]) l ⟨monthlyEnv r ev e d, out⟩
      = (⟨monthlyEnv r ev e d', out ++ l⟩, .next) := by
  induction l with
  | nil => intro d out; exact ⟨d, by simp only [forLoop, List.append_nil]⟩
  | cons v l ih =>
    intro d out
    obtain ⟨d', h⟩ := ih (some v) (out ++ [v])
    refine ⟨d', ?_⟩
    rw [List.append_cons, ← h]
    simp only [forLoop, forBody]
    lang [monthlyEnv]

theorem monthly_apply (G : Ctx) (W : Nat) (r : Rule) (m : MonthlyKind) (hk : r.kind = .monthly m) (ev : Val)
    (e : Option Int) (x : List Int × Status)
    (h1 : m = .monthday → G.call "BasicRecurrenceRule.apply" [ofRule r, ev, ofOption .date e] [] = .ok (ofRun x))
    (h2 : m = .weekday → ∃ f, G.method "MonthlyRecurrenceRule" "_applyWeekday" = some f
      ∧ G.call f [ofRule r, ev, ofOption .date e] [] = .ok (ofRun x))
    (h3 : m = .lastweekday → ∃ f, G.method "MonthlyRecurrenceRule" "_applyLastWeekday" = some f
      ∧ G.call f [ofRule r, ev, ofOption .date e] [] = .ok (ofRun x)) :
    Source.MonthlyRecurrenceRule_apply.call G W [ofRule r, ev, ofOption .date e] [] = .ok (ofRun x) := by
  have key : ∀ last, (∃ d', exec G W last ⟨monthlyEnv r ev e none, []⟩
      = (⟨monthlyEnv r ev e d', x.1.map .date⟩, match ofStatus x.2 with
        | none => .next
        | some s => .stop s)) → Source.MonthlyRecurrenceRule_apply.body.drop 1 = [last] →
      Source.MonthlyRecurrenceRule_apply.call G W [ofRule r, ev, ofOption .date e] [] = .ok (ofRun x) := by
    rintro last ⟨d', h⟩ hl
    rw [call_split (s := ⟨monthlyEnv r ev e none, []⟩) 1 hl rfl (s' := ⟨monthlyEnv r ev e none, []⟩) (by
      cases e with
      | none => lang [Source.MonthlyRecurrenceRule_apply, List.take_succ_cons, List.take_zero, monthlyEnv, ofOption]
      | some e =>
        lang [Source.MonthlyRecurrenceRule_apply, List.take_succ_cons, List.take_zero, monthlyEnv, ofOption, List.any_cons,
          List.any_nil, isInstance, Bool.or_false, Bool.or_true])]
    rw [h]
    refine result_gen rfl rfl ?_
    obtain ⟨l, st⟩ := x
    cases st with
    | finished => exact .inl rfl
    | raised e => rfl
    | running => rfl
  refine key _ ?_ rfl
  obtain ⟨d', hp⟩ := passOn G W r ev e (x.1.map .date) none []
  refine ⟨d', ?_⟩
  unfold monthlyEnv ofRule at hp
  rw [List.nil_append] at hp
  cases m with
  | monthday =>
    have h := h1 rfl
    unfold ofRule ofRun at h
    lang [monthlyEnv, ofRule, hk, kindAttrs, monthlyName]
    rw [hk] at h hp
    simp only [kindAttrs, monthlyName] at h hp
    lang [h, Source.MonthlyRecurrenceRule_apply_loop1, hp]
    cases ofStatus x.2 <;> lang []
  | weekday =>
    obtain ⟨f, hf, h⟩ := h2 rfl
    unfold ofRule ofRun at h
    rw [hk] at h hp
    simp only [kindAttrs, monthlyName, RuleKind.className] at h hp
    lang [monthlyEnv, ofRule, hk, kindAttrs, monthlyName, hf, h, Source.MonthlyRecurrenceRule_apply_loop2, hp,
      RuleKind.className]
    cases ofStatus x.2 <;> lang []
  | lastweekday =>
    obtain ⟨f, hf, h⟩ := h3 rfl
    unfold ofRule ofRun at h
    rw [hk] at h hp
    simp only [kindAttrs, monthlyName, RuleKind.className] at h hp
    lang [monthlyEnv, ofRule, hk, kindAttrs, monthlyName, hf, h, Source.MonthlyRecurrenceRule_apply_loop3, hp,
      RuleKind.className]
    cases ofStatus x.2 <;> lang []

end CalCore.Lang
