import Verif.Lemmas.SourceRules
/- Running the constructors of the rule classes. -/
namespace CalCore.Lang
set_option linter.unusedSectionVars false
variable [Source.Globals]

/-! ### Constructors -/

/-- A rule object with some more attributes. -/
def ruleObj (cls : String) (iv : Int) (count : Option Int) (u : Option Until) (exs : List Int) (more : List (String × Val)) : Val :=
  .obj cls (("interval", .int iv) :: ("count", ofOption .int count) :: ("until", ofOption ofUntil u)
    :: ("exceptions", .tuple (exs.map .date)) :: more)

theorem ofRule_eq (r : Rule) : ofRule r = ruleObj r.kind.className r.interval r.count r.untl r.exceptions (kindAttrs r.kind) := rfl

/-- The checks that all rule classes make. -/
def basicChecks (iv : Int) (count : Option Int) (u : Option Until) : Res Unit :=
  if count.isSome ∧ u.isSome then raise .ValueError else if ¬ (iv ≥ 1) then raise .ValueError else .ok ()

theorem basicChecks_cases (iv : Int) (count : Option Int) (u : Option Until) :
    basicChecks iv count u = .ok () ∨ basicChecks iv count u = raise .ValueError := by
  unfold basicChecks
  split
  · exact .inr rfl
  · split
    · exact .inr rfl
    · exact .inl rfl

theorem validate_eq (r : Rule) : r.validate = (do
    basicChecks r.interval r.count r.untl
    match r.kind with
    | .weekly wds => if wds.all (fun w => 0 ≤ w && w ≤ 6) then .ok () else raise .ValueError
    | _ => .ok ()) := by
  unfold Rule.validate basicChecks
  split
  · rfl
  · split
    · rfl
    · rfl

theorem ex_loop (G : Ctx) (W : Nat) (self : Val) (l : List Int) : ∀ v : Option Val, ∃ v',
    forLoop (forBody G W (.name "ex") Source.BasicRecurrenceRule_validate_loop1) (l.map .date)
      ⟨[("self", some self), ("ex", v)], []⟩ = (⟨[("self", some self), ("ex", v')], []⟩, .next) := by
  induction l with
  | nil => intro v; exact ⟨v, rfl⟩
  | cons d l ih =>
    intro v
    obtain ⟨v', h⟩ := ih (some (.date d))
    refine ⟨v', ?_⟩
    rw [← h]
    simp only [List.map_cons, forLoop, forBody]
    lang [Source.BasicRecurrenceRule_validate_loop1, List.any_cons, List.any_nil, isInstance, Bool.or_false, Bool.or_true]

theorem basic_validate (G : Ctx) (W : Nat) (cls : String) (iv : Int) (count : Option Int) (u : Option Until) (exs : List Int)
    (more : List (String × Val)) :
    Source.BasicRecurrenceRule_validate.call G W [ruleObj cls iv count u exs more] []
    = toM (fun _ => .none) (basicChecks iv count u) := by
  obtain ⟨v', hl⟩ := ex_loop G W (ruleObj cls iv count u exs more) exs none
  unfold ruleObj at hl
  by_cases hi : iv ≥ 1
  · have hi' : ¬ ¬ 1 ≤ iv := by omega
    have hi'' : 1 ≤ iv := hi
    rcases count with _ | c <;> rcases u with _ | u | u <;>
      simp only [ofOption, ofUntil] at hl <;>
      lang [Source.BasicRecurrenceRule_validate, ruleObj, ofOption, ofUntil, hi'', basicChecks, Option.isSome, raise, toM_ok,
        toM_py, hl, and_self, and_false, false_and, ge_iff_le, Bool.not_eq_true', decide_eq_false_iff_not]
  · have hi'' : ¬ 1 ≤ iv := hi
    rcases count with _ | c <;> rcases u with _ | u | u <;>
      simp only [ofOption, ofUntil] at hl <;>
      lang [Source.BasicRecurrenceRule_validate, ruleObj, ofOption, ofUntil, hi'', basicChecks, Option.isSome, raise, toM_ok,
        toM_py, hl, and_self, and_false, false_and, ge_iff_le, Bool.not_eq_true', decide_eq_false_iff_not]

theorem dow_loop (G : Ctx) (W : Nat) (self : Val) (l : List Int) : ∀ v : Option Val, ∃ s',
    forLoop (forBody G W (.name "dow") Source.WeeklyRecurrenceRule_validate_loop1) (l.map .int)
      ⟨[("self", some self), ("dow", v)], []⟩
    = (s', if l.all (fun w => 0 ≤ w && w ≤ 6) then .next else .stop (.py .ValueError)) := by
  induction l with
  | nil => intro v; exact ⟨_, rfl⟩
  | cons d l ih =>
    intro v
    obtain ⟨s', h⟩ := ih (some (.int d))
    simp only [List.map_cons, forLoop, forBody]
    by_cases h0 : 0 ≤ d
    · by_cases h6 : d ≤ 6
      · refine ⟨s', ?_⟩
        simp only [List.all_cons, h0, h6, decide_true, Bool.and_self, Bool.true_and]
        rw [← h]
        lang [Source.WeeklyRecurrenceRule_validate_loop1, List.any_cons, List.any_nil, isInstance, Bool.or_false, Bool.or_true,
          h0, h6]
      · refine ⟨⟨[("self", some self), ("dow", some (.int d))], []⟩, ?_⟩
        lang [Source.WeeklyRecurrenceRule_validate_loop1, List.any_cons, List.any_nil, isInstance, Bool.or_false, Bool.or_true,
          h0, h6, List.all_cons, Bool.and_false, Bool.false_and]
    · refine ⟨⟨[("self", some self), ("dow", some (.int d))], []⟩, ?_⟩
      lang [Source.WeeklyRecurrenceRule_validate_loop1, List.any_cons, List.any_nil, isInstance, Bool.or_false, Bool.or_true,
        h0, List.all_cons, Bool.and_false, Bool.false_and]

theorem weekly_validate (G : Ctx) (W : Nat) (iv : Int) (count : Option Int) (u : Option Until) (exs wds : List Int)
    (hb : ∀ o, G.call "BasicRecurrenceRule._validate" [ruleObj "WeeklyRecurrenceRule" iv count u exs o] []
      = toM (fun _ => .none) (basicChecks iv count u)) :
    Source.WeeklyRecurrenceRule_validate.call G W
      [ruleObj "WeeklyRecurrenceRule" iv count u exs [("weekdays", .tuple (wds.map .int))]] []
    = toM (fun _ => .none) (Rule.validate ⟨.weekly wds, iv, count, u, exs⟩) := by
  rw [validate_eq]
  have h := hb [("weekdays", .tuple (wds.map .int))]
  obtain ⟨s', hl⟩ := dow_loop G W (ruleObj "WeeklyRecurrenceRule" iv count u exs [("weekdays", .tuple (wds.map .int))]) wds none
  unfold ruleObj at h hl
  simp only []
  rcases basicChecks_cases iv count u with hc | hc
  · rw [hc, toM_ok] at h
    rw [hc, ok_bind]
    by_cases ha : wds.all (fun w => 0 ≤ w && w ≤ 6) = true
    · rw [if_pos ha] at hl ⊢
      lang [Source.WeeklyRecurrenceRule_validate, ruleObj, h, hl, toM_ok]
    · rw [if_neg ha] at hl ⊢
      lang [Source.WeeklyRecurrenceRule_validate, ruleObj, h, hl, raise, toM_py]
  · rw [hc, raise, toM_py] at h
    rw [hc, raise, error_bind, toM_py]
    lang [Source.WeeklyRecurrenceRule_validate, ruleObj, h]

theorem monthly_validate (G : Ctx) (W : Nat) (iv : Int) (count : Option Int) (u : Option Until) (exs : List Int) (s : String)
    (hb : ∀ o, G.call "BasicRecurrenceRule._validate" [ruleObj "MonthlyRecurrenceRule" iv count u exs o] []
      = toM (fun _ => .none) (basicChecks iv count u)) :
    Source.MonthlyRecurrenceRule_validate.call G W
      [ruleObj "MonthlyRecurrenceRule" iv count u exs [("monthly", .str s)]] []
    = toM (fun _ => .none) (do
      basicChecks iv count u
      let _ ← monthlyKindOf s
      .ok ()) := by
  have h := hb [("monthly", .str s)]
  unfold ruleObj at h
  rcases basicChecks_cases iv count u with hc | hc
  · rw [hc, toM_ok] at h
    rw [hc, ok_bind]
    unfold monthlyKindOf
    by_cases h1 : s = "monthday"
    · subst h1
      lang [Source.MonthlyRecurrenceRule_validate, ruleObj, h, contains]
      rfl
    · have h1' : ¬ "monthday" = s := fun h => h1 h.symm
      by_cases h2 : s = "weekday"
      · subst h2
        lang [Source.MonthlyRecurrenceRule_validate, ruleObj, h, contains]
        rfl
      · have h2' : ¬ "weekday" = s := fun h => h2 h.symm
        by_cases h3 : s = "lastweekday"
        · subst h3
          lang [Source.MonthlyRecurrenceRule_validate, ruleObj, h, contains]
          rfl
        · have h3' : ¬ "lastweekday" = s := fun h => h3 h.symm
          lang [Source.MonthlyRecurrenceRule_validate, ruleObj, h, contains, h1, h2, h3, h1', h2', h3']
          rfl
  · rw [hc, raise, toM_py] at h
    rw [hc, raise, error_bind, toM_py]
    lang [Source.MonthlyRecurrenceRule_validate, ruleObj, h]

theorem seq_tuple {x : Val} {l : List Val} (h : Seq x l) : callPrim .tuple [x] [] = .ok (.tuple l) := by
  rcases h with rfl | rfl <;> rfl

theorem basic_init (G : Ctx) (W : Nat) (cls : String) (iv : Int) (count : Option Int) (u : Option Until) (exs : List Int) (x : Val)
    (hx : Seq x (exs.map .date)) (f : String) (hm : G.method cls "_validate" = some f)
    (hb : G.call f [ruleObj cls iv count u exs []] [] = toM (fun _ => .none) (basicChecks iv count u)) :
    Source.BasicRecurrenceRule_init.call G W [.obj cls [], .int iv, ofOption .int count, ofOption ofUntil u, x] []
    = toM (fun _ => ruleObj cls iv count u exs []) (basicChecks iv count u) := by
  have hx' := seq_tuple hx
  unfold ruleObj at hb
  rcases basicChecks_cases iv count u with hc | hc
  · rw [hc, toM_ok] at hb
    rw [hc, toM_ok]
    lang [Source.BasicRecurrenceRule_init, ruleObj, hb, hx', hm]
  · rw [hc, raise, toM_py] at hb
    rw [hc, raise, toM_py]
    lang [Source.BasicRecurrenceRule_init, ruleObj, hb, hx', hm]

theorem weekly_init (G : Ctx) (W : Nat) (iv : Int) (count : Option Int) (u : Option Until) (exs wds : List Int) (x y : Val)
    (hx : Seq x (exs.map .date)) (hy : Seq y (wds.map .int)) (f : String)
    (hm : G.method "WeeklyRecurrenceRule" "_validate" = some f)
    (hb : G.call f [ruleObj "WeeklyRecurrenceRule" iv count u exs [("weekdays", .tuple (wds.map .int))]] []
      = toM (fun _ => .none) (Rule.validate ⟨.weekly wds, iv, count, u, exs⟩)) :
    Source.WeeklyRecurrenceRule_init.call G W
      [.obj "WeeklyRecurrenceRule" [], .int iv, ofOption .int count, ofOption ofUntil u, x, y] []
    = toM ofRule (Rule.new (.weekly wds) iv count u exs) := by
  have hx' := seq_tuple hx
  have hy' := seq_tuple hy
  unfold ruleObj at hb
  unfold Rule.new
  simp only []
  cases hv : Rule.validate ⟨.weekly wds, iv, count, u, exs⟩ with
  | ok a =>
    rw [hv, toM_ok] at hb
    rw [ok_bind, toM_ok]
    lang [Source.WeeklyRecurrenceRule_init, ofRule, kindAttrs, RuleKind.className, hb, hx', hy', hm]
  | error e =>
    rw [hv, toM_error] at hb
    rw [error_bind, toM_error]
    lang [Source.WeeklyRecurrenceRule_init, hb, hx', hy', hm]

theorem monthlyKindOf_name {s : String} {k : MonthlyKind} (h : monthlyKindOf s = .ok k) : s = monthlyName k := by
  unfold monthlyKindOf at h
  split at h
  · injection h with h; subst h; assumption
  · split at h
    · injection h with h; subst h; assumption
    · split at h
      · injection h with h; subst h; assumption
      · cases h

theorem monthlyKindOf_error {s : String} {e : Fault} (h : monthlyKindOf s = .error e) : e = .py .ValueError := by
  unfold monthlyKindOf at h
  split at h
  · cases h
  · split at h
    · cases h
    · split at h
      · cases h
      · injection h with h; exact h.symm

theorem monthly_init (G : Ctx) (W : Nat) (iv : Int) (count : Option Int) (u : Option Until) (exs : List Int) (x : Val) (s : String)
    (hx : Seq x (exs.map .date)) (f : String)
    (hm : G.method "MonthlyRecurrenceRule" "_validate" = some f)
    (hb : G.call f [ruleObj "MonthlyRecurrenceRule" iv count u exs [("monthly", .str s)]] []
      = toM (fun _ => .none) (do
        basicChecks iv count u
        let _ ← monthlyKindOf s
        .ok ())) :
    Source.MonthlyRecurrenceRule_init.call G W
      [.obj "MonthlyRecurrenceRule" [], .int iv, ofOption .int count, ofOption ofUntil u, x, .str s] []
    = toM ofRule (newMonthly iv count u exs s) := by
  have hx' := seq_tuple hx
  unfold ruleObj at hb
  unfold newMonthly Rule.new
  simp only [validate_eq]
  rcases basicChecks_cases iv count u with hc | hc
  · rw [hc, ok_bind] at hb
    cases hk : monthlyKindOf s with
    | ok k =>
      rw [hk, ok_bind, toM_ok] at hb
      rw [hc, ok_bind, ok_bind, ok_bind, toM_ok]
      have := monthlyKindOf_name hk
      subst this
      lang [Source.MonthlyRecurrenceRule_init, ofRule, kindAttrs, RuleKind.className, hb, hx', hm]
    | error e =>
      rw [hk, error_bind, toM_error] at hb
      rw [error_bind, toM_error]
      lang [Source.MonthlyRecurrenceRule_init, hb, hx', hm]
  · rw [hc, raise, error_bind, toM_py] at hb
    have hr : toM ofRule (do
        let k ← monthlyKindOf s
        (basicChecks iv count u >>= fun _ => (.ok () : Res Unit)) >>= fun _ =>
          (.ok ⟨.monthly k, iv, count, u, exs⟩ : Res Rule)) = .error (.py .ValueError) := by
      cases hk : monthlyKindOf s with
      | ok k => rw [ok_bind, hc]; rfl
      | error e => rw [monthlyKindOf_error hk]; rfl
    refine Eq.trans ?_ hr.symm
    lang [Source.MonthlyRecurrenceRule_init, hb, hx', hm]

/-! ### replace -/

theorem is_unchanged : Val.is (.obj "Unchanged" []) (.obj "Unchanged" []) = .ok true := rfl
theorem is_int_unchanged (n : Int) : Val.is (.int n) (.obj "Unchanged" []) = .ok false := by simp [Val.is]
theorem is_str_unchanged (s : String) : Val.is (.str s) (.obj "Unchanged" []) = .ok false := by simp [Val.is]
theorem is_none_unchanged : Val.is .none (.obj "Unchanged" []) = .ok false := by simp [Val.is]
theorem is_date_unchanged (n : Int) : Val.is (.date n) (.obj "Unchanged" []) = .ok false := by simp [Val.is]
theorem is_datetime_unchanged (n : Int) : Val.is (.datetime n) (.obj "Unchanged" []) = .ok false := by simp [Val.is]
theorem is_tuple_unchanged (l : List Val) : Val.is (.tuple l) (.obj "Unchanged" []) = .ok false := by simp [Val.is]

/-- What an argument of `replace` stands for. -/
theorem arg_step {α : Type} (f : α → Val) (hf : ∀ a, Val.is (f a) (.obj "Unchanged" []) = .ok false) (a : Option α) (d : α) :
    ∃ b : Bool, Val.is (ofArg f a) (.obj "Unchanged" []) = .ok b ∧ (if b then f d else ofArg f a) = f (a.getD d) := by
  cases a with
  | none => exact ⟨true, is_unchanged, rfl⟩
  | some a => exact ⟨false, hf a, rfl⟩

theorem ofOption_is {α : Type} (f : α → Val) (hf : ∀ a, Val.is (f a) (.obj "Unchanged" []) = .ok false) (a : Option α) :
    Val.is (ofOption f a) (.obj "Unchanged" []) = .ok false := by
  cases a with
  | none => exact is_none_unchanged
  | some a => exact hf a

theorem ofUntil_is (u : Until) : Val.is (ofUntil u) (.obj "Unchanged" []) = .ok false := by
  cases u
  · exact is_date_unchanged _
  · exact is_datetime_unchanged _

/-- The statement `if x is Unchanged: x = e`. -/
theorem unchanged_step (G : Ctx) (W : Nat) (x : String) (e : Expr) (s : State) (v d : Val) (b : Bool)
    (h1 : s.env.get x = .ok v) (h2 : Val.is v (.obj "Unchanged" []) = .ok b) (h3 : eval G s.env e = .ok d) :
    exec G W (.ite (.cmp .is (.var x) (.const (.obj "Unchanged" []))) [.assign (.name x) e] []) s
    = (⟨if b then s.env.set x d else s.env, s.out⟩, .next) := by
  cases b <;> lang [h1, h2, h3]

/-- The variables of `replace`. -/
def replEnv (r : Rule) (a b c d : Val) (more : Env) : Env :=
  ("self", some (ofRule r)) :: ("interval", some a) :: ("count", some b) :: ("until", some c) :: ("exceptions", some d) :: more

theorem repl_four (G : Ctx) (W : Nat) (r : Rule) (iv : Option Int) (count : Option (Option Int)) (u : Option (Option Until))
    (exs : Option (List Int)) (more : Env) (ex : Expr)
    (he : ∀ a b c d, eval G (replEnv r a b c d more) ex = .ok (.tuple (r.exceptions.map .date))) :
    execs G W [.ite (.cmp .is (.var "interval") (.const (.obj "Unchanged" []))) [.assign (.name "interval") (.attr (.var "self") "interval")] [],
      .ite (.cmp .is (.var "count") (.const (.obj "Unchanged" []))) [.assign (.name "count") (.attr (.var "self") "count")] [],
      .ite (.cmp .is (.var "until") (.const (.obj "Unchanged" []))) [.assign (.name "until") (.attr (.var "self") "until")] [],
      .ite (.cmp .is (.var "exceptions") (.const (.obj "Unchanged" []))) [.assign (.name "exceptions") ex] []]
      ⟨replEnv r (ofArg .int iv) (ofArg (ofOption .int) count) (ofArg (ofOption ofUntil) u)
        (ofArg (fun l : List Int => .tuple (l.map .date)) exs) more, []⟩
    = (⟨replEnv r (.int (iv.getD r.interval)) (ofOption .int (count.getD r.count)) (ofOption ofUntil (u.getD r.untl))
        (.tuple ((exs.getD r.exceptions).map .date)) more, []⟩, .next) := by
  obtain ⟨b1, h1, e1⟩ := arg_step .int is_int_unchanged iv r.interval
  obtain ⟨b2, h2, e2⟩ := arg_step (ofOption .int) (ofOption_is _ is_int_unchanged) count r.count
  obtain ⟨b3, h3, e3⟩ := arg_step (ofOption ofUntil) (ofOption_is _ ofUntil_is) u r.untl
  obtain ⟨b4, h4, e4⟩ := arg_step (fun l : List Int => Val.tuple (l.map .date)) (fun _ => is_tuple_unchanged _) exs r.exceptions
  rw [execs_cons, unchanged_step _ _ _ _ _ _ (.int r.interval) _ rfl h1 (by lang [replEnv, ofRule]), andThen_next]
  have s1 : ∀ a b c d e, (if b1 then Env.set "interval" a (replEnv r b c d e more) else replEnv r b c d e more)
      = replEnv r (if b1 then a else b) c d e more := by
    intro a b c d e; cases b1 <;> rfl
  simp only [s1, e1]
  rw [execs_cons, unchanged_step _ _ _ _ _ _ (ofOption .int r.count) _ rfl h2 (by lang [replEnv, ofRule]), andThen_next]
  have s2 : ∀ a b c d e, (if b2 then Env.set "count" a (replEnv r b c d e more) else replEnv r b c d e more)
      = replEnv r b (if b2 then a else c) d e more := by
    intro a b c d e; cases b2 <;> rfl
  simp only [s2, e2]
  rw [execs_cons, unchanged_step _ _ _ _ _ _ (ofOption ofUntil r.untl) _ rfl h3 (by lang [replEnv, ofRule]), andThen_next]
  have s3 : ∀ a b c d e, (if b3 then Env.set "until" a (replEnv r b c d e more) else replEnv r b c d e more)
      = replEnv r b c (if b3 then a else d) e more := by
    intro a b c d e; cases b3 <;> rfl
  simp only [s3, e3]
  rw [execs_cons, unchanged_step _ _ _ _ _ _ _ _ rfl h4 (he _ _ _ _), andThen_next]
  have s4 : ∀ a b c d e, (if b4 then Env.set "exceptions" a (replEnv r b c d e more) else replEnv r b c d e more)
      = replEnv r b c d (if b4 then a else e) more := by
    intro a b c d e; cases b4 <;> rfl
  simp only [s4, e4, execs_nil]

theorem withVal_ret (k : FunDef) (hk : k.kind = .fn) (s : State) (r : M Val) : k.result (withVal s r (fun v => (s, .ret v))) = r := by
  cases r with
  | error e => rw [withVal_error]; unfold FunDef.result; rw [hk]
  | ok v => rw [withVal_ok]; unfold FunDef.result; rw [hk]

theorem basic_replace (G : Ctx) (W : Nat) (r : Rule) (iv : Option Int) (count : Option (Option Int)) (u : Option (Option Until))
    (exs : Option (List Int)) :
    Source.BasicRecurrenceRule_replace.call G W [ofRule r, ofArg .int iv, ofArg (ofOption .int) count,
      ofArg (ofOption ofUntil) u, ofArg (fun l : List Int => .tuple (l.map .date)) exs] []
    = G.new r.kind.className [.int (iv.getD r.interval), ofOption .int (count.getD r.count), ofOption ofUntil (u.getD r.untl),
        .tuple ((exs.getD r.exceptions).map .date)] [] := by
  rw [call_split 4 rfl rfl (repl_four G W r iv count u exs [] _ (fun a b c d => by lang [replEnv, ofRule])), exec_ret,
    withVal_ret _ rfl]
  lang [replEnv, ofRule]

theorem weekly_replace (G : Ctx) (W : Nat) (r : Rule) (wds : List Int) (hk : r.kind = .weekly wds) (iv : Option Int)
    (count : Option (Option Int)) (u : Option (Option Until)) (exs w : Option (List Int)) (m : Val) :
    Source.WeeklyRecurrenceRule_replace.call G W [ofRule r, ofArg .int iv, ofArg (ofOption .int) count,
      ofArg (ofOption ofUntil) u, ofArg (fun l : List Int => .tuple (l.map .date)) exs,
      ofArg (fun l : List Int => .tuple (l.map .int)) w, m] []
    = G.new "WeeklyRecurrenceRule" [.int (iv.getD r.interval), ofOption .int (count.getD r.count), ofOption ofUntil (u.getD r.untl),
        .tuple ((exs.getD r.exceptions).map .date), .tuple ((w.getD wds).map .int)] [] := by
  obtain ⟨b, h, e⟩ := arg_step (fun l : List Int => Val.tuple (l.map .int)) (fun _ => is_tuple_unchanged _) w wds
  have h4 := repl_four G W r iv count u exs [("weekdays", some (ofArg (fun l : List Int => .tuple (l.map .int)) w)), ("monthly", some m)]
    (.attr (.var "self") "exceptions") (fun a b c d => by lang [replEnv, ofRule])
  rw [call_split (s' := ⟨replEnv r (.int (iv.getD r.interval)) (ofOption .int (count.getD r.count)) (ofOption ofUntil (u.getD r.untl))
    (.tuple ((exs.getD r.exceptions).map .date)) [("weekdays", some (.tuple ((w.getD wds).map .int))), ("monthly", some m)], []⟩) 5 rfl rfl
    (by
      rw [execs_split (k := 4) h4]
      show execs G W [_] _ = _
      rw [execs_single, unchanged_step _ _ _ _ _ _ (.tuple (wds.map .int)) _ rfl h (by lang [replEnv, ofRule, hk, kindAttrs])]
      rw [← e]
      cases b <;> rfl)]
  rw [exec_ret, withVal_ret _ rfl]
  lang [replEnv, ofRule, hk, RuleKind.className]

theorem monthly_replace (G : Ctx) (W : Nat) (r : Rule) (k : MonthlyKind) (hk : r.kind = .monthly k) (iv : Option Int)
    (count : Option (Option Int)) (u : Option (Option Until)) (exs : Option (List Int)) (m : Option String) (w : Val) :
    Source.MonthlyRecurrenceRule_replace.call G W [ofRule r, ofArg .int iv, ofArg (ofOption .int) count,
      ofArg (ofOption ofUntil) u, ofArg (fun l : List Int => .tuple (l.map .date)) exs, w, ofArg .str m] []
    = G.new "MonthlyRecurrenceRule" [.int (iv.getD r.interval), ofOption .int (count.getD r.count), ofOption ofUntil (u.getD r.untl),
        .tuple ((exs.getD r.exceptions).map .date), .str (m.getD (monthlyName k))] [] := by
  obtain ⟨b, h, e⟩ := arg_step .str is_str_unchanged m (monthlyName k)
  have h4 := repl_four G W r iv count u exs [("weekdays", some w), ("monthly", some (ofArg .str m))]
    (.prim .tuple [(.attr (.var "self") "exceptions")] []) (fun a b c d => by lang [replEnv, ofRule])
  rw [call_split (s' := ⟨replEnv r (.int (iv.getD r.interval)) (ofOption .int (count.getD r.count)) (ofOption ofUntil (u.getD r.untl))
    (.tuple ((exs.getD r.exceptions).map .date)) [("weekdays", some w), ("monthly", some (.str (m.getD (monthlyName k))))], []⟩) 5 rfl rfl
    (by
      rw [execs_split (k := 4) h4]
      show execs G W [_] _ = _
      rw [execs_single, unchanged_step _ _ _ _ _ _ (.str (monthlyName k)) _ rfl h (by lang [replEnv, ofRule, hk, kindAttrs])]
      rw [← e]
      cases b <;> rfl)]
  rw [exec_ret, withVal_ret _ rfl]
  lang [replEnv, ofRule, hk, RuleKind.className]

end CalCore.Lang
