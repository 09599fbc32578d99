import Verif.Lemmas.SourceInit
import Verif.Spec.Written
/- Running recurrent.py as part of the program. -/
namespace CalCore.Lang
set_option linter.unusedSectionVars false
variable [Source.Globals]

theorem ctx_call (P : Prog) (W n : Nat) : (P.ctx W n).call = P.call W n := rfl

theorem invoke_eq {P : Prog} {cls m f : String} (h : P.method 4 cls m = some f) (W n : Nat) (attrs : List (String × Val))
    (args : List Val) (kw : List (String × Val)) :
    P.invoke W n (.obj cls attrs) m args kw = P.call W n f (.obj cls attrs :: args) kw := by
  unfold Prog.invoke
  simp only [h]

theorem new_eq {P : Prog} {cls f : String} (h : P.method 4 cls "__init__" = some f) (W n : Nat) (args : List Val)
    (kw : List (String × Val)) : P.new W n cls args kw = P.call W n f (.obj cls [] :: args) kw := by
  unfold Prog.new Ctx.new Prog.ctx
  simp only [h]

/-- The name of the function `_nextRecurrence` of a class. -/
def nextName : RuleKind → String
  | .yearly => "YearlyRecurrenceRule._nextRecurrence"
  | .weekly _ => "WeeklyRecurrenceRule._nextRecurrence"
  | .monthly _ => "MonthlyRecurrenceRule._nextRecurrence"
  | _ => "BasicRecurrenceRule._nextRecurrence"

theorem method_next (k : RuleKind) : Source.prog.method 4 k.className "_nextRecurrence" = some (nextName k) := by
  cases k <;> rfl

theorem next_call (W n : Nat) (r : Rule) (hW : (∃ m, r.kind = .monthly m) → nextMonthFuel ≤ W) (hw : ∀ l, r.kind ≠ .weekly l)
    (d : Int) (hd : dateInRange d = true) :
    Source.prog.call W (n + 1) (nextName r.kind) [ofRule r, .date d] [] = toM .date (r.nextRecurrence d) := by
  unfold Rule.nextRecurrence
  cases hk : r.kind with
  | yearly => rw [call_eq (d := Source.YearlyRecurrenceRule_nextRecurrence) rfl]; exact yearly_next _ _ _ _
  | weekly l => exact absurd hk (hw l)
  | monthly m =>
    rw [call_eq (d := Source.MonthlyRecurrenceRule_nextRecurrence) rfl]
    exact monthly_next _ _ (hW ⟨m, hk⟩) _ _ hd
  | basic => rw [call_eq (d := Source.BasicRecurrenceRule_nextRecurrence) rfl]; exact basic_next _ _ _ _ hd
  | no => rw [call_eq (d := Source.BasicRecurrenceRule_nextRecurrence) rfl]; exact basic_next _ _ _ _ hd
  | daily => rw [call_eq (d := Source.BasicRecurrenceRule_nextRecurrence) rfl]; exact basic_next _ _ _ _ hd

theorem basic_apply_prog (W n : Nat) (r : Rule) (hW : (∃ m, r.kind = .monthly m) → nextMonthFuel ≤ W)
    (hw : ∀ l, r.kind ≠ .weekly l) (c : String) (attrs : List (String × Val)) (t : Int) (e : Option Int)
    (ht : dtInRange t = true) (hev : getAttr "dtstart" attrs = .ok (.datetime t)) :
    Source.prog.call W (n + 2) "BasicRecurrenceRule.apply" [ofRule r, .obj c attrs, ofOption .date e] []
    = .ok (ofRun (runGen (r.basicStep e) W (dtDate t, 0))) := by
  rw [call_eq (d := Source.BasicRecurrenceRule_apply) rfl]
  exact basic_apply _ _ _ _ _ _ _ _ ht hev (method_next r.kind) (fun d hd => next_call W n r hW hw d hd)

theorem monthindex_prog (W n : Nat) (y m i w : Int) :
    Source.prog.call W (n + 1) "monthindex" [.int y, .int m, .int i, .int w] [] = toM .date (monthindex y m i w) := by
  rw [call_eq (d := Source.monthindex) rfl]; exact monthindex_call _ _ _ _ _ _

theorem weekspan_prog (W n : Nat) (d d' : Int) :
    Source.prog.call W (n + 1) "weekspan" [.date d, .date d'] [] = toM .int (weekspan d d') := by
  rw [call_eq (d := Source.weekspan) rfl]; exact weekspan_call _ _ _ _

/-- The name of the function `apply` of a class. -/
def applyName : RuleKind → String
  | .no => "NoRecurrenceRule.apply"
  | .weekly _ => "WeeklyRecurrenceRule.apply"
  | .monthly _ => "MonthlyRecurrenceRule.apply"
  | _ => "BasicRecurrenceRule.apply"

theorem method_apply (k : RuleKind) : Source.prog.method 4 k.className "apply" = some (applyName k) := by
  cases k <;> rfl

theorem apply_prog (W n : Nat) (r : Rule) (hW : r.kind = .monthly .monthday → nextMonthFuel ≤ W) (c : String)
    (attrs : List (String × Val)) (t : Int) (e : Option Int) (ht : dtInRange t = true)
    (hev : getAttr "dtstart" attrs = .ok (.datetime t)) :
    Source.prog.call W (n + 3) (applyName r.kind) [ofRule r, .obj c attrs, ofOption .date e] []
    = .ok (ofRun (r.applyRun t e W)) := by
  unfold Rule.applyRun
  simp only []
  cases hk : r.kind with
  | no => rw [call_eq (d := Source.NoRecurrenceRule_apply) rfl]; exact no_apply _ _ _ _ _ _ _ hev
  | basic => exact basic_apply_prog W (n + 1) r (by rw [hk]; rintro ⟨_, h⟩; cases h) (by rw [hk]; intro l h; cases h) _ _ _ _ ht hev
  | daily => exact basic_apply_prog W (n + 1) r (by rw [hk]; rintro ⟨_, h⟩; cases h) (by rw [hk]; intro l h; cases h) _ _ _ _ ht hev
  | yearly => exact basic_apply_prog W (n + 1) r (by rw [hk]; rintro ⟨_, h⟩; cases h) (by rw [hk]; intro l h; cases h) _ _ _ _ ht hev
  | weekly l =>
    rw [call_eq (d := Source.WeeklyRecurrenceRule_apply) rfl]
    refine weekly_apply _ _ _ _ hk _ _ _ _ "WeeklyRecurrenceRule._nextRecurrence" hev rfl (fun d => ?_) (weekspan_prog W (n + 1))
    rw [ctx_call]
    rw [call_eq (d := Source.WeeklyRecurrenceRule_nextRecurrence) rfl]
    exact weekly_next _ _ _ _
  | monthly m =>
    rw [call_eq (d := Source.MonthlyRecurrenceRule_apply) rfl]
    refine monthly_apply _ _ _ m hk _ _ _ ?_ ?_ ?_
    · rintro rfl
      exact basic_apply_prog W n r (fun _ => hW hk) (by rw [hk]; intro l h; cases h) _ _ _ _ ht hev
    · rintro rfl
      refine ⟨"MonthlyRecurrenceRule._applyWeekday", rfl, ?_⟩
      rw [ctx_call]
      rw [call_eq (d := Source.MonthlyRecurrenceRule_applyWeekday) rfl]
      exact wdmonth_apply _ _ _ _ _ _ _ hev (monthindex_prog W n)
    · rintro rfl
      refine ⟨"MonthlyRecurrenceRule._applyLastWeekday", rfl, ?_⟩
      rw [ctx_call]
      rw [call_eq (d := Source.MonthlyRecurrenceRule_applyLastWeekday) rfl]
      exact lastmonth_apply _ _ _ _ _ _ _ hev (monthindex_prog W n)

theorem apply_invoke (W n : Nat) (r : Rule) (hW : r.kind = .monthly .monthday → nextMonthFuel ≤ W) (c : String)
    (attrs : List (String × Val)) (t : Int) (e : Option Int) (ht : dtInRange t = true)
    (hev : getAttr "dtstart" attrs = .ok (.datetime t)) :
    Source.prog.invoke W (n + 3) (ofRule r) "apply" [.obj c attrs, ofOption .date e] [] = .ok (ofRun (r.applyRun t e W)) := by
  rw [← apply_prog W n r hW c attrs t e ht hev, ofRule, invoke_eq (method_apply r.kind)]

/-! ### Constructors -/

theorem basicValidate_prog (W n : Nat) (cls : String) (iv : Int) (count : Option Int) (u : Option Until) (exs : List Int)
    (more : List (String × Val)) :
    Source.prog.call W (n + 1) "BasicRecurrenceRule._validate" [ruleObj cls iv count u exs more] []
    = toM (fun _ => .none) (basicChecks iv count u) := by
  rw [call_eq (d := Source.BasicRecurrenceRule_validate) rfl]; exact basic_validate _ _ _ _ _ _ _ _

/-- Classes without attributes of their own. -/
def Plain (k : RuleKind) : Prop := (∀ l, k ≠ .weekly l) ∧ ∀ m, k ≠ .monthly m

theorem new_plain (W n : Nat) (k : RuleKind) (hk : Plain k) (iv : Int) (count : Option Int) (u : Option Until) (exs : List Int)
    (x : Val) (hx : Seq x (exs.map .date)) :
    Source.prog.new W (n + 2) k.className [.int iv, ofOption .int count, ofOption ofUntil u, x] []
    = toM ofRule (Rule.new k iv count u exs) := by
  have hi : Source.prog.method 4 k.className "__init__" = some "BasicRecurrenceRule.__init__" := by
    cases k with
    | weekly l => exact absurd rfl (hk.1 l)
    | monthly m => exact absurd rfl (hk.2 m)
    | _ => rfl
  have hv : Source.prog.method 4 k.className "_validate" = some "BasicRecurrenceRule._validate" := by
    cases k with
    | weekly l => exact absurd rfl (hk.1 l)
    | monthly m => exact absurd rfl (hk.2 m)
    | _ => rfl
  have ha : kindAttrs k = [] := by
    cases k with
    | weekly l => exact absurd rfl (hk.1 l)
    | monthly m => exact absurd rfl (hk.2 m)
    | _ => rfl
  have hr : Rule.validate ⟨k, iv, count, u, exs⟩ = basicChecks iv count u := by
    rw [validate_eq]
    cases k with
    | weekly l => exact absurd rfl (hk.1 l)
    | monthly m => exact absurd rfl (hk.2 m)
    | _ => rcases basicChecks_cases iv count u with h | h <;> simp only [h] <;> rfl
  rw [new_eq hi, call_eq (d := Source.BasicRecurrenceRule_init) rfl,
    basic_init _ _ _ iv count u exs x hx "BasicRecurrenceRule._validate" hv (basicValidate_prog W n _ _ _ _ _ _)]
  unfold Rule.new
  simp only [hr]
  rcases basicChecks_cases iv count u with h | h
  · rw [h, ok_bind, toM_ok, toM_ok, ofRule_eq]; simp only [ha]
  · rw [h, raise, error_bind, toM_py, toM_py]

theorem new_weekly (W n : Nat) (iv : Int) (count : Option Int) (u : Option Until) (exs wds : List Int)
    (x y : Val) (hx : Seq x (exs.map .date)) (hy : Seq y (wds.map .int)) :
    Source.prog.new W (n + 3) "WeeklyRecurrenceRule" [.int iv, ofOption .int count, ofOption ofUntil u, x, y] []
    = toM ofRule (Rule.new (.weekly wds) iv count u exs) := by
  rw [new_eq (f := "WeeklyRecurrenceRule.__init__") rfl, call_eq (d := Source.WeeklyRecurrenceRule_init) rfl]
  refine weekly_init _ _ iv count u exs wds x y hx hy "WeeklyRecurrenceRule._validate" rfl ?_
  rw [ctx_call]
  rw [call_eq (d := Source.WeeklyRecurrenceRule_validate) rfl]
  exact weekly_validate _ _ _ _ _ _ _ (fun o => basicValidate_prog W n _ _ _ _ _ _)

theorem new_monthly (W n : Nat) (iv : Int) (count : Option Int) (u : Option Until) (exs : List Int) (s : String)
    (x : Val) (hx : Seq x (exs.map .date)) :
    Source.prog.new W (n + 3) "MonthlyRecurrenceRule" [.int iv, ofOption .int count, ofOption ofUntil u, x, .str s] []
    = toM ofRule (newMonthly iv count u exs s) := by
  rw [new_eq (f := "MonthlyRecurrenceRule.__init__") rfl, call_eq (d := Source.MonthlyRecurrenceRule_init) rfl]
  refine monthly_init _ _ iv count u exs x s hx "MonthlyRecurrenceRule._validate" rfl ?_
  rw [ctx_call]
  rw [call_eq (d := Source.MonthlyRecurrenceRule_validate) rfl]
  exact monthly_validate _ _ _ _ _ _ _ (fun o => basicValidate_prog W n _ _ _ _ _ _)

theorem newMonthly_name (iv : Int) (count : Option Int) (u : Option Until) (exs : List Int) (k : MonthlyKind) :
    newMonthly iv count u exs (monthlyName k) = Rule.new (.monthly k) iv count u exs := by
  cases k <;> rfl

/-! ### replace -/

theorem replace_plain (W n : Nat) (r : Rule) (hk : Plain r.kind) (iv : Option Int) (count : Option (Option Int))
    (u : Option (Option Until)) (exs : Option (List Int)) :
    Source.prog.invoke W (n + 3) (ofRule r) "replace" [ofArg .int iv, ofArg (ofOption .int) count, ofArg (ofOption ofUntil) u,
      ofArg ofDates exs] []
    = toM ofRule (r.replace iv count u exs) := by
  have hm : Source.prog.method 4 r.kind.className "replace" = some "BasicRecurrenceRule.replace" := by
    cases hr : r.kind with
    | weekly l => exact absurd hr (hk.1 l)
    | monthly m => exact absurd hr (hk.2 m)
    | _ => rfl
  have hm' : ∀ w m, r.replace iv count u exs w m
      = Rule.new r.kind (iv.getD r.interval) (count.getD r.count) (u.getD r.untl) (exs.getD r.exceptions) := by
    intro w m
    unfold Rule.replace
    cases hr : r.kind with
    | weekly l => exact absurd hr (hk.1 l)
    | monthly m => exact absurd hr (hk.2 m)
    | _ => rfl
  rw [ofRule, invoke_eq hm, ← ofRule, call_eq (d := Source.BasicRecurrenceRule_replace) rfl, hm']
  rw [← new_plain W n r.kind hk _ _ _ _ _ (.inl rfl)]
  exact basic_replace _ _ _ _ _ _ _

theorem replace_weekly (W n : Nat) (r : Rule) (wds : List Int) (hk : r.kind = .weekly wds) (iv : Option Int)
    (count : Option (Option Int)) (u : Option (Option Until)) (exs w : Option (List Int)) (m : Val) :
    Source.prog.invoke W (n + 4) (ofRule r) "replace" [ofArg .int iv, ofArg (ofOption .int) count, ofArg (ofOption ofUntil) u,
      ofArg ofDates exs, ofArg ofInts w, m] []
    = toM ofRule (r.replace iv count u exs w) := by
  have hm : Source.prog.method 4 r.kind.className "replace" = some "WeeklyRecurrenceRule.replace" := by rw [hk]; rfl
  rw [ofRule, invoke_eq hm, ← ofRule, call_eq (d := Source.WeeklyRecurrenceRule_replace) rfl]
  refine Eq.trans (weekly_replace _ _ _ wds hk _ _ _ _ _ _) ?_
  refine Eq.trans (new_weekly W n _ _ _ _ _ _ _ (.inl rfl) (.inl rfl)) ?_
  unfold Rule.replace
  simp only [hk]

theorem replace_monthly (W n : Nat) (r : Rule) (k : MonthlyKind) (hk : r.kind = .monthly k) (iv : Option Int)
    (count : Option (Option Int)) (u : Option (Option Until)) (exs : Option (List Int)) (w : Val) (m : Option MonthlyKind) :
    Source.prog.invoke W (n + 4) (ofRule r) "replace" [ofArg .int iv, ofArg (ofOption .int) count, ofArg (ofOption ofUntil) u,
      ofArg ofDates exs, w, ofArg (fun k => .str (monthlyName k)) m] []
    = toM ofRule (r.replace iv count u exs none m) := by
  have hm : Source.prog.method 4 r.kind.className "replace" = some "MonthlyRecurrenceRule.replace" := by rw [hk]; rfl
  have ha : ofArg (fun k => .str (monthlyName k)) m = ofArg .str (m.map monthlyName) := by cases m <;> rfl
  rw [ofRule, invoke_eq hm, ← ofRule, call_eq (d := Source.MonthlyRecurrenceRule_replace) rfl, ha]
  refine Eq.trans (monthly_replace _ _ _ k hk _ _ _ _ _ _) ?_
  have hg : (m.map monthlyName).getD (monthlyName k) = monthlyName (m.getD k) := by cases m <;> rfl
  rw [hg]
  refine Eq.trans (new_monthly W n _ _ _ _ _ _ (.inl rfl)) ?_
  rw [newMonthly_name]
  unfold Rule.replace
  simp only [hk]

/-! ### For large enough bounds -/

theorem gives_of {f : String} {args : List Val} {r : M Val} (N k : Nat)
    (h : ∀ W n, N ≤ W → Source.prog.call W (n + k) f args [] = r) : Gives f args r := by
  refine ⟨max N k, fun W hW n hn => ?_⟩
  obtain ⟨m, rfl⟩ := Nat.exists_eq_add_of_le (show k ≤ n by omega)
  rw [Nat.add_comm]
  exact h W m (by omega)

theorem answers_of {o : Val} {f : String} {args : List Val} {r : M Val} (N k : Nat)
    (h : ∀ W n, N ≤ W → Source.prog.invoke W (n + k) o f args [] = r) : Answers o f args r := by
  refine ⟨max N k, fun W hW n hn => ?_⟩
  obtain ⟨m, rfl⟩ := Nat.exists_eq_add_of_le (show k ≤ n by omega)
  rw [Nat.add_comm]
  exact h W m (by omega)

theorem makes_of {c : String} {args : List Val} {r : M Val} (N k : Nat)
    (h : ∀ W n, N ≤ W → Source.prog.new W (n + k) c args [] = r) : Makes c args r := by
  refine ⟨max N k, fun W hW n hn => ?_⟩
  obtain ⟨m, rfl⟩ := Nat.exists_eq_add_of_le (show k ≤ n by omega)
  rw [Nat.add_comm]
  exact h W m (by omega)

theorem runGen_more {σ : Type} (step : σ → Step σ) (n k : Nat) : ∀ s : σ, (runGen step n s).2 ≠ .running →
    runGen step (n + k) s = runGen step n s := by
  induction n with
  | zero => intro s h; exact absurd rfl h
  | succ n ih =>
    intro s h
    rw [show n + 1 + k = (n + k) + 1 by omega]
    unfold runGen at h ⊢
    cases hs : step s with
    | stop => rfl
    | fail e => rfl
    | yield o nx =>
      cases nx with
      | error e => rfl
      | ok s' =>
        simp only [hs] at h ⊢
        rw [ih s' h]

theorem applyRun_more (r : Rule) (t : Int) (e : Option Int) (n k : Nat) (h : (r.applyRun t e n).2 ≠ .running) :
    r.applyRun t e (n + k) = r.applyRun t e n := by
  unfold Rule.applyRun at h ⊢
  simp only [] at h ⊢
  split at h
  · rfl
  all_goals exact runGen_more _ _ _ _ h

theorem apply_call (W n : Nat) (r : Rule) (c : String) (attrs : List (String × Val)) (t : Int) (e : Option Int)
    (ht : dtInRange t = true) (hev : getAttr "dtstart" attrs = .ok (.datetime t)) (hh : (r.apply t e).2 ≠ .error .diverge)
    (hW : max r.fuel nextMonthFuel ≤ W) :
    Source.prog.call W (n + 3) (applyName r.kind) [ofRule r, .obj c attrs, ofOption .date e] [] = .ok (ofApply (r.apply t e)) := by
  rw [apply_prog W n r (fun _ => by omega) c attrs t e ht hev]
  have hr : (r.applyRun t e r.fuel).2 ≠ .running := fun h => hh (((apply_snd r t e).2 _).mpr (.inr ⟨rfl, h⟩))
  obtain ⟨k, rfl⟩ := Nat.exists_eq_add_of_le (show r.fuel ≤ W by omega)
  rw [applyRun_more r t e _ _ hr]
  unfold ofRun ofApply Rule.apply
  simp only []
  cases h : (r.applyRun t e r.fuel).2 with
  | running => exact absurd h hr
  | finished => rfl
  | raised e => rfl

theorem apply_answers (r : Rule) (c : String) (attrs : List (String × Val)) (t : Int) (e : Option Int) (ht : dtInRange t = true)
    (hev : getAttr "dtstart" attrs = .ok (.datetime t)) (hh : (r.apply t e).2 ≠ .error .diverge) :
    Answers (ofRule r) "apply" [.obj c attrs, ofOption .date e] (.ok (ofApply (r.apply t e))) := by
  refine answers_of (max r.fuel nextMonthFuel) 3 (fun W n hW => ?_)
  rw [ofRule, invoke_eq (method_apply r.kind)]
  exact apply_call W n r c attrs t e ht hev hh hW

theorem apply_loops (r : Rule) (c : String) (attrs : List (String × Val)) (t : Int) (e : Option Int) (ht : dtInRange t = true)
    (hev : getAttr "dtstart" attrs = .ok (.datetime t)) 
    (hh : ∀ n, (r.applyRun t e n).2 = .running) :
    Loops (ofRule r) "apply" [.obj c attrs, ofOption .date e] := by
  refine ⟨nextMonthFuel + 3, fun W hW n hn => ?_⟩
  obtain ⟨m, rfl⟩ := Nat.exists_eq_add_of_le (show 3 ≤ n by omega)
  rw [Nat.add_comm, apply_invoke W m r (fun _ => by omega) c attrs t e ht hev]
  unfold ofRun
  rw [hh W]
  exact ⟨_, rfl⟩

end CalCore.Lang
