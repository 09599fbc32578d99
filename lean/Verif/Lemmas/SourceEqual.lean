import Verif.Lemmas.SourceDays
/- The comparison of rules, as written. -/
namespace CalCore.Lang
open CalCore.Spec
set_option linter.unusedSectionVars false
variable [Source.Globals]

theorem eqs_cons {a b : Val} {as bs : List Val} {p q : Bool} (h : Val.eq a b = .ok p) (h' : Val.eqs as bs = .ok q) :
    Val.eqs (a :: as) (b :: bs) = .ok (p && q) := by
  rw [Val.eqs, h, M_bind_ok, h']
  cases p <;> rfl

theorem eqs_nil : Val.eqs [] [] = .ok true := by rw [Val.eqs]

theorem eqs_map {α : Type} [DecidableEq α] {f : α → Val} (hf : ∀ a b, Val.eq (f a) (f b) = .ok (decide (a = b))) (l l' : List α) :
    Val.eqs (l.map f) (l'.map f) = .ok (decide (l = l')) := by
  induction l generalizing l' with
  | nil =>
    cases l' with
    | nil => rw [List.map_nil, eqs_nil]; simp
    | cons b l' => simp [Val.eqs]
  | cons a l ih =>
    cases l' with
    | nil => simp [Val.eqs]
    | cons b l' =>
      rw [List.map_cons, List.map_cons, eqs_cons (hf a b) (ih l')]
      by_cases h : a = b <;> simp [h]

theorem eq_tuple_map {α : Type} [DecidableEq α] {f : α → Val} (hf : ∀ a b, Val.eq (f a) (f b) = .ok (decide (a = b))) (l l' : List α) :
    Val.eq (.tuple (l.map f)) (.tuple (l'.map f)) = .ok (decide (l = l')) := by
  rw [Val.eq]
  exact eqs_map hf l l'

theorem eq_option_int (a b : Option Int) : Val.eq (ofOption .int a) (ofOption .int b) = .ok (decide (a = b)) := by
  cases a <;> cases b <;> simp [ofOption, Val.eq, Val.num?]

theorem eq_until (a b : Until) : Val.eq (ofUntil a) (ofUntil b) = .ok (decide (a = b)) := by
  cases a <;> cases b <;> simp [ofUntil, Val.eq, Val.num?]

theorem eq_option_until (a b : Option Until) : Val.eq (ofOption ofUntil a) (ofOption ofUntil b) = .ok (decide (a = b)) := by
  cases a with
  | none =>
    cases b with
    | none => simp [ofOption, Val.eq]
    | some b => cases b <;> simp [ofOption, ofUntil, Val.eq, Val.num?]
  | some a =>
    cases b with
    | none => cases a <;> simp [ofOption, ofUntil, Val.eq, Val.num?]
    | some b => rw [ofOption_some, ofOption_some, eq_until]; simp

/-- The last value of the tuple that is compared. -/
def extraVals : RuleKind → List Val
  | .weekly w => [.tuple (w.map .int)]
  | .monthly m => [.str (monthlyName m)]
  | _ => []

/-- The tuple that is compared. -/
def ruleTuple (r : Rule) : Val :=
  .tuple (.str r.kind.className :: .int r.interval :: ofOption .int r.count :: ofOption ofUntil r.untl
    :: .tuple (r.exceptions.map .date) :: extraVals r.kind)

theorem monthlyName_inj (a b : MonthlyKind) : monthlyName a = monthlyName b ↔ a = b := by
  cases a <;> cases b <;> simp [monthlyName]

theorem kind_eqs (a b : RuleKind) {p : Bool} (as bs : List Val) (h : Val.eqs as bs = .ok p) (hl : as.length = bs.length) :
    Val.eqs (.str a.className :: (as ++ extraVals a)) (.str b.className :: (bs ++ extraVals b)) = .ok (decide (a = b) && p) := by
  have happ : ∀ (as bs xs ys : List Val) (p q : Bool), Val.eqs as bs = .ok p → as.length = bs.length → Val.eqs xs ys = .ok q →
      Val.eqs (as ++ xs) (bs ++ ys) = .ok (p && q) := by
    intro as
    induction as with
    | nil =>
      intro bs xs ys p q h hl hq
      cases bs with
      | nil =>
        rw [eqs_nil] at h
        cases h
        simpa using hq
      | cons b bs => cases hl
    | cons x as ih =>
      intro bs xs ys p q h hl hq
      cases bs with
      | nil => cases hl
      | cons y bs =>
        rw [Val.eqs] at h
        cases hxy : Val.eq x y with
        | error e => rw [hxy] at h; cases h
        | ok t =>
          rw [hxy, M_bind_ok] at h
          rw [List.cons_append, List.cons_append, Val.eqs, hxy, M_bind_ok]
          cases t with
          | true => exact ih bs xs ys p q h (by simpa using hl) hq
          | false => cases h; rfl
  have hname : a.className ≠ b.className →
      Val.eqs (.str a.className :: (as ++ extraVals a)) (.str b.className :: (bs ++ extraVals b)) = .ok false := by
    intro hne
    rw [Val.eqs, eq_str, M_bind_ok]
    simp [hne]
  by_cases hc : a.className = b.className
  · have hx : ∃ q, Val.eqs (extraVals a) (extraVals b) = .ok q ∧ q = decide (a = b) := by
      cases a <;> cases b <;> first
        | (simp [RuleKind.className] at hc; done)
        | (refine ⟨_, eqs_nil, ?_⟩; simp)
        | (refine ⟨_, eqs_cons (eq_tuple_map (fun a b => eq_int a b) _ _) eqs_nil, ?_⟩; simp)
        | (refine ⟨_, eqs_cons (eq_str _ _) eqs_nil, ?_⟩; simp [monthlyName_inj])
    obtain ⟨q, hq, rfl⟩ := hx
    rw [eqs_cons (eq_str _ _) (happ as bs _ _ p _ h hl hq), hc]
    simp [Bool.and_comm]
  · rw [hname hc]
    have : ¬ a = b := fun h => hc (by rw [h])
    simp [this]

theorem ruleTuple_eq (a b : Rule) : Val.eq (ruleTuple a) (ruleTuple b) = .ok (decide (a = b)) := by
  unfold ruleTuple
  rw [Val.eq]
  have h := kind_eqs a.kind b.kind
    [.int a.interval, ofOption .int a.count, ofOption ofUntil a.untl, .tuple (a.exceptions.map .date)]
    [.int b.interval, ofOption .int b.count, ofOption ofUntil b.untl, .tuple (b.exceptions.map .date)]
    (eqs_cons (eq_int _ _) (eqs_cons (eq_option_int _ _) (eqs_cons (eq_option_until _ _)
      (eqs_cons (eq_tuple_map (fun a b => eq_date a b) _ _) eqs_nil)))) rfl
  refine h.trans ?_
  congr 1
  cases a
  cases b
  simp

/-- The function that `_tupleForComparison` is. -/
def tupleName : RuleKind → String
  | .weekly _ => "WeeklyRecurrenceRule._tupleForComparison"
  | .monthly _ => "MonthlyRecurrenceRule._tupleForComparison"
  | _ => "BasicRecurrenceRule._tupleForComparison"

theorem method_tuple (k : RuleKind) : Source.prog.method 4 k.className "_tupleForComparison" = some (tupleName k) := by
  cases k <;> rfl
theorem method_eq (k : RuleKind) : Source.prog.method 4 k.className "__eq__" = some "BasicRecurrenceRule.__eq__" := by
  cases k <;> rfl
theorem method_ne (k : RuleKind) : Source.prog.method 4 k.className "__ne__" = some "BasicRecurrenceRule.__ne__" := by
  cases k <;> rfl

theorem on_rule (W n : Nat) (r : Rule) (m : String) (xs : M (List Val)) (ks : M (List (String × Val))) :
    callMethod (Source.prog.ctx W n) (ofRule r) m xs ks = callClass W n r.kind.className (ofRule r) m xs ks := by
  rw [ofRule]
  exact on_obj ..

theorem tuple_prog (W n : Nat) (r : Rule) :
    Source.prog.call W (n + 1) (tupleName r.kind) [ofRule r] [] = .ok (ruleTuple r) := by
  obtain ⟨kind, interval, count, untl, exceptions⟩ := r
  cases kind <;> first
    | (rw [show tupleName _ = "BasicRecurrenceRule._tupleForComparison" from rfl,
        call_eq (d := Source.BasicRecurrenceRule_tupleForComparison) rfl]
       lang [Source.BasicRecurrenceRule_tupleForComparison, ofRule, kindAttrs]
       rfl)
    | (rw [show tupleName _ = "WeeklyRecurrenceRule._tupleForComparison" from rfl,
        call_eq (d := Source.WeeklyRecurrenceRule_tupleForComparison) rfl]
       lang [Source.WeeklyRecurrenceRule_tupleForComparison, ofRule, kindAttrs]
       rfl)
    | (rw [show tupleName _ = "MonthlyRecurrenceRule._tupleForComparison" from rfl,
        call_eq (d := Source.MonthlyRecurrenceRule_tupleForComparison) rfl]
       lang [Source.MonthlyRecurrenceRule_tupleForComparison, ofRule, kindAttrs]
       rfl)

theorem isa_rule (W n : Nat) (r : Rule) :
    [Cls.user "BasicRecurrenceRule"].any (fun c => isInstance (Source.prog.ctx W n).isa c (ofRule r)) = true := by
  obtain ⟨kind, interval, count, untl, exceptions⟩ := r
  cases kind <;> rfl

theorem isa_none (W n : Nat) :
    [Cls.user "BasicRecurrenceRule"].any (fun c => isInstance (Source.prog.ctx W n).isa c .none) = false := rfl

theorem eq_prog (W n : Nat) (a b : Rule) :
    Source.prog.call W (n + 2) "BasicRecurrenceRule.__eq__" [ofRule a, ofRule b] [] = .ok (.bool (decide (a = b))) := by
  have h1 := tuple_prog W n a
  have h2 := tuple_prog W n b
  have h3 : (Source.prog.ctx W (n + 1)).equal (ruleTuple a) (ruleTuple b) = .ok (.bool (decide (a = b))) := by
    have := ruleTuple_eq a b
    unfold ruleTuple at this ⊢
    simp only [Ctx.equal, this, M_bind_ok]
  rw [call_eq (d := Source.BasicRecurrenceRule__eq_) rfl]
  lang [Source.BasicRecurrenceRule__eq_, ↓eval_method, on_rule, callClass_some (method_tuple a.kind), callClass_some (method_tuple b.kind),
    h1, h2, h3, isa_rule]

theorem eq_prog_none (W n : Nat) (a : Rule) :
    Source.prog.call W (n + 2) "BasicRecurrenceRule.__eq__" [ofRule a, .none] [] = .ok (.bool false) := by
  rw [call_eq (d := Source.BasicRecurrenceRule__eq_) rfl]
  lang [Source.BasicRecurrenceRule__eq_, isa_none]

theorem equal_rule (W n : Nat) (a : Rule) (y : Val) :
    (Source.prog.ctx W n).equal (ofRule a) y = Source.prog.call W n "BasicRecurrenceRule.__eq__" [ofRule a, y] [] := by
  rw [ofRule]
  simp only [Ctx.equal, Ctx.compareObj, ctx_method, method_eq, ctx_call]

theorem differ_rule (W n : Nat) (a : Rule) (y : Val) :
    (Source.prog.ctx W n).differ (ofRule a) y = Source.prog.call W n "BasicRecurrenceRule.__ne__" [ofRule a, y] [] := by
  rw [ofRule]
  simp only [Ctx.differ, Ctx.compareObj, ctx_method, method_ne, ctx_call]

theorem ne_prog (W n : Nat) (a b : Rule) :
    Source.prog.call W (n + 3) "BasicRecurrenceRule.__ne__" [ofRule a, ofRule b] [] = .ok (.bool (decide (a ≠ b))) := by
  have h := eq_prog W n a b
  rw [call_eq (d := Source.BasicRecurrenceRule__ne_) rfl]
  lang [Source.BasicRecurrenceRule__ne_, equal_rule, h]
  by_cases hab : a = b <;> simp [hab]

theorem ne_prog_none (W n : Nat) (a : Rule) :
    Source.prog.call W (n + 3) "BasicRecurrenceRule.__ne__" [ofRule a, .none] [] = .ok (.bool true) := by
  have h := eq_prog_none W n a
  rw [call_eq (d := Source.BasicRecurrenceRule__ne_) rfl]
  lang [Source.BasicRecurrenceRule__ne_, equal_rule, h]

theorem differ_rules (W n : Nat) (a b : Option Rule) :
    (Source.prog.ctx W (n + 3)).differ (ofOption ofRule a) (ofOption ofRule b) = .ok (.bool (decide (a ≠ b))) := by
  cases a with
  | none =>
    cases b with
    | none => simp [ofOption, Ctx.differ, Val.eq]
    | some b => simp [ofOption, ofRule, Ctx.differ, Val.eq, Val.num?]
  | some a =>
    rw [ofOption_some, differ_rule]
    cases b with
    | none => rw [ofOption_none, ne_prog_none]; simp
    | some b => rw [ofOption_some, ne_prog]; simp

end CalCore.Lang
