import Verif.Lemmas.SourceImportRule
/- The text of rules in the iCalendar format, as written. -/
namespace CalCore.Lang

/-! ### formatting -/

/-- The start of a format that has no directive is written as it is. -/
theorem format_text (a : List Char) (f : List Char) (vs : List Val) (h : '%' ∉ a) {s : String} (hs : format f vs = .ok s) :
    format (a ++ f) vs = .ok (String.ofList a ++ s) := by
  induction a with
  | nil =>
    rw [List.nil_append, hs]
    congr 1
  | cons c a ih =>
    rw [List.cons_append, format_char c _ vs (fun e => h (e ▸ List.mem_cons_self)), ih (fun e => h (List.mem_cons_of_mem c e))]
    simp only [M_bind_ok]
    congr 1
    apply String.ext
    simp only [String.toList_append, String.toList_singleton, String.toList_ofList, List.cons_append, List.nil_append]

theorem format_s (f : List Char) (a : String) (vs : List Val) {s : String} (hs : format f vs = .ok s) :
    format ('%' :: 's' :: f) (.str a :: vs) = .ok (a ++ s) := by
  rw [format]
  simp only [showVal, hs, M_bind_ok]

theorem format_d (f : List Char) (n : Int) (vs : List Val) {s : String} (hs : format f vs = .ok s) :
    format ('%' :: 'd' :: f) (.int n :: vs) = .ok (toString n ++ s) := by
  rw [format]
  simp only [showInt, hs, M_bind_ok]

theorem format_end : format [] [] = .ok "" := rfl

theorem format_tail (a : List Char) (h : '%' ∉ a) : format a [] = .ok (String.ofList a) := by
  have := format_text a [] [] h format_end
  rw [List.append_nil] at this
  rw [this, String.append_empty]

theorem mod_int (f : String) (n : Int) : binop .mod (.str f) (.int n) = (format f.toList [.int n]).map .str := rfl
theorem mod_str (f : String) (s : String) : binop .mod (.str f) (.str s) = (format f.toList [.str s]).map .str := rfl
theorem mod_tuple (f : String) (l : List Val) : binop .mod (.str f) (.tuple l) = (format f.toList l).map .str := rfl

theorem fmt_count (c : Int) : binop .mod (.str "COUNT=%d;") (.int c) = .ok (.str ("COUNT=" ++ toString c ++ ";")) := by
  rw [mod_int, show "COUNT=%d;".toList = "COUNT=".toList ++ ('%' :: 'd' :: ";".toList) by decide +kernel,
    format_text _ _ _ (by decide +kernel) (format_d _ _ _ (format_tail _ (by decide +kernel)))]
  rw [String.ofList_toList, String.ofList_toList, String.append_assoc]
  rfl

theorem fmt_until (s : String) : binop .mod (.str "UNTIL=%s;") (.str s) = .ok (.str ("UNTIL=" ++ s ++ ";")) := by
  rw [mod_str, show "UNTIL=%s;".toList = "UNTIL=".toList ++ ('%' :: 's' :: ";".toList) by decide +kernel,
    format_text _ _ _ (by decide +kernel) (format_s _ _ _ (format_tail _ (by decide +kernel)))]
  rw [String.ofList_toList, String.ofList_toList, String.append_assoc]
  rfl

theorem fmt_monthday (n : Int) : binop .mod (.str "BYMONTHDAY=%d") (.int n) = .ok (.str ("BYMONTHDAY=" ++ toString n)) := by
  rw [mod_int, show "BYMONTHDAY=%d".toList = "BYMONTHDAY=".toList ++ ('%' :: 'd' :: []) by decide +kernel,
    format_text _ _ _ (by decide +kernel) (format_d _ _ _ format_end)]
  rw [String.ofList_toList, String.append_empty]
  rfl

theorem fmt_weekday (n : Int) (s : String) :
    binop .mod (.str "BYDAY=%d%s") (.tuple [.int n, .str s]) = .ok (.str ("BYDAY=" ++ toString n ++ s)) := by
  rw [mod_tuple, show "BYDAY=%d%s".toList = "BYDAY=".toList ++ ('%' :: 'd' :: '%' :: 's' :: []) by decide +kernel,
    format_text _ _ _ (by decide +kernel) (format_d _ _ _ (format_s _ _ _ format_end))]
  rw [String.ofList_toList, String.append_empty, String.append_assoc]
  rfl

theorem fmt_last (s : String) : binop .mod (.str "BYDAY=-1%s") (.str s) = .ok (.str ("BYDAY=-1" ++ s)) := by
  rw [mod_str, show "BYDAY=-1%s".toList = "BYDAY=-1".toList ++ ('%' :: 's' :: []) by decide +kernel,
    format_text _ _ _ (by decide +kernel) (format_s _ _ _ format_end)]
  rw [String.ofList_toList, String.append_empty]
  rfl

theorem fmt_line (f a : String) (n : Int) : binop .mod (.str "RRULE:FREQ=%s;%sINTERVAL=%d") (.tuple [.str f, .str a, .int n])
    = .ok (.str ("RRULE:FREQ=" ++ f ++ ";" ++ a ++ "INTERVAL=" ++ toString n)) := by
  rw [mod_tuple, show "RRULE:FREQ=%s;%sINTERVAL=%d".toList
      = "RRULE:FREQ=".toList ++ ('%' :: 's' :: (";".toList ++ ('%' :: 's' :: ("INTERVAL=".toList ++ ('%' :: 'd' :: []))))) by decide +kernel,
    format_text _ _ _ (by decide +kernel) (format_s _ _ _ (format_text _ _ _ (by decide +kernel)
      (format_s _ _ _ (format_text _ _ _ (by decide +kernel) (format_d _ _ _ format_end)))))]
  simp only [String.ofList_toList, String.append_empty, String.append_assoc]
  rfl

/-! ### dates -/

theorem field_day_datetime (t : Int) : getField .day (.datetime t) = .ok (.int (dday (dtDate t))) := rfl
theorem meth_strftime_date (d : Int) (f : String) : callMeth .strftime (.date d) [.str f] [] = (strftime d 0 f.toList).map .str := rfl
theorem meth_strftime_datetime (t : Int) (f : String) :
    callMeth .strftime (.datetime t) [.str f] [] = (strftime (dtDate t) (dtTime t) f.toList).map .str := rfl

theorem strftime_date (d t : Int) : strftime d t "%Y%m%d".toList = match icalDate d with
    | .ok s => .ok s
    | .error f => .error (ofFault f) := by
  rw [show "%Y%m%d".toList = ['%', 'Y', '%', 'm', '%', 'd'] by decide +kernel]
  unfold strftime icalDate
  split
  · rfl
  · simp only [strftimeRest, strftimePart, M_bind_ok, String.append_empty, String.append_assoc]

theorem strftime_datetime (d t : Int) : strftime d t "%Y%m%dT%H%M%S".toList = match icalDate d with
    | .ok s => .ok (s ++ "T" ++ icalTime t)
    | .error f => .error (ofFault f) := by
  rw [show "%Y%m%dT%H%M%S".toList = ['%', 'Y', '%', 'm', '%', 'd', 'T', '%', 'H', '%', 'M', '%', 'S'] by decide +kernel]
  unfold strftime icalDate
  split
  · rfl
  · have hT : String.singleton 'T' = "T" := by decide +kernel
    have hr : ∀ f, strftimeRest d t ('T' :: f) = (do .ok (String.singleton 'T' ++ (← strftimeRest d t f))) := fun f => by
      conv => lhs; unfold strftimeRest
      rfl
    simp only [strftimeRest, hr, strftimePart, M_bind_ok, String.append_empty, String.append_assoc, icalTime, hT]

theorem ical_date_prog (W n : Nat) (d : Int) : Source.prog.call W (n + 1) "ical_date" [.date d] [] = toM .str (icalDate d) := by
  rw [call_eq (d := Source.ical_date) rfl]
  have h := strftime_date d 0
  generalize icalDate d = x at h ⊢
  cases x with
  | ok s => lang [Source.ical_date, meth_strftime_date, h, toM_ok]
  | error f => lang [Source.ical_date, meth_strftime_date, h, toM_error]

theorem ical_datetime_prog (W n : Nat) (u : Until) :
    Source.prog.call W (n + 1) "ical_datetime" [ofUntil u] [] = toM .str (icalDateTime u) := by
  rw [call_eq (d := Source.ical_datetime) rfl]
  cases u with
  | date d =>
    have h := strftime_datetime d 0
    unfold icalDateTime
    simp only []
    generalize icalDate d = x at h ⊢
    cases x with
    | ok s =>
      lang [Source.ical_datetime, ofUntil, meth_strftime_date, h]
      rfl
    | error f =>
      lang [Source.ical_datetime, ofUntil, meth_strftime_date, h]
      cases f <;> rfl
  | datetime t =>
    have h := strftime_datetime (dtDate t) (dtTime t)
    unfold icalDateTime
    simp only []
    generalize icalDate (dtDate t) = x at h ⊢
    cases x with
    | ok s =>
      lang [Source.ical_datetime, ofUntil, meth_strftime_datetime, h]
      rfl
    | error f =>
      lang [Source.ical_datetime, ofUntil, meth_strftime_datetime, h]
      cases f <;> rfl

/-! ### lists -/

theorem join_strs (sep : String) (l : List String) : joinStrs sep (l.map .str) = .ok (String.intercalate sep l) := by
  induction l with
  | nil => rfl
  | cons a l ih =>
    cases l with
    | nil => rfl
    | cons b l =>
      rw [String.intercalate_cons_cons, List.map_cons, List.map_cons, joinStrs, ← List.map_cons, ih]
      · rfl
      · intro h; cases h

theorem meth_join (sep : String) (l : List String) :
    callMeth .join (.str sep) [.list (l.map .str)] [] = .ok (.str (String.intercalate sep l)) := by
  have h : callMeth .join (.str sep) [.list (l.map .str)] [] = (do .ok (.str (← joinStrs sep (l.map .str)))) := rfl
  rw [h, join_strs]
  rfl

theorem collect_str {f : Int → Res String} {g : Int → Val} {elt : Val → M Val} (l : List Int)
    (h : ∀ d ∈ l, elt (g d) = toM .str (f d)) :
    collect (fun _ => .ok (.bool true)) elt (l.map g) = match l.mapM f with
      | .ok s => .ok (s.map .str)
      | .error e => .error (ofFault e) := by
  induction l with
  | nil => rfl
  | cons a l ih =>
    have ih := ih (fun d hd => h d (List.mem_cons_of_mem a hd))
    rw [List.map_cons, List.mapM_cons]
    unfold collect
    rw [h a List.mem_cons_self, ih]
    generalize hx : f a = x
    generalize l.mapM f = y
    cases x with
    | error e => cases e <;> rfl
    | ok s => cases y with
      | error e => rfl
      | ok t => rfl

theorem weekday_pick (w : Int) (h : 0 ≤ w) : getIndex.pick (icalWeekdays.map .str) w = toM .str (icalWeekday w) := by
  unfold getIndex.pick icalWeekday
  rw [if_pos h, if_neg (by omega), List.getElem?_map]
  cases icalWeekdays[w.toNat]? <;> rfl

theorem collect_weekdays (W n : Nat) (l : List Int) (h : ∀ w ∈ l, 0 ≤ w) :
    collect (fun _ => .ok (.bool true)) (fun v => do getIndex (← getGlobal "ical_weekdays" (Source.prog.ctx W n).globals) v) (l.map .int)
    = match l.mapM icalWeekday with
      | .ok s => .ok (s.map .str)
      | .error e => .error (ofFault e) :=
  collect_str (f := icalWeekday) l (fun w hw => by rw [weekdays_glob, M_bind_ok, index_list, weekday_pick w (h w hw)])

/-! ### `_iCalArgs` -/

/-- The name of the function `_iCalArgs` of a class. -/
def argsName : RuleKind → String
  | .yearly => "YearlyRecurrenceRule._iCalArgs"
  | .weekly _ => "WeeklyRecurrenceRule._iCalArgs"
  | .monthly _ => "MonthlyRecurrenceRule._iCalArgs"
  | _ => "BasicRecurrenceRule._iCalArgs"

theorem method_args (k : RuleKind) : Source.prog.method 4 k.className "_iCalArgs" = some (argsName k) := by
  cases k <;> rfl

theorem basic_args (W n : Nat) (v dt : Val) :
    Source.prog.call W (n + 1) "BasicRecurrenceRule._iCalArgs" [v, dt] [] = .ok .none := by
  rw [call_eq (d := Source.BasicRecurrenceRule_iCalArgs) rfl]
  lang [Source.BasicRecurrenceRule_iCalArgs]

theorem yearly_args (W n : Nat) (v dt : Val) :
    Source.prog.call W (n + 1) "YearlyRecurrenceRule._iCalArgs" [v, dt] [] = .ok .none := by
  rw [call_eq (d := Source.YearlyRecurrenceRule_iCalArgs) rfl]
  lang [Source.YearlyRecurrenceRule_iCalArgs]

theorem bin_add_str (a b : String) : binop .add (.str a) (.str b) = .ok (.str (a ++ b)) := rfl

theorem weekday_nonneg (d : Int) : 0 ≤ weekday d := by unfold weekday; omega

theorem args_prog (W n : Nat) (r : Rule) (t : Int) (hw : ∀ l, r.kind = .weekly l → ∀ w ∈ l, 0 ≤ w) :
    Source.prog.call W (n + 1) (argsName r.kind) [ofRule r, .datetime t] [] = toM (ofOption .str) (r.icalArgs t) := by
  obtain ⟨kind, interval, count, untl, exceptions⟩ := r
  cases kind with
  | basic => exact basic_args ..
  | no => exact basic_args ..
  | daily => exact basic_args ..
  | yearly => exact yearly_args ..
  | weekly l =>
    rw [show argsName (.weekly l) = "WeeklyRecurrenceRule._iCalArgs" from rfl, call_eq (d := Source.WeeklyRecurrenceRule_iCalArgs) rfl]
    have hc := collect_weekdays W n l (hw l rfl)
    unfold Rule.icalArgs
    simp only []
    cases l with
    | nil =>
      lang [Source.WeeklyRecurrenceRule_iCalArgs, ofRule, kindAttrs]
      rfl
    | cons a l =>
      rw [if_neg (by simp)]
      generalize List.mapM icalWeekday (a :: l) = x at hc ⊢
      cases x with
      | ok s =>
        simp only [List.map_cons] at hc
        lang [Source.WeeklyRecurrenceRule_iCalArgs, ofRule, kindAttrs, hc, meth_join, bin_add_str]
        rfl
      | error e =>
        simp only [List.map_cons] at hc
        lang [Source.WeeklyRecurrenceRule_iCalArgs, ofRule, kindAttrs, hc]
        cases e <;> rfl
  | monthly m =>
    rw [show argsName (.monthly m) = "MonthlyRecurrenceRule._iCalArgs" from rfl, call_eq (d := Source.MonthlyRecurrenceRule_iCalArgs) rfl]
    have hp := weekday_pick (weekday (dtDate t)) (weekday_nonneg _)
    have h7 : ¬ ((7 : Int) = 0) := by decide
    have hf : ∀ a : Int, a.fdiv 7 = a / 7 := fun a => Int.fdiv_eq_ediv_of_nonneg a (by decide)
    unfold Rule.icalArgs
    simp only []
    cases m with
    | monthday =>
      lang [Source.MonthlyRecurrenceRule_iCalArgs, ofRule, kindAttrs, monthlyName, field_day_datetime, fmt_monthday]
      rfl
    | weekday =>
      simp only []
      generalize icalWeekday (weekday (dtDate t)) = x at hp ⊢
      cases x with
      | ok s =>
        rw [toM_ok] at hp
        lang [Source.MonthlyRecurrenceRule_iCalArgs, ofRule, kindAttrs, monthlyName, field_day_datetime, weekdays_glob, hp, fmt_weekday, hf, h7]
        rfl
      | error e =>
        rw [toM_error] at hp
        lang [Source.MonthlyRecurrenceRule_iCalArgs, ofRule, kindAttrs, monthlyName, field_day_datetime, weekdays_glob, hp, hf, h7]
        cases e <;> rfl
    | lastweekday =>
      simp only []
      generalize icalWeekday (weekday (dtDate t)) = x at hp ⊢
      cases x with
      | ok s =>
        rw [toM_ok] at hp
        lang [Source.MonthlyRecurrenceRule_iCalArgs, ofRule, kindAttrs, monthlyName, field_day_datetime, weekdays_glob, hp, fmt_last]
        rfl
      | error e =>
        rw [toM_error] at hp
        lang [Source.MonthlyRecurrenceRule_iCalArgs, ofRule, kindAttrs, monthlyName, field_day_datetime, weekdays_glob, hp]
        cases e <;> rfl

/-! ### `iCalRepresentation` -/

theorem freq_const (k : RuleKind) : Source.prog.const 4 k.className "ical_freq" = some (ofOption .str k.icalFreq) := by
  cases k <;> rfl

theorem ctx_const (W n : Nat) (c a : String) : (Source.prog.ctx W n).const c a = Source.prog.const 4 c a := rfl

theorem freq_attr (W n : Nat) (r : Rule) (rest : List (String × Val)) (hr : ofRule r = .obj r.kind.className rest) :
    (Source.prog.ctx W n).attrOf r.kind.className "ical_freq" rest = .ok (ofOption .str r.kind.icalFreq) := by
  rw [ofRule] at hr
  injection hr with _ hr
  subst hr
  unfold Ctx.attrOf
  rw [ctx_const, freq_const]
  cases r.kind <;> rfl

/-- The variables of `iCalRepresentation`. -/
def repEnv (r : Rule) (t : Int) (args extra result dates d : Option Val) : Env :=
  [("self", some (ofRule r)), ("dtstart", some (.datetime t)), ("args", args), ("extra_args", extra), ("result", result),
    ("dates", dates), ("d", d)]

/-- recurrent.py lines 140-145 -/
def boundStmt : Stmt :=
  .ite (.attr (.var "self") "count") [
    .assign (.name "args") (.bin .mod (.const (.str "COUNT=%d;")) (.attr (.var "self") "count"))] [
    .ite (.attr (.var "self") "until") [
      .assign (.name "args") (.bin .mod (.const (.str "UNTIL=%s;")) (.call "ical_datetime" [(.attr (.var "self") "until")] []))] [
      .assign (.name "args") (.const (.str ""))]]

/-- recurrent.py lines 146-148 -/
def extraStmts : List Stmt := [
  .assign (.name "extra_args") (.method (.var "self") "_iCalArgs" [(.var "dtstart")] []),
  .ite (.cmp .isNot (.var "extra_args") (.const .none)) [
    .assign (.name "args") (.bin .add (.var "args") (.bin .add (.var "extra_args") (.const (.str ";"))))] []]

/-- recurrent.py lines 150-152 -/
def lineStmt : Stmt :=
  .assign (.name "result") (.list [(.bin .mod (.const (.str "RRULE:FREQ=%s;%sINTERVAL=%d")) (.tuple [(.cattr (.var "self") "ical_freq"), (.var "args"), (.attr (.var "self") "interval")]))])

/-- recurrent.py lines 153-158 -/
def exdateStmt : Stmt :=
  .ite (.attr (.var "self") "exceptions") [
    .assign (.name "dates") (.meth (.const (.str ",")) .join [(.comp (.call "ical_date" [(.var "d")] []) "d" (.attr (.var "self") "exceptions") (.const (.bool true)))] []),
    .mutate none "result" .append [(.bin .add (.const (.str "EXDATE;VALUE=DATE:")) (.var "dates"))]] []

/-- The body of `iCalRepresentation`. -/
def repBody : List Stmt :=
  .assert (.cattr (.var "self") "ical_freq") :: boundStmt :: (extraStmts ++ [lineStmt, exdateStmt, .ret (.var "result")])

theorem rep_eq : Source.BasicRecurrenceRule_iCalRepresentation
    = ⟨.fn, [("self", none), ("dtstart", none)], ["args", "extra_args", "result", "dates", "d"], repBody⟩ := rfl

theorem bound_stmt (W n : Nat) (r : Rule) (t : Int) :
    exec (Source.prog.ctx W (n + 1)) W boundStmt ⟨repEnv r t none none none none none, []⟩
    = match r.icalBound with
      | .ok s => (⟨repEnv r t (some (.str s)) none none none none, []⟩, .next)
      | .error e => (⟨repEnv r t none none none none none, []⟩, .stop (ofFault e)) := by
  have hd := ical_datetime_prog W n
  obtain ⟨kind, interval, count, untl, exceptions⟩ := r
  have hu : ∀ u, (ofUntil u).truthy = true := fun u => by cases u <;> rfl
  unfold Rule.icalBound
  cases count with
  | none =>
    cases untl with
    | none => lang [boundStmt, repEnv, ofRule, ofOption_none]
    | some u =>
      have hd := hd u
      simp only []
      generalize icalDateTime u = x at hd ⊢
      cases x with
      | ok s =>
        rw [toM_ok] at hd
        lang [boundStmt, repEnv, ofRule, ofOption_none, ofOption_some, hu, ctx_call, hd, fmt_until]
        rfl
      | error e =>
        rw [toM_error] at hd
        lang [boundStmt, repEnv, ofRule, ofOption_none, ofOption_some, hu, ctx_call, hd]
        rfl
  | some c =>
    by_cases hc : c = 0
    · subst hc
      cases untl with
      | none => lang [boundStmt, repEnv, ofRule, ofOption_none, ofOption_some]
      | some u =>
        have hd := hd u
        simp only []
        rw [if_neg (by simp)]
        generalize icalDateTime u = x at hd ⊢
        cases x with
        | ok s =>
          rw [toM_ok] at hd
          lang [boundStmt, repEnv, ofRule, ofOption_none, ofOption_some, hu, ctx_call, hd, fmt_until]
          rfl
        | error e =>
          rw [toM_error] at hd
          lang [boundStmt, repEnv, ofRule, ofOption_none, ofOption_some, hu, ctx_call, hd]
          rfl
    · simp only []
      rw [if_pos hc]
      lang [boundStmt, repEnv, ofRule, ofOption_some, hc, fmt_count]

theorem extra_stmts (W n : Nat) (r : Rule) (t : Int) (s : String) (hw : ∀ l, r.kind = .weekly l → ∀ w ∈ l, 0 ≤ w) :
    ∃ E, execs (Source.prog.ctx W (n + 1)) W extraStmts ⟨repEnv r t (some (.str s)) none none none none, []⟩
    = match r.icalArgs t with
      | .ok o => (⟨repEnv r t (some (.str (match o with
        | some x => s ++ x ++ ";"
        | none => s))) E none none none, []⟩, .next)
      | .error e => (⟨repEnv r t (some (.str s)) none none none none, []⟩, .stop (ofFault e)) := by
  have ha := args_prog W n r t hw
  generalize r.icalArgs t = x at ha ⊢
  cases x with
  | error e =>
    rw [toM_error] at ha
    refine ⟨none, ?_⟩
    lang [extraStmts, repEnv, ↓eval_method, on_rule, callClass_some (method_args _), ha]
  | ok o =>
    rw [toM_ok] at ha
    cases o with
    | none =>
      rw [ofOption_none] at ha
      refine ⟨some .none, ?_⟩
      lang [extraStmts, repEnv, ↓eval_method, on_rule, callClass_some (method_args _), ha]
    | some x =>
      rw [ofOption_some] at ha
      refine ⟨some (.str x), ?_⟩
      lang [extraStmts, repEnv, ↓eval_method, on_rule, callClass_some (method_args _), ha, bin_add_str, String.append_assoc]

theorem line_stmt (W n : Nat) (r : Rule) (t : Int) (s f : String) (E : Option Val) (hf : r.kind.icalFreq = some f) :
    exec (Source.prog.ctx W n) W lineStmt ⟨repEnv r t (some (.str s)) E none none none, []⟩
    = (⟨repEnv r t (some (.str s)) E
        (some (.list [.str ("RRULE:FREQ=" ++ f ++ ";" ++ s ++ "INTERVAL=" ++ toString r.interval)])) none none, []⟩, .next) := by
  have ha := freq_attr W n r _ rfl
  rw [hf, ofOption_some] at ha
  lang [lineStmt, repEnv, ofRule, ha, fmt_line]

theorem collect_dates (W n : Nat) (l : List Int) :
    collect (fun _ => .ok (.bool true)) (fun v => Source.prog.call W (n + 1) "ical_date" [v] []) (l.map .date)
    = match l.mapM icalDate with
      | .ok s => .ok (s.map .str)
      | .error e => .error (ofFault e) :=
  collect_str (f := icalDate) l (fun d _ => ical_date_prog W n d)

theorem exdate_stmt (W n : Nat) (r : Rule) (t : Int) (A E : Option Val) (line : String) :
    ∃ D, exec (Source.prog.ctx W (n + 1)) W exdateStmt ⟨repEnv r t A E (some (.list [.str line])) none none, []⟩
    = match (if r.exceptions = [] then .ok [line] else (do
        let dates ← r.exceptions.mapM icalDate
        .ok [line, "EXDATE;VALUE=DATE:" ++ String.intercalate "," dates]) : Res (List String)) with
      | .ok l => (⟨repEnv r t A E (some (.list (l.map .str))) D none, []⟩, .next)
      | .error e => (⟨repEnv r t A E (some (.list [.str line])) none none, []⟩, .stop (ofFault e)) := by
  have hc := collect_dates W n r.exceptions
  obtain ⟨kind, interval, count, untl, exceptions⟩ := r
  cases exceptions with
  | nil =>
    refine ⟨none, ?_⟩
    rw [if_pos rfl]
    lang [exdateStmt, repEnv, ofRule]
  | cons a l =>
    rw [if_neg (by simp)]
    simp only [] at hc ⊢
    generalize List.mapM icalDate (a :: l) = x at hc ⊢
    cases x with
    | ok s =>
      simp only [List.map_cons] at hc
      refine ⟨some (.str (String.intercalate "," s)), ?_⟩
      lang [exdateStmt, repEnv, ofRule, ctx_call, hc, meth_join, bin_add_str]
      rfl
    | error e =>
      simp only [List.map_cons] at hc
      refine ⟨none, ?_⟩
      lang [exdateStmt, repEnv, ofRule, ctx_call, hc]
      rfl

theorem rep_call (W n : Nat) (r : Rule) (t : Int) :
    FunDef.call ⟨.fn, [("self", none), ("dtstart", none)], ["args", "extra_args", "result", "dates", "d"], repBody⟩
      (Source.prog.ctx W n) W [ofRule r, .datetime t] []
    = FunDef.result ⟨.fn, [("self", none), ("dtstart", none)], ["args", "extra_args", "result", "dates", "d"], repBody⟩
      (execs (Source.prog.ctx W n) W repBody ⟨repEnv r t none none none none none, []⟩) := rfl

theorem freq_stmt (W n : Nat) (r : Rule) (t : Int) :
    exec (Source.prog.ctx W n) W (.assert (.cattr (.var "self") "ical_freq")) ⟨repEnv r t none none none none none, []⟩
    = match r.kind.icalFreq with
      | some _ => (⟨repEnv r t none none none none none, []⟩, .next)
      | none => (⟨repEnv r t none none none none none, []⟩, .stop (.py .AssertionError)) := by
  have ha := freq_attr W n r _ rfl
  cases hf : r.kind.icalFreq with
  | none =>
    rw [hf, ofOption_none] at ha
    lang [repEnv, ofRule, ha]
  | some f =>
    rw [hf, ofOption_some] at ha
    have hne : f ≠ "" := by
      cases hk : r.kind <;> rw [hk] at hf <;> simp only [RuleKind.icalFreq, Option.some.injEq, reduceCtorEq] at hf <;> subst hf <;> decide
    lang [repEnv, ofRule, ha, hne]

theorem rep_prog (W n : Nat) (r : Rule) (t : Int) (hw : ∀ l, r.kind = .weekly l → ∀ w ∈ l, 0 ≤ w) :
    Source.prog.call W (n + 2) "BasicRecurrenceRule.iCalRepresentation" [ofRule r, .datetime t] []
    = toM (fun l => .list (l.map .str)) (r.icalRepresentation t) := by
  rw [call_eq (d := Source.BasicRecurrenceRule_iCalRepresentation) rfl, rep_eq, rep_call]
  have h1 := freq_stmt W (n + 1) r t
  have h2 := bound_stmt W n r t
  unfold Rule.icalRepresentation repBody
  rw [execs_cons, h1]
  cases hf : r.kind.icalFreq with
  | none => rfl
  | some f =>
    simp only [andThen_next]
    rw [execs_cons, h2]
    generalize r.icalBound = b
    cases b with
    | error e => cases e <;> rfl
    | ok s =>
      simp only [andThen_next, ok_bind]
      obtain ⟨E, h3⟩ := extra_stmts W n r t s hw
      rw [execs_append, h3]
      generalize r.icalArgs t = a
      cases a with
      | error e => cases e <;> rfl
      | ok o =>
        simp only [andThen_next, ok_bind]
        have h4 := line_stmt W (n + 1) r t
        rw [execs_cons, h4 _ f E hf]
        simp only [andThen_next]
        obtain ⟨D, h5⟩ := exdate_stmt W n r t (some (.str (match o with
          | some x => s ++ x ++ ";"
          | none => s))) E ("RRULE:FREQ=" ++ f ++ ";" ++ (match o with
          | some x => s ++ x ++ ";"
          | none => s) ++ "INTERVAL=" ++ toString r.interval)
        rw [execs_cons, h5]
        generalize (if r.exceptions = [] then _ else _ : Res (List String)) = y
        cases y with
        | error e => cases e <;> rfl
        | ok l => rfl

end CalCore.Lang
