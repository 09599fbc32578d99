import Verif.Spec.Represent
import Verif.Lemmas.Res
import Verif.Lemmas.DateTime
namespace CalCore.Lang

theorem call_eq {P : Prog} {f : String} {d : FunDef} (h : P.find f = some d) (W n : Nat) (args : List Val)
    (kw : List (String × Val)) : P.call W (n + 1) f args kw = d.call (P.ctx W n) W args kw := by
  rw [Prog.call, h]
  rfl

@[simp] theorem M_bind_ok {α β : Type} (a : α) (f : α → M β) : ((Except.ok a : M α) >>= f) = f a := rfl
@[simp] theorem M_bind_error {α β : Type} (e : Stop) (f : α → M β) : ((Except.error e : M α) >>= f) = .error e := rfl

theorem compare_int (x y : Int) : compare x y = if x < y then .lt else if y < x then .gt else .eq := by
  simp only [compare, compareOfLessAndEq]
  split
  · rfl
  · split
    · rw [if_neg (by omega)]
    · rw [if_pos (by omega)]

theorem cmp_le (a b : Int) : decide (compare a b ≠ Ordering.gt) = decide (a ≤ b) := by
  rw [compare_int]
  apply decide_eq_decide.mpr
  split
  · simp; omega
  · split
    · simp; omega
    · simp; omega

theorem cmp_lt (a b : Int) : decide (compare a b = Ordering.lt) = decide (a < b) := by
  rw [compare_int]
  apply decide_eq_decide.mpr
  split
  · simp; omega
  · split
    · simp; omega
    · simp; omega

theorem cmp_ge (a b : Int) : decide (compare a b ≠ Ordering.lt) = decide (b ≤ a) := by
  rw [compare_int]
  apply decide_eq_decide.mpr
  split
  · simp; omega
  · split
    · simp; omega
    · simp; omega

theorem cmp_gt (a b : Int) : decide (compare a b = Ordering.gt) = decide (b < a) := by
  rw [compare_int]
  apply decide_eq_decide.mpr
  split
  · simp; omega
  · split
    · simp; omega
    · simp; omega

/-- The body of a `for` loop. -/
def forBody (G : Ctx) (W : Nat) (t : Target) (body : List Stmt) (v : Val) (s : State) : State × Ctl :=
  andThen (s.into (assign G v s.env t)) (fun s => execs G W body s)

/-- The condition of a `while` loop. -/
def whileCond (G : Ctx) (c : Expr) (s : State) : M Val := eval G s.env c

/-- The part of a `for` statement after its collection is evaluated. -/
def forRest (G : Ctx) (W : Nat) (t : Target) (body orelse : List Stmt) (s : State) : M (List Val × Option Stop) → State × Ctl
  | .error e => (s, .stop e)
  | .ok (items, fin) => endLoop (forLoop (forBody G W t body) items s)
      (fun s => endIter fin s (fun s => execs G W orelse s))

theorem exec_assign (G : Ctx) (W : Nat) (t : Target) (e : Expr) (s : State) :
    exec G W (.assign t e) s = s.into (do assign G (← eval G s.env e) s.env t) := by rw [exec]
theorem exec_mutate_none (G : Ctx) (W : Nat) (x : String) (m : Mut) (args : List Expr) (s : State) :
    exec G W (.mutate Option.none x m args) s = s.into (do
      let v ← s.env.get x
      let xs ← evals G s.env args
      let r ← callMut m v xs
      .ok (s.env.set x r.1)) := by rw [exec]
theorem exec_mutate_some (G : Ctx) (W : Nat) (t : Target) (x : String) (m : Mut) (args : List Expr) (s : State) :
    exec G W (.mutate (some t) x m args) s = s.into (do
      let v ← s.env.get x
      let xs ← evals G s.env args
      let r ← callMut m v xs
      assign G r.2 (s.env.set x r.1) t) := by rw [exec]
theorem exec_expr (G : Ctx) (W : Nat) (e : Expr) (s : State) :
    exec G W (.expr e) s = s.into (do
      let _ ← eval G s.env e
      .ok s.env) := by rw [exec]
theorem exec_ite (G : Ctx) (W : Nat) (c : Expr) (a b : List Stmt) (s : State) :
    exec G W (.ite c a b) s = withVal s (eval G s.env c) (fun v => if v.truthy then execs G W a s else execs G W b s) := by
  rw [exec]
theorem exec_while (G : Ctx) (W : Nat) (c : Expr) (body : List Stmt) (s : State) :
    exec G W (.while c body) s = whileLoop (whileCond G c) (execs G W body) W s := by rw [exec]; rfl
theorem exec_for (G : Ctx) (W : Nat) (t : Target) (e : Expr) (body orelse : List Stmt) (s : State) :
    exec G W (.for t e body orelse) s = forRest G W t body orelse s (do (← eval G s.env e).iter) := by
  rw [exec]
  cases (do (← eval G s.env e).iter) with
  | error e => rfl
  | ok p => rfl
theorem exec_try (G : Ctx) (W : Nat) (body : List Stmt) (errs : List PyErr) (handler : List Stmt) (s : State) :
    exec G W (.tryExcept body errs handler) s
    = catching errs (execs G W body s) (fun s => execs G W handler s) := by rw [exec]
theorem exec_try2 (G : Ctx) (W : Nat) (body : List Stmt) (errs : List PyErr) (handler : List Stmt) (errs' : List PyErr)
    (handler' : List Stmt) (s : State) :
    exec G W (.tryExcept2 body errs handler errs' handler') s
    = catching2 errs errs' (execs G W body s) (fun s => execs G W handler s) (fun s => execs G W handler' s) := by rw [exec]
theorem exec_proc (G : Ctx) (W : Nat) (t : Option Target) (x : String) (a : Option String) (m : String) (args : List Expr)
    (s : State) : exec G W (.proc t x a m args) s
    = withVal s (do G.invoke (← s.env.object x a) m (evals G s.env args)) (fun v => s.after G t x a args v) := by rw [exec]
theorem exec_delItem (G : Ctx) (W : Nat) (x name : String) (key : Expr) (s : State) :
    exec G W (.delItem x name key) s = s.into (delete G s.env x name key) := by rw [exec]
theorem exec_setattr (G : Ctx) (W : Nat) (x : String) (name value : Expr) (s : State) :
    exec G W (.setattr x name value) s = s.into (do
      let n ← eval G s.env name
      putAttr s.env x n (← eval G s.env value)) := by rw [exec]
theorem exec_abort (G : Ctx) (W : Nat) (s : State) : exec G W .abort s = (s, .stop .stuck) := by rw [exec]
theorem exec_ret (G : Ctx) (W : Nat) (e : Expr) (s : State) :
    exec G W (.ret e) s = withVal s (eval G s.env e) (fun v => (s, .ret v)) := by rw [exec]
theorem exec_yield (G : Ctx) (W : Nat) (e : Expr) (s : State) :
    exec G W (.yield e) s = withVal s (eval G s.env e) (fun v => ({ s with out := s.out ++ [v] }, .next)) := by rw [exec]
theorem exec_raise (G : Ctx) (W : Nat) (e : PyErr) (s : State) :
    exec G W (.raise e) s = (s, .stop (.py e)) := by rw [exec]
theorem exec_assert (G : Ctx) (W : Nat) (e : Expr) (s : State) :
    exec G W (.assert e) s = withVal s (eval G s.env e)
      (fun v => if v.truthy then (s, .next) else (s, .stop (.py .AssertionError))) := by rw [exec]
theorem exec_pass (G : Ctx) (W : Nat) (s : State) : exec G W .pass s = (s, .next) := by rw [exec]
theorem exec_break (G : Ctx) (W : Nat) (s : State) : exec G W .break s = (s, .brk) := by rw [exec]
theorem exec_continue (G : Ctx) (W : Nat) (s : State) : exec G W .continue s = (s, .cont) := by rw [exec]

/-! ### Steps -/

@[congr] theorem andThen_congr {r r' : State × Ctl} {k : State → State × Ctl} (h : r = r') : andThen r k = andThen r' k := by rw [h]
@[congr] theorem endLoop_congr {r r' : State × Ctl} {k : State → State × Ctl} (h : r = r') : endLoop r k = endLoop r' k := by rw [h]
@[congr] theorem withVal_congr {s : State} {r r' : M Val} {k : Val → State × Ctl} (h : r = r') :
    withVal s r k = withVal s r' k := by rw [h]
@[congr] theorem catching_congr {errs : List PyErr} {r r' : State × Ctl} {k : State → State × Ctl} (h : r = r') :
    catching errs r k = catching errs r' k := by rw [h]
@[congr] theorem endIter_congr {fin : Option Stop} {s s' : State} {k : State → State × Ctl} (h : s = s') :
    endIter fin s k = endIter fin s' k := by rw [h]

theorem andThen_next (s : State) (k : State → State × Ctl) : andThen (s, .next) k = k s := rfl
theorem andThen_brk (s : State) (k : State → State × Ctl) : andThen (s, .brk) k = (s, .brk) := rfl
theorem andThen_cont (s : State) (k : State → State × Ctl) : andThen (s, .cont) k = (s, .cont) := rfl
theorem andThen_ret (s : State) (v : Val) (k : State → State × Ctl) : andThen (s, .ret v) k = (s, .ret v) := rfl
theorem andThen_stop (s : State) (e : Stop) (k : State → State × Ctl) : andThen (s, .stop e) k = (s, .stop e) := rfl
theorem endLoop_next (s : State) (k : State → State × Ctl) : endLoop (s, .next) k = k s := rfl
theorem endLoop_brk (s : State) (k : State → State × Ctl) : endLoop (s, .brk) k = (s, .next) := rfl
theorem endLoop_ret (s : State) (v : Val) (k : State → State × Ctl) : endLoop (s, .ret v) k = (s, .ret v) := rfl
theorem endLoop_stop (s : State) (e : Stop) (k : State → State × Ctl) : endLoop (s, .stop e) k = (s, .stop e) := rfl
theorem withVal_ok (s : State) (v : Val) (k : Val → State × Ctl) : withVal s (.ok v) k = k v := rfl
theorem withVal_error (s : State) (e : Stop) (k : Val → State × Ctl) : withVal s (.error e) k = (s, .stop e) := rfl
theorem into_ok (s : State) (env : Env) : s.into (.ok env) = (⟨env, s.out⟩, .next) := rfl
theorem into_error (s : State) (e : Stop) : s.into (.error e) = (s, .stop e) := rfl
theorem endIter_none (s : State) (k : State → State × Ctl) : endIter Option.none s k = k s := rfl
theorem endIter_some (s : State) (e : Stop) (k : State → State × Ctl) : endIter (some e) s k = (s, .stop e) := rfl
theorem catching_next (errs : List PyErr) (s : State) (k : State → State × Ctl) : catching errs (s, .next) k = (s, .next) := rfl
theorem catching_ret (errs : List PyErr) (s : State) (v : Val) (k : State → State × Ctl) : catching errs (s, .ret v) k = (s, .ret v) := rfl
theorem catching_brk (errs : List PyErr) (s : State) (k : State → State × Ctl) : catching errs (s, .brk) k = (s, .brk) := rfl
theorem catching_cont (errs : List PyErr) (s : State) (k : State → State × Ctl) : catching errs (s, .cont) k = (s, .cont) := rfl
theorem catching_py (errs : List PyErr) (s : State) (e : PyErr) (k : State → State × Ctl) : catching errs (s, .stop (.py e)) k = if e ∈ errs then k s else (s, .stop (.py e)) := rfl
theorem catching_stuck (errs : List PyErr) (s : State) (k : State → State × Ctl) : catching errs (s, .stop .stuck) k = (s, .stop .stuck) := rfl
theorem catching_timeout (errs : List PyErr) (s : State) (k : State → State × Ctl) : catching errs (s, .stop .timeout) k = (s, .stop .timeout) := rfl
theorem forRest_ok (G : Ctx) (W : Nat) (t : Target) (body orelse : List Stmt) (s : State) (items : List Val) (fin : Option Stop) : forRest G W t body orelse s (.ok (items, fin)) = endLoop (forLoop (forBody G W t body) items s) (fun s => endIter fin s (fun s => execs G W orelse s)) := rfl
theorem forRest_error (G : Ctx) (W : Nat) (t : Target) (body orelse : List Stmt) (s : State) (e : Stop) : forRest G W t body orelse s (.error e) = (s, .stop e) := rfl
theorem execs_nil (G : Ctx) (W : Nat) (s : State) : execs G W [] s = (s, .next) := by rw [execs]
theorem execs_cons (G : Ctx) (W : Nat) (a : Stmt) (l : List Stmt) (s : State) : execs G W (a :: l) s = andThen (exec G W a s) (fun s => execs G W l s) := by rw [execs]
theorem truthy_none : Val.truthy .none = false := rfl
theorem truthy_bool (b : Bool) : Val.truthy (.bool b) = b := rfl
theorem truthy_int (n : Int) : Val.truthy (.int n) = decide (n ≠ 0) := rfl
theorem truthy_str (x : String) : Val.truthy (.str x) = decide (x ≠ "") := rfl
theorem truthy_date (n : Int) : Val.truthy (.date n) = true := rfl
theorem truthy_datetime (n : Int) : Val.truthy (.datetime n) = true := rfl
theorem truthy_delta (n : Int) : Val.truthy (.delta n) = decide (n ≠ 0) := rfl
theorem truthy_time (n : Int) : Val.truthy (.time n) = decide (n ≠ 0) := rfl
theorem truthy_list (l : List Val) : Val.truthy (.list l) = (!l.isEmpty) := rfl
theorem truthy_tuple (l : List Val) : Val.truthy (.tuple l) = (!l.isEmpty) := rfl
theorem truthy_set (l : List Val) : Val.truthy (.set l) = (!l.isEmpty) := rfl
theorem truthy_dict (l : List (Val × Val)) : Val.truthy (.dict l) = (!l.isEmpty) := rfl
theorem truthy_obj (c : String) (a : List (String × Val)) : Val.truthy (.obj c a) = true := rfl
theorem truthy_gen (l : List Val) (f : Option Stop) : Val.truthy (.gen l f) = true := rfl
theorem iter_list (l : List Val) : Val.iter (.list l) = .ok (l, Option.none) := rfl
theorem elems_list (l : List Val) : Val.elems (.list l) = .ok l := rfl
theorem iter_tuple (l : List Val) : Val.iter (.tuple l) = .ok (l, Option.none) := rfl
theorem elems_tuple (l : List Val) : Val.elems (.tuple l) = .ok l := rfl
theorem iter_set (l : List Val) : Val.iter (.set l) = .ok (l, Option.none) := rfl
theorem elems_set (l : List Val) : Val.elems (.set l) = .ok l := rfl
theorem iter_dict (l : List (Val × Val)) : Val.iter (.dict l) = .ok (l.map (·.1), Option.none) := rfl
theorem elems_dict (l : List (Val × Val)) : Val.elems (.dict l) = .ok (l.map (·.1)) := rfl
theorem iter_gen (l : List Val) (f : Option Stop) : Val.iter (.gen l f) = .ok (l, f) := rfl
theorem cmp_date (a b : Int) : Val.cmp (.date a) (.date b) = .ok (compare a b) := by rw [Val.cmp]
theorem eq_date (a b : Int) : Val.eq (.date a) (.date b) = .ok (decide (a = b)) := by rw [Val.eq]
theorem cmp_datetime (a b : Int) : Val.cmp (.datetime a) (.datetime b) = .ok (compare a b) := by rw [Val.cmp]
theorem eq_datetime (a b : Int) : Val.eq (.datetime a) (.datetime b) = .ok (decide (a = b)) := by rw [Val.eq]
theorem cmp_delta (a b : Int) : Val.cmp (.delta a) (.delta b) = .ok (compare a b) := by rw [Val.cmp]
theorem eq_delta (a b : Int) : Val.eq (.delta a) (.delta b) = .ok (decide (a = b)) := by rw [Val.eq]
theorem cmp_time (a b : Int) : Val.cmp (.time a) (.time b) = .ok (compare a b) := by rw [Val.cmp]
theorem eq_time (a b : Int) : Val.eq (.time a) (.time b) = .ok (decide (a = b)) := by rw [Val.eq]
theorem cmp_int (a b : Int) : Val.cmp (.int a) (.int b) = .ok (compare a b) := by simp [Val.cmp, Val.num?]
theorem eq_int (a b : Int) : Val.eq (.int a) (.int b) = .ok (decide (a = b)) := by simp [Val.eq, Val.num?]
theorem eq_str (a b : String) : Val.eq (.str a) (.str b) = .ok (decide (a = b)) := by rw [Val.eq]
theorem eq_none : Val.eq .none .none = .ok true := by rw [Val.eq]
theorem eq_none_str (a : String) : Val.eq .none (.str a) = .ok false := by simp [Val.eq, Val.num?]
theorem eq_str_none (a : String) : Val.eq (.str a) .none = .ok false := by simp [Val.eq, Val.num?]
theorem cmp_date_datetime (a b : Int) : Val.cmp (.date a) (.datetime b) = .error (.py .TypeError) := by rw [Val.cmp]; rfl
theorem cmp_datetime_date (a b : Int) : Val.cmp (.datetime a) (.date b) = .error (.py .TypeError) := by rw [Val.cmp]; rfl
theorem is_none_none : Val.is .none .none = .ok true := rfl
theorem is_bool_none (b : Bool) : Val.is (.bool b) .none = .ok false := by simp [Val.is]
theorem is_int_none (n : Int) : Val.is (.int n) .none = .ok false := by simp [Val.is]
theorem is_str_none (x : String) : Val.is (.str x) .none = .ok false := by simp [Val.is]
theorem is_date_none (n : Int) : Val.is (.date n) .none = .ok false := by simp [Val.is]
theorem is_datetime_none (n : Int) : Val.is (.datetime n) .none = .ok false := by simp [Val.is]
theorem is_delta_none (n : Int) : Val.is (.delta n) .none = .ok false := by simp [Val.is]
theorem is_time_none (n : Int) : Val.is (.time n) .none = .ok false := by simp [Val.is]
theorem is_list_none (l : List Val) : Val.is (.list l) .none = .ok false := by simp [Val.is]
theorem is_tuple_none (l : List Val) : Val.is (.tuple l) .none = .ok false := by simp [Val.is]
theorem is_set_none (l : List Val) : Val.is (.set l) .none = .ok false := by simp [Val.is]
theorem is_dict_none (l : List (Val × Val)) : Val.is (.dict l) .none = .ok false := by simp [Val.is]
theorem is_obj_none (c : String) (a : List (String × Val)) : Val.is (.obj c a) .none = .ok false := by simp [Val.is]
theorem prim_len_list (l : List Val) : callPrim .len [.list l] [] = .ok (.int l.length) := rfl
theorem prim_len_tuple (l : List Val) : callPrim .len [.tuple l] [] = .ok (.int l.length) := rfl
theorem prim_len_dict (l : List (Val × Val)) : callPrim .len [.dict l] [] = .ok (.int l.length) := rfl
theorem prim_range (a b : Int) : callPrim .range [.int a, .int b] [] = .ok (.list (rangeInt a b)) := rfl
theorem prim_divmod (a b : Int) : callPrim .divmod [.int a, .int b] [] = if b = 0 then .error (.py .ZeroDivisionError) else .ok (.tuple [.int (a.fdiv b), .int (a.fmod b)]) := rfl
theorem prim_tuple_list (l : List Val) : callPrim .tuple [.list l] [] = .ok (.tuple l) := rfl
theorem prim_tuple_tuple (l : List Val) : callPrim .tuple [.tuple l] [] = .ok (.tuple l) := rfl
theorem prim_set_nil : callPrim .set [] [] = .ok (.set []) := rfl
theorem prim_set_list (l : List Val) : callPrim .set [.list l] [] = .ok (.set l) := rfl
theorem prim_set_tuple (l : List Val) : callPrim .set [.tuple l] [] = .ok (.set l) := rfl
theorem prim_monthrange (y m : Int) : callPrim .monthrange [.int y, .int m] [] = if ¬ (1 ≤ m ∧ m ≤ 12) then .error (.py .ValueError) else .ok (.tuple [.int (weekday (ymd2ord y m 1)), .int (daysInMonth y m)]) := rfl
theorem prim_combine (d t : Int) : callPrim .combine [.date d, .time t] [] = .ok (.datetime (combine d t)) := rfl
theorem prim_time (h m : Int) : callPrim .time [.int h, .int m] [] = if 0 ≤ h ∧ h < 24 ∧ 0 ≤ m ∧ m < 60 then .ok (.time (h * 3600000000 + m * 60000000)) else .error (.py .ValueError) := rfl
theorem prim_timedelta (n : Int) : callPrim .timedelta [.int n] [] = mkDelta (n * DAY) := rfl
theorem prim_date (y m d : Int) : callPrim .date [.int y, .int m, .int d] [] = (lift (mkDate y m d)).map .date := rfl
theorem prim_datetime (y m d : Int) : callPrim .datetime [.int y, .int m, .int d] [] = (lift (mkDateTime y m d)).map .datetime := rfl
theorem prim_timedelta_days (n : Int) : callPrim .timedelta [] [("days", .int n)] = mkDelta (n * DAY) := rfl
theorem field_year_date (d : Int) : getField .year (.date d) = .ok (.int (dyear d)) := rfl
theorem field_month_date (d : Int) : getField .month (.date d) = .ok (.int (dmonth d)) := rfl
theorem field_day_date (d : Int) : getField .day (.date d) = .ok (.int (dday d)) := rfl
theorem field_resolution_date (d : Int) : getField .resolution (.date d) = .ok (.delta DAY) := rfl
theorem field_days_delta (t : Int) : getField .days (.delta t) = .ok (.int (t / DAY)) := rfl
theorem field_seconds_delta (t : Int) : getField .seconds (.delta t) = .ok (.int (t % DAY / 1000000)) := rfl
theorem field_microseconds_delta (t : Int) : getField .microseconds (.delta t) = .ok (.int (t % 1000000)) := rfl
theorem meth_weekday_date (d : Int) : callMeth .weekday (.date d) [] [] = .ok (.int (weekday d)) := rfl
theorem meth_weekday_datetime (t : Int) : callMeth .weekday (.datetime t) [] [] = .ok (.int (weekday (dtDate t))) := rfl
theorem meth_isoweekday_date (d : Int) : callMeth .isoweekday (.date d) [] [] = .ok (.int (weekday d + 1)) := rfl
theorem meth_isoweekday_datetime (t : Int) : callMeth .isoweekday (.datetime t) [] [] = .ok (.int (weekday (dtDate t) + 1)) := rfl
theorem meth_date_datetime (t : Int) : callMeth .date (.datetime t) [] [] = .ok (.date (dtDate t)) := rfl
theorem meth_time_datetime (t : Int) : callMeth .time (.datetime t) [] [] = .ok (.time (dtTime t)) := rfl
theorem meth_isocalendar_datetime (t : Int) : callMeth .isocalendar (.datetime t) [] [] = .ok (.tuple [.int (isocalendar (dtDate t)).1, .int (isocalendar (dtDate t)).2.1, .int (isocalendar (dtDate t)).2.2]) := rfl
theorem meth_keys (l : List (Val × Val)) : callMeth .keys (.dict l) [] [] = .ok (.list (l.map (·.1))) := rfl
theorem meth_values (l : List (Val × Val)) : callMeth .values (.dict l) [] [] = .ok (.list (l.map (·.2))) := rfl
theorem meth_items (l : List (Val × Val)) : callMeth .items (.dict l) [] [] = .ok (.list (l.map (fun p => .tuple [p.1, p.2]))) := rfl
theorem index_list (l : List Val) (i : Int) : getIndex (.list l) (.int i) = getIndex.pick l i := rfl
theorem index_tuple (l : List Val) (i : Int) : getIndex (.tuple l) (.int i) = getIndex.pick l i := rfl
theorem index_dict (l : List (Val × Val)) (k : Val) : getIndex (.dict l) k = getIndex.lookup l k := by unfold getIndex; cases k <;> rfl
theorem mut_append (l : List Val) (x : Val) : callMut .append (.list l) [x] = .ok (.list (l ++ [x]), .none) := rfl
theorem mut_extend (l m : List Val) : callMut .extend (.list l) [.list m] = .ok (.list (l ++ m), .none) := rfl
theorem mut_sort (l : List Val) : callMut .sort (.list l) [] = (do .ok (.list (← sortVals l), .none)) := rfl
theorem mut_add (l : List Val) (x : Val) : callMut .add (.set l) [x] = (do if ← contains x l then .ok (.set l, .none) else .ok (.set (l ++ [x]), .none)) := rfl
theorem bin_add_int_int (a b : Int) : binop .add (.int a) (.int b) = .ok (.int (a + b)) := rfl
theorem bin_sub_int_int (a b : Int) : binop .sub (.int a) (.int b) = .ok (.int (a - b)) := rfl
theorem bin_mul_int_int (a b : Int) : binop .mul (.int a) (.int b) = .ok (.int (a * b)) := rfl
theorem bin_div_int_int (a b : Int) : binop .div (.int a) (.int b) = if b = 0 then .error (.py .ZeroDivisionError) else .ok (.int (a.fdiv b)) := rfl
theorem bin_mod_int_int (a b : Int) : binop .mod (.int a) (.int b) = if b = 0 then .error (.py .ZeroDivisionError) else .ok (.int (a.fmod b)) := rfl
theorem bin_add_list_list (a b : List Val) : binop .add (.list a) (.list b) = .ok (.list (a ++ b)) := rfl
theorem bin_add_date_delta (d t : Int) : binop .add (.date d) (.delta t) = (lift (dateAdd d (t / DAY))).map .date := rfl
theorem bin_sub_date_delta (d t : Int) : binop .sub (.date d) (.delta t) = (lift (dateAdd d (-(t / DAY)))).map .date := rfl
theorem bin_sub_date_date (a b : Int) : binop .sub (.date a) (.date b) = .ok (.delta ((a - b) * DAY)) := rfl
theorem bin_add_datetime_delta (a t : Int) : binop .add (.datetime a) (.delta t) = (lift (dtAdd a t)).map .datetime := rfl
theorem bin_sub_datetime_delta (a t : Int) : binop .sub (.datetime a) (.delta t) = (lift (dtAdd a (-t))).map .datetime := rfl
theorem bin_sub_datetime_datetime (a b : Int) : binop .sub (.datetime a) (.datetime b) = .ok (.delta (a - b)) := rfl
theorem bin_add_datetime_none (a : Int) : binop .add (.datetime a) .none = .error (.py .TypeError) := rfl
theorem bin_add_delta_delta (a b : Int) : binop .add (.delta a) (.delta b) = mkDelta (a + b) := rfl
theorem bin_mul_int_delta (a b : Int) : binop .mul (.int a) (.delta b) = mkDelta (a * b) := rfl
theorem cmpop_lt (a b : Val) : cmpop .lt a b = (do .ok (decide ((← a.cmp b) = .lt))) := rfl
theorem cmpop_le (a b : Val) : cmpop .le a b = (do .ok (decide ((← a.cmp b) ≠ .gt))) := rfl
theorem cmpop_gt (a b : Val) : cmpop .gt a b = (do .ok (decide ((← a.cmp b) = .gt))) := rfl
theorem cmpop_ge (a b : Val) : cmpop .ge a b = (do .ok (decide ((← a.cmp b) ≠ .lt))) := rfl
theorem cmpop_eq (a b : Val) : cmpop .eq a b = (a.eq b) := rfl
theorem cmpop_ne (a b : Val) : cmpop .ne a b = (do .ok (!(← a.eq b))) := rfl
theorem cmpop_is (a b : Val) : cmpop .is a b = (a.is b) := rfl
theorem cmpop_isNot (a b : Val) : cmpop .isNot a b = (do .ok (!(← a.is b))) := rfl
theorem cmpop_isIn (a b : Val) : cmpop .isIn a b = (do contains a (← b.elems)) := rfl
theorem cmpop_notIn (a b : Val) : cmpop .notIn a b = (do .ok (!(← contains a (← b.elems)))) := rfl
theorem compare_lt (G : Ctx) (a b : Val) : G.compare .lt a b = (do .ok (.bool (← cmpop .lt a b))) := rfl
theorem compare_le (G : Ctx) (a b : Val) : G.compare .le a b = (do .ok (.bool (← cmpop .le a b))) := rfl
theorem compare_gt (G : Ctx) (a b : Val) : G.compare .gt a b = (do .ok (.bool (← cmpop .gt a b))) := rfl
theorem compare_ge (G : Ctx) (a b : Val) : G.compare .ge a b = (do .ok (.bool (← cmpop .ge a b))) := rfl
theorem compare_is (G : Ctx) (a b : Val) : G.compare .is a b = (do .ok (.bool (← cmpop .is a b))) := rfl
theorem compare_isNot (G : Ctx) (a b : Val) : G.compare .isNot a b = (do .ok (.bool (← cmpop .isNot a b))) := rfl
theorem compare_isIn (G : Ctx) (a b : Val) : G.compare .isIn a b = (do .ok (.bool (← cmpop .isIn a b))) := rfl
theorem compare_notIn (G : Ctx) (a b : Val) : G.compare .notIn a b = (do .ok (.bool (← cmpop .notIn a b))) := rfl
theorem compare_eq (G : Ctx) (a b : Val) : G.compare .eq a b = G.equal a b := rfl
theorem compare_ne (G : Ctx) (a b : Val) : G.compare .ne a b = G.differ a b := rfl
theorem equal_none (G : Ctx) (y : Val) : G.equal .none y = (do .ok (.bool (← Val.eq .none y))) := rfl
theorem differ_none (G : Ctx) (y : Val) : G.differ .none y = (do .ok (.bool (!(← Val.eq .none y)))) := rfl
theorem equal_bool (G : Ctx) (x : Bool) (y : Val) : G.equal (.bool x) y = (do .ok (.bool (← Val.eq (.bool x) y))) := rfl
theorem differ_bool (G : Ctx) (x : Bool) (y : Val) : G.differ (.bool x) y = (do .ok (.bool (!(← Val.eq (.bool x) y)))) := rfl
theorem equal_int (G : Ctx) (x : Int) (y : Val) : G.equal (.int x) y = (do .ok (.bool (← Val.eq (.int x) y))) := rfl
theorem differ_int (G : Ctx) (x : Int) (y : Val) : G.differ (.int x) y = (do .ok (.bool (!(← Val.eq (.int x) y)))) := rfl
theorem equal_str (G : Ctx) (x : String) (y : Val) : G.equal (.str x) y = (do .ok (.bool (← Val.eq (.str x) y))) := rfl
theorem differ_str (G : Ctx) (x : String) (y : Val) : G.differ (.str x) y = (do .ok (.bool (!(← Val.eq (.str x) y)))) := rfl
theorem equal_date (G : Ctx) (x : Int) (y : Val) : G.equal (.date x) y = (do .ok (.bool (← Val.eq (.date x) y))) := rfl
theorem differ_date (G : Ctx) (x : Int) (y : Val) : G.differ (.date x) y = (do .ok (.bool (!(← Val.eq (.date x) y)))) := rfl
theorem equal_datetime (G : Ctx) (x : Int) (y : Val) : G.equal (.datetime x) y = (do .ok (.bool (← Val.eq (.datetime x) y))) := rfl
theorem differ_datetime (G : Ctx) (x : Int) (y : Val) : G.differ (.datetime x) y = (do .ok (.bool (!(← Val.eq (.datetime x) y)))) := rfl
theorem equal_delta (G : Ctx) (x : Int) (y : Val) : G.equal (.delta x) y = (do .ok (.bool (← Val.eq (.delta x) y))) := rfl
theorem differ_delta (G : Ctx) (x : Int) (y : Val) : G.differ (.delta x) y = (do .ok (.bool (!(← Val.eq (.delta x) y)))) := rfl
theorem equal_time (G : Ctx) (x : Int) (y : Val) : G.equal (.time x) y = (do .ok (.bool (← Val.eq (.time x) y))) := rfl
theorem differ_time (G : Ctx) (x : Int) (y : Val) : G.differ (.time x) y = (do .ok (.bool (!(← Val.eq (.time x) y)))) := rfl
theorem equal_list (G : Ctx) (x : List Val) (y : Val) : G.equal (.list x) y = (do .ok (.bool (← Val.eq (.list x) y))) := rfl
theorem differ_list (G : Ctx) (x : List Val) (y : Val) : G.differ (.list x) y = (do .ok (.bool (!(← Val.eq (.list x) y)))) := rfl
theorem equal_tuple (G : Ctx) (x : List Val) (y : Val) : G.equal (.tuple x) y = (do .ok (.bool (← Val.eq (.tuple x) y))) := rfl
theorem differ_tuple (G : Ctx) (x : List Val) (y : Val) : G.differ (.tuple x) y = (do .ok (.bool (!(← Val.eq (.tuple x) y)))) := rfl
theorem equal_dict (G : Ctx) (x : List (Val × Val)) (y : Val) : G.equal (.dict x) y = (do .ok (.bool (← Val.eq (.dict x) y))) := rfl
theorem differ_dict (G : Ctx) (x : List (Val × Val)) (y : Val) : G.differ (.dict x) y = (do .ok (.bool (!(← Val.eq (.dict x) y)))) := rfl
theorem equal_obj (G : Ctx) (c : String) (a : List (String × Val)) (y : Val) : G.equal (.obj c a) y = G.compareObj "__eq__" c (.obj c a) y false := rfl
theorem differ_obj (G : Ctx) (c : String) (a : List (String × Val)) (y : Val) : G.differ (.obj c a) y = G.compareObj "__ne__" c (.obj c a) y true := rfl
theorem equal_set_set (G : Ctx) (a b : List Val) : G.equal (.set a) (.set b) = (do .ok (.bool (← sameSet a b))) := rfl
theorem differ_set_set (G : Ctx) (a b : List Val) : G.differ (.set a) (.set b) = (do .ok (.bool (!(← sameSet a b)))) := rfl
theorem object_none (env : Env) (x : String) : env.object x Option.none = env.get x := rfl
theorem object_some (env : Env) (x a : String) : env.object x (some a) = (do
    match ← env.get x with
    | .obj _ attrs => getAttr a attrs
    | .none => err .AttributeError
    | _ => stuck) := rfl
theorem putObject_none (env : Env) (x : String) (v : Val) : env.putObject x v Option.none = .ok (env.set x v) := rfl
theorem putObject_some (env : Env) (x a : String) (v : Val) : env.putObject x v (some a) = (do
    match ← env.get x with
    | .obj cls attrs => .ok (env.set x (.obj cls (setAttr a v attrs)))
    | _ => stuck) := rfl
theorem invoke_obj (G : Ctx) (cls : String) (attrs : List (String × Val)) (m : String) (args : M (List Val)) :
    G.invoke (.obj cls attrs) m args = (do
      let xs ← args
      match G.method cls m with
      | some f => G.call f (.obj cls attrs :: xs) []
      | Option.none => err .AttributeError) := rfl
theorem invoke_none (G : Ctx) (m : String) (args : M (List Val)) : G.invoke .none m args = .error (.py .AttributeError) := rfl
theorem after_next (s : State) (G : Ctx) (x : String) (a : Option String) (args : List Expr) (o : Val)
    (params out : List Val) (v : Val) (env : Env)
    (h : Env.putObject (Env.putArgs args params s.env) x o a = .ok env) :
    s.after G Option.none x a args (procVal (o :: params) out Option.none v) = (⟨env, s.out ++ out⟩, .next) := by
  simp only [State.after, procVal, h]
theorem after_assign (s : State) (G : Ctx) (t : Target) (x : String) (a : Option String) (args : List Expr) (o : Val)
    (params out : List Val) (v : Val) (env : Env)
    (h : Env.putObject (Env.putArgs args params s.env) x o a = .ok env) :
    s.after G (some t) x a args (procVal (o :: params) out Option.none v)
    = State.into ⟨env, s.out ++ out⟩ (assign G v env t) := by
  simp only [State.after, procVal, h]
theorem after_stop (s : State) (G : Ctx) (t : Option Target) (x : String) (a : Option String) (args : List Expr) (o : Val)
    (params out : List Val) (e : Stop) (v : Val) (env : Env)
    (h : Env.putObject (Env.putArgs args params s.env) x o a = .ok env) :
    s.after G t x a args (procVal (o :: params) out (some e) v) = (⟨env, s.out ++ out⟩, .stop e) := by
  simp only [State.after, procVal, h]
theorem putArgs_nil (env : Env) : Env.putArgs [] [] env = env := rfl
theorem putArgs_var (y : String) (es : List Expr) (c : String) (attrs : List (String × Val)) (vs : List Val) (env : Env) :
    Env.putArgs (.var y :: es) (.obj c attrs :: vs) env = Env.putArgs es vs (env.set y (.obj c attrs)) := rfl
theorem catching2_next (errs errs' : List PyErr) (s : State) (k k' : State → State × Ctl) : catching2 errs errs' (s, .next) k k' = (s, .next) := rfl
theorem catching2_ret (errs errs' : List PyErr) (s : State) (v : Val) (k k' : State → State × Ctl) : catching2 errs errs' (s, .ret v) k k' = (s, .ret v) := rfl
theorem catching2_py (errs errs' : List PyErr) (s : State) (e : PyErr) (k k' : State → State × Ctl) : catching2 errs errs' (s, .stop (.py e)) k k' = if e ∈ errs then k s else if e ∈ errs' then k' s else (s, .stop (.py e)) := rfl
theorem result_proc_next (p : List (String × Option Val)) (l : List String) (b : List Stmt) (r : State)  : FunDef.result ⟨.proc, p, l, b⟩ (r, .next) = (do .ok (procVal (← Env.gets p r.env) r.out Option.none .none)) := rfl
theorem result_proc_ret (p : List (String × Option Val)) (l : List String) (b : List Stmt) (r : State) (v : Val) : FunDef.result ⟨.proc, p, l, b⟩ (r, .ret v) = (do .ok (procVal (← Env.gets p r.env) r.out Option.none v)) := rfl
theorem result_proc_stop (p : List (String × Option Val)) (l : List String) (b : List Stmt) (r : State) (e : Stop) : FunDef.result ⟨.proc, p, l, b⟩ (r, .stop e) = (do .ok (procVal (← Env.gets p r.env) r.out (some e) .none)) := rfl
theorem lift_ok {α : Type} (a : α) : lift (.ok a) = .ok a := rfl
theorem lift_raise {α : Type} (e : PyErr) : (lift (raise e) : M α) = .error (.py e) := rfl
theorem map_ok {α β : Type} (a : α) (f : α → β) : Except.map f (.ok a : M α) = .ok (f a) := rfl
theorem map_error {α β : Type} (e : Stop) (f : α → β) : Except.map f (.error e : M α) = .error e := rfl
theorem result_gen_next (p : List (String × Option Val)) (l : List String) (b : List Stmt) (r : State)  : FunDef.result ⟨.gen, p, l, b⟩ (r, .next) = .ok (.gen r.out Option.none) := rfl
theorem result_gen_ret (p : List (String × Option Val)) (l : List String) (b : List Stmt) (r : State) (v : Val) : FunDef.result ⟨.gen, p, l, b⟩ (r, .ret v) = .ok (.gen r.out Option.none) := rfl
theorem result_gen_stop (p : List (String × Option Val)) (l : List String) (b : List Stmt) (r : State) (e : Stop) : FunDef.result ⟨.gen, p, l, b⟩ (r, .stop e) = .ok (.gen r.out (some e)) := rfl
theorem result_fn_next (p : List (String × Option Val)) (l : List String) (b : List Stmt) (r : State)  : FunDef.result ⟨.fn, p, l, b⟩ (r, .next) = .ok .none := rfl
theorem result_fn_ret (p : List (String × Option Val)) (l : List String) (b : List Stmt) (r : State) (v : Val) : FunDef.result ⟨.fn, p, l, b⟩ (r, .ret v) = .ok v := rfl
theorem result_fn_stop (p : List (String × Option Val)) (l : List String) (b : List Stmt) (r : State) (e : Stop) : FunDef.result ⟨.fn, p, l, b⟩ (r, .stop e) = .error e := rfl
theorem result_init_next (p : List (String × Option Val)) (l : List String) (b : List Stmt) (env : Env)  : FunDef.result ⟨.init, p, l, b⟩ (⟨env, []⟩, .next) = env.get "self" := rfl
theorem result_init_stop (p : List (String × Option Val)) (l : List String) (b : List Stmt) (r : State) (e : Stop) : FunDef.result ⟨.init, p, l, b⟩ (r, .stop e) = .error e := rfl

theorem forLoop_first {f : Val → State → State × Ctl} {v : Val} {l : List Val} {s s' : State} (h : f v s = f v s') :
    forLoop f (v :: l) s = forLoop f (v :: l) s' := by
  unfold forLoop
  rw [h]

theorem execs_append (G : Ctx) (W : Nat) (a b : List Stmt) (s : State) :
    execs G W (a ++ b) s = andThen (execs G W a s) (fun s => execs G W b s) := by
  induction a generalizing s with
  | nil => rw [execs_nil, andThen_next, List.nil_append]
  | cons x a ih =>
    rw [List.cons_append, execs_cons, execs_cons]
    rcases exec G W x s with ⟨s', c⟩
    cases c with
    | next => rw [andThen_next, andThen_next, ih]
    | _ => rfl

/-- Split the body of a function: if the first `k` statements end normally, go on after them. -/
theorem execs_split {G : Ctx} {W : Nat} {l : List Stmt} {s s' : State} (k : Nat) (h : execs G W (l.take k) s = (s', .next)) :
    execs G W l s = execs G W (l.drop k) s' := by
  rw [← List.take_append_drop k l, execs_append, h, andThen_next, List.take_append_drop]

set_option maxRecDepth 2000 in
/-- Steps of the interpreter. -/
macro "lang" "[" ts:Lean.Parser.Tactic.simpLemma,* "]" : tactic =>
  `(tactic| simp only [FunDef.call, FunDef.run, bindParams, exec_assign, exec_mutate_none, exec_mutate_some, exec_expr, exec_ite,
    exec_while, exec_for, exec_try, exec_ret, exec_yield, exec_raise, exec_assert, exec_pass, exec_break, exec_continue, eval, evals,
    evalKw, Env.get, Env.set, Env.setAll, assign, getAttr, setAttr, M_bind_ok, M_bind_error, ↓reduceIte, String.reduceEq, err, stuck,
    cmp_le, cmp_lt, cmp_ge, cmp_gt, decide_eq_true_eq, decide_true, decide_false, Bool.not_true, Bool.not_false,
    Bool.false_eq_true, reduceCtorEq, List.cons_append, List.nil_append, List.map_cons, List.map_nil, List.isEmpty_cons,
    List.isEmpty_nil, Bool.true_eq_false, not_false_eq_true, not_true_eq_false, ne_eq,
    andThen_next, andThen_brk, andThen_cont, andThen_ret, andThen_stop, endLoop_next, endLoop_brk, endLoop_ret, endLoop_stop,
    withVal_ok, withVal_error, into_ok, into_error, endIter_none, endIter_some, catching_next, catching_ret, catching_brk,
    catching_cont, catching_py, catching_stuck, catching_timeout, forRest_ok, forRest_error, execs_nil, execs_cons,
    truthy_none, truthy_bool, truthy_int, truthy_str, truthy_date, truthy_datetime, truthy_delta, truthy_time, truthy_list,
    truthy_tuple, truthy_set, truthy_dict, truthy_obj, truthy_gen, iter_list, elems_list, iter_tuple, elems_tuple, iter_set,
    elems_set, iter_dict, elems_dict, iter_gen, cmp_date, eq_date, cmp_datetime, eq_datetime, cmp_delta, eq_delta, cmp_time,
    eq_time, cmp_int, eq_int, eq_str, eq_none, eq_none_str, eq_str_none, cmp_date_datetime, cmp_datetime_date, is_none_none,
    is_bool_none, is_int_none, is_str_none, is_date_none, is_datetime_none, is_delta_none, is_time_none, is_list_none,
    is_tuple_none, is_set_none, is_dict_none, is_obj_none, prim_len_list, prim_len_tuple, prim_len_dict, prim_range,
    prim_divmod, prim_tuple_list, prim_tuple_tuple, prim_set_nil, prim_set_list, prim_set_tuple, prim_monthrange,
    prim_combine, prim_time, prim_timedelta, prim_date, prim_datetime, prim_timedelta_days, field_year_date, field_month_date,
    field_day_date, field_resolution_date, field_days_delta, field_seconds_delta, field_microseconds_delta, meth_weekday_date,
    meth_weekday_datetime, meth_isoweekday_date, meth_isoweekday_datetime, meth_date_datetime, meth_time_datetime,
    meth_isocalendar_datetime, meth_keys, meth_values, meth_items, index_list, index_tuple, index_dict, mut_append,
    mut_extend, mut_sort, mut_add, bin_add_int_int, bin_sub_int_int, bin_mul_int_int, bin_div_int_int, bin_mod_int_int,
    bin_add_list_list, bin_add_date_delta, bin_sub_date_delta, bin_sub_date_date, bin_add_datetime_delta,
    bin_sub_datetime_delta, bin_sub_datetime_datetime, bin_add_datetime_none, bin_add_delta_delta, bin_mul_int_delta, cmpop_lt, cmpop_le, cmpop_gt,
    cmpop_ge, cmpop_eq, cmpop_ne, cmpop_is, cmpop_isNot, cmpop_isIn, cmpop_notIn, lift_ok, lift_raise, map_ok, map_error,
    result_gen_next, result_gen_ret, result_gen_stop, result_fn_next, result_fn_ret, result_fn_stop, result_init_next,
    result_init_stop, compare_lt, compare_le, compare_gt, compare_ge, compare_is, compare_isNot, compare_isIn,
    compare_notIn, compare_eq, compare_ne, equal_none, differ_none, equal_bool, differ_bool,
    equal_int, differ_int, equal_str, differ_str, equal_date, differ_date, equal_datetime,
    differ_datetime, equal_delta, differ_delta, equal_time, differ_time, equal_list, differ_list,
    equal_tuple, differ_tuple, equal_dict, differ_dict, equal_obj, differ_obj, equal_set_set,
    differ_set_set, exec_try2, exec_proc, exec_delItem, exec_setattr, exec_abort, object_none,
    object_some, putObject_none, putObject_some, invoke_obj, invoke_none, putArgs_nil, putArgs_var,
    catching2_next, catching2_ret, catching2_py, result_proc_next, result_proc_ret, result_proc_stop, delete,
    putAttr, Env.gets, $ts,*])

theorem toM_ok {α : Type} (f : α → Val) (a : α) : toM f (.ok a) = .ok (f a) := rfl
theorem toM_py {α : Type} (f : α → Val) (e : PyErr) : toM f (.error (.py e)) = .error (.py e) := rfl
theorem toM_diverge {α : Type} (f : α → Val) : toM f (.error .diverge) = .error .timeout := rfl

theorem lift_error {α : Type} (e : Fault) : (lift (.error e) : M α) = .error (ofFault e) := by cases e <;> rfl
theorem toM_error {α : Type} (f : α → Val) (e : Fault) : toM f (.error e) = .error (ofFault e) := by cases e <;> rfl

theorem mkDelta_ok {t : Int} (h : -(999999999 * DAY) ≤ t) (h' : t < 1000000000 * DAY) : mkDelta t = .ok (.delta t) := by
  unfold mkDelta
  rw [if_pos ⟨h, h'⟩]

/-- Adding days to a datetime: a timedelta that is too large raises the same exception. -/
theorem dtAdd_delta {t : Int} (ht : dtInRange t = true) (n : Int) :
    (do binop .add (.datetime t) (← mkDelta n)) = toM .datetime (dtAdd t n) := by
  rw [dtInRange_iff] at ht
  unfold mkDelta
  split
  · rfl
  · rename_i h
    have : ¬ (dtInRange (t + n) = true) := by
      rw [dtInRange_iff]
      simp only [DAY, MAXORD] at *
      omega
    simp only [dtAdd, this]
    rfl

theorem dateAdd_delta {d : Int} (hd : dateInRange d = true) (n : Int) :
    (do binop .add (.date d) (← mkDelta (n * DAY))) = toM .date (dateAdd d n) := by
  simp only [dateInRange, Bool.and_eq_true, decide_eq_true_eq] at hd
  simp only [MAXORD] at hd
  unfold mkDelta
  split
  · have : n * DAY / DAY = n := by simp only [DAY]; omega
    simp only [M_bind_ok, bin_add_date_delta, this]
    rfl
  · rename_i h
    have : ¬ (dateInRange (d + n) = true) := by
      simp only [dateInRange, Bool.and_eq_true, decide_eq_true_eq]
      simp only [MAXORD]
      simp only [DAY] at h
      have h1 := hd.1
      have h2 := hd.2
      omega
    simp only [dateAdd, this]
    rfl

end CalCore.Lang
