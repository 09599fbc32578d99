import Verif.Lemmas.SourceMake
import Verif.Lemmas.SourceCalendar
import Verif.Spec.RepresentImport
/- Reading parsed iCalendar data, as written. -/
namespace CalCore.Lang
open CalCore.Spec
set_option linter.unusedSectionVars false
variable [Source.Globals]

/-! ### components -/

theorem lookup_map (d : Dict String Val) (a : String) :
    getIndex.lookup (d.map (fun p => (.str p.1, p.2))) (.str a)
    = match Dict.get? d a with
      | some v => .ok v
      | none => .error (.py .KeyError) := by
  rw [lookup_dict (fun v => v) d a]
  cases Dict.get? d a <;> rfl

theorem meth_decoded (d : Dict String Val) (k : String) (v : Val) (hk : k.toUpper = k) :
    callMeth .decoded (ofComponent d) [.str k, v] [] = .ok ((Dict.get? d k).getD v) := by
  unfold ofComponent ofMap callMeth callLib decodedProp
  simp only [hk, lookup_map]
  cases Dict.get? d k <;> rfl

theorem meth_decoded1 (d : Dict String Val) (k : String) (hk : k.toUpper = k) :
    callMeth .decoded (ofComponent d) [.str k] [] = match Dict.get? d k with
      | some v => .ok v
      | none => .error (.py .KeyError) := by
  unfold ofComponent ofMap callMeth callLib decodedProp
  simp only [hk, lookup_map]
  cases Dict.get? d k <;> rfl

theorem get_map (d : Dict String Val) (k : String) :
    callMeth .get (ofMap d) [.str k] [] = .ok ((Dict.get? d k).getD .none) := by
  unfold ofMap callMeth
  simp only [lookup_map]
  cases Dict.get? d k <;> rfl

theorem get_map2 (d : Dict String Val) (k : String) (v : Val) :
    callMeth .get (ofMap d) [.str k, v] [] = .ok ((Dict.get? d k).getD v) := by
  unfold ofMap callMeth
  simp only [lookup_map]
  cases Dict.get? d k <;> rfl

theorem index_map (d : Dict String Val) (k : String) :
    getIndex (ofMap d) (.str k) = match Dict.get? d k with
      | some v => .ok v
      | none => .error (.py .KeyError) := by
  unfold ofMap
  rw [index_dict, lookup_map]

theorem upper_dtstart : "DTSTART".toUpper = "DTSTART" := by decide +kernel
theorem upper_dtend : "DTEND".toUpper = "DTEND" := by decide +kernel
theorem upper_duration : "DURATION".toUpper = "DURATION" := by decide +kernel
theorem upper_uid : "UID".toUpper = "UID" := by decide +kernel

/-! ### times -/

theorem prim_timezone : callPrim .localTimezone [] [] = .ok (.obj "LocalTimezone" []) := rfl

theorem meth_local (r : Res DateTime) :
    callMeth .astimezone (.obj "AwareDatetime" [("local", inLocal r)]) [.obj "LocalTimezone" []] []
    = toM (fun t => .obj "LocalDatetime" [("naive", .datetime t)]) r := by
  cases r with
  | ok t => rfl
  | error f => cases f <;> rfl

theorem meth_naive (t : Int) :
    callMeth .replace (.obj "LocalDatetime" [("naive", .datetime t)]) [] [("tzinfo", .none)] = .ok (.datetime t) := rfl

theorem float_datetime_prog (W n : Nat) (tz : LocalTz) (t : ICalTime) (ht : ∀ d, t ≠ .date d) :
    Source.prog.call W (n + 1) "float_datetime" [ofTime tz t] [] = toM .datetime (floatDatetime tz t) := by
  rw [call_eq (d := Source.float_datetime) rfl]
  cases t with
  | date d => exact absurd rfl (ht d)
  | naive t => lang [Source.float_datetime, ofTime, getField]; rfl
  | aware t off =>
    have h : ofTime tz (.aware t off) = .obj "AwareDatetime" [("local", inLocal (floatDatetime tz (.aware t off)))] := rfl
    rw [h]
    generalize floatDatetime tz (.aware t off) = r
    cases r with
    | ok x =>
      lang [Source.float_datetime, getField, prim_timezone, meth_local, toM_ok, meth_naive]
    | error f =>
      lang [Source.float_datetime, getField, prim_timezone, meth_local, toM_error, meth_naive]

theorem prim_midnight : callPrim .time [.int 0, .int 0] [] = .ok (.time 0) := rfl
theorem prim_combine_date (d t : Int) : callPrim .combine [.date d, .time t] [] = .ok (.datetime (combine d t)) := rfl
theorem isType_date (d : Int) : isType .date (.date d) = true := rfl
theorem isType_datetime (t : Int) : isType .date (.datetime t) = false := rfl
theorem isType_aware (l : List (String × Val)) : isType .date (.obj "AwareDatetime" l) = false := rfl

/-- A value of DTSTART or DTEND that is not a date. -/
theorem isType_time (tz : LocalTz) (t : ICalTime) (ht : ∀ d, t ≠ .date d) : isType .date (ofTime tz t) = false := by
  cases t with
  | date d => exact absurd rfl (ht d)
  | naive t => rfl
  | aware t o => rfl

/-- The environment of `_getDtstartDuration`. -/
def timeEnv (S C s e u a : Option Val) : Env :=
  [("self", S), ("component", C), ("dtstart", s), ("dtend", e), ("duration", u), ("allday", a)]

/-- `if type(dtstart) is date: ...` -/
def dtstartStmt : Stmt :=
  .ite (.typeIs (.var "dtstart") (.date)) [
    .assign (.name "dtstart") (.prim .combine [(.var "dtstart"), (.prim .time [(.const (.int 0)), (.const (.int 0))] [])] []),
    .assign (.name "allday") (.const (.bool true))] [
    .assign (.name "dtstart") (.call "float_datetime" [(.var "dtstart")] [])]

/-- `if dtend is not None: ...` -/
def dtendStmt : Stmt :=
  .ite (.cmp .isNot (.var "dtend") (.const .none)) [
    .ite (.typeIs (.var "dtend") (.date)) [
      .assign (.name "dtend") (.prim .combine [(.var "dtend"), (.prim .time [(.const (.int 0)), (.const (.int 0))] [])] [])] [
      .assign (.name "dtend") (.call "float_datetime" [(.var "dtend")] [])],
    .assign (.name "duration") (.bin .sub (.var "dtend") (.var "dtstart"))] [
    .ite (.cmp .is (.var "duration") (.const .none)) [
      .ite (.typeIs (.var "dtstart") (.date)) [
        .assign (.name "dtend") (.prim .combine [(.var "dtend"), (.bin .add (.prim .time [(.const (.int 0)), (.const (.int 0))] []) (.prim .timedelta [] [("days", (.const (.int 1)))]))] [])] [
        .assign (.name "dtend") (.var "dtstart")],
      .assign (.name "duration") (.bin .sub (.var "dtend") (.var "dtstart"))] []]

/-- `if duration is not None and dtend is not None: ...` -/
def ignoreStmt : Stmt :=
  .ite (.and (.cmp .isNot (.var "duration") (.const .none)) (.cmp .isNot (.var "dtend") (.const .none))) [
    .expr (.tuple [(.bin .mod (.const (.str "Invalid iCalendar data: Event '%s' has both dtend and duration. Ignoring the duration.")) (.meth (.var "component") .decoded [(.const (.str "UID"))] []))]),
    .assign (.name "duration") (.const .none)] []

/-- `assert ((dtend is None and ...` -/
def oneStmt : Stmt :=
  .assert (.or (.and (.cmp .is (.var "dtend") (.const .none)) (.cmp .isNot (.var "duration") (.const .none))) (.or (.and (.cmp .isNot (.var "dtend") (.const .none)) (.cmp .is (.var "duration") (.const .none))) (.and (.cmp .is (.var "dtend") (.const .none)) (.cmp .is (.var "duration") (.const .none)))))

theorem getDtstartDuration_eq : Source.CalendarBase_getDtstartDuration = {
    kind := .fn
    params := [("self", none), ("component", none)]
    locals := ["dtstart", "dtend", "duration", "allday"]
    body := [
      .assign (.name "dtstart") (.meth (.var "component") .decoded [(.const (.str "DTSTART")), (.const .none)] []),
      .assign (.name "dtend") (.meth (.var "component") .decoded [(.const (.str "DTEND")), (.const .none)] []),
      .assign (.name "duration") (.meth (.var "component") .decoded [(.const (.str "DURATION")), (.const .none)] []),
      ignoreStmt,
      .assert (.cmp .isNot (.var "dtstart") (.const .none)),
      oneStmt,
      .assign (.name "allday") (.const (.bool false)),
      dtstartStmt,
      dtendStmt,
      .ret (.tuple [(.var "dtstart"), (.var "duration"), (.var "allday")])] } := rfl

theorem is_time (tz : LocalTz) (t : ICalTime) : Val.is (ofTime tz t) .none = .ok false := by
  cases t <;> rfl

theorem is_time_opt (tz : LocalTz) (t : Option ICalTime) : Val.is ((t.map (ofTime tz)).getD .none) .none = .ok (!t.isSome) := by
  cases t with
  | none => rfl
  | some t => exact is_time tz t

theorem is_delta_opt (t : Option TimeDelta) : Val.is ((t.map Val.delta).getD .none) .none = .ok (!t.isSome) := by
  cases t <;> rfl

theorem start_stmt (W n : Nat) (tz : LocalTz) (S C e u : Option Val) (st : ICalTime) :
    exec (Source.prog.ctx W (n + 1)) W dtstartStmt ⟨timeEnv S C (some (ofTime tz st)) e u (some (.bool false)), []⟩
    = match importStart tz st with
      | .ok p => (⟨timeEnv S C (some (.datetime p.1)) e u (some (.bool p.2)), []⟩, .next)
      | .error f => (⟨timeEnv S C (some (ofTime tz st)) e u (some (.bool false)), []⟩, .stop (ofFault f)) := by
  by_cases hd : ∃ d, st = .date d
  · obtain ⟨d, rfl⟩ := hd
    lang [dtstartStmt, timeEnv, ofTime, isType_date, prim_midnight, prim_combine_date]
    rfl
  · have ht : ∀ d, st ≠ .date d := fun d h => hd ⟨d, h⟩
    have h := float_datetime_prog W n tz st ht
    have hi : importStart tz st = (do .ok (← floatDatetime tz st, false)) := by
      cases st with
      | date d => exact absurd rfl (ht d)
      | naive t => rfl
      | aware t o => rfl
    rw [hi]
    have ht' := isType_time tz st ht
    generalize floatDatetime tz st = r at h ⊢
    cases r with
    | ok t =>
      rw [toM_ok] at h
      lang [dtstartStmt, timeEnv, ht', ctx_call, h]
      rfl
    | error f =>
      rw [toM_error] at h
      lang [dtstartStmt, timeEnv, ht', ctx_call, h]
      rfl

theorem end_none (W n : Nat) (S C a : Option Val) (t : DateTime) (u : Option TimeDelta) :
    ∃ e, exec (Source.prog.ctx W (n + 1)) W dtendStmt
      ⟨timeEnv S C (some (.datetime t)) (some .none) (some ((u.map .delta).getD .none)) a, []⟩
    = (⟨timeEnv S C (some (.datetime t)) e (some (.delta (u.getD (t - t)))) a, []⟩, .next) := by
  cases u with
  | none =>
    refine ⟨some (.datetime t), ?_⟩
    lang [dtendStmt, timeEnv, isType_datetime, Option.map_none, Option.getD_none]
  | some u =>
    refine ⟨some .none, ?_⟩
    lang [dtendStmt, timeEnv, Option.map_some, Option.getD_some]

theorem end_some (W n : Nat) (tz : LocalTz) (S C a u : Option Val) (t : DateTime) (en : ICalTime) :
    exec (Source.prog.ctx W (n + 1)) W dtendStmt ⟨timeEnv S C (some (.datetime t)) (some (ofTime tz en)) u a, []⟩
    = match importEnd tz en with
      | .ok x => (⟨timeEnv S C (some (.datetime t)) (some (.datetime x)) (some (.delta (x - t))) a, []⟩, .next)
      | .error f => (⟨timeEnv S C (some (.datetime t)) (some (ofTime tz en)) u a, []⟩, .stop (ofFault f)) := by
  have hn := is_time tz en
  by_cases hd : ∃ d, en = .date d
  · obtain ⟨d, rfl⟩ := hd
    lang [dtendStmt, timeEnv, ofTime, isType_date, prim_midnight, prim_combine_date]
    rfl
  · have ht : ∀ d, en ≠ .date d := fun d h => hd ⟨d, h⟩
    have h := float_datetime_prog W n tz en ht
    have hi : importEnd tz en = floatDatetime tz en := by
      cases en with
      | date d => exact absurd rfl (ht d)
      | naive t => rfl
      | aware t o => rfl
    rw [hi]
    have ht' := isType_time tz en ht
    generalize floatDatetime tz en = r at h ⊢
    cases r with
    | ok t =>
      rw [toM_ok] at h
      lang [dtendStmt, timeEnv, hn, ht', ctx_call, h]
    | error f =>
      rw [toM_error] at h
      lang [dtendStmt, timeEnv, hn, ht', ctx_call, h]

theorem format_char (c : Char) (f : List Char) (vs : List Val) (h : c ≠ '%') :
    format (c :: f) vs = (do .ok (String.singleton c ++ (← format f vs))) := by
  conv => lhs; unfold format
  split
  all_goals simp_all

theorem format_plain (l : List Char) (h : '%' ∉ l) : format l [] = .ok (String.join (l.map String.singleton)) := by
  induction l with
  | nil => rfl
  | cons c l ih =>
    rw [format_char c l [] (fun e => h (e ▸ List.mem_cons_self)), ih (fun e => h (List.mem_cons_of_mem c e))]
    simp only [M_bind_ok, List.map_cons, String.join_cons]

theorem format_one (a b : List Char) (u : String) (ha : '%' ∉ a) (hb : '%' ∉ b) :
    ∃ w, format (a ++ '%' :: 's' :: b) [.str u] = .ok w := by
  induction a with
  | nil =>
    refine ⟨u ++ String.join (b.map String.singleton), ?_⟩
    rw [List.nil_append, format, format_plain b hb]
    rfl
  | cons c l ih =>
    obtain ⟨w, hw⟩ := ih (fun e => ha (List.mem_cons_of_mem c e))
    refine ⟨String.singleton c ++ w, ?_⟩
    rw [List.cons_append, format_char c _ _ (fun e => ha (e ▸ List.mem_cons_self)), hw]
    rfl

/-- The message with a UID in it can be written. -/
theorem ignoring_message (u : String) : ∃ w,
    binop .mod (.str "Invalid iCalendar data: Event '%s' has both dtend and duration. Ignoring the duration.") (.str u)
    = .ok w := by
  obtain ⟨w, hw⟩ := format_one "Invalid iCalendar data: Event '".toList
    "' has both dtend and duration. Ignoring the duration.".toList u (by decide +kernel) (by decide +kernel)
  refine ⟨.str w, ?_⟩
  have hm : "Invalid iCalendar data: Event '%s' has both dtend and duration. Ignoring the duration.".toList
      = "Invalid iCalendar data: Event '".toList ++ '%' :: 's' ::
        "' has both dtend and duration. Ignoring the duration.".toList := by decide +kernel
  have hb : ∀ f : String, binop .mod (.str f) (.str u) = (format f.toList [.str u]).map .str := fun f => rfl
  rw [hb, hm, hw]
  rfl

theorem ignore_stmt (W n : Nat) (tz : LocalTz) (v : VEvent) (d : Dict String Val) (hp : Parsed tz v d)
    (hu : v.uid ≠ none ∨ v.dtend = none ∨ v.duration = none) (S s : Option Val) :
    exec (Source.prog.ctx W (n + 1)) W ignoreStmt
      ⟨timeEnv S (some (ofComponent d)) s (some ((v.dtend.map (ofTime tz)).getD .none)) (some ((v.duration.map .delta).getD .none)) none, []⟩
    = (⟨timeEnv S (some (ofComponent d)) s (some ((v.dtend.map (ofTime tz)).getD .none))
        (some (if v.dtend.isSome then .none else (v.duration.map .delta).getD .none)) none, []⟩, .next) := by
  have h1 := is_time_opt tz v.dtend
  have h2 := is_delta_opt v.duration
  have h3 := meth_decoded1 d "UID" upper_uid
  rw [hp.uid] at h3
  generalize v.duration = du at *
  generalize v.dtend = de at *
  generalize v.uid = u at *
  cases du with
  | none => cases de with
    | none => lang [ignoreStmt, timeEnv, h1, h2, Option.isSome]
    | some e => lang [ignoreStmt, timeEnv, h1, h2, Option.isSome]; rfl
  | some x => cases de with
    | none => lang [ignoreStmt, timeEnv, h1, h2, Option.isSome]
    | some e =>
      cases u with
      | none => simp at hu
      | some u =>
        simp only [Option.map_some] at h3
        obtain ⟨w, hw⟩ := ignoring_message u
        lang [ignoreStmt, timeEnv, h1, h2, h3, hw, Option.isSome]

theorem one_stmt (W n : Nat) (tz : LocalTz) (de : Option ICalTime) (du : Option TimeDelta) (S C s a : Option Val) :
    exec (Source.prog.ctx W (n + 1)) W oneStmt
      ⟨timeEnv S C s (some ((de.map (ofTime tz)).getD .none))
        (some (if de.isSome then .none else (du.map .delta).getD .none)) a, []⟩
    = (⟨timeEnv S C s (some ((de.map (ofTime tz)).getD .none))
        (some (if de.isSome then .none else (du.map .delta).getD .none)) a, []⟩, .next) := by
  have h1 := is_time_opt tz de
  have h2 := is_delta_opt du
  cases de with
  | none => cases du with
    | none => lang [oneStmt, timeEnv, h1, h2, Option.isSome]
    | some x => lang [oneStmt, timeEnv, h1, h2, Option.isSome]
  | some e => lang [oneStmt, timeEnv, h1, h2, Option.isSome]

/-- DTSTART, the duration and whether only dates were given. -/
def ofTimes (p : DateTime × TimeDelta × Bool) : Val := .tuple [.datetime p.1, .delta p.2.1, .bool p.2.2]

theorem getDtstartDuration_prog (W n : Nat) (tz : LocalTz) (v : VEvent) (d : Dict String Val) (hp : Parsed tz v d)
    (hu : v.uid ≠ none ∨ v.dtend = none ∨ v.duration = none) (S : Val) :
    Source.prog.call W (n + 2) "CalendarBase._getDtstartDuration" [S, ofComponent d] []
    = toM ofTimes (getDtstartDuration tz v) := by
  rw [call_eq (d := Source.CalendarBase_getDtstartDuration) rfl]
  have a1 := meth_decoded d "DTSTART" .none upper_dtstart
  have a2 := meth_decoded d "DTEND" .none upper_dtend
  have a3 := meth_decoded d "DURATION" .none upper_duration
  rw [hp.dtstart] at a1
  rw [hp.dtend] at a2
  rw [hp.duration] at a3
  have h1 := is_time_opt tz v.dtstart
  have i := fun s => ignore_stmt W n tz v d hp hu (some S) s
  have o := fun s => one_stmt W n tz v.dtend v.duration (some S) (some (ofComponent d)) s none
  have e := end_some W n tz
  have e' := end_none W n
  unfold getDtstartDuration
  cases hs : v.dtstart with
  | none =>
    rw [hs] at h1
    have i := i (some .none)
    unfold timeEnv at i
    lang [getDtstartDuration_eq, hs, a1, a2, a3, h1, i, Option.isSome, Option.map_none, Option.getD_none]
    rfl
  | some st =>
    rw [hs] at h1 a1
    simp only [Option.map_some, Option.getD_some] at h1 a1
    have i := i (some (ofTime tz st))
    have o := o (some (ofTime tz st))
    have s := start_stmt W n tz (some S) (some (ofComponent d)) 
        (some ((v.dtend.map (ofTime tz)).getD .none)) (some (if v.dtend.isSome then .none else (v.duration.map .delta).getD .none)) st
    unfold timeEnv at i o s
    cases hi : importStart tz st with
    | error f =>
      rw [hi] at s
      lang [getDtstartDuration_eq, a1, a2, a3, h1, i, o, s, hi, Option.isSome_some]
      cases f <;> rfl
    | ok p =>
      rw [hi] at s
      simp only [Option.isSome_some, Bool.not_true] at h1
      cases hde : v.dtend with
      | none =>
        rw [hde] at i o s a2
        obtain ⟨e0, e'⟩ := e' (some S) (some (ofComponent d)) (some (.bool p.2)) p.1 v.duration
        unfold timeEnv at e'
        cases hdu : v.duration with
        | none =>
          rw [hdu] at i o s a3 e'
          simp only [Option.map_none, Option.getD_none, Option.isSome, Bool.false_eq_true, if_false] at i o s a2 a3 e'
          lang [getDtstartDuration_eq, a1, a2, a3, h1, i, o, s, hi, e']
          rfl
        | some u =>
          rw [hdu] at i o s a3 e'
          simp only [Option.map_none, Option.map_some, Option.getD_some, Option.getD_none, Option.isSome, Bool.false_eq_true, if_false] at i o s a2 a3 e'
          lang [getDtstartDuration_eq, a1, a2, a3, h1, i, o, s, hi, e']
          rfl
      | some en =>
        rw [hde] at i o s a2
        have e := e (some S) (some (ofComponent d)) (some (.bool p.2)) (some .none) p.1 en
        unfold timeEnv at e
        simp only [Option.map_some, Option.getD_some, Option.isSome, if_true] at i o s a2
        cases he : importEnd tz en with
        | error f =>
          rw [he] at e
          lang [getDtstartDuration_eq, a1, a2, a3, h1, i, o, s, hi, e]
          simp only [he]
          cases f <;> rfl
        | ok x =>
          rw [he] at e
          lang [getDtstartDuration_eq, a1, a2, a3, h1, i, o, s, hi, e]
          simp only [he]
          rfl

/-- With DTEND and DURATION but no UID the message cannot be made. -/
theorem nouid_prog (W n : Nat) (tz : LocalTz) (v : VEvent) (d : Dict String Val) (hp : Parsed tz v d)
    (hu : v.uid = none) (he : v.dtend ≠ none) (hd : v.duration ≠ none) (S : Val) :
    Source.prog.call W (n + 2) "CalendarBase._getDtstartDuration" [S, ofComponent d] [] = .error (.py .KeyError) := by
  rw [call_eq (d := Source.CalendarBase_getDtstartDuration) rfl]
  have a1 := meth_decoded d "DTSTART" .none upper_dtstart
  have a2 := meth_decoded d "DTEND" .none upper_dtend
  have a3 := meth_decoded d "DURATION" .none upper_duration
  have a4 := meth_decoded1 d "UID" upper_uid
  rw [hp.dtstart] at a1
  rw [hp.dtend] at a2
  rw [hp.duration] at a3
  rw [hp.uid, hu] at a4
  obtain ⟨en, he⟩ := Option.ne_none_iff_exists'.1 he
  obtain ⟨du, hd⟩ := Option.ne_none_iff_exists'.1 hd
  have h1 := is_time_opt tz (some en)
  have h2 := is_delta_opt (some du)
  rw [he] at a2
  rw [hd] at a3
  simp only [Option.map_some, Option.map_none, Option.getD_some] at a2 a3 a4 h1 h2
  lang [getDtstartDuration_eq, ignoreStmt, a1, a2, a3, a4, h1, h2, Option.isSome_some]

end CalCore.Lang
