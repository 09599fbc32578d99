import Verif.Lemmas.SourceSmall
import Verif.Lemmas.SourceImportSpec
/- Functions as written that depend on the clock or the name of the host, and creation of events without an id. -/
namespace CalCore.Lang
open CalCore.Spec

theorem format_p (k : Char) (f : List Char) (n : Int) (vs : List Val) {s : String} (hn : 0 ≤ n) (hs : format f vs = .ok s) :
    format ('%' :: '.' :: k :: 'd' :: f) (.int n :: vs) = .ok (padNat (k.toNat - 48) n.toNat ++ s) := by
  rw [format]
  simp only [padInt, if_neg (show ¬ n < 0 by omega), hs, M_bind_ok]

theorem fmt_iso (y m d h i s : Int) (hy : 0 ≤ y) (hm : 0 ≤ m) (hd : 0 ≤ d) (hh : 0 ≤ h) (hi : 0 ≤ i) (hs : 0 ≤ s) :
    binop .mod (.str "%.4d%.2d%.2dT%.2d%.2d%.2d") (.tuple [.int y, .int m, .int d, .int h, .int i, .int s])
      = .ok (.str (padNat 4 y.toNat ++ padNat 2 m.toNat ++ padNat 2 d.toNat ++ "T" ++ (padNat 2 h.toNat ++ padNat 2 i.toNat ++ padNat 2 s.toNat))) := by
  rw [mod_tuple, show "%.4d%.2d%.2dT%.2d%.2d%.2d".toList = '%' :: '.' :: '4' :: 'd' :: '%' :: '.' :: '2' :: 'd' :: '%' :: '.' :: '2' :: 'd' ::
      (['T'] ++ ('%' :: '.' :: '2' :: 'd' :: '%' :: '.' :: '2' :: 'd' :: '%' :: '.' :: '2' :: 'd' :: [])) by decide +kernel,
    format_p _ _ _ _ hy (format_p _ _ _ _ hm (format_p _ _ _ _ hd (format_text _ _ _ (by decide) (format_p _ _ _ _ hh (format_p _ _ _ _ hi
      (format_p _ _ _ _ hs format_end))))))]
  have hT : String.ofList ['T'] = "T" := by decide +kernel
  simp only [hT, String.append_empty, String.append_assoc]
  rfl

theorem field_datetime (t : Int) :
    getField .year (.datetime t) = .ok (.int (dyear (dtDate t))) ∧ getField .month (.datetime t) = .ok (.int (dmonth (dtDate t))) ∧
    getField .hour (.datetime t) = .ok (.int (dtTime t / 3600000000)) ∧ getField .minute (.datetime t) = .ok (.int (dtTime t / 60000000 % 60)) ∧
    getField .second (.datetime t) = .ok (.int (dtTime t / 1000000 % 60)) := ⟨rfl, rfl, rfl, rfl, rfl⟩

theorem iso8601_prog [Source.Globals] (W n : Nat) (t : Int) (ht : dtInRange t = true) :
    Source.prog.call W (n + 1) "iso8601" [.datetime t] [] = .ok (.str (iso8601 t)) := by
  have hr := (dtInRange_date t).1 ht
  have h1 := (dateInRange_iff_year _).1 hr
  obtain ⟨h2, h2', h3, h3'⟩ := validYmd_date (dtDate t)
  have h4 := dtTime_range t
  have hf := fmt_iso (dyear (dtDate t)) (dmonth (dtDate t)) (dday (dtDate t)) (dtTime t / 3600000000) (dtTime t / 60000000 % 60)
    (dtTime t / 1000000 % 60) (by omega) (by omega) (by omega) (by omega) (by omega) (by omega)
  obtain ⟨f1, f2, f3, f4, f5⟩ := field_datetime t
  rw [call_eq (d := Source.iso8601) rfl]
  lang [Source.iso8601, f1, f2, field_day_datetime, f3, f4, f5, hf]
  rfl

theorem fmt_dash (s : String) : binop .mod (.str "-%s") (.str s) = .ok (.str ("-" ++ s)) := by
  rw [mod_str, show "-%s".toList = "-".toList ++ ('%' :: 's' :: []) by decide +kernel,
    format_text _ _ _ (by decide +kernel) (format_s _ _ _ format_end)]
  rw [String.ofList_toList, String.append_empty]
  rfl

theorem fmt_at (s : String) : binop .mod (.str "@%s") (.str s) = .ok (.str ("@" ++ s)) := by
  rw [mod_str, show "@%s".toList = "@".toList ++ ('%' :: 's' :: []) by decide +kernel,
    format_text _ _ _ (by decide +kernel) (format_s _ _ _ format_end)]
  rw [String.ofList_toList, String.append_empty]
  rfl

theorem fmt_maker (s : String) (n : Int) : binop .mod (.str "%s-%s") (.tuple [.str s, .int n]) = .ok (.str (s ++ "-" ++ toString n)) := by
  rw [mod_tuple, show "%s-%s".toList = '%' :: 's' :: ("-".toList ++ ('%' :: 's' :: [])) by decide +kernel]
  have hi : format ['%', 's'] [.int n] = .ok (toString n) := by
    rw [format, format_end]
    simp only [showVal, M_bind_ok, String.append_empty]
  rw [format_s _ _ _ (format_text _ _ _ (by decide +kernel) hi), String.ofList_toList, String.append_assoc]
  rfl

theorem add_str (a b : String) : binop .add (.str a) (.str b) = .ok (.str (a ++ b)) := rfl

theorem clock_glob (G : Ctx) (now : Int) (host : String) (h : G.globals = (Source.world now host).vars) (env : Env) :
    eval G env (.glob "clock") = .ok (.datetime now) := by
  rw [eval, h]
  rfl

theorem fqdn_glob (G : Ctx) (now : Int) (host : String) (h : G.globals = (Source.world now host).vars) (env : Env) :
    eval G env (.glob "fqdn") = .ok (.str host) := by
  rw [eval, h]
  rfl

theorem ctx_globals [G : Source.Globals] (W n : Nat) : (Source.prog.ctx W n).globals = G.vars := rfl

theorem addrspec_prog (W n : Nat) (now : Int) (fqdn : String) (hn : dtInRange now = true) (maker host : String) :
    (@Source.prog (Source.world now fqdn)).call W (n + 2) "addrspec_unique_id" [.str maker, .str host] []
      = .ok (.str (addrspecUniqueId now maker host)) := by
  let _ : Source.Globals := Source.world now fqdn
  have h := iso8601_prog W n now hn
  rw [call_eq (d := Source.addrspec_unique_id) rfl]
  lang [Source.addrspec_unique_id, ↓clock_glob _ now fqdn (ctx_globals W (n + 1)), ctx_call, h, fmt_dash, fmt_at, add_str]
  unfold addrspecUniqueId
  simp only [String.append_assoc]

theorem storage_auto_prog (W n : Nat) (now : Int) (fqdn : String) (hn : dtInRange now = true) (L : Listing) (st : Storage)
    (s : CalCore.Spec) (hf : SpecFits s) :
    (@Source.prog (Source.world now fqdn)).call W (n + 7) "StorageBase.createEvent" [ofStorage L st, .none, ofSpec L s] []
    = .ok (procVal [ofStorage L (st.createEvent now none s).1, .str (st.autoId now), ofSpec L s] [] (endOf (st.createEvent now none s).2)
        (given (ofEvent L) (st.createEvent now none s).2)) := by
  let _ : Source.Globals := Source.world now fqdn
  have h := eventFactory_prog W n L (ofStorage L st) (st.autoId now) s hf
  have ha := addrspec_prog W (n + 4) now fqdn hn (st.id ++ "-" ++ toString (st.events.length : Int)) st.host
  have hl : addrspecUniqueId now (st.id ++ "-" ++ toString (st.events.length : Int)) st.host = st.autoId now := rfl
  rw [hl] at ha
  have e1 : attrVal "_storage_id" (ofStorage L st) = .ok (.str st.id) := rfl
  have e2 : attrVal "_hostname" (ofStorage L st) = .ok (.str st.host) := rfl
  have e3 : attrVal "_events" (ofStorage L st) = .ok (.dict (st.events.map (fun p => (.str p.1, ofEvent L p.2)))) := rfl
  rw [call_eq (d := Source.StorageBase_createEvent) rfl]
  unfold Storage.createEvent
  rw [Option.getD_none]
  simp only []
  generalize newEvent (st.autoId now) s = r at h ⊢
  cases r with
  | ok e =>
    rw [toM_ok] at h
    lang [Source.StorageBase_createEvent, ↓eval_attr, e1, e2, e3, List.length_map, fmt_maker, ctx_call, ha, ↓eval_method, on_storage,
      callClass_some method_eventFactory, h, ↓assign_attrItem, storage_set]
    rfl
  | error f =>
    rw [toM_error] at h
    lang [Source.StorageBase_createEvent, ↓eval_attr, e1, e2, e3, List.length_map, fmt_maker, ctx_call, ha, ↓eval_method, on_storage,
      callClass_some method_eventFactory, h]
    rfl

theorem manager_auto_prog (W n : Nat) (now : Int) (fqdn : String) (hn : dtInRange now = true) (L : Listing) (w : World)
    (s : CalCore.Spec) (hf : SpecFits s) :
    (@Source.prog (Source.world now fqdn)).call W (n + 8) "StorageManagerBase.createEventFromSpecification" [ofManager L w.store, .none, ofSpec L s] []
      = .ok (procVal [ofManager L (w.createEvent now none s).1.store, .none, ofSpec L s]
        (telling L "EventCreatedEvent" (w.createEvent now none s).2)
        (endOf (w.createEvent now none s).2) (given (ofEvent L) (w.createEvent now none s).2)) := by
  let _ : Source.Globals := Source.world now fqdn
  have h := storage_auto_prog W n now fqdn hn L w.store s hf
  have h2 := note_init_prog W (n + 6) "EventCreatedEvent"
  unfold World.createEvent
  generalize w.store.createEvent now none s = z at h ⊢
  obtain ⟨st', r'⟩ := z
  rw [call_eq (d := Source.StorageManagerBase_createEventFromSpecification) rfl]
  cases r' with
  | ok e =>
    lang [Source.StorageManagerBase_createEventFromSpecification, ↓object_part, manager_part, invoke_storage,
      callClass_some method_storage_createEvent, h, after_part, manager_put, putArgs_str, putArgs_spec, State.partAfter, endOf, given, telling,
      List.append_nil, ctx_new method_note_created, h2]
  | error f =>
    lang [Source.StorageManagerBase_createEventFromSpecification, ↓object_part, manager_part, invoke_storage,
      callClass_some method_storage_createEvent, h, after_part, manager_put, putArgs_str, putArgs_spec, State.partAfter, endOf, given, telling,
      List.append_nil]

/-! ### keyword arguments -/

theorem method_manager_create [Source.Globals] :
    Source.prog.method 4 "StorageManager" "createEventFromSpecification" = some "StorageManagerBase.createEventFromSpecification" := rfl

theorem invoke_manager [Source.Globals] (W n : Nat) (L : Listing) (s : Storage) (m : String) (args : M (List Val)) :
    (Source.prog.ctx W n).invoke (ofManager L s) m args = callClass W n "StorageManager" (ofManager L s) m args (.ok []) := by
  rw [ofManager]
  unfold Ctx.invoke callClass
  simp only [ctx_method, ctx_call, M_bind_ok]
  cases args with
  | error e => rfl
  | ok xs => cases Source.prog.method 4 "StorageManager" m <;> rfl

theorem kw_create_prog [Source.Globals] (W n : Nat) (L : Listing) (m m' : Storage) (uv u' : Val) (d : Dict String Val) (s : CalCore.Spec)
    (out : List Val) (fin : Option Stop) (v : Val) (hs : Source.prog.new W n "EventSpecification" [] d = .ok (ofSpec L s))
    (hu : u' = .none ∨ ∃ x, u' = .str x)
    (h : Source.prog.call W n "StorageManagerBase.createEventFromSpecification" [ofManager L m, uv, ofSpec L s] []
      = .ok (procVal [ofManager L m', u', ofSpec L s] out fin v)) :
    Source.prog.call W (n + 1) "StorageManagerBase.createEvent" [ofManager L m, uv, ofMap d] []
      = .ok (procVal [ofManager L m', uv, ofMap d] out fin (if fin = none then v else .none)) := by
  have hp : ∀ env : Env, Env.putArgs [.var "unique_id", .newKw "EventSpecification" (.var "kw")] [u', ofSpec L s] env = env := by
    rcases hu with rfl | ⟨x, rfl⟩ <;> exact fun _ => rfl
  rw [call_eq (d := Source.StorageManagerBase_createEvent) rfl]
  cases fin with
  | none =>
    lang [Source.StorageManagerBase_createEvent, ofMap, kwOf_map, ctx_new_eq, hs, invoke_manager, callClass_some method_manager_create, h,
      after_var_assign, hp]
  | some e =>
    lang [Source.StorageManagerBase_createEvent, ofMap, kwOf_map, ctx_new_eq, hs, invoke_manager, callClass_some method_manager_create, h,
      after_var_stop, hp]

theorem kw_create_error [Source.Globals] (W n : Nat) (L : Listing) (m : Storage) (uv : Val) (d : Dict String Val) (e : Stop)
    (hs : Source.prog.new W n "EventSpecification" [] d = .error e) :
    Source.prog.call W (n + 1) "StorageManagerBase.createEvent" [ofManager L m, uv, ofMap d] []
      = .ok (procVal [ofManager L m, uv, ofMap d] [] (some e) .none) := by
  rw [call_eq (d := Source.StorageManagerBase_createEvent) rfl]
  lang [Source.StorageManagerBase_createEvent, ofMap, kwOf_map, ctx_new_eq, hs, invoke_manager]
  rfl

/-! ### today -/

theorem method_today [Source.Globals] : Source.prog.method 4 "Calendar" "getToday" = some "CalendarBase.getToday" := rfl
theorem method_thisYear [Source.Globals] : Source.prog.method 4 "Calendar" "getCurrentYear" = some "CalendarBase.getCurrentYear" := rfl
theorem method_years [Source.Globals] : Source.prog.method 4 "Calendar" "getRecentYears" = some "CalendarBase.getRecentYears" := rfl

theorem today_prog (W n : Nat) (now : Int) (fqdn : String) (o : Val) :
    (@Source.prog (Source.world now fqdn)).call W (n + 1) "CalendarBase.getToday" [o] [] = .ok (.datetime now) := by
  let _ : Source.Globals := Source.world now fqdn
  rw [call_eq (d := Source.CalendarBase_getToday) rfl]
  lang [Source.CalendarBase_getToday, ↓clock_glob _ now fqdn (ctx_globals W n)]

theorem thisYear_prog (W n : Nat) (now : Int) (fqdn : String) (L : Listing) (s : Storage) (src : CalCore.Source) (c : Calendar) :
    (@Source.prog (Source.world now fqdn)).call W (n + 2) "CalendarBase.getCurrentYear" [ofCalendar L s src c] [] = .ok (.int (dyear (dtDate now))) := by
  let _ : Source.Globals := Source.world now fqdn
  have h := today_prog W n now fqdn (ofCalendar L s src c)
  obtain ⟨f1, -⟩ := field_datetime now
  rw [call_eq (d := Source.CalendarBase_getCurrentYear) rfl]
  lang [Source.CalendarBase_getCurrentYear, ↓eval_method, on_calendar, callClass_some method_today, h, f1]

theorem years_prog (W n : Nat) (now : Int) (fqdn : String) (L : Listing) (s : Storage) (src : CalCore.Source) (c : Calendar) :
    (@Source.prog (Source.world now fqdn)).call W (n + 3) "CalendarBase.getRecentYears" [ofCalendar L s src c] []
      = .ok (.list ((recentYears (dtDate now)).map .int)) := by
  let _ : Source.Globals := Source.world now fqdn
  have h := thisYear_prog W n now fqdn L s src c
  have hr : ∀ y : Int, rangeInt (y - 1) (y + 2) = [.int (y - 1), .int y, .int (y + 1)] := fun y => by
    unfold rangeInt
    rw [show (y + 2 - (y - 1)).toNat = 3 by omega]
    simp only [List.range_succ, List.range_zero, List.nil_append, List.cons_append, List.map_cons, List.map_nil]
    rw [show y - 1 + ((0 : Nat) : Int) = y - 1 by omega, show y - 1 + ((1 : Nat) : Int) = y by omega,
      show y - 1 + ((2 : Nat) : Int) = y + 1 by omega]
  rw [call_eq (d := Source.CalendarBase_getRecentYears) rfl]
  lang [Source.CalendarBase_getRecentYears, ↓eval_method, on_calendar, callClass_some method_thisYear, h, hr]
  rfl

theorem storage_here (W n : Nat) (now : Int) (fqdn : String) (id : String) (v : Val) (h : v = .none ∨ v = .str "") :
    (@Source.prog (Source.world now fqdn)).new W (n + 2) "MemoryStorage" [.str id, v] []
      = .ok (.obj "MemoryStorage" [("_storage_id", .str id), ("_events", .dict []), ("_hostname", .str fqdn)]) := by
  let _ : Source.Globals := Source.world now fqdn
  have hi := initEvents_prog W n
  have ht : v.truthy = false := by rcases h with rfl | rfl <;> rfl
  rw [new_eq (f := "StorageBase.__init__") rfl, call_eq (d := Source.StorageBase_init) rfl]
  lang [Source.StorageBase_init, hi, method_initEvents, ctx_call, ctx_method, ht, ↓fqdn_glob _ now fqdn (ctx_globals W (n + 1))]

end CalCore.Lang
