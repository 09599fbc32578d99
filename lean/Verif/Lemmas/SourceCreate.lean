import Verif.Lemmas.SourceMake
import Verif.Lemmas.Store
/- Making events and storing them, as written. -/
namespace CalCore.Lang
open CalCore.Spec
set_option linter.unusedSectionVars false
variable [Source.Globals]

theorem putArgs_base (y : String) (es : List Expr) (u : Uid) (st ro : Dict String String) (rest : List (String × Val)) (vs : List Val)
    (env : Env) : Env.putArgs (.var y :: es) (baseObj u st ro rest :: vs) env = Env.putArgs es vs (env.set y (baseObj u st ro rest)) := rfl

theorem set_uid (u : Uid) : setAttrOf "unique_id" (.str u) (.obj "Event" []) = .ok (.obj "Event" [("unique_id", .str u)]) := rfl
theorem set_state (u : Uid) : setAttrOf "_participation_state" (.dict []) (.obj "Event" [("unique_id", .str u)])
    = .ok (.obj "Event" [("unique_id", .str u), ("_participation_state", .dict [])]) := rfl
theorem set_role (u : Uid) : setAttrOf "_participation_role" (.dict [])
    (.obj "Event" [("unique_id", .str u), ("_participation_state", .dict [])]) = .ok (baseObj u [] [] []) := rfl

/-- `if self.allday: self.alldayAdjust()` -/
def adjustStmt : Stmt := .ite (.attr (.var "self") "allday") [.proc none "self" none "alldayAdjust" []] []

/-- `spec.setOnObject(self)` -/
def setStmt : Stmt := .proc none "spec" none "setOnObject" [(.var "self")]

theorem event_init_eq : Source.EventBase_init = {
    kind := .init
    params := [("self", none), ("unique_id", none), ("spec", none)]
    locals := []
    body := [.assign (.attr "self" "unique_id") (.var "unique_id"),
      .assign (.attr "self" "_participation_state") (.method (.var "self") "_initParticipationState" [] []),
      .assign (.attr "self" "_participation_role") (.method (.var "self") "_initParticipationRole" [] []),
      setStmt, adjustStmt] } := rfl

theorem set_stmt (W n : Nat) (L : Listing) (s : CalCore.Spec) (u : Uid) (out : List Val) :
    exec (Source.prog.ctx W (n + 4)) W setStmt ⟨[("self", some (baseObj u [] [] [])), ("unique_id", some (.str u)), ("spec", some (ofSpec L s))], out⟩
    = (⟨[("self", some (ofEvent L (s.setOnObject (blankEvent u)).1)), ("unique_id", some (.str u)), ("spec", some (ofSpec L s))], out⟩,
        ctlOf (s.setOnObject (blankEvent u)).2) := by
  have h := setOnNew_prog W n L s u
  generalize s.setOnObject (blankEvent u) = z at h ⊢
  obtain ⟨e, r⟩ := z
  cases r with
  | ok x =>
    lang [setStmt, invoke_spec, callClass_some method_setOnObject, h, endOf, after_var, putArgs_event, List.append_nil, ctlOf]
  | error f =>
    lang [setStmt, invoke_spec, callClass_some method_setOnObject, h, endOf, after_var_stop, putArgs_event, List.append_nil, ctlOf]

theorem adjust_stmt (W n : Nat) (L : Listing) (e : Event) (hf : e.allday = true → Fits e.duration) (u s : Option Val) (out : List Val) :
    exec (Source.prog.ctx W (n + 1)) W adjustStmt ⟨[("self", some (ofEvent L e)), ("unique_id", u), ("spec", s)], out⟩
    = (⟨[("self", some (ofEvent L (if e.allday then e.alldayAdjust else e))), ("unique_id", u), ("spec", s)], out⟩, .next) := by
  cases ha : e.allday with
  | false => lang [adjustStmt, ↓eval_attr, event_attr_allday, ha]
  | true =>
    have h := allday_fits W n L e (hf ha)
    lang [adjustStmt, ↓eval_attr, event_attr_allday, ha, invoke_event, callClass_some method_alldayAdjust, h, after_var, List.append_nil, Env.putArgs]

theorem setOn_allday (s : CalCore.Spec) (e : Event) : (s.setOnObject e).1.allday = s.allday := by
  unfold Spec.setOnObject
  have h : ∀ (l : List (Option AttId × String × String)) (e : Event), (setAttendeesLoop e l).1.allday = e.allday := by
    intro l
    induction l with
    | nil => intro e; rfl
    | cons x l ih =>
      intro e
      obtain ⟨a, r, st⟩ := x
      unfold setAttendeesLoop
      split
      · rfl
      · cases a with
        | none => rfl
        | some a => exact ih _
  rw [h]
  unfold Spec.setOrganizer
  cases s.organizer <;> rfl

/-- The event can be made: `timedelta` can hold the duration if it has to be adjusted. -/
def SpecFits (s : CalCore.Spec) : Prop := s.allday = true → Fits s.duration

theorem event_init_prog (W n : Nat) (L : Listing) (u : Uid) (s : CalCore.Spec) (hf : SpecFits s) :
    Source.prog.call W (n + 5) "EventBase.__init__" [.obj "Event" [], .str u, ofSpec L s] [] = toM (ofEvent L) (newEvent u s) := by
  have h1 := set_stmt W n L s u []
  have ha := setOn_allday s (blankEvent u)
  have hd := setOn_duration s (blankEvent u)
  unfold newEvent
  generalize s.setOnObject (blankEvent u) = z at h1 ha hd ⊢
  obtain ⟨e, r⟩ := z
  have h3 := initState_prog W (n + 3)
  have h4 := initRole_prog W (n + 3)
  rw [call_eq (d := Source.EventBase_init) rfl]
  cases r with
  | error f =>
    rw [toM_error]
    lang [event_init_eq, ↓assign_attr, set_uid, ↓eval_method, on_obj, callClass_some method_initState, h3, set_state,
      callClass_some method_initRole, h4, set_role, h1, ctlOf]
  | ok x =>
    have h2 := adjust_stmt W (n + 3) L e (by intro h; rw [hd]; exact hf (ha ▸ h)) (some (.str u)) (some (ofSpec L s)) []
    simp only []
    rw [toM_ok]
    lang [event_init_eq, ↓assign_attr, set_uid, ↓eval_method, on_obj, callClass_some method_initState, h3, set_state,
      callClass_some method_initRole, h4, set_role, h1, h2, ctlOf]

theorem event_init_over (W n : Nat) (L : Listing) (u : Uid) (s : CalCore.Spec) (e : Event) (hs : s.setOnObject (blankEvent u) = (e, .ok ()))
    (ha : s.allday = true) (x : TimeDelta) (hx : s.duration = some x) (hl : 999999999 * DAY < x) (hu : x < 1000000000 * DAY) :
    Source.prog.call W (n + 5) "EventBase.__init__" [.obj "Event" [], .str u, ofSpec L s] [] = .error (.py .OverflowError) := by
  have h1 := set_stmt W n L s u []
  have ha' := setOn_allday s (blankEvent u)
  have hd := setOn_duration s (blankEvent u)
  rw [hs] at h1 ha' hd
  simp only [ha, hx] at ha' hd h1
  have h3 := initState_prog W (n + 3)
  have h4 := initRole_prog W (n + 3)
  have h := allday_some W (n + 3) L e x hd (by unfold DAY at *; omega) hu
  rw [if_neg (by omega)] at h
  rw [call_eq (d := Source.EventBase_init) rfl]
  lang [event_init_eq, ↓assign_attr, set_uid, ↓eval_method, on_obj, callClass_some method_initState, h3, set_state,
    callClass_some method_initRole, h4, set_role, h1, ctlOf, adjustStmt, ↓eval_attr, event_attr_allday, ha', invoke_event,
    callClass_some method_alldayAdjust, h, after_var_stop, List.append_nil]

/-! ### the storage -/

theorem setItem_any {α : Type} (f : α → Val) (d : Dict String α) (a : String) (s : α) :
    setItem (.str a) (f s) (d.map (fun p => (Val.str p.1, f p.2))) = .ok ((Dict.set d a s).map (fun p => (Val.str p.1, f p.2))) := by
  induction d with
  | nil => rfl
  | cons p d ih =>
    obtain ⟨k, v⟩ := p
    rw [List.map_cons, setItem, Dict.set]
    by_cases h : k = a
    · simp [eq_str, h]
    · simp only [eq_str, M_bind_ok, h, decide_false, Bool.false_eq_true, ↓reduceIte, ih, List.map_cons]

theorem delKey_any {α : Type} (f : α → Val) (d : Dict String α) (hd : (Dict.keys d).Nodup) (a : String) :
    delKey (.str a) (d.map (fun p => (Val.str p.1, f p.2)))
    = if Dict.has d a then .ok ((Dict.del d a).map (fun p => (Val.str p.1, f p.2))) else .error (.py .KeyError) := by
  induction d with
  | nil => rfl
  | cons p d ih =>
    obtain ⟨k, v⟩ := p
    have hd' : (Dict.keys d).Nodup := (List.nodup_cons.1 hd).2
    have hk : k ∉ Dict.keys d := (List.nodup_cons.1 hd).1
    rw [List.map_cons, delKey]
    by_cases h : k = a
    · subst h
      have hdel : Dict.del ((k, v) :: d) k = d := by
        unfold Dict.del
        rw [List.filter_cons]
        simp only [ne_eq, not_true_eq_false, decide_false, Bool.false_eq_true, ↓reduceIte]
        rw [List.filter_eq_self]
        intro q hq
        simp only [decide_eq_true_eq]
        intro hqk
        exact hk (hqk ▸ List.mem_map.2 ⟨q, hq, rfl⟩)
      rw [hdel]
      simp [eq_str, Dict.has]
    · have hdel : Dict.del ((k, v) :: d) a = (k, v) :: Dict.del d a := by
        unfold Dict.del
        rw [List.filter_cons]
        simp [h]
      have hhas : Dict.has ((k, v) :: d) a = Dict.has d a := by
        unfold Dict.has
        simp [h]
      rw [hdel, hhas, ih hd']
      simp only [eq_str, M_bind_ok, h, decide_false, Bool.false_eq_true, ↓reduceIte]
      by_cases hh : Dict.has d a = true
      · simp [hh]
      · simp [hh]

/-- The storage with other events. -/
def holding (s : Storage) (d : Dict Uid Event) : Storage := { s with events := d }

theorem storage_set (L : Listing) (s : Storage) (u : Uid) (e : Event) :
    setItemOf "_events" (ofEvent L e) (.ok (.str u)) (ofStorage L s) = .ok (ofStorage L (holding s (Dict.set s.events u e))) := by
  have h := setItem_any (ofEvent L) s.events u e
  unfold ofStorage setItemOf
  simp only [getAttr, String.reduceEq, ↓reduceIte, M_bind_ok, h, setAttr]
  rfl

theorem storage_del (L : Listing) (s : Storage) (hs : (Dict.keys s.events).Nodup) (u : Uid) :
    delItemOf "_events" (.ok (.str u)) (ofStorage L s)
    = if Dict.has s.events u then .ok (ofStorage L (holding s (Dict.del s.events u))) else .error (.py .KeyError) := by
  have h := delKey_any (ofEvent L) s.events hs u
  unfold ofStorage delItemOf
  simp only [getAttr, String.reduceEq, ↓reduceIte, M_bind_ok, h]
  by_cases hh : Dict.has s.events u = true
  · simp only [hh, ↓reduceIte, M_bind_ok, setAttr, String.reduceEq]
    rfl
  · simp only [hh]
    rfl

theorem method_eventFactory : Source.prog.method 4 "MemoryStorage" "_eventFactory" = some "MemoryStorage._eventFactory" := rfl
theorem method_storage_createEvent : Source.prog.method 4 "MemoryStorage" "createEvent" = some "StorageBase.createEvent" := rfl
theorem method_storage_deleteEvent : Source.prog.method 4 "MemoryStorage" "deleteEvent" = some "StorageBase.deleteEvent" := rfl
theorem method_note_created : Source.prog.method 4 "EventCreatedEvent" "__init__" = some "EventEvent.__init__" := rfl
theorem method_note_deleted : Source.prog.method 4 "EventDeletedEvent" "__init__" = some "EventEvent.__init__" := rfl

theorem eventFactory_prog (W n : Nat) (L : Listing) (st : Val) (u : Uid) (s : CalCore.Spec) (hf : SpecFits s) :
    Source.prog.call W (n + 6) "MemoryStorage._eventFactory" [st, .str u, ofSpec L s] [] = toM (ofEvent L) (newEvent u s) := by
  have h := event_init_prog W n L u s hf
  rw [call_eq (d := Source.MemoryStorage_eventFactory) rfl]
  generalize newEvent u s = r at h ⊢
  cases r with
  | ok e =>
    rw [toM_ok] at h ⊢
    lang [Source.MemoryStorage_eventFactory, ctx_new method_event_init, h]
  | error f =>
    rw [toM_error] at h ⊢
    lang [Source.MemoryStorage_eventFactory, ctx_new method_event_init, h]

theorem note_init_prog (W n : Nat) (c : String) (e : Val) :
    Source.prog.call W (n + 1) "EventEvent.__init__" [.obj c [], e] [] = .ok (.obj c [("event", e)]) := by
  rw [call_eq (d := Source.EventEvent_init) rfl]
  lang [Source.EventEvent_init]

theorem storage_createEvent_prog (W n : Nat) (L : Listing) (st : Storage) (now : DateTime) (u : Uid) (s : CalCore.Spec) (hf : SpecFits s) :
    Source.prog.call W (n + 7) "StorageBase.createEvent" [ofStorage L st, .str u, ofSpec L s] []
    = .ok (procVal [ofStorage L (st.createEvent now (some u) s).1, .str u, ofSpec L s] [] (endOf (st.createEvent now (some u) s).2)
        (given (ofEvent L) (st.createEvent now (some u) s).2)) := by
  have h := eventFactory_prog W n L (ofStorage L st) u s hf
  rw [call_eq (d := Source.StorageBase_createEvent) rfl]
  unfold Storage.createEvent
  rw [Option.getD_some]
  have hn : Val.is (.str u) .none = .ok false := rfl
  simp only []
  generalize newEvent u s = r at h ⊢
  cases r with
  | ok e =>
    rw [toM_ok] at h
    lang [Source.StorageBase_createEvent, hn, ↓eval_method, on_storage, callClass_some method_eventFactory, h, ↓assign_attrItem, storage_set]
    rfl
  | error f =>
    rw [toM_error] at h
    lang [Source.StorageBase_createEvent, hn, ↓eval_method, on_storage, callClass_some method_eventFactory, h]
    rfl

theorem event_attr_uid (L : Listing) (e : Event) : attrVal "unique_id" (ofEvent L e) = .ok (.str e.uid) := rfl

theorem storage_deleteEvent_prog (W n : Nat) (L : Listing) (st : Storage) (hs : (Dict.keys st.events).Nodup) (e : Event) :
    Source.prog.call W (n + 1) "StorageBase.deleteEvent" [ofStorage L st, ofEvent L e] []
    = .ok (procVal [ofStorage L (st.deleteEvent e.uid).1, ofEvent L e] [] (endOf (st.deleteEvent e.uid).2) .none) := by
  have h := storage_del L st hs e.uid
  rw [call_eq (d := Source.StorageBase_deleteEvent) rfl]
  unfold Storage.deleteEvent
  cases hh : Dict.has st.events e.uid with
  | true =>
    rw [hh] at h
    lang [Source.StorageBase_deleteEvent, ↓delete_eq, ↓eval_attr, event_attr_uid, h, endOf]
    rfl
  | false =>
    rw [hh] at h
    lang [Source.StorageBase_deleteEvent, ↓delete_eq, ↓eval_attr, event_attr_uid, h, endOf]
    rfl

/-! ### the storage manager -/

theorem invoke_storage (W n : Nat) (L : Listing) (s : Storage) (m : String) (args : M (List Val)) :
    (Source.prog.ctx W n).invoke (ofStorage L s) m args = callClass W n "MemoryStorage" (ofStorage L s) m args (.ok []) := by
  rw [ofStorage]
  unfold Ctx.invoke callClass
  simp only [ctx_method, ctx_call, M_bind_ok]
  cases args with
  | error e => rfl
  | ok xs => cases Source.prog.method 4 "MemoryStorage" m <;> rfl

theorem putArgs_spec (y : String) (es : List Expr) (L : Listing) (s : CalCore.Spec) (vs : List Val) (env : Env) :
    Env.putArgs (.var y :: es) (ofSpec L s :: vs) env = Env.putArgs es vs (env.set y (ofSpec L s)) := rfl

/-- `o.a` of the object. -/
def partOf (a : String) : Val → M Val
  | .obj _ attrs => getAttr a attrs
  | .none => err .AttributeError
  | _ => stuck

theorem object_part (env : Env) (x a : String) : Env.object env x (some a) = (do partOf a (← env.get x)) := by
  unfold Env.object
  cases env.get x with
  | error e => rfl
  | ok v => cases v <;> rfl

theorem putObject_part (env : Env) (x a : String) (v : Val) :
    Env.putObject env x v (some a) = (do
      let o ← setAttrOf a v (← env.get x)
      .ok (env.set x o)) := by
  unfold Env.putObject
  cases env.get x with
  | error e => rfl
  | ok o => cases o <;> rfl

theorem manager_part (L : Listing) (s : Storage) : partOf "_storage" (ofManager L s) = .ok (ofStorage L s) := rfl
theorem manager_put (L : Listing) (s s' : Storage) : setAttrOf "_storage" (ofStorage L s') (ofManager L s) = .ok (ofManager L s') := rfl

/-- How a call of a method of a part of an object ends. -/
def State.partAfter (s : State) (G : Ctx) (t : Option Target) (out : List Val) (fin : Option Stop) (v : Val) : M Env → State × Ctl
  | .error e => (s, .stop e)
  | .ok env => match fin with
    | some e => (⟨env, s.out ++ out⟩, .stop e)
    | Option.none => match t with
      | Option.none => (⟨env, s.out ++ out⟩, .next)
      | some t => State.into ⟨env, s.out ++ out⟩ (assign G v env t)

theorem after_part (s : State) (G : Ctx) (t : Option Target) (x a : String) (args : List Expr) (o : Val) (params out : List Val)
    (fin : Option Stop) (v : Val) :
    s.after G t x (some a) args (procVal (o :: params) out fin v)
    = s.partAfter G t out fin v (do
        let o ← setAttrOf a o (← (Env.putArgs args params s.env).get x)
        .ok ((Env.putArgs args params s.env).set x o)) := by
  rw [← putObject_part]
  unfold State.after procVal State.partAfter
  rfl

theorem newEvent_uid {u : Uid} {s : CalCore.Spec} {e : Event} (h : newEvent u s = .ok e) : e.uid = u := by
  unfold newEvent at h
  have hu := setOnObject_uid s (blankEvent u)
  generalize s.setOnObject (blankEvent u) = z at h hu
  obtain ⟨e', r⟩ := z
  cases r with
  | error f => cases h
  | ok x =>
    simp only [Except.ok.injEq] at h
    subst h
    split
    · exact hu
    · exact hu

/-- The notification about an event, if the call did not raise. -/
def telling (L : Listing) (c : String) : Res Event → List Val
  | .ok e => [.obj c [("event", ofEvent L e)]]
  | .error _ => []

theorem manager_createEvent_prog (W n : Nat) (L : Listing) (w : World) (now : DateTime) (u : Uid) (s : CalCore.Spec) (hf : SpecFits s) :
    Source.prog.call W (n + 8) "StorageManagerBase.createEventFromSpecification" [ofManager L w.store, .str u, ofSpec L s] []
      = .ok (procVal [ofManager L (w.createEvent now (some u) s).1.store, .str u, ofSpec L s]
        (telling L "EventCreatedEvent" (w.createEvent now (some u) s).2)
        (endOf (w.createEvent now (some u) s).2) (given (ofEvent L) (w.createEvent now (some u) s).2)) := by
  have h := storage_createEvent_prog W n L w.store now u s hf
  have h2 := note_init_prog W (n + 6) "EventCreatedEvent"
  unfold World.createEvent
  generalize w.store.createEvent now (some u) s = z at h ⊢
  obtain ⟨st', r'⟩ := z
  rw [call_eq (d := Source.StorageManagerBase_createEventFromSpecification) rfl]
  cases r' with
  | ok e =>
    lang [Source.StorageManagerBase_createEventFromSpecification, ↓object_part, manager_part, invoke_storage,
      callClass_some method_storage_createEvent, h, after_part, manager_put, putArgs_str, putArgs_spec, State.partAfter, endOf, given, telling,
      List.append_nil, ctx_new method_note_created, h2]
  | error f =>
    lang [Source.StorageManagerBase_createEventFromSpecification, ↓object_part, manager_part, invoke_storage,
      callClass_some method_storage_createEvent, h, after_part, manager_put, putArgs_str, putArgs_spec, State.partAfter, endOf, given, telling,
      List.append_nil]

theorem manager_deleteEvent_prog (W n : Nat) (L : Listing) (w : World) (hs : (Dict.keys w.store.events).Nodup) (e : Event) :
    Source.prog.call W (n + 2) "StorageManagerBase.deleteEvent" [ofManager L w.store, ofEvent L e] []
      = .ok (procVal [ofManager L (w.deleteEvent e.uid).1.store, ofEvent L e]
        (telling L "EventDeletedEvent" ((w.deleteEvent e.uid).2.map (fun _ => e))) (endOf (w.deleteEvent e.uid).2) .none) := by
  have h := storage_deleteEvent_prog W n L w.store hs e
  have h2 := note_init_prog W n "EventDeletedEvent"
  unfold World.deleteEvent
  generalize w.store.deleteEvent e.uid = z at h ⊢
  obtain ⟨st', r'⟩ := z
  rw [call_eq (d := Source.StorageManagerBase_deleteEvent) rfl]
  cases r' with
  | ok x =>
    lang [Source.StorageManagerBase_deleteEvent, ↓object_part, manager_part, invoke_storage,
      callClass_some method_storage_deleteEvent, h, after_part, manager_put, putArgs_event, State.partAfter, endOf, telling, Except.map,
      List.append_nil, ctx_new method_note_deleted, h2]
  | error f =>
    lang [Source.StorageManagerBase_deleteEvent, ↓object_part, manager_part, invoke_storage,
      callClass_some method_storage_deleteEvent, h, after_part, manager_put, putArgs_event, State.partAfter, endOf, telling, Except.map,
      List.append_nil]

end CalCore.Lang
