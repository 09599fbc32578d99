import Verif.Lemmas.SourceImportAll
import Verif.Lemmas.SourceModify
import Verif.Lemmas.SourceClock
import Verif.Lemmas.Import
/- The import of a whole calendar, as written: its steps. -/
namespace CalCore.Lang
open CalCore.Spec
set_option linter.unusedSectionVars false
variable [Source.Globals] [Weekdays]

/-! ### objects held by the calendar -/

theorem exec_shared (G : Ctx) (W : Nat) (x : String) (a : Stmt) (s : State) :
    exec G W (.shared x a) s = State.share x (exec G W a s) := by rw [exec]

/-- `self` after the object `v` was changed. -/
def shareObj (v : Val) : Val → M Val
  | .obj c attrs => do .ok (.obj c (← shareIn v attrs))
  | _ => stuck

/-- How a statement ends that changed such an object. -/
def State.sharing (s : State) (c : Ctl) : M Env → State × Ctl
  | .ok env => ({ s with env := env }, c)
  | .error e => (s, .stop e)

theorem share_state (x : String) (env : Env) (out : List Val) (c : Ctl) :
    State.share x (⟨env, out⟩, c) = State.sharing ⟨env, out⟩ c (do
      let v ← env.get x
      let o ← shareObj v (← env.get "self")
      .ok (env.set "self" o)) := by
  unfold State.share Env.share
  simp only []
  cases env.get x with
  | error e => rfl
  | ok v =>
    simp only [M_bind_ok]
    cases env.get "self" with
    | error e => rfl
    | ok o =>
      cases o with
      | obj c' attrs =>
        simp only [M_bind_ok, shareObj]
        cases shareIn v attrs <;> rfl
      | _ => rfl

theorem sharing_ok (env env' : Env) (out : List Val) (c : Ctl) : State.sharing ⟨env, out⟩ c (.ok env') = (⟨env', out⟩, c) := rfl

theorem share_manager (L : Listing) (s s' : Storage) (src : CalCore.Source) (c : Calendar) :
    shareObj (ofManager L s') (ofCalendar L s src c) = .ok (ofCalendar L s' src c) := by
  unfold ofManager ofCalendar ofSource shareObj shareIn shareManager
  simp only [getAttr, setAttr, String.reduceEq, ↓reduceIte, M_bind_ok]
  rfl

theorem share_event (L : Listing) (s : Storage) (src : CalCore.Source) (c : Calendar) (e : Event) :
    shareObj (ofEvent L e) (ofCalendar L s src c) = .ok (ofCalendar L (holding s (Dict.set s.events e.uid e)) src c) := by
  have h := setItem_any (ofEvent L) s.events e.uid e
  unfold ofEvent at h
  unfold ofEvent ofCalendar ofSource shareObj shareIn shareManager
  have hu : getAttr "unique_id" (eventAttrs L e) = .ok (.str e.uid) := rfl
  have hm : shareEvent (.obj "Event" (eventAttrs L e)) (.str e.uid) (ofManager L s)
      = .ok (ofManager L (holding s (Dict.set s.events e.uid e))) := by
    unfold ofManager ofStorage shareEvent ofEvent
    simp only [getAttr, setAttr, String.reduceEq, ↓reduceIte, M_bind_ok, h]
    rfl
  simp only [getAttr, setAttr, String.reduceEq, ↓reduceIte, M_bind_ok, hu, hm]

/-! ### notifications -/

/-- The notifications `out` are those that were added to the log. -/
def Tells (L : Listing) (w w' : World) (out : List Val) : Prop :=
  ∃ ns, w'.log = w.log ++ ns ∧ List.Forall₂ (Reports L) out ns

theorem Tells.refl (L : Listing) (w w' : World) (h : w'.log = w.log) : Tells L w w' [] := ⟨[], by rw [h, List.append_nil], .nil⟩

theorem Tells.trans {L : Listing} {w w' w'' : World} {o o' : List Val} (h : Tells L w w' o) (h' : Tells L w' w'' o') :
    Tells L w w'' (o ++ o') := by
  obtain ⟨n, h1, h2⟩ := h
  obtain ⟨n', h3, h4⟩ := h'
  exact ⟨n ++ n', by rw [h3, h1, List.append_assoc], List.rel_append h2 h4⟩

theorem Tells.one {L : Listing} {w w' : World} (n : Note) (e : Event) (h : w'.log = w.log ++ [n]) (hu : e.uid = Note.uid n) :
    Tells L w w' [ofNote L e n] := ⟨[n], h, .cons ⟨e, rfl, hu⟩ .nil⟩

/-! ### the methods called -/

theorem method_cal_getEvent : Source.prog.method 4 "Calendar" "getEvent" = some "CalendarBase.getEvent" := rfl
theorem method_cal_hasEvent : Source.prog.method 4 "Calendar" "hasEvent" = some "CalendarBase.hasEvent" := rfl
theorem method_cal_existing : Source.prog.method 4 "Calendar" "_importExistingEvent" = some "CalendarBase._importExistingEvent" := rfl
theorem method_cal_new : Source.prog.method 4 "Calendar" "_importNewEvent" = some "CalendarBase._importNewEvent" := rfl
theorem method_cal_delete : Source.prog.method 4 "Calendar" "_deleteEvent" = some "CalendarBase._deleteEvent" := rfl
theorem method_willModify : Source.prog.method 4 "EventSpecification" "willModify" = some "EventSpecification.willModify" := rfl
theorem method_note_modified : Source.prog.method 4 "EventModifiedEvent" "__init__" = some "EventEvent.__init__" := rfl
theorem method_manager_delete : Source.prog.method 4 "StorageManager" "deleteEvent" = some "StorageManagerBase.deleteEvent" := rfl

theorem on_spec (W n : Nat) (L : Listing) (s : CalCore.Spec) (m : String) (xs : M (List Val)) (ks : M (List (String × Val))) :
    callMethod (Source.prog.ctx W n) (ofSpec L s) m xs ks = callClass W n "EventSpecification" (ofSpec L s) m xs ks := by
  rw [ofSpec]
  exact on_obj ..

theorem invoke_calendar (W n : Nat) (L : Listing) (s : Storage) (src : CalCore.Source) (c : Calendar) (m : String) (args : M (List Val)) :
    (Source.prog.ctx W n).invoke (ofCalendar L s src c) m args = callClass W n "Calendar" (ofCalendar L s src c) m args (.ok []) := by
  rw [ofCalendar]
  unfold Ctx.invoke callClass
  simp only [ctx_method, ctx_call, M_bind_ok]
  cases args with
  | error e => rfl
  | ok xs => cases Source.prog.method 4 "Calendar" m <;> rfl

theorem putArgs_component (y : String) (es : List Expr) (d : Dict String Val) (vs : List Val) (env : Env) :
    Env.putArgs (.var y :: es) (ofComponent d :: vs) env = Env.putArgs es vs (env.set y (ofComponent d)) := rfl

theorem truthy_modify (b : Bool) : (ofModify b).truthy = b := by cases b <;> rfl

/-- The categories of the component are listed as they are written. -/
def ListedAs (L : Listing) (v : VEvent) : Prop := L.cats (getCategories v.categories) = catList v.categories

theorem relist_same {L : Listing} {v : VEvent} (h : ListedAs L v) : relist L v.categories = L := by
  unfold relist
  have : (fun s => if s = getCategories v.categories then catList v.categories else L.cats s) = L.cats := by
    funext s
    split
    · rename_i hs; rw [hs]; exact h.symm
    · rfl
  rw [this]

/-! ### one component -/

theorem existing_prog (L : Listing) (hL : L.Faithful) (w : World) (hw : w.store.WF) (src : CalCore.Source) (c : Calendar)
    (tz : LocalTz) (uid : Uid) (v : VEvent) (d : Dict String Val) (hp : Parsed tz v d) (hv : v.uid = some uid) (hl : ListedAs L v) :
    ∃ out, Tells L w (w.importExisting tz c src uid v).1 out ∧ ∀ W n, Source.prog.call W (n + 6) "CalendarBase._importExistingEvent" [ofCalendar L w.store src c, .str uid, ofComponent d] []
      = .ok (procVal [ofCalendar L (w.importExisting tz c src uid v).1.store src c, .str uid, ofComponent d] out
        (endOf (w.importExisting tz c src uid v).2) .none) := by
  have h1 := fun (W n : Nat) => cal_getEvent_prog W (n + 2) L w.store src c uid
  have h2 := fun (W n : Nat) => importSpec_prog W n L w.store src c tz v d hp (.inl (by rw [hv]; simp))
  simp only [relist_same hl] at h2
  unfold World.importExisting
  rcases hg : w.store.getEvent uid with f | e
  · simp only [hg, toM_error] at h1
    refine ⟨[], .refl L _ _ rfl, fun W n => ?_⟩
    rw [call_eq (d := Source.CalendarBase_importExistingEvent) rfl]
    replace h1 := h1 W n
    lang [Source.CalendarBase_importExistingEvent, ↓eval_method, on_calendar, callClass_some method_cal_getEvent, h1, endOf]
  simp only [hg, toM_ok] at h1
  simp only []
  rcases hs : importSpec tz c src v with f | s
  · simp only [hs, toM_error] at h2
    refine ⟨[], .refl L _ _ rfl, fun W n => ?_⟩
    rw [call_eq (d := Source.CalendarBase_importExistingEvent) rfl]
    replace h1 := h1 W n
    replace h2 := h2 W n
    lang [Source.CalendarBase_importExistingEvent, ↓eval_method, on_calendar, callClass_some method_cal_getEvent, h1,
      callClass_some method_cal_spec, h2, endOf]
  simp only [hs, toM_ok] at h2
  simp only []
  have h3 := fun (W n : Nat) => willModify_prog W (n + 1) L hL s e
  rcases hm : s.willModify e with f | b
  · simp only [hm, toM_error] at h3
    refine ⟨[], .refl L _ _ rfl, fun W n => ?_⟩
    rw [call_eq (d := Source.CalendarBase_importExistingEvent) rfl]
    replace h1 := h1 W n
    replace h2 := h2 W n
    replace h3 := h3 W n
    lang [Source.CalendarBase_importExistingEvent, ↓eval_method, on_calendar, callClass_some method_cal_getEvent, h1,
      callClass_some method_cal_spec, h2, on_spec, callClass_some method_willModify, h3, endOf]
  simp only [hm, toM_ok] at h3
  cases b with
  | false =>
    refine ⟨[], .refl L _ _ rfl, fun W n => ?_⟩
    rw [call_eq (d := Source.CalendarBase_importExistingEvent) rfl]
    replace h1 := h1 W n
    replace h2 := h2 W n
    replace h3 := h3 W n
    lang [Source.CalendarBase_importExistingEvent, ↓eval_method, on_calendar, callClass_some method_cal_getEvent, h1,
      callClass_some method_cal_spec, h2, on_spec, callClass_some method_willModify, h3, truthy_modify, endOf]
  | true =>
    have h4 := fun (W n : Nat) => setOnObject_prog W (n + 1) L hL s e
    have hu := setOnObject_uid s e
    have he := hw.uid uid e (Storage.getEvent_ok.1 hg)
    have h5 := fun (W n : Nat) => note_init_prog W (n + 4) "EventModifiedEvent"
    simp only []
    generalize s.setOnObject e = z at h4 hu ⊢
    obtain ⟨e', r⟩ := z
    simp only [] at h4 hu
    have h6 := share_event L w.store src c e'
    rw [hu, he] at h6
    cases r with
    | error f =>
      refine ⟨[], .refl L _ _ rfl, fun W n => ?_⟩
      rw [call_eq (d := Source.CalendarBase_importExistingEvent) rfl]
      replace h1 := h1 W n
      replace h2 := h2 W n
      replace h3 := h3 W n
      replace h4 := h4 W n
      lang [Source.CalendarBase_importExistingEvent, ↓eval_method, on_calendar, callClass_some method_cal_getEvent, h1,
        callClass_some method_cal_spec, h2, on_spec, callClass_some method_willModify, h3, truthy_modify, exec_shared,
        invoke_spec, callClass_some method_setOnObject, h4, endOf, after_var_stop, putArgs_event, List.append_nil, share_state, h6, sharing_ok]
      rfl
    | ok x =>
      refine ⟨_, Tells.one (.modified e'.uid) e' rfl rfl, fun W n => ?_⟩
      rw [call_eq (d := Source.CalendarBase_importExistingEvent) rfl]
      replace h1 := h1 W n
      replace h2 := h2 W n
      replace h3 := h3 W n
      replace h4 := h4 W n
      replace h5 := h5 W n
      lang [Source.CalendarBase_importExistingEvent, ↓eval_method, on_calendar, callClass_some method_cal_getEvent, h1,
        callClass_some method_cal_spec, h2, on_spec, callClass_some method_willModify, h3, truthy_modify, exec_shared,
        invoke_spec, callClass_some method_setOnObject, h4, endOf, after_var, putArgs_event, List.append_nil, share_state, h6, sharing_ok,
        ctx_new method_note_modified, h5]
      rfl

theorem new_prog (L : Listing) (w : World) (src : CalCore.Source) (c : Calendar)
    (tz : LocalTz) (uid : Uid) (v : VEvent) (d : Dict String Val) (hp : Parsed tz v d) (hv : v.uid = some uid) (hl : ListedAs L v)
    (hf : ∀ s, importSpec tz c src v = .ok s → SpecFits s) :
    ∃ out, Tells L w (w.importNew tz c src uid v).1 out ∧ ∀ W n, Source.prog.call W (n + 9) "CalendarBase._importNewEvent" [ofCalendar L w.store src c, .str uid, ofComponent d] []
      = .ok (procVal [ofCalendar L (w.importNew tz c src uid v).1.store src c, .str uid, ofComponent d] out
        (endOf (w.importNew tz c src uid v).2) .none) := by
  have h1 := fun (W n : Nat) => cal_manager_prog W (n + 7) L w.store src c
  have h2 := fun (W n : Nat) => importSpec_prog W (n + 3) L w.store src c tz v d hp (.inl (by rw [hv]; simp))
  simp only [relist_same hl] at h2
  unfold World.importNew
  rcases hs : importSpec tz c src v with f | s
  · simp only [hs, toM_error] at h2
    refine ⟨[], .refl L _ _ rfl, fun W n => ?_⟩
    rw [call_eq (d := Source.CalendarBase_importNewEvent) rfl]
    replace h1 := h1 W n
    replace h2 := h2 W n
    lang [Source.CalendarBase_importNewEvent, ↓eval_method, on_calendar, callClass_some method_cal_manager, h1,
      callClass_some method_cal_spec, h2, endOf]
  simp only [hs, toM_ok] at h2
  simp only []
  have h3 := fun (W n : Nat) => manager_createEvent_prog W n L w 0 uid s (hf s hs)
  have hlog : match w.createEvent 0 (some uid) s with
      | (w', .ok e) => w'.log = w.log ++ [.created e.uid]
      | (w', .error _) => w'.log = w.log := by
    unfold World.createEvent
    rcases w.store.createEvent 0 (some uid) s with ⟨st, f | e⟩ <;> rfl
  generalize w.createEvent 0 (some uid) s = z at h3 hlog ⊢
  obtain ⟨w', r⟩ := z
  have h4 := share_manager L w.store w'.store src c
  cases r with
  | error f =>
    refine ⟨[], .refl L _ _ hlog, fun W n => ?_⟩
    rw [call_eq (d := Source.CalendarBase_importNewEvent) rfl]
    replace h1 := h1 W n
    replace h2 := h2 W n
    replace h3 := h3 W n
    simp only [telling, endOf, given] at h3
    lang [Source.CalendarBase_importNewEvent, ↓eval_method, on_calendar, callClass_some method_cal_manager, h1,
      callClass_some method_cal_spec, h2, exec_shared, invoke_manager, callClass_some method_manager_create, h3, endOf,
      after_var_stop, putArgs_str, putArgs_spec, share_state, h4, sharing_ok, List.append_nil]
  | ok e =>
    refine ⟨_, Tells.one (.created e.uid) e hlog rfl, fun W n => ?_⟩
    rw [call_eq (d := Source.CalendarBase_importNewEvent) rfl]
    replace h1 := h1 W n
    replace h2 := h2 W n
    replace h3 := h3 W n
    simp only [telling, endOf, given] at h3
    lang [Source.CalendarBase_importNewEvent, ↓eval_method, on_calendar, callClass_some method_cal_manager, h1,
      callClass_some method_cal_spec, h2, exec_shared, invoke_manager, callClass_some method_manager_create, h3, endOf,
      after_var, putArgs_str, putArgs_spec, share_state, h4, sharing_ok, List.append_nil]
    rfl

theorem remove_prog (L : Listing) (w : World) (hw : w.store.WF) (src : CalCore.Source) (c : Calendar) (e : Event) :
    ∃ out, Tells L w (w.deleteEvent e.uid).1 out ∧ ∀ W n, Source.prog.call W (n + 3) "CalendarBase._deleteEvent" [ofCalendar L w.store src c, ofEvent L e] []
      = .ok (procVal [ofCalendar L (w.deleteEvent e.uid).1.store src c, ofEvent L e] out
        (endOf (w.deleteEvent e.uid).2) .none) := by
  have h1 := fun (W n : Nat) => cal_manager_prog W (n + 1) L w.store src c
  have h3 := fun (W n : Nat) => manager_deleteEvent_prog W n L w hw.nodup e
  have hlog : match w.deleteEvent e.uid with
      | (w', .ok _) => w'.log = w.log ++ [.deleted e.uid]
      | (w', .error _) => w'.log = w.log := by
    rcases w.deleteEvent_eq e.uid with ⟨_, h⟩ | ⟨_, h⟩
    · rw [h]; rfl
    · rw [h]
  generalize w.deleteEvent e.uid = z at h3 hlog ⊢
  obtain ⟨w', r⟩ := z
  have h4 := share_manager L w.store w'.store src c
  cases r with
  | error f =>
    refine ⟨[], .refl L _ _ hlog, fun W n => ?_⟩
    rw [call_eq (d := Source.CalendarBase_deleteEvent) rfl]
    replace h1 := h1 W n
    replace h3 := h3 W n
    simp only [telling, endOf, Except.map] at h3
    lang [Source.CalendarBase_deleteEvent, ↓eval_method, on_calendar, callClass_some method_cal_manager, h1,
      exec_shared, invoke_manager, callClass_some method_manager_delete, h3, endOf,
      after_var_stop, putArgs_event, share_state, h4, sharing_ok, List.append_nil]
  | ok x =>
    refine ⟨_, Tells.one (.deleted e.uid) e hlog rfl, fun W n => ?_⟩
    rw [call_eq (d := Source.CalendarBase_deleteEvent) rfl]
    replace h1 := h1 W n
    replace h3 := h3 W n
    simp only [telling, endOf, Except.map] at h3
    lang [Source.CalendarBase_deleteEvent, ↓eval_method, on_calendar, callClass_some method_cal_manager, h1,
      exec_shared, invoke_manager, callClass_some method_manager_delete, h3, endOf,
      after_var, putArgs_event, share_state, h4, sharing_ok, List.append_nil]
    rfl

end CalCore.Lang
