import Verif.Lemmas.SourceDays
import Verif.Spec.RepresentSpec
import Verif.Lemmas.Dict
/- The methods that change events, as written. -/
namespace CalCore.Lang
open CalCore.Spec
set_option linter.unusedSectionVars false
variable [Source.Globals]

/-! ### changing objects that are kept as they are -/

/-- `o.name[key] = v` -/
def setItemOf (name : String) (v : Val) (k : M Val) : Val → M Val
  | .obj cls attrs => do
    match ← getAttr name attrs with
    | .dict l => do
      let k ← k
      .ok (.obj cls (setAttr name (.dict (← setItem k v l)) attrs))
    | _ => stuck
  | _ => stuck

theorem assign_attrItem (G : Ctx) (v : Val) (env : Env) (x name : String) (key : Expr) :
    assign G v env (.attrItem x name key) = (do
      let o ← setItemOf name v (eval G env key) (← env.get x)
      .ok (env.set x o)) := by
  rw [assign]
  cases env.get x with
  | error e => rfl
  | ok o =>
    cases o with
    | obj cls attrs =>
      simp only [M_bind_ok, setItemOf]
      cases getAttr name attrs with
      | error e => rfl
      | ok w =>
        cases w with
        | dict l =>
          simp only [M_bind_ok]
          cases eval G env key with
          | error e => rfl
          | ok k =>
            simp only [M_bind_ok]
            cases setItem k v l <;> rfl
        | _ => rfl
    | _ => rfl

/-- `del o.name[key]` -/
def delItemOf (name : String) (k : M Val) : Val → M Val
  | .obj cls attrs => do
    match ← getAttr name attrs with
    | .dict l => do
      let k ← k
      .ok (.obj cls (setAttr name (.dict (← delKey k l)) attrs))
    | _ => stuck
  | _ => stuck

theorem delete_eq (G : Ctx) (env : Env) (x name : String) (key : Expr) :
    delete G env x name key = (do
      let o ← delItemOf name (eval G env key) (← env.get x)
      .ok (env.set x o)) := by
  rw [delete]
  cases env.get x with
  | error e => rfl
  | ok o =>
    cases o with
    | obj cls attrs =>
      simp only [M_bind_ok, delItemOf]
      cases getAttr name attrs with
      | error e => rfl
      | ok w =>
        cases w with
        | dict l =>
          simp only [M_bind_ok]
          cases eval G env key with
          | error e => rfl
          | ok k =>
            simp only [M_bind_ok]
            cases delKey k l <;> rfl
        | _ => rfl
    | _ => rfl

/-- `o.name = v` -/
def setAttrOf (name : String) (v : Val) : Val → M Val
  | .obj cls attrs => .ok (.obj cls (setAttr name v attrs))
  | _ => stuck

theorem assign_attr (G : Ctx) (v : Val) (env : Env) (x name : String) :
    assign G v env (.attr x name) = (do
      let o ← setAttrOf name v (← env.get x)
      .ok (env.set x o)) := by
  rw [assign]
  cases env.get x with
  | error e => rfl
  | ok o => cases o <;> rfl

theorem putAttr_eq (env : Env) (x name : String) (v : Val) :
    putAttr env x (.str name) v = (do
      let o ← setAttrOf name v (← env.get x)
      .ok (env.set x o)) := by
  rw [putAttr]
  cases env.get x with
  | error e => rfl
  | ok o => cases o <;> rfl

theorem putArgs_const (c : Val) (es : List Expr) (v : Val) (vs : List Val) (env : Env) :
    Env.putArgs (.const c :: es) (v :: vs) env = Env.putArgs es vs env := rfl
theorem putArgs_str (y : String) (es : List Expr) (s : String) (vs : List Val) (env : Env) :
    Env.putArgs (.var y :: es) (.str s :: vs) env = Env.putArgs es vs env := rfl
theorem putArgs_none (y : String) (es : List Expr) (vs : List Val) (env : Env) :
    Env.putArgs (.var y :: es) (.none :: vs) env = Env.putArgs es vs env := rfl
theorem putArgs_option (y : String) (es : List Expr) (s : Option String) (vs : List Val) (env : Env) :
    Env.putArgs (.var y :: es) (ofOption .str s :: vs) env = Env.putArgs es vs env := by cases s <;> rfl
theorem putArgs_attendee (y : String) (es : List Expr) (L : Listing) (a : AttId) (vs : List Val) (env : Env) :
    Env.putArgs (.var y :: es) (ofAttendee L a :: vs) env = Env.putArgs es vs (env.set y (ofAttendee L a)) := rfl
theorem putArgs_event (y : String) (es : List Expr) (L : Listing) (e : Event) (vs : List Val) (env : Env) :
    Env.putArgs (.var y :: es) (ofEvent L e :: vs) env = Env.putArgs es vs (env.set y (ofEvent L e)) := rfl

theorem after_var (s : State) (G : Ctx) (x : String) (args : List Expr) (o : Val) (params out : List Val) (v : Val) :
    s.after G Option.none x Option.none args (procVal (o :: params) out Option.none v)
    = (⟨(Env.putArgs args params s.env).set x o, s.out ++ out⟩, .next) := rfl
theorem after_var_stop (s : State) (G : Ctx) (t : Option Target) (x : String) (args : List Expr) (o : Val) (params out : List Val)
    (e : Stop) (v : Val) :
    s.after G t x Option.none args (procVal (o :: params) out (some e) v)
    = (⟨(Env.putArgs args params s.env).set x o, s.out ++ out⟩, .stop e) := rfl
theorem after_var_assign (s : State) (G : Ctx) (t : Target) (x : String) (args : List Expr) (o : Val) (params out : List Val) (v : Val) :
    s.after G (some t) x Option.none args (procVal (o :: params) out Option.none v)
    = State.into ⟨(Env.putArgs args params s.env).set x o, s.out ++ out⟩ (assign G v ((Env.putArgs args params s.env).set x o) t) := rfl

theorem invoke_event (W n : Nat) (L : Listing) (e : Event) (m : String) (args : M (List Val)) :
    (Source.prog.ctx W n).invoke (ofEvent L e) m args = callClass W n "Event" (ofEvent L e) m args (.ok []) := by
  rw [ofEvent]
  unfold Ctx.invoke callClass
  simp only [ctx_method, ctx_call, M_bind_ok]
  cases args with
  | error e => rfl
  | ok xs => cases Source.prog.method 4 "Event" m <;> rfl

/-! ### dictionaries -/

theorem setItem_ofDict (d : Dict String String) (a s : String) :
    setItem (.str a) (.str s) (d.map (fun p => (Val.str p.1, Val.str p.2)))
    = .ok ((Dict.set d a s).map (fun p => (Val.str p.1, Val.str p.2))) := by
  induction d with
  | nil => rfl
  | cons p d ih =>
    obtain ⟨k, v⟩ := p
    rw [List.map_cons, setItem, Dict.set]
    by_cases h : k = a
    · simp [eq_str, h]
    · simp only [eq_str, M_bind_ok, h, decide_false, Bool.false_eq_true, ↓reduceIte, ih, List.map_cons]

theorem delKey_ofDict (d : Dict String String) (hd : (Dict.keys d).Nodup) (a : String) :
    delKey (.str a) (d.map (fun p => (Val.str p.1, Val.str p.2)))
    = if Dict.has d a then .ok ((Dict.del d a).map (fun p => (Val.str p.1, Val.str p.2))) else .error (.py .KeyError) := by
  induction d with
  | nil => rfl
  | cons p d ih =>
    obtain ⟨k, v⟩ := p
    have hd' : (Dict.keys d).Nodup := (List.nodup_cons.1 hd).2
    have hk : k ∉ Dict.keys d := (List.nodup_cons.1 hd).1
    rw [List.map_cons, delKey]
    by_cases h : k = a
    · subst h
      have hdel : Dict.del ((k, v) :: d) k = d := by
        unfold Dict.del
        rw [List.filter_cons]
        simp only [ne_eq, not_true_eq_false, decide_false, Bool.false_eq_true, ↓reduceIte]
        rw [List.filter_eq_self]
        intro q hq
        simp only [decide_eq_true_eq]
        intro hqk
        exact hk (hqk ▸ List.mem_map.2 ⟨q, hq, rfl⟩)
      rw [hdel]
      simp [eq_str, Dict.has]
    · have hdel : Dict.del ((k, v) :: d) a = (k, v) :: Dict.del d a := by
        unfold Dict.del
        rw [List.filter_cons]
        simp [h]
      have hhas : Dict.has ((k, v) :: d) a = Dict.has d a := by
        unfold Dict.has
        simp [h]
      rw [hdel, hhas, ih hd']
      simp only [eq_str, M_bind_ok, h, decide_false, Bool.false_eq_true, ↓reduceIte]
      by_cases hh : Dict.has d a = true
      · simp [hh]
      · simp [hh]

theorem event_set_state (L : Listing) (e : Event) (a s : String) :
    setItemOf "_participation_state" (.str s) (.ok (.str a)) (ofEvent L e)
    = .ok (ofEvent L { e with pstate := Dict.set e.pstate a s }) := by
  have h := setItem_ofDict e.pstate a s
  unfold ofEvent eventAttrs setItemOf ofDict
  simp only [getAttr, String.reduceEq, ↓reduceIte, M_bind_ok, h, setAttr]

theorem event_set_role (L : Listing) (e : Event) (a s : String) :
    setItemOf "_participation_role" (.str s) (.ok (.str a)) (ofEvent L e)
    = .ok (ofEvent L { e with prole := Dict.set e.prole a s }) := by
  have h := setItem_ofDict e.prole a s
  unfold ofEvent eventAttrs setItemOf ofDict
  simp only [getAttr, String.reduceEq, ↓reduceIte, M_bind_ok, h, setAttr]

theorem event_del_state (L : Listing) (e : Event) (he : (Dict.keys e.pstate).Nodup) (a : String) :
    delItemOf "_participation_state" (.ok (.str a)) (ofEvent L e)
    = if Dict.has e.pstate a then .ok (ofEvent L { e with pstate := Dict.del e.pstate a }) else .error (.py .KeyError) := by
  have h := delKey_ofDict e.pstate he a
  unfold ofEvent eventAttrs delItemOf ofDict
  simp only [getAttr, String.reduceEq, ↓reduceIte, M_bind_ok, h, setAttr]
  split <;> rfl

theorem event_del_role (L : Listing) (e : Event) (he : (Dict.keys e.prole).Nodup) (a : String) :
    delItemOf "_participation_role" (.ok (.str a)) (ofEvent L e)
    = if Dict.has e.prole a then .ok (ofEvent L { e with prole := Dict.del e.prole a }) else .error (.py .KeyError) := by
  have h := delKey_ofDict e.prole he a
  unfold ofEvent eventAttrs delItemOf ofDict
  simp only [getAttr, String.reduceEq, ↓reduceIte, M_bind_ok, h, setAttr]
  split <;> rfl

/-! ### participation -/

theorem setStatusRaw_prog (W n : Nat) (L : Listing) (e : Event) (he : (Dict.keys e.pstate).Nodup ∧ (Dict.keys e.prole).Nodup)
    (a : AttId) (st : Option String) :
    Source.prog.call W (n + 2) "EventBase._setParticipationStatus" [ofEvent L e, ofAttendee L a, ofOption .str st] []
    = .ok (procVal [ofEvent L (e.setStatusRaw a st).1, ofAttendee L a, ofOption .str st] [] (endOf (e.setStatusRaw a st).2) .none) := by
  have h := getAttendeeId_prog W n L a
  rw [call_eq (d := Source.EventBase_setParticipationStatus_) rfl]
  unfold Event.setStatusRaw
  cases st with
  | some s =>
    lang [Source.EventBase_setParticipationStatus_, ↓eval_method, on_attendee, callClass_some method_getAttendeeId, h, ofOption_some,
      ↓assign_attrItem, event_set_state]
    rfl
  | none =>
    have h1 := event_del_state L e he.1 a
    by_cases hs : Dict.has e.pstate a = true
    · rw [if_pos hs] at h1
      have h2 := event_del_role L { e with pstate := Dict.del e.pstate a } he.2 a
      by_cases hr : Dict.has e.prole a = true
      · rw [if_pos hr] at h2
        simp only [hs, hr, ↓reduceIte]
        lang [Source.EventBase_setParticipationStatus_, ↓eval_method, on_attendee, callClass_some method_getAttendeeId, h, ofOption_none,
          ↓delete_eq, h1, h2]
        rfl
      · rw [if_neg hr] at h2
        simp only [hs, hr, ↓reduceIte]
        lang [Source.EventBase_setParticipationStatus_, ↓eval_method, on_attendee, callClass_some method_getAttendeeId, h, ofOption_none,
          ↓delete_eq, h1, h2]
        rfl
    · rw [if_neg hs] at h1
      simp only [hs]
      lang [Source.EventBase_setParticipationStatus_, ↓eval_method, on_attendee, callClass_some method_getAttendeeId, h, ofOption_none,
        ↓delete_eq, h1]
      rfl

/-! ### the notification of a change -/

theorem method_part_init : Source.prog.method 4 "EventParticipationChangeEvent" "__init__"
    = some "EventParticipationChangeEvent.__init__" := rfl

theorem part_init_prog (W n : Nat) (e a o s : Val) :
    Source.prog.call W (n + 1) "EventParticipationChangeEvent.__init__" [.obj "EventParticipationChangeEvent" [], e, a, o, s] []
    = .ok (.obj "EventParticipationChangeEvent" [("event", e), ("attendee", a), ("old_status", o), ("new_status", s)]) := by
  rw [call_eq (d := Source.EventParticipationChangeEvent_init) rfl]
  lang [Source.EventParticipationChangeEvent_init]

theorem method_setStatusRaw : Source.prog.method 4 "Event" "_setParticipationStatus" = some "EventBase._setParticipationStatus" := rfl
theorem method_setStatus : Source.prog.method 4 "Event" "setParticipationStatus" = some "EventBase.setParticipationStatus" := rfl
theorem method_setRole : Source.prog.method 4 "Event" "setParticipationRole" = some "EventBase.setParticipationRole" := rfl
theorem method_alldayAdjust : Source.prog.method 4 "Event" "alldayAdjust" = some "EventBase.alldayAdjust" := rfl

theorem eq_option (a b : Option String) : Val.eq (ofOption .str a) (ofOption .str b) = .ok (decide (a = b)) := by
  cases a <;> cases b <;> simp [ofOption, Val.eq, Val.num?]

theorem contains_options (a : Option String) (l : List (Option String)) :
    contains (ofOption .str a) (l.map (ofOption .str)) = .ok (decide (a ∈ l)) := by
  induction l with
  | nil => rfl
  | cons b l ih =>
    rw [List.map_cons, contains, eq_option, ih]
    by_cases h : b = a
    · simp [h]
    · have : ¬ a = b := fun x => h x.symm
      simp [h, this]

theorem contains_statuses (a : Option String) :
    contains (ofOption .str a) [.none, .str "NEEDS-ACTION", .str "ACCEPTED", .str "DECLINED", .str "TENTATIVE", .str "DELEGATED"]
    = .ok (decide (a ∈ statuses)) := contains_options a statuses

theorem contains_roles (a : String) :
    contains (.str a) [.str "CHAIR", .str "REQ-PARTICIPANT", .str "OPT-PARTICIPANT", .str "NON-PARTICIPANT"]
    = .ok (decide (a ∈ roles)) := by
  have h := contains_options (some a) (roles.map some)
  have e : ∀ l : List String, decide (some a ∈ l.map some) = decide (a ∈ l) := by simp
  rw [e] at h
  exact h

theorem equal_option (W n : Nat) (a b : Option String) :
    (Source.prog.ctx W n).equal (ofOption .str a) (ofOption .str b) = .ok (.bool (decide (a = b))) := by
  cases a <;> cases b <;> simp [ofOption, Ctx.equal, Val.eq, Val.num?]

theorem invoke_some {W n : Nat} {cls m f : String} {o : Val} (h : Source.prog.method 4 cls m = some f) (xs : List Val) :
    callClass W n cls o m (.ok xs) (.ok []) = Source.prog.call W n f (o :: xs) [] := callClass_some h o xs []

theorem setStatus_prog (W n : Nat) (L : Listing) (e : Event) (he : (Dict.keys e.pstate).Nodup ∧ (Dict.keys e.prole).Nodup)
    (a : AttId) (st : Option String) :
    Source.prog.call W (n + 3) "EventBase.setParticipationStatus" [ofEvent L e, ofAttendee L a, ofOption .str st] []
    = .ok (procVal [ofEvent L (e.setStatus a st).1, ofAttendee L a, ofOption .str st]
        ((e.setStatus a st).2.1.map (ofNote L (e.setStatus a st).1)) (endOf (e.setStatus a st).2.2) .none) := by
  have h1 := getStatus_prog W n L e a
  have h2 := setStatusRaw_prog W n L e he a st
  have h3 := part_init_prog W (n + 1)
  rw [call_eq (d := Source.EventBase_setParticipationStatus) rfl]
  unfold Event.setStatus
  by_cases hs : st ∈ statuses
  · rw [if_neg (not_not.2 hs)]
    simp only []
    by_cases hq : e.getStatus a = st
    · rw [if_pos hq]
      rw [hq] at h1
      lang [Source.EventBase_setParticipationStatus, ↓eval_method, on_event, callClass_some method_getParticipationStatus, h1,
        contains_statuses, eq_true hs, equal_option]
      rfl
    · rw [if_neg hq]
      generalize e.setStatusRaw a st = r at h2 ⊢
      obtain ⟨e', r⟩ := r
      cases r with
      | ok u =>
        cases u
        lang [Source.EventBase_setParticipationStatus, ↓eval_method, on_event, callClass_some method_getParticipationStatus, h1,
          contains_statuses, eq_true hs, equal_option, hq, invoke_event, callClass_some method_setStatusRaw, h2, endOf, after_var,
          putArgs_attendee, putArgs_option, ctx_new method_part_init, h3]
        rfl
      | error f =>
        lang [Source.EventBase_setParticipationStatus, ↓eval_method, on_event, callClass_some method_getParticipationStatus, h1,
          contains_statuses, eq_true hs, equal_option, hq, invoke_event, callClass_some method_setStatusRaw, h2, endOf, after_var_stop,
          putArgs_attendee, putArgs_option, ctx_new method_part_init, h3]
  · rw [if_pos hs]
    lang [Source.EventBase_setParticipationStatus, contains_statuses, eq_false hs]
    rfl

theorem setRole_prog (W n : Nat) (L : Listing) (e : Event) (a : AttId) (role : String) :
    Source.prog.call W (n + 2) "EventBase.setParticipationRole" [ofEvent L e, ofAttendee L a, .str role] []
    = .ok (procVal [ofEvent L (e.setRole a role).1, ofAttendee L a, .str role] [] (endOf (e.setRole a role).2) .none) := by
  have h := getAttendeeId_prog W n L a
  rw [call_eq (d := Source.EventBase_setParticipationRole) rfl]
  unfold Event.setRole
  by_cases hs : role ∈ roles
  · rw [if_neg (not_not.2 hs)]
    lang [Source.EventBase_setParticipationRole, ↓eval_method, on_attendee, callClass_some method_getAttendeeId, h,
      contains_roles, eq_true hs, ↓assign_attrItem, event_set_role]
    rfl
  · rw [if_pos hs]
    lang [Source.EventBase_setParticipationRole, contains_roles, eq_false hs]
    rfl

/-! ### invitations -/

theorem setStatus_some (e : Event) (a : AttId) {s : String} (hs : some s ∈ statuses) (h : e.getStatus a = Option.none) :
    e.setStatus a (some s) = ({ e with pstate := Dict.set e.pstate a s }, [.participation e.uid a Option.none (some s)], .ok ()) := by
  unfold Event.setStatus
  rw [if_neg (not_not.2 hs)]
  simp only [h]
  rfl

theorem setRole_ok (e : Event) (a : AttId) {r : String} (hr : r ∈ roles) :
    e.setRole a r = ({ e with prole := Dict.set e.prole a r }, .ok ()) := by
  unfold Event.setRole
  rw [if_neg (not_not.2 hr)]

theorem inviteOne_none (e : Event) (a : AttId) (h : e.getStatus a = Option.none) :
    e.inviteOne a = ({ e with pstate := Dict.set e.pstate a "NEEDS-ACTION", prole := Dict.set e.prole a "REQ-PARTICIPANT" },
      [.participation e.uid a Option.none (some "NEEDS-ACTION")], .ok ()) := by
  unfold Event.inviteOne
  rw [if_pos h, setStatus_some e a (by decide) h]
  simp only []
  rw [setRole_ok _ _ (by decide)]

theorem inviteOne_some (e : Event) (a : AttId) (h : e.getStatus a ≠ Option.none) : e.inviteOne a = (e, [], .ok ()) := by
  unfold Event.inviteOne
  rw [if_neg h]

theorem invite_cons (e : Event) (a : AttId) (l : List AttId) :
    e.invite (a :: l) = (((e.inviteOne a).1.invite l).1, (e.inviteOne a).2.1 ++ ((e.inviteOne a).1.invite l).2.1,
      ((e.inviteOne a).1.invite l).2.2) := by
  by_cases h : e.getStatus a = Option.none
  · conv => lhs; unfold Event.invite
    rw [inviteOne_none e a h]
  · conv => lhs; unfold Event.invite
    rw [inviteOne_some e a h]

theorem invite_step (W n : Nat) (L : Listing) (e : Event) (he : (Dict.keys e.pstate).Nodup ∧ (Dict.keys e.prole).Nodup)
    (a : AttId) (A : Val) (x : Option Val) (out : List Val) :
    ∃ vs, List.Forall₂ (Reports L) vs (e.inviteOne a).2.1 ∧
      forBody (Source.prog.ctx W (n + 3)) W (.name "attendee") Source.EventBase_invite_loop1 (ofAttendee L a)
        ⟨[("self", some (ofEvent L e)), ("attendees", some A), ("attendee", x)], out⟩
      = (⟨[("self", some (ofEvent L (e.inviteOne a).1)), ("attendees", some A), ("attendee", some (ofAttendee L a))], out ++ vs⟩,
          .next) := by
  have h1 := getStatus_prog W (n + 1) L e a
  by_cases h : e.getStatus a = Option.none
  · rw [h, ofOption_none] at h1
    have h2 := setStatus_prog W n L e he a (some "NEEDS-ACTION")
    rw [setStatus_some e a (by decide) h] at h2
    simp only [ofOption_some, endOf] at h2
    have h3 := setRole_prog W (n + 1) L { e with pstate := Dict.set e.pstate a "NEEDS-ACTION" } a "REQ-PARTICIPANT"
    rw [setRole_ok _ _ (by decide)] at h3
    simp only [endOf] at h3
    rw [inviteOne_none e a h]
    refine ⟨_, ?_, by
      lang [forBody, Source.EventBase_invite_loop1, ↓eval_method, on_event, callClass_some method_getParticipationStatus, h1,
        invoke_event, callClass_some method_setStatus, callClass_some method_setRole, h2, h3, after_var, putArgs_attendee, putArgs_const]
      rw [List.append_nil]⟩
    exact List.Forall₂.cons ⟨_, rfl, rfl⟩ List.Forall₂.nil
  · rw [inviteOne_some e a h]
    obtain ⟨s, hs⟩ := Option.ne_none_iff_exists'.1 h
    rw [hs, ofOption_some] at h1
    refine ⟨[], List.Forall₂.nil, ?_⟩
    lang [forBody, Source.EventBase_invite_loop1, ↓eval_method, on_event, callClass_some method_getParticipationStatus, h1]
    rw [List.append_nil]

theorem inviteOne_nodup (e : Event) (he : (Dict.keys e.pstate).Nodup ∧ (Dict.keys e.prole).Nodup) (a : AttId) :
    (Dict.keys (e.inviteOne a).1.pstate).Nodup ∧ (Dict.keys (e.inviteOne a).1.prole).Nodup := by
  by_cases h : e.getStatus a = Option.none
  · rw [inviteOne_none e a h]
    exact ⟨Dict.nodup_set he.1 .., Dict.nodup_set he.2 ..⟩
  · rw [inviteOne_some e a h]
    exact he

theorem invite_loop (W n : Nat) (L : Listing) (A : Val) (l : List AttId) :
    ∀ (e : Event), (Dict.keys e.pstate).Nodup ∧ (Dict.keys e.prole).Nodup → ∀ (x : Option Val) (out : List Val),
    ∃ vs y, List.Forall₂ (Reports L) vs (e.invite l).2.1 ∧
      forLoop (forBody (Source.prog.ctx W (n + 3)) W (.name "attendee") Source.EventBase_invite_loop1) (l.map (ofAttendee L))
        ⟨[("self", some (ofEvent L e)), ("attendees", some A), ("attendee", x)], out⟩
      = (⟨[("self", some (ofEvent L (e.invite l).1)), ("attendees", some A), ("attendee", y)], out ++ vs⟩, .next) := by
  induction l with
  | nil => intro e _ x out; exact ⟨[], x, List.Forall₂.nil, by rw [List.append_nil]; rfl⟩
  | cons a l ih =>
    intro e he x out
    obtain ⟨v1, f1, h1⟩ := invite_step W n L e he a A x out
    obtain ⟨v2, y, f2, h2⟩ := ih (e.inviteOne a).1 (inviteOne_nodup e he a) (some (ofAttendee L a)) (out ++ v1)
    refine ⟨v1 ++ v2, y, ?_, ?_⟩
    · rw [invite_cons]
      exact List.rel_append f1 f2
    · rw [List.map_cons]
      unfold forLoop
      rw [h1]
      simp only []
      rw [h2, invite_cons, List.append_assoc]

theorem invite_ok (l : List AttId) : ∀ e : Event, (e.invite l).2.2 = .ok () := by
  induction l with
  | nil => intro e; rfl
  | cons a l ih => intro e; rw [invite_cons]; exact ih _

theorem invite_prog (W n : Nat) (L : Listing) (e : Event) (he : (Dict.keys e.pstate).Nodup ∧ (Dict.keys e.prole).Nodup)
    (l : List AttId) :
    ∃ vs, List.Forall₂ (Reports L) vs (e.invite l).2.1 ∧
    Source.prog.call W (n + 4) "EventBase.invite" [ofEvent L e, .list (l.map (ofAttendee L))] []
    = .ok (procVal [ofEvent L (e.invite l).1, .list (l.map (ofAttendee L))] vs (endOf (e.invite l).2.2) .none) := by
  obtain ⟨vs, y, f, h⟩ := invite_loop W n L (.list (l.map (ofAttendee L))) l e he Option.none []
  refine ⟨vs, f, ?_⟩
  rw [call_eq (d := Source.EventBase_invite) rfl, invite_ok]
  lang [Source.EventBase_invite, h]
  rfl

/-! ### whole days -/

/-- The event with another start. -/
def startAt (e : Event) (t : DateTime) : Event := { e with dtstart := t }
/-- The event with another duration. -/
def lasting (e : Event) (d : TimeDelta) : Event := { e with duration := some d }

theorem event_set_dtstart (L : Listing) (e : Event) (t : DateTime) :
    setAttrOf "dtstart" (.datetime t) (ofEvent L e) = .ok (ofEvent L (startAt e t)) := by
  unfold ofEvent eventAttrs setAttrOf startAt
  simp only [setAttr, String.reduceEq, ↓reduceIte]

theorem event_set_duration (L : Listing) (e : Event) (t : TimeDelta) :
    setAttrOf "duration" (.delta t) (ofEvent L e) = .ok (ofEvent L (lasting e t)) := by
  unfold ofEvent eventAttrs setAttrOf lasting
  simp only [setAttr, String.reduceEq, ↓reduceIte]
  rfl

theorem event_attr_dtstart (L : Listing) (e : Event) : attrVal "dtstart" (ofEvent L e) = .ok (.datetime e.dtstart) := rfl
theorem event_attr_duration (L : Listing) (e : Event) : attrVal "duration" (ofEvent L e) = .ok (ofOption .delta e.duration) := rfl
theorem startAt_duration (e : Event) (t : DateTime) : (startAt e t).duration = e.duration := rfl

theorem sub_delta (a b : Int) : binop .sub (.delta a) (.delta b) = mkDelta (a - b) := rfl
theorem mkDelta_zero : mkDelta (0 * DAY) = .ok (.delta 0) := rfl

theorem allday_none (W n : Nat) (L : Listing) (e : Event) (hd : e.duration = Option.none) :
    Source.prog.call W (n + 1) "EventBase.alldayAdjust" [ofEvent L e] []
    = .ok (procVal [ofEvent L e.alldayAdjust] [] Option.none .none) := by
  rw [call_eq (d := Source.EventBase_alldayAdjust) rfl]
  have h0 : e.alldayAdjust = lasting (startAt e (combine (dtDate e.dtstart) 0)) DAY := by
    unfold Event.alldayAdjust
    rw [hd]
    rfl
  rw [h0]
  lang [Source.EventBase_alldayAdjust, ↓eval_attr, event_attr_dtstart, event_attr_duration, ↓assign_attr, event_set_dtstart,
    startAt_duration, hd, ofOption_none, event_set_duration, midnight, mkDelta_day]

/-- The whole days of a duration, rounded up, and at least one. -/
def wholeDays (dur : TimeDelta) : Int := if dur - dur / DAY * DAY ≠ 0 ∨ dur / DAY = 0 then dur / DAY + 1 else dur / DAY

theorem allday_some (W n : Nat) (L : Listing) (e : Event) (dur : TimeDelta) (hd : e.duration = some dur)
    (hl : -(999999999 * DAY) ≤ dur) (hu : dur < 1000000000 * DAY) :
    Source.prog.call W (n + 1) "EventBase.alldayAdjust" [ofEvent L e] []
    = .ok (if dur ≤ 999999999 * DAY then procVal [ofEvent L e.alldayAdjust] [] Option.none .none
        else procVal [ofEvent L (startAt e (combine (dtDate e.dtstart) 0))] [] (some (.py .OverflowError)) .none) := by
  rw [call_eq (d := Source.EventBase_alldayAdjust) rfl]
  have h0 : e.alldayAdjust = lasting (startAt e (combine (dtDate e.dtstart) 0)) (wholeDays dur * DAY) := by
    unfold Event.alldayAdjust
    rw [hd]
    rfl
  rw [h0]
  have h1 : mkDelta (dur / DAY * DAY) = .ok (.delta (dur / DAY * DAY)) := mkDelta_ok (by unfold DAY at *; omega) (by unfold DAY at *; omega)
  have h2 : mkDelta (dur - dur / DAY * DAY) = .ok (.delta (dur - dur / DAY * DAY)) :=
    mkDelta_ok (by unfold DAY at *; omega) (by unfold DAY at *; omega)
  by_cases hf : dur ≤ 999999999 * DAY
  · rw [if_pos hf]
    have h3 : mkDelta (wholeDays dur * DAY) = .ok (.delta (wholeDays dur * DAY)) := by
      unfold wholeDays
      split
      · exact mkDelta_ok (by unfold DAY at *; omega) (by unfold DAY at *; omega)
      · exact mkDelta_ok (by unfold DAY at *; omega) (by unfold DAY at *; omega)
    by_cases hr : dur - dur / DAY * DAY = 0
    · by_cases hz : dur / DAY = 0
      · have hw : wholeDays dur = dur / DAY + 1 := if_pos (.inr hz)
        rw [hw] at h3 ⊢
        lang [Source.EventBase_alldayAdjust, ↓eval_attr, event_attr_dtstart, event_attr_duration, ↓assign_attr, event_set_dtstart,
          startAt_duration, hd, ofOption_some, event_set_duration, midnight, is_delta_none, sub_delta, h1, h2, mkDelta_zero,
          eq_true hr, eq_true hz, h3]
      · have hw : wholeDays dur = dur / DAY := if_neg (by rintro (h | h); exacts [h hr, hz h])
        rw [hw] at h3 ⊢
        lang [Source.EventBase_alldayAdjust, ↓eval_attr, event_attr_dtstart, event_attr_duration, ↓assign_attr, event_set_dtstart,
          startAt_duration, hd, ofOption_some, event_set_duration, midnight, is_delta_none, sub_delta, h1, h2, mkDelta_zero,
          eq_true hr, hz, h3]
    · have hw : wholeDays dur = dur / DAY + 1 := if_pos (.inl hr)
      rw [hw] at h3 ⊢
      lang [Source.EventBase_alldayAdjust, ↓eval_attr, event_attr_dtstart, event_attr_duration, ↓assign_attr, event_set_dtstart,
        startAt_duration, hd, ofOption_some, event_set_duration, midnight, is_delta_none, sub_delta, h1, h2, mkDelta_zero,
        hr, h3]
  · rw [if_neg hf]
    have hr : ¬ dur - dur / DAY * DAY = 0 := by unfold DAY at *; omega
    have h3 : mkDelta ((dur / DAY + 1) * DAY) = .error (.py .OverflowError) := by
      unfold mkDelta
      rw [if_neg (by unfold DAY at *; omega)]
      rfl
    lang [Source.EventBase_alldayAdjust, ↓eval_attr, event_attr_dtstart, event_attr_duration, ↓assign_attr, event_set_dtstart,
      startAt_duration, hd, ofOption_some, event_set_duration, midnight, is_delta_none, sub_delta, h1, h2, mkDelta_zero,
      hr, h3]

end CalCore.Lang
