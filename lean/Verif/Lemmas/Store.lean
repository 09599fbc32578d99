import Verif.Model.History
import Verif.Lemmas.Dict
import Verif.Lemmas.Res
import Verif.Lemmas.DateTime
import Mathlib.Logic.Basic
import Mathlib.Tactic.ByContra
/- Invariants of the storage over all sequences of calls: every call of the API, `import_` included,
amounts to a sequence of elementary changes (create, replace the state of an event, delete). -/
namespace CalCore

/-- Every event is stored once, under its own uid. -/
structure Storage.WF (s : Storage) : Prop where
  nodup : (Dict.keys s.events).Nodup
  uid : ∀ k e, Dict.get? s.events k = some e → e.uid = k

/-- Neither a creation nor a deletion. -/
def Note.inner : Note → Prop
  | .created _ => False
  | .deleted _ => False
  | _ => True

/-! ### the event methods keep the uid and notify only about the event itself -/

theorem setStatusRaw_uid (e : Event) (a : AttId) (st : Option String) :
    (e.setStatusRaw a st).1.uid = e.uid := by
  unfold Event.setStatusRaw
  cases st with
  | none =>
    simp only []
    split
    · split <;> rfl
    · rfl
  | some s => rfl

theorem setStatus_uid (e : Event) (a : AttId) (st : Option String) : (e.setStatus a st).1.uid = e.uid := by
  have h := setStatusRaw_uid e a st
  unfold Event.setStatus
  split
  · rfl
  · simp only []
    split
    · rfl
    · split
      · rename_i h'; rw [h'] at h; exact h
      · rename_i h'; rw [h'] at h; exact h

theorem setStatus_inner (e : Event) (a : AttId) (st : Option String) :
    ∀ n ∈ (e.setStatus a st).2.1, n.inner := by
  unfold Event.setStatus
  split
  · simp
  · simp only []
    split
    · simp
    · split <;> simp [Note.inner]

theorem setRole_uid (e : Event) (a : AttId) (r : String) : (e.setRole a r).1.uid = e.uid := by
  unfold Event.setRole; split <;> rfl

theorem inviteOne_uid (e : Event) (a : AttId) : (e.inviteOne a).1.uid = e.uid := by
  have h := setStatus_uid e a (some "NEEDS-ACTION")
  unfold Event.inviteOne
  split
  · split
    · rename_i h'; rw [h'] at h; exact h
    · rename_i e' n h'
      rw [h'] at h
      have := setRole_uid e' a "REQ-PARTICIPANT"
      simp only []
      rw [this]; exact h
  · rfl

theorem inviteOne_inner (e : Event) (a : AttId) : ∀ n ∈ (e.inviteOne a).2.1, n.inner := by
  have h := setStatus_inner e a (some "NEEDS-ACTION")
  unfold Event.inviteOne
  split
  · split
    · rename_i h'; rw [h'] at h; exact h
    · rename_i e' n h'
      rw [h'] at h
      exact h
  · simp

theorem invite_uid (e : Event) (l : List AttId) : (e.invite l).1.uid = e.uid := by
  induction l generalizing e with
  | nil => rfl
  | cons a rest ih =>
    have h := inviteOne_uid e a
    unfold Event.invite
    split
    · rename_i h'; rw [h'] at h; exact h
    · rename_i e' n h'
      rw [h'] at h
      simp only []
      rw [ih e']; exact h

theorem invite_inner (e : Event) (l : List AttId) : ∀ n ∈ (e.invite l).2.1, n.inner := by
  induction l generalizing e with
  | nil => simp [Event.invite]
  | cons a rest ih =>
    have h := inviteOne_inner e a
    unfold Event.invite
    split
    · rename_i h'; rw [h'] at h; exact h
    · rename_i e' n h'
      rw [h'] at h
      intro x hx
      rcases List.mem_append.1 hx with hx | hx
      · exact h x hx
      · exact ih e' x hx

theorem setAttendeesLoop_uid (o : Event) (l : List (Option AttId × String × String)) :
    (setAttendeesLoop o l).1.uid = o.uid := by
  induction l generalizing o with
  | nil => rfl
  | cons p rest ih =>
    obtain ⟨a, role, status⟩ := p
    unfold setAttendeesLoop
    split
    · rfl
    · cases a with
      | none => rfl
      | some a => simp only []; rw [ih]

theorem setOrganizer_uid (s : Spec) (o : Event) : (s.setOrganizer o).uid = o.uid := by
  unfold Spec.setOrganizer; split <;> rfl

theorem setOnObject_uid (s : Spec) (o : Event) : (s.setOnObject o).1.uid = o.uid := by
  unfold Spec.setOnObject
  rw [setAttendeesLoop_uid, setOrganizer_uid]; rfl

theorem newEvent_uid {uid : Uid} {s : Spec} {e : Event} (h : newEvent uid s = .ok e) : e.uid = uid := by
  have h0 := setOnObject_uid s (blankEvent uid)
  unfold newEvent at h
  split at h
  · cases h
  · rename_i e' h'
    rw [h'] at h0
    injection h with h
    rw [← h]
    split
    · exact h0
    · exact h0

/-! ### elementary changes -/

/-- One method call on an event. -/
inductive Event.Step : Event → Event → Prop
  | status (e : Event) (a : AttId) (st : Option String) : Step e (e.setStatus a st).1
  | role (e : Event) (a : AttId) (r : String) : Step e (e.setRole a r).1
  | invite (e : Event) (l : List AttId) : Step e (e.invite l).1
  | allday (e : Event) : Step e e.alldayAdjust
  | edit (e : Event) (spec : Spec) : Step e (spec.setOnObject e).1

theorem Event.Step.uid {e e' : Event} (h : Event.Step e e') : e'.uid = e.uid := by
  cases h with
  | status a st => exact setStatus_uid e a st
  | role a r => exact setRole_uid e a r
  | invite l => exact invite_uid e l
  | allday => rfl
  | edit spec => exact setOnObject_uid spec e

/-- One elementary change of the world. -/
inductive World.Small : World → World → Prop
  | create (w : World) (uid : Uid) (spec : Spec) (e : Event) (h : newEvent uid spec = .ok e) :
      Small w { store := { w.store with events := Dict.set w.store.events uid e }
                log := w.log ++ [.created uid] }
  | update (w : World) (uid : Uid) (e e' : Event) (notes : List Note)
      (h : Dict.get? w.store.events uid = some e) (hu : Event.Step e e') (hn : ∀ n ∈ notes, n.inner) :
      Small w { store := { w.store with events := Dict.set w.store.events uid e' }
                log := w.log ++ notes }
  | delete (w : World) (uid : Uid) (h : Dict.has w.store.events uid = true) :
      Small w { store := { w.store with events := Dict.del w.store.events uid }
                log := w.log ++ [.deleted uid] }

/-- A sequence of elementary changes. -/
inductive World.Many : World → World → Prop
  | refl (w : World) : Many w w
  | tail (w w' w'' : World) (h : Many w w') (h' : World.Small w' w'') : Many w w''

theorem World.Small.many {w w' : World} (h : World.Small w w') : World.Many w w' := .tail _ _ _ (.refl _) h

theorem World.Many.trans {a b c : World} (h : World.Many a b) (h' : World.Many b c) : World.Many a c := by
  induction h' with
  | refl => exact h
  | tail w' w'' _ hs ih => exact .tail _ _ _ ih hs

theorem World.createEvent_eq (w : World) (now : DateTime) (uid : Option Uid) (spec : Spec) :
    (∃ f, newEvent (uid.getD (w.store.autoId now)) spec = .error f ∧
        w.createEvent now uid spec = (w, .error f)) ∨
    (∃ e, newEvent (uid.getD (w.store.autoId now)) spec = .ok e ∧ e.uid = uid.getD (w.store.autoId now) ∧
        w.createEvent now uid spec =
          ({ store := { w.store with events := Dict.set w.store.events e.uid e }
             log := w.log ++ [.created e.uid] }, .ok e)) := by
  unfold World.createEvent Storage.createEvent
  simp only []
  cases h : newEvent (uid.getD (w.store.autoId now)) spec with
  | error f => exact Or.inl ⟨f, rfl, rfl⟩
  | ok e => exact Or.inr ⟨e, rfl, newEvent_uid h, by simp only []; rw [newEvent_uid h]⟩

theorem World.createEvent_many (w : World) (now : DateTime) (uid : Option Uid) (spec : Spec) :
    World.Many w (w.createEvent now uid spec).1 := by
  rcases w.createEvent_eq now uid spec with ⟨f, _, h⟩ | ⟨e, hn, hu, h⟩
  · rw [h]; exact .refl _
  · rw [h]; rw [← hu] at hn; exact (World.Small.create w e.uid spec e hn).many

theorem World.deleteEvent_eq (w : World) (uid : Uid) :
    (Dict.has w.store.events uid = false ∧ w.deleteEvent uid = (w, raise .KeyError)) ∨
    (Dict.has w.store.events uid = true ∧ w.deleteEvent uid =
      ({ store := { w.store with events := Dict.del w.store.events uid }
         log := w.log ++ [.deleted uid] }, .ok ())) := by
  unfold World.deleteEvent Storage.deleteEvent
  cases h : Dict.has w.store.events uid with
  | false => exact Or.inl ⟨rfl, rfl⟩
  | true => exact Or.inr ⟨rfl, rfl⟩

theorem World.deleteEvent_many (w : World) (uid : Uid) : World.Many w (w.deleteEvent uid).1 := by
  rcases w.deleteEvent_eq uid with ⟨_, h⟩ | ⟨hh, h⟩
  · rw [h]; exact .refl _
  · rw [h]; exact (World.Small.delete w uid hh).many

theorem Storage.getEvent_ok {s : Storage} {uid : Uid} {e : Event} :
    s.getEvent uid = .ok e ↔ Dict.get? s.events uid = some e := by
  unfold Storage.getEvent
  cases Dict.get? s.events uid with
  | none => simp
  | some e' => simp

theorem Storage.getEvent_error {s : Storage} {uid : Uid} {f : Fault} :
    s.getEvent uid = .error f ↔ f = .py .KeyError ∧ Dict.get? s.events uid = none := by
  unfold Storage.getEvent
  cases Dict.get? s.events uid with
  | none =>
    simp only [raise, and_true]
    constructor
    · intro h; injection h with h; exact h.symm
    · intro h; rw [h]
  | some e' => simp

theorem Storage.hasEvent_iff {s : Storage} {uid : Uid} :
    s.hasEvent uid = true ↔ ∃ e, Dict.get? s.events uid = some e := by
  unfold Storage.hasEvent
  cases h : s.getEvent uid with
  | ok e => exact ⟨fun _ => ⟨e, Storage.getEvent_ok.1 h⟩, fun _ => rfl⟩
  | error f =>
    have := (Storage.getEvent_error.1 h).2
    simp [this]

theorem World.onEvent_many (w : World) (uid : Uid) (f : Event → Event × List Note × Res Unit)
    (hu : ∀ e, Event.Step e (f e).1) (hn : ∀ e, ∀ n ∈ (f e).2.1, n.inner) :
    World.Many w (w.onEvent uid f).1 := by
  unfold World.onEvent
  cases h : w.store.getEvent uid with
  | error x => exact .refl _
  | ok e =>
    exact (World.Small.update w uid e (f e).1 (f e).2.1 (Storage.getEvent_ok.1 h) (hu e) (hn e)).many

theorem World.importExisting_many (w : World) (tz : LocalTz) (c : Calendar) (src : Source) (uid : Uid)
    (v : VEvent) : World.Many w (w.importExisting tz c src uid v).1 := by
  unfold World.importExisting
  cases h : w.store.getEvent uid with
  | error f => exact .refl _
  | ok e =>
    simp only []
    cases importSpec tz c src v with
    | error f => exact .refl _
    | ok spec =>
      simp only []
      cases spec.willModify e with
      | error f => exact .refl _
      | ok b =>
        cases b with
        | false => exact .refl _
        | true =>
          have hu := Event.Step.edit e spec
          cases hs : spec.setOnObject e with
          | mk e' r =>
            rw [hs] at hu
            have hg := Storage.getEvent_ok.1 h
            cases r with
            | error f =>
              have := (World.Small.update w uid e e' [] hg hu (by simp)).many
              simpa using this
            | ok _ =>
              exact (World.Small.update w uid e e' [.modified e'.uid] hg hu (by simp [Note.inner])).many

theorem World.importNew_many (w : World) (tz : LocalTz) (c : Calendar) (src : Source) (uid : Uid)
    (v : VEvent) : World.Many w (w.importNew tz c src uid v).1 := by
  unfold World.importNew
  cases importSpec tz c src v with
  | error f => exact .refl _
  | ok spec =>
    have := w.createEvent_many 0 (some uid) spec
    simp only []
    split
    · rename_i h; rw [h] at this; exact this
    · rename_i h; rw [h] at this; exact this

/-- One iteration of the import loop. -/
def World.importOne (w : World) (tz : LocalTz) (c : Calendar) (src : Source) (known : List Uid)
    (uid : Uid) (v : VEvent) : World × Res Unit :=
  if uid ∈ known then w.importExisting tz c src uid v
  else if ¬ w.store.hasEvent uid then w.importNew tz c src uid v
  else (w, .ok ())

theorem World.importLoop_cons (tz : LocalTz) (c : Calendar) (src : Source) (known : List Uid) (w : World)
    (v : VEvent) (rest : List VEvent) :
    World.importLoop tz c src known w (v :: rest) =
      match v.uid with
      | none => (w, raise .KeyError)
      | some uid =>
        match w.importOne tz c src known uid v with
        | (w', .error f) => (w', .error f)
        | (w', .ok ()) =>
          match World.importLoop tz c src known w' rest with
          | (w'', .ok uids) => (w'', .ok (uid :: uids))
          | (w'', .error f) => (w'', .error f) := by
  conv => lhs; unfold World.importLoop
  rfl

theorem World.importOne_many (w : World) (tz : LocalTz) (c : Calendar) (src : Source) (known : List Uid)
    (uid : Uid) (v : VEvent) : World.Many w (w.importOne tz c src known uid v).1 := by
  unfold World.importOne
  split
  · exact w.importExisting_many ..
  · split
    · exact w.importNew_many ..
    · exact .refl _

theorem World.importLoop_many (tz : LocalTz) (c : Calendar) (src : Source) (known : List Uid) (w : World)
    (vs : List VEvent) : World.Many w (World.importLoop tz c src known w vs).1 := by
  induction vs generalizing w with
  | nil => exact .refl _
  | cons v rest ih =>
    rw [World.importLoop_cons]
    cases v.uid with
    | none => exact .refl _
    | some uid =>
      have h1 := w.importOne_many tz c src known uid v
      simp only []
      cases h : w.importOne tz c src known uid v with
      | mk w' r =>
        rw [h] at h1
        cases r with
        | error f => exact h1
        | ok _ =>
          have h2 := ih w'
          simp only []
          cases h' : World.importLoop tz c src known w' rest with
          | mk w'' r' =>
            rw [h'] at h2
            cases r' with
            | error f => exact h1.trans h2
            | ok _ => exact h1.trans h2

theorem World.removeLoop_many (w : World) (l : List Uid) : World.Many w (World.removeLoop w l).1 := by
  induction l generalizing w with
  | nil => exact .refl _
  | cons uid rest ih =>
    unfold World.removeLoop
    cases w.store.getEvent uid with
    | error f => exact .refl _
    | ok e =>
      have h1 := w.deleteEvent_many e.uid
      simp only []
      cases h : w.deleteEvent e.uid with
      | mk w' r =>
        rw [h] at h1
        cases r with
        | error f => exact h1
        | ok _ => exact h1.trans (ih w')

theorem World.import_many (w : World) (parse : List Char → Res (Option (List VEvent))) (tz : LocalTz)
    (c : Calendar) (src : Source) (text : List Char) (b e : Option DateTime) (cr : Option Criteria)
    (sync : Bool) : World.Many w (w.import_ parse tz c src text b e cr sync).1 := by
  unfold World.import_
  simp only []
  cases c.getEvents src w.store b e cr with
  | error f => exact .refl _
  | ok events =>
    simp only []
    cases parse (repairText text) with
    | error f => exact .refl _
    | ok o =>
      cases o with
      | none => exact .refl _
      | some vs =>
        simp only []
        have h1 := World.importLoop_many tz c src (events.map (·.uid)).dedup w vs
        cases h : World.importLoop tz c src (events.map (·.uid)).dedup w vs with
        | mk w' r =>
          rw [h] at h1
          cases r with
          | error f => exact h1
          | ok uids =>
            simp only []
            split
            · exact h1.trans (World.removeLoop_many _ _)
            · exact h1

theorem World.step_many (w : World) (op : Op) : World.Many w (w.step op).1 := by
  cases op with
  | create now uid spec => exact w.createEvent_many now uid spec
  | attendeeCreate now a spec => exact w.createEvent_many now none _
  | delete uid =>
    unfold World.step
    simp only []
    cases w.store.getEvent uid with
    | error f => exact .refl _
    | ok e => exact w.deleteEvent_many e.uid
  | setStatus uid a st =>
    exact w.onEvent_many uid _ (fun e => .status e a st) (fun e => setStatus_inner e a st)
  | setRole uid a role =>
    exact w.onEvent_many uid _ (fun e => .role e a role) (fun e => by simp)
  | invite uid atts =>
    exact w.onEvent_many uid _ (fun e => .invite e atts) (fun e => invite_inner e atts)
  | alldayAdjust uid => exact w.onEvent_many uid _ (fun e => .allday e) (fun e => by simp)
  | edit uid spec =>
    exact w.onEvent_many uid _ (fun e => .edit e spec) (fun e => by simp)
  | import_ tz c src vs b e cr sync => exact w.import_many ..

theorem World.run_many (w : World) (ops : List Op) : World.Many w (w.run ops) := by
  induction ops generalizing w with
  | nil => exact .refl _
  | cons op rest ih => exact (w.step_many op).trans (ih _)

/-- What every elementary change preserves, every sequence of calls preserves. -/
theorem World.Many.preserves {P : World → Prop} (hP : ∀ w w', World.Small w w' → P w → P w')
    {w w' : World} (h : World.Many w w') (h0 : P w) : P w' := by
  induction h with
  | refl => exact h0
  | tail w' w'' _ hs ih => exact hP _ _ hs ih

theorem World.Small.wf {w w' : World} (h : World.Small w w') (hw : w.store.WF) : w'.store.WF := by
  cases h with
  | create uid spec e he =>
    refine ⟨Dict.nodup_set hw.nodup _ _, fun k e' hk => ?_⟩
    simp only [Dict.get?_set] at hk
    split at hk
    · injection hk with hk; subst hk; rw [newEvent_uid he]; assumption
    · exact hw.uid k e' hk
  | update uid e e1 notes hg hu hn =>
    refine ⟨Dict.nodup_set hw.nodup _ _, fun k e' hk => ?_⟩
    simp only [Dict.get?_set] at hk
    split at hk
    · injection hk with hk; subst hk; rw [hu.uid, hw.uid _ _ hg]; assumption
    · exact hw.uid k e' hk
  | delete uid hh =>
    refine ⟨Dict.nodup_del hw.nodup _, fun k e' hk => ?_⟩
    simp only [Dict.get?_del] at hk
    split at hk
    · cases hk
    · exact hw.uid k e' hk

theorem World.Many.wf {w w' : World} (h : World.Many w w') (hw : w.store.WF) : w'.store.WF :=
  h.preserves (P := fun w => w.store.WF) (fun _ _ hs h0 => hs.wf h0) hw

theorem freshWorld_wf (id host : String) : (freshWorld id host).store.WF :=
  ⟨by simp [freshWorld, Dict.keys], by simp [freshWorld]⟩

/-- In every history each event is stored once, under its own uid. -/
theorem run_wf (id host : String) (ops : List Op) : ((freshWorld id host).run ops).store.WF :=
  (World.run_many _ _).wf (freshWorld_wf _ _)

/-- What holds of new events and is preserved by the event methods holds of every stored event. -/
theorem World.Many.events {P : Event → Prop} (hnew : ∀ uid spec e, newEvent uid spec = .ok e → P e)
    (hstep : ∀ e e', Event.Step e e' → P e → P e') {w w' : World} (h : World.Many w w')
    (h0 : ∀ k e, Dict.get? w.store.events k = some e → P e) :
    ∀ k e, Dict.get? w'.store.events k = some e → P e := by
  refine h.preserves (P := fun w => ∀ k e, Dict.get? w.store.events k = some e → P e) ?_ h0
  intro w w' hs hw k e' hk
  cases hs with
  | create uid spec e he =>
    simp only [Dict.get?_set] at hk
    split at hk
    · injection hk with hk; subst hk; exact hnew _ _ _ he
    · exact hw k e' hk
  | update uid e e1 notes hg hu hn =>
    simp only [Dict.get?_set] at hk
    split at hk
    · injection hk with hk; subst hk; exact hstep _ _ hu (hw _ _ hg)
    · exact hw k e' hk
  | delete uid hh =>
    simp only [Dict.get?_del] at hk
    split at hk
    · cases hk
    · exact hw k e' hk

theorem run_events {P : Event → Prop} (hnew : ∀ uid spec e, newEvent uid spec = .ok e → P e)
    (hstep : ∀ e e', Event.Step e e' → P e → P e') (id host : String) (ops : List Op) :
    ∀ k e, Dict.get? ((freshWorld id host).run ops).store.events k = some e → P e :=
  (World.run_many _ ops).events hnew hstep (by simp [freshWorld])

/-! ### the participation dictionaries have no repeated keys -/

/-- One status and one role at most per attendee. -/
structure Event.Parts (e : Event) : Prop where
  state : (Dict.keys e.pstate).Nodup
  role : (Dict.keys e.prole).Nodup

theorem setStatus_parts {e : Event} (h : e.Parts) (a : AttId) (st : Option String) : (e.setStatus a st).1.Parts := by
  have hraw : (e.setStatusRaw a st).1.Parts := by
    unfold Event.setStatusRaw
    cases st with
    | none =>
      simp only []
      split
      · split
        · exact ⟨Dict.nodup_del h.state _, Dict.nodup_del h.role _⟩
        · exact ⟨Dict.nodup_del h.state _, h.role⟩
      · exact h
    | some s => exact ⟨Dict.nodup_set h.state _ _, h.role⟩
  unfold Event.setStatus
  split
  · exact h
  · simp only []
    split
    · exact h
    · split
      · rename_i h'; rw [h'] at hraw; exact hraw
      · rename_i h'; rw [h'] at hraw; exact hraw

theorem setRole_parts {e : Event} (h : e.Parts) (a : AttId) (r : String) : (e.setRole a r).1.Parts := by
  unfold Event.setRole
  split
  · exact h
  · exact ⟨h.state, Dict.nodup_set h.role _ _⟩

theorem inviteOne_parts {e : Event} (h : e.Parts) (a : AttId) : (e.inviteOne a).1.Parts := by
  have hs := setStatus_parts h a (some "NEEDS-ACTION")
  unfold Event.inviteOne
  split
  · split
    · rename_i h'; rw [h'] at hs; exact hs
    · rename_i h'; rw [h'] at hs; exact setRole_parts hs _ _
  · exact h

theorem invite_parts {e : Event} (h : e.Parts) (l : List AttId) : (e.invite l).1.Parts := by
  induction l generalizing e with
  | nil => exact h
  | cons a rest ih =>
    have h1 := inviteOne_parts h a
    unfold Event.invite
    split
    · rename_i h'; rw [h'] at h1; exact h1
    · rename_i h'; rw [h'] at h1; exact ih h1

theorem setAttendeesLoop_parts {e : Event} (h : e.Parts) (l : List (Option AttId × String × String)) :
    (setAttendeesLoop e l).1.Parts := by
  induction l generalizing e with
  | nil => exact h
  | cons p rest ih =>
    obtain ⟨a, role, status⟩ := p
    unfold setAttendeesLoop
    split
    · exact h
    · cases a with
      | none => exact h
      | some a => exact ih ⟨Dict.nodup_set h.state _ _, Dict.nodup_set h.role _ _⟩

theorem setOnObject_parts {e : Event} (h : e.Parts) (s : Spec) : (s.setOnObject e).1.Parts := by
  refine setAttendeesLoop_parts ?_ _
  unfold Spec.setOrganizer
  split
  · exact ⟨Dict.nodup_set h.state _ _, Dict.nodup_set h.role _ _⟩
  · exact ⟨h.state, h.role⟩

theorem newEvent_parts {uid : Uid} {s : Spec} {e : Event} (h : newEvent uid s = .ok e) : e.Parts := by
  have h0 := setOnObject_parts (e := blankEvent uid) ⟨by simp [blankEvent, Dict.keys], by simp [blankEvent, Dict.keys]⟩ s
  unfold newEvent at h
  split at h
  · cases h
  · rename_i h'
    rw [h'] at h0
    injection h with h
    rw [← h]
    split
    · exact ⟨h0.state, h0.role⟩
    · exact h0

theorem Event.Step.parts {e e' : Event} (hs : Event.Step e e') (h : e.Parts) : e'.Parts := by
  cases hs with
  | status a st => exact setStatus_parts h a st
  | role a r => exact setRole_parts h a r
  | invite l => exact invite_parts h l
  | allday => exact ⟨h.state, h.role⟩
  | edit spec => exact setOnObject_parts h spec

theorem run_parts (id host : String) (ops : List Op) :
    ∀ k e, Dict.get? ((freshWorld id host).run ops).store.events k = some e → e.Parts :=
  run_events (fun _ _ _ h => newEvent_parts h) (fun _ _ hs h => hs.parts h) id host ops

/-! ### events of a well-formed store -/

theorem Storage.WF.mem_values {s : Storage} (h : s.WF) (e : Event) :
    e ∈ Dict.values s.events ↔ Dict.get? s.events e.uid = some e := by
  rw [Dict.mem_values h.nodup]
  constructor
  · rintro ⟨k, hk⟩; rw [h.uid k e hk]; exact hk
  · intro hk; exact ⟨_, hk⟩

theorem Storage.WF.values_uid_nodup {s : Storage} (h : s.WF) :
    ((Dict.values s.events).map (·.uid)).Nodup := by
  have : (Dict.values s.events).map (·.uid) = Dict.keys s.events := by
    simp only [Dict.values, Dict.keys, List.map_map]
    refine List.map_congr_left fun p hp => ?_
    exact h.uid p.1 p.2 ((Dict.mem_iff_get? h.nodup p.1 p.2).1 hp)
  rw [this]; exact h.nodup

theorem Storage.WF.values_nodup {s : Storage} (h : s.WF) : (Dict.values s.events).Nodup :=
  List.Nodup.of_map _ h.values_uid_nodup

end CalCore
