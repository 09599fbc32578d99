import Verif.Lemmas.ObjectsQuiet
import Verif.Props.Samples
/- Event objects: C85 (objects and values), C86 (store under any subscribers), C87 (truthful notifications),
C90 (detached objects). -/
namespace CalCore
open Spec

/-! ### C85 -/

/-- A client that gets the event from the store before it calls a method of it. -/
def Heap.callOp (notify : Notifier) (h : Heap) : Op → Heap × Res Unit
  | .create now uid spec => h.call notify (.create now uid spec)
  | .attendeeCreate now a spec => h.call notify (.create now none { spec with organizer := some a })
  | .delete u => match h.getEvent u with
    | .error f => (h, .error f)
    | .ok r => h.call notify (.delete r)
  | .setStatus u a st => match h.getEvent u with
    | .error f => (h, .error f)
    | .ok r => h.call notify (.setStatus r a st)
  | .setRole u a role => match h.getEvent u with
    | .error f => (h, .error f)
    | .ok r => h.call notify (.setRole r a role)
  | .invite u atts => match h.getEvent u with
    | .error f => (h, .error f)
    | .ok r => h.call notify (.invite r atts)
  | .alldayAdjust u => match h.getEvent u with
    | .error f => (h, .error f)
    | .ok r => h.call notify (.alldayAdjust r)
  | .edit u spec => match h.getEvent u with
    | .error f => (h, .error f)
    | .ok r => h.call notify (.edit r spec)
  | .import_ tz c src vs b e cr sync => h.call notify (.import_ tz c src vs b e cr sync)

/-- A history of such calls without subscribers. -/
def Heap.runOps (h : Heap) : List Op → Heap
  | [] => h
  | op :: rest => Heap.runOps (h.callOp quiet op).1 rest

theorem Heap.callOp_steps {notify : Notifier} (hp : notify.Proper) (h : Heap) (op : Op) :
    Heap.Steps h (h.callOp notify op).1 := by
  cases op <;> unfold Heap.callOp
  all_goals try exact Heap.call_steps hp _ _
  all_goals
    simp only []
    split
    · exact .refl _
    · exact Heap.call_steps hp _ _

/-- C85: a call by a client that gets the event from the store first has the same effect on what the store
holds and on the log, and the same outcome, with objects as with values. -/
theorem C85_call (h : Heap) (hw : h.WF) (op : Op) :
    (h.callOp quiet op).1.world = (h.world.step op).1 ∧ (h.callOp quiet op).2 = (h.world.step op).2 := by
  have hcreate : ∀ now uid spec, Agree (h.call quiet (.create now uid spec)) (dropRes (h.world.createEvent now uid spec)) := by
    intro now uid spec
    obtain ⟨h1, h2⟩ := h.createEvent_agree hw now uid spec
    unfold Heap.call dropRes
    refine ⟨?_, ?_⟩
    · rw [← h1]
      simp only []
      cases h.createEvent quiet now uid spec with
      | mk h' r => cases r <;> rfl
    · rw [← h2]
      simp only []
      cases h.createEvent quiet now uid spec with
      | mk h' r => cases r <;> rfl
  have hon : ∀ (u : Uid) (f : Event → Event × List Note × Res Unit) (k : Ref → Heap × Res Unit),
      (∀ r, k r = ({ h.put r (f (h.obj r)).1 with log := h.log ++ (f (h.obj r)).2.1.map (HNote.mk r) },
        (f (h.obj r)).2.2)) →
      Agree (match h.getEvent u with
        | .error f => (h, .error f)
        | .ok r => k r) (h.world.onEvent u f) := by
    intro u f k hk
    cases hr : Dict.get? h.events u with
    | none =>
      have hg : h.getEvent u = raise .KeyError := by unfold Heap.getEvent; rw [hr]
      have hg' : h.world.store.getEvent u = raise .KeyError := by
        show h.store.getEvent u = _
        rw [Heap.getEvent_world, hg]; rfl
      unfold World.onEvent
      rw [hg, hg']
      exact ⟨rfl, rfl⟩
    | some r =>
      have hg : h.getEvent u = .ok r := by unfold Heap.getEvent; rw [hr]
      rw [hg]
      simp only []
      rw [hk]
      exact Heap.onEvent_agree hw hr f
  have hnil : ∀ r e, ({ h.put r e with log := h.log ++ ([] : List Note).map (HNote.mk r) } : Heap) = h.put r e := by
    intro r e
    rw [List.map_nil, List.append_nil]; rfl
  cases op with
  | create now uid spec => exact hcreate now uid spec
  | attendeeCreate now a spec => exact hcreate now none { spec with organizer := some a }
  | delete u =>
    unfold Heap.callOp World.step
    simp only []
    rw [show h.world.store = h.store from rfl, Heap.getEvent_world]
    unfold Heap.getEvent
    cases Dict.get? h.events u with
    | none => exact ⟨rfl, rfl⟩
    | some r => exact h.deleteEvent_agree r
  | setStatus u a st => exact hon u _ _ (fun r => h.setStatus_quiet r a st)
  | setRole u a role =>
    refine hon u _ _ (fun r => ?_)
    rw [hnil]; rfl
  | invite u atts => exact hon u _ _ (fun r => Heap.invite_quiet atts h r)
  | alldayAdjust u =>
    refine hon u _ _ (fun r => ?_)
    rw [hnil]; rfl
  | edit u spec =>
    refine hon u _ _ (fun r => ?_)
    rw [hnil]; rfl
  | import_ tz c src vs b e cr sync => exact h.import_agree hw tz c src vs b e cr sync

/-- C85 for histories: all theorems about histories of `World` hold for objects. -/
theorem C85_history (id host : String) (ops : List Op) :
    ((freshHeap id host).runOps ops).world = (freshWorld id host).run ops := by
  have key : ∀ (h : Heap), h.WF → (h.runOps ops).world = h.world.run ops := by
    induction ops with
    | nil => exact fun _ _ => rfl
    | cons op rest ih =>
      intro h hw
      unfold Heap.runOps World.run
      rw [ih _ ((h.callOp_steps quiet_proper op).wf hw), (C85_call h hw op).1]
  exact key _ ⟨List.nodup_nil, fun u r hr => by cases hr⟩

/-- C85, concrete: two objects, a deletion and a change. -/
example :
    let ops : List Op := [.create 0 (some "m") Sample.meeting, .create 0 (some "n") Sample.meeting, .delete "m",
      .setStatus "n" "bob" (some "ACCEPTED"), .create 0 (some "m") Sample.meeting]
    let h := (freshHeap "st" "host").runOps ops
    h.events = [("n", 1), ("m", 2)] ∧ (h.obj 0).uid = "m" ∧
      h.log.map (·.ref) = [0, 1, 0, 1, 2] ∧
      (h.world.store.getEvent "n").map (fun e => e.getStatus "bob") = .ok (some "ACCEPTED") := by decide +kernel

/-! ### C86 -/

/-- C86: whatever clients and subscribers do, in whatever nesting, every stored event is stored under its own
uid, and every uid, and every event in an answer, occurs once. -/
theorem C86_store (sub : Heap → HNote → Prog) (fuel : Nat) (client : Prog) (id host : String) :
    let h := (Heap.exec (react sub fuel) (freshHeap id host) client).1
    (∀ u r, Dict.get? h.events u = some r → (h.obj r).uid = u) ∧
    (∀ u u' r, Dict.get? h.events u = some r → Dict.get? h.events u' = some r → u = u') ∧ h.store.WF := by
  intro h
  have hw : h.WF := (Heap.exec_steps (react_proper sub fuel) client (freshHeap id host)).wf
    ⟨List.nodup_nil, fun u r hr => by cases hr⟩
  exact ⟨fun u r hr => (hw.uid u r hr).1,
    fun u u' r hr hr' => (hw.uid u r hr).1.symm.trans (hw.uid u' r hr').1, hw.store⟩

/-- Nobody has an undocumented role. -/
def RolesFine (e : Event) : Prop := ∀ a x, Dict.get? e.prole a = some x → x ∈ roles

theorem setAttendeesLoop_rolesFine (l : List (Option AttId × String × String)) (o : Event) (h : RolesFine o) :
    RolesFine (setAttendeesLoop o l).1 := by
  induction l generalizing o with
  | nil => exact h
  | cons p rest ih =>
    obtain ⟨a, role, status⟩ := p
    unfold setAttendeesLoop
    split
    · exact h
    · rename_i hr
      cases a with
      | none => exact h
      | some a =>
        refine ih _ ?_
        intro b x hx
        simp only [Dict.get?_set] at hx
        split at hx
        · injection hx with hx; rw [← hx]; simpa using hr
        · exact h b x hx

theorem setOnObject_rolesFine (s : Spec) (o : Event) (h : RolesFine o) : RolesFine (s.setOnObject o).1 := by
  unfold Spec.setOnObject
  refine setAttendeesLoop_rolesFine _ _ ?_
  unfold Spec.setOrganizer
  cases s.organizer with
  | none => exact h
  | some b =>
    intro a x hx
    simp only [Dict.get?_set] at hx
    split at hx
    · injection hx with hx; rw [← hx]; decide
    · exact h a x hx

theorem Method.rolesFine {e e' : Event} (hm : Method e e') (h : RolesFine e) : RolesFine e' := by
  cases hm with
  | status a st =>
    unfold Event.setStatusRaw
    cases st with
    | some s => exact h
    | none =>
      simp only []
      split
      · split
        · intro b x hx
          simp only [Dict.get?_del] at hx
          split at hx
          · cases hx
          · exact h b x hx
        · exact h
      · exact h
  | role a role =>
    unfold Event.setRole
    split
    · exact h
    · rename_i hr
      intro b x hx
      simp only [Dict.get?_set] at hx
      split at hx
      · injection hx with hx; rw [← hx]; simpa using hr
      · exact h b x hx
  | allday => exact h
  | edit spec => exact setOnObject_rolesFine spec e h

/-- C86: whatever clients and subscribers do, no event, stored or not, has an undocumented role. -/
theorem C86_roles (sub : Heap → HNote → Prog) (fuel : Nat) (client : Prog) (id host : String) (r : Ref) (a : AttId)
    (x : String) (hx : ((Heap.exec (react sub fuel) (freshHeap id host) client).1.obj r).getRole a = some x) :
    x = "CHAIR" ∨ x = "REQ-PARTICIPANT" ∨ x = "OPT-PARTICIPANT" ∨ x = "NON-PARTICIPANT" := by
  have hinv := Heap.Steps.inv (I := fun h => ∀ r, RolesFine (h.obj r)) (fun h h' hs h0 => ?_)
    (Heap.exec_steps (react_proper sub fuel) client (freshHeap id host)) (fun r a x hx => by cases hx)
  · have := hinv r a x hx
    simpa [roles] using this
  · intro r'
    cases hs with
    | method q e hm =>
      show RolesFine (if r' = q then e else h.obj r')
      split
      · exact hm.rolesFine (h0 q)
      · exact h0 r'
    | make u spec e hn =>
      show RolesFine (if r' = h.next then e else h.obj r')
      split
      · have hblank : RolesFine (blankEvent u) := fun a x hx => by cases hx
        have := setOnObject_rolesFine spec (blankEvent u) hblank
        unfold newEvent at hn
        split at hn
        · cases hn
        · rename_i e0 h'
          rw [h'] at this
          injection hn with hn
          rw [← hn]
          split
          · exact this
          · exact this
      · exact h0 r'
    | delete u => exact h0 r'
    | record n => exact h0 r'

/-! ### C87 -/

/-- What the notification says is so. -/
def Truthful (h : Heap) (n : HNote) : Prop :=
  match n.note with
  | .created u => (h.obj n.ref).uid = u ∧ Dict.get? h.events u = some n.ref
  | .deleted u => (h.obj n.ref).uid = u ∧ Dict.get? h.events u = none
  | .modified u => (h.obj n.ref).uid = u
  | .participation u a old new => (h.obj n.ref).uid = u ∧ (h.obj n.ref).getStatus a = new ∧ old ≠ new

section
variable {notify notify' : Notifier} (hn : ∀ h n, Truthful h n → notify h n = notify' h n)
include hn

theorem Heap.createEvent_congr (h : Heap) (now : Int) (uid : Option Uid) (spec : Spec) :
    h.createEvent notify now uid spec = h.createEvent notify' now uid spec := by
  unfold Heap.createEvent
  simp only []
  cases hm : newEvent (uid.getD (addrspecUniqueId now (h.id ++ "-" ++ toString h.events.length) h.host)) spec with
  | error f => rfl
  | ok e =>
    simp only []
    rw [hn]
    refine ⟨?_, ?_⟩
    · show (if h.next = h.next then e else h.obj h.next).uid = e.uid
      rw [if_pos rfl]
    · show Dict.get? (Dict.set h.events _ h.next) e.uid = some h.next
      rw [newEvent_uid hm, Dict.get?_set_self]

theorem Heap.deleteEvent_congr (h : Heap) (r : Ref) : h.deleteEvent notify r = h.deleteEvent notify' r := by
  unfold Heap.deleteEvent
  simp only []
  split
  · refine hn _ _ ⟨rfl, ?_⟩
    show Dict.get? (Dict.del h.events _) _ = none
    rw [Dict.get?_del, if_pos rfl]
  · rfl

theorem Heap.setStatus_congr (h : Heap) (r : Ref) (a : AttId) (st : Option String) :
    h.setStatus notify r a st = h.setStatus notify' r a st := by
  unfold Heap.setStatus
  split
  · rfl
  · simp only []
    split
    · rfl
    · rename_i hne
      cases hs : (h.obj r).setStatusRaw a st with
      | mk e res =>
        cases res with
        | error f => rfl
        | ok _ =>
          simp only []
          refine hn _ _ ⟨?_, ?_, hne⟩
          · rw [Heap.put_obj]
            have := (Method.status (e := h.obj r) a st).uid
            rw [hs] at this
            exact this
          · rw [Heap.put_obj]
            show Dict.get? e.pstate a = st
            unfold Event.setStatusRaw at hs
            cases st with
            | some s =>
              injection hs with hs _
              rw [← hs]
              exact Dict.get?_set_self ..
            | none =>
              simp only [] at hs
              split at hs
              · split at hs
                · injection hs with hs _
                  rw [← hs]
                  show Dict.get? (Dict.del (h.obj r).pstate a) a = none
                  rw [Dict.get?_del, if_pos rfl]
                · injection hs with _ hs; cases hs
              · injection hs with _ hs; cases hs

theorem Heap.invite_congr (l : List AttId) (h : Heap) (r : Ref) : h.invite notify r l = h.invite notify' r l := by
  induction l generalizing h with
  | nil => rfl
  | cons a rest ih =>
    unfold Heap.invite
    have : h.inviteOne notify r a = h.inviteOne notify' r a := by
      unfold Heap.inviteOne
      rw [Heap.setStatus_congr hn]
    rw [this]
    cases h.inviteOne notify' r a with
    | mk h' res =>
      cases res with
      | error f => rfl
      | ok _ => exact ih h'

theorem Heap.importOne_congr (h : Heap) (tz : LocalTz) (c : Calendar) (src : Source) (known : List Uid) (u : Uid)
    (v : VEvent) : h.importOne notify tz c src known u v = h.importOne notify' tz c src known u v := by
  unfold Heap.importOne
  have h1 : h.importExisting notify tz c src u v = h.importExisting notify' tz c src u v := by
    unfold Heap.importExisting
    cases h.getEvent u with
    | error f => rfl
    | ok r =>
      simp only []
      cases importSpec tz c src v with
      | error f => rfl
      | ok spec =>
        simp only []
        cases spec.willModify (h.obj r) with
        | error f => rfl
        | ok b =>
          cases b with
          | false => rfl
          | true =>
            simp only []
            cases h.edit r spec with
            | mk h' res =>
              cases res with
              | error f => rfl
              | ok _ => exact hn _ _ rfl
  have h2 : h.importNew notify tz c src u v = h.importNew notify' tz c src u v := by
    unfold Heap.importNew
    cases importSpec tz c src v with
    | error f => rfl
    | ok spec => simp only []; rw [Heap.createEvent_congr hn]
  rw [h1, h2]

theorem Heap.importLoop_congr (tz : LocalTz) (c : Calendar) (src : Source) (known : List Uid) (vs : List VEvent)
    (h : Heap) : Heap.importLoop notify tz c src known h vs = Heap.importLoop notify' tz c src known h vs := by
  induction vs generalizing h with
  | nil => rfl
  | cons v rest ih =>
    unfold Heap.importLoop
    cases v.uid with
    | none => rfl
    | some u =>
      simp only []
      rw [Heap.importOne_congr hn]
      cases h.importOne notify' tz c src known u v with
      | mk h' res =>
        cases res with
        | error f => rfl
        | ok _ => simp only []; rw [ih]

theorem Heap.removeLoop_congr (us : List Uid) (h : Heap) :
    Heap.removeLoop notify h us = Heap.removeLoop notify' h us := by
  induction us generalizing h with
  | nil => rfl
  | cons u rest ih =>
    unfold Heap.removeLoop
    cases h.getEvent u with
    | error f => rfl
    | ok r =>
      simp only []
      rw [Heap.deleteEvent_congr hn]
      cases h.deleteEvent notify' r with
      | mk h' res =>
        cases res with
        | error f => rfl
        | ok _ => exact ih h'

/-- C87: calls notify with truthful notifications only: two notifiers that agree on truthful notifications cannot
be told apart.  So it makes no difference if, say, one of them raises for all others.  This holds whatever the
notifiers do to the heap. -/
theorem C87_truthful (h : Heap) (c : Call) : h.call notify c = h.call notify' c := by
  cases c with
  | create now uid spec => unfold Heap.call; simp only []; rw [Heap.createEvent_congr hn]
  | delete r => exact h.deleteEvent_congr hn r
  | setStatus r a st => exact h.setStatus_congr hn r a st
  | setRole r a role => rfl
  | invite r atts => exact Heap.invite_congr hn atts h r
  | alldayAdjust r => rfl
  | edit r spec => rfl
  | import_ tz c src vs b e cr sync =>
    show h.import_ notify tz c src vs b e cr sync = h.import_ notify' tz c src vs b e cr sync
    unfold Heap.import_
    cases c.getEvents src h.store b e cr with
    | error f => rfl
    | ok events =>
      simp only []
      rw [Heap.importLoop_congr hn]
      cases Heap.importLoop notify' tz c src (events.map (·.uid)).dedup h vs with
      | mk h' res =>
        cases res with
        | error f => rfl
        | ok uids => simp only []; rw [Heap.removeLoop_congr hn]

end

open Classical in
/-- C87 for subscribers: a subscriber that raises an assertion for every untruthful notification raises none. -/
theorem C87_subscriber (sub : Heap → HNote → Prog) (fuel : Nat) (client : Prog) (h : Heap) :
    Heap.exec (react sub fuel) h client =
      Heap.exec (react (fun h n => if Truthful h n then sub h n else .fail .AssertionError) fuel) h client := by
  have hexec : ∀ (n1 n2 : Notifier), (∀ h n, Truthful h n → n1 h n = n2 h n) → ∀ (p : Prog) (h : Heap),
      Heap.exec n1 h p = Heap.exec n2 h p := by
    intro n1 n2 hn p
    induction p with
    | done => exact fun _ => rfl
    | fail e => exact fun _ => rfl
    | call c k ih =>
      intro h
      unfold Heap.exec
      rw [C87_truthful hn]
      cases h.call n2 c with
      | mk h' res =>
        cases res with
        | ok _ => exact ih _ _ _
        | error f =>
          cases f with
          | diverge => rfl
          | py e => exact ih _ _ _
  have hreact : ∀ (fuel : Nat) (h : Heap) (n : HNote), Truthful h n → react sub fuel h n =
      react (fun h n => if Truthful h n then sub h n else .fail .AssertionError) fuel h n := by
    intro fuel
    induction fuel with
    | zero => exact fun _ _ _ => rfl
    | succ fuel ih =>
      intro h n ht
      unfold react
      simp only []
      have ht' : Truthful { h with log := h.log ++ [n] } n := ht
      rw [if_pos ht']
      exact hexec _ _ ih _ _
  exact hexec _ _ (hreact fuel) client h

/-- C87, concrete: a change of status with a subscriber that looks. -/
example :
    let h := (freshHeap "st" "host").runOps [.create 0 (some "m") Sample.meeting]
    let x := h.call quiet (.setStatus 0 "bob" (some "DECLINED"))
    x.1.log.map (·.note) = [.created "m", .participation "m" "bob" ((h.obj 0).getStatus "bob") (some "DECLINED")] ∧
      x.2 = .ok () := by decide +kernel

/-! ### C90 -/

/-- C90: methods of an object leave every other object, and what is stored where, as they are.  Missing: `deleteEvent`
(`C90_delete_partial`, `C90_stale_counterexample`). -/
theorem C90_method_partial (h : Heap) (r : Ref) (c : Call)
    (hc : (∃ a st, c = .setStatus r a st) ∨ (∃ a x, c = .setRole r a x) ∨ (∃ l, c = .invite r l) ∨
      c = .alldayAdjust r ∨ ∃ spec, c = .edit r spec) :
    (h.call quiet c).1.events = h.events ∧ ∀ r', r' ≠ r → (h.call quiet c).1.obj r' = h.obj r' := by
  have hput : ∀ e l, ({ h.put r e with log := l } : Heap).events = h.events ∧
      ∀ r', r' ≠ r → ({ h.put r e with log := l } : Heap).obj r' = h.obj r' :=
    fun e l => ⟨rfl, fun r' hr' => if_neg hr'⟩
  rcases hc with ⟨a, st, rfl⟩ | ⟨a, x, rfl⟩ | ⟨l, rfl⟩ | rfl | ⟨spec, rfl⟩
  · show (h.setStatus quiet r a st).1.events = _ ∧ ∀ r', r' ≠ r → (h.setStatus quiet r a st).1.obj r' = _
    rw [h.setStatus_quiet]
    exact hput _ _
  · exact hput _ h.log
  · show (h.invite quiet r l).1.events = _ ∧ ∀ r', r' ≠ r → (h.invite quiet r l).1.obj r' = _
    rw [Heap.invite_quiet]
    exact hput _ _
  · exact hput _ h.log
  · exact hput _ h.log

/-- C90: methods of an object that is not stored change nothing that is stored, so no answer to any query. -/
theorem C90_detached_partial (h : Heap) (r : Ref) (hr : ∀ u, Dict.get? h.events u ≠ some r) (c : Call)
    (hc : (∃ a st, c = .setStatus r a st) ∨ (∃ a x, c = .setRole r a x) ∨ (∃ l, c = .invite r l) ∨
      c = .alldayAdjust r ∨ ∃ spec, c = .edit r spec) (hw : h.WF) :
    (h.call quiet c).1.store = h.store := by
  have hput : ∀ e l, ({ h.put r e with log := l } : Heap).store = h.store := by
    intro e l
    unfold Heap.store
    congr 1
    refine List.map_congr_left fun p hp => ?_
    have hne : p.2 ≠ r := by
      rintro rfl
      exact hr p.1 ((Dict.mem_iff_get? hw.nodup p.1 p.2).1 hp)
    show (p.1, if p.2 = r then e else h.obj p.2) = _
    rw [if_neg hne]
  rcases hc with ⟨a, st, rfl⟩ | ⟨a, x, rfl⟩ | ⟨l, rfl⟩ | rfl | ⟨spec, rfl⟩
  · show (h.setStatus quiet r a st).1.store = _
    rw [h.setStatus_quiet]
    exact hput _ _
  · exact hput _ h.log
  · show (h.invite quiet r l).1.store = _
    rw [Heap.invite_quiet]
    exact hput _ _
  · exact hput _ h.log
  · exact hput _ h.log

/-- C90: deleting a stored object removes that object and no other. -/
theorem C90_delete_partial (h : Heap) (hw : h.WF) (u : Uid) (r : Ref) (hr : Dict.get? h.events u = some r) :
    (h.deleteEvent quiet r).2 = .ok () ∧
    ∀ u' r', Dict.get? (h.deleteEvent quiet r).1.events u' = some r' ↔ Dict.get? h.events u' = some r' ∧ r' ≠ r := by
  have hu := (hw.uid u r hr).1
  unfold Heap.deleteEvent
  simp only []
  rw [hu, if_pos ((Dict.has_iff_get? _ _).2 ⟨r, hr⟩)]
  refine ⟨rfl, fun u' r' => ?_⟩
  show Dict.get? (Dict.del h.events u) u' = some r' ↔ _
  rw [Dict.get?_del]
  split
  · rename_i he
    subst he
    rw [hr]
    constructor
    · intro hx; cases hx
    · rintro ⟨hx, hne⟩; injection hx with hx; exact absurd hx.symm hne
  · rename_i he
    constructor
    · intro hx
      refine ⟨hx, ?_⟩
      rintro rfl
      exact he (hu.symm.trans (hw.uid u' r' hx).1)
    · exact fun hx => hx.1

/-- C90 fails for deletion: deleting an object that is no longer stored deletes its successor with the same uid,
and reports the deletion of the old object. -/
theorem C90_stale_counterexample :
    let h := (freshHeap "st" "host").runOps [.create 0 (some "m") Sample.meeting, .delete "m", .create 0 (some "m") Sample.meeting]
    let x := h.call quiet (.delete 0)
    h.events = [("m", 1)] ∧ x.2 = .ok () ∧ x.1.events = [] ∧ (x.1.log.map (·.ref)).getLast? = some 0 := by
  decide +kernel

/-- C90, concrete: an object that was replaced. -/
example :
    let h := (freshHeap "st" "host").runOps [.create 0 (some "m") Sample.meeting, .create 0 (some "m") Sample.meeting]
    h.events = [("m", 1)] ∧ ((h.call quiet (.setStatus 0 "bob" (some "DECLINED"))).1.obj 0).getStatus "bob" = some "DECLINED" ∧
      ((h.call quiet (.setStatus 0 "bob" (some "DECLINED"))).1.obj 1).getStatus "bob" ≠ some "DECLINED" := by
  decide +kernel

end CalCore
