import Verif.Model.Objects
import Verif.Lemmas.SetOnObject
/- Lemmas on objects and subscribers: every call, with any subscriber, is a sequence of elementary steps. -/
namespace CalCore
open Spec

/-- A method of the event changes the object from `e` to `e'`. -/
inductive Method (e : Event) : Event → Prop
  | status (a : AttId) (st : Option String) : Method e (e.setStatusRaw a st).1
  | role (a : AttId) (role : String) : Method e (e.setRole a role).1
  | allday : Method e e.alldayAdjust
  | edit (spec : Spec) : Method e (spec.setOnObject e).1

/-- An elementary step: a method changes an object, an object is made and stored, an entry of the storage is
deleted, a notification is recorded. -/
inductive Heap.Step (h : Heap) : Heap → Prop
  | method (r : Ref) (e : Event) (hm : Method (h.obj r) e) : Step h (h.put r e)
  | make (uid : Uid) (spec : Spec) (e : Event) (hn : newEvent uid spec = .ok e) :
      Step h (h.add uid e)
  | delete (uid : Uid) : Step h { h with events := Dict.del h.events uid }
  | record (n : HNote) : Step h { h with log := h.log ++ [n] }

/-- Any number of steps. -/
inductive Heap.Steps : Heap → Heap → Prop
  | refl (h : Heap) : Steps h h
  | cons {h h' h'' : Heap} (hs : Heap.Step h h') (ht : Steps h' h'') : Steps h h''

theorem Heap.Steps.one {h h' : Heap} (hs : Heap.Step h h') : Heap.Steps h h' := .cons hs (.refl _)

theorem Heap.Steps.trans {h h' h'' : Heap} (h1 : Heap.Steps h h') (h2 : Heap.Steps h' h'') : Heap.Steps h h'' := by
  induction h1 with
  | refl => exact h2
  | cons hs _ ih => exact .cons hs (ih h2)

/-- What every step preserves, every sequence of steps preserves. -/
theorem Heap.Steps.inv {I : Heap → Prop} (hI : ∀ h h', Heap.Step h h' → I h → I h') {h h' : Heap}
    (hs : Heap.Steps h h') (h0 : I h) : I h' := by
  induction hs with
  | refl => exact h0
  | cons hs _ ih => exact ih (hI _ _ hs h0)

/-- The notifier does nothing but such steps. -/
def Notifier.Proper (notify : Notifier) : Prop := ∀ h n, Heap.Steps h (notify h n).1

theorem Method.uid {e e' : Event} (h : Method e e') : e'.uid = e.uid := by
  cases h with
  | status a st =>
    unfold Event.setStatusRaw
    cases st with
    | some s => rfl
    | none =>
      simp only []
      split
      · split <;> rfl
      · rfl
  | role a role => unfold Event.setRole; split <;> rfl
  | allday => rfl
  | edit spec => exact setOnObject_uid spec e

section
variable {notify : Notifier} (hp : notify.Proper)
include hp

theorem Heap.createEvent_steps (h : Heap) (now : Int) (uid : Option Uid) (spec : Spec) :
    Heap.Steps h (h.createEvent notify now uid spec).1 := by
  unfold Heap.createEvent
  simp only []
  generalize uid.getD _ = u
  cases hn : newEvent u spec with
  | error f => exact .refl _
  | ok e =>
    simp only []
    have h2 : Heap.Steps h _ := .cons (.make u spec e hn) (hp (h.add u e) ⟨h.next, .created e.uid⟩)
    cases hx : notify (h.add u e) ⟨h.next, .created e.uid⟩ with
    | mk h' r =>
      rw [hx] at h2
      cases r <;> exact h2

theorem Heap.deleteEvent_steps (h : Heap) (r : Ref) : Heap.Steps h (h.deleteEvent notify r).1 := by
  unfold Heap.deleteEvent
  simp only []
  split
  · exact .cons (.delete _) (hp _ _)
  · exact .refl _

theorem Heap.setStatus_steps (h : Heap) (r : Ref) (a : AttId) (st : Option String) :
    Heap.Steps h (h.setStatus notify r a st).1 := by
  unfold Heap.setStatus
  split
  · exact .refl _
  · simp only []
    split
    · exact .refl _
    · have hm : Method (h.obj r) ((h.obj r).setStatusRaw a st).1 := .status a st
      cases hx : (h.obj r).setStatusRaw a st with
      | mk e res =>
        rw [hx] at hm
        cases res with
        | error f => exact .one (.method r e hm)
        | ok _ => exact .cons (.method r e hm) (hp _ _)

omit hp in
theorem Heap.setRole_steps (h : Heap) (r : Ref) (a : AttId) (role : String) :
    Heap.Steps h (h.setRole r a role).1 := .one (.method r _ (.role a role))

theorem Heap.inviteOne_steps (h : Heap) (r : Ref) (a : AttId) : Heap.Steps h (h.inviteOne notify r a).1 := by
  unfold Heap.inviteOne
  split
  · have h1 := h.setStatus_steps hp r a (some "NEEDS-ACTION")
    cases hx : h.setStatus notify r a (some "NEEDS-ACTION") with
    | mk h' res =>
      rw [hx] at h1
      cases res with
      | error f => exact h1
      | ok _ => exact h1.trans (h'.setRole_steps r a _)
  · exact .refl _

theorem Heap.invite_steps (h : Heap) (r : Ref) (l : List AttId) : Heap.Steps h (h.invite notify r l).1 := by
  induction l generalizing h with
  | nil => exact .refl _
  | cons a rest ih =>
    unfold Heap.invite
    have h1 := h.inviteOne_steps hp r a
    cases hx : h.inviteOne notify r a with
    | mk h' res =>
      rw [hx] at h1
      cases res with
      | error f => exact h1
      | ok _ => exact h1.trans (ih h')

omit hp in
theorem Heap.edit_steps (h : Heap) (r : Ref) (spec : Spec) : Heap.Steps h (h.edit r spec).1 :=
  .one (.method r _ (.edit spec))

theorem Heap.importOne_steps (h : Heap) (tz : LocalTz) (c : Calendar) (src : Source) (known : List Uid) (u : Uid)
    (v : VEvent) : Heap.Steps h (h.importOne notify tz c src known u v).1 := by
  unfold Heap.importOne
  split
  · unfold Heap.importExisting
    split
    · exact .refl _
    · rename_i r _
      split
      · exact .refl _
      · rename_i spec _
        split
        · exact .refl _
        · exact .refl _
        · have h1 := h.edit_steps r spec
          cases hx : h.edit r spec with
          | mk h' res =>
            rw [hx] at h1
            cases res with
            | error f => exact h1
            | ok _ => exact h1.trans (hp _ _)
  · split
    · unfold Heap.importNew
      split
      · exact .refl _
      · rename_i spec _
        have h1 := h.createEvent_steps hp 0 (some u) spec
        cases hx : h.createEvent notify 0 (some u) spec with
        | mk h' res =>
          rw [hx] at h1
          cases res <;> exact h1
    · exact .refl _

theorem Heap.importLoop_steps (tz : LocalTz) (c : Calendar) (src : Source) (known : List Uid) (vs : List VEvent)
    (h : Heap) : Heap.Steps h (Heap.importLoop notify tz c src known h vs).1 := by
  induction vs generalizing h with
  | nil => exact .refl _
  | cons v rest ih =>
    unfold Heap.importLoop
    cases v.uid with
    | none => exact .refl _
    | some u =>
      simp only []
      have h1 := h.importOne_steps hp tz c src known u v
      cases hx : h.importOne notify tz c src known u v with
      | mk h' res =>
        rw [hx] at h1
        cases res with
        | error f => exact h1
        | ok _ =>
          simp only []
          have h2 := ih h'
          cases hy : Heap.importLoop notify tz c src known h' rest with
          | mk h'' res' =>
            rw [hy] at h2
            cases res' <;> exact h1.trans h2

theorem Heap.removeLoop_steps (us : List Uid) (h : Heap) : Heap.Steps h (Heap.removeLoop notify h us).1 := by
  induction us generalizing h with
  | nil => exact .refl _
  | cons u rest ih =>
    unfold Heap.removeLoop
    split
    · exact .refl _
    · rename_i r _
      have h1 := h.deleteEvent_steps hp r
      cases hx : h.deleteEvent notify r with
      | mk h' res =>
        rw [hx] at h1
        cases res with
        | error f => exact h1
        | ok _ => exact h1.trans (ih h')

theorem Heap.import_steps (h : Heap) (tz : LocalTz) (c : Calendar) (src : Source) (vs : List VEvent)
    (b e : Option Int) (cr : Option Criteria) (sync : Bool) :
    Heap.Steps h (h.import_ notify tz c src vs b e cr sync).1 := by
  unfold Heap.import_
  split
  · exact .refl _
  · rename_i events _
    simp only []
    have h1 := Heap.importLoop_steps hp tz c src (events.map (·.uid)).dedup vs h
    cases hx : Heap.importLoop notify tz c src (events.map (·.uid)).dedup h vs with
    | mk h' res =>
      rw [hx] at h1
      cases res with
      | error f => exact h1
      | ok uids =>
        simp only []
        split
        · exact h1.trans (Heap.removeLoop_steps hp _ _)
        · exact h1

/-- Every call is a sequence of elementary steps. -/
theorem Heap.call_steps (h : Heap) (c : Call) : Heap.Steps h (h.call notify c).1 := by
  cases c with
  | create now uid spec =>
    have h1 := h.createEvent_steps hp now uid spec
    unfold Heap.call
    simp only []
    cases hx : h.createEvent notify now uid spec with
    | mk h' res => rw [hx] at h1; cases res <;> exact h1
  | delete r => exact h.deleteEvent_steps hp r
  | setStatus r a st => exact h.setStatus_steps hp r a st
  | setRole r a role => exact h.setRole_steps r a role
  | invite r atts => exact h.invite_steps hp r atts
  | alldayAdjust r => exact .one (.method r _ .allday)
  | edit r spec => exact h.edit_steps r spec
  | import_ tz c src vs b e cr sync => exact h.import_steps hp tz c src vs b e cr sync

/-- So is every piece of client code. -/
theorem Heap.exec_steps (p : Prog) (h : Heap) : Heap.Steps h (Heap.exec notify h p).1 := by
  induction p generalizing h with
  | done => exact .refl _
  | fail e => exact .refl _
  | call c k ih =>
    unfold Heap.exec
    have h1 := h.call_steps hp c
    cases hx : h.call notify c with
    | mk h' res =>
      rw [hx] at h1
      cases res with
      | ok _ => exact h1.trans (ih _ _ _)
      | error f =>
        cases f with
        | diverge => exact h1
        | py e => exact h1.trans (ih _ _ _)

end

theorem quiet_proper : quiet.Proper := fun _ n => .one (.record n)

/-- Whatever subscribers do, however they call each other, it is a sequence of elementary steps. -/
theorem react_proper (sub : Heap → HNote → Prog) (fuel : Nat) : Notifier.Proper (react sub fuel) := by
  induction fuel with
  | zero => exact fun h n => .refl _
  | succ fuel ih => exact fun h n => .cons (.record n) (Heap.exec_steps ih _ _)

end CalCore
