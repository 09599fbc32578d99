import Verif.Spec.Manager
import Verif.Lemmas.Store
/- What a call does to a storage does not depend on what was notified before. -/
namespace CalCore
open Spec

/-- The same world after other notifications. -/
def World.after (w : World) (l : List Note) : World := ⟨w.store, l ++ w.log⟩

theorem World.after_store (w : World) (l : List Note) : (w.after l).store = w.store := rfl

/-- The function neither reads nor removes past notifications. -/
def LogFree {α : Type} (F : World → World × Res α) : Prop :=
  ∀ l w, F (w.after l) = ((F w).1.after l, (F w).2)

theorem logFree_createEvent (now : Int) (uid : Option Uid) (spec : Spec) :
    LogFree fun w => w.createEvent now uid spec := by
  intro l w
  unfold World.createEvent
  simp only [World.after_store]
  generalize w.store.createEvent now uid spec = x
  obtain ⟨s, r⟩ := x
  cases r with
  | error f => rfl
  | ok e => simp [World.after]

theorem logFree_deleteEvent (uid : Uid) : LogFree fun w => w.deleteEvent uid := by
  intro l w
  unfold World.deleteEvent
  simp only [World.after_store]
  generalize w.store.deleteEvent uid = x
  obtain ⟨s, r⟩ := x
  cases r with
  | error f => rfl
  | ok e => simp [World.after]

theorem logFree_onEvent (uid : Uid) (f : Event → Event × List Note × Res Unit) : LogFree fun w => w.onEvent uid f := by
  intro l w
  unfold World.onEvent
  simp only [World.after_store]
  cases w.store.getEvent uid with
  | error x => rfl
  | ok e => simp [World.after]

theorem logFree_importExisting (tz : LocalTz) (c : Calendar) (src : Source) (uid : Uid) (v : VEvent) :
    LogFree fun w => w.importExisting tz c src uid v := by
  intro l w
  unfold World.importExisting
  simp only [World.after_store]
  cases w.store.getEvent uid with
  | error x => rfl
  | ok e =>
    simp only []
    cases importSpec tz c src v with
    | error f => rfl
    | ok spec =>
      simp only []
      cases spec.willModify e with
      | error f => rfl
      | ok b =>
        cases b with
        | false => rfl
        | true =>
          simp only []
          generalize spec.setOnObject e = x
          obtain ⟨e', r⟩ := x
          cases r with
          | error f => rfl
          | ok _ => simp [World.after]

theorem logFree_importNew (tz : LocalTz) (c : Calendar) (src : Source) (uid : Uid) (v : VEvent) :
    LogFree fun w => w.importNew tz c src uid v := by
  intro l w
  unfold World.importNew
  cases importSpec tz c src v with
  | error f => rfl
  | ok spec =>
    simp only []
    rw [show (w.after l).createEvent 0 (some uid) spec = _ from logFree_createEvent 0 (some uid) spec l w]
    simp only []
    generalize w.createEvent 0 (some uid) spec = x
    obtain ⟨w', r⟩ := x
    cases r <;> rfl

theorem logFree_importLoop (tz : LocalTz) (c : Calendar) (src : Source) (known : List Uid) (vs : List VEvent) :
    LogFree fun w => World.importLoop tz c src known w vs := by
  induction vs with
  | nil => intro l w; rfl
  | cons v rest ih =>
    intro l w
    simp only [World.importLoop]
    cases v.uid with
    | none => rfl
    | some uid =>
      simp only []
      have h1 : (w.after l).importExisting tz c src uid v = _ := logFree_importExisting tz c src uid v l w
      have h2 : (w.after l).importNew tz c src uid v = _ := logFree_importNew tz c src uid v l w
      have h : (if uid ∈ known then (w.after l).importExisting tz c src uid v
          else if ¬ (w.after l).store.hasEvent uid = true then (w.after l).importNew tz c src uid v
          else (w.after l, .ok ())) =
          (((if uid ∈ known then w.importExisting tz c src uid v
          else if ¬ w.store.hasEvent uid = true then w.importNew tz c src uid v else (w, .ok ())).1.after l),
          (if uid ∈ known then w.importExisting tz c src uid v
          else if ¬ w.store.hasEvent uid = true then w.importNew tz c src uid v else (w, .ok ())).2) := by
        rw [h1, h2]
        show (if uid ∈ known then _ else if ¬ w.store.hasEvent uid = true then _ else _) = _
        split
        · rfl
        · split <;> rfl
      rw [h]
      generalize (if uid ∈ known then w.importExisting tz c src uid v
          else if ¬ w.store.hasEvent uid = true then w.importNew tz c src uid v else (w, .ok ())) = x
      obtain ⟨w', r⟩ := x
      cases r with
      | error f => rfl
      | ok _ =>
        simp only []
        rw [show World.importLoop tz c src known (w'.after l) rest = _ from ih l w']
        simp only []
        generalize World.importLoop tz c src known w' rest = y
        obtain ⟨w'', r⟩ := y
        cases r <;> rfl

theorem logFree_removeLoop (us : List Uid) : LogFree fun w => World.removeLoop w us := by
  induction us with
  | nil => intro l w; rfl
  | cons uid rest ih =>
    intro l w
    simp only [World.removeLoop]
    simp only [World.after_store]
    cases w.store.getEvent uid with
    | error x => rfl
    | ok e =>
      simp only []
      rw [show (w.after l).deleteEvent e.uid = _ from logFree_deleteEvent e.uid l w]
      simp only []
      generalize w.deleteEvent e.uid = x
      obtain ⟨w', r⟩ := x
      cases r with
      | error f => rfl
      | ok _ => exact ih l w'

theorem logFree_step (op : Op) : LogFree fun w => w.step op := by
  intro l w
  cases op with
  | create now uid spec =>
    show dropRes _ = _
    rw [show (w.after l).createEvent now uid spec = _ from logFree_createEvent now uid spec l w]
    rfl
  | attendeeCreate now a spec =>
    show dropRes ((w.after l).createEvent now none _) = _
    rw [show (w.after l).createEvent now none _ = _ from logFree_createEvent now none _ l w]
    rfl
  | delete uid =>
    simp only [World.step]
    simp only [World.after_store]
    cases w.store.getEvent uid with
    | error x => rfl
    | ok e => exact logFree_deleteEvent e.uid l w
  | setStatus uid a st => exact logFree_onEvent uid _ l w
  | setRole uid a role => exact logFree_onEvent uid (fun e => let x := e.setRole a role; (x.1, [], x.2)) l w
  | invite uid atts => exact logFree_onEvent uid _ l w
  | alldayAdjust uid => exact logFree_onEvent uid (fun e => (e.alldayAdjust, [], .ok ())) l w
  | edit uid spec => exact logFree_onEvent uid (fun e => let x := spec.setOnObject e; (x.1, [], x.2)) l w
  | import_ tz c src vs b e cr sync =>
    simp only [World.step, World.import_]
    simp only [World.after_store]
    cases c.getEvents src w.store b e cr with
    | error f => rfl
    | ok events =>
      simp only []
      rw [show World.importLoop tz c src _ (w.after l) vs = _ from logFree_importLoop tz c src _ vs l w]
      simp only []
      generalize World.importLoop tz c src _ w vs = x
      obtain ⟨w', r⟩ := x
      cases r with
      | error f => rfl
      | ok uids =>
        simp only []
        split
        · exact logFree_removeLoop _ l w'
        · rfl

/-- The store after a call, and its answer, depend on the store before only; the notifications are added. -/
theorem step_after (s : Storage) (l : List Note) (op : Op) :
    World.step ⟨s, l⟩ op = (⟨(World.step ⟨s, []⟩ op).1.store, l ++ (World.step ⟨s, []⟩ op).1.log⟩, (World.step ⟨s, []⟩ op).2) := by
  have := logFree_step op l ⟨s, []⟩
  simp only [World.after, List.append_nil] at this
  exact this

theorem run_store (ops : List Op) (w w' : World) (h : w.store = w'.store) : (w.run ops).store = (w'.run ops).store := by
  induction ops generalizing w w' with
  | nil => exact h
  | cons op rest ih =>
    refine ih _ _ ?_
    obtain ⟨s, l⟩ := w
    obtain ⟨s', l'⟩ := w'
    simp only [] at h
    subst h
    rw [step_after s l op, step_after s l' op]

end CalCore
