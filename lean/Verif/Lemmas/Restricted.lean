import Verif.Lemmas.Store
/- Invariants of the stored events in histories whose calls only use certain event specifications. -/
namespace CalCore

/-- `P` holds of every stored event. -/
def World.All (P : Event → Prop) (w : World) : Prop := ∀ k e, Dict.get? w.store.events k = some e → P e

/-- The specifications a call gives or imports all satisfy `A`. -/
def Op.Uses (A : Spec → Prop) : Op → Prop
  | .create _ _ spec => A spec
  | .attendeeCreate _ a spec => A { spec with organizer := some a }
  | .edit _ spec => A spec
  | .import_ tz c src vs _ _ _ _ => ∀ v ∈ vs, ∀ spec, importSpec tz c src v = .ok spec → A spec
  | _ => True

/-- New events from specifications satisfying `A` satisfy `P`, and the methods preserve `P`. -/
structure Keeps (A : Spec → Prop) (P : Event → Prop) : Prop where
  new : ∀ uid spec e, A spec → newEvent uid spec = .ok e → P e
  edit : ∀ spec e, A spec → P e → P (spec.setOnObject e).1
  status : ∀ e a st, P e → P (e.setStatus a st).1
  role : ∀ e a r, P e → P (e.setRole a r).1
  invite : ∀ e l, P e → P (e.invite l).1
  allday : ∀ e, P e → P e.alldayAdjust

variable {A : Spec → Prop} {P : Event → Prop}

theorem World.All.set {w : World} (h : w.All P) {uid : Uid} {e : Event} (he : P e) (log : List Note) :
    World.All P { store := { w.store with events := Dict.set w.store.events uid e }, log := log } := by
  intro k e' hk
  simp only [Dict.get?_set] at hk
  split at hk
  · injection hk with hk; subst hk; exact he
  · exact h k e' hk

theorem World.All.create {w : World} (h : w.All P) (hk : Keeps A P) {now : DateTime} {uid : Option Uid}
    {spec : Spec} (ha : A spec) : World.All P (w.createEvent now uid spec).1 := by
  rcases w.createEvent_eq now uid spec with ⟨f, _, he⟩ | ⟨e, hn, hu, he⟩
  · rw [he]; exact h
  · rw [he]; exact h.set (hk.new _ _ _ ha hn) _

theorem World.All.delete {w : World} (h : w.All P) (uid : Uid) : World.All P (w.deleteEvent uid).1 := by
  rcases w.deleteEvent_eq uid with ⟨_, he⟩ | ⟨_, he⟩
  · rw [he]; exact h
  · rw [he]
    intro k e hk
    simp only [Dict.get?_del] at hk
    split at hk
    · cases hk
    · exact h k e hk

theorem World.All.on {w : World} (h : w.All P) {uid : Uid} {f : Event → Event × List Note × Res Unit}
    (hf : ∀ e, P e → P (f e).1) : World.All P (w.onEvent uid f).1 := by
  unfold World.onEvent
  cases hg : w.store.getEvent uid with
  | error x => exact h
  | ok e => exact h.set (hf e (h _ _ (Storage.getEvent_ok.1 hg))) _

theorem World.All.importOne {w : World} (h : w.All P) (hk : Keeps A P) {tz : LocalTz} {c : Calendar}
    {src : Source} {known : List Uid} {uid : Uid} {v : VEvent}
    (ha : ∀ spec, importSpec tz c src v = .ok spec → A spec) :
    World.All P (w.importOne tz c src known uid v).1 := by
  unfold World.importOne
  split
  · unfold World.importExisting
    cases hg : w.store.getEvent uid with
    | error f => exact h
    | ok e =>
      simp only []
      cases hi : importSpec tz c src v with
      | error f => exact h
      | ok spec =>
        simp only []
        cases spec.willModify e with
        | error f => exact h
        | ok b =>
          cases b with
          | false => exact h
          | true =>
            have hu := hk.edit spec e (ha spec hi) (h _ _ (Storage.getEvent_ok.1 hg))
            simp only []
            cases hs : spec.setOnObject e with
            | mk e' r =>
              rw [hs] at hu
              cases r with
              | error f => exact h.set hu _
              | ok _ => exact h.set hu _
  · split
    · unfold World.importNew
      cases hi : importSpec tz c src v with
      | error f => exact h
      | ok spec =>
        have := h.create hk (now := 0) (uid := some uid) (ha spec hi)
        simp only []
        split
        · rename_i h'; rw [h'] at this; exact this
        · rename_i h'; rw [h'] at this; exact this
    · exact h

theorem World.All.importLoop (hk : Keeps A P) {tz : LocalTz} {c : Calendar} {src : Source} {known : List Uid}
    (vs : List VEvent) (ha : ∀ v ∈ vs, ∀ spec, importSpec tz c src v = .ok spec → A spec) {w : World}
    (h : w.All P) : World.All P (World.importLoop tz c src known w vs).1 := by
  induction vs generalizing w with
  | nil => exact h
  | cons v rest ih =>
    rw [World.importLoop_cons]
    cases v.uid with
    | none => exact h
    | some uid =>
      have h1 := h.importOne hk (known := known) (uid := uid) (ha v (.head _))
      simp only []
      cases hi : w.importOne tz c src known uid v with
      | mk w' r =>
        rw [hi] at h1
        cases r with
        | error f => exact h1
        | ok _ =>
          have h2 := ih (fun v hv => ha v (.tail _ hv)) h1
          simp only []
          cases h' : World.importLoop tz c src known w' rest with
          | mk w'' r' =>
            rw [h'] at h2
            cases r' with
            | error f => exact h2
            | ok _ => exact h2

theorem World.All.removeLoop {w : World} (h : w.All P) (l : List Uid) :
    World.All P (World.removeLoop w l).1 := by
  induction l generalizing w with
  | nil => exact h
  | cons uid rest ih =>
    unfold World.removeLoop
    cases w.store.getEvent uid with
    | error f => exact h
    | ok e =>
      have h1 := h.delete e.uid
      simp only []
      cases hd : w.deleteEvent e.uid with
      | mk w' r =>
        rw [hd] at h1
        cases r with
        | error f => exact h1
        | ok _ => exact ih h1

theorem World.All.import_ {w : World} (h : w.All P) (hk : Keeps A P) {tz : LocalTz} {c : Calendar}
    {src : Source} {text : List Char} {parse : List Char → Res (Option (List VEvent))}
    (ha : ∀ t vs, parse t = .ok (some vs) → ∀ v ∈ vs, ∀ spec, importSpec tz c src v = .ok spec → A spec)
    (b e : Option DateTime) (cr : Option Criteria) (sync : Bool) :
    World.All P (w.import_ parse tz c src text b e cr sync).1 := by
  unfold World.import_
  simp only []
  cases c.getEvents src w.store b e cr with
  | error f => exact h
  | ok events =>
    simp only []
    cases hp : parse (repairText text) with
    | error f => exact h
    | ok o =>
      cases o with
      | none => exact h
      | some vs =>
        have h1 := World.All.importLoop (known := (events.map (·.uid)).dedup) hk vs (ha _ vs hp) h
        simp only []
        cases hl : World.importLoop tz c src (events.map (·.uid)).dedup w vs with
        | mk w' r =>
          rw [hl] at h1
          cases r with
          | error f => exact h1
          | ok uids =>
            simp only []
            split
            · exact h1.removeLoop _
            · exact h1

theorem World.All.step {w : World} (h : w.All P) (hk : Keeps A P) {op : Op} (hop : op.Uses A) :
    World.All P (w.step op).1 := by
  cases op with
  | create now uid spec => exact h.create hk hop
  | attendeeCreate now a spec => exact h.create hk hop
  | delete uid =>
    unfold World.step
    simp only []
    cases w.store.getEvent uid with
    | error f => exact h
    | ok e => exact h.delete e.uid
  | setStatus uid a st => exact h.on (fun e he => hk.status e a st he)
  | setRole uid a role => exact h.on (fun e he => hk.role e a role he)
  | invite uid atts => exact h.on (fun e he => hk.invite e atts he)
  | alldayAdjust uid => exact h.on (fun e he => hk.allday e he)
  | edit uid spec => exact h.on (fun e he => hk.edit spec e hop he)
  | import_ tz c src vs b e cr sync =>
    refine World.All.import_ (parse := fun _ => .ok (some vs)) (text := []) h hk ?_ b e cr sync
    intro _ vs' hp v hv spec hs
    injection hp with hp; injection hp with hp; subst hp
    exact hop v hv spec hs

/-- What new events from allowed specifications satisfy and the methods preserve holds of every event, in
every history whose calls use allowed specifications only. -/
theorem run_all (hk : Keeps A P) (id host : String) (ops : List Op) (hops : ∀ op ∈ ops, op.Uses A) :
    World.All P ((freshWorld id host).run ops) := by
  have : ∀ (w : World), w.All P → World.All P (w.run ops) := by
    induction ops with
    | nil => intro w h; exact h
    | cons op rest ih =>
      intro w h
      exact ih (fun op hop => hops op (.tail _ hop)) _ (h.step hk (hops op (.head _)))
  exact this _ (by intro k e hk; simp [freshWorld] at hk)

end CalCore
