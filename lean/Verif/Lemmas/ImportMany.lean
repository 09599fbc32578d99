import Verif.Lemmas.Store
/- The elementary changes made by an import: creation of events, assignment of specifications to events,
deletion of events. -/
namespace CalCore

/-- One elementary change made by an import. -/
inductive World.ImportSmall (Q : Spec → Prop) : World → World → Prop
  | create (w : World) (uid : Uid) (spec : Spec) (e : Event) (hq : Q spec) (h : newEvent uid spec = .ok e) :
      ImportSmall Q w { store := { w.store with events := Dict.set w.store.events uid e }
                        log := w.log ++ [.created uid] }
  | update (w : World) (uid : Uid) (e : Event) (spec : Spec) (notes : List Note) (hq : Q spec)
      (h : Dict.get? w.store.events uid = some e) (hn : ∀ n ∈ notes, n.inner) :
      ImportSmall Q w { store := { w.store with events := Dict.set w.store.events uid (spec.setOnObject e).1 }
                        log := w.log ++ notes }
  | delete (w : World) (uid : Uid) (h : Dict.has w.store.events uid = true) :
      ImportSmall Q w { store := { w.store with events := Dict.del w.store.events uid }
                        log := w.log ++ [.deleted uid] }

/-- A sequence of such changes. -/
inductive World.ImportMany (Q : Spec → Prop) : World → World → Prop
  | refl (w : World) : ImportMany Q w w
  | tail (w w' w'' : World) (h : ImportMany Q w w') (h' : World.ImportSmall Q w' w'') : ImportMany Q w w''

variable {Q : Spec → Prop}

theorem World.ImportSmall.importMany {w w' : World} (h : World.ImportSmall Q w w') : World.ImportMany Q w w' :=
  .tail _ _ _ (.refl _) h

theorem World.ImportMany.trans {a b c : World} (h : World.ImportMany Q a b) (h' : World.ImportMany Q b c) :
    World.ImportMany Q a c := by
  induction h' with
  | refl => exact h
  | tail w' w'' _ hs ih => exact .tail _ _ _ ih hs

theorem World.ImportMany.preserves {P : World → Prop} (hP : ∀ w w', World.ImportSmall Q w w' → P w → P w')
    {w w' : World} (h : World.ImportMany Q w w') (h0 : P w) : P w' := by
  induction h with
  | refl => exact h0
  | tail w' w'' _ hs ih => exact hP _ _ hs ih

theorem World.createEvent_importMany (w : World) (now : DateTime) (uid : Option Uid) (spec : Spec) (hq : Q spec) :
    World.ImportMany Q w (w.createEvent now uid spec).1 := by
  rcases w.createEvent_eq now uid spec with ⟨f, _, h⟩ | ⟨e, hn, hu, h⟩
  · rw [h]; exact .refl _
  · rw [h]; rw [← hu] at hn; exact (World.ImportSmall.create w e.uid spec e hq hn).importMany

theorem World.deleteEvent_importMany (w : World) (uid : Uid) : World.ImportMany Q w (w.deleteEvent uid).1 := by
  rcases w.deleteEvent_eq uid with ⟨_, h⟩ | ⟨hh, h⟩
  · rw [h]; exact .refl _
  · rw [h]; exact (World.ImportSmall.delete w uid hh).importMany

theorem World.importExisting_importMany (w : World) (tz : LocalTz) (c : Calendar) (src : Source) (uid : Uid)
    (v : VEvent) (hq : ∀ spec, importSpec tz c src v = .ok spec → Q spec) :
    World.ImportMany Q w (w.importExisting tz c src uid v).1 := by
  unfold World.importExisting
  cases h : w.store.getEvent uid with
  | error f => exact .refl _
  | ok e =>
    simp only []
    cases hsp : importSpec tz c src v with
    | error f => exact .refl _
    | ok spec =>
      simp only []
      cases spec.willModify e with
      | error f => exact .refl _
      | ok b =>
        cases b with
        | false => exact .refl _
        | true =>
          cases hs : spec.setOnObject e with
          | mk e' r =>
            have hu : (spec.setOnObject e).1 = e' := by rw [hs]
            subst hu
            have hg := Storage.getEvent_ok.1 h
            cases r with
            | error f =>
              have := (World.ImportSmall.update w uid e spec [] (hq spec hsp) hg (by simp)).importMany
              simpa using this
            | ok _ =>
              exact (World.ImportSmall.update w uid e spec [.modified _] (hq spec hsp) hg (by simp [Note.inner])).importMany

theorem World.importNew_importMany (w : World) (tz : LocalTz) (c : Calendar) (src : Source) (uid : Uid)
    (v : VEvent) (hq : ∀ spec, importSpec tz c src v = .ok spec → Q spec) :
    World.ImportMany Q w (w.importNew tz c src uid v).1 := by
  unfold World.importNew
  cases hsp : importSpec tz c src v with
  | error f => exact .refl _
  | ok spec =>
    have := w.createEvent_importMany 0 (some uid) spec (hq spec hsp)
    simp only []
    split
    · rename_i h; rw [h] at this; exact this
    · rename_i h; rw [h] at this; exact this

theorem World.importOne_importMany (w : World) (tz : LocalTz) (c : Calendar) (src : Source) (known : List Uid)
    (uid : Uid) (v : VEvent) (hq : ∀ spec, importSpec tz c src v = .ok spec → Q spec) : World.ImportMany Q w (w.importOne tz c src known uid v).1 := by
  unfold World.importOne
  split
  · exact w.importExisting_importMany _ _ _ _ _ hq
  · split
    · exact w.importNew_importMany _ _ _ _ _ hq
    · exact .refl _

theorem World.importLoop_importMany (tz : LocalTz) (c : Calendar) (src : Source) (known : List Uid) (w : World)
    (vs : List VEvent) (hq : ∀ v ∈ vs, ∀ spec, importSpec tz c src v = .ok spec → Q spec) : World.ImportMany Q w (World.importLoop tz c src known w vs).1 := by
  induction vs generalizing w with
  | nil => exact .refl _
  | cons v rest ih =>
    rw [World.importLoop_cons]
    cases v.uid with
    | none => exact .refl _
    | some uid =>
      have h1 := w.importOne_importMany tz c src known uid v (hq v (List.mem_cons_self ..))
      simp only []
      cases h : w.importOne tz c src known uid v with
      | mk w' r =>
        rw [h] at h1
        cases r with
        | error f => exact h1
        | ok _ =>
          have h2 := ih w' (fun x hx => hq x (List.mem_cons_of_mem _ hx))
          simp only []
          cases h' : World.importLoop tz c src known w' rest with
          | mk w'' r' =>
            rw [h'] at h2
            cases r' with
            | error f => exact h1.trans h2
            | ok _ => exact h1.trans h2

theorem World.removeLoop_importMany (w : World) (l : List Uid) : World.ImportMany Q w (World.removeLoop w l).1 := by
  induction l generalizing w with
  | nil => exact .refl _
  | cons uid rest ih =>
    unfold World.removeLoop
    cases w.store.getEvent uid with
    | error f => exact .refl _
    | ok e =>
      have h1 := w.deleteEvent_importMany (Q := Q) e.uid
      simp only []
      cases h : w.deleteEvent e.uid with
      | mk w' r =>
        rw [h] at h1
        cases r with
        | error f => exact h1
        | ok _ => exact h1.trans (ih w')

theorem World.import_importMany (w : World) (parse : List Char → Res (Option (List VEvent))) (tz : LocalTz)
    (c : Calendar) (src : Source) (text : List Char) (b e : Option DateTime) (cr : Option Criteria)
    (sync : Bool) (hq : ∀ vs, parse (repairText text) = .ok (some vs) →
      ∀ v ∈ vs, ∀ spec, importSpec tz c src v = .ok spec → Q spec) : World.ImportMany Q w (w.import_ parse tz c src text b e cr sync).1 := by
  unfold World.import_
  simp only []
  cases c.getEvents src w.store b e cr with
  | error f => exact .refl _
  | ok events =>
    simp only []
    cases hp : parse (repairText text) with
    | error f => exact .refl _
    | ok o =>
      cases o with
      | none => exact .refl _
      | some vs =>
        simp only []
        have h1 := World.importLoop_importMany tz c src (events.map (·.uid)).dedup w vs (hq vs hp)
        cases h : World.importLoop tz c src (events.map (·.uid)).dedup w vs with
        | mk w' r =>
          rw [h] at h1
          cases r with
          | error f => exact h1
          | ok uids =>
            simp only []
            split
            · exact h1.trans (World.removeLoop_importMany _ _)
            · exact h1

end CalCore
