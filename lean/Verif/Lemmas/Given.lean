import Verif.Lemmas.ImportMany
/- What holds of the stored events of a history whose calls are given good data. -/
namespace CalCore

/-- The data of a call satisfy conditions: `C` for the specification of a new event, `E` for one that is set on an
event, both for those that an import makes. -/
def GivenCall (C E : Spec → Prop) : Op → Prop
  | .create _ _ spec => C spec
  | .attendeeCreate _ a spec => C { spec with organizer := some a }
  | .edit _ spec => E spec
  | .import_ tz c src vs _ _ _ _ => ∀ v ∈ vs, ∀ spec, importSpec tz c src v = .ok spec → C spec ∧ E spec
  | _ => True

/-- If new events made from good data have the property, if setting good data makes the property, and if the other
methods of events keep it, then every stored event has it after every call with good data. -/
theorem step_given {P : Event → Prop} {C E : Spec → Prop}
    (hnew : ∀ uid spec e, C spec → newEvent uid spec = .ok e → P e)
    (hset : ∀ spec e, E spec → P e → P (spec.setOnObject e).1)
    (hstatus : ∀ e a st, P e → P (Event.setStatus e a st).1)
    (hrole : ∀ e a role, P e → P (Event.setRole e a role).1)
    (hinvite : ∀ e l, P e → P (Event.invite e l).1)
    (hadjust : ∀ e, P e → P e.alldayAdjust)
    {w : World} {op : Op} (hop : GivenCall C E op) (hw : ∀ k e, Dict.get? w.store.events k = some e → P e) :
    ∀ k e, Dict.get? (w.step op).1.store.events k = some e → P e := by
  have hon : ∀ (u : Uid) (f : Event → Event × List Note × Res Unit), (∀ e, P e → P (f e).1) →
      ∀ k e, Dict.get? (w.onEvent u f).1.store.events k = some e → P e := by
    intro u f hf k e hk
    unfold World.onEvent at hk
    cases hg : w.store.getEvent u with
    | error x => rw [hg] at hk; exact hw k e hk
    | ok e0 =>
      rw [hg] at hk
      have hge := Storage.getEvent_ok.1 hg
      simp only [Dict.get?_set] at hk
      split at hk
      · injection hk with hk; rw [← hk]; exact hf e0 (hw u e0 hge)
      · exact hw k e hk
  have hcreate : ∀ (now : Int) (uid : Option Uid) (spec : Spec), C spec →
      ∀ k e, Dict.get? (w.createEvent now uid spec).1.store.events k = some e → P e := by
    intro now uid spec hs k e hk
    rcases w.createEvent_eq now uid spec with ⟨f, _, h'⟩ | ⟨e0, hn, _, h'⟩
    · rw [h'] at hk; exact hw k e hk
    · rw [h'] at hk
      simp only [Dict.get?_set] at hk
      split at hk
      · injection hk with hk; rw [← hk]; exact hnew _ _ _ hs hn
      · exact hw k e hk
  cases op with
  | create now uid spec => exact hcreate now uid spec hop
  | attendeeCreate now a spec => exact hcreate now none _ hop
  | delete uid =>
    intro k e hk
    unfold World.step at hk
    simp only [] at hk
    cases hg : w.store.getEvent uid with
    | error x => rw [hg] at hk; exact hw k e hk
    | ok e0 =>
      rw [hg] at hk
      simp only [] at hk
      rcases w.deleteEvent_eq e0.uid with ⟨_, h'⟩ | ⟨_, h'⟩
      · rw [h'] at hk; exact hw k e hk
      · rw [h'] at hk
        simp only [Dict.get?_del] at hk
        split at hk
        · cases hk
        · exact hw k e hk
  | setStatus uid a st => exact hon uid _ (fun e he => hstatus e a st he)
  | setRole uid a role => exact hon uid _ (fun e he => hrole e a role he)
  | invite uid atts => exact hon uid _ (fun e he => hinvite e atts he)
  | alldayAdjust uid => exact hon uid _ (fun e he => hadjust e he)
  | edit uid spec => exact hon uid _ (fun e he => hset spec e hop he)
  | import_ tz c src vs b e cr sync =>
    have hm := w.import_importMany (Q := fun s => C s ∧ E s) (fun _ => .ok (some vs)) tz c src [] b e cr sync (by
      intro vs' hvs v hv spec hspec
      injection hvs with hvs
      injection hvs with hvs
      subst hvs
      exact hop v hv spec hspec)
    refine hm.preserves (P := fun w => ∀ k e, Dict.get? w.store.events k = some e → P e) ?_ hw
    intro w w' hs hw k e' hk
    cases hs with
    | create uid spec e hq he =>
      simp only [Dict.get?_set] at hk
      split at hk
      · injection hk with hk; subst hk; exact hnew _ _ _ hq.1 he
      · exact hw k e' hk
    | update uid e spec notes hq hg hn =>
      simp only [Dict.get?_set] at hk
      split at hk
      · injection hk with hk; subst hk; exact hset _ _ hq.2 (hw uid e hg)
      · exact hw k e' hk
    | delete uid hh =>
      simp only [Dict.get?_del] at hk
      split at hk
      · cases hk
      · exact hw k e' hk

/-- The same for histories. -/
theorem run_given {P : Event → Prop} {C E : Spec → Prop}
    (hnew : ∀ uid spec e, C spec → newEvent uid spec = .ok e → P e)
    (hset : ∀ spec e, E spec → P e → P (spec.setOnObject e).1)
    (hstatus : ∀ e a st, P e → P (Event.setStatus e a st).1)
    (hrole : ∀ e a role, P e → P (Event.setRole e a role).1)
    (hinvite : ∀ e l, P e → P (Event.invite e l).1)
    (hadjust : ∀ e, P e → P e.alldayAdjust)
    (ops : List Op) (w : World) (hops : ∀ op ∈ ops, GivenCall C E op)
    (hw : ∀ k e, Dict.get? w.store.events k = some e → P e) :
    ∀ k e, Dict.get? (w.run ops).store.events k = some e → P e := by
  induction ops generalizing w with
  | nil => exact hw
  | cons op rest ih =>
    exact ih _ (fun x hx => hops x (List.mem_cons_of_mem _ hx))
      (step_given hnew hset hstatus hrole hinvite hadjust (hops op (List.mem_cons_self ..)) hw)

end CalCore
