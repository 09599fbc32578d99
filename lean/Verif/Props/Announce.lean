import Verif.Props.Participation
/- What a client learns from the notifications (C104, C105). -/
namespace CalCore
open Spec

/-- The event that a notification is about. -/
def Note.about : Note → Uid
  | .created u => u
  | .deleted u => u
  | .modified u => u
  | .participation u _ _ _ => u

/-- The notifications sent between two worlds. -/
def sent (w w' : World) : List Note := w'.log.drop w.log.length

/-- Everything that happened between two worlds was announced: the log was only extended, and an event without
notification is as before. -/
def Told (w w' : World) : Prop :=
  ∃ notes, w'.log = w.log ++ notes ∧
    ∀ u, (∀ n ∈ notes, n.about ≠ u) → Dict.get? w'.store.events u = Dict.get? w.store.events u

theorem Told.refl (w : World) : Told w w := ⟨[], by simp, fun _ _ => rfl⟩

theorem Told.trans {a b c : World} (h : Told a b) (h' : Told b c) : Told a c := by
  obtain ⟨n, h1, h2⟩ := h
  obtain ⟨n', h1', h2'⟩ := h'
  refine ⟨n ++ n', by rw [h1', h1, List.append_assoc], fun u hu => ?_⟩
  rw [h2' u (fun x hx => hu x (List.mem_append_right _ hx)), h2 u (fun x hx => hu x (List.mem_append_left _ hx))]

theorem told_set {w : World} {u : Uid} {e : Event} {notes : List Note}
    (h : Dict.get? w.store.events u = some e ∨ ∃ n ∈ notes, n.about = u) :
    Told w { store := { w.store with events := Dict.set w.store.events u e }, log := w.log ++ notes } := by
  refine ⟨notes, rfl, fun x hx => ?_⟩
  simp only []
  rw [Dict.get?_set]
  split
  · rename_i hux
    subst hux
    rcases h with h | ⟨n, hn, ha⟩
    · exact h.symm
    · exact absurd ha (hx n hn)
  · rfl

theorem created_told (w : World) (now : Int) (uid : Option Uid) (spec : Spec) : Told w (w.createEvent now uid spec).1 := by
  rcases w.createEvent_eq now uid spec with ⟨f, _, h⟩ | ⟨e, hn, hu, h⟩
  · rw [h]; exact .refl _
  · rw [h]; exact told_set (Or.inr ⟨_, List.mem_singleton.2 rfl, rfl⟩)

theorem deleted_told (w : World) (uid : Uid) : Told w (w.deleteEvent uid).1 := by
  rcases w.deleteEvent_eq uid with ⟨_, h⟩ | ⟨_, h⟩
  · rw [h]; exact .refl _
  · rw [h]
    refine ⟨[.deleted uid], rfl, fun x hx => ?_⟩
    have : uid ≠ x := hx (.deleted uid) (List.mem_singleton.2 rfl)
    simp only []
    rw [Dict.get?_del, if_neg this]

theorem onEvent_told {w : World} (hw : w.store.WF) {uid : Uid} {f : Event → Event × List Note × Res Unit}
    (hf : ∀ e, e.uid = uid → (f e).2.2 = .ok () → (f e).1 = e ∨ ∃ n ∈ (f e).2.1, n.about = uid)
    (hok : (w.onEvent uid f).2 = .ok ()) : Told w (w.onEvent uid f).1 := by
  unfold World.onEvent at hok ⊢
  cases h : w.store.getEvent uid with
  | error x => exact .refl _
  | ok e =>
    rw [h] at hok
    have hg := Storage.getEvent_ok.1 h
    refine told_set ?_
    rcases hf e (hw.uid _ _ hg) hok with h' | h'
    · left; rw [h']; exact hg
    · exact Or.inr h'

theorem existing_told {w : World} (hw : w.store.WF) (tz : LocalTz) (c : Calendar) (src : Source) (uid : Uid) (v : VEvent)
    (hok : (w.importExisting tz c src uid v).2 = .ok ()) : Told w (w.importExisting tz c src uid v).1 := by
  unfold World.importExisting at hok ⊢
  cases h : w.store.getEvent uid with
  | error x => exact .refl _
  | ok e =>
    rw [h] at hok
    have hg := Storage.getEvent_ok.1 h
    simp only [] at hok ⊢
    cases hs : importSpec tz c src v with
    | error x => exact .refl _
    | ok spec =>
      rw [hs] at hok
      simp only [] at hok ⊢
      cases hm : spec.willModify e with
      | error x => exact .refl _
      | ok m =>
        rw [hm] at hok
        cases m with
        | false => exact .refl _
        | true =>
          simp only [] at hok ⊢
          have hu := setOnObject_uid spec e
          rcases hso : spec.setOnObject e with ⟨e', r⟩
          rw [hso] at hok hu
          cases r with
          | error x => cases hok
          | ok _ =>
            simp only [] at hu ⊢
            exact told_set (Or.inr ⟨_, List.mem_singleton.2 rfl, by
              show e'.uid = uid
              rw [hu]; exact hw.uid _ _ hg⟩)

theorem new_told (w : World) (tz : LocalTz) (c : Calendar) (src : Source) (uid : Uid) (v : VEvent) :
    Told w (w.importNew tz c src uid v).1 := by
  unfold World.importNew
  cases importSpec tz c src v with
  | error x => exact .refl _
  | ok spec =>
    have h := created_told w 0 (some uid) spec
    simp only []
    rcases hc : w.createEvent 0 (some uid) spec with ⟨w', r⟩
    rw [hc] at h
    cases r <;> exact h

theorem loop_told (tz : LocalTz) (c : Calendar) (src : Source) (known : List Uid) (vs : List VEvent) :
    ∀ (w : World), w.store.WF → ∀ uids, (World.importLoop tz c src known w vs).2 = .ok uids →
      Told w (World.importLoop tz c src known w vs).1 := by
  induction vs with
  | nil => intro w _ _ _; exact .refl _
  | cons v rest ih =>
    intro w hw uids hok
    unfold World.importLoop at hok ⊢
    cases hv : v.uid with
    | none => exact .refl _
    | some uid =>
      rw [hv] at hok
      simp only [] at hok ⊢
      have hone : ∀ x : World × Res Unit, x = (if uid ∈ known then w.importExisting tz c src uid v
          else if ¬ w.store.hasEvent uid then w.importNew tz c src uid v else (w, .ok ())) → x.2 = .ok () → Told w x.1 ∧ x.1.store.WF := by
        intro x hx hxok
        rw [hx] at hxok ⊢
        split
        · rename_i hk
          rw [if_pos hk] at hxok
          exact ⟨existing_told hw tz c src uid v hxok, (World.importExisting_many w tz c src uid v).wf hw⟩
        · split
          · exact ⟨new_told w tz c src uid v, (World.importNew_many w tz c src uid v).wf hw⟩
          · exact ⟨.refl _, hw⟩
      generalize hx : (if uid ∈ known then w.importExisting tz c src uid v
          else if ¬ w.store.hasEvent uid then w.importNew tz c src uid v else (w, .ok ())) = x at hok ⊢
      have hone := hone x hx.symm
      obtain ⟨w', r⟩ := x
      cases r with
      | error f => cases hok
      | ok _ =>
        obtain ⟨h1, h2⟩ := hone rfl
        simp only [] at hok ⊢ h1 h2
        have ih' := ih w' h2
        rcases hl : World.importLoop tz c src known w' rest with ⟨w'', r⟩
        rw [hl] at hok ih'
        cases r with
        | error f => cases hok
        | ok us => exact h1.trans (ih' us rfl)

theorem remove_told (l : List Uid) : ∀ w : World, Told w (World.removeLoop w l).1 := by
  induction l with
  | nil => intro w; exact .refl _
  | cons uid rest ih =>
    intro w
    unfold World.removeLoop
    cases w.store.getEvent uid with
    | error f => exact .refl _
    | ok e =>
      simp only []
      have h := deleted_told w e.uid
      rcases hd : w.deleteEvent e.uid with ⟨w', r⟩
      rw [hd] at h
      cases r with
      | error f => exact h
      | ok _ => exact h.trans (ih w')

/-- The calls that change an event without telling anybody. -/
def Op.Silent : Op → Prop
  | .setRole .. => True
  | .alldayAdjust .. => True
  | .edit .. => True
  | _ => False

theorem status_told (e : Event) (a : AttId) (st : Option String) (hok : (e.setStatus a st).2.2 = .ok ()) :
    (e.setStatus a st).1 = e ∨ ∃ n ∈ (e.setStatus a st).2.1, n.about = e.uid := by
  by_cases hst : st ∈ statuses
  · cases st with
    | none =>
      rw [setStatus_none] at hok ⊢
      split
      · exact Or.inl rfl
      · split
        · rename_i h1 h2; rw [if_neg h1, if_pos h2] at hok; cases hok
        · exact Or.inr ⟨_, List.mem_singleton.2 rfl, rfl⟩
    | some s =>
      rw [setStatus_some e a s hst]
      split
      · exact Or.inl rfl
      · exact Or.inr ⟨_, List.mem_singleton.2 rfl, rfl⟩
  · rw [C41_invalid e a st hst]; exact Or.inl rfl

theorem invite_told (e : Event) (l : List AttId) :
    (e.invite l).1 = e ∨ ∃ n ∈ (e.invite l).2.1, n.about = e.uid := by
  induction l generalizing e with
  | nil => exact Or.inl rfl
  | cons a rest ih =>
    rw [invite_cons, inviteOne_eq]
    split
    · exact Or.inr ⟨_, List.mem_append_left _ (List.mem_singleton.2 rfl), rfl⟩
    · rcases ih e with h | ⟨n, hn, ha⟩
      · exact Or.inl h
      · exact Or.inr ⟨n, List.mem_append_right _ hn, ha⟩

theorem step_told {w : World} (hw : w.store.WF) {op : Op} (hs : ¬ op.Silent) (hok : (w.step op).2 = .ok ()) :
    Told w (w.step op).1 := by
  cases op with
  | create now uid spec => exact created_told w now uid spec
  | attendeeCreate now a spec => exact created_told w now none _
  | delete uid =>
    unfold World.step
    simp only []
    cases w.store.getEvent uid with
    | error f => exact .refl _
    | ok e => exact deleted_told w e.uid
  | setStatus uid a st =>
    exact onEvent_told hw (fun e he h => he ▸ status_told e a st h) hok
  | setRole uid a role => exact absurd trivial hs
  | invite uid atts => exact onEvent_told hw (fun e he _ => he ▸ invite_told e atts) hok
  | alldayAdjust uid => exact absurd trivial hs
  | edit uid spec => exact absurd trivial hs
  | import_ tz c src vs b e cr sync =>
    unfold World.step World.import_ at hok ⊢
    simp only [] at hok ⊢
    cases hg : c.getEvents src w.store b e cr with
    | error f => exact .refl _
    | ok events =>
      rw [hg] at hok
      simp only [] at hok ⊢
      have hl := loop_told tz c src ((events.map (·.uid)).dedup) vs w hw
      generalize World.importLoop tz c src ((events.map (·.uid)).dedup) w vs = x at hok hl ⊢
      obtain ⟨w', r⟩ := x
      cases r with
      | error f => cases hok
      | ok uids =>
        simp only [] at hok ⊢
        cases sync with
        | true => exact (hl uids rfl).trans (remove_told _ w')
        | false => exact hl uids rfl

/-- C104: a call that returns announces what it changes: the notifications sent by the call name every event that it
added, changed or removed.  Missing: setParticipationRole, alldayAdjust and setOnObject, which change events
silently, and calls that raise; for all of these the statement is false (the counterexamples below). -/
theorem C104_announced_partial (id host : String) (ops : List Op) (op : Op) (hs : ¬ op.Silent) :
    let w := (freshWorld id host).run ops
    (w.step op).2 = .ok () →
      (∃ notes, (w.step op).1.log = w.log ++ notes) ∧
      ∀ u, Dict.get? (w.step op).1.store.events u ≠ Dict.get? w.store.events u → ∃ n ∈ sent w (w.step op).1, n.about = u := by
  intro w hok
  obtain ⟨notes, h1, h2⟩ := step_told (run_wf id host ops) hs hok
  refine ⟨⟨notes, h1⟩, fun u hu => ?_⟩
  by_contra hno
  refine hu (h2 u (fun n hn ha => hno ⟨n, ?_, ha⟩))
  unfold sent
  rw [h1, List.drop_left]
  exact hn

/-- A client that keeps a copy of the events and reads those again about which it is notified by a call. -/
def followStep (w w' : World) (copy : Uid → Option Event) : Uid → Option Event :=
  fun u => if (sent w w').any (fun n => decide (n.about = u)) then Dict.get? w'.store.events u else copy u

/-- The copy of the client at the end of a history. -/
def follow : World → (Uid → Option Event) → List Op → (Uid → Option Event)
  | _, copy, [] => copy
  | w, copy, op :: rest => follow (w.step op).1 (followStep w (w.step op).1 copy) rest

/-- None of the calls is silent, and all return. -/
def Loud : World → List Op → Prop
  | _, [] => True
  | w, op :: rest => ¬ op.Silent ∧ (w.step op).2 = .ok () ∧ Loud (w.step op).1 rest

/-- C104: in a history without silent calls in which all calls return, such a client has a copy of the store. -/
theorem C104_replica_partial (id host : String) (ops : List Op) (h : Loud (freshWorld id host) ops) (u : Uid) :
    follow (freshWorld id host) (fun _ => none) ops u = Dict.get? ((freshWorld id host).run ops).store.events u := by
  have key : ∀ (ops : List Op) (w : World) (copy : Uid → Option Event), w.store.WF →
      (∀ u, copy u = Dict.get? w.store.events u) → Loud w ops →
      ∀ u, follow w copy ops u = Dict.get? (w.run ops).store.events u := by
    intro ops
    induction ops with
    | nil => intro w copy _ hc _ u; exact hc u
    | cons op rest ih =>
      intro w copy hw hc hl u
      obtain ⟨hs, hok, hl⟩ := hl
      refine ih (w.step op).1 _ ((w.step_many op).wf hw) (fun u => ?_) hl u
      obtain ⟨notes, h1, h2⟩ := step_told hw hs hok
      unfold followStep
      split
      · rfl
      · rename_i hno
        rw [hc, h2 u]
        intro n hn ha
        refine hno (List.any_eq_true.2 ⟨n, ?_, by simpa using ha⟩)
        unfold sent
        rw [h1, List.drop_left]
        exact hn
  exact key ops _ _ (freshWorld_wf id host) (fun _ => by simp [freshWorld]) h u

/-- C104, concrete: the sample history is loud but for its edits. -/
example : Loud (freshWorld "st" "host")
    [.create 0 (some "m") { dtstart := Sample.day, duration := some Sample.HOUR, organizer := some "alice" },
     .invite "m" ["bob", "carol"], .setStatus "m" "bob" (some "ACCEPTED"), .setStatus "m" "carol" none,
     .import_ (fun _ => 0) [("alice", ())] [("alice", ⟨"Alice", "INDIVIDUAL"⟩)]
        [{ uid := some "i", dtstart := some (.naive Sample.day), duration := some Sample.HOUR }] none none none true] := by
  refine ⟨id, by decide +kernel, id, by decide +kernel, id, by decide +kernel, id, by decide +kernel, id,
    by decide +kernel, trivial⟩

/-- C104 is false for `setOnObject`, `alldayAdjust` and `setParticipationRole`: the calls return, the event changes,
nothing is sent. -/
theorem C104_silent_counterexample :
    (∀ op ∈ [Op.edit "m" { dtstart := Sample.day, duration := some Sample.HOUR }, .alldayAdjust "m", .setRole "m" "bob" "CHAIR"],
      (Sample.world.step op).2 = .ok () ∧ sent Sample.world (Sample.world.step op).1 = [] ∧
      Dict.get? (Sample.world.step op).1.store.events "m" ≠ Dict.get? Sample.world.store.events "m") := by
  decide +kernel

/-- C104 is false for calls that raise: dave, uninvited, accepts; removing dave raises, but the event has changed and
nothing is sent. -/
theorem C104_raise_counterexample :
    let w := (Sample.world.step (.setStatus "m" "dave" (some "ACCEPTED"))).1
    let op := Op.setStatus "m" "dave" none
    (w.step op).2 = raise .KeyError ∧ sent w (w.step op).1 = [] ∧
      Dict.get? (w.step op).1.store.events "m" ≠ Dict.get? w.store.events "m" := by
  decide +kernel

/-! ### C105 -/

/-- The changes of status of a person at an event, as told by a list of notifications. -/
def changes (u : Uid) (a : AttId) : List Note → List (Option String × Option String)
  | [] => []
  | .participation u' a' old new :: rest => if u' = u ∧ a' = a then (old, new) :: changes u a rest else changes u a rest
  | _ :: rest => changes u a rest

/-- The changes lead from one status to another: each starts where the last one ended, and none is idle. -/
def Leads : Option String → List (Option String × Option String) → Option String → Prop
  | s, [], t => s = t
  | s, (old, new) :: rest, t => old = s ∧ new ≠ old ∧ Leads new rest t

theorem changes_append (u : Uid) (a : AttId) (l l' : List Note) : changes u a (l ++ l') = changes u a l ++ changes u a l' := by
  induction l with
  | nil => rfl
  | cons n rest ih =>
    cases n <;> simp only [List.cons_append, changes, ih]
    split <;> rfl

theorem Leads.append {s t v : Option String} {l l' : List (Option String × Option String)}
    (h : Leads s l t) (h' : Leads t l' v) : Leads s (l ++ l') v := by
  induction l generalizing s with
  | nil => simp only [Leads] at h; subst h; exact h'
  | cons c rest ih => exact ⟨h.1, h.2.1, ih h.2.2⟩

theorem changes_other {u u' : Uid} (a : AttId) {l : List Note} (h : ∀ n ∈ l, n.about = u') (hu : u' ≠ u) : changes u a l = [] := by
  induction l with
  | nil => rfl
  | cons n rest ih =>
    have ih := ih (fun x hx => h x (List.mem_cons_of_mem _ hx))
    have hn := h n (List.mem_cons_self ..)
    cases n with
    | participation x y o w =>
      have hx : x ≠ u := fun hx => hu (hn.symm.trans hx)
      simp [changes, ih, hx]
    | _ => simp [changes, ih]

/-- The status of a person at a stored event, `None` without the event. -/
def statusIn (w : World) (u : Uid) (a : AttId) : Option String :=
  (Dict.get? w.store.events u).bind (·.getStatus a)

theorem status_leads (e : Event) (b : AttId) (st : Option String) (hok : (e.setStatus b st).2.2 = .ok ()) (a : AttId) :
    Leads (e.getStatus a) (changes e.uid a (e.setStatus b st).2.1) ((e.setStatus b st).1.getStatus a) := by
  obtain ⟨h1, h2, _, h4⟩ := C41_notify_partial e b st hok
  rw [h2]
  by_cases hab : a = b
  · subst hab
    rw [h1]
    split
    · rename_i h; exact h
    · rename_i h; simp only [changes, and_self, if_true, Leads, true_and, and_true]; exact fun x => h x.symm
  · rw [(h4 a hab).1]
    split
    · exact rfl
    · simp only [changes, true_and]; rw [if_neg (fun h => hab h.symm)]; exact rfl

theorem invite_leads (l : List AttId) (a : AttId) : ∀ e : Event,
    Leads (e.getStatus a) (changes e.uid a (e.invite l).2.1) ((e.invite l).1.getStatus a) := by
  induction l with
  | nil => intro e; exact rfl
  | cons b rest ih =>
    intro e
    rw [invite_cons, inviteOne_eq]
    split
    · rename_i hb
      simp only [changes_append]
      refine Leads.append ?_ (ih { e with
        pstate := Dict.set e.pstate b "NEEDS-ACTION", prole := Dict.set e.prole b "REQ-PARTICIPANT" })
      show Leads _ _ (Dict.get? (Dict.set e.pstate b "NEEDS-ACTION") a)
      rw [Dict.get?_set]
      by_cases hab : b = a
      · subst hab
        simp [changes, Leads, hb]
      · simp [changes, hab, Leads, Event.getStatus]
    · exact ih e

/-- The calls that deal with the participation in stored events. -/
def Op.Social : Op → Prop
  | .setStatus .. => True
  | .setRole .. => True
  | .invite .. => True
  | .alldayAdjust .. => True
  | _ => False

theorem onEvent_leads {w : World} (hw : w.store.WF) {uid : Uid} {f : Event → Event × List Note × Res Unit} {a : AttId}
    (hf : ∀ e, (f e).2.2 = .ok () → Leads (e.getStatus a) (changes e.uid a (f e).2.1) ((f e).1.getStatus a))
    (habout : ∀ e, ∀ n ∈ (f e).2.1, n.about = e.uid)
    (hok : (w.onEvent uid f).2 = .ok ()) (u : Uid) :
    ∃ notes, (w.onEvent uid f).1.log = w.log ++ notes ∧
      Leads (statusIn w u a) (changes u a notes) (statusIn (w.onEvent uid f).1 u a) := by
  unfold World.onEvent at hok ⊢
  cases h : w.store.getEvent uid with
  | error x => exact ⟨[], by simp, rfl⟩
  | ok e =>
    rw [h] at hok
    have hg := Storage.getEvent_ok.1 h
    refine ⟨(f e).2.1, rfl, ?_⟩
    unfold statusIn
    simp only []
    rw [Dict.get?_set]
    by_cases hu : uid = u
    · subst hu
      rw [if_pos rfl, hg]
      have := hf e hok
      rw [hw.uid _ _ hg] at this
      exact this
    · rw [if_neg hu, changes_other a (u' := uid) (fun n hn => by rw [habout e n hn, hw.uid _ _ hg]) hu]
      exact rfl

/-- All calls deal with participation and return. -/
def SocialRun : World → List Op → Prop
  | _, [] => True
  | w, op :: rest => op.Social ∧ (w.step op).2 = .ok () ∧ SocialRun (w.step op).1 rest

theorem status_about (e : Event) (a : AttId) (st : Option String) : ∀ n ∈ (e.setStatus a st).2.1, n.about = e.uid := by
  by_cases hst : st ∈ statuses
  · cases st with
    | none =>
      rw [setStatus_none]
      split
      · simp
      · split
        · simp
        · simp [Note.about]
    | some s =>
      rw [setStatus_some e a s hst]
      split <;> simp [Note.about]
  · rw [C41_invalid e a st hst]; simp

theorem invite_about (l : List AttId) : ∀ e : Event, ∀ n ∈ (e.invite l).2.1, n.about = e.uid := by
  induction l with
  | nil => intro e n hn; cases hn
  | cons b rest ih =>
    intro e n hn
    rw [invite_cons, inviteOne_eq] at hn
    split at hn
    · simp only [List.mem_append, List.mem_singleton] at hn
      rcases hn with hn | hn
      · rw [hn]; rfl
      · exact ih { e with
          pstate := Dict.set e.pstate b "NEEDS-ACTION", prole := Dict.set e.prole b "REQ-PARTICIPANT" } n hn
    · exact ih e n hn

theorem social_step {w : World} (hw : w.store.WF) {op : Op} (hs : op.Social) (hok : (w.step op).2 = .ok ()) (u : Uid) (a : AttId) :
    ∃ notes, (w.step op).1.log = w.log ++ notes ∧
      Leads (statusIn w u a) (changes u a notes) (statusIn (w.step op).1 u a) := by
  cases op with
  | setStatus uid b st =>
    exact onEvent_leads hw (fun e h => status_leads e b st h a) (fun e => status_about e b st) hok u
  | invite uid l => exact onEvent_leads hw (fun e _ => invite_leads l a e) (fun e => invite_about l e) hok u
  | setRole uid b role =>
    refine onEvent_leads hw (fun e h => ?_) (fun e n hn => ?_) hok u
    · have : ((e.setRole b role).1).getStatus a = e.getStatus a := by
        unfold Event.setRole; split <;> rfl
      simp only [] at this ⊢
      rw [this]; exact rfl
    · simp at hn
  | alldayAdjust uid =>
    exact onEvent_leads hw (fun e _ => by simp only []; exact rfl) (fun e n hn => by simp at hn) hok u
  | _ => exact hs.elim

/-- C105: after any history, while the calls deal with participation and return, the notifications about a person at
an event form a chain of changes, from the status at the beginning to the status at the end, each different from the
last.  Missing: calls that raise (`C105_gap_counterexample`). -/
theorem C105_chain_partial (id host : String) (before after : List Op) (u : Uid) (a : AttId) :
    let w := (freshWorld id host).run before
    SocialRun w after →
      Leads (statusIn w u a) (changes u a (sent w (w.run after))) (statusIn (w.run after) u a) := by
  intro w hs
  have key : ∀ (ops : List Op) (w : World), w.store.WF → SocialRun w ops →
      ∃ notes, (w.run ops).log = w.log ++ notes ∧ Leads (statusIn w u a) (changes u a notes) (statusIn (w.run ops) u a) := by
    intro ops
    induction ops with
    | nil => intro w _ _; exact ⟨[], by simp [World.run], rfl⟩
    | cons op rest ih =>
      intro w hw hs
      obtain ⟨h1, h2, h3⟩ := hs
      obtain ⟨n, hn, hl⟩ := social_step hw h1 h2 u a
      obtain ⟨n', hn', hl'⟩ := ih (w.step op).1 ((w.step_many op).wf hw) h3
      refine ⟨n ++ n', ?_, ?_⟩
      · show ((w.step op).1.run rest).log = _
        rw [hn', hn, List.append_assoc]
      · rw [changes_append]; exact hl.append hl'
  obtain ⟨notes, hn, hl⟩ := key after w (run_wf id host before) hs
  unfold sent
  rw [hn, List.drop_left]
  exact hl

/-- C105, concrete: invited, accepted, role changed, accepted again, removed, invited again. -/
example :
    let after := [Op.invite "m" ["dave"], .setStatus "m" "dave" (some "ACCEPTED"), .setRole "m" "dave" "CHAIR",
      .setStatus "m" "dave" (some "ACCEPTED"), .setStatus "m" "dave" none, .invite "m" ["dave", "dave"]]
    SocialRun ((freshWorld "st" "host").run Sample.ops) after ∧
    changes "m" "dave" (sent Sample.world (Sample.world.run after)) =
      [(none, some "NEEDS-ACTION"), (some "NEEDS-ACTION", some "ACCEPTED"), (some "ACCEPTED", none),
       (none, some "NEEDS-ACTION")] := by
  refine ⟨⟨trivial, by decide +kernel, trivial, by decide +kernel, trivial, by decide +kernel, trivial, by decide +kernel,
    trivial, by decide +kernel, trivial, by decide +kernel, trivial⟩, by decide +kernel⟩

/-- C105 is false when calls raise: dave, uninvited, accepts, is removed (which raises) and accepts again: two
notifications say that the status of dave changed from `None`. -/
theorem C105_gap_counterexample :
    let after := [Op.setStatus "m" "dave" (some "ACCEPTED"), .setStatus "m" "dave" none, .setStatus "m" "dave" (some "DECLINED")]
    changes "m" "dave" (sent Sample.world (Sample.world.run after)) =
      [(none, some "ACCEPTED"), (none, some "DECLINED")] := by
  decide +kernel

end CalCore
