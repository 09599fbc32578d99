import Verif.Props.Interference
import Verif.Props.Announce
/- C108: every event has its own history. -/
namespace CalCore
open Spec

/-- The calls with their outcomes. -/
def World.outcomes (w : World) : List Op → List (Op × Res Unit)
  | [] => []
  | op :: rest => (op, (w.step op).2) :: World.outcomes (w.step op).1 rest

/-- The calls about an event. -/
def callsAbout (u : Uid) (ops : List Op) : List Op := ops.filter (fun op => opTarget op = some u)

/-- The notifications about an event. -/
def notesAbout (u : Uid) (l : List Note) : List Note := l.filter (fun n => n.about = u)

theorem notes_onEvent {w : World} (hw : w.store.WF) {uid : Uid} {f : Event → Event × List Note × Res Unit}
    (hf : ∀ e, ∀ n ∈ (f e).2.1, n.about = e.uid) :
    (w.onEvent uid f).1.log = w.log ++ (match w.store.map uid with | none => [] | some e => (f e).2.1) ∧
    ∀ n ∈ (match w.store.map uid with | none => [] | some e => (f e).2.1), n.about = uid := by
  unfold World.onEvent
  cases h : w.store.getEvent uid with
  | error x =>
    have : w.store.map uid = none := by
      show Dict.get? w.store.events uid = none
      cases hg : Dict.get? w.store.events uid with
      | none => rfl
      | some e => rw [Storage.getEvent_ok.2 hg] at h; cases h
    rw [this]
    simp
  | ok e =>
    have hg := Storage.getEvent_ok.1 h
    have : w.store.map uid = some e := hg
    rw [this]
    exact ⟨rfl, fun n hn => by rw [hf e n hn]; exact hw.uid _ _ hg⟩

/-- A call with a target sends notifications about its target only, and which depends only on the target. -/
theorem notes_local {op : Op} {u : Uid} (h : opTarget op = some u) :
    ∃ G : Option Event → List Note, ∀ w : World, w.store.WF →
      (w.step op).1.log = w.log ++ G (w.store.map u) ∧ ∀ n ∈ G (w.store.map u), n.about = u := by
  cases op with
  | create now uid spec =>
    unfold opTarget at h
    simp only [] at h
    subst h
    refine ⟨fun _ => match newEvent u spec with | .ok _ => [.created u] | .error _ => [], fun w _ => ?_⟩
    show (dropRes (w.createEvent now (some u) spec)).1.log = _ ∧ _
    rcases w.createEvent_eq now (some u) spec with ⟨f, hn, h⟩ | ⟨e, hn, hu, h⟩
    · rw [h]
      simp only [Option.getD_some] at hn
      rw [hn]
      simp [dropRes]
    · rw [h]
      simp only [Option.getD_some] at hn hu
      rw [hn, hu]
      simp [dropRes, Note.about]
  | attendeeCreate now a spec => cases h
  | delete uid =>
    injection h with h; subst h
    refine ⟨fun x => match x with | none => [] | some _ => [.deleted uid], fun w hw => ?_⟩
    unfold World.step
    simp only []
    cases hg : Dict.get? w.store.events uid with
    | none =>
      have hm : w.store.map uid = none := hg
      have : ∃ f, w.store.getEvent uid = .error f := by
        cases h : w.store.getEvent uid with
        | error f => exact ⟨f, rfl⟩
        | ok e => rw [Storage.getEvent_ok.1 h] at hg; cases hg
      obtain ⟨f, this⟩ := this
      rw [this, hm]
      simp
    | some e =>
      have hm : w.store.map uid = some e := hg
      rw [Storage.getEvent_ok.2 hg, hm]
      simp only []
      rw [hw.uid _ _ hg]
      rcases w.deleteEvent_eq uid with ⟨h, _⟩ | ⟨_, h⟩
      · rw [Dict.has_eq, hg] at h; cases h
      · rw [h]; simp [Note.about]
  | setStatus uid a st =>
    injection h with h; subst h
    exact ⟨fun x => match x with | none => [] | some e => (e.setStatus a st).2.1,
      fun w hw => notes_onEvent hw (fun e => status_about e a st)⟩
  | setRole uid a role =>
    injection h with h; subst h
    exact ⟨fun x => match x with | none => [] | some _ => [],
      fun w hw => notes_onEvent (f := fun e => ((e.setRole a role).1, [], (e.setRole a role).2)) hw (fun e n hn => by cases hn)⟩
  | invite uid atts =>
    injection h with h; subst h
    exact ⟨fun x => match x with | none => [] | some e => (e.invite atts).2.1,
      fun w hw => notes_onEvent hw (fun e => invite_about atts e)⟩
  | alldayAdjust uid =>
    injection h with h; subst h
    exact ⟨fun x => match x with | none => [] | some _ => [],
      fun w hw => notes_onEvent (f := fun e => (e.alldayAdjust, [], .ok ())) hw (fun e n hn => by cases hn)⟩
  | edit uid spec =>
    injection h with h; subst h
    exact ⟨fun x => match x with | none => [] | some _ => [],
      fun w hw => notes_onEvent (f := fun e => ((spec.setOnObject e).1, [], (spec.setOnObject e).2)) hw (fun e n hn => by cases hn)⟩
  | import_ => cases h

/-- What a call with a target does to its target and to the others. -/
theorem step_target {w : World} (hw : w.store.WF) {op : Op} {t : Uid} (h : opTarget op = some t) {u : Uid} (hne : t ≠ u) :
    (w.step op).1.store.map u = w.store.map u := by
  obtain ⟨F, hF⟩ := step_local h
  have a := C32_step w hw op (target_noImport h)
  rw [hF] at a
  injection a with a _
  rw [a]
  unfold EventMap.put
  rw [if_neg (fun h => hne h.symm)]

theorem step_same {w w' : World} (hw : w.store.WF) (hw' : w'.store.WF) {op : Op} {u : Uid} (h : opTarget op = some u)
    (hm : w.store.map u = w'.store.map u) :
    (w.step op).1.store.map u = (w'.step op).1.store.map u ∧ (w.step op).2 = (w'.step op).2 := by
  obtain ⟨F, hF⟩ := step_local h
  have a := C32_step w hw op (target_noImport h)
  have b := C32_step w' hw' op (target_noImport h)
  rw [hF] at a b
  injection a with a ra
  injection b with b rb
  rw [a, b, ra, rb, hm]
  unfold EventMap.put
  rw [if_pos rfl, if_pos rfl]
  exact ⟨rfl, rfl⟩

theorem filter_all {α : Type} {p : α → Bool} {l : List α} (h : ∀ x ∈ l, p x = true) : l.filter p = l := List.filter_eq_self.2 h

theorem history_split (u : Uid) (ops : List Op) (ht : ∀ op ∈ ops, opTarget op ≠ none) : ∀ w w' : World,
    w.store.WF → w'.store.WF → w.store.map u = w'.store.map u → notesAbout u w.log = notesAbout u w'.log →
    (w.run ops).store.map u = (w'.run (callsAbout u ops)).store.map u ∧
    notesAbout u (w.run ops).log = notesAbout u (w'.run (callsAbout u ops)).log ∧
    (w.outcomes ops).filter (fun x => opTarget x.1 = some u) = w'.outcomes (callsAbout u ops) := by
  induction ops with
  | nil => intro w w' _ _ h h'; exact ⟨h, h', rfl⟩
  | cons op rest ih =>
    intro w w' hw hw' h h'
    have ih := ih (fun o ho => ht o (List.mem_cons_of_mem _ ho))
    obtain ⟨t, hop⟩ := Option.ne_none_iff_exists'.1 (ht op List.mem_cons_self)
    obtain ⟨G, hG⟩ := notes_local hop
    have hrun : w.run (op :: rest) = (w.step op).1.run rest := rfl
    have hout : w.outcomes (op :: rest) = (op, (w.step op).2) :: (w.step op).1.outcomes rest := rfl
    rw [hrun, hout]
    by_cases htu : t = u
    · subst htu
      have hc : callsAbout t (op :: rest) = op :: callsAbout t rest := by
        unfold callsAbout; rw [List.filter_cons_of_pos (by simpa using hop)]
      rw [hc, List.filter_cons_of_pos (by simpa using hop)]
      obtain ⟨hs, hr⟩ := step_same hw hw' hop h
      obtain ⟨g1, g2⟩ := hG w hw
      obtain ⟨g1', g2'⟩ := hG w' hw'
      have hl : notesAbout t (w.step op).1.log = notesAbout t (w'.step op).1.log := by
        rw [g1, g1', h]
        unfold notesAbout at h' ⊢
        rw [List.filter_append, List.filter_append, h']
      have := ih (w.step op).1 (w'.step op).1 ((w.step_many op).wf hw) ((w'.step_many op).wf hw') hs hl
      refine ⟨this.1, this.2.1, ?_⟩
      rw [hr, this.2.2]
      rfl
    · have hx : opTarget op ≠ some u := fun hx => htu (Option.some.inj (hop.symm.trans hx))
      have hc : callsAbout u (op :: rest) = callsAbout u rest := by
        unfold callsAbout; rw [List.filter_cons_of_neg (by simpa using hx)]
      rw [hc, List.filter_cons_of_neg (by simpa using hx)]
      obtain ⟨g1, g2⟩ := hG w hw
      refine ih (w.step op).1 w' ((w.step_many op).wf hw) hw' ((step_target hw hop htu).trans h) ?_
      rw [g1, ← h']
      unfold notesAbout
      rw [List.filter_append, (List.filter_eq_nil_iff (l := G _)).2 ?_, List.append_nil]
      intro n hn
      simp [g2 n hn, htu]

/-- C108: what happens to an event depends only on the calls about it: the event stored in the end, the notifications
about it and the outcomes of these calls are the same if all other calls are left out. -/
theorem C108_own_history (w : World) (hw : w.store.WF) (ops : List Op) (ht : ∀ op ∈ ops, opTarget op ≠ none) (u : Uid) :
    Dict.get? (w.run ops).store.events u = Dict.get? (w.run (callsAbout u ops)).store.events u ∧
    notesAbout u (w.run ops).log = notesAbout u (w.run (callsAbout u ops)).log ∧
    (w.outcomes ops).filter (fun x => opTarget x.1 = some u) = w.outcomes (callsAbout u ops) :=
  history_split u ops ht w w hw hw rfl rfl

/-- C108: calls can be interleaved in any way as long as the calls about each event keep their order. -/
theorem C108_interleave (w : World) (hw : w.store.WF) (ops ops' : List Op) (ht : ∀ op ∈ ops, opTarget op ≠ none)
    (ht' : ∀ op ∈ ops', opTarget op ≠ none) (h : ∀ u, callsAbout u ops = callsAbout u ops') (u : Uid) :
    Dict.get? (w.run ops).store.events u = Dict.get? (w.run ops').store.events u ∧
    notesAbout u (w.run ops).log = notesAbout u (w.run ops').log ∧
    (w.outcomes ops).filter (fun x => opTarget x.1 = some u) = (w.outcomes ops').filter (fun x => opTarget x.1 = some u) := by
  have a := C108_own_history w hw ops ht u
  have b := C108_own_history w hw ops' ht' u
  rw [h u] at a
  exact ⟨a.1.trans b.1.symm, a.2.1.trans b.2.1.symm, a.2.2.trans b.2.2.symm⟩

/-- C108: an event that was not there before and is not there in the end has left no trace: without all calls about
it the same events are stored. -/
theorem C108_no_trace (w : World) (hw : w.store.WF) (ops : List Op) (ht : ∀ op ∈ ops, opTarget op ≠ none) (u : Uid)
    (h0 : Dict.get? w.store.events u = none) (h1 : Dict.get? (w.run ops).store.events u = none) (k : Uid) :
    Dict.get? (w.run ops).store.events k = Dict.get? (w.run (ops.filter (fun op => opTarget op ≠ some u))).store.events k := by
  have ht' : ∀ op ∈ ops.filter (fun op => opTarget op ≠ some u), opTarget op ≠ none :=
    fun op ho => ht op (List.mem_of_mem_filter ho)
  have b := (C108_own_history w hw _ ht' k).1
  rw [b]
  by_cases hk : k = u
  · subst hk
    have : callsAbout k (ops.filter (fun op => opTarget op ≠ some k)) = [] := by
      unfold callsAbout
      rw [List.filter_filter, List.filter_eq_nil_iff]
      intro op _
      by_cases hx : opTarget op = some k <;> simp [hx]
    rw [this, h1]
    exact h0.symm
  · rw [(C108_own_history w hw ops ht k).1]
    have : callsAbout k (ops.filter (fun op => opTarget op ≠ some u)) = callsAbout k ops := by
      unfold callsAbout
      rw [List.filter_filter]
      refine List.filter_congr fun op _ => ?_
      by_cases hx : opTarget op = some k
      · simp [hx, hk]
      · simp [hx]
    rw [this]

/-- C108, concrete: an event is created, changed and deleted between calls about other events. -/
example :
    let ops := [Op.create Sample.day (some "z") Sample.trip, .invite "m" ["carol"], .setStatus "z" "bob" (some "DECLINED"),
      .delete "t", .invite "z" ["dave"], .delete "z", .setStatus "m" "carol" (some "ACCEPTED")]
    (∀ op ∈ ops, opTarget op ≠ none) ∧ Dict.get? Sample.store.events "z" = none ∧
    Dict.get? (Sample.world.run ops).store.events "z" = none ∧
    (callsAbout "m" ops).map opTarget = [some "m", some "m"] ∧
    ((Dict.get? (Sample.world.run (callsAbout "m" ops)).store.events "m").map (fun e => e.getStatus "carol")) =
      some (some "ACCEPTED") ∧
    (notesAbout "z" (Sample.world.run ops).log).length = 4 := by
  decide +kernel

/-- C108 is false for calls without given uid: the id generated for an event contains the number of stored events, so
it depends on calls about other events. -/
theorem C108_generated_counterexample :
    let a : Op := .create Sample.day none Sample.trip
    ∃ u, Dict.get? (Sample.world.run [a]).store.events u ≠ none ∧
      Dict.get? (Sample.world.run [.delete "m", a]).store.events u = none :=
  ⟨Sample.world.store.autoId Sample.day, by decide +kernel⟩

end CalCore
