import Verif.Lemmas.Participation
import Verif.Lemmas.ImportMany
import Verif.Props.Queries
/- Properties C40 to C44: invitations, statuses, roles, attendee lists, organizers. -/
namespace CalCore
open Spec

/-! ### C40 -/

theorem invite_effect (e : Event) (l : List AttId) :
    (e.invite l).2.2 = .ok () ∧ SameButParticipation e (e.invite l).1 ∧
    (∀ a, (e.invite l).1.getStatus a =
      if a ∈ l ∧ e.getStatus a = none then some "NEEDS-ACTION" else e.getStatus a) ∧
    (∀ a, (e.invite l).1.getRole a =
      if a ∈ l ∧ e.getStatus a = none then some "REQ-PARTICIPANT" else e.getRole a) ∧
    (e.invite l).2.1.Nodup ∧
    ∀ n, n ∈ (e.invite l).2.1 ↔
      ∃ a ∈ l, e.getStatus a = none ∧ n = .participation e.uid a none (some "NEEDS-ACTION") := by
  induction l generalizing e with
  | nil => simp [Event.invite, SameButParticipation]
  | cons a rest ih =>
    rw [invite_cons, inviteOne_eq]
    simp only []
    by_cases hn : e.getStatus a = none
    · rw [if_pos hn]
      simp only []
      obtain ⟨h1, h2, h3, h4, h5, h6⟩ := ih { e with
        pstate := Dict.set e.pstate a "NEEDS-ACTION", prole := Dict.set e.prole a "REQ-PARTICIPANT" }
      have hst : ∀ x, ({ e with
          pstate := Dict.set e.pstate a "NEEDS-ACTION"
          prole := Dict.set e.prole a "REQ-PARTICIPANT" } : Event).getStatus x =
          if a = x then some "NEEDS-ACTION" else e.getStatus x := fun x => Dict.get?_set ..
      have hro : ∀ x, ({ e with
          pstate := Dict.set e.pstate a "NEEDS-ACTION"
          prole := Dict.set e.prole a "REQ-PARTICIPANT" } : Event).getRole x =
          if a = x then some "REQ-PARTICIPANT" else e.getRole x := fun x => Dict.get?_set ..
      refine ⟨h1, ?_, ?_, ?_, ?_, ?_⟩
      · unfold SameButParticipation at h2 ⊢
        cases h : (Event.invite { e with
          pstate := Dict.set e.pstate a "NEEDS-ACTION", prole := Dict.set e.prole a "REQ-PARTICIPANT" } rest).1
        rw [h] at h2
        cases e
        simp only [Event.mk.injEq] at h2 ⊢
        grind
      · intro x
        rw [h3, hst]
        by_cases hx : a = x
        · subst hx; simp [hn]
        · have hx' : ¬ x = a := fun h => hx h.symm
          simp [hx, hx']
      · intro x
        rw [h4, hst, hro]
        by_cases hx : a = x
        · subst hx; simp [hn]
        · have hx' : ¬ x = a := fun h => hx h.symm
          simp [hx, hx']
      · rw [List.cons_append, List.nil_append, List.nodup_cons]
        refine ⟨?_, h5⟩
        rw [h6]
        rintro ⟨x, _, hx, he⟩
        rw [hst] at hx
        injection he with _ he
        rw [if_pos he] at hx
        cases hx
      · intro n
        rw [List.cons_append, List.nil_append, List.mem_cons, h6]
        constructor
        · rintro (rfl | ⟨x, hx, hs, rfl⟩)
          · exact ⟨a, List.mem_cons_self .., hn, rfl⟩
          · rw [hst] at hs
            split at hs
            · cases hs
            · exact ⟨x, List.mem_cons_of_mem _ hx, hs, rfl⟩
        · rintro ⟨x, hx, hs, rfl⟩
          by_cases hxa : x = a
          · subst hxa; exact Or.inl rfl
          · refine Or.inr ⟨x, (List.mem_cons.1 hx).resolve_left hxa, ?_, rfl⟩
            rw [hst, if_neg (fun h => hxa h.symm)]; exact hs
    · rw [if_neg hn]
      simp only []
      obtain ⟨h1, h2, h3, h4, h5, h6⟩ := ih e
      refine ⟨h1, h2, ?_, ?_, h5, ?_⟩
      · intro x
        rw [h3]
        by_cases hx : x = a
        · subst hx; simp [hn]
        · simp [hx]
      · intro x
        rw [h4]
        by_cases hx : x = a
        · subst hx; simp [hn]
        · simp [hx]
      · intro n
        rw [List.nil_append, h6]
        constructor
        · rintro ⟨x, hx, h⟩; exact ⟨x, List.mem_cons_of_mem _ hx, h⟩
        · rintro ⟨x, hx, hs, rfl⟩
          refine ⟨x, (List.mem_cons.1 hx).resolve_left ?_, hs, rfl⟩
          rintro rfl; exact hn hs

/-- C40: inviting never fails; attendees of the list who have no status become NEEDS-ACTION and
REQ-PARTICIPANT, nobody else is touched, no other attribute changes. -/
theorem C40_invite (e : Event) (l : List AttId) :
    (e.invite l).2.2 = .ok () ∧ SameButParticipation e (e.invite l).1 ∧
    (∀ a, e.getStatus a ≠ none ∨ a ∉ l →
      (e.invite l).1.getStatus a = e.getStatus a ∧ (e.invite l).1.getRole a = e.getRole a) ∧
    (∀ a ∈ l, e.getStatus a = none →
      (e.invite l).1.getStatus a = some "NEEDS-ACTION" ∧ (e.invite l).1.getRole a = some "REQ-PARTICIPANT") := by
  obtain ⟨h1, h2, h3, h4, _, _⟩ := invite_effect e l
  refine ⟨h1, h2, fun a ha => ?_, fun a ha hn => ?_⟩
  · rw [h3, h4, if_neg (by rintro ⟨hl, hn⟩; exact ha.elim (· hn) (· hl)), if_neg (by rintro ⟨hl, hn⟩; exact ha.elim (· hn) (· hl))]
    exact ⟨rfl, rfl⟩
  · rw [h3, h4, if_pos ⟨ha, hn⟩, if_pos ⟨ha, hn⟩]
    exact ⟨rfl, rfl⟩

/-- C40: one notification for every new attendee, none for others. -/
theorem C40_notifications (e : Event) (l : List AttId) :
    (e.invite l).2.1.Nodup ∧ ∀ n, n ∈ (e.invite l).2.1 ↔
      ∃ a ∈ l, e.getStatus a = none ∧ n = .participation e.uid a none (some "NEEDS-ACTION") :=
  ⟨(invite_effect e l).2.2.2.2.1, (invite_effect e l).2.2.2.2.2⟩

/-- C40: inviting people who all have a status changes nothing. -/
theorem invite_known (e : Event) (l : List AttId) (h : ∀ a ∈ l, e.getStatus a ≠ none) :
    e.invite l = (e, [], .ok ()) := by
  induction l with
  | nil => rfl
  | cons a rest ih =>
    rw [invite_cons, inviteOne_eq, if_neg (h a (List.mem_cons_self ..))]
    simp only []
    rw [ih (fun x hx => h x (List.mem_cons_of_mem _ hx))]
    rfl

/-- C40: inviting again, also some of them, changes nothing and notifies nobody. -/
theorem C40_idempotent (e : Event) (l l' : List AttId) (hl : ∀ a ∈ l', a ∈ l) :
    (e.invite l).1.invite l' = ((e.invite l).1, [], .ok ()) := by
  apply invite_known
  intro a ha
  rw [(invite_effect e l).2.2.1]
  split
  · simp
  · rename_i h
    intro hn
    exact h ⟨hl a ha, hn⟩

/-- C40, concrete: bob keeps OPT-PARTICIPANT, zoe is invited once. -/
example : ∃ e, Sample.store.getEvent "m" = .ok e ∧ e.getRole "bob" = some "OPT-PARTICIPANT" ∧
    (e.invite ["zoe", "bob", "zoe"]).1.getRole "bob" = some "OPT-PARTICIPANT" ∧
    (e.invite ["zoe", "bob", "zoe"]).1.getStatus "zoe" = some "NEEDS-ACTION" ∧
    (e.invite ["zoe", "bob", "zoe"]).2.1 = [.participation "m" "zoe" none (some "NEEDS-ACTION")] :=
  ⟨_, rfl, by decide +kernel⟩

/-! ### C41 -/

/-- C41: an undocumented status is refused. -/
theorem C41_invalid (e : Event) (a : AttId) (st : Option String) (h : st ∉ statuses) :
    e.setStatus a st = (e, [], raise .AssertionError) := by
  unfold Event.setStatus; rw [if_pos h]

/-- C41: a call that returns leaves the given status, other people and other attributes are as before, and
there is exactly one notification, with the old and the new status, if the status changed, and none
otherwise.  Missing: calls that raise (`C41_silent_counterexample`: the status is gone without a
notification). -/
theorem C41_notify_partial (e : Event) (a : AttId) (st : Option String) (h : (e.setStatus a st).2.2 = .ok ()) :
    (e.setStatus a st).1.getStatus a = st ∧
    (e.setStatus a st).2.1 = (if e.getStatus a = st then [] else [.participation e.uid a (e.getStatus a) st]) ∧
    SameButParticipation e (e.setStatus a st).1 ∧
    ∀ x, x ≠ a → (e.setStatus a st).1.getStatus x = e.getStatus x ∧ (e.setStatus a st).1.getRole x = e.getRole x := by
  by_cases hst : st ∈ statuses
  · cases st with
    | none =>
      rw [setStatus_none] at h ⊢
      by_cases h1 : e.getStatus a = none
      · simp only [h1, if_true] at h ⊢
        simp [SameButParticipation]
      · simp only [h1, if_false] at h ⊢
        by_cases h2 : e.getRole a = none
        · simp [h2] at h
        · simp only [h2, if_false] at h ⊢
          refine ⟨?_, trivial, rfl, fun x hx => ?_⟩
          · unfold Event.getStatus; simp only []; rw [Dict.get?_del]; simp
          · unfold Event.getStatus Event.getRole
            simp only [Dict.get?_del]
            rw [if_neg (fun h => hx h.symm), if_neg (fun h => hx h.symm)]
            exact ⟨rfl, rfl⟩
    | some s =>
      rw [setStatus_some e a s hst] at h ⊢
      by_cases h1 : e.getStatus a = some s
      · simp only [h1, if_true]
        simp [SameButParticipation]
      · simp only [h1, if_false]
        refine ⟨?_, trivial, rfl, fun x hx => ?_⟩
        · unfold Event.getStatus; simp only []; rw [Dict.get?_set_self]
        · unfold Event.getStatus Event.getRole
          simp only [Dict.get?_set]
          rw [if_neg (fun h => hx h.symm)]
          exact ⟨rfl, trivial⟩
  · rw [C41_invalid e a st hst] at h; simp at h

/-- C41: exactly when the call returns. -/
theorem C41_returns_iff (e : Event) (a : AttId) (st : Option String) :
    (e.setStatus a st).2.2 = .ok () ↔
      st ∈ statuses ∧ ¬ (st = none ∧ (∃ s, e.getStatus a = some s) ∧ e.getRole a = none) := by
  by_cases hst : st ∈ statuses
  · cases st with
    | none =>
      rw [setStatus_none]
      cases h1 : e.getStatus a with
      | none => simp [hst]
      | some s =>
        cases h2 : e.getRole a with
        | none => simp
        | some r => simp [hst]
    | some s =>
      rw [setStatus_some e a s hst]
      split <;> simp [hst]
  · rw [C41_invalid e a st hst]; simp [hst]

/-- C41 is false for calls that raise: dave, uninvited, accepts; removing dave raises, the status is gone,
nobody is notified. -/
theorem C41_silent_counterexample : ∃ e, Sample.store.getEvent "m" = .ok e ∧
    let e' := (e.setStatus "dave" (some "ACCEPTED")).1
    e'.getStatus "dave" = some "ACCEPTED" ∧ (e'.setStatus "dave" none).1.getStatus "dave" = none ∧
      (e'.setStatus "dave" none).2 = ([], raise .KeyError) := ⟨_, rfl, by decide +kernel⟩

/-- C41, concrete. -/
example : ∃ e, Sample.store.getEvent "m" = .ok e ∧
    (e.setStatus "bob" (some "ACCEPTED")).2 =
      ([.participation "m" "bob" (some "NEEDS-ACTION") (some "ACCEPTED")], .ok ()) := ⟨_, rfl, by decide +kernel⟩

/-! ### C42 -/

/-- In a polite history everybody with a status has a role and conversely. -/
theorem polite_consistent (id host : String) (ops : List Op) (h : PoliteRun (freshWorld id host) ops) :
    ∀ k e, Dict.get? ((freshWorld id host).run ops).store.events k = some e → Consistent e := by
  have hon : ∀ (w : World) (u : Uid) (f : Event → Event × List Note × Res Unit),
      (∀ k e, Dict.get? w.store.events k = some e → Consistent e) →
      (∀ e, Dict.get? w.store.events u = some e → Consistent e → Consistent (f e).1) →
      ∀ k e, Dict.get? (w.onEvent u f).1.store.events k = some e → Consistent e := by
    intro w u f hw hf k e hk
    unfold World.onEvent at hk
    cases hg : w.store.getEvent u with
    | error x => rw [hg] at hk; exact hw k e hk
    | ok e0 =>
      rw [hg] at hk
      have hge := Storage.getEvent_ok.1 hg
      simp only [Dict.get?_set] at hk
      split at hk
      · injection hk with hk; rw [← hk]; exact hf e0 hge (hw u e0 hge)
      · exact hw k e hk
  have hcreate : ∀ (w : World) (now : Int) (uid : Option Uid) (spec : Spec),
      (∀ k e, Dict.get? w.store.events k = some e → Consistent e) →
      ∀ k e, Dict.get? (w.createEvent now uid spec).1.store.events k = some e → Consistent e := by
    intro w now uid spec hw k e hk
    rcases w.createEvent_eq now uid spec with ⟨f, _, h'⟩ | ⟨e0, hn, _, h'⟩
    · rw [h'] at hk; exact hw k e hk
    · rw [h'] at hk
      simp only [Dict.get?_set] at hk
      split at hk
      · injection hk with hk; rw [← hk]; exact newEvent_consistent hn
      · exact hw k e hk
  have key : ∀ (ops : List Op) (w : World), (∀ k e, Dict.get? w.store.events k = some e → Consistent e) →
      PoliteRun w ops → ∀ k e, Dict.get? (w.run ops).store.events k = some e → Consistent e := by
    intro ops
    induction ops with
    | nil => intro w hw _; exact hw
    | cons op rest ih =>
      rintro w hw ⟨hp, hr⟩
      refine ih _ ?_ hr
      cases op with
      | create now uid spec => exact hcreate w now uid spec hw
      | attendeeCreate now a spec => exact hcreate w now none _ hw
      | delete uid =>
        intro k e hk
        unfold World.step at hk
        simp only [] at hk
        cases hg : w.store.getEvent uid with
        | error x => rw [hg] at hk; exact hw k e hk
        | ok e0 =>
          rw [hg] at hk
          simp only [] at hk
          rcases w.deleteEvent_eq e0.uid with ⟨_, h'⟩ | ⟨_, h'⟩
          · rw [h'] at hk; exact hw k e hk
          · rw [h'] at hk
            simp only [Dict.get?_del] at hk
            split at hk
            · cases hk
            · exact hw k e hk
      | setStatus uid a st =>
        refine hon w uid _ hw (fun e he hc => setStatus_consistent hc a st ?_)
        rintro s rfl
        exact hp e he
      | setRole uid a role => exact hon w uid _ hw (fun e he hc => setRole_consistent hc a role (hp e he))
      | invite uid atts => exact hon w uid _ hw (fun e he hc => invite_consistent hc atts)
      | alldayAdjust uid => exact hon w uid _ hw (fun e he hc => hc)
      | edit uid spec => exact hon w uid _ hw (fun e he hc => setOnObject_consistent hc spec)
      | import_ tz c src vs b e cr sync =>
        have himp : ∀ (w w' : World), World.ImportMany (fun _ => True) w w' →
            (∀ k e, Dict.get? w.store.events k = some e → Consistent e) →
            ∀ k e, Dict.get? w'.store.events k = some e → Consistent e := by
          intro w w' hm hw
          refine hm.preserves (P := fun w => ∀ k e, Dict.get? w.store.events k = some e → Consistent e) ?_ hw
          intro w w' hs hw k e' hk
          cases hs with
          | create uid spec e hq he =>
            simp only [Dict.get?_set] at hk
            split at hk
            · injection hk with hk; subst hk; exact newEvent_consistent he
            · exact hw k e' hk
          | update uid e spec notes hq hg hn =>
            simp only [Dict.get?_set] at hk
            split at hk
            · injection hk with hk; subst hk; exact setOnObject_consistent (hw _ _ hg) _
            · exact hw k e' hk
          | delete uid hh =>
            simp only [Dict.get?_del] at hk
            split at hk
            · cases hk
            · exact hw k e' hk
        exact himp _ _ (w.import_importMany _ _ _ _ _ _ _ _ _ (fun _ _ _ _ _ _ => trivial)) hw
  exact key ops _ (by simp [freshWorld]) h

/-- C42: after `setParticipationStatus(a, None)` has returned, `a` has no status, and is in no list of
attendees. -/
theorem C42_removed (e : Event) (a : AttId) (h : (e.setStatus a none).2.2 = .ok ()) :
    (e.setStatus a none).1.getStatus a = none ∧ (e.setStatus a none).1.hasAttendee a = false ∧
      ∀ ps pr l, (e.setStatus a none).1.getAttendeeIds ps pr = .ok l → a ∉ l := by
  have h1 := (C41_notify_partial e a none h).1
  refine ⟨h1, by unfold Event.hasAttendee; rw [h1]; rfl, fun ps pr l hl ha => ?_⟩
  rw [getAttendeeIdsLoop_ok hl] at ha
  obtain ⟨p, hp, rfl⟩ := List.mem_map.1 ha
  have := (List.mem_filter.1 hp).1
  exact (Dict.get?_eq_none _ _).1 h1 (List.mem_map.2 ⟨p, this, rfl⟩)

/-- C42: in a polite history (statuses and roles are set only for people who are attendees),
`setParticipationStatus(a, None)` succeeds for every event and everybody, and leaves neither status nor
role.  Missing: histories in which somebody uninvited is given a status or a role, for which it is false
(`C42_status_counterexample`, `C42_role_counterexample`). -/
theorem C42_removes_partial (id host : String) (ops : List Op) (hp : PoliteRun (freshWorld id host) ops)
    (u : Uid) (e : Event) (he : ((freshWorld id host).run ops).store.getEvent u = .ok e) (a : AttId) :
    (e.setStatus a none).2.2 = .ok () ∧ (e.setStatus a none).1.getStatus a = none ∧
      (e.setStatus a none).1.getRole a = none := by
  have hc := polite_consistent id host ops hp u e (Storage.getEvent_ok.1 he)
  have hok : (e.setStatus a none).2.2 = .ok () := by
    rw [C41_returns_iff]
    refine ⟨by decide, ?_⟩
    rintro ⟨_, h1, h2⟩
    obtain ⟨r, hr⟩ := (hc a).1 h1
    unfold Event.getRole at h2
    rw [hr] at h2; cases h2
  have hst := (C41_notify_partial e a none hok).1
  refine ⟨hok, hst, ?_⟩
  have hc' : Consistent (e.setStatus a none).1 := setStatus_consistent hc a none (by simp)
  cases hr : (e.setStatus a none).1.getRole a with
  | none => rfl
  | some r =>
    obtain ⟨s, hs⟩ := (hc' a).2 ⟨r, hr⟩
    unfold Event.getStatus at hst
    rw [hs] at hst; cases hst

/-- C42 is false: dave, who was not invited, accepts; then dave cannot be removed. -/
theorem C42_status_counterexample :
    ((Sample.world.run [.setStatus "m" "dave" (some "ACCEPTED")]).step (.setStatus "m" "dave" none)).2
      = raise .KeyError := by decide +kernel

/-- C42 is false: dave, who was not invited, is given a role; removing dave returns but leaves the role. -/
theorem C42_role_counterexample :
    let x := (Sample.world.run [.setRole "m" "dave" "CHAIR"]).step (.setStatus "m" "dave" none)
    x.2 = .ok () ∧ (x.1.store.getEvent "m").map (fun e => e.getRole "dave") = .ok (some "CHAIR") := by
  decide +kernel

/-- C42, concrete: the sample history is polite, as is what follows. -/
example : PoliteRun (freshWorld "st" "host") (Sample.ops ++ [.setStatus "t" "alice" (some "ACCEPTED")]) := by
  refine ⟨trivial, trivial, trivial, trivial, trivial, trivial, ?_, trivial⟩
  intro e he
  have : (Dict.get? (World.run (freshWorld "st" "host") Sample.ops).store.events "t").map
      (fun e => Dict.get? e.pstate "alice") = some (some "NEEDS-ACTION") := by decide +kernel
  have he' : Dict.get? (World.run (freshWorld "st" "host") Sample.ops).store.events "t" = some e := he
  rw [he'] at this
  injection this with this
  exact ⟨_, this⟩

/-! ### C43 -/

/-- The event has attendee `a` with the status and role asked for (None meaning any). -/
def Spec.Listed (e : Event) (ps pr : Option String) (a : AttId) : Prop :=
  (∃ s, e.getStatus a = some s ∧ ∀ p, ps = some p → s = p) ∧ ∀ r, pr = some r → e.getRole a = some r

theorem getAttendeeIds_exact {e : Event} (hp : e.Parts) {ps pr : Option String} {l : List AttId}
    (h : e.getAttendeeIds ps pr = .ok l) : l.Nodup ∧ ∀ a, a ∈ l ↔ Listed e ps pr a := by
  have hl := getAttendeeIdsLoop_ok h
  refine ⟨?_, fun a => ?_⟩
  · rw [hl]
    exact List.Sublist.nodup (List.Sublist.map _ List.filter_sublist) hp.state
  · rw [hl]
    unfold Listed Event.getStatus Event.getRole
    simp only [List.mem_map, List.mem_filter, Bool.and_eq_true]
    constructor
    · rintro ⟨⟨x, s⟩, ⟨h1, h2, h3⟩, rfl⟩
      refine ⟨⟨s, (Dict.mem_iff_get? hp.state x s).1 h1, ?_⟩, ?_⟩
      · rintro p rfl; simp only [Option.all_some, decide_eq_true_eq] at h2; exact h2.symm
      · rintro r rfl; simpa using h3
    · rintro ⟨⟨s, h1, h2⟩, h3⟩
      refine ⟨(a, s), ⟨(Dict.mem_iff_get? hp.state a s).2 h1, ?_, ?_⟩, rfl⟩
      · cases ps with
        | none => rfl
        | some p => simp [h2 p rfl]
      · cases pr with
        | none => rfl
        | some r => simp [h3 r rfl]

/-- C43: in every history, whenever `getAttendeeIds` returns, it lists exactly the attendees with this
status and role, each once; and it returns if no role is asked for. -/
theorem C43_exact (id host : String) (ops : List Op) (u : Uid) (e : Event)
    (he : ((freshWorld id host).run ops).store.getEvent u = .ok e) (ps pr : Option String) :
    (∀ l, e.getAttendeeIds ps pr = .ok l → l.Nodup ∧ ∀ a, a ∈ l ↔ Listed e ps pr a) ∧
      ∃ l, e.getAttendeeIds ps none = .ok l :=
  ⟨fun _ h => getAttendeeIds_exact (run_parts id host ops u e (Storage.getEvent_ok.1 he)) h,
    getAttendeeIdsLoop_returns (Or.inl rfl)⟩

/-- C43: in a polite history `getAttendeeIds` never raises.  Missing: histories in which somebody uninvited
is given a status, for which it is false (`C43_raises_counterexample`). -/
theorem C43_returns_partial (id host : String) (ops : List Op) (hp : PoliteRun (freshWorld id host) ops)
    (u : Uid) (e : Event) (he : ((freshWorld id host).run ops).store.getEvent u = .ok e) (ps pr : Option String) :
    ∃ l, e.getAttendeeIds ps pr = .ok l ∧ l.Nodup ∧ ∀ a, a ∈ l ↔ Listed e ps pr a := by
  have hc := polite_consistent id host ops hp u e (Storage.getEvent_ok.1 he)
  obtain ⟨l, hl⟩ := getAttendeeIdsLoop_returns (role := e.prole) (ps := ps) (pr := pr) (d := e.pstate)
    (Or.inr (fun a ha => (hc a).1 ((Dict.has_iff_get? _ _).1 ((Dict.has_iff_mem_keys _ _).2 ha))))
  exact ⟨l, hl, (C43_exact id host ops u e he ps pr).1 l hl⟩

/-- C43 is false: once dave, uninvited, has accepted, asking for the chairs raises. -/
theorem C43_raises_counterexample : ∃ e,
    (Sample.world.run [.setStatus "m" "dave" (some "ACCEPTED")]).store.getEvent "m" = .ok e ∧
      e.getAttendeeIds none (some "CHAIR") = raise .KeyError := ⟨_, rfl, by decide +kernel⟩

/-- C43, concrete. -/
example : ∃ e, Sample.store.getEvent "m" = .ok e ∧
    e.getAttendeeIds none none = .ok ["alice", "bob"] ∧
    e.getAttendeeIds (some "ACCEPTED") none = .ok ["alice"] ∧
    e.getAttendeeIds (some "NEEDS-ACTION") (some "OPT-PARTICIPANT") = .ok ["bob"] ∧
    e.getAttendeeIds (some "ACCEPTED") (some "OPT-PARTICIPANT") = .ok [] := ⟨_, rfl, by decide +kernel⟩

/-! ### C44 -/

/-- What a new event has of its specification. -/
theorem newEvent_participation {uid : Uid} {s : Spec} {e : Event} (h : newEvent uid s = .ok e) :
    e.organizerId = s.organizer ∧
    (∀ a, e.getStatus a = ((lastEntry s.attendees a).map (·.2)).or (if s.organizer = some a then some "ACCEPTED" else none)) ∧
    ∀ a, e.getRole a = ((lastEntry s.attendees a).map (·.1)).or
      (if s.organizer = some a then some "REQ-PARTICIPANT" else none) := by
  unfold newEvent at h
  cases hs : s.setOnObject (blankEvent uid) with
  | mk e' r =>
    rw [hs] at h
    cases r with
    | error f => cases h
    | ok x =>
      have hadj : e.organizerId = e'.organizerId ∧ e.pstate = e'.pstate ∧ e.prole = e'.prole := by
        injection h with h
        rw [← h]
        split <;> exact ⟨rfl, rfl, rfl⟩
      obtain ⟨h1, h2, h3⟩ := hadj
      have hloop := fun a => setAttendeesLoop_ok (a := a) hs
      have hsame := setAttendeesLoop_same s.attendees (s.setOrganizer (s.setAttrs (blankEvent uid)))
      have hs' : (setAttendeesLoop (s.setOrganizer (s.setAttrs (blankEvent uid))) s.attendees).1 = e' := by
        have := congrArg Prod.fst hs; exact this
      rw [hs'] at hsame
      have horg : e'.organizerId = (s.setOrganizer (s.setAttrs (blankEvent uid))).organizerId := by
        unfold SameButParticipation at hsame; rw [← hsame]
      have hset : (s.setOrganizer (s.setAttrs (blankEvent uid))).organizerId = s.organizer ∧
          (∀ a, (s.setOrganizer (s.setAttrs (blankEvent uid))).getStatus a =
            if s.organizer = some a then some "ACCEPTED" else none) ∧
          ∀ a, (s.setOrganizer (s.setAttrs (blankEvent uid))).getRole a =
            if s.organizer = some a then some "REQ-PARTICIPANT" else none := by
        unfold Spec.setOrganizer
        cases s.organizer with
        | none => exact ⟨rfl, fun a => rfl, fun a => rfl⟩
        | some o =>
          refine ⟨rfl, fun a => ?_, fun a => ?_⟩
          · unfold Event.getStatus; simp only [Dict.get?_set, Option.some.injEq]; rfl
          · unfold Event.getRole; simp only [Dict.get?_set, Option.some.injEq]; rfl
      refine ⟨h1.trans (horg.trans hset.1), fun a => ?_, fun a => ?_⟩
      · have := (hloop a).1
        rw [hset.2.1] at this
        unfold Event.getStatus at this ⊢
        rw [h2]; exact this
      · have := (hloop a).2
        rw [hset.2.2] at this
        unfold Event.getRole at this ⊢
        rw [h3]; exact this

/-- C44: after `attendee.createEvent(...)` has returned `e`, the attendee is the organizer, and the event is in
`getOrganizedEvents` and in the attendee's `getEvents` of every period it overlaps (if these return). -/
theorem C44_organized (w : World) (hw : w.store.WF) (now : Int) (a : AttId) (spec : Spec) (e : Event)
    (h : (w.attendeeCreateEvent now a spec).2 = .ok e) :
    e.organizerId = some a ∧
    (∃ l, (w.attendeeCreateEvent now a spec).1.store.getOrganizedEvents a none = .ok l ∧ e ∈ l) ∧
    ∀ b en l, (w.attendeeCreateEvent now a spec).1.store.attendeeGetEvents a b en none = .ok l →
      Shown e.dtstart (e.duration.getD 0) b en → e ∈ l := by
  have hwf : (w.attendeeCreateEvent now a spec).1.store.WF :=
    (World.createEvent_many w now none { spec with organizer := some a }).wf hw
  unfold World.attendeeCreateEvent at h hwf ⊢
  rcases w.createEvent_eq now none { spec with organizer := some a } with ⟨f, _, h'⟩ | ⟨e', hn, hu, h'⟩
  · rw [h'] at h; cases h
  · rw [h'] at h hwf ⊢
    injection h with h
    subst h
    obtain ⟨p1, p2, _⟩ := newEvent_participation hn
    have hst : Stored { w.store with events := Dict.set w.store.events e'.uid e' } e' := Dict.get?_set_self ..
    refine ⟨p1, ?_, ?_⟩
    · obtain ⟨l, hl, _, hm⟩ := C39_organized_exact _ hwf a
      exact ⟨l, hl, (hm e').2 ⟨hst, p1⟩⟩
    · intro b en l hl hsh
      refine (((C20_getEvents_exact _ hwf b en _).1 l hl).2 e').2 ⟨hst, ?_, ?_, ?_⟩
      · refine ⟨by simp [attendeeCriteria], by simp [attendeeCriteria], ?_⟩
        intro L hL
        injection hL with hL
        subst hL
        refine ⟨a, List.mem_singleton.2 rfl, ?_⟩
        have := p2 a
        unfold Event.getStatus at this
        rw [if_pos rfl] at this
        cases hle : lastEntry spec.attendees a with
        | none => rw [hle] at this; exact ⟨_, this, by simp [attendeeCriteria], by simp [attendeeCriteria]⟩
        | some x => rw [hle] at this; exact ⟨_, this, by simp [attendeeCriteria], by simp [attendeeCriteria]⟩
      · rintro b' rfl
        rcases hsh with ⟨t, h1, h2, h3, _⟩ | ⟨h0, h1, _⟩
        · have := h3 b' rfl; omega
        · have := h1 b' rfl; omega
      · rintro e0 rfl
        rcases hsh with ⟨t, h1, h2, _, h3⟩ | ⟨h0, _, h1⟩
        · have := h3 e0 rfl; omega
        · exact h1 e0 rfl

/-- C44: the organizer has status ACCEPTED and role REQ-PARTICIPANT, if the data do not list the organizer
among the attendees.  Missing: data listing the organizer, for which it is false
(`C44_listed_counterexample`). -/
theorem C44_accepted_partial (w : World) (now : Int) (a : AttId) (spec : Spec) (e : Event)
    (h : (w.attendeeCreateEvent now a spec).2 = .ok e) (hl : ∀ p ∈ spec.attendees, p.1 ≠ some a) :
    e.getStatus a = some "ACCEPTED" ∧ e.getRole a = some "REQ-PARTICIPANT" := by
  unfold World.attendeeCreateEvent at h
  rcases w.createEvent_eq now none { spec with organizer := some a } with ⟨f, _, h'⟩ | ⟨e', hn, hu, h'⟩
  · rw [h'] at h; cases h
  · rw [h'] at h
    injection h with h
    subst h
    obtain ⟨_, p2, p3⟩ := newEvent_participation hn
    have h0 : lastEntry ({ spec with organizer := some a } : Spec).attendees a = none := lastEntry_none.2 hl
    rw [p2, p3, h0]
    simp

/-- C44 is false when the data list the organizer. -/
theorem C44_listed_counterexample : ∃ e,
    ((freshWorld "st" "host").attendeeCreateEvent Sample.day "alice"
      { Sample.meeting with attendees := [(some "alice", "CHAIR", "DECLINED")] }).2 = .ok e ∧
    e.organizerId = some "alice" ∧ e.getStatus "alice" = some "DECLINED" ∧ e.getRole "alice" = some "CHAIR" :=
  ⟨_, rfl, by decide +kernel⟩

/-- C44, concrete: bob creates an event with alice's data. -/
example : ∃ e, (Sample.world.attendeeCreateEvent Sample.day "zoe" Sample.meeting).2 = .ok e ∧
    e.organizerId = some "zoe" ∧ e.getStatus "zoe" = some "ACCEPTED" ∧
    Shown e.dtstart (e.duration.getD 0) (some Sample.day) (some (Sample.day + DAY)) :=
  ⟨_, rfl, by decide +kernel, by decide +kernel, Or.inl ⟨Sample.day + 10 * Sample.HOUR, by decide +kernel,
    by decide +kernel, by intro b hb; injection hb with hb; subst hb; decide +kernel,
    by intro b hb; injection hb with hb; subst hb; decide +kernel⟩⟩

end CalCore
