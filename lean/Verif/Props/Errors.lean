import Verif.Spec.Errors
import Verif.Spec.Store
import Verif.Lemmas.Participation
import Verif.Lemmas.Queries
import Verif.Lemmas.Expand
import Verif.Props.Queries
import Verif.Model.Calendar
import Verif.Props.Samples
/- C112: which calls and queries raise which exceptions. -/
namespace CalCore
open Spec

theorem roleOk_iff (role : String) : role ∈ roles ↔ RoleOk role := by
  unfold RoleOk roles
  simp

theorem statusOk_iff (st : Option String) : st ∈ statuses ↔ StatusOk st := by
  unfold StatusOk statuses
  simp

/-- The result is an exception exactly of the described kind. -/
def Says {α : Type} (r : Res α) (P : PyErr → Prop) : Prop := ∀ f, r = .error f ↔ ∃ e, f = .py e ∧ P e

theorem Says.ok {α : Type} {x : α} {P : PyErr → Prop} (h : ∀ e, ¬ P e) : Says (.ok x) P := by
  intro f
  constructor
  · intro h; cases h
  · rintro ⟨e, _, he⟩; exact absurd he (h e)

theorem Says.raise {α : Type} {x : PyErr} {P : PyErr → Prop} (h : ∀ e, P e ↔ e = x) : Says (raise x : Res α) P := by
  intro f
  constructor
  · intro hf
    refine ⟨x, ?_, (h x).2 rfl⟩
    injection hf with hf
    exact hf.symm
  · rintro ⟨e, rfl, he⟩
    rw [(h e).1 he]
    rfl

theorem Says.congr {α : Type} {r : Res α} {P Q : PyErr → Prop} (hr : Says r P) (h : ∀ e, P e ↔ Q e) : Says r Q := by
  intro f
  rw [hr f]
  simp only [h]

theorem setAttendeesLoop_says (l : List (Option AttId × String × String)) : ∀ o : Event,
    Says (setAttendeesLoop o l).2 (AttendeesFail l) := by
  induction l with
  | nil =>
    intro o
    refine Says.ok ?_
    rintro e ⟨pre, a, role, st, post, h, _⟩
    cases pre <;> cases h
  | cons x rest ih =>
    intro o
    obtain ⟨a, role, st⟩ := x
    unfold setAttendeesLoop
    by_cases hr : role ∈ roles
    · rw [if_neg (by simpa using hr)]
      have hr' := (roleOk_iff role).1 hr
      cases a with
      | none =>
        refine Says.raise fun e => ⟨?_, ?_⟩
        · rintro ⟨pre, a, role', st', post, h, hp, hc⟩
          cases pre with
          | nil =>
            injection h with h1 _
            injection h1 with h1 h2
            injection h2 with h2 _
            subst h1; subst h2
            rcases hc with ⟨h, _⟩ | ⟨_, _, h⟩
            · exact absurd hr' h
            · exact h
          | cons y pre =>
            injection h with h1 _
            have := (hp y (by simp)).1
            rw [← h1] at this
            cases this
        · rintro rfl
          exact ⟨[], none, role, st, rest, rfl, by simp, .inr ⟨hr', rfl, rfl⟩⟩
      | some a =>
        refine (ih _).congr fun e => ⟨?_, ?_⟩
        · rintro ⟨pre, a', role', st', post, h, hp, hc⟩
          refine ⟨(some a, role, st) :: pre, a', role', st', post, by rw [h]; rfl, ?_, hc⟩
          intro y hy
          rcases List.mem_cons.1 hy with rfl | hy
          · exact ⟨rfl, hr'⟩
          · exact hp y hy
        · rintro ⟨pre, a', role', st', post, h, hp, hc⟩
          cases pre with
          | nil =>
            injection h with h1 _
            injection h1 with h1 h2
            injection h2 with h2 _
            subst h1; subst h2
            rcases hc with ⟨h, _⟩ | ⟨_, h, _⟩
            · exact absurd hr' h
            · cases h
          | cons y pre =>
            injection h with h1 h2
            exact ⟨pre, a', role', st', post, h2, fun z hz => hp z (by simp [hz]), hc⟩
    · rw [if_pos hr]
      have hr' : ¬ RoleOk role := fun h => hr ((roleOk_iff role).2 h)
      refine Says.raise fun e => ⟨?_, ?_⟩
      · rintro ⟨pre, a', role', st', post, h, hp, hc⟩
        cases pre with
        | nil =>
          injection h with h1 _
          injection h1 with h1 h2
          injection h2 with h2 _
          subst h2
          rcases hc with ⟨_, h⟩ | ⟨h, _⟩
          · exact h
          · exact absurd h hr'
        | cons y pre =>
          injection h with h1 _
          have := (hp y (by simp)).2
          rw [← h1] at this
          exact absurd this hr'
      · rintro rfl
        exact ⟨[], a, role, st, rest, rfl, by simp, .inl ⟨hr', rfl⟩⟩

theorem newEvent_says (uid : Uid) (s : Spec) : Says (newEvent uid s) (AttendeesFail s.attendees) := by
  have h := setAttendeesLoop_says s.attendees (s.setOrganizer (s.setAttrs (blankEvent uid)))
  unfold newEvent Spec.setOnObject
  generalize setAttendeesLoop (s.setOrganizer (s.setAttrs (blankEvent uid))) s.attendees = x at h
  obtain ⟨e, r⟩ := x
  cases r with
  | error f =>
    intro g
    rw [← h g]
    simp
  | ok u =>
    refine Says.ok fun e' he => ?_
    have := (h (.py e')).2 ⟨e', rfl, he⟩
    cases this

theorem createEvent_says (w : World) (now : DateTime) (uid : Option Uid) (s : Spec) :
    Says (dropRes (w.createEvent now uid s)).2 (AttendeesFail s.attendees) := by
  have h := newEvent_says (uid.getD (w.store.autoId now)) s
  rcases World.createEvent_eq w now uid s with ⟨f, h1, h2⟩ | ⟨e, h1, _, h2⟩
  · rw [h2]
    intro g
    rw [← h g, h1]
    simp [dropRes, Except.map]
  · rw [h2]
    refine Says.ok fun e' he => ?_
    have := (h (.py e')).2 ⟨e', rfl, he⟩
    rw [h1] at this
    cases this

theorem onEvent_says (w : World) (uid : Uid) (f : Event → Event × List Note × Res Unit) {P : Event → PyErr → Prop}
    (h : ∀ e, Dict.get? w.store.events uid = some e → Says (f e).2.2 (P e)) :
    Says (w.onEvent uid f).2 fun x => Dict.get? w.store.events uid = none ∧ x = .KeyError ∨
      ∃ e, Dict.get? w.store.events uid = some e ∧ P e x := by
  unfold World.onEvent Storage.getEvent
  cases hg : Dict.get? w.store.events uid with
  | none => exact Says.raise fun e => by simp
  | some e =>
    have he := h e hg
    simp only []
    generalize f e = x at he
    obtain ⟨e', n, r⟩ := x
    exact he.congr fun x => by simp

theorem setStatus_says (e : Event) (a : AttId) (st : Option String) :
    Says (e.setStatus a st).2.2 fun x => ¬ StatusOk st ∧ x = .AssertionError ∨
      st = none ∧ (∃ old, Dict.get? e.pstate a = some old) ∧ Dict.get? e.prole a = none ∧ x = .KeyError := by
  unfold Event.setStatus
  by_cases hs : st ∈ statuses
  · rw [if_neg (by simpa using hs)]
    have hs' := (statusOk_iff st).1 hs
    simp only []
    unfold Event.getStatus
    split
    · rename_i heq
      refine Says.ok ?_
      rintro x (⟨h, _⟩ | ⟨rfl, ⟨old, h⟩, _⟩)
      · exact h hs'
      · rw [heq] at h; cases h
    · rename_i hne
      cases st with
      | some s =>
        refine Says.ok ?_
        rintro x (⟨h, _⟩ | ⟨h, _⟩)
        · exact h hs'
        · cases h
      | none =>
        unfold Event.setStatusRaw
        cases hp : Dict.get? e.pstate a with
        | none => exact absurd hp hne
        | some old =>
          have h1 : Dict.has e.pstate a = true := by rw [Dict.has_eq, hp]; rfl
          simp only [h1, if_true]
          cases hr : Dict.get? e.prole a with
          | none =>
            have h2 : Dict.has e.prole a = false := by rw [Dict.has_eq, hr]; rfl
            simp only [h2]
            exact Says.raise fun x => by simp [hs']
          | some r =>
            have h2 : Dict.has e.prole a = true := by rw [Dict.has_eq, hr]; rfl
            simp only [h2, if_true]
            exact Says.ok fun x => by simp [hs']
  · rw [if_pos hs]
    have hs' : ¬ StatusOk st := fun h => hs ((statusOk_iff st).2 h)
    refine Says.raise fun x => ?_
    have : st ≠ none := by rintro rfl; exact hs' (.inl rfl)
    simp [hs', this]

theorem invite_says (l : List AttId) : ∀ e : Event, Says (e.invite l).2.2 fun _ => False := by
  induction l with
  | nil => intro e; exact Says.ok fun _ h => h
  | cons a rest ih =>
    intro e
    rw [invite_cons]
    exact ih _

/-- C112: a call other than an import raises exactly if, and exactly the exception that, its documentation and
the stored events make it raise (`Fails`): KeyError for events that are not stored, AssertionError for roles and
statuses that are not documented, AttributeError for attendees that are None, and KeyError for removing somebody
without a role; inviting people, changing roles to documented ones and statuses to documented ones never raise. -/
theorem C112_calls (w : World) (hw : w.store.WF) (op : Op) (hop : NoImport op) (f : Fault) :
    (w.step op).2 = .error f ↔ ∃ e, f = .py e ∧ Fails (Dict.get? w.store.events) op e := by
  revert f
  show Says (w.step op).2 (Fails (Dict.get? w.store.events) op)
  cases op with
  | create now uid spec => exact createEvent_says w now uid spec
  | attendeeCreate now a spec => exact createEvent_says w now none { spec with organizer := some a }
  | delete uid =>
    cases hg : Dict.get? w.store.events uid with
    | none =>
      have h : w.step (.delete uid) = (w, raise .KeyError) := by
        simp only [World.step, Storage.getEvent, hg]
        rfl
      rw [h]
      exact Says.raise fun e => by simp [Fails, hg]
    | some e =>
      have hu := hw.uid uid e hg
      have h : w.step (.delete uid) = w.deleteEvent uid := by
        simp only [World.step, Storage.getEvent, hg, hu]
      rw [h]
      rcases World.deleteEvent_eq w uid with ⟨h, _⟩ | ⟨_, h⟩
      · rw [Dict.has_eq, hg] at h; cases h
      · rw [h]; exact Says.ok fun e => by simp [Fails, hg]
  | setStatus uid a st =>
    refine (onEvent_says w uid _ fun e _ => setStatus_says e a st).congr fun x => ?_
    unfold Fails
    cases hg : Dict.get? w.store.events uid with
    | none => simp [hg]
    | some e => simp [hg]
  | setRole uid a role =>
    refine (onEvent_says w uid (fun e => let x := e.setRole a role; (x.1, [], x.2))
      (P := fun _ x => ¬ RoleOk role ∧ x = .AssertionError) fun e _ => ?_).congr fun x => ?_
    · simp only []
      unfold Event.setRole
      by_cases hr : role ∈ roles
      · rw [if_neg (by simpa using hr)]
        exact Says.ok fun x h => h.1 ((roleOk_iff role).1 hr)
      · rw [if_pos hr]
        have hr' : ¬ RoleOk role := fun h => hr ((roleOk_iff role).2 h)
        exact Says.raise fun x => by simp [hr']
    · unfold Fails
      cases hg : Dict.get? w.store.events uid with
      | none => simp [hg]
      | some e => simp [hg]
  | invite uid atts =>
    refine (onEvent_says w uid _ fun e _ => invite_says atts e).congr fun x => ?_
    simp [Fails]
  | alldayAdjust uid =>
    refine (onEvent_says w uid (fun e => (e.alldayAdjust, [], .ok ())) (P := fun _ _ => False)
      fun e _ => Says.ok fun _ h => h).congr fun x => ?_
    simp [Fails]
  | edit uid spec =>
    refine (onEvent_says w uid (fun e => let x := spec.setOnObject e; (x.1, [], x.2))
      (P := fun _ x => AttendeesFail spec.attendees x)
      fun e _ => setAttendeesLoop_says spec.attendees _).congr fun x => ?_
    unfold Fails
    cases hg : Dict.get? w.store.events uid with
    | none => simp [hg]
    | some e => simp [hg]
  | import_ => exact hop.elim

/-- C112, concrete: after the sample calls. -/
example :
    let f := fun op => (Sample.world.step op).2
    f (.delete "x") = raise .KeyError ∧ f (.delete "m") = .ok () ∧
    f (.setStatus "m" "bob" (some "MAYBE")) = raise .AssertionError ∧
    f (.setStatus "m" "bob" (some "DECLINED")) = .ok () ∧
    f (.setStatus "m" "bob" none) = .ok () ∧
    f (.setRole "m" "bob" "BOSS") = raise .AssertionError ∧ f (.setRole "m" "zoe" "CHAIR") = .ok () ∧
    f (.create 0 none { Sample.trip with attendees := [(none, "CHAIR", "")] }) = raise .AttributeError ∧
    f (.create 0 none { Sample.trip with attendees := [(none, "BOSS", "")] }) = raise .AssertionError ∧
    f (.edit "x" { Sample.trip with attendees := [(none, "BOSS", "")] }) = raise .KeyError := by decide +kernel

/-- C112: getEvents raises TypeError only if a matching event has no duration, and OverflowError only if a matching
event ends outside Python's calendar; it raises nothing else, and nothing if the period has no begin. -/
theorem C112_getEvents (s : Storage) (hs : s.WF) (b e : Option DateTime) (c : Option Criteria) (f : Fault)
    (h : s.getEvents b e c = .error f) :
    (∃ b', b = some b') ∧ ∃ ev, Stored s ev ∧ Matches (c.getD {}) ev ∧
      (ev.duration = none ∧ f = .py .TypeError ∨
        ∃ d, ev.duration = some d ∧ dtInRange (ev.dtstart + d) = false ∧ f = .py .OverflowError) := by
  have key : ∀ l : List Event, filterInPeriod b e l = .error f → (∃ b', b = some b') ∧ ∃ ev ∈ l,
      (ev.duration = none ∧ f = .py .TypeError ∨
        ∃ d, ev.duration = some d ∧ dtInRange (ev.dtstart + d) = false ∧ f = .py .OverflowError) := by
    intro l
    induction l with
    | nil => intro h; cases h
    | cons ev rest ih =>
      intro h
      unfold filterInPeriod at h
      rw [inPeriod_eq] at h
      cases b with
      | none =>
        simp only [] at h
        rw [ok_bind] at h
        cases hr : filterInPeriod none e rest with
        | ok l => rw [hr] at h; cases h
        | error g =>
          rw [hr] at h
          injection h with h
          subst h
          obtain ⟨h1, ev', hm, h2⟩ := ih hr
          exact ⟨h1, ev', by simp [hm], h2⟩
      | some b' =>
        refine ⟨⟨b', rfl⟩, ?_⟩
        simp only [] at h
        cases hd : ev.duration with
        | none =>
          rw [hd] at h
          injection h with h
          exact ⟨ev, by simp, .inl ⟨hd, h.symm⟩⟩
        | some d =>
          rw [hd] at h
          simp only [] at h
          by_cases hr : dtInRange (ev.dtstart + d) = true
          · rw [if_pos hr, ok_bind] at h
            cases hr : filterInPeriod (some b') e rest with
            | ok l => rw [hr] at h; cases h
            | error g =>
              rw [hr] at h
              injection h with h
              subst h
              obtain ⟨_, ev', hm, h2⟩ := ih hr
              exact ⟨ev', by simp [hm], h2⟩
          · rw [if_neg hr] at h
            injection h with h
            exact ⟨ev, by simp, .inr ⟨d, hd, by simpa using hr, h.symm⟩⟩
  obtain ⟨h1, ev, hm, h2⟩ := key _ h
  obtain ⟨h3, h4⟩ := (mem_matching hs c ev).1 hm
  exact ⟨h1, ev, h3, h4, h2⟩

/-- C112, concrete: an event without duration, and one that never ends. -/
example :
    let f := fun spec b => ((((freshWorld "st" "host").run [.create 0 (some "o") spec]).store.getEvents b none none).map
      fun _ => ())
    f Sample.open_ (some 0) = raise .TypeError ∧ f Sample.open_ none = .ok () ∧
    f { Sample.trip with duration := some (MAXORD * DAY) } (some 0) = raise .OverflowError ∧
    f { Sample.trip with duration := some (MAXORD * DAY) } none = .ok () := by decide +kernel

/-- C112: a query for occurrences or their parts without begin or end of the period raises AssertionError. -/
theorem C112_unbounded (s : Storage) (b e : Option DateTime) (h : b = none ∨ e = none) (c : Option Criteria) :
    s.getOccurrences b e c = raise .AssertionError ∧ s.getOccurrencesSegmented b e c = raise .AssertionError := by
  have : s.getOccurrences b e c = raise .AssertionError := by
    unfold Storage.getOccurrences
    rcases h with rfl | rfl
    · rfl
    · cases b <;> rfl
  refine ⟨this, ?_⟩
  unfold Storage.getOccurrencesSegmented
  rw [this]
  rfl

/-- C112, concrete. -/
example : (Sample.store.getOccurrences (some Sample.day) none none).map (fun _ => ()) = raise .AssertionError ∧
    (Sample.store.getOccurrences (some Sample.day) (some (Sample.day + DAY)) none).map (·.length) = .ok 2 := by
  decide +kernel

theorem occAt_error {ev : Event} {t b e : Int} {f : Fault} (h : ev.occAt t b e = .error f) :
    ev.duration = none ∧ f = .py .TypeError ∨
      ∃ d, ev.duration = some d ∧ dtInRange (t + d) = false ∧ f = .py .OverflowError := by
  unfold Event.occAt at h
  rw [inPeriod_eq] at h
  simp only [] at h
  cases hd : ev.duration with
  | none =>
    rw [hd] at h
    injection h with h
    exact .inl ⟨rfl, h.symm⟩
  | some d =>
    rw [hd] at h
    simp only [] at h
    by_cases hr : dtInRange (t + d) = true
    · rw [if_pos hr, ok_bind] at h
      split at h <;> cases h
    · rw [if_neg hr] at h
      injection h with h
      exact .inr ⟨d, rfl, by simpa using hr, h.symm⟩

theorem expandLoop_error {ev : Event} {b e : Int} {f : Fault} (l : List Int) (h : ev.expandLoop b e l = .error f) :
    ev.duration = none ∧ f = .py .TypeError ∨
      ∃ d ∈ l, ∃ dur, ev.duration = some dur ∧ dtInRange (combine d (dtTime ev.dtstart) + dur) = false ∧
        f = .py .OverflowError := by
  induction l with
  | nil => cases h
  | cons d rest ih =>
    unfold Event.expandLoop at h
    cases ho : ev.occAt (combine d (dtTime ev.dtstart)) b e with
    | error g =>
      rw [ho] at h
      injection h with h
      subst h
      rcases occAt_error ho with h1 | ⟨dur, h1⟩
      · exact .inl h1
      · exact .inr ⟨d, by simp, dur, h1⟩
    | ok here =>
      rw [ho, ok_bind] at h
      cases hr : ev.expandLoop b e rest with
      | ok l => rw [hr] at h; cases h
      | error g =>
        rw [hr] at h
        injection h with h
        subst h
        rcases ih hr with h1 | ⟨d', hd, h1⟩
        · exact .inl h1
        · exact .inr ⟨d', by simp [hd], h1⟩

/-- C112: a bounded query for occurrences raises TypeError only if a matching event has no duration, OverflowError only
if an occurrence of a matching event ends outside Python's calendar, and otherwise OverflowError or ValueError only if the
rule of a matching event cannot be followed to the end of the period: its dates, exceptions included, end before. -/
theorem C112_getOccurrences (s : Storage) (hs : s.WF) (hg : ∀ ev, Stored s ev → Regular ev) (b e : DateTime)
    (c : Option Criteria) (f : Fault) (h : s.getOccurrences (some b) (some e) c = .error f) :
    ∃ ev, Stored s ev ∧ Matches (c.getD {}) ev ∧
      (ev.duration = none ∧ f = .py .TypeError ∨
        (∃ x dur, StartsAt ev x ∧ ev.duration = some dur ∧ dtInRange (x + dur) = false ∧ f = .py .OverflowError) ∨
        ∃ r, ev.recurrence = some r ∧ r.kind ≠ .no ∧ (f = .py .ValueError ∨ f = .py .OverflowError) ∧
          ∀ k d, ruleSeq r (dtDate ev.dtstart) k = some d → d ≤ dtDate e) := by
  have key : ∀ l : List Event, expandAll b e l = .error f → ∃ ev ∈ l, ev.expand b e = .error f := by
    intro l
    induction l with
    | nil => intro h; cases h
    | cons ev rest ih =>
      intro h
      unfold expandAll at h
      cases ho : ev.expand b e with
      | error g =>
        rw [ho] at h
        injection h with h
        exact ⟨ev, by simp, by rw [ho, h]⟩
      | ok here =>
        rw [ho, ok_bind] at h
        cases hr : expandAll b e rest with
        | ok l => rw [hr] at h; cases h
        | error g =>
          rw [hr] at h
          injection h with h
          subst h
          obtain ⟨ev', hm, h2⟩ := ih hr
          exact ⟨ev', by simp [hm], h2⟩
  obtain ⟨ev, hm, h⟩ := key _ h
  obtain ⟨h3, h4⟩ := (mem_matching hs c ev).1 hm
  refine ⟨ev, h3, h4, ?_⟩
  obtain ⟨hr1, hr2⟩ := hg ev h3
  have hgood : ev.Good := ⟨hr1, fun r hr => (hr2 r hr).1⟩
  unfold Event.expand at h
  cases hr : ev.recurrence with
  | none =>
    rw [hr] at h
    rcases occAt_error h with h | ⟨d, h⟩
    · exact .inl h
    · refine .inr (.inl ⟨_, d, ?_, h⟩)
      unfold StartsAt; rw [hr]
  | some r =>
    rw [hr] at h
    simp only [] at h
    obtain ⟨hi, hu⟩ := hr2 r hr
    cases hl : ev.expandLoop b e (r.apply ev.dtstart (some (dtDate e))).1 with
    | error g =>
      rw [hl] at h
      injection h with h
      subst h
      rcases expandLoop_error _ hl with h | ⟨d, hd, dur, h⟩
      · exact .inl h
      · refine .inr (.inl ⟨_, dur, ?_, h⟩)
        have hdd : d ∈ ev.dates e := by unfold Event.dates; rw [hr]; exact hd
        unfold StartsAt
        rw [hr]
        refine ⟨d, ?_, rfl⟩
        rcases (mem_dates_rule hgood hr d).1 hdd with ⟨h, _⟩ | ⟨hk, rfl⟩
        · exact h
        · unfold IsDate; rw [if_pos hk]
    | ok l =>
      rw [hl, ok_bind] at h
      have hx : (r.apply ev.dtstart (some (dtDate e))).2 = .error f := by
        cases hx : (r.apply ev.dtstart (some (dtDate e))).2 with
        | ok u => rw [hx] at h; cases h
        | error g => rw [hx] at h; injection h with h; rw [h]
      have hk : r.kind ≠ .no := by
        intro hk
        have : (r.apply ev.dtstart (some (dtDate e))).2 = .ok () :=
          (apply_snd r _ _).1.2 (by unfold Rule.applyRun; rw [hk])
        rw [this] at hx
        cases hx
      refine .inr (.inr ⟨r, rfl, hk, ?_⟩)
      have E := rule_exact hu hi hk ev.dtstart hr1
      rcases E.status (some (dtDate e)) with h1 | ⟨g, hg', h1, h2⟩
      · rw [h1] at hx; cases hx
      · rw [h1] at hx
        injection hx with hx
        subst hx
        refine ⟨hg', fun k d hc => ?_⟩
        have hsq := ruleSeq_eq hk hi (dtDate_range hr1)
        rw [← hsq] at h2
        exact (h2 k d hc).1 _ rfl

/-- C112, concrete: the last but one day of Python's calendar, with an event that is repeated every other day (the
rule ends there), with one that lasts two days, and with one without duration. -/
example :
    let last : Int := (MAXORD - 1) * DAY
    let f := fun spec => ((((freshWorld "st" "host").run [.create 0 (some "o") spec]).store.getOccurrences
      (some last) (some (last + DAY)) none).map (·.length))
    f { Sample.trip with dtstart := last, duration := some 0, recurrence := some ⟨.daily, 2, none, none, []⟩ } =
      raise .OverflowError ∧
    f { Sample.trip with dtstart := last, duration := some (2 * DAY) } = raise .OverflowError ∧
    f { Sample.trip with dtstart := last, duration := none } = raise .TypeError ∧
    f { Sample.trip with dtstart := last, duration := some Sample.HOUR } = .ok 1 := by decide +kernel

/-- C112: exporting an event raises exactly if it has no duration, TypeError, or ends outside Python's calendar,
OverflowError. -/
theorem C112_export (e : Event) (priv : Bool) (order : Finset String → List String) (f : Fault) :
    e.export priv order = .error f ↔
      e.duration = none ∧ f = .py .TypeError ∨
        ∃ d, e.duration = some d ∧ dtInRange (e.dtstart + d) = false ∧ f = .py .OverflowError := by
  unfold Event.export
  cases hd : e.duration with
  | none => simp only []; exact (Says.raise (P := fun x => x = .TypeError) (fun _ => Iff.rfl) f).trans (by simp)
  | some d =>
    simp only []
    unfold dtAdd
    by_cases hr : dtInRange (e.dtstart + d) = true
    · rw [if_pos hr, ok_bind]
      constructor
      · intro h; split at h <;> cases h
      · rintro (⟨h, _⟩ | ⟨d', h, h2, _⟩)
        · cases h
        · cases h; rw [hr] at h2; cases h2
    · rw [if_neg hr]
      simp only [Bool.not_eq_true] at hr
      constructor
      · intro h
        injection h with h
        exact .inr ⟨d, rfl, hr, h.symm⟩
      · rintro (⟨h, _⟩ | ⟨d', _, _, rfl⟩)
        · cases h
        · rfl

/-- C112, concrete. -/
example :
    let f := fun spec => (match newEvent "o" spec with
      | .ok ev => (ev.export true fun _ => []).map fun _ => ()
      | .error f => .error f)
    f Sample.open_ = raise .TypeError ∧ f { Sample.trip with duration := some (MAXORD * DAY) } = raise .OverflowError ∧
    f Sample.trip = .ok () := by decide +kernel

/-- C112: exporting a calendar raises only if listing its events raises or one of them cannot be exported; it is
then KeyError for an attendee who is not in the source, or the exception of an event. -/
theorem C112_calendar_export (c : Calendar) (src : Source) (s : Storage) (b e : Option DateTime) (cr : Option Criteria)
    (order : Finset String → List String) (f : Fault) (h : c.export src s b e cr order = .error f) :
    c.getEvents src s b e cr = .error f ∨
      ∃ l ev, c.getEvents src s b e cr = .ok l ∧ ev ∈ l ∧ ev.export false order = .error f := by
  have key : ∀ l : List Event, exportAll order l = .error f → ∃ ev ∈ l, ev.export false order = .error f := by
    intro l
    induction l with
    | nil => intro h; cases h
    | cons ev rest ih =>
      intro h
      unfold exportAll at h
      cases ho : ev.export false order with
      | error g =>
        rw [ho] at h
        injection h with h
        exact ⟨ev, by simp, by rw [ho, h]⟩
      | ok here =>
        rw [ho, ok_bind] at h
        cases hr : exportAll order rest with
        | ok l => rw [hr] at h; cases h
        | error g =>
          rw [hr] at h
          injection h with h
          subst h
          obtain ⟨ev', hm, h2⟩ := ih hr
          exact ⟨ev', by simp [hm], h2⟩
  unfold Calendar.export at h
  cases hl : c.getEvents src s b e cr with
  | error g =>
    rw [hl] at h
    injection h with h
    exact .inl (by rw [h])
  | ok l =>
    rw [hl, ok_bind] at h
    obtain ⟨ev, hm, h⟩ := key l h
    exact .inr ⟨l, ev, rfl, hm, h⟩

/-- C112, concrete: a calendar of Carol, whose event has no duration; with a period the list fails, without one the
export. -/
example :
    let s := ((freshWorld "st" "host").run [.create 0 (some "o") Sample.open_]).store
    let c : Calendar := [("carol", ())]
    let src : Source := [("carol", ⟨"Carol", "INDIVIDUAL"⟩)]
    (c.export src s none none none (fun _ => [])).map (·.length) = raise .TypeError ∧
    (c.getEvents src s none none none).map (·.length) = .ok 1 ∧
    (c.getEvents src s (some 0) none none).map (·.length) = raise .TypeError ∧
    (c.getEvents [] s none none none).map (·.length) = raise .KeyError := by decide +kernel

/-- C112: every query of a calendar with an attendee who is not in the source raises KeyError. -/
theorem C112_calendar (c : Calendar) (src : Source) (s : Storage) (b e : Option DateTime) (cr : Option Criteria)
    (h : ∃ a, Dict.has c a = true ∧ Dict.has src a = false) (order : Finset String → List String) :
    c.getEvents src s b e cr = raise .KeyError ∧ c.getOccurrences src s b e cr = raise .KeyError ∧
      c.getOccurrencesSegmented src s b e cr = raise .KeyError ∧ c.export src s b e cr order = raise .KeyError := by
  obtain ⟨a, ha, hs⟩ := h
  have key : ∀ l : List AttId, a ∈ l → lookupAll src l = raise .KeyError := by
    intro l
    induction l with
    | nil => intro h; cases h
    | cons x rest ih =>
      intro h
      unfold lookupAll Source.getAttendee
      by_cases hx : Dict.has src x = true
      · rw [if_pos hx, ok_bind]
        rcases List.mem_cons.1 h with rfl | h
        · rw [hs] at hx; cases hx
        · rw [ih h]; rfl
      · rw [if_neg hx]; rfl
  have hc : c.criteria src cr = raise .KeyError := by
    unfold Calendar.criteria Calendar.getAttendees
    rw [key (Dict.keys c) ((Dict.has_iff_mem_keys c a).1 ha)]
    rfl
  refine ⟨?_, ?_, ?_, ?_⟩
  · unfold Calendar.getEvents; rw [hc]; rfl
  · unfold Calendar.getOccurrences; rw [hc]; rfl
  · unfold Calendar.getOccurrencesSegmented Calendar.getOccurrences; rw [hc]; rfl
  · unfold Calendar.export Calendar.getEvents; rw [hc]; rfl

end CalCore
