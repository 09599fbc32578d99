import Verif.Spec.Criteria
import Verif.Props.Queries
import Verif.Props.Dates
import Verif.Props.Samples
/- The attendee source, `Period`, `sameDay` and `getRecentYears` (C80, C81). -/
namespace CalCore
open Spec

/-! ### C80 -/

/-- A call that changes the source. -/
inductive SourceOp where
  | individual (id : AttId) (name : String)
  | room (id : AttId) (name : String)

/-- Execute the calls. -/
def Source.run (s : Source) : List SourceOp → Source
  | [] => s
  | .individual id name :: rest => Source.run (s.createIndividual id name) rest
  | .room id name :: rest => Source.run (s.createRoom id name) rest

/-- The attendee made by the last call about `id`. -/
def lastMade (id : AttId) : List SourceOp → Option (String × String) → Option (String × String)
  | [], acc => acc
  | .individual id' name :: rest, acc => lastMade id rest (if id' = id then some (name, "INDIVIDUAL") else acc)
  | .room id' name :: rest, acc => lastMade id rest (if id' = id then some (name, "ROOM") else acc)

theorem source_run (ops : List SourceOp) (s : Source) (id : AttId) :
    (Dict.get? (s.run ops) id).map (fun a => (a.name, a.type)) =
      lastMade id ops ((Dict.get? s id).map (fun a => (a.name, a.type))) := by
  induction ops generalizing s with
  | nil => rfl
  | cons op rest ih =>
    cases op with
    | individual id' name =>
      unfold Source.run lastMade
      rw [ih]
      unfold Source.createIndividual
      rw [Dict.get?_set]
      split <;> rfl
    | room id' name =>
      unfold Source.run lastMade
      rw [ih]
      unfold Source.createRoom
      rw [Dict.get?_set]
      split <;> rfl

/-- C80, first half: after any calls, the source holds under each id the attendee created last with that id;
`getAttendee` finds exactly these and raises KeyError for other ids, `getAttendeeFromSpec` returns None for
them. -/
theorem C80_source_map_partial (ops : List SourceOp) (id : AttId) :
    ((Dict.get? (Source.run [] ops) id).map (fun a => (a.name, a.type)) = lastMade id ops none) ∧
    ((∃ p, lastMade id ops none = some p) → (Source.run [] ops).getAttendee id = .ok id ∧
      (Source.run [] ops).fromSpec id = some id) ∧
    (lastMade id ops none = none → (Source.run [] ops).getAttendee id = raise .KeyError ∧
      (Source.run [] ops).fromSpec id = none) := by
  have h := source_run ops [] id
  refine ⟨h, ?_, ?_⟩
  · rintro ⟨p, hp⟩
    have hp : lastMade id ops ((Dict.get? ([] : Source) id).map (fun a => (a.name, a.type))) = some p := hp
    rw [hp] at h
    have hh : Dict.has (Source.run [] ops) id = true := by
      rw [Dict.has_iff_get?]
      cases hg : Dict.get? (Source.run [] ops) id with
      | none => rw [hg] at h; cases h
      | some a => exact ⟨a, rfl⟩
    unfold Source.getAttendee Source.fromSpec
    rw [if_pos hh, if_pos hh]
    exact ⟨rfl, rfl⟩
  · intro hp
    have hp : lastMade id ops ((Dict.get? ([] : Source) id).map (fun a => (a.name, a.type))) = none := hp
    rw [hp] at h
    have hh : ¬ Dict.has (Source.run [] ops) id = true := by
      rw [Dict.has_iff_get?]
      rintro ⟨a, ha⟩
      rw [ha] at h; cases h
    unfold Source.getAttendee Source.fromSpec
    rw [if_neg hh, if_neg hh]
    exact ⟨rfl, rfl⟩

/-- C80, concrete: an id used twice. -/
example : lastMade "r" [.individual "r" "Rob", .room "s" "Small", .room "r" "Red room"] none =
    some ("Red room", "ROOM") ∧
    Source.getAttendee (Source.run [] [.individual "r" "Rob", .room "s" "Small", .room "r" "Red room"]) "r"
      = .ok "r" := by decide

/-- C80, second half, is false: `findByName` returns only if the source is empty, and the other two
functions never return. -/
theorem C80_find_counterexample (s : Source) (query : String) (type : Option String) :
    ((∃ l, s.findByName query type = .ok l) ↔ s = []) ∧
    (∀ t, s.getAttendeesOfType t = raise .AttributeError) ∧ s.getAttendeeTypes = raise .TypeError := by
  refine ⟨?_, fun _ => rfl, rfl⟩
  unfold Source.findByName
  cases s with
  | nil => exact ⟨fun _ => rfl, fun _ => ⟨[], rfl⟩⟩
  | cons p rest =>
    constructor
    · rintro ⟨l, h⟩
      unfold findByNameLoop Attendee.getName at h
      cases h
    · intro h; cases h

/-! ### C81 -/

/-- C81 holds only vacuously: a query for `Period(start, minutes)` returns exactly if every matching event has
ended by `start`, and then it is empty. -/
theorem C81_period_partial (s : Storage) (hs : s.WF) (x m : Int) (c : Option Criteria) :
    (∀ l, s.getEventsPeriod x m c = .ok l → l = []) ∧
    ((∃ l, s.getEventsPeriod x m c = .ok l) ↔ ∀ ev, Stored s ev → Matches (c.getD {}) ev →
      ∃ d, ev.duration = some d ∧ dtInRange (ev.dtstart + d) = true ∧ ev.dtstart + d ≤ x) := by
  have key : ∀ evs : List Event, (∀ l, filterInPeriodDelta (periodOf x m) evs = .ok l → l = []) ∧
      ((∃ l, filterInPeriodDelta (periodOf x m) evs = .ok l) ↔ ∀ ev ∈ evs,
        ∃ d, ev.duration = some d ∧ dtInRange (ev.dtstart + d) = true ∧ ev.dtstart + d ≤ x) := by
    have one : ∀ ev : Event, (∀ b, inPeriodDelta ev.dtstart ev.duration (periodOf x m) = .ok b → b = false) ∧
        ((∃ b, inPeriodDelta ev.dtstart ev.duration (periodOf x m) = .ok b) ↔
          ∃ d, ev.duration = some d ∧ dtInRange (ev.dtstart + d) = true ∧ ev.dtstart + d ≤ x) := by
      intro ev
      unfold inPeriodDelta periodOf
      cases ev.duration with
      | none => simp
      | some d =>
        simp only [dtAdd]
        by_cases hr : dtInRange (ev.dtstart + d) = true
        · rw [if_pos hr]
          simp only [ok_bind]
          by_cases hx : ev.dtstart + d ≤ x
          · rw [if_pos hx]; simp [hr, hx]
          · rw [if_neg hx]; simp [hx]
        · rw [if_neg hr]; simp [hr, raise_bind]
    intro evs
    induction evs with
    | nil => simp [filterInPeriodDelta]
    | cons ev rest ih =>
      unfold filterInPeriodDelta
      constructor
      · intro l h
        simp only [bind_ok] at h
        obtain ⟨keep, h1, more, h2, h⟩ := h
        injection h with h
        rw [(one ev).1 keep h1, ih.1 more h2] at h
        exact h.symm
      · simp only [bind_ok, List.forall_mem_cons, ← ih.2, ← (one ev).2]
        constructor
        · rintro ⟨_, keep, h1, more, h2, _⟩; exact ⟨⟨keep, h1⟩, ⟨more, h2⟩⟩
        · rintro ⟨⟨keep, h1⟩, ⟨more, h2⟩⟩; exact ⟨_, keep, h1, more, h2, rfl⟩
  unfold Storage.getEventsPeriod
  refine ⟨(key _).1, ?_⟩
  rw [(key _).2]
  simp only [mem_matching hs, and_imp]

/-- C81, what is meant: when the length in the pair is added to its start, the query shows the matching events that are not over
at `start` and begin less than that many minutes after it (a day has 1440 minutes). -/
theorem C81_meant_partial (s : Storage) (hs : s.WF) (x m : Int) (c : Option Criteria) (l : List Event)
    (h : s.getEvents (some (periodOf x m).1) (some ((periodOf x m).1 + (periodOf x m).2)) c = .ok l) (ev : Event) :
    ev ∈ l ↔ Stored s ev ∧ Matches (c.getD {}) ev ∧ x < ev.dtstart + ev.duration.getD 0 ∧ 1440 * (ev.dtstart - x) < m * DAY := by
  rw [((C20_getEvents_exact s hs _ _ c).1 l h).2 ev]
  unfold periodOf
  simp only [Option.some.injEq, forall_eq']
  have : ev.dtstart < x + m * 60000000 ↔ 1440 * (ev.dtstart - x) < m * DAY := by
    rw [show DAY = 86400000000 from rfl]; omega
  rw [this]

/-- C81, what is meant, concrete: the hour from ten shows the meeting. -/
example : ∃ l, Sample.store.getEvents (some (periodOf (Sample.day + 10 * Sample.HOUR) 60).1)
    (some ((periodOf (Sample.day + 10 * Sample.HOUR) 60).1 + (periodOf (Sample.day + 10 * Sample.HOUR) 60).2)) none = .ok l ∧
    "m" ∈ l.map (·.uid) := ⟨_, rfl, by decide +kernel⟩

/-- C81 is false: an hour of the meeting asked for with `Period` raises TypeError, asked for as a pair of
datetimes it shows the meeting. -/
theorem C81_period_counterexample :
    Sample.store.getEventsPeriod (Sample.day + 10 * Sample.HOUR) 60 none = raise .TypeError ∧
    ∃ l, Sample.store.getEvents (some (Sample.day + 10 * Sample.HOUR)) (some (Sample.day + 11 * Sample.HOUR)) none = .ok l ∧
      "m" ∈ l.map (·.uid) := ⟨by decide +kernel, _, rfl, by decide +kernel⟩

/-- C81: a day long after everything in the sample store. -/
example : Sample.store.getEventsPeriod (Sample.day + 400 * DAY) 60 none = .ok [] := by decide +kernel

end CalCore
