import Verif.Lemmas.Rename
import Verif.Props.Samples
/- C107: names of attendees do not matter. -/
namespace CalCore
open Spec

/-- The call does not import into a calendar with several attendees.  (Such an import chooses the organizer of
unattributed events by the order of a Python dictionary, which depends on the ids.) -/
def OneCalendar : Op → Prop
  | .import_ _ c _ _ _ _ _ _ => c.length ≤ 1
  | _ => True

/-- C107: after the same calls with other attendee ids the store holds the same events with other attendee ids, and
the same notifications have been sent. -/
theorem C107_run (f : AttId → AttId) (hf : f.Injective) (id host : String) (ops : List Op)
    (_ho : ∀ op ∈ ops, OneCalendar op) :
    (freshWorld id host).run (ops.map (renameOp f)) = renameWorld f ((freshWorld id host).run ops) :=
  rename_run hf ops (freshWorld id host)

/-- C107: a call with other ids raises exactly when the original call raises, and raises the same. -/
theorem C107_step (f : AttId → AttId) (hf : f.Injective) (w : World) (op : Op) (_ho : OneCalendar op) :
    ((renameWorld f w).step (renameOp f op)).2 = (w.step op).2 := by
  rw [rename_step hf]; rfl

/-- C107: the answers to queries are the same up to the ids: events, occurrences and parts of occurrences with other
ids, the same attendees of an event, and exactly the same blocked and free periods. -/
theorem C107_queries (f : AttId → AttId) (hf : f.Injective) (s : Storage) (b e : Option DateTime) (c : Option Criteria)
    (atts : List AttId) (pb pe : DateTime) (tb te : Time) (md : Option TimeDelta) :
    (renameStore f s).getEvents b e (c.map (renameCriteria f)) = (s.getEvents b e c).map (·.map (renameEvent f)) ∧
    (renameStore f s).getOccurrences b e (c.map (renameCriteria f)) =
      (s.getOccurrences b e c).map (·.map (renameOcc f)) ∧
    (renameStore f s).getOccurrencesSegmented b e (c.map (renameCriteria f)) =
      (s.getOccurrencesSegmented b e c).map (·.map (renameOcc f)) ∧
    (renameStore f s).getBlockedPeriods (atts.map f) pb pe tb te = s.getBlockedPeriods atts pb pe tb te ∧
    (renameStore f s).getFreePeriods (atts.map f) pb pe tb te md = s.getFreePeriods atts pb pe tb te md ∧
    (∀ ev st role, (renameEvent f ev).getAttendeeIds st role = (ev.getAttendeeIds st role).map (·.map f)) := by
  refine ⟨rename_getEvents hf s b e c, rename_getOccurrences hf s b e c, rename_getSegmented hf s b e c,
    rename_blocked hf s atts pb pe tb te, ?_, rename_getAttendeeIds hf⟩
  unfold Storage.getFreePeriods
  rw [rename_blocked hf]

/-- C107: the queries of an attendee. -/
theorem C107_attendee (f : AttId → AttId) (hf : f.Injective) (s : Storage) (a : AttId) (b e : Option DateTime)
    (c : Option Criteria) :
    (renameStore f s).attendeeGetEvents (f a) b e (c.map (renameCriteria f)) =
      (s.attendeeGetEvents a b e c).map (·.map (renameEvent f)) ∧
    (renameStore f s).attendeeGetOccurrences (f a) b e (c.map (renameCriteria f)) =
      (s.attendeeGetOccurrences a b e c).map (·.map (renameOcc f)) ∧
    (renameStore f s).getOrganizedEvents (f a) (c.map (renameCriteria f)) =
      (s.getOrganizedEvents a c).map (·.map (renameEvent f)) := by
  have h1 : attendeeCriteria (f a) (c.map (renameCriteria f)) = renameCriteria f (attendeeCriteria a c) := by
    cases c with
    | none => rfl
    | some c => exact rename_clone c [a]
  refine ⟨?_, ?_, ?_⟩
  · unfold Storage.attendeeGetEvents
    rw [h1]; exact rename_getEvents hf s b e (some _)
  · unfold Storage.attendeeGetOccurrences
    rw [h1]; exact rename_getOccurrences hf s b e (some _)
  · unfold Storage.getOrganizedEvents
    cases c with
    | none => exact rename_getEvents hf s none none (some { organizer := some a })
    | some c =>
      have : (renameCriteria f c).clone (organizer := some (f a)) = renameCriteria f (c.clone (organizer := some a)) := by
        unfold Criteria.clone renameCriteria
        cases c.organizer <;>
        · cases c.attendees with
          | none => rfl
          | some x => cases x <;> rfl
      simp only [Option.map_some]
      rw [this]
      exact rename_getEvents hf s none none (some _)

/-- Exchange Alice and Bob. -/
def swapAB (a : AttId) : AttId := if a = "alice" then "bob" else if a = "bob" then "alice" else a

theorem swapAB_injective : swapAB.Injective := by
  intro x y h
  unfold swapAB at h
  split at h <;> split at h <;> (try split at h) <;> (try split at h) <;> simp_all

/-- The first calls of the sample history: a meeting of Alice and Bob, a trip of Bob. -/
def firstOps : List Op := Sample.ops.take 4

/-- C107, concrete: the history with Alice and Bob exchanged; now it is Alice who is travelling. -/
example :
    (freshWorld "st" "host").run (firstOps.map (renameOp swapAB)) = renameWorld swapAB ((freshWorld "st" "host").run firstOps) ∧
    (let s := ((freshWorld "st" "host").run firstOps).store
     let s' := ((freshWorld "st" "host").run (firstOps.map (renameOp swapAB))).store
     let week := fun (s : Storage) a => s.getBlockedPeriods [a] Sample.day (Sample.day + 7 * DAY) 0 (DAY - 1)
     week s' "alice" = week s "bob" ∧ week s' "bob" = week s "alice" ∧ week s "alice" ≠ week s "bob") :=
  ⟨C107_run swapAB swapAB_injective "st" "host" firstOps (by
      intro op h
      simp only [firstOps, Sample.ops, List.take_succ_cons, List.take_zero, List.mem_cons, List.not_mem_nil, or_false] at h
      rcases h with rfl | rfl | rfl | rfl <;> trivial),
    by decide +kernel⟩

/-- C107 is false for a renaming that identifies attendees: when carol becomes bob, the trip of bob blocks carol. -/
theorem C107_injective_counterexample :
    let f : AttId → AttId := fun a => if a = "carol" then "bob" else a
    let ops := [Op.create Sample.day (some "t") Sample.trip]
    ((freshWorld "st" "host").run (ops.map (renameOp f))).store.getBlockedPeriods (["carol"].map f) Sample.day
        (Sample.day + 7 * DAY) 0 (DAY - 1) ≠
      ((freshWorld "st" "host").run ops).store.getBlockedPeriods ["carol"] Sample.day (Sample.day + 7 * DAY) 0 (DAY - 1) := by
  decide +kernel

end CalCore
