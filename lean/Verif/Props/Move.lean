import Verif.Lemmas.Move
import Verif.Props.Samples
/- C111: queries do not depend on where in the calendar everything takes place. -/
namespace CalCore
open Spec

/-- C111: if all events of a store are moved by `D` days and all of them look the same from there, then whatever a
query about a period shows, the same query about the period `D` days later shows `D` days later: events,
occurrences and parts of occurrences with the same criteria, blocked and free periods for the same attendees and
hours.  Provided the moved period lies more than 400 days before the end of Python's calendar, and both queries
return. -/
theorem C111_events (s : Storage) (D b en : Int) (c : Option Criteria) (l l' : List Event)
    (h : s.getEvents (some b) (some en) c = .ok l)
    (h' : (moveStore D s).getEvents (some (b + D * DAY)) (some (en + D * DAY)) c = .ok l') :
    l' = l.map (moveEvent D) := getEvents_moved s b en c l l' h h'

/-- C111 for occurrences. -/
theorem C111_occurrences (s : Storage) (D b en : Int) (hD : 0 ≤ D) (hf : ∀ p ∈ s.events, FitsEvent D p.2)
    (he : dtDate en + D + 400 ≤ MAXORD) (c : Option Criteria) (l l' : List (Occurrence Event))
    (h : s.getOccurrences (some b) (some en) c = .ok l)
    (h' : (moveStore D s).getOccurrences (some (b + D * DAY)) (some (en + D * DAY)) c = .ok l') :
    l' = l.map (moveOcc D) := getOccurrences_moved hD he hf c l l' h h'

/-- C111 for parts of occurrences. -/
theorem C111_segmented (s : Storage) (D b en : Int) (hD : 0 ≤ D) (hf : ∀ p ∈ s.events, FitsEvent D p.2)
    (he : dtDate en + D + 400 ≤ MAXORD) (c : Option Criteria) (l l' : List (Occurrence Event))
    (h : s.getOccurrencesSegmented (some b) (some en) c = .ok l)
    (h' : (moveStore D s).getOccurrencesSegmented (some (b + D * DAY)) (some (en + D * DAY)) c = .ok l') :
    l' = l.map (moveOcc D) := getSegmented_moved hD he hf c l l' h h'

/-- C111 for blocked periods. -/
theorem C111_blocked (s : Storage) (D b en tb te : Int) (hD : 0 ≤ D) (hf : ∀ p ∈ s.events, FitsEvent D p.2)
    (he : dtDate en + D + 400 ≤ MAXORD) (atts : List AttId) (l l' : List (DateTime × DateTime))
    (h : s.getBlockedPeriods atts b en tb te = .ok l)
    (h' : (moveStore D s).getBlockedPeriods atts (b + D * DAY) (en + D * DAY) tb te = .ok l') :
    l' = l.map (movePeriod D) := getBlockedPeriods_moved tb te hD he hf atts l l' h h'

/-- C111 for free periods. -/
theorem C111_free (s : Storage) (D b en tb te : Int) (md : Option TimeDelta) (hD : 0 ≤ D)
    (hf : ∀ p ∈ s.events, FitsEvent D p.2) (he : dtDate en + D + 400 ≤ MAXORD) (atts : List AttId)
    (l l' : List (DateTime × DateTime)) (h : s.getFreePeriods atts b en tb te md = .ok l)
    (h' : (moveStore D s).getFreePeriods atts (b + D * DAY) (en + D * DAY) tb te md = .ok l') :
    l' = l.map (movePeriod D) := getFreePeriods_moved tb te md hD he hf atts l l' h h'

namespace Sample

/-- A meeting every second week and a call every third day, both of Alice. -/
def regulars : Storage := ((freshWorld "st" "host").run
  [.create day (some "w") { dtstart := day + 9 * HOUR, duration := some HOUR, organizer := some "alice"
                            recurrence := some ⟨.weekly [2], 2, none, none, [ymd2ord 2026 3 18]⟩ },
   .create day (some "d") { dtstart := day + 14 * HOUR, duration := some (2 * HOUR), organizer := some "alice"
                            recurrence := some ⟨.daily, 3, some 4, none, []⟩ }]).store

theorem regulars_fit : ∀ p ∈ regulars.events, FitsEvent 21 p.2 := by
  intro p hp
  have : p.2.recurrence = some ⟨.weekly [2], 2, none, none, [ymd2ord 2026 3 18]⟩ ∧ p.2.dtstart = day + 9 * HOUR ∨
      p.2.recurrence = some ⟨.daily, 3, some 4, none, []⟩ ∧ p.2.dtstart = day + 14 * HOUR := by
    have h2 : regulars.events = [regulars.events[0]'(by decide +kernel), regulars.events[1]'(by decide +kernel)] := by
      decide +kernel
    rw [h2] at hp
    rcases List.mem_cons.1 hp with rfl | hp
    · left; decide +kernel
    · rcases List.mem_cons.1 hp with rfl | hp
      · right; decide +kernel
      · cases hp
  rcases this with ⟨h1, h2⟩ | ⟨h1, h2⟩
  · intro r h
    rw [h1] at h
    cases h
    rw [h2]
    exact ⟨by decide, (by decide : (21 : Int) % 7 = 0), by decide +kernel, by decide +kernel⟩
  · intro r h
    rw [h1] at h
    cases h
    rw [h2]
    exact ⟨by decide, trivial, by decide +kernel, by decide +kernel⟩

end Sample

/-- C111, concrete: Alice's first two days, and the same three weeks later; both queries return. -/
example :
    let fr := fun (s : Storage) (D : Int) => s.getFreePeriods ["alice"] (Sample.day + D * DAY)
      (Sample.day + (D + 3) * DAY) (8 * Sample.HOUR) (18 * Sample.HOUR) none
    (∃ l, fr Sample.regulars 0 = .ok l ∧ l.length = 6 ∧ fr (moveStore 21 Sample.regulars) 21 = .ok (l.map (movePeriod 21))) ∧
    ∃ l, Sample.regulars.getOccurrences (some Sample.day) (some (Sample.day + 30 * DAY)) none = .ok l ∧ l.length = 8 ∧
      (moveStore 21 Sample.regulars).getOccurrences (some (Sample.day + 21 * DAY)) (some (Sample.day + 51 * DAY)) none =
        .ok (l.map (moveOcc 21)) := by
  refine ⟨⟨_, rfl, by decide +kernel, by decide +kernel⟩, ⟨_, rfl, by decide +kernel, by decide +kernel⟩⟩

/-- C111 needs rules that look the same from there: weekly rules name weekdays, and a day later the same
weekdays are other days. -/
theorem C111_weekday_counterexample :
    ∃ l l', Sample.regulars.getOccurrences (some Sample.day) (some (Sample.day + 7 * DAY)) none = .ok l ∧
      (moveStore 1 Sample.regulars).getOccurrences (some (Sample.day + DAY)) (some (Sample.day + 8 * DAY)) none = .ok l' ∧
      l' ≠ l.map (moveOcc 1) := by
  refine ⟨_, _, rfl, rfl, by decide +kernel⟩

end CalCore
