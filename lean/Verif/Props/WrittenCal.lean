import Verif.Lemmas.SourceFuel
import Verif.Lemmas.LangSame
import Verif.Props.Expand
import Verif.Props.Segments
import Verif.Props.Blocked
import Verif.Props.Store
import Mathlib.Data.Finset.Sort
/- Properties C133-C135: the queries of cal.py as they are written.  The statements are about running the syntax trees of
the source text (`Verif/Source/Cal.lean`), which tools/translate.py made from it, on objects that represent events,
criteria and storages (`Verif/Spec/RepresentCal.lean`). -/
namespace CalCore
open Spec Lang

namespace Sample

/-- Sets in the order of their sort, attendees without further attributes. -/
def listing : Listing := ⟨fun s => s.sort (· ≤ ·), fun _ => []⟩

theorem listing_faithful : listing.Faithful := fun _ _ => Finset.mem_sort (· ≤ ·)

end Sample

/-! ### C133 -/

/-- C133: `inPeriod` as written, for any object with a start and a duration: whether it ends after the beginning and
starts before the end of the period, where an end that is None is no bound.  If the period has a beginning, then
an object whose end is not a datetime raises OverflowError, and one without duration TypeError. -/
theorem C133_inPeriod (c : String) (attrs : List (String × Val)) (t : Int) (dur b e : Option Int)
    (h1 : getAttr "dtstart" attrs = .ok (.datetime t)) (h2 : getAttr "duration" attrs = .ok (ofOption .delta dur)) :
    (∀ d, dur = some d → (b ≠ none → dtInRange (t + d) = true) →
      ∃ r, Gives "inPeriod" [.obj c attrs, ofPeriod b e] (.ok (.bool r)) ∧
        (r = true ↔ (∀ b', b = some b' → b' < t + d) ∧ (∀ e', e = some e' → t < e'))) ∧
    (∀ d, dur = some d → b ≠ none → dtInRange (t + d) = false →
      Gives "inPeriod" [.obj c attrs, ofPeriod b e] (.error (.py .OverflowError))) ∧
    (dur = none → b ≠ none → Gives "inPeriod" [.obj c attrs, ofPeriod b e] (.error (.py .TypeError))) ∧
    (dur = none → b = none → ∃ r, Gives "inPeriod" [.obj c attrs, ofPeriod b e] (.ok (.bool r)) ∧
        (r = true ↔ ∀ e', e = some e' → t < e')) := by
  have key : Gives "inPeriod" [.obj c attrs, ofPeriod b e] (toM .bool (inPeriod t dur b e)) :=
    gives_of 0 1 (fun W n _ => inPeriod_prog W n c attrs t dur b e h1 h2)
  refine ⟨fun d hd hr => ?_, fun d hd hb hr => ?_, fun hd hb => ?_, fun hd hb => ?_⟩
  · subst hd
    cases b with
    | none =>
      cases e with
      | none => exact ⟨true, key, by simp⟩
      | some e => exact ⟨_, key, by simp⟩
    | some b =>
      have hd : dtAdd t d = .ok (t + d) := dtAdd_ok.2 ⟨hr (by simp), rfl⟩
      unfold inPeriod at key
      simp only [] at key
      rw [hd, ok_bind] at key
      by_cases h : t + d ≤ b
      · rw [if_pos h] at key
        exact ⟨false, key, ⟨fun h' => (by cases h'), fun h' => (by have := h'.1 b rfl; omega)⟩⟩
      · rw [if_neg h] at key
        cases e with
        | none => exact ⟨true, key, by simp; omega⟩
        | some e => exact ⟨_, key, by simp; omega⟩
  · subst hd
    cases b with
    | none => exact absurd rfl hb
    | some b =>
      have hd : dtAdd t d = raise .OverflowError := by unfold dtAdd; rw [if_neg (by rw [hr]; simp)]
      unfold inPeriod at key
      simp only [] at key
      rw [hd, raise_bind] at key
      exact key
  · subst hd
    cases b with
    | none => exact absurd rfl hb
    | some b => exact key
  · subst hd hb
    cases e with
    | none => exact ⟨true, key, by simp⟩
    | some e => exact ⟨_, key, by simp⟩

/-- C133: `sameDay` as written says whether two datetimes are on the same day. -/
theorem C133_sameDay (a b : Int) :
    ∃ r, Gives "sameDay" [.datetime a, .datetime b] (.ok (.bool r)) ∧
      (r = true ↔ ∃ d x y, IsTime x ∧ IsTime y ∧ a = combine d x ∧ b = combine d y) := by
  refine ⟨_, gives_of 0 1 (fun W n _ => by rw [call_eq (d := Source.sameDay) rfl]; exact sameDay_call _ _ a b), ?_⟩
  rw [decide_eq_true_eq]
  unfold IsTime combine dtDate DAY
  constructor
  · intro h
    exact ⟨a / 86400000000, a % 86400000000, b % 86400000000, by omega, by omega, by omega, by omega⟩
  · rintro ⟨d, x, y, h1, h2, rfl, rfl⟩
    omega

/-- C133: `roundtimedelta` as written gives the least whole number of days that is not shorter, and raises
OverflowError if that is more days than a timedelta can have. -/
theorem C133_roundtimedelta (t : Int) (ht : -(999999999 * DAY) ≤ t ∧ t < 1000000000 * DAY) :
    ∃ n : Int, (n - 1) * DAY < t ∧ t ≤ n * DAY ∧
      (n ≤ 999999999 → Gives "roundtimedelta" [.delta t] (.ok (.delta (n * DAY)))) ∧
      (999999999 < n → Gives "roundtimedelta" [.delta t] (.error (.py .OverflowError))) := by
  have key : ∀ r, (if t % DAY > 0 then mkDelta (roundtimedelta t) else .ok (.delta t)) = r →
      Gives "roundtimedelta" [.delta t] r := fun r h =>
    gives_of 0 1 (fun W n _ => by rw [call_eq (d := Source.roundtimedelta) rfl, roundtimedelta_call]; exact h)
  unfold roundtimedelta mkDelta at key
  by_cases h : t % DAY > 0
  · refine ⟨t / DAY + 1, by unfold DAY at *; omega, by unfold DAY at *; omega, fun hn => key _ ?_, fun hn => key _ ?_⟩
    · rw [if_pos h, if_pos h, if_pos (by unfold DAY at *; omega)]
    · rw [if_pos h, if_pos h, if_neg (by unfold DAY at *; omega)]
      rfl
  · refine ⟨t / DAY, by unfold DAY at *; omega, by unfold DAY at *; omega, fun hn => key _ ?_, fun hn => ?_⟩
    · rw [if_neg h, show t / DAY * DAY = t by unfold DAY at *; omega]
    · exfalso
      unfold DAY at *
      omega

/-- C133: `expand` as written returns, for an event whose rule has a positive interval and a date as until, exactly one
occurrence for each start of the event that overlaps the period, in increasing order. -/
theorem C133_expand (L : Listing) (e : Event) (he : Regular e) (b en : Int) :
    (∃ r, Answers (ofEvent L e) "expand" [ofPeriod (some b) (some en)] r) ∧
    ∀ v, Answers (ofEvent L e) "expand" [ofPeriod (some b) (some en)] (.ok v) →
      ∃ l : List (Occurrence Event), v = .list (l.map (ofOcc (ofEvent L))) ∧ (l.map (·.dtstart)).Pairwise (· < ·) ∧
        ∀ o, o ∈ l ↔ o.original = e ∧ StartsAt e o.dtstart ∧ e.duration = some o.duration ∧
          b < o.dtstart + o.duration ∧ o.dtstart < en := by
  obtain ⟨N, hN⟩ := exists_eventFuel [e]
  have key : Answers (ofEvent L e) "expand" [ofPeriod (some b) (some en)] (toM (ofOccs L) (e.expand b en)) :=
    answers_of N 4 (fun W n hW => expand_prog W n L e b en (expandable_regular he en) ((hN e (List.mem_singleton.2 rfl)).mono hW))
  refine ⟨⟨_, key⟩, fun v hv => ?_⟩
  have h := key.unique hv
  cases hx : e.expand b en with
  | error f => rw [hx, toM_error] at h; cases h
  | ok l =>
    rw [hx, toM_ok] at h
    injection h with h
    refine ⟨l, h.symm, ?_⟩
    cases hr : e.recurrence with
    | none =>
      obtain ⟨dur, hd, rfl⟩ := C24_expand_single e hr b en l hx
      unfold StartsAt
      rw [hr]
      split
      · next hc =>
        refine ⟨by simp, fun o => ?_⟩
        rw [List.mem_singleton]
        constructor
        · rintro rfl; exact ⟨rfl, rfl, hd, hc⟩
        · rintro ⟨h1, h2, h3, _⟩
          rw [hd] at h3
          injection h3 with h3
          cases o
          simp only [] at h1 h2 h3
          subst h1 h2 h3
          rfl
      · next hc =>
        refine ⟨by simp, fun o => ⟨fun h => (by cases h), fun ⟨h1, h2, h3, h4⟩ => ?_⟩⟩
        simp only [] at h2
        rw [hd] at h3
        injection h3 with h3
        subst h3
        rw [h2] at h4
        exact absurd h4 hc
    | some r =>
      obtain ⟨h1, h2⟩ := C24_expand_exact e r hr (he.2 r hr).1 (he.2 r hr).2 he.1 b en l hx
      refine ⟨h1, fun o => ?_⟩
      rw [h2]
      unfold StartsAt
      rw [hr]
      simp only []
      constructor
      · rintro ⟨d, dur, h3, h4, rfl, h5⟩
        exact ⟨rfl, ⟨d, h4, rfl⟩, h3, h5⟩
      · rintro ⟨h3, ⟨d, h4, h5⟩, h6, h7⟩
        refine ⟨d, o.duration, h6, h4, ?_, h7⟩
        cases o
        simp only [] at h3 h5
        subst h3 h5
        rfl

/-- C133: `expand` as written gives what the function `Event.expand` of the model gives, unless its rule hangs. -/
theorem C133_expand_same (L : Listing) (e : Event) (b en : Int) (h1 : dtInRange e.dtstart = true)
    (h2 : ∀ r, e.recurrence = some r → ¬ Hangs r e.dtstart (some (dtDate en))) :
    Answers (ofEvent L e) "expand" [ofPeriod (some b) (some en)]
      (toM (fun l => .list (l.map (ofOcc (ofEvent L)))) (e.expand b en)) := by
  obtain ⟨N, hN⟩ := exists_eventFuel [e]
  exact answers_of N 4 (fun W n hW => expand_prog W n L e b en (expandable_of h1 h2) ((hN e (List.mem_singleton.2 rfl)).mono hW))

/-- C133: `segmentOccurrences` as written, on occurrences of anything.  If it returns, the segments cover each instant
of the period exactly as often as the occurrences, and no instant outside of it; if durations are not negative, each
segment lies within one of the occurrences, within the period and within a day. -/
theorem C133_segments {α : Type} (f : α → Val) (b en : Int) (l : List (Occurrence α)) :
    (∃ r, Gives "segmentOccurrences" [ofPeriod (some b) (some en), .list (l.map (ofOcc f))] r) ∧
    ∀ v, Gives "segmentOccurrences" [ofPeriod (some b) (some en), .list (l.map (ofOcc f))] (.ok v) →
      ∃ segs : List (Occurrence α), v = .list (segs.map (ofOcc f)) ∧
        (∀ (P : α → Bool) (t : Int), segs.countP (fun s => P s.original && decide (Covers s t)) =
          if b ≤ t ∧ t < en then l.countP (fun o => P o.original && decide (Covers o t)) else 0) ∧
        ((∀ o ∈ l, 0 ≤ o.duration) → ∀ seg ∈ segs, ∃ o ∈ l, seg.original = o.original ∧ 0 ≤ seg.duration ∧
          b ≤ seg.dtstart ∧ seg.dtstart + seg.duration ≤ en ∧
          o.dtstart ≤ seg.dtstart ∧ seg.dtstart + seg.duration ≤ o.dtstart + o.duration ∧
          seg.dtstart + seg.duration ≤ combine (dtDate seg.dtstart + 1) 0) := by
  have key : Gives "segmentOccurrences" [ofPeriod (some b) (some en), .list (l.map (ofOcc f))]
      (toM (fun l => .list (l.map (ofOcc f))) (segmentOccurrences b en l)) :=
    gives_of ((en / DAY - b / DAY).toNat + 5) 2 (fun W n hW => segment_prog f W n b en hW l)
  refine ⟨⟨_, key⟩, fun v hv => ?_⟩
  have h := key.unique hv
  cases hx : segmentOccurrences b en l with
  | error f => rw [hx, toM_error] at h; cases h
  | ok segs =>
    rw [hx, toM_ok] at h
    injection h with h
    exact ⟨segs, h.symm, C21_segments_cover b en l segs hx, fun hd => C22_segments_fit b en l segs hd hx⟩

/-- C133: `segmentOccurrences` as written gives what the function of the model gives. -/
theorem C133_segments_same {α : Type} (f : α → Val) (b en : Int) (l : List (Occurrence α)) :
    Gives "segmentOccurrences" [ofPeriod (some b) (some en), .list (l.map (ofOcc f))]
      (toM (fun l => .list (l.map (ofOcc f))) (segmentOccurrences b en l)) :=
  gives_of ((en / DAY - b / DAY).toNat + 5) 2 (fun W n hW => segment_prog f W n b en hW l)

namespace Sample

/-- On every Monday from 2026-03-02 at 22:00, for three hours, but not on the 9th. -/
def weekly : Event :=
  { blankEvent "w" with
    dtstart := day + 22 * HOUR, duration := some (3 * HOUR), recurrence := some ⟨.weekly [], 1, none, none, [ymd2ord 2026 3 9]⟩ }

end Sample

/-- C133, concrete: a weekly event over midnight, in three weeks that begin shortly after its first start; and the pieces
of one of its occurrences. -/
example :
    Regular Sample.weekly ∧
    Source.prog.invoke 30 5 (ofEvent Sample.listing Sample.weekly) "expand"
        [ofPeriod (some (Sample.day + 23 * Sample.HOUR)) (some (Sample.day + 21 * DAY))] []
      = .ok (.list ([⟨Sample.day + 22 * Sample.HOUR, 3 * Sample.HOUR, Sample.weekly⟩,
          ⟨Sample.day + 14 * DAY + 22 * Sample.HOUR, 3 * Sample.HOUR, Sample.weekly⟩].map (ofOcc (ofEvent Sample.listing)))) ∧
    Source.prog.call 9 5 "segmentOccurrences" [ofPeriod (some (Sample.day + 23 * Sample.HOUR)) (some (Sample.day + 2 * DAY)),
        .list [ofOcc .str ⟨Sample.day + 22 * Sample.HOUR, 3 * Sample.HOUR, "w"⟩]] []
      = .ok (.list ([⟨Sample.day + DAY, Sample.HOUR, "w"⟩, ⟨Sample.day + 23 * Sample.HOUR, Sample.HOUR, "w"⟩].map (ofOcc .str))) ∧
    Source.prog.call 9 5 "roundtimedelta" [.delta (25 * Sample.HOUR)] [] = .ok (.delta (2 * DAY)) ∧
    Source.prog.call 9 5 "inPeriod" [.obj "Timed" [("dtstart", .datetime 5), ("duration", .none)], ofPeriod (some 3) none] []
      = .error (.py .TypeError) := by
  refine ⟨⟨by decide +kernel, fun r h => ?_⟩, sameM_eq (by decide +kernel), sameM_eq (by decide +kernel), sameM_eq (by decide +kernel),
    sameM_eq (by decide +kernel)⟩
  injection h with h
  subst h
  exact ⟨by decide, fun t h => (by cases h)⟩

/-! ### C134 -/

/-- C134: the accessors of the participation as written: status and role of an attendee are what the two dictionaries
hold for its id, None if they hold nothing; it attends if it has a status; and an event is in a category if its set has it. -/
theorem C134_participation (L : Listing) (hL : L.Faithful) (e : Event) (a : AttId) (cat : String) :
    Answers (ofEvent L e) "getParticipationStatus" [ofAttendee L a] (.ok (ofOption .str (Dict.get? e.pstate a))) ∧
    Answers (ofEvent L e) "getParticipationRole" [ofAttendee L a] (.ok (ofOption .str (Dict.get? e.prole a))) ∧
    (∃ r, Answers (ofEvent L e) "hasAttendee" [ofAttendee L a] (.ok (.bool r)) ∧ (r = true ↔ Attends e a)) ∧
    (∃ r, Answers (ofEvent L e) "inCategory" [.str cat] (.ok (.bool r)) ∧ (r = true ↔ cat ∈ e.categories)) ∧
    Answers (ofEvent L e) "getOrganizerId" [] (.ok (ofOption .str e.organizerId)) := by
  refine ⟨answers_of 0 2 (fun W n _ => getStatus_prog W n L e a), answers_of 0 2 (fun W n _ => getRole_prog W n L e a),
    ⟨_, answers_of 0 3 (fun W n _ => hasAttendee_prog W n L e a), ?_⟩,
    ⟨_, answers_of 0 1 (fun W n _ => inCategory_prog W n L hL e cat), ?_⟩,
    answers_of 0 1 (fun W n _ => getOrganizerId_prog W n L e)⟩
  · unfold Event.hasAttendee Event.getStatus Attends
    exact Option.isSome_iff_exists
  · unfold Event.inCategory
    exact decide_eq_true_iff

/-- C134: criteria as written match exactly the events they describe. -/
theorem C134_match (L : Listing) (hL : L.Faithful) (c : Criteria) (e : Event) :
    ∃ r, Answers (ofCriteria L c) "_match" [ofEvent L e] (.ok (.bool r)) ∧ (r = true ↔ Matches c e) :=
  ⟨_, answers_of 0 4 (fun W n _ => match_prog W n L hL e "SearchCriteria" c), C36_match_iff c e⟩

/-- C134: criteria are made from a list of attendees, from one attendee, or from none. -/
theorem C134_criteria (L : Listing) (c : Criteria) (a : AttId) :
    Makes "SearchCriteria" [ofOption (fun l => .list (l.map (ofAttendee L))) c.attendees, ofOption .str c.status,
      ofOption .str c.role, ofOption (fun l => .list (l.map .str)) c.categories, ofOption (ofAttendee L) c.organizer]
      (.ok (ofCriteria L c)) ∧
    Makes "SearchCriteria" [ofAttendee L a, ofOption .str c.status,
      ofOption .str c.role, ofOption (fun l => .list (l.map .str)) c.categories, ofOption (ofAttendee L) c.organizer]
      (.ok (ofCriteria L { c with attendees := some [a] })) := by
  refine ⟨makes_of 0 1 (fun W n _ => ?_), makes_of 0 1 (fun W n _ => criteria_new_one W n _ L a _ _ _ _)⟩
  cases h : c.attendees with
  | none => 
    refine (criteria_new_none W n "SearchCriteria" _ _ _ _).trans ?_
    unfold ofCriteria criteriaAttrs
    rw [h]
    rfl
  | some l =>
    refine (criteria_new_list W n "SearchCriteria" _ _ _ _ _).trans ?_
    unfold ofCriteria criteriaAttrs
    rw [h]
    rfl

/-- C134: `getEvent` as written returns the event stored under an id, and raises KeyError if there is none; `hasEvent`
says which. -/
theorem C134_getEvent (L : Listing) (s : Storage) (u : Uid) :
    (∀ e, Dict.get? s.events u = some e →
      Answers (ofManager L s) "getEvent" [.str u] (.ok (ofEvent L e)) ∧
      Answers (ofManager L s) "hasEvent" [.str u] (.ok (.bool true))) ∧
    (Dict.get? s.events u = none →
      Answers (ofManager L s) "getEvent" [.str u] (.error (.py .KeyError)) ∧
      Answers (ofManager L s) "hasEvent" [.str u] (.ok (.bool false))) := by
  have h1 : Answers (ofManager L s) "getEvent" [.str u] (toM (ofEvent L) (s.getEvent u)) :=
    answers_of 0 2 (fun W n _ => manager_getEvent W n L s u)
  have h2 : Answers (ofManager L s) "hasEvent" [.str u] (.ok (.bool (s.hasEvent u))) :=
    answers_of 0 3 (fun W n _ => manager_hasEvent W n L s u)
  unfold Storage.getEvent at h1
  unfold Storage.hasEvent Storage.getEvent at h2
  constructor
  · intro e h
    rw [h] at h1 h2
    exact ⟨h1, h2⟩
  · intro h
    rw [h] at h1 h2
    exact ⟨h1, h2⟩

/-- C134: `getEvents` as written returns, each once, exactly the stored events that match the criteria, end after the
beginning of the period and start before its end; unless the period has a beginning and a matching event has no end
(no duration, or beyond the datetimes): then it raises. -/
theorem C134_getEvents (L : Listing) (hL : L.Faithful) (s : Storage) (hs : s.WF) (b e : Option Int) (c : Option Criteria) :
    ((∀ b', b = some b' → ∀ ev, Stored s ev → Matches (c.getD {}) ev →
        ∃ d, ev.duration = some d ∧ dtInRange (ev.dtstart + d) = true) →
      ∃ evs : List Event,
        Answers (ofManager L s) "getEvents" [ofPeriod b e, ofOption (ofCriteria L) c] (.ok (.list (evs.map (ofEvent L)))) ∧
        (evs.map (·.uid)).Nodup ∧ ∀ ev, ev ∈ evs ↔ Stored s ev ∧ Matches (c.getD {}) ev ∧
          (∀ b', b = some b' → b' < ev.dtstart + ev.duration.getD 0) ∧ (∀ e', e = some e' → ev.dtstart < e')) ∧
    ((¬ ∀ b', b = some b' → ∀ ev, Stored s ev → Matches (c.getD {}) ev →
        ∃ d, ev.duration = some d ∧ dtInRange (ev.dtstart + d) = true) →
      ∃ x, Answers (ofManager L s) "getEvents" [ofPeriod b e, ofOption (ofCriteria L) c] (.error x)) := by
  have key : Answers (ofManager L s) "getEvents" [ofPeriod b e, ofOption (ofCriteria L) c]
      (toM (fun l => .list (l.map (ofEvent L))) (s.getEvents b e c)) :=
    answers_of 0 7 (fun W n _ => manager_getEvents W n L hL s b e c)
  obtain ⟨h1, h2⟩ := C20_getEvents_exact s hs b e c
  cases hx : s.getEvents b e c with
  | ok l =>
    rw [hx] at key
    exact ⟨fun _ => ⟨l, key, h1 l hx⟩, fun h => absurd (h2.1 ⟨l, hx⟩) h⟩
  | error f =>
    rw [hx] at key
    rw [toM_error] at key
    refine ⟨fun h => ?_, fun _ => ⟨_, key⟩⟩
    obtain ⟨l, h⟩ := h2.2 h
    rw [hx] at h
    cases h

/-- C134: `getOccurrences` as written asserts that the period is bounded; if it returns, the occurrences are exactly the
starts of the matching stored events that overlap the period, with the duration of their event. -/
theorem C134_getOccurrences (L : Listing) (hL : L.Faithful) (s : Storage) (hs : s.WF) (hg : ∀ ev, Stored s ev → Regular ev)
    (b e : Option Int) (c : Option Criteria) :
    (b = none ∨ e = none →
      Answers (ofManager L s) "getOccurrences" [ofPeriod b e, ofOption (ofCriteria L) c] (.error (.py .AssertionError))) ∧
    ∀ b' e', b = some b' → e = some e' →
      (∃ r, Answers (ofManager L s) "getOccurrences" [ofPeriod b e, ofOption (ofCriteria L) c] r) ∧
      ∀ v, Answers (ofManager L s) "getOccurrences" [ofPeriod b e, ofOption (ofCriteria L) c] (.ok v) →
        ∃ l : List (Occurrence Event), v = .list (l.map (ofOcc (ofEvent L))) ∧
          ∀ o, o ∈ l ↔ Stored s o.original ∧ Matches (c.getD {}) o.original ∧ StartsAt o.original o.dtstart ∧
            o.original.duration = some o.duration ∧ b' < o.dtstart + o.duration ∧ o.dtstart < e' := by
  obtain ⟨N, hN⟩ := exists_fuel s
  have key : Answers (ofManager L s) "getOccurrences" [ofPeriod b e, ofOption (ofCriteria L) c]
      (toM (ofOccs L) (s.getOccurrences b e c)) :=
    answers_of N 7 (fun W n hW => manager_getOccurrences W n L hL s b e c (fun b' en _ _ =>
      ready_of c (fun ev hev => expandable_regular (hg ev ((hs.mem_values ev).1 hev)) en) (hN W hW)))
  refine ⟨fun h => ?_, fun b' e' hb he => ⟨⟨_, key⟩, fun v hv => ?_⟩⟩
  · rcases h with h | h
    · subst h; exact key
    · subst h
      cases b with
      | none => exact key
      | some b => exact key
  · subst hb he
    have h := key.unique hv
    cases hx : s.getOccurrences (some b') (some e') c with
    | error f => rw [hx, toM_error] at h; cases h
    | ok l =>
      rw [hx, toM_ok] at h
      injection h with h
      exact ⟨l, h.symm, C24_getOccurrences s hs c hg b' e' l hx⟩

/-- C134: the queries as written give what the functions of the model give, unless a rule hangs. -/
theorem C134_same (L : Listing) (hL : L.Faithful) (s : Storage) (hs : s.WF) (b e : Option Int) (c : Option Criteria)
    (hg : ∀ en, e = some en → ∀ ev, Stored s ev → dtInRange ev.dtstart = true ∧
      ∀ r, ev.recurrence = some r → ¬ Hangs r ev.dtstart (some (dtDate en))) :
    Answers (ofManager L s) "getEvents" [ofPeriod b e, ofOption (ofCriteria L) c]
      (toM (fun l => .list (l.map (ofEvent L))) (s.getEvents b e c)) ∧
    Answers (ofManager L s) "getOccurrences" [ofPeriod b e, ofOption (ofCriteria L) c]
      (toM (fun l => .list (l.map (ofOcc (ofEvent L)))) (s.getOccurrences b e c)) ∧
    Answers (ofManager L s) "getOccurrencesSegmented" [ofPeriod b e, ofOption (ofCriteria L) c]
      (toM (fun l => .list (l.map (ofOcc (ofEvent L)))) (s.getOccurrencesSegmented b e c)) := by
  obtain ⟨N, hN⟩ := exists_fuel s
  have hr : ∀ W, N ≤ W → ∀ b' en, b = some b' → e = some en → Ready W s c en := fun W hW b' en _ he =>
    ready_of c (fun ev hev => have h := hg en he ev ((hs.mem_values ev).1 hev); expandable_of h.1 h.2) (hN W hW)
  refine ⟨answers_of 0 7 (fun W n _ => manager_getEvents W n L hL s b e c),
    answers_of N 7 (fun W n hW => manager_getOccurrences W n L hL s b e c (hr W hW)),
    answers_of (max N (((e.getD 0) / DAY - (b.getD 0) / DAY).toNat + 5)) 8 (fun W n hW =>
      manager_segmented W n L hL s b e c (fun b' en hb he => ⟨hr W (by omega) b' en hb he, ?_⟩))⟩
  subst hb he
  simp only [Option.getD_some] at hW
  omega

/-- C134, concrete: on the second day there are the trip and the point event, and only the first of them has Alice. -/
example :
    (Source.prog.invoke 9 10 (ofManager Sample.listing Sample.store) "getEvents"
        [ofPeriod (some (Sample.day + DAY)) (some (Sample.day + 2 * DAY)), .none] []
      = .ok (.list (((Dict.values Sample.store.events).filter (fun e => e.uid ≠ "m")).map (ofEvent Sample.listing)))) ∧
    (Source.prog.invoke 9 10 (ofManager Sample.listing Sample.store) "getEvents"
        [ofPeriod (some (Sample.day + DAY)) (some (Sample.day + 2 * DAY)),
          ofCriteria Sample.listing { attendees := some ["alice"], status := some "NEEDS-ACTION" }] []
      = .ok (.list (((Dict.values Sample.store.events).filter (fun e => e.uid = "t")).map (ofEvent Sample.listing)))) ∧
    Dict.keys Sample.store.events = ["m", "t", "p"] ∧ Sample.listing.Faithful :=
  ⟨sameM_eq (by decide +kernel), sameM_eq (by decide +kernel), by decide +kernel, Sample.listing_faithful⟩

/-! ### C135 -/

/-- C135: blocked and free periods as written give what the functions of the model give, unless a rule hangs. -/
theorem C135_same (L : Listing) (hL : L.Faithful) (s : Storage) (hs : s.WF) (atts : List AttId) (b en tb te : Int)
    (md : Option Int) (hg : ∀ ev, Stored s ev → dtInRange ev.dtstart = true ∧
      ∀ r, ev.recurrence = some r → ¬ Hangs r ev.dtstart (some (dtDate en))) :
    Answers (ofManager L s) "getBlockedPeriods"
      [.list (atts.map (ofAttendee L)), ofPeriod (some b) (some en), .tuple [.time tb, .time te]]
      (toM (fun l => .list (l.map dtPair)) (s.getBlockedPeriods atts b en tb te)) ∧
    Answers (ofManager L s) "getFreePeriods"
      [.list (atts.map (ofAttendee L)), ofPeriod (some b) (some en), .tuple [.time tb, .time te], ofOption .delta md]
      (toM (fun l => .list (l.map dtPair)) (s.getFreePeriods atts b en tb te md)) := by
  obtain ⟨N, hN⟩ := exists_fuel s
  have hr : ∀ W, N ≤ W → ∀ a ∈ atts, Ready W s (some { attendees := some [a] }) en := fun W hW a _ =>
    ready_of _ (fun ev hev => have h := hg ev ((hs.mem_values ev).1 hev); expandable_of h.1 h.2) (hN W hW)
  exact ⟨answers_of (max N ((en / DAY - b / DAY).toNat + 5)) 9 (fun W n hW =>
      manager_blocked W n L hL s atts b en tb te (hr W (by omega)) (by omega)),
    answers_of (max N ((en / DAY - b / DAY).toNat + 5)) 10 (fun W n hW =>
      manager_free W n L hL s atts b en tb te md (hr W (by omega)) (by omega))⟩

theorem regular_hangs {s : Storage} (hg : ∀ ev, Stored s ev → Regular ev) (en : Int) :
    ∀ ev, Stored s ev → dtInRange ev.dtstart = true ∧
      ∀ r, ev.recurrence = some r → ¬ Hangs r ev.dtstart (some (dtDate en)) := fun ev hev =>
  ⟨(hg ev hev).1, fun r hr hh => by have := ((hg ev hev).2 r hr).1; have := hh.1; omega⟩

/-- C135: if `getBlockedPeriods` as written returns, the periods are in order, apart from each other, and an instant of the
queried period is in one of them exactly if its time of day is outside the window or one of the attendees is busy. -/
theorem C135_blocked (L : Listing) (hL : L.Faithful) (s : Storage) (hs : s.WF) (hg : ∀ ev, Stored s ev → Regular ev)
    (atts : List AttId) (b en tb te : Int) (htb : IsTime tb) (hte : IsTime te) (v : Val)
    (h : Answers (ofManager L s) "getBlockedPeriods"
      [.list (atts.map (ofAttendee L)), ofPeriod (some b) (some en), .tuple [.time tb, .time te]] (.ok v)) :
    ∃ R : List (Int × Int), v = .list (R.map dtPair) ∧ Separated R ∧
      ∀ t, b ≤ t → t < en → (Covered R t ↔ ¬ InWindow tb te t ∨ ∃ a ∈ atts, BusyAt s a t) := by
  have key := (C135_same L hL s hs atts b en tb te none (regular_hangs hg en)).1.unique h
  cases hx : s.getBlockedPeriods atts b en tb te with
  | error f => rw [hx, toM_error] at key; cases key
  | ok R =>
    rw [hx, toM_ok] at key
    injection key with key
    exact ⟨R, key.symm, C25_separated s atts b en tb te R hx, C26_blocked_partial s hs hg atts b en tb te htb hte R hx⟩

/-- C135: if `getFreePeriods` as written returns, for events without negative durations, the free periods cover exactly
the instants of the days of the period that are inside the window and, if they lie in the period, when none of the
attendees is busy; a minimal duration selects the periods that are at least as long. -/
theorem C135_free (L : Listing) (hL : L.Faithful) (s : Storage) (hs : s.WF) (hg : ∀ ev, Stored s ev → Regular ev)
    (hn : NoNegative s) (atts : List AttId) (b en tb te : Int) (htb : IsTime tb) (hte : IsTime te) (hbe : b < en)
    (md : Option Int) (v : Val)
    (h : Answers (ofManager L s) "getFreePeriods"
      [.list (atts.map (ofAttendee L)), ofPeriod (some b) (some en), .tuple [.time tb, .time te], ofOption .delta md] (.ok v)) :
    ∃ F : List (Int × Int), v = .list ((match md with
        | none => F
        | some m => F.filter (fun p => decide (m ≤ p.2 - p.1))).map dtPair) ∧
      ∀ t, Covered F t ↔ dtDate b ≤ dtDate t ∧ t < (if dtTime en = 0 then en else combine (dtDate en + 1) 0) ∧
        InWindow tb te t ∧ (b ≤ t → t < en → ∀ a ∈ atts, ¬ BusyAt s a t) := by
  have key := (C135_same L hL s hs atts b en tb te md (regular_hangs hg en)).2.unique h
  cases hx : s.getFreePeriods atts b en tb te none with
  | error f =>
    cases md with
    | none => rw [hx, toM_error] at key; cases key
    | some m =>
      rw [C30_minimal_duration, hx] at key
      change toM _ (.error f) = _ at key
      rw [toM_error] at key
      cases key
  | ok F =>
    refine ⟨F, ?_, (C29_general s hs hg hn atts b en tb te htb hte hbe F hx).1⟩
    cases md with
    | none =>
      rw [hx, toM_ok] at key
      injection key with key
      exact key.symm
    | some m =>
      rw [C30_minimal_duration, hx] at key
      injection key with key
      exact key.symm

/-- C135, concrete: three days of Alice and Bob, as the interpreter computes them. -/
example :
    Source.prog.invoke 9 10 (ofManager Sample.listing Sample.store) "getFreePeriods"
      [.list (["alice", "bob"].map (ofAttendee Sample.listing)), ofPeriod (some Sample.day) (some (Sample.day + 3 * DAY)),
        .tuple [.time (8 * Sample.HOUR), .time (21 * Sample.HOUR)]] [] =
      .ok (.list ([(Sample.day + 8 * Sample.HOUR, Sample.day + 10 * Sample.HOUR),
         (Sample.day + 12 * Sample.HOUR, Sample.day + 20 * Sample.HOUR),
         (Sample.day + 56 * Sample.HOUR, Sample.day + 69 * Sample.HOUR)].map dtPair)) ∧
    Source.prog.invoke 9 10 (ofManager Sample.listing Sample.store) "getBlockedPeriods"
      [.list (["alice", "bob"].map (ofAttendee Sample.listing)), ofPeriod (some Sample.day) (some (Sample.day + 3 * DAY)),
        .tuple [.time (8 * Sample.HOUR), .time (21 * Sample.HOUR)]] [] =
      .ok (.list ([(Sample.day, Sample.day + 8 * Sample.HOUR), (Sample.day + 10 * Sample.HOUR, Sample.day + 12 * Sample.HOUR),
         (Sample.day + 20 * Sample.HOUR, Sample.day + 56 * Sample.HOUR),
         (Sample.day + 69 * Sample.HOUR, Sample.day + 72 * Sample.HOUR)].map dtPair)) ∧
    (∀ ev, Stored Sample.store ev → Regular ev) ∧ Sample.store.WF :=
  ⟨sameM_eq (by decide +kernel), sameM_eq (by decide +kernel), sample_regular, Sample.store_wf⟩

end CalCore
