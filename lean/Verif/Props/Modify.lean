import Verif.Lemmas.SetOnObject
import Verif.Props.Samples
/- Property C54: willModify and setOnObject. -/
namespace CalCore
open Spec

/-- The attributes of the event, apart from participation, are those of the specification. -/
def Spec.SameAttributes (s : Spec) (e : Event) : Prop :=
  e.dtstart = s.dtstart ∧ e.duration = s.duration ∧ e.title = s.title ∧ e.description = s.description ∧
  e.location = s.location ∧ e.status = s.status ∧ e.recurrence = s.recurrence ∧ e.allday = s.allday ∧
  e.categories = s.categories ∧ e.transparent = s.transparent ∧ e.access = s.access ∧
  e.document = s.document ∧ e.organizerId = s.organizer

/-- C54: after a successful `setOnObject` the event has the attributes and the organizer of the
specification; everybody in the attendee list has the role and status of the last entry for them; an
organizer who is not in the list is a required participant who accepted.  Missing: attendees that are
neither listed nor organizer should be gone, but stay as they were (`C54_stale_counterexample`). -/
theorem C54_after_partial (s : Spec) (e e' : Event) (h : s.setOnObject e = (e', .ok ())) :
    SameAttributes s e' ∧
    (∀ a role status, lastEntry s.attendees a = some (role, status) →
      e'.getStatus a = some status ∧ e'.getRole a = some role) ∧
    (∀ a, s.organizer = some a → lastEntry s.attendees a = none →
      e'.getStatus a = some "ACCEPTED" ∧ e'.getRole a = some "REQ-PARTICIPANT") ∧
    (∀ a, s.organizer ≠ some a → lastEntry s.attendees a = none →
      e'.getStatus a = e.getStatus a ∧ e'.getRole a = e.getRole a) := by
  refine ⟨?_, ?_, ?_, ?_⟩
  · have hat := setOnObject_attributes s e
    rw [h] at hat
    unfold SameButParticipation at hat
    simp only [Spec.setAttrs, Event.mk.injEq] at hat
    obtain ⟨_, h1, h2, h3, h4, h5, h6, h7, h8, h9, h10, h11, h12, h13, _⟩ := hat
    exact ⟨h1, h2, h3, h4, h5, h6, h7, h8, h9, h10, h11, h12, h13⟩
  · intro a role status hl
    obtain ⟨h1, h2⟩ := setOnObject_lookup h a
    rw [h1, h2, hl]
    exact ⟨rfl, rfl⟩
  · intro a ho hl
    obtain ⟨h1, h2⟩ := setOnObject_lookup h a
    rw [h1, h2, hl, if_pos ho, if_pos ho]
    exact ⟨rfl, rfl⟩
  · intro a ho hl
    obtain ⟨h1, h2⟩ := setOnObject_lookup h a
    rw [h1, h2, hl, if_neg ho, if_neg ho]
    exact ⟨rfl, rfl⟩

/-- C54 without attendees that vanish: when all attendees of the event are listed or are the organizer, the
event has exactly the participants of the specification. -/
theorem C54_exactly_partial (s : Spec) (e e' : Event) (h : s.setOnObject e = (e', .ok ()))
    (hl : ∀ a x, e.getStatus a = some x → s.organizer = some a ∨ ∃ p ∈ s.attendees, p.1 = some a) (a : AttId) :
    (∃ x, e'.getStatus a = some x) ↔ s.organizer = some a ∨ ∃ p ∈ s.attendees, p.1 = some a := by
  have h1 := (setOnObject_lookup h a).1
  rw [h1]
  cases hle : lastEntry s.attendees a with
  | some q =>
    exact ⟨fun _ => Or.inr ⟨_, lastEntry_mem hle, rfl⟩, fun _ => ⟨q.2, rfl⟩⟩
  | none =>
    simp only [Option.map_none, Option.none_or]
    split
    · rename_i ho; exact ⟨fun _ => Or.inl ho, fun _ => ⟨_, rfl⟩⟩
    · rename_i ho
      constructor
      · rintro ⟨x, hx⟩; exact hl a x hx
      · rintro (h' | ⟨p, hp, hpa⟩)
        · exact absurd h' ho
        · exact absurd hpa (lastEntry_none.1 hle p hp)

/-- `willModify` false means no change, when the specification gives every attendee the role REQ-PARTICIPANT.
Missing: other roles, for which it is false (`C54_role_counterexample`). -/
theorem C54_false_partial (s : Spec) (e : Event) (hp : e.Parts)
    (hr : ∀ p ∈ s.attendees, p.2.1 = "REQ-PARTICIPANT") (h : s.willModify e = .ok false) :
    s.setOnObject e = (e, .ok ()) := by
  obtain ⟨hattr, org, horg, hoid, host, horo, hatt⟩ := willModify_false h
  obtain ⟨e', he'⟩ : ∃ e', s.setOnObject e = (e', .ok ()) := by
    unfold Spec.setOnObject
    refine setAttendeesLoop_valid _ _ (fun p hp => ?_)
    obtain ⟨a, ha, _⟩ := hatt p hp
    rw [hr p hp, ha]
    exact ⟨by decide, by simp⟩
  have hst : ∀ a, e'.getStatus a = e.getStatus a ∧ e'.getRole a = e.getRole a := by
    intro a
    obtain ⟨h1, h2⟩ := setOnObject_lookup he' a
    rw [h1, h2]
    cases hle : lastEntry s.attendees a with
    | some q =>
      have hm := lastEntry_mem hle
      obtain ⟨a', ha', h3, h4⟩ := hatt _ hm
      injection ha' with ha'
      subst ha'
      have := hr _ hm
      simp only [] at h3 h4 this
      rw [h3, h4, ← this]
      exact ⟨rfl, rfl⟩
    | none =>
      simp only [Option.map_none, Option.none_or, horg, Option.some.injEq]
      split
      · rename_i ho; subst ho; exact ⟨host.symm, horo.symm⟩
      · exact ⟨rfl, rfl⟩
  rw [he', setOnObject_fix hp he' hattr (hoid.trans horg.symm) (fun a => (hst a).1) (fun a => (hst a).2)]

/-- `willModify` true means a change, when the specification lists every attendee once, as REQ-PARTICIPANT, and
the organizer, if listed, as ACCEPTED.  Missing: other specifications, for which it is false
(`C54_spurious_counterexample`). -/
theorem C54_true_partial (s : Spec) (e : Event) (hn : (s.attendees.map (·.1)).Nodup)
    (hr : ∀ p ∈ s.attendees, p.2.1 = "REQ-PARTICIPANT" ∧ (p.1 = s.organizer → p.2.2 = "ACCEPTED"))
    (h : s.willModify e = .ok true) (e' : Event) (he' : s.setOnObject e = (e', .ok ())) : e' ≠ e := by
  rintro rfl
  have hat := setOnObject_attributes s e'
  rw [he'] at hat
  unfold SameButParticipation at hat
  rcases willModify_true h with h | ⟨a, ha, h⟩ | ⟨p, hp, a, ha, h⟩
  · apply h
    simp only [Spec.setAttrs, Event.mk.injEq] at hat
    obtain ⟨_, h1, h2, h3, h4, h5, h6, h7, h8, h9, h10, h11, h12, h13, _⟩ := hat
    unfold Spec.setAttrs
    rw [← h1, ← h2, ← h3, ← h4, ← h5, ← h6, ← h7, ← h8, ← h9, ← h10, ← h11, ← h12]
  · simp only [Spec.setAttrs, Event.mk.injEq] at hat
    have hoid : e'.organizerId = s.organizer := hat.2.2.2.2.2.2.2.2.2.2.2.2.2.1
    obtain ⟨h1, h2⟩ := setOnObject_lookup he' a
    cases hle : lastEntry s.attendees a with
    | some q =>
      obtain ⟨k1, k2⟩ := hr _ (lastEntry_mem hle)
      have k3 := k2 ha.symm
      simp only [] at k1 k3
      rw [hle] at h1 h2
      simp only [Option.map_some, Option.some_or] at h1 h2
      rcases h with h | h | h
      · exact h (hoid.trans ha)
      · exact h (by rw [h1, k3])
      · exact h (by rw [h2, k1])
    | none =>
      rw [hle, if_pos ha] at h1
      rw [hle, if_pos ha] at h2
      rcases h with h | h | h
      · exact h (hoid.trans ha)
      · exact h h1
      · exact h h2
  · obtain ⟨h1, h2⟩ := setOnObject_lookup he' a
    rw [lastEntry_of_nodup hn hp ha] at h1 h2
    rcases h with h | h
    · exact h h1
    · apply h
      rw [h2, ← (hr p hp).1]
      rfl

namespace Sample

/-- A party of Alice with Bob. -/
def party : Spec :=
  { dtstart := day, duration := some HOUR, title := "party", organizer := some "alice"
    attendees := [(some "bob", "REQ-PARTICIPANT", "NEEDS-ACTION")] }

/-- The event of a specification. -/
def event (s : Spec) : Event := ((newEvent "p" s).toOption).getD (blankEvent "p")

end Sample

/-- C54 is false: a change of role from REQ-PARTICIPANT is not noticed. -/
theorem C54_role_counterexample :
    let s := { Sample.party with attendees := [(some "bob", "CHAIR", "NEEDS-ACTION")] }
    s.willModify (Sample.event Sample.party) = .ok false ∧
    (s.setOnObject (Sample.event Sample.party)).1 ≠ Sample.event Sample.party := by decide +kernel

/-- C54 is false: an attendee in another role, and an organizer listed with another status, always count as a
change. -/
theorem C54_spurious_counterexample :
    (let s := { Sample.party with attendees := [(some "bob", "CHAIR", "NEEDS-ACTION")] }
     s.willModify (Sample.event s) = .ok true ∧ s.setOnObject (Sample.event s) = (Sample.event s, .ok ())) ∧
    (let s := { Sample.party with attendees := [(some "alice", "REQ-PARTICIPANT", "TENTATIVE")] }
     s.willModify (Sample.event s) = .ok true ∧ s.setOnObject (Sample.event s) = (Sample.event s, .ok ())) := by
  decide +kernel

/-- C54 is false: `willModify` raises when there is no organizer and the attributes agree. -/
theorem C54_raise_counterexample :
    let s := { Sample.party with organizer := none, attendees := [] }
    s.willModify (Sample.event s) = raise .AttributeError ∧ s.setOnObject (Sample.event s) = (Sample.event s, .ok ()) := by
  decide +kernel

/-- C54 is false: attendees that are no longer listed stay. -/
theorem C54_stale_counterexample :
    let s := { Sample.party with attendees := [] }
    ((s.setOnObject (Sample.event Sample.party)).1).getStatus "bob" = some "NEEDS-ACTION" ∧
    s.willModify (Sample.event Sample.party) = .ok false := by decide +kernel

/-- C54, concrete: Bob accepts. -/
example :
    let s := { Sample.party with attendees := [(some "bob", "REQ-PARTICIPANT", "ACCEPTED")] }
    s.willModify (Sample.event Sample.party) = .ok true ∧ Sample.party.willModify (Sample.event Sample.party) = .ok false ∧
    (s.setOnObject (Sample.event Sample.party)).1.getStatus "bob" = some "ACCEPTED" := by decide +kernel

end CalCore
