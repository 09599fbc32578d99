import Verif.Spec.Changes
import Verif.Lemmas.SetOnObject
/- Setting the attendees of a specification up to the first entry that cannot be set. -/
namespace CalCore
open Spec

theorem Spec.canSet_cases (p : Option AttId × String × String) :
    (∃ a, p = (some a, p.2) ∧ p.2.1 ∈ roles ∧ CanSet p = true) ∨
      (p.2.1 ∉ roles ∧ CanSet p = false) ∨ (p.2.1 ∈ roles ∧ p.1 = none ∧ CanSet p = false) := by
  obtain ⟨x, r, st⟩ := p
  unfold CanSet
  by_cases h : r ∈ roles
  · cases x with
    | none => exact .inr (.inr ⟨h, rfl, by simp⟩)
    | some a => exact .inl ⟨a, rfl, h, by simp [h]⟩
  · exact .inr (.inl ⟨h, by simp [h]⟩)

/-- The loop sets the entries before the first bad one and then raises, or sets all. -/
theorem setAttendeesLoop_split (l : List (Option AttId × String × String)) (o : Event) :
    ∃ o', setAttendeesLoop o (l.takeWhile CanSet) = (o', .ok ()) ∧
      setAttendeesLoop o l = (o', match (l.find? (fun p => !CanSet p)).map
        (fun p => if p.2.1 ∈ roles then PyErr.AttributeError else PyErr.AssertionError) with
        | none => .ok ()
        | some x => raise x) := by
  induction l generalizing o with
  | nil => exact ⟨o, rfl, rfl⟩
  | cons p rest ih =>
    rcases canSet_cases p with ⟨a, hp, hr, hs⟩ | ⟨hr, hs⟩ | ⟨hr, hn, hs⟩
    · obtain ⟨o', h1, h2⟩ := ih { o with prole := Dict.set o.prole a p.2.1, pstate := Dict.set o.pstate a p.2.2 }
      refine ⟨o', ?_, ?_⟩
      · rw [List.takeWhile_cons, hs, if_pos rfl]
        rw [hp]
        unfold setAttendeesLoop
        rw [if_neg (not_not.2 hr)]
        exact h1
      · rw [List.find?_cons, hs]
        conv => lhs; rw [hp]; unfold setAttendeesLoop
        rw [if_neg (not_not.2 hr)]
        exact h2
    · refine ⟨o, ?_, ?_⟩
      · rw [List.takeWhile_cons, hs, if_neg (by decide)]
        rfl
      · rw [List.find?_cons, hs]
        obtain ⟨x, r, st⟩ := p
        conv => lhs; unfold setAttendeesLoop
        rw [if_pos hr]
        simp only [Bool.not_false, Option.map_some, if_neg hr]
    · refine ⟨o, ?_, ?_⟩
      · rw [List.takeWhile_cons, hs, if_neg (by decide)]
        rfl
      · rw [List.find?_cons, hs]
        obtain ⟨x, r, st⟩ := p
        conv => lhs; unfold setAttendeesLoop
        rw [if_neg (not_not.2 hr)]
        simp only at hn
        subst hn
        simp only [Bool.not_false, Option.map_some, if_pos hr]

/-- What `setOnObject` leaves, also when it raises. -/
theorem setOnObject_outcome (s : Spec) (e : Event) :
    (s.setOnObject e).2 = (match badEntry s with
      | none => .ok ()
      | some x => raise x) ∧
    (∀ a, (s.setOnObject e).1.getStatus a = statusAfter s (e.getStatus a) a ∧
      (s.setOnObject e).1.getRole a = roleAfter s (e.getRole a) a) := by
  obtain ⟨o', h1, h2⟩ := setAttendeesLoop_split s.attendees (s.setOrganizer (s.setAttrs e))
  have h : s.setOnObject e = setAttendeesLoop (s.setOrganizer (s.setAttrs e)) s.attendees := rfl
  rw [h, h2]
  refine ⟨rfl, fun a => ?_⟩
  obtain ⟨h3, h4⟩ := setAttendeesLoop_ok h1 a
  obtain ⟨h5, h6⟩ := setOrganizer_lookup s (s.setAttrs e) a
  unfold statusAfter roleAfter entriesSet
  simp only [h3, h4, h5, h6]
  exact ⟨rfl, rfl⟩

theorem setOnObject_has (s : Spec) (e : Event) :
    HasAttributes s (s.setOnObject e).1 ∧ (s.setOnObject e).1.uid = e.uid ∧ (s.setOnObject e).1.organizerId = s.organizer := by
  have h := setOnObject_attributes s e
  generalize (s.setOnObject e).1 = e' at h ⊢
  unfold SameButParticipation Spec.setAttrs at h
  cases e'
  cases e
  simp only [Event.mk.injEq] at h
  obtain ⟨h0, h1, h2, h3, h4, h5, h6, h7, h8, h9, h10, h11, h12, h13, _⟩ := h
  exact ⟨⟨h1, h2, h3, h4, h5, h6, h7, h8, h9, h10, h11, h12⟩, h0, h13⟩

theorem hasAttributes_iff (s : Spec) (e : Event) : HasAttributes s e ↔ s.attrsDiffer e = false := by
  unfold Spec.attrsDiffer
  simp only [Bool.or_eq_false_iff, decide_eq_false_iff_not, not_not]
  constructor
  · rintro ⟨h1, h2, h3, h4, h5, h6, h7, h8, h9, h10, h11, h12⟩
    exact ⟨⟨⟨⟨⟨⟨⟨⟨⟨⟨⟨h1, h2⟩, h3⟩, h4⟩, h5⟩, h6⟩, h7⟩, h8⟩, h9⟩, h10⟩, h11⟩, h12⟩
  · rintro ⟨⟨⟨⟨⟨⟨⟨⟨⟨⟨⟨h1, h2⟩, h3⟩, h4⟩, h5⟩, h6⟩, h7⟩, h8⟩, h9⟩, h10⟩, h11⟩, h12⟩
    exact ⟨h1, h2, h3, h4, h5, h6, h7, h8, h9, h10, h11, h12⟩

/-- What `willModify` answers about the attendees is decided by the first entry that is not fulfilled. -/
theorem willModifyLoop_first (e : Event) (l m : List (Option AttId × String × String)) (p : Option AttId × String × String)
    (hl : ∀ q ∈ l, Fulfilled e q) (hp : ¬ Fulfilled e p) :
    willModifyLoop e (l ++ p :: m) = (if p.1 = none then raise .AttributeError else .ok true) := by
  induction l with
  | nil =>
    obtain ⟨x, r, st⟩ := p
    rw [List.nil_append]
    unfold willModifyLoop
    cases x with
    | none => rfl
    | some a =>
      rw [if_neg (by simp)]
      refine if_pos ?_
      by_cases h1 : e.getStatus a = some st
      · by_cases h2 : e.getRole a = some "REQ-PARTICIPANT"
        · exact absurd ⟨a, rfl, h1, h2⟩ hp
        · exact .inr h2
      · exact .inl h1
  | cons q l ih =>
    obtain ⟨a, h1, h2, h3⟩ := hl q (List.mem_cons_self ..)
    obtain ⟨x, r, st⟩ := q
    simp only at h1 h2
    subst h1
    rw [List.cons_append]
    unfold willModifyLoop
    simp only []
    rw [if_neg (by simp [h2, h3]), ih (fun q hq => hl q (List.mem_cons_of_mem _ hq))]

theorem willModifyLoop_all (e : Event) (l : List (Option AttId × String × String)) (hl : ∀ q ∈ l, Fulfilled e q) :
    willModifyLoop e l = .ok false := willModifyLoop_false.2 hl

theorem alldayAdjust_days (e : Event) : e.alldayAdjust =
    { e with dtstart := dtDate e.dtstart * DAY, duration := some ((e.duration.map daysTaken).getD 1 * DAY) } := by
  have h0 : combine (dtDate e.dtstart) 0 = dtDate e.dtstart * DAY := by simp [combine]
  unfold Event.alldayAdjust
  rw [h0]
  cases hd : e.duration with
  | none => simp
  | some d =>
    simp only [Option.map_some, Option.getD_some, Event.mk.injEq, true_and, and_true, Option.some.injEq]
    congr 1
    unfold daysTaken
    by_cases h : d = 0
    · subst h; simp
    · rw [if_neg h]
      unfold DAY at *
      split <;> omega

end CalCore
