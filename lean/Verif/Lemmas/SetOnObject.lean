import Verif.Lemmas.Participation
/- Lemmas on `EventSpecification.setOnObject` and `willModify`. -/
namespace CalCore
open Spec

theorem get?_isSome_keys {κ ν : Type} [DecidableEq κ] {d : Dict κ ν} {k : κ} :
    (∃ v, Dict.get? d k = some v) ↔ k ∈ Dict.keys d := by
  rw [← Dict.has_iff_mem_keys, Dict.has_iff_get?]

/-- Whether the attendee loop succeeds depends only on the list. -/
theorem setAttendeesLoop_returns {l : List (Option AttId × String × String)} {o o1 : Event}
    (h : setAttendeesLoop o l = (o1, .ok ())) (o' : Event) : ∃ o2, setAttendeesLoop o' l = (o2, .ok ()) := by
  induction l generalizing o o' with
  | nil => exact ⟨o', rfl⟩
  | cons p rest ih =>
    obtain ⟨x, role, status⟩ := p
    unfold setAttendeesLoop at h ⊢
    split at h
    · cases h
    · rename_i hr
      rw [if_neg hr]
      cases x with
      | none => cases h
      | some a => exact ih h _

/-- The loop succeeds when all roles are valid and all attendees given. -/
theorem setAttendeesLoop_valid (l : List (Option AttId × String × String)) (o : Event)
    (h : ∀ p ∈ l, p.2.1 ∈ roles ∧ p.1 ≠ none) : ∃ o', setAttendeesLoop o l = (o', .ok ()) := by
  induction l generalizing o with
  | nil => exact ⟨o, rfl⟩
  | cons p rest ih =>
    obtain ⟨x, role, status⟩ := p
    have hp := h _ (List.mem_cons_self ..)
    unfold setAttendeesLoop
    rw [if_neg (by simpa using hp.1)]
    cases x with
    | none => exact absurd rfl hp.2
    | some a => exact ih _ (fun q hq => h q (List.mem_cons_of_mem _ hq))

theorem setAttendeesLoop_keys (l : List (Option AttId × String × String)) (o : Event)
    (h : ∀ p ∈ l, ∀ a, p.1 = some a → a ∈ Dict.keys o.pstate ∧ a ∈ Dict.keys o.prole) :
    Dict.keys (setAttendeesLoop o l).1.pstate = Dict.keys o.pstate ∧
      Dict.keys (setAttendeesLoop o l).1.prole = Dict.keys o.prole := by
  induction l generalizing o with
  | nil => exact ⟨rfl, rfl⟩
  | cons p rest ih =>
    obtain ⟨x, role, status⟩ := p
    unfold setAttendeesLoop
    split
    · exact ⟨rfl, rfl⟩
    · cases x with
      | none => exact ⟨rfl, rfl⟩
      | some a =>
        obtain ⟨h1, h2⟩ := h _ (List.mem_cons_self ..) a rfl
        have k1 := Dict.keys_set_of_mem h1 status
        have k2 := Dict.keys_set_of_mem h2 role
        obtain ⟨i1, i2⟩ := ih { o with prole := Dict.set o.prole a role, pstate := Dict.set o.pstate a status }
          (fun p hp a' ha' => by
            rw [k1, k2]
            exact h p (List.mem_cons_of_mem _ hp) a' ha')
        exact ⟨i1.trans k1, i2.trans k2⟩

theorem eq_of_same {e e' : Event} (h : SameButParticipation e e') (h1 : e'.pstate = e.pstate)
    (h2 : e'.prole = e.prole) : e' = e := by
  unfold SameButParticipation at h
  rw [← h1, ← h2] at h
  exact h

/-- Status and role after the organizer part. -/
theorem setOrganizer_lookup (s : Spec) (o : Event) (a : AttId) :
    (s.setOrganizer o).getStatus a = (if s.organizer = some a then some "ACCEPTED" else o.getStatus a) ∧
    (s.setOrganizer o).getRole a = (if s.organizer = some a then some "REQ-PARTICIPANT" else o.getRole a) := by
  unfold Spec.setOrganizer Event.getStatus Event.getRole
  cases s.organizer with
  | none => simp
  | some b => simp only [Dict.get?_set, Option.some.injEq]; simp

/-- Status and role after `setOnObject`. -/
theorem setOnObject_lookup {s : Spec} {e e' : Event} (h : s.setOnObject e = (e', .ok ())) (a : AttId) :
    e'.getStatus a = ((lastEntry s.attendees a).map (·.2)).or
      (if s.organizer = some a then some "ACCEPTED" else e.getStatus a) ∧
    e'.getRole a = ((lastEntry s.attendees a).map (·.1)).or
      (if s.organizer = some a then some "REQ-PARTICIPANT" else e.getRole a) := by
  unfold Spec.setOnObject at h
  obtain ⟨h1, h2⟩ := setAttendeesLoop_ok h a
  obtain ⟨h3, h4⟩ := setOrganizer_lookup s (s.setAttrs e) a
  rw [h1, h2, h3, h4]
  exact ⟨rfl, rfl⟩

/-- All other attributes after `setOnObject`, whether it succeeds or not. -/
theorem setOnObject_same (s : Spec) (e : Event) :
    SameButParticipation (s.setOrganizer (s.setAttrs e)) (s.setOnObject e).1 := by
  unfold Spec.setOnObject
  exact setAttendeesLoop_same _ _

theorem setOrganizer_same (s : Spec) (o : Event) :
    SameButParticipation { o with organizerId := s.organizer } (s.setOrganizer o) := by
  unfold Spec.setOrganizer SameButParticipation
  cases s.organizer <;> rfl

theorem setOnObject_attributes (s : Spec) (e : Event) :
    SameButParticipation { s.setAttrs e with organizerId := s.organizer } (s.setOnObject e).1 := by
  have h1 := setOnObject_same s e
  have h2 := setOrganizer_same s (s.setAttrs e)
  unfold SameButParticipation at h1 h2 ⊢
  rw [← h1] at h2
  exact h2

/-- When the event already has what `setOnObject` sets, nothing changes. -/
theorem setOnObject_fix {s : Spec} {e e' : Event} (hp : e.Parts) (h : s.setOnObject e = (e', .ok ()))
    (ha : s.setAttrs e = e) (ho : e.organizerId = s.organizer)
    (hs : ∀ a, e'.getStatus a = e.getStatus a) (hr : ∀ a, e'.getRole a = e.getRole a) : e' = e := by
  have hsame := setOnObject_attributes s e
  rw [h, ha, ← ho] at hsame
  have hkeys : ∀ a, (s.organizer = some a ∨ ∃ p ∈ s.attendees, p.1 = some a) →
      a ∈ Dict.keys e.pstate ∧ a ∈ Dict.keys e.prole := by
    intro a hh
    obtain ⟨h1, h2⟩ := setOnObject_lookup h a
    rw [hs] at h1
    rw [hr] at h2
    have : (∃ x, e.getStatus a = some x) ∧ ∃ x, e.getRole a = some x := by
      rw [h1, h2]
      cases hl : lastEntry s.attendees a with
      | some q => exact ⟨⟨q.2, rfl⟩, ⟨q.1, rfl⟩⟩
      | none =>
        rcases hh with hh | ⟨p, hp, hpa⟩
        · rw [if_pos hh, if_pos hh]; exact ⟨⟨_, rfl⟩, ⟨_, rfl⟩⟩
        · exact absurd hpa (lastEntry_none.1 hl p hp)
    exact ⟨get?_isSome_keys.1 this.1, get?_isSome_keys.1 this.2⟩
  have hk0 : Dict.keys (s.setOrganizer (s.setAttrs e)).pstate = Dict.keys e.pstate ∧
      Dict.keys (s.setOrganizer (s.setAttrs e)).prole = Dict.keys e.prole := by
    rw [ha]
    unfold Spec.setOrganizer
    cases hso : s.organizer with
    | none => exact ⟨rfl, rfl⟩
    | some a =>
      obtain ⟨k1, k2⟩ := hkeys a (Or.inl hso)
      exact ⟨Dict.keys_set_of_mem k1 _, Dict.keys_set_of_mem k2 _⟩
  have hk1 := setAttendeesLoop_keys s.attendees (s.setOrganizer (s.setAttrs e)) (by
    intro p hp a hpa
    rw [hk0.1, hk0.2]
    exact hkeys a (Or.inr ⟨p, hp, hpa⟩))
  unfold Spec.setOnObject at h
  rw [h, hk0.1, hk0.2] at hk1
  refine eq_of_same hsame ?_ ?_
  · exact Dict.ext_keys hk1.1 (by rw [hk1.1]; exact hp.state) hs
  · exact Dict.ext_keys hk1.2 (by rw [hk1.2]; exact hp.role) hr

/-- `setOnObject` is idempotent. -/
theorem setOnObject_idem {s : Spec} {e e' : Event} (hp : e.Parts) (h : s.setOnObject e = (e', .ok ())) :
    s.setOnObject e' = (e', .ok ()) := by
  have hp' : e'.Parts := by have := setOnObject_parts hp s; rw [h] at this; exact this
  have hat := setOnObject_attributes s e
  rw [h] at hat
  obtain ⟨e'', h2⟩ : ∃ e'', s.setOnObject e' = (e'', .ok ()) := by
    unfold Spec.setOnObject at h ⊢
    exact setAttendeesLoop_returns h _
  rw [h2]
  have : e'' = e' := by
    refine setOnObject_fix hp' h2 ?_ ?_ ?_ ?_
    · unfold SameButParticipation at hat
      simp only [Spec.setAttrs, Event.mk.injEq] at hat
      obtain ⟨_, h1, h2, h3, h4, h5, h6, h7, h8, h9, h10, h11, h12, h13, _⟩ := hat
      unfold Spec.setAttrs
      rw [← h1, ← h2, ← h3, ← h4, ← h5, ← h6, ← h7, ← h8, ← h9, ← h10, ← h11, ← h12]
    · unfold SameButParticipation at hat
      simp only [Spec.setAttrs, Event.mk.injEq] at hat
      exact hat.2.2.2.2.2.2.2.2.2.2.2.2.2.1
    · intro a
      have k1 := (setOnObject_lookup h a).1
      have k2 := (setOnObject_lookup h2 a).1
      rw [k2]
      cases hl : (lastEntry s.attendees a).map (·.2) with
      | some q => rw [k1, hl]; rfl
      | none =>
        rw [k1, hl]
        simp only [Option.none_or]
        split <;> rfl
    · intro a
      have k1 := (setOnObject_lookup h a).2
      have k2 := (setOnObject_lookup h2 a).2
      rw [k2]
      cases hl : (lastEntry s.attendees a).map (·.1) with
      | some q => rw [k1, hl]; rfl
      | none =>
        rw [k1, hl]
        simp only [Option.none_or]
        split <;> rfl
  rw [this]

theorem attrsDiffer_false {s : Spec} {o : Event} : s.attrsDiffer o = false ↔ s.setAttrs o = o := by
  unfold Spec.attrsDiffer Spec.setAttrs
  cases o
  simp only [Bool.or_eq_false_iff, decide_eq_false_iff_not, not_not, Event.mk.injEq]
  constructor
  · rintro ⟨⟨⟨⟨⟨⟨⟨⟨⟨⟨⟨h1, h2⟩, h3⟩, h4⟩, h5⟩, h6⟩, h7⟩, h8⟩, h9⟩, h10⟩, h11⟩, h12⟩
    exact ⟨trivial, h1.symm, h2.symm, h3.symm, h4.symm, h5.symm, h6.symm, h7.symm, h8.symm, h9.symm,
        h10.symm, h11.symm, h12.symm, trivial, trivial, trivial⟩
  · rintro ⟨_, h1, h2, h3, h4, h5, h6, h7, h8, h9, h10, h11, h12, _⟩
    exact ⟨⟨⟨⟨⟨⟨⟨⟨⟨⟨⟨h1.symm, h2.symm⟩, h3.symm⟩, h4.symm⟩, h5.symm⟩, h6.symm⟩, h7.symm⟩, h8.symm⟩, h9.symm⟩,
      h10.symm⟩, h11.symm⟩, h12.symm⟩

theorem willModifyLoop_false {o : Event} {l : List (Option AttId × String × String)} :
    willModifyLoop o l = .ok false ↔
      ∀ p ∈ l, ∃ a, p.1 = some a ∧ o.getStatus a = some p.2.2 ∧ o.getRole a = some "REQ-PARTICIPANT" := by
  induction l with
  | nil => simp [willModifyLoop]
  | cons p rest ih =>
    obtain ⟨x, role, status⟩ := p
    unfold willModifyLoop
    cases x with
    | none => simp
    | some a =>
      simp only [List.forall_mem_cons, Option.some.injEq, exists_eq_left']
      split
      · rename_i h
        constructor
        · intro h'; cases h'
        · rintro ⟨⟨h1, h2⟩, _⟩; rcases h with h | h
          · exact absurd h1 h
          · exact absurd h2 h
      · rename_i h
        rw [not_or, not_not, not_not] at h
        rw [ih]
        exact ⟨fun h' => ⟨h, h'⟩, fun h' => h'.2⟩

theorem willModifyLoop_true {o : Event} {l : List (Option AttId × String × String)}
    (h : willModifyLoop o l = .ok true) :
    ∃ p ∈ l, ∃ a, p.1 = some a ∧ (o.getStatus a ≠ some p.2.2 ∨ o.getRole a ≠ some "REQ-PARTICIPANT") := by
  induction l with
  | nil => cases h
  | cons p rest ih =>
    obtain ⟨x, role, status⟩ := p
    unfold willModifyLoop at h
    cases x with
    | none => cases h
    | some a =>
      simp only [] at h
      split at h
      · rename_i h'; exact ⟨_, List.mem_cons_self .., a, rfl, h'⟩
      · obtain ⟨p, hp, h'⟩ := ih h
        exact ⟨p, List.mem_cons_of_mem _ hp, h'⟩

theorem willModify_false {s : Spec} {o : Event} (h : s.willModify o = .ok false) :
    s.setAttrs o = o ∧ ∃ a, s.organizer = some a ∧ o.organizerId = some a ∧ o.getStatus a = some "ACCEPTED" ∧
      o.getRole a = some "REQ-PARTICIPANT" ∧
      ∀ p ∈ s.attendees, ∃ a, p.1 = some a ∧ o.getStatus a = some p.2.2 ∧ o.getRole a = some "REQ-PARTICIPANT" := by
  unfold Spec.willModify at h
  split at h
  · cases h
  · rename_i hd
    refine ⟨attrsDiffer_false.1 (by simpa using hd), ?_⟩
    cases hs : s.organizer with
    | none => rw [hs] at h; cases h
    | some a =>
      rw [hs] at h
      simp only [] at h
      split at h
      · cases h
      · rename_i h'
        simp only [not_or, not_not] at h'
        exact ⟨a, rfl, h'.1, h'.2.1, h'.2.2, willModifyLoop_false.1 h⟩

theorem willModify_true {s : Spec} {o : Event} (h : s.willModify o = .ok true) :
    s.setAttrs o ≠ o ∨ (∃ a, s.organizer = some a ∧ (o.organizerId ≠ some a ∨ o.getStatus a ≠ some "ACCEPTED" ∨
      o.getRole a ≠ some "REQ-PARTICIPANT")) ∨
      ∃ p ∈ s.attendees, ∃ a, p.1 = some a ∧ (o.getStatus a ≠ some p.2.2 ∨ o.getRole a ≠ some "REQ-PARTICIPANT") := by
  unfold Spec.willModify at h
  split at h
  · rename_i hd
    left
    intro hh
    rw [attrsDiffer_false.2 hh] at hd
    cases hd
  · right
    cases hs : s.organizer with
    | none => rw [hs] at h; cases h
    | some a =>
      rw [hs] at h
      simp only [] at h
      split at h
      · rename_i h'; exact Or.inl ⟨a, rfl, h'⟩
      · exact Or.inr (willModifyLoop_true h)

/-- With distinct attendees, the last entry is the entry. -/
theorem lastEntry_of_nodup {l : List (Option AttId × String × String)} (hn : (l.map (·.1)).Nodup)
    {p : Option AttId × String × String} (hp : p ∈ l) {a : AttId} (ha : p.1 = some a) : lastEntry l a = some p.2 := by
  induction l with
  | nil => cases hp
  | cons q rest ih =>
    rw [List.map_cons, List.nodup_cons] at hn
    rw [lastEntry_cons]
    rcases List.mem_cons.1 hp with rfl | hp
    · have : lastEntry rest a = none := lastEntry_none.2 (fun q hq hqa => hn.1 (by
        rw [ha, ← hqa]; exact List.mem_map_of_mem hq))
      rw [this, if_pos ha]
      rfl
    · rw [ih hn.2 hp]; rfl

theorem lastEntry_mem {l : List (Option AttId × String × String)} {a : AttId} {q : String × String}
    (h : lastEntry l a = some q) : (some a, q) ∈ l := by
  unfold lastEntry at h
  rw [Option.map_eq_some_iff] at h
  obtain ⟨p, hp, rfl⟩ := h
  have := List.mem_of_getLast? hp
  rw [List.mem_filter] at this
  have h2 := of_decide_eq_true this.2
  obtain ⟨x, y⟩ := p
  simp only [] at h2
  subst h2
  exact this.1

end CalCore
