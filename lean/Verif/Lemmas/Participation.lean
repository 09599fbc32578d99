import Verif.Spec.Participation
import Verif.Lemmas.Store
/- Lemmas on statuses and roles. -/
namespace CalCore
open Spec

theorem statuses_mem_needsAction : some "NEEDS-ACTION" ∈ statuses := by decide

/-- The effect of `setParticipationStatus` with a status. -/
theorem setStatus_some (e : Event) (a : AttId) (s : String) (hs : some s ∈ statuses) :
    e.setStatus a (some s) =
      if e.getStatus a = some s then (e, [], .ok ())
      else ({ e with pstate := Dict.set e.pstate a s }, [.participation e.uid a (e.getStatus a) (some s)], .ok ()) := by
  unfold Event.setStatus
  rw [if_neg (by simpa using hs)]
  simp only []
  split
  · rfl
  · rfl

/-- The effect of `setParticipationStatus(attendee, None)`. -/
theorem setStatus_none (e : Event) (a : AttId) :
    e.setStatus a none =
      if e.getStatus a = none then (e, [], .ok ())
      else if e.getRole a = none then ({ e with pstate := Dict.del e.pstate a }, [], raise .KeyError)
      else ({ e with pstate := Dict.del e.pstate a, prole := Dict.del e.prole a },
        [.participation e.uid a (e.getStatus a) none], .ok ()) := by
  unfold Event.setStatus
  rw [if_neg (by decide)]
  simp only []
  split
  · rfl
  · rename_i h
    have h1 : Dict.has e.pstate a = true := by
      rw [Dict.has_eq]
      cases hh : Dict.get? e.pstate a with
      | none => exact absurd hh h
      | some v => rfl
    unfold Event.setStatusRaw
    simp only [h1, if_true]
    by_cases hr : e.getRole a = none
    · have h2 : Dict.has e.prole a = false := (Dict.has_false_iff _ _).2 hr
      rw [if_pos hr]
      simp [h2, raise]
    · have h2 : Dict.has e.prole a = true := by
        rw [Dict.has_eq]
        cases hh : Dict.get? e.prole a with
        | none => exact absurd hh hr
        | some v => rfl
      rw [if_neg hr]
      simp [h2]

theorem inviteOne_eq (e : Event) (a : AttId) :
    e.inviteOne a =
      if e.getStatus a = none then
        ({ e with pstate := Dict.set e.pstate a "NEEDS-ACTION", prole := Dict.set e.prole a "REQ-PARTICIPANT" },
          [.participation e.uid a none (some "NEEDS-ACTION")], .ok ())
      else (e, [], .ok ()) := by
  unfold Event.inviteOne
  split
  · rename_i h
    rw [setStatus_some e a _ statuses_mem_needsAction, h]
    rfl
  · rfl

theorem invite_cons (e : Event) (a : AttId) (rest : List AttId) :
    e.invite (a :: rest) =
      (((e.inviteOne a).1.invite rest).1, (e.inviteOne a).2.1 ++ ((e.inviteOne a).1.invite rest).2.1,
        ((e.inviteOne a).1.invite rest).2.2) := by
  conv => lhs; unfold Event.invite
  have h : (e.inviteOne a).2.2 = .ok () := by rw [inviteOne_eq]; split <;> rfl
  revert h
  rcases e.inviteOne a with ⟨e', n, r⟩
  intro h
  simp only [] at h
  subst h
  rfl

theorem lastEntry_nil (a : AttId) : lastEntry [] a = none := rfl

theorem lastEntry_cons (p : Option AttId × String × String) (l : List (Option AttId × String × String)) (a : AttId) :
    lastEntry (p :: l) a = (lastEntry l a).or (if p.1 = some a then some p.2 else none) := by
  unfold lastEntry
  rw [List.filter_cons]
  by_cases h : p.1 = some a
  · simp only [h, decide_true, if_true]
    cases hl : List.filter (fun p => decide (p.1 = some a)) l with
    | nil => simp
    | cons q r =>
      rw [List.getLast?_cons_cons]
      cases hq : (q :: r).getLast? with
      | none => simp at hq
      | some z => simp
  · simp only [h, decide_false, if_false]
    cases (List.map (fun x => x.2) (List.filter (fun p => decide (p.1 = some a)) l)).getLast? <;> simp

theorem lastEntry_none {l : List (Option AttId × String × String)} {a : AttId} :
    lastEntry l a = none ↔ ∀ p ∈ l, p.1 ≠ some a := by
  unfold lastEntry
  rw [Option.map_eq_none_iff, List.getLast?_eq_none_iff, List.filter_eq_nil_iff]
  simp

/-- What the attendee list of a specification does to statuses and roles. -/
theorem setAttendeesLoop_ok {l : List (Option AttId × String × String)} {o o' : Event}
    (h : setAttendeesLoop o l = (o', .ok ())) (a : AttId) :
    o'.getStatus a = ((lastEntry l a).map (·.2)).or (o.getStatus a) ∧
      o'.getRole a = ((lastEntry l a).map (·.1)).or (o.getRole a) := by
  induction l generalizing o with
  | nil =>
    unfold setAttendeesLoop at h
    injection h with h _
    subst h
    simp [lastEntry_nil]
  | cons p rest ih =>
    obtain ⟨x, role, status⟩ := p
    unfold setAttendeesLoop at h
    split at h
    · injection h with _ h; cases h
    · cases x with
      | none => injection h with _ h; cases h
      | some x =>
        have := ih h
        rw [this.1, this.2, lastEntry_cons]
        unfold Event.getStatus Event.getRole
        simp only [Dict.get?_set]
        by_cases hx : x = a
        · subst hx
          simp only [if_true]
          cases lastEntry rest x <;> simp
        · have hx' : ¬ (some x = some a) := by simpa using hx
          simp only [if_neg hx, if_neg hx']
          cases lastEntry rest a <;> simp

theorem setAttendeesLoop_same (l : List (Option AttId × String × String)) (o : Event) :
    SameButParticipation o (setAttendeesLoop o l).1 := by
  induction l generalizing o with
  | nil => rfl
  | cons p rest ih =>
    obtain ⟨x, role, status⟩ := p
    unfold setAttendeesLoop
    split
    · rfl
    · cases x with
      | none => rfl
      | some x =>
        have := ih { o with prole := Dict.set o.prole x role, pstate := Dict.set o.pstate x status }
        unfold SameButParticipation at this ⊢
        simp only [] at this ⊢
        cases h : (setAttendeesLoop { o with prole := Dict.set o.prole x role, pstate := Dict.set o.pstate x status } rest).1
        rw [h] at this
        cases o
        simp only [Event.mk.injEq] at this ⊢
        grind

/-! ### consistency -/

theorem consistent_of_same_keys {e : Event} (h : ∀ a, (Dict.get? e.pstate a).isSome = (Dict.get? e.prole a).isSome) :
    Consistent e := by
  intro a
  have := h a
  cases h1 : Dict.get? e.pstate a <;> cases h2 : Dict.get? e.prole a <;> simp [h1, h2] at this ⊢

theorem Spec.Consistent.same {e : Event} (h : Consistent e) (a : AttId) :
    (Dict.get? e.pstate a).isSome = (Dict.get? e.prole a).isSome := by
  have := h a
  cases h1 : Dict.get? e.pstate a <;> cases h2 : Dict.get? e.prole a <;> simp [h1, h2] at this ⊢

theorem consistent_set_both {e : Event} (h : Consistent e) (a : AttId) (s r : String) :
    Consistent { e with pstate := Dict.set e.pstate a s, prole := Dict.set e.prole a r } := by
  apply consistent_of_same_keys
  intro x
  simp only [Dict.get?_set]
  by_cases hx : a = x
  · rw [if_pos hx, if_pos hx]; rfl
  · rw [if_neg hx, if_neg hx]; exact h.same x

theorem setStatus_consistent {e : Event} (h : Consistent e) (a : AttId) (st : Option String)
    (ha : ∀ s, st = some s → ∃ s', Dict.get? e.pstate a = some s') : Consistent (e.setStatus a st).1 := by
  by_cases hst : st ∈ statuses
  · cases st with
    | none =>
      rw [setStatus_none]
      split
      · exact h
      · split
        · rename_i h1 h2
          exfalso
          have := h.same a
          unfold Event.getStatus at h1
          unfold Event.getRole at h2
          rw [h2] at this
          cases hh : Dict.get? e.pstate a with
          | none => exact h1 hh
          | some v => rw [hh] at this; cases this
        · apply consistent_of_same_keys
          intro x
          simp only [Dict.get?_del]
          split
          · rfl
          · exact h.same x
    | some s =>
      rw [setStatus_some e a s hst]
      split
      · exact h
      · apply consistent_of_same_keys
        intro x
        simp only [Dict.get?_set]
        split
        · rename_i hx
          subst hx
          obtain ⟨v, hv⟩ := ha s rfl
          rw [← h.same, hv]; rfl
        · exact h.same x
  · unfold Event.setStatus
    rw [if_pos hst]; exact h

theorem setRole_consistent {e : Event} (h : Consistent e) (a : AttId) (r : String)
    (ha : ∃ s', Dict.get? e.pstate a = some s') : Consistent (e.setRole a r).1 := by
  unfold Event.setRole
  split
  · exact h
  · apply consistent_of_same_keys
    intro x
    simp only [Dict.get?_set]
    split
    · rename_i hx
      subst hx
      obtain ⟨v, hv⟩ := ha
      rw [hv]; rfl
    · exact h.same x

theorem invite_consistent {e : Event} (h : Consistent e) (l : List AttId) : Consistent (e.invite l).1 := by
  induction l generalizing e with
  | nil => exact h
  | cons a rest ih =>
    rw [invite_cons]
    apply ih
    rw [inviteOne_eq]
    split
    · exact consistent_set_both h a _ _
    · exact h

theorem setAttendeesLoop_consistent {e : Event} (h : Consistent e) (l : List (Option AttId × String × String)) :
    Consistent (setAttendeesLoop e l).1 := by
  induction l generalizing e with
  | nil => exact h
  | cons p rest ih =>
    obtain ⟨x, role, status⟩ := p
    unfold setAttendeesLoop
    split
    · exact h
    · cases x with
      | none => exact h
      | some x => exact ih (consistent_set_both h x status role)

theorem setOnObject_consistent {e : Event} (h : Consistent e) (s : Spec) : Consistent (s.setOnObject e).1 := by
  unfold Spec.setOnObject
  apply setAttendeesLoop_consistent
  unfold Spec.setOrganizer
  cases s.organizer with
  | none => exact h
  | some a => exact consistent_set_both (e := s.setAttrs e) h a _ _

theorem newEvent_consistent {uid : Uid} {s : Spec} {e : Event} (h : newEvent uid s = .ok e) : Consistent e := by
  have h0 := setOnObject_consistent (e := blankEvent uid) (by intro a; simp [blankEvent]) s
  unfold newEvent at h
  split at h
  · cases h
  · rename_i h'
    rw [h'] at h0
    injection h with h
    rw [← h]
    split
    · exact h0
    · exact h0

/-! ### attendee lists -/

theorem getAttendeeIdsLoop_cons (role : Dict AttId String) (ps pr : Option String) (a : AttId) (s : String)
    (rest : Dict AttId String) : getAttendeeIdsLoop role ps pr ((a, s) :: rest) =
      if ps.all (fun x => decide (x = s)) = false then getAttendeeIdsLoop role ps pr rest
      else if pr ≠ none ∧ Dict.get? role a = none then raise .KeyError
      else if pr.all (fun r => decide (Dict.get? role a = some r)) = false then getAttendeeIdsLoop role ps pr rest
      else getAttendeeIdsLoop role ps pr rest >>= fun more => .ok (a :: more) := by
  have h1 : ∀ x y : Res (List AttId), (if (match ps with | some p => decide (p ≠ s) | none => false) = true then x
      else y) = if ps.all (fun x => decide (x = s)) = false then x else y := by
    intro x y
    cases ps with
    | none => simp
    | some p => by_cases h : p = s <;> simp [h]
  conv => lhs; unfold getAttendeeIdsLoop
  refine (h1 _ _).trans ?_
  split
  · rfl
  · cases pr with
    | none => rfl
    | some q =>
      simp only []
      cases hr : Dict.get? role a with
      | none => simp
      | some q' =>
        by_cases hq : q = q'
        · subst hq; simp
        · have : ¬ q' = q := fun h => hq h.symm
          simp [hq, this]

theorem getAttendeeIdsLoop_ok {role : Dict AttId String} {ps pr : Option String} {d : Dict AttId String}
    {l : List AttId} (h : getAttendeeIdsLoop role ps pr d = .ok l) :
    l = (d.filter (fun p => ps.all (fun s => decide (s = p.2)) &&
      pr.all (fun r => decide (Dict.get? role p.1 = some r)))).map (·.1) := by
  induction d generalizing l with
  | nil => injection h with h; simp [← h]
  | cons p rest ih =>
    obtain ⟨a, s⟩ := p
    rw [getAttendeeIdsLoop_cons] at h
    rw [List.filter_cons]
    split at h
    · rename_i hq
      simp only [hq, Bool.false_and, Bool.false_eq_true, if_false]
      exact ih h
    · rename_i hq
      split at h
      · cases h
      · split at h
        · rename_i hr
          simp only [hr, Bool.and_false, Bool.false_eq_true, if_false]
          exact ih h
        · rename_i hr
          rw [bind_ok] at h
          obtain ⟨m, hm, h⟩ := h
          injection h with h
          rw [Bool.not_eq_false] at hq hr
          simp only [hq, hr, Bool.and_true, if_true, List.map_cons]
          rw [← h, ← ih hm]

theorem getAttendeeIdsLoop_returns {role : Dict AttId String} {ps pr : Option String} {d : Dict AttId String}
    (h : pr = none ∨ ∀ a ∈ Dict.keys d, ∃ r, Dict.get? role a = some r) :
    ∃ l, getAttendeeIdsLoop role ps pr d = .ok l := by
  induction d with
  | nil => exact ⟨_, rfl⟩
  | cons p rest ih =>
    obtain ⟨a, s⟩ := p
    obtain ⟨l, hl⟩ := ih (h.imp id (fun h a ha => h a (by simp only [Dict.keys, List.map_cons]; exact List.mem_cons_of_mem _ ha)))
    rw [getAttendeeIdsLoop_cons, hl]
    split
    · exact ⟨_, rfl⟩
    · rw [if_neg]
      · split
        · exact ⟨_, rfl⟩
        · exact ⟨_, rfl⟩
      · rintro ⟨h1, h2⟩
        rcases h with h | h
        · exact h1 h
        · obtain ⟨r, hr⟩ := h a (by simp [Dict.keys])
          rw [hr] at h2; cases h2

end CalCore
