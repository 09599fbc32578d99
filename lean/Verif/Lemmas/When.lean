import Verif.Lemmas.Restricted
import Verif.Lemmas.SetOnObject
/- Which methods change when an event takes place. -/
namespace CalCore
open Spec

/-- Start, duration and recurrence of an event. -/
def Event.when (e : Event) : Int × Option Int × Option Rule := (e.dtstart, e.duration, e.recurrence)

theorem setStatus_when (e : Event) (a : AttId) (st : Option String) : (e.setStatus a st).1.when = e.when := by
  have h : (e.setStatusRaw a st).1.when = e.when := by
    unfold Event.setStatusRaw
    cases st with
    | none =>
      simp only []
      split
      · split <;> rfl
      · rfl
    | some s => rfl
  unfold Event.setStatus
  split
  · rfl
  · simp only []
    split
    · rfl
    · split
      · rename_i h'; rw [h'] at h; exact h
      · rename_i h'; rw [h'] at h; exact h

theorem setRole_when (e : Event) (a : AttId) (r : String) : (e.setRole a r).1.when = e.when := by
  unfold Event.setRole; split <;> rfl

theorem inviteOne_when (e : Event) (a : AttId) : (e.inviteOne a).1.when = e.when := by
  have h := setStatus_when e a (some "NEEDS-ACTION")
  unfold Event.inviteOne
  split
  · split
    · rename_i h'; rw [h'] at h; exact h
    · rename_i e' n h'
      rw [h'] at h
      have := setRole_when e' a "REQ-PARTICIPANT"
      simp only []
      rw [this]; exact h
  · rfl

theorem invite_when (e : Event) (l : List AttId) : (e.invite l).1.when = e.when := by
  induction l generalizing e with
  | nil => rfl
  | cons a rest ih =>
    have h := inviteOne_when e a
    unfold Event.invite
    split
    · rename_i h'; rw [h'] at h; exact h
    · rename_i e' n h'
      rw [h'] at h
      simp only []
      rw [ih e']; exact h

theorem setOnObject_when (s : Spec) (e : Event) :
    (s.setOnObject e).1.when = (s.dtstart, s.duration, s.recurrence) := by
  have h := setOnObject_attributes s e
  exact congrArg Event.when h

theorem newEvent_when {uid : Uid} {s : Spec} {e : Event} (h : newEvent uid s = .ok e) :
    ∃ e0, (s.setOnObject (blankEvent uid)).1 = e0 ∧ (e = e0 ∨ e = e0.alldayAdjust) := by
  unfold newEvent at h
  split at h
  · cases h
  · rename_i e' h'
    injection h with h
    refine ⟨e', by rw [h'], ?_⟩
    split at h
    · exact Or.inr h.symm
    · exact Or.inl h.symm

end CalCore
