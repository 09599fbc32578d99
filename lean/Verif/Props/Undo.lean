import Verif.Props.Participation
/- C110: changes of participation can be undone. -/
namespace CalCore
open Spec

theorem set_get {κ ν : Type} [DecidableEq κ] {d : Dict κ ν} {k : κ} {v : ν} (h : Dict.get? d k = some v) :
    Dict.set d k v = d := by
  induction d with
  | nil => cases h
  | cons p d ih =>
    rw [Dict.get?_cons] at h
    unfold Dict.set
    by_cases hk : p.1 = k
    · rw [if_pos hk] at h ⊢
      injection h with h
      rw [← h, ← hk]
    · rw [if_neg hk] at h ⊢
      rw [ih h]

theorem set_set {κ ν : Type} [DecidableEq κ] (d : Dict κ ν) (k : κ) (v v' : ν) :
    Dict.set (Dict.set d k v) k v' = Dict.set d k v' := by
  induction d with
  | nil => simp [Dict.set]
  | cons p d ih =>
    obtain ⟨k', x⟩ := p
    by_cases hk : k' = k
    · simp [Dict.set, hk]
    · simp [Dict.set, hk, ih]

theorem del_absent {κ ν : Type} [DecidableEq κ] {d : Dict κ ν} {k : κ} (h : Dict.get? d k = none) : Dict.del d k = d := by
  unfold Dict.del
  rw [List.filter_eq_self]
  intro p hp
  rw [Dict.get?_eq_none] at h
  have : p.1 ≠ k := fun hpk => h (hpk ▸ List.mem_map_of_mem hp)
  simpa using this

theorem del_set_absent {κ ν : Type} [DecidableEq κ] {d : Dict κ ν} {k : κ} (v : ν) (h : Dict.get? d k = none) :
    Dict.del (Dict.set d k v) k = d := by
  rw [Dict.set_of_not_mem ((Dict.get?_eq_none d k).1 h)]
  have h2 := del_absent h
  unfold Dict.del at h2 ⊢
  rw [List.filter_append, h2]
  simp

/-- Two calls on one event, the second undoing the first. -/
theorem onEvent_undo (w : World) (u : Uid) (f g : Event → Event × List Note × Res Unit)
    (h : ∀ e, Dict.get? w.store.events u = some e → (g (f e).1).1 = e) :
    ((w.onEvent u f).1.onEvent u g).1.store = w.store := by
  cases hg : Dict.get? w.store.events u with
  | none =>
    have h1 : ∀ f, w.onEvent u f = (w, .error (.py .KeyError)) := by
      intro f
      unfold World.onEvent Storage.getEvent
      rw [hg]; rfl
    rw [h1, h1]
  | some e =>
    have h1 : w.onEvent u f = ({ store := { w.store with events := Dict.set w.store.events u (f e).1 }
                                 log := w.log ++ (f e).2.1 }, (f e).2.2) := by
      unfold World.onEvent Storage.getEvent
      rw [hg]
    rw [h1]
    unfold World.onEvent Storage.getEvent
    simp only [Dict.get?_set_self]
    rw [h e hg]
    simp only [set_set]
    rw [set_get hg]

/-- C110: inviting somebody without status and role and then removing them leaves the store as it was. -/
theorem C110_invite_remove (w : World) (u : Uid) (a : AttId)
    (h : ∀ e, Dict.get? w.store.events u = some e → e.getStatus a = none ∧ e.getRole a = none) :
    (w.run [.invite u [a], .setStatus u a none]).store = w.store := by
  refine onEvent_undo w u (fun e => e.invite [a]) (fun e => e.setStatus a none) (fun e he => ?_)
  obtain ⟨h1, h2⟩ := h e he
  have hi : (e.invite [a]).1 =
      { e with pstate := Dict.set e.pstate a "NEEDS-ACTION", prole := Dict.set e.prole a "REQ-PARTICIPANT" } := by
    rw [invite_cons, inviteOne_eq, if_pos h1]; rfl
  rw [hi, setStatus_none]
  have s1 : ({ e with pstate := Dict.set e.pstate a "NEEDS-ACTION", prole := Dict.set e.prole a "REQ-PARTICIPANT" } :
      Event).getStatus a = some "NEEDS-ACTION" := Dict.get?_set_self ..
  have s2 : ({ e with pstate := Dict.set e.pstate a "NEEDS-ACTION", prole := Dict.set e.prole a "REQ-PARTICIPANT" } :
      Event).getRole a = some "REQ-PARTICIPANT" := Dict.get?_set_self ..
  rw [s1, s2, if_neg (by simp), if_neg (by simp)]
  simp only [del_set_absent _ h1, del_set_absent _ h2]

/-- C110: setting the status of an attendee to another one and back leaves the store as it was. -/
theorem C110_status_back (w : World) (u : Uid) (a : AttId) (s t : String) (hs : some s ∈ statuses)
    (h : ∀ e, Dict.get? w.store.events u = some e → e.getStatus a = some s) :
    (w.run [.setStatus u a (some t), .setStatus u a (some s)]).store = w.store := by
  refine onEvent_undo w u (fun e => e.setStatus a (some t)) (fun e => e.setStatus a (some s)) (fun e he => ?_)
  have h1 := h e he
  have hsame : (e.setStatus a (some s)).1 = e := by
    rw [setStatus_some e a s hs, if_pos h1]
  by_cases ht : some t ∈ statuses
  · rw [setStatus_some e a t ht]
    split
    · exact hsame
    · simp only []
      rw [setStatus_some _ a s hs]
      split
      · rename_i hne hx
        exfalso
        have : ({ e with pstate := Dict.set e.pstate a t } : Event).getStatus a = some t := Dict.get?_set_self ..
        rw [this] at hx
        exact hne (h1.trans hx.symm)
      · simp only [set_set]
        rw [set_get h1]
  · have : e.setStatus a (some t) = (e, [], raise .AssertionError) := by
      unfold Event.setStatus; rw [if_pos ht]
    rw [this]
    exact hsame

/-- C110: setting the role of an attendee to another one and back leaves the store as it was. -/
theorem C110_role_back (w : World) (u : Uid) (a : AttId) (r r' : String) (hr : r ∈ roles)
    (h : ∀ e, Dict.get? w.store.events u = some e → e.getRole a = some r) :
    (w.run [.setRole u a r', .setRole u a r]).store = w.store := by
  refine onEvent_undo w u (fun e => ((e.setRole a r').1, [], (e.setRole a r').2))
    (fun e => ((e.setRole a r).1, [], (e.setRole a r).2)) (fun e he => ?_)
  have h1 := h e he
  have key : ∀ e' : Event, (e'.setRole a r).1 = { e' with prole := Dict.set e'.prole a r } := by
    intro e'; unfold Event.setRole; rw [if_neg (by simpa using hr)]
  simp only [key]
  unfold Event.setRole
  split
  · simp only [set_get h1]
  · simp only [set_set, set_get h1]

/-- C110, concrete: Carol is invited to the meeting and removed again; Bob declines and changes their mind; Bob is chair
for a while. -/
example : let e := (Dict.get? Sample.store.events "m").getD (blankEvent "m")
    Dict.get? Sample.store.events "m" = some e ∧ e.getStatus "carol" = none ∧ e.getRole "carol" = none ∧
    e.getStatus "bob" = some "NEEDS-ACTION" ∧ e.getRole "bob" = some "OPT-PARTICIPANT" ∧
    (Sample.world.run [.setStatus "m" "bob" (some "DECLINED")]).store.events ≠ Sample.store.events ∧
    (Sample.world.run [.setStatus "m" "bob" (some "DECLINED"), .setStatus "m" "bob" (some "NEEDS-ACTION")]).store.events =
      Sample.store.events := by decide +kernel

/-- C110 is false for removals: an attendee who is removed and whose status is set again has lost the role, and asking
for the attendees in a role raises. -/
theorem C110_removal_counterexample :
    let w := Sample.world.run [.setStatus "m" "bob" none, .setStatus "m" "bob" (some "NEEDS-ACTION")]
    (w.store.getEvent "m").map (fun e => (e.getStatus "bob", e.getRole "bob")) = .ok (some "NEEDS-ACTION", none) ∧
    (do (← w.store.getEvent "m").getAttendeeIds none (some "OPT-PARTICIPANT")) = raise .KeyError := by decide +kernel

end CalCore
