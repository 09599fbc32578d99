import Verif.Lemmas.SourceBlocked
import Verif.Lemmas.Terminate
import Verif.Lemmas.Store
import Verif.Spec.Queries
/- Enough loop fuel for all events of a storage at once, and how to get at the methods of the source. -/
namespace CalCore.Lang
open CalCore.Spec
set_option linter.unusedSectionVars false
variable [Source.Globals]

theorem EventFuel.mono {W W' : Nat} {e : Event} (h : EventFuel W e) (hW : W ≤ W') : EventFuel W' e :=
  fun r hr => Nat.le_trans (h r hr) hW

theorem exists_eventFuel (l : List Event) : ∃ N, ∀ e ∈ l, EventFuel N e := by
  induction l with
  | nil => exact ⟨0, fun e h => by cases h⟩
  | cons e l ih =>
    obtain ⟨N, hN⟩ := ih
    obtain ⟨M, hM⟩ : ∃ M, EventFuel M e := by
      cases hr : e.recurrence with
      | none => exact ⟨0, fun r h => by rw [hr] at h; cases h⟩
      | some r => exact ⟨max r.fuel nextMonthFuel, fun r' h => by rw [hr] at h; injection h with h; exact h ▸ Nat.le_refl _⟩
    refine ⟨max N M, fun x hx => ?_⟩
    rcases List.mem_cons.1 hx with rfl | hx
    · exact hM.mono (Nat.le_max_right _ _)
    · exact (hN x hx).mono (Nat.le_max_left _ _)

theorem exists_fuel (s : Storage) : ∃ N, ∀ W, N ≤ W → ∀ e ∈ Dict.values s.events, EventFuel W e := by
  obtain ⟨N, h⟩ := exists_eventFuel (Dict.values s.events)
  exact ⟨N, fun W hW e he => (h e he).mono hW⟩

/-- An event that starts at a datetime of Python and whose rule does not hang can be expanded. -/
theorem expandable_of {e : Event} {en : Int} (h : dtInRange e.dtstart = true)
    (hr : ∀ r, e.recurrence = some r → ¬ Hangs r e.dtstart (some (dtDate en))) : Expandable e en :=
  ⟨h, fun r h' hd => hr r h' ((apply_diverges_iff r e.dtstart h _).1 hd)⟩

theorem expandable_regular {e : Event} (h : Regular e) (en : Int) : Expandable e en :=
  expandable_of h.1 (fun r hr hh => by have := (h.2 r hr).1; have := hh.1; omega)

theorem ready_of {W : Nat} {s : Storage} (c : Option Criteria) {en : Int}
    (h : ∀ e ∈ Dict.values s.events, Expandable e en) (hW : ∀ e ∈ Dict.values s.events, EventFuel W e) : Ready W s c en := by
  intro e he
  have : e ∈ Dict.values s.events := by
    unfold Storage.matching at he
    exact (List.mem_filter.1 he).1
  exact ⟨h e this, hW e this⟩

theorem method_manager_getEvents : Source.prog.method 4 "StorageManager" "getEvents" = some "StorageManagerBase.getEvents" := rfl
theorem method_manager_hasEvent : Source.prog.method 4 "StorageManager" "hasEvent" = some "StorageManagerBase.hasEvent" := rfl
theorem method_manager_getFree : Source.prog.method 4 "StorageManager" "getFreePeriods" = some "StorageManagerBase.getFreePeriods" := rfl

/-- A call has at most one answer. -/
theorem Answers.unique {o : Val} {m : String} {args : List Val} {r r' : M Val} (h : Answers o m args r)
    (h' : Answers o m args r') : r = r' := by
  obtain ⟨N, hN⟩ := h
  obtain ⟨N', hN'⟩ := h'
  rw [← hN (max N N') (Nat.le_max_left _ _) (max N N') (Nat.le_max_left _ _),
    hN' (max N N') (Nat.le_max_right _ _) (max N N') (Nat.le_max_right _ _)]

theorem Gives.unique {f : String} {args : List Val} {r r' : M Val} (h : Gives f args r)
    (h' : Gives f args r') : r = r' := by
  obtain ⟨N, hN⟩ := h
  obtain ⟨N', hN'⟩ := h'
  rw [← hN (max N N') (Nat.le_max_left _ _) (max N N') (Nat.le_max_left _ _),
    hN' (max N N') (Nat.le_max_right _ _) (max N N') (Nat.le_max_right _ _)]

end CalCore.Lang
