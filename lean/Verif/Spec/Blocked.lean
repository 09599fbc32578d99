import Verif.Spec.Queries
/- Specification vocabulary for busy and free time. -/
namespace CalCore.Spec

/-- The event, attended by `a`, takes time from `a`: it is not transparent, its status is not 'CANCELED'
(the spelling of the vocabulary, cal.py:1171), and `a` has neither declined nor delegated. -/
def Blocking (e : Event) (a : AttId) : Prop :=
  e.transparent = false ∧ e.status ≠ "CANCELED" ∧
    Dict.get? e.pstate a ≠ some "DECLINED" ∧ Dict.get? e.pstate a ≠ some "DELEGATED"

/-- `a` is busy at the instant `t`. -/
def BusyAt (s : Storage) (a : AttId) (t : Int) : Prop :=
  ∃ e, Stored s e ∧ Attends e a ∧ Blocking e a ∧ OccursAt e t

/-- The time of day of `t` is in `[tb, te)`. -/
def InWindow (tb te t : Int) : Prop := tb ≤ dtTime t ∧ dtTime t < te

/-- No stored event ends before it starts. -/
def NoNegative (s : Storage) : Prop := ∀ e, Stored s e → ∀ d, e.duration = some d → 0 ≤ d

/-- `tb`, `te` are Python times. -/
def IsTime (t : Int) : Prop := 0 ≤ t ∧ t < DAY

end CalCore.Spec
