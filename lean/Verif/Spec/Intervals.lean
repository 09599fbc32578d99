/- Specification vocabulary for periods of time (independent of the model). -/
namespace CalCore.Spec

/-- The instant `t` lies in the half-open period `[p.1, p.2)`. -/
def In (t : Int) (p : Int × Int) : Prop := p.1 ≤ t ∧ t < p.2

/-- The instant `t` lies in one of the periods. -/
def Covered (l : List (Int × Int)) (t : Int) : Prop := ∃ p ∈ l, In t p

/-- Periods in increasing order that neither overlap nor touch. -/
def Separated (l : List (Int × Int)) : Prop :=
  List.Pairwise (fun p q => p.2 < q.1 ∧ p.1 ≤ q.1) l

end CalCore.Spec
