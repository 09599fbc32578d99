import Verif.Lemmas.Util
/- Properties C01-C03: util.removeOverlaps. -/
namespace CalCore
open Spec

/-- C01: the result covers exactly the instants the argument covers, for every list of tuples
(unsorted, repeated, empty and inverted tuples included). -/
theorem C01_removeOverlaps_coverage (l : List (Int × Int)) (t : Int) :
    Covered (removeOverlaps l) t ↔ Covered l t := removeOverlaps_covered l t

/-- C01, a non-trivial case: overlapping, nested, touching, inverted and duplicate tuples. -/
example : removeOverlaps [(5, 9), (1, 3), (2, 4), (4, 4), (9, 7), (6, 7), (1, 3)] = [(1, 4), (5, 9)] := by
  decide

/-- C02: consecutive result tuples do not overlap or touch and starts do not decrease; well-formed
arguments give well-formed results; empty gives empty. -/
theorem C02_removeOverlaps_separated (l : List (Int × Int)) :
    Separated (removeOverlaps l) ∧
      ((∀ p ∈ l, p.1 ≤ p.2) → ∀ p ∈ removeOverlaps l, p.1 ≤ p.2) ∧
      ((∀ p ∈ l, p.1 < p.2) → ∀ p ∈ removeOverlaps l, p.1 < p.2) ∧
      removeOverlaps [] = [] :=
  ⟨removeOverlaps_separated l, removeOverlaps_wf l, removeOverlaps_wf_strict l, rfl⟩

/-- C02: the hypothesis of the last two parts is satisfiable with a result of several tuples. -/
example : (∀ p ∈ [((5 : Int), (9 : Int)), (1, 3)], p.1 < p.2) ∧
    removeOverlaps [(5, 9), (1, 3)] = [(1, 3), (5, 9)] := by decide

/-- C03: on non-empty tuples the result only depends on the time covered. -/
theorem C03_removeOverlaps_canonical (l l' : List (Int × Int)) (h : ∀ p ∈ l, p.1 < p.2)
    (h' : ∀ p ∈ l', p.1 < p.2) (hc : ∀ t, Covered l t ↔ Covered l' t) :
    removeOverlaps l = removeOverlaps l' := removeOverlaps_canonical h h' hc

/-- C03: in particular order and repetition do not matter (same set of tuples, same result), and the
function is idempotent. -/
theorem C03_removeOverlaps_set_idem (l l' : List (Int × Int)) (h : ∀ p ∈ l, p.1 < p.2)
    (hm : ∀ p, p ∈ l ↔ p ∈ l') :
    removeOverlaps l = removeOverlaps l' ∧ removeOverlaps (removeOverlaps l) = removeOverlaps l := by
  refine ⟨removeOverlaps_canonical h (fun p hp => h p ((hm p).2 hp)) ?_, ?_⟩
  · intro t
    constructor
    · rintro ⟨p, hp, ht⟩; exact ⟨p, (hm p).1 hp, ht⟩
    · rintro ⟨p, hp, ht⟩; exact ⟨p, (hm p).2 hp, ht⟩
  · exact removeOverlaps_canonical (removeOverlaps_wf_strict l h) h (removeOverlaps_covered l)

/-- C03: two different lists covering the same time. -/
example : removeOverlaps [(1, 4), (2, 6)] = removeOverlaps [(4, 6), (1, 5), (1, 2)] := by decide

/-- C03 needs non-empty tuples: an empty tuple alone is kept by the code. -/
example : removeOverlaps [(3, 3)] ≠ removeOverlaps [] := by decide

end CalCore
