import Verif.Lemmas.Queries
import Verif.Props.RecurrenceAll
/- Lemmas on the segmentation of occurrences at the midnights. -/
namespace CalCore
open Spec

/-- The list of borders is the midnights following `m`, as long as they are not after `hi`. -/
def Walk (hi : Int) : Int → List Int → Prop
  | m, [] => hi < m + DAY
  | m, x :: rest => x = m + DAY ∧ x ≤ hi ∧ Walk hi x rest

theorem borderLoop_walk {en y : Int} : ∀ (fuel : Nat) (x : Int) (l : List Int),
    borderLoop en y fuel x = .ok l → Walk (if en < y then en else y) (combine (dtDate x) 0) l := by
  intro fuel
  induction fuel with
  | zero => intro x l h; cases h
  | succ n ih =>
    intro x l h
    unfold borderLoop at h
    rw [bind_ok] at h
    obtain ⟨x', hx', h⟩ := h
    rw [dtAdd_ok] at hx'
    split at h
    · rename_i hc
      injection h with h; subst h
      unfold Walk
      split <;> omega
    · rename_i hc
      rw [bind_ok] at h
      obtain ⟨more, hm, h⟩ := h
      injection h with h; subst h
      refine ⟨hx'.2, by split <;> omega, ?_⟩
      have := ih x' more hm
      have hd : combine (dtDate x') 0 = x' := by
        rw [hx'.2]; unfold combine dtDate DAY; omega
      rwa [hd] at this

/-- The loop computing the borders never needs more iterations than the fuel `segmentOne` gives. -/
theorem borders_ne_diverge (en y x : Int) :
    borderLoop en y ((en / DAY - x / DAY).toNat + 2) x ≠ .error .diverge := by
  have key : ∀ (n : Nat) (x : Int), en / DAY - x / DAY < n → borderLoop en y (n + 1) x ≠ .error .diverge := by
    intro n
    induction n with
    | zero =>
      intro x hx h
      unfold borderLoop at h
      rw [bind_error] at h
      rcases h with h | ⟨x', h1, h⟩
      · unfold dtAdd at h; grind [raise]
      · rw [dtAdd_ok] at h1
        split at h
        · cases h
        · rename_i hc
          exfalso
          apply hc
          left
          rw [h1.2]
          unfold combine dtDate DAY at *; omega
    | succ n ih =>
      intro x hx h
      unfold borderLoop at h
      rw [bind_error] at h
      rcases h with h | ⟨x', h1, h⟩
      · unfold dtAdd at h; grind [raise]
      · rw [dtAdd_ok] at h1
        split at h
        · cases h
        · rw [bind_error] at h
          rcases h with h | ⟨_, _, h⟩
          · refine ih x' ?_ h
            rw [h1.2]
            unfold combine dtDate DAY at *; omega
          · cases h
  exact key _ x (by omega)

/-- The loop returns if the day after the last one needed is representable. -/
theorem borderLoop_returns {en y : Int} : ∀ (fuel : Nat) (x : Int), dtInRange x = true →
    dtDate x < MAXORD → dtDate en < MAXORD ∨ dtDate y < MAXORD →
    borderLoop en y fuel x = .error .diverge ∨ ∃ l, borderLoop en y fuel x = .ok l := by
  intro fuel
  induction fuel with
  | zero => intro x _ _ _; exact Or.inl rfl
  | succ n ih =>
    intro x hx hm he
    have hx2 := (dtInRange_iff x).1 hx
    have hadd : dtAdd (combine (dtDate x) 0) DAY = .ok (combine (dtDate x) 0 + DAY) := by
      rw [dtAdd_ok, dtInRange_iff]
      refine ⟨?_, rfl⟩
      have hmx : (MAXORD : Int) = 3652059 := rfl
      unfold combine dtDate DAY at *; omega
    unfold borderLoop
    rw [hadd, ok_bind]
    split
    · exact Or.inr ⟨[], rfl⟩
    · rename_i hc
      rcases ih (combine (dtDate x) 0 + DAY) ((dtAdd_ok.1 hadd).1) (by
        unfold combine dtDate DAY at *; omega) he with h | ⟨l, h⟩
      · rw [h]; exact Or.inl rfl
      · rw [h]; exact Or.inr ⟨_, rfl⟩

/-- Consecutive borders. -/
def segPairs : Int → List Int → Int → List (Int × Int)
  | lo, [], hi => [(lo, hi)]
  | lo, x :: rest, hi => (lo, x) :: segPairs x rest hi

/-- The same from the end, as the code makes them. -/
def revPairs : Int → List Int → List (Int × Int)
  | _, [] => []
  | e, s :: rest => (s, e) :: revPairs s rest

theorem revPairs_append (e : Int) (L : List Int) (x a : Int) :
    revPairs e (L ++ [x] ++ [a]) = revPairs e (L ++ [x]) ++ [(a, x)] := by
  induction L generalizing e with
  | nil => rfl
  | cons s rest ih => simp only [List.cons_append, revPairs]; rw [← List.cons_append, ih]; rfl

theorem revPairs_eq (lo : Int) (inner : List Int) (hi : Int) :
    revPairs hi (lo :: inner).reverse = (segPairs lo inner hi).reverse := by
  induction inner generalizing lo with
  | nil => rfl
  | cons x rest ih =>
    rw [List.reverse_cons, List.reverse_cons, revPairs_append, ← List.reverse_cons, ih]
    simp [segPairs]

/-- The test of `inPeriod` for a segment given by its ends. -/
def keptPair (b en : Int) (p : Int × Int) : Bool := decide (b < p.2 ∧ p.1 < en)

/-- A segment. -/
def mkSeg {α : Type} (o : α) (p : Int × Int) : Occurrence α := ⟨p.1, p.2 - p.1, o⟩

theorem popLoop_ok {α : Type} {b en : Int} {o : α} {e : Int} {L : List Int} {l : List (Occurrence α)} :
    popLoop b en o e L = .ok l ↔ (∀ p ∈ revPairs e L, dtInRange p.2 = true) ∧
      l = ((revPairs e L).filter (keptPair b en)).map (mkSeg o) := by
  induction L generalizing e l with
  | nil => unfold popLoop; rw [Except.ok.injEq, eq_comm]; simp [revPairs]
  | cons s rest ih =>
    unfold popLoop
    rw [bind_ok]
    simp only [bind_ok, ih]
    have hk : ∀ k, inPeriod s (some (e - s)) (some b) (some en) = .ok k ↔
        dtInRange e = true ∧ k = keptPair b en (s, e) := by
      intro k
      rw [inPeriod_eq]
      simp only []
      have : s + (e - s) = e := by omega
      rw [this]
      by_cases hr : dtInRange e = true
      · rw [if_pos hr]
        simp only [hr, true_and]
        rw [Except.ok.injEq, eq_comm]
        unfold keptPair
        simp
      · rw [if_neg hr, raise_eq_ok]
        simp [hr]
    simp only [hk, revPairs]
    constructor
    · rintro ⟨k, ⟨h1, h2⟩, more, ⟨h3, h4⟩, h5⟩
      injection h5 with h5
      refine ⟨?_, ?_⟩
      · intro p hp
        rcases List.mem_cons.1 hp with rfl | hp
        · exact h1
        · exact h3 p hp
      · rw [← h5, h2, h4, List.filter_cons]
        split <;> simp [mkSeg]
    · rintro ⟨h1, h2⟩
      refine ⟨_, ⟨h1 _ (List.mem_cons_self ..), rfl⟩, _, ⟨fun p hp => h1 p (List.mem_cons_of_mem _ hp), rfl⟩, ?_⟩
      rw [h2, List.filter_cons]
      split <;> simp [mkSeg]

theorem bordersOf_eq {b en x0 y : Int} {inner : List Int}
    (hw : Walk (if en < y then en else y) (combine (dtDate (if x0 < b then b else x0)) 0) inner) :
    bordersOf b en x0 y inner = (if x0 < b then b else x0) :: inner ++ [if en < y then en else y] := by
  unfold bordersOf
  simp only []
  by_cases h : b > x0
  · rw [if_pos h, if_pos (show x0 < b by omega)]
  · rw [if_neg h, if_neg (show ¬ x0 < b by omega)]
    rw [if_neg (show ¬ x0 < b by omega)] at hw
    have hc : inner = [] ∨ inner.head? ≠ some x0 := by
      cases inner with
      | nil => exact Or.inl rfl
      | cons a rest =>
        right
        obtain ⟨h1, _⟩ := hw
        simp only [List.head?_cons, ne_eq, Option.some.injEq]
        intro hh
        rw [hh] at h1
        unfold combine dtDate DAY at h1; omega
    rw [if_pos hc]

/-- What `segmentOne` computes: the pairs of consecutive borders that are in the period. -/
theorem segmentOne_ok {α : Type} {b en : Int} {occ : Occurrence α} {l : List (Occurrence α)}
    (h : segmentOne b en occ = .ok l) :
    ∃ inner, Walk (if en < occ.dtstart + occ.duration then en else occ.dtstart + occ.duration)
        (combine (dtDate (if occ.dtstart < b then b else occ.dtstart)) 0) inner ∧
      dtInRange (occ.dtstart + occ.duration) = true ∧
      l = ((segPairs (if occ.dtstart < b then b else occ.dtstart) inner
        (if en < occ.dtstart + occ.duration then en else occ.dtstart + occ.duration)).reverse.filter
          (keptPair b en)).map (mkSeg occ.original) := by
  unfold segmentOne at h
  simp only [] at h
  rw [bind_ok] at h
  obtain ⟨y, hy, h⟩ := h
  rw [dtAdd_ok] at hy
  obtain ⟨hyr, rfl⟩ := hy
  rw [bind_ok] at h
  obtain ⟨inner, hi, h⟩ := h
  have hw := borderLoop_walk _ _ _ hi
  rw [bordersOf_eq hw, List.reverse_append, List.reverse_singleton, List.singleton_append] at h
  simp only [] at h
  rw [popLoop_ok] at h
  exact ⟨inner, hw, hyr, by rw [← revPairs_eq]; exact h.2⟩

theorem segPairs_bounds {lo : Int} {inner : List Int} {hi m : Int} (hw : Walk hi m inner)
    (h1 : m ≤ lo) (h2 : lo < m + DAY) (hm : m % DAY = 0) :
    ∀ p ∈ segPairs lo inner hi, lo ≤ p.1 ∧ p.2 ≤ combine (dtDate p.1) 0 + DAY ∧
      (lo ≤ hi → p.1 ≤ p.2 ∧ p.2 ≤ hi) ∧ (p.2 ≤ p.1 → p = (lo, hi) ∨ (p = (hi, hi) ∧ hi % DAY = 0 ∧ lo < hi)) := by
  induction inner generalizing lo m with
  | nil =>
    unfold Walk at hw
    intro p hp
    rw [segPairs, List.mem_singleton] at hp
    subst hp
    simp only []
    refine ⟨Int.le_refl _, ?_, fun h => ⟨h, Int.le_refl _⟩, fun _ => Or.inl trivial⟩
    unfold combine dtDate DAY at *; omega
  | cons x rest ih =>
    obtain ⟨hx, hxl, hw⟩ := hw
    intro p hp
    rw [segPairs, List.mem_cons] at hp
    rcases hp with rfl | hp
    · simp only []
      refine ⟨Int.le_refl _, ?_, fun h => ⟨by omega, hxl⟩, fun h => by omega⟩
      unfold combine dtDate DAY at *; omega
    · have hD : (0 : Int) < DAY := by decide
      obtain ⟨i1, i2, i3, i4⟩ := ih hw (Int.le_refl _) (by omega) (by rw [hx]; unfold DAY at *; omega) p hp
      refine ⟨by omega, i2, fun _ => i3 hxl, fun h => ?_⟩
      right
      rcases i4 h with rfl | ⟨h3, h4, _⟩
      · have := (i3 hxl).1
        simp only [] at this h
        have : x = hi := by omega
        subst this
        exact ⟨rfl, by rw [hx]; unfold DAY at *; omega, by omega⟩
      · exact ⟨h3, h4, by omega⟩

/-- Number of pairs covering an instant. -/
theorem segPairs_count {lo : Int} {inner : List Int} {hi m : Int} (hw : Walk hi m inner)
    (h2 : lo < m + DAY) (t : Int) :
    (segPairs lo inner hi).countP (fun p => decide (p.1 ≤ t ∧ t < p.2)) = if lo ≤ t ∧ t < hi then 1 else 0 := by
  induction inner generalizing lo m with
  | nil => simp [segPairs, List.countP_cons]
  | cons x rest ih =>
    obtain ⟨hx, hxl, hw⟩ := hw
    have hD : (0 : Int) < DAY := by decide
    rw [segPairs, List.countP_cons, ih hw (by omega)]
    simp only [decide_eq_true_eq]
    split <;> split <;> split <;> omega

end CalCore
