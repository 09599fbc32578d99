import Mathlib.Logic.Basic
import Mathlib.Tactic.ByContra
import Verif.Lemmas.Calendar
import Verif.Spec.Recurrence
/- The generator loops enumerate a strictly increasing sequence of candidates. -/
namespace CalCore
open Spec

theorem within_iff_stops (r : Rule) (en : Option Int) (d : Int) (k : Nat) (h : UntilIsDate r) :
    (Within r en d k ∧ r.stops en d k = .ok false) ∨ (¬ Within r en d k ∧ r.stops en d k = .ok true) := by
  unfold Rule.stops
  obtain ⟨kind, interval, count, untl, exceptions⟩ := r
  unfold Within UntilIsDate at *
  simp only at h ⊢
  rcases en with _ | e <;> rcases count with _ | c <;> rcases untl with _ | (u | t) <;>
    first | grind | (by_cases hu : d > u <;> grind)

theorem within_mono {r : Rule} {en : Option Int} {d d' : Int} {k k' : Nat} (hd : d ≤ d')
    (hk : k ≤ k') (h : Within r en d' k') : Within r en d k := by
  refine ⟨fun e he => ?_, fun c hc => ?_, fun u hu => ?_⟩
  · have := h.1 e he; omega
  · have := h.2.1 c hc; omega
  · have := h.2.2 u hu; omega

theorem rank_mono (cand : Nat → Option Int) {i k : Nat} (h : i ≤ k) : rank cand i ≤ rank cand k := by
  unfold rank
  exact List.Sublist.countP_le (List.range_sublist.2 h)

theorem rank_succ (cand : Nat → Option Int) (i : Nat) :
    rank cand (i + 1) = rank cand i + (if (cand i).isSome then 1 else 0) := by
  unfold rank
  rw [List.range_succ, List.countP_append]
  simp [List.countP_cons]

/-- No hit in between: the rank does not change. -/
theorem rank_skip (cand : Nat → Option Int) {i j : Nat} (h : i ≤ j)
    (hn : ∀ k, i ≤ k → k < j → cand k = none) : rank cand j = rank cand i := by
  obtain ⟨m, rfl⟩ := Nat.exists_eq_add_of_le h
  clear h
  induction m with
  | zero => rfl
  | succ m ih =>
    rw [← Nat.add_assoc, rank_succ, hn (i + m) (by omega) (by omega),
      ih (fun k h1 h2 => hn k h1 (by omega))]
    rfl

/-- A generator loop walks along the timeline `pos` of dates, where `cand` says which positions are
candidates.  `live` are the reachable positions, `Q` the faults it can raise. -/
structure Timeline {σ : Type} (r : Rule) (en : Option Int) (step : σ → Step σ) (st : Nat → σ)
    (pos : Nat → Int) (cand : Nat → Option Int) (live : Nat → Prop) (Q : Fault → Prop) : Prop where
  cand_pos : ∀ k d, cand k = some d → d = pos k
  mono : ∀ i k d, live i → cand k = some d → i < k → pos i < d
  trans : ∀ i, live i →
    (¬ Within r en (pos i) (rank cand i) ∧ step (st i) = .stop) ∨
    (∃ f, Q f ∧ step (st i) = .fail f ∧ ∀ k, i ≤ k → cand k = none) ∨
    (Within r en (pos i) (rank cand i) ∧ ∃ f, Q f ∧
      step (st i) = .yield ((cand i).bind r.emit) (.error f) ∧ ∀ k, i < k → cand k = none) ∨
    (Within r en (pos i) (rank cand i) ∧ ∃ j, i < j ∧ live j ∧
      step (st i) = .yield ((cand i).bind r.emit) (.ok (st j)) ∧
      ∀ k, i < k → k < j → cand k = none)

/-- What a run of the loop from position `i` produces. -/
structure RunSpec (r : Rule) (en : Option Int) (cand : Nat → Option Int) (Q : Fault → Prop)
    (i : Nat) (x : List Int × Status) : Prop where
  sorted : x.1.Pairwise (· < ·)
  sound : ∀ d ∈ x.1, ∃ k, i ≤ k ∧ cand k = some d ∧ Within r en d (rank cand k) ∧ d ∉ r.exceptions
  complete : x.2 ≠ .running → ∀ k d, i ≤ k → cand k = some d → Within r en d (rank cand k) →
    d ∉ r.exceptions → d ∈ x.1
  fault : ∀ f, x.2 = .raised f → Q f
  raised : ∀ f, x.2 = .raised f → ∀ k d, i ≤ k → cand k = some d → Within r en d (rank cand k)

theorem mem_emit (r : Rule) (c : Option Int) (d : Int) :
    d ∈ (c.bind r.emit).toList ↔ c = some d ∧ d ∉ r.exceptions := by
  cases c with
  | none => simp
  | some x =>
    simp only [Option.bind_some, Rule.emit]
    split
    · rename_i h
      simp only [Option.toList_none, List.not_mem_nil, Option.some.injEq, false_iff, not_and, not_not]
      rintro rfl; exact h
    · rename_i h
      simp only [Option.toList_some, List.mem_singleton, Option.some.injEq]
      constructor
      · rintro rfl; exact ⟨rfl, h⟩
      · rintro ⟨rfl, _⟩; rfl

theorem pairwise_emit (r : Rule) (c : Option Int) :
    (c.bind r.emit).toList.Pairwise (· < ·) := by
  cases c with
  | none => simp
  | some x => simp only [Option.bind_some, Rule.emit]; split <;> simp

theorem Timeline.run {σ : Type} {r : Rule} {en : Option Int} {step : σ → Step σ} {st : Nat → σ}
    {pos : Nat → Int} {cand : Nat → Option Int} {live : Nat → Prop} {Q : Fault → Prop}
    (T : Timeline r en step st pos cand live Q) (n : Nat) :
    ∀ i, live i → RunSpec r en cand Q i (runGen step n (st i)) := by
  induction n with
  | zero =>
    intro i _
    refine ⟨by simp [runGen], by simp [runGen], ?_, ?_, ?_⟩ <;> simp [runGen]
  | succ n ih =>
    intro i hi
    rcases T.trans i hi with ⟨hw, hs⟩ | ⟨f, hq, hs, hn⟩ | ⟨hw, f, hq, hs, hn⟩ | ⟨hw, j, hij, hj, hs, hn⟩
    · have e : runGen step (n + 1) (st i) = ([], .finished) := by simp [runGen, hs]
      rw [e]
      refine ⟨List.Pairwise.nil, by simp, ?_, by simp, by simp⟩
      intro _ k d hk hc hwk _
      exfalso; apply hw
      refine within_mono ?_ (rank_mono cand hk) hwk
      rcases Nat.lt_or_eq_of_le hk with h | h
      · exact Int.le_of_lt (T.mono i k d hi hc h)
      · subst h; rw [T.cand_pos i d hc]; exact Int.le_refl _
    · have e : runGen step (n + 1) (st i) = ([], .raised f) := by simp [runGen, hs]
      rw [e]
      refine ⟨List.Pairwise.nil, by simp, ?_, ?_, ?_⟩
      · intro _ k d hk hc; rw [hn k hk] at hc; cases hc
      · intro f' hf'; injection hf' with hf'; exact hf' ▸ hq
      · intro f' _ k d hk hc; rw [hn k hk] at hc; cases hc
    · have e : runGen step (n + 1) (st i) = (((cand i).bind r.emit).toList, .raised f) := by
        simp [runGen, hs]
      rw [e]
      refine ⟨pairwise_emit r _, ?_, ?_, ?_, ?_⟩
      · intro d hd
        rw [mem_emit] at hd
        refine ⟨i, Nat.le_refl i, hd.1, ?_, hd.2⟩
        rw [T.cand_pos i d hd.1]; exact hw
      · intro _ k d hk hc _ hx
        rcases Nat.lt_or_eq_of_le hk with h | h
        · rw [hn k h] at hc; cases hc
        · subst h; exact (mem_emit r _ d).2 ⟨hc, hx⟩
      · intro f' hf'; injection hf' with hf'; exact hf' ▸ hq
      · intro f' _ k d hk hc
        rcases Nat.lt_or_eq_of_le hk with h | h
        · rw [hn k h] at hc; cases hc
        · subst h; rw [T.cand_pos i d hc]; exact hw
    · have e : runGen step (n + 1) (st i) =
          (((cand i).bind r.emit).toList ++ (runGen step n (st j)).1, (runGen step n (st j)).2) := by
        simp [runGen, hs]
      rw [e]
      obtain ⟨R1, R2, R3, R4, R5⟩ := ih j hj
      refine ⟨?_, ?_, ?_, R4, ?_⟩
      · rw [List.pairwise_append]
        refine ⟨pairwise_emit r _, R1, ?_⟩
        intro a ha b hb
        rw [mem_emit] at ha
        obtain ⟨k, hk, hc, _⟩ := R2 b hb
        rw [T.cand_pos i a ha.1]
        exact T.mono i k b hi hc (by omega)
      · intro d hd
        rcases List.mem_append.1 hd with hd | hd
        · rw [mem_emit] at hd
          refine ⟨i, Nat.le_refl i, hd.1, ?_, hd.2⟩
          rw [T.cand_pos i d hd.1]; exact hw
        · obtain ⟨k, hk, h⟩ := R2 d hd
          exact ⟨k, by omega, h⟩
      · intro hr k d hk hc hwk hx
        rw [List.mem_append]
        rcases Nat.lt_or_eq_of_le hk with h | h
        · by_cases hkj : k < j
          · rw [hn k h hkj] at hc; cases hc
          · exact Or.inr (R3 hr k d (by omega) hc hwk hx)
        · subst h; exact Or.inl ((mem_emit r _ d).2 ⟨hc, hx⟩)
      · intro f hf k d hk hc
        rcases Nat.lt_or_eq_of_le hk with h | h
        · by_cases hkj : k < j
          · rw [hn k h hkj] at hc; cases hc
          · exact R5 f hf k d (by omega) hc
        · subst h; rw [T.cand_pos i d hc]; exact hw

/-- The first candidate is generated in the first iteration. -/
theorem Timeline.first {σ : Type} {r : Rule} {en : Option Int} {step : σ → Step σ} {st : Nat → σ}
    {pos : Nat → Int} {cand : Nat → Option Int} {live : Nat → Prop} {Q : Fault → Prop}
    (T : Timeline r en step st pos cand live Q) (n i : Nat) (hi : live i) {d : Int}
    (hd : cand i = some d) (hw : Within r en d (rank cand i)) (hx : d ∉ r.exceptions) :
    ∃ t, (runGen step (n + 1) (st i)).1 = d :: t := by
  have hem : ((cand i).bind r.emit).toList = [d] := by
    rw [hd]; simp [Rule.emit, hx]
  have hp := T.cand_pos i d hd
  rcases T.trans i hi with ⟨hw', hs⟩ | ⟨f, hq, hs, hn⟩ | ⟨hw', f, hq, hs, hn⟩ | ⟨hw', j, hij, hj, hs, hn⟩
  · rw [← hp] at hw'; exact absurd hw hw'
  · rw [hn i (Nat.le_refl i)] at hd; cases hd
  · exact ⟨[], by simp only [runGen, hs]; exact hem⟩
  · refine ⟨(runGen step n (st j)).1, ?_⟩
    simp only [runGen, hs]
    rw [hem]; rfl

/-- If the reachable positions are bounded, the loop ends. -/
theorem Timeline.ends {σ : Type} {r : Rule} {en : Option Int} {step : σ → Step σ} {st : Nat → σ}
    {pos : Nat → Int} {cand : Nat → Option Int} {live : Nat → Prop} {Q : Fault → Prop}
    (T : Timeline r en step st pos cand live Q) {B : Nat} (hB : ∀ i, live i → i ≤ B) (n : Nat) :
    ∀ i, live i → B < n + i → (runGen step n (st i)).2 ≠ .running := by
  induction n with
  | zero => intro i hi h; have := hB i hi; omega
  | succ n ih =>
    intro i hi h
    rcases T.trans i hi with ⟨hw, hs⟩ | ⟨f, hq, hs, hn⟩ | ⟨hw, f, hq, hs, hn⟩ | ⟨hw, j, hij, hj, hs, hn⟩
    · simp [runGen, hs]
    · simp [runGen, hs]
    · simp [runGen, hs]
    · have := ih j hj (by omega)
      simpa [runGen, hs] using this

/-- Two increasing lists with the same elements are equal. -/
theorem sorted_ext {l l' : List Int} (h : l.Pairwise (· < ·)) (h' : l'.Pairwise (· < ·))
    (hm : ∀ d, d ∈ l ↔ d ∈ l') : l = l' := by
  have hp : l.Perm l' :=
    (List.perm_ext_iff_of_nodup (h.imp (fun h => by omega)) (h'.imp (fun h => by omega))).2 hm
  exact hp.eq_of_pairwise (le := (· < ·)) (fun a b _ _ h1 h2 => by omega) h h'

end CalCore
