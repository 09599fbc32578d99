import Verif.Lemmas.Expand
/- Lemmas on the sequences of dates of the rule classes: monotonicity, ranks, sequences with the same
values. -/
namespace CalCore
open Spec

/-- A sequence whose defined elements increase strictly. -/
def Increasing (f : Nat → Option Int) : Prop := ∀ j k x y, j < k → f j = some x → f k = some y → x < y

theorem rank_eq_length (f : Nat → Option Int) (k : Nat) :
    rank f k = ((List.range k).filterMap f).length := by
  unfold rank
  generalize List.range k = l
  induction l with
  | nil => rfl
  | cons a l ih =>
    rw [List.countP_cons, List.filterMap_cons, ih]
    cases f a <;> simp

/-- The rank of a value depends on the set of values only. -/
theorem rank_congr {f g : Nat → Option Int} (hf : Increasing f) (hg : Increasing g)
    (hv : ∀ d, (∃ k, f k = some d) ↔ ∃ k, g k = some d) {j k : Nat} {d : Int} (hj : f j = some d)
    (hk : g k = some d) : rank f j = rank g k := by
  have hs : ∀ {f : Nat → Option Int}, Increasing f → ∀ n, ((List.range n).filterMap f).Pairwise (· < ·) := by
    intro f hf n
    rw [List.pairwise_filterMap]
    exact List.pairwise_lt_range.imp fun h x hx y hy => hf _ _ _ _ h hx hy
  have hm : ∀ {f : Nat → Option Int}, Increasing f → ∀ {n : Nat}, f n = some d →
      ∀ x, x ∈ (List.range n).filterMap f ↔ (∃ i, f i = some x) ∧ x < d := by
    intro f hf n hn x
    rw [List.mem_filterMap]
    constructor
    · rintro ⟨a, ha, hx⟩
      exact ⟨⟨a, hx⟩, hf _ _ _ _ (List.mem_range.1 ha) hx hn⟩
    · rintro ⟨⟨i, hi⟩, hx⟩
      refine ⟨i, List.mem_range.2 ?_, hi⟩
      rcases Nat.lt_trichotomy i n with h | h | h
      · exact h
      · subst h; rw [hi] at hn; injection hn with hn; omega
      · have := hf _ _ _ _ h hn hi; omega
  rw [rank_eq_length, rank_eq_length]
  congr 1
  refine sorted_ext (hs hf j) (hs hg k) fun x => ?_
  rw [hm hf hj, hm hg hk, hv]

/-- Sequences with the same values have the same dates within the bounds. -/
theorem Generates.congr {r : Rule} {en : Option Int} {f g : Nat → Option Int} {l l' : List Int}
    {r' : Rule} (hc : r'.count = r.count) (hu : r'.untl = r.untl) (hx : r'.exceptions = r.exceptions)
    (hf : Increasing f) (hg : Increasing g) (hv : ∀ d, (∃ k, f k = some d) ↔ ∃ k, g k = some d)
    (h : Generates r en f l) (h' : Generates r' en g l') : l = l' := by
  have hw : ∀ d k, Within r' en d k ↔ Within r en d k := by
    intro d k; unfold Within; rw [hc, hu]
  refine sorted_ext h.1 h'.1 fun d => ?_
  rw [h.2 d, h'.2 d]
  constructor
  · rintro ⟨k, h1, h2, h3⟩
    obtain ⟨k', hk'⟩ := (hv d).1 ⟨k, h1⟩
    exact ⟨k', hk', (hw _ _).2 (by rw [← rank_congr hf hg hv h1 hk']; exact h2), by rw [hx]; exact h3⟩
  · rintro ⟨k, h1, h2, h3⟩
    obtain ⟨k', hk'⟩ := (hv d).2 ⟨k, h1⟩
    exact ⟨k', hk', by rw [rank_congr hf hg hv hk' h1]; exact (hw _ _).1 h2, by rw [← hx]; exact h3⟩

theorem dailySeq_mono {s iv : Int} (hi : 1 ≤ iv) : Increasing (dailySeq s iv) := by
  intro j k x y h hx hy
  have h1 := (dailySeq_some.1 hx).1
  have h2 := (dailySeq_some.1 hy).1
  have := mul_mono_step hi h
  omega

theorem yearlySeq_mono {s iv : Int} (hi : 1 ≤ iv) : Increasing (yearlySeq s iv) := by
  intro j k x y h hx hy
  have := mul_mono_step hi h
  exact dateOf_lt hx hy (Or.inl (by omega))

theorem weeklySeq_some {s iv : Int} {wds : List Int} {k : Nat} {d : Int} :
    weeklySeq s iv wds k = some d ↔ d = s + k ∧ d ≤ MAXORD ∧ 7 * iv ∣ mondayOf d - mondayOf s ∧
      (weekday d ∈ wds ∨ weekday d = weekday s) := by
  unfold weeklySeq
  constructor
  · intro h
    split at h
    · rename_i hc
      injection h with h
      subst h
      exact ⟨rfl, hc⟩
    · cases h
  · rintro ⟨rfl, hc⟩
    rw [if_pos hc]

theorem weeklySeq_mono {s iv : Int} {wds : List Int} : Increasing (weeklySeq s iv wds) := by
  intro j k x y h hx hy
  have h1 := (weeklySeq_some.1 hx).1
  have h2 := (weeklySeq_some.1 hy).1
  omega

theorem monthdaySeq_mono {s iv : Int} (hi : 1 ≤ iv) : Increasing (monthdaySeq s iv) := by
  intro j k x y h hx hy
  have := mul_mono_step hi h
  refine dateOf_lt hx hy ?_
  unfold monthYear monthMonth
  omega

theorem Increasing.initial {f : Nat → Option Int} (h : Increasing f) : Increasing (initial f) := by
  intro j k x y hjk hx hy
  exact h j k x y hjk (initial_eq_some.1 hx).2 (initial_eq_some.1 hy).2

theorem monthSeq_mono {s iv index : Int} (hi : 1 ≤ iv) (hr : dateInRange s = true) :
    Increasing (monthSeq s iv index) := by
  intro j k x y h hx hy
  have hv := validYmd_date s
  have hy0 := (dateInRange_iff_year s).1 hr
  have hn0 : 12 ≤ monthNr s := by unfold monthNr; unfold validYmd at hv; omega
  have hj : (0 : Int) ≤ j * iv := Int.mul_nonneg (by omega) (by omega)
  have hst := mul_mono_step hi h
  exact monthindex_lt (n := monthNr s + j * iv) (n' := monthNr s + k * iv) (by omega)
    (by unfold monthYear; omega) (weekday_range s) (monthSeq_eq_some.1 hx) (monthSeq_eq_some.1 hy)

theorem ruleSeq_mono {r : Rule} (hi : 1 ≤ r.interval) {s : Int} (hr : dateInRange s = true) :
    Increasing (ruleSeq r s) := by
  by_cases hk : r.kind = .no
  · unfold ruleSeq
    rw [hk]
    intro j k x y h hx hy
    simp only [] at hy
    rw [if_neg (by omega)] at hy; cases hy
  · rw [ruleSeq_eq hk hi hr]
    unfold seqOf
    cases hkind : r.kind with
    | no => exact absurd hkind hk
    | basic => exact dailySeq_mono hi
    | daily => exact dailySeq_mono hi
    | yearly => exact (yearlySeq_mono hi).initial
    | weekly wds => exact weeklySeq_mono
    | monthly m =>
      cases m with
      | monthday => exact monthdaySeq_mono hi
      | weekday => exact (monthSeq_mono hi hr).initial
      | lastweekday => exact (monthSeq_mono hi hr).initial

theorem apply_generates {r : Rule} (hk : r.kind ≠ .no) (hi : 1 ≤ r.interval) (hu : UntilIsDate r) {dt : Int}
    (hr : dtInRange dt = true) (en : Option Int) :
    Generates r en (ruleSeq r (dtDate dt)) (r.apply dt en).1 := by
  rw [ruleSeq_eq hk hi (dtDate_range hr)]
  exact (rule_exact hu hi hk dt hr).generates en

/-- A rule whose until is a datetime generates nothing. -/
theorem apply_datetime_nil {r : Rule} (hk : r.kind ≠ .no) (hu : ¬ UntilIsDate r) (dt : Int) (en : Option Int) :
    (r.apply dt en).1 = [] := by
  rw [List.eq_nil_iff_forall_not_mem]
  intro d hd
  obtain ⟨_, ⟨k, _, h⟩, _⟩ := applyRun_bounds r hk dt en r.fuel d hd
  exact hu h

end CalCore
