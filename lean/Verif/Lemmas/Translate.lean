import Verif.Lemmas.Algebra
/- Sequences of dates moved by a number of days. -/
namespace CalCore
open Spec

/-- `f'` is `f` moved by `D` days, as far as dates up to `e` are concerned.  `R` are the indices for
which this is known. -/
structure MovedSeq (f f' : Nat → Option Int) (D e : Int) (R : Nat → Prop) : Prop where
  eq : ∀ k, R k → f' k = (f k).map (· + D)
  down : ∀ j k, j < k → R k → R j
  old : ∀ k d, f k = some d → d ≤ e → R k
  new : ∀ k d, f' k = some d → d ≤ e + D → R k

theorem rank_congr_isSome {f f' : Nat → Option Int} {k : Nat} (h : ∀ j < k, (f' j).isSome = (f j).isSome) :
    rank f' k = rank f k := by
  unfold rank
  refine List.countP_congr (fun j hj => ?_)
  rw [h j (List.mem_range.1 hj)]

theorem MovedSeq.rank {f f' : Nat → Option Int} {D e : Int} {R : Nat → Prop} (h : MovedSeq f f' D e R)
    {k : Nat} (hk : R k) : rank f' k = rank f k := by
  refine rank_congr_isSome (fun j hj => ?_)
  rw [h.eq j (h.down j k hj hk)]
  simp

theorem MovedSeq.generates {r r' : Rule} {f f' : Nat → Option Int} {D e : Int} {R : Nat → Prop}
    (h : MovedSeq f f' D e R) (hc : r'.count = r.count)
    (hu : ∀ u, r'.untl = some (.date (u + D)) ↔ r.untl = some (.date u))
    (hx : ∀ d, d + D ∈ r'.exceptions ↔ d ∈ r.exceptions) {l l' : List Int}
    (hl : Generates r (some e) f l) (hl' : Generates r' (some (e + D)) f' l') :
    l' = l.map (· + D) := by
  refine sorted_ext hl'.1 ?_ ?_
  · rw [List.pairwise_map]
    exact hl.1.imp (fun h => by omega)
  · intro d'
    rw [hl'.2, List.mem_map]
    constructor
    · rintro ⟨k, hk, ⟨w1, w2, w3⟩, hne⟩
      have hR := h.new k d' hk (w1 _ rfl)
      have he := h.eq k hR
      rw [hk] at he
      cases hf : f k with
      | none => rw [hf] at he; simp at he
      | some d =>
        rw [hf] at he
        simp only [Option.map_some, Option.some.injEq] at he
        subst he
        refine ⟨d, (hl.2 d).2 ⟨k, hf, ⟨fun e' he' => ?_, fun c hc' => ?_, fun u hu' => ?_⟩, ?_⟩, rfl⟩
        · have := w1 _ rfl; simp only [Option.some.injEq] at he'; omega
        · rw [← h.rank hR]; exact w2 c (hc ▸ hc')
        · have := w3 _ ((hu u).2 hu'); omega
        · rwa [← hx]
    · rintro ⟨d, hd, rfl⟩
      obtain ⟨k, hk, ⟨w1, w2, w3⟩, hne⟩ := (hl.2 d).1 hd
      have hR := h.old k d hk (w1 _ rfl)
      refine ⟨k, ?_, ⟨fun e' he' => ?_, fun c hc' => ?_, fun u hu' => ?_⟩, ?_⟩
      · rw [h.eq k hR, hk]; rfl
      · have := w1 _ rfl; simp only [Option.some.injEq] at he'; omega
      · rw [h.rank hR]; exact w2 c (hc ▸ hc')
      · have := w3 (u - D) ((hu _).1 (by rw [hu']; congr 2; omega)); omega
      · rwa [hx]

theorem MovedSeq.initial {f f' : Nat → Option Int} {D e : Int} {R : Nat → Prop}
    (h : MovedSeq f f' D e R) : MovedSeq (initial f) (initial f') D e R := by
  have hsub : ∀ (g : Nat → Option Int) k d, Spec.initial g k = some d → g k = some d := by
    intro g k d hg
    unfold Spec.initial at hg
    split at hg
    · exact hg
    · cases hg
  refine ⟨fun k hk => ?_, h.down, fun k d hd => h.old k d (hsub _ _ _ hd),
    fun k d hd => h.new k d (hsub _ _ _ hd)⟩
  have hall : ∀ j ≤ k, (f' j).isSome = (f j).isSome := by
    intro j hj
    have : R j := by
      rcases Nat.lt_or_ge j k with h1 | h1
      · exact h.down j k h1 hk
      · rw [show j = k by omega]; exact hk
    rw [h.eq j this]; simp
  unfold Spec.initial
  by_cases hi : ∀ j ≤ k, (f j).isSome = true
  · rw [if_pos hi, if_pos (fun j hj => by rw [hall j hj]; exact hi j hj), h.eq k hk]
  · rw [if_neg hi, if_neg (fun hh => hi (fun j hj => by rw [← hall j hj]; exact hh j hj))]
    rfl

/-! ### 400 years -/

theorem isLeap_400 (y c : Int) : isLeap (y + 400 * c) = isLeap y := by
  rw [Bool.eq_iff_iff, isLeap_iff, isLeap_iff]
  omega

theorem daysInMonth_400 (y m c : Int) : daysInMonth (y + 400 * c) m = daysInMonth y m := by
  rw [daysInMonth_eq, daysInMonth_eq, isLeap_400]

theorem ymd2ord_400 (y m d c : Int) : ymd2ord (y + 400 * c) m d = ymd2ord y m d + 146097 * c := by
  unfold ymd2ord daysBeforeMonth
  rw [isLeap_400]
  unfold daysBeforeYear
  omega

theorem ymd_400 (d c : Int) : dyear (d + 146097 * c) = dyear d + 400 * c ∧
    dmonth (d + 146097 * c) = dmonth d ∧ dday (d + 146097 * c) = dday d := by
  have v := validYmd_date d
  have v' : validYmd (dyear d + 400 * c) (dmonth d) (dday d) := by
    unfold validYmd at v ⊢
    rw [daysInMonth_400]; exact v
  have := ymd_of_ymd2ord v'
  rw [ymd2ord_400, ymd2ord_date] at this
  exact this

theorem weekday_400 (d c : Int) : weekday (d + 146097 * c) = weekday d := by
  unfold weekday; omega

theorem monthNr_400 (d c : Int) : monthNr (d + 146097 * c) = monthNr d + 4800 * c := by
  unfold monthNr
  rw [(ymd_400 d c).1, (ymd_400 d c).2.1]; omega

theorem monthYear_400 (n c : Int) : monthYear (n + 4800 * c) = monthYear n + 400 * c := by
  unfold monthYear; omega

theorem monthMonth_400 (n c : Int) : monthMonth (n + 4800 * c) = monthMonth n := by
  unfold monthMonth; omega

theorem dateOf_move {y m d c : Int} (hc : 0 ≤ c) (hy : y + 400 * c ≤ 9999) (hy1 : 1 ≤ y) :
    dateOf (y + 400 * c) m d = (dateOf y m d).map (· + 146097 * c) := by
  unfold dateOf
  rw [daysInMonth_400, ymd2ord_400]
  by_cases h : 1 ≤ m ∧ m ≤ 12 ∧ 1 ≤ d ∧ d ≤ daysInMonth y m
  · rw [if_pos (by omega), if_pos (by omega)]; rfl
  · rw [if_neg (by omega), if_neg (by omega)]; rfl

theorem weekdaysOfMonth_400 {n wd c : Int} (hc : 0 ≤ c) (hy : monthYear n + 400 * c ≤ 9999)
    (hy1 : 1 ≤ monthYear n) (hw : 0 ≤ wd ∧ wd ≤ 6) :
    weekdaysOfMonth (n + 4800 * c) wd = (weekdaysOfMonth n wd).map (· + 146097 * c) := by
  have e : monthFirst (n + 4800 * c) = monthFirst n + 146097 * c := by
    unfold monthFirst
    rw [monthYear_400, monthMonth_400, ymd2ord_400]
  have e2 : firstOff (n + 4800 * c) wd = firstOff n wd := by
    unfold firstOff
    rw [e, weekday_400]
  rw [weekdaysOfMonth_eq (n := n) (by omega) hw,
    weekdaysOfMonth_eq (n := n + 4800 * c) (by rw [monthYear_400]; omega) hw]
  simp only [e, e2, monthYear_400, monthMonth_400, daysInMonth_400]
  rw [List.map_append]
  simp only [List.map_cons, List.map_nil]
  congr 1
  · simp only [List.cons.injEq, and_true]
    refine ⟨?_, ?_, ?_, ?_⟩ <;> omega
  · by_cases h : monthFirst n + firstOff n wd + 28 < monthFirst n + daysInMonth (monthYear n) (monthMonth n)
    · rw [if_pos h, if_pos (by omega)]
      show [_] = [_]; refine congrArg (fun z => [z]) ?_; show _ = _ + 146097 * c; omega
    · rw [if_neg h, if_neg (by omega)]; rfl

theorem dyear_cap {e c : Int} (he : e + 146097 * c + 400 ≤ MAXORD) : dyear e + 400 * c ≤ 9998 := by
  rw [← (ymd_400 e c).1]
  generalize e + 146097 * c = x at *
  have h1 := dyear_bounds x
  rcases Int.lt_or_le 9998 (dyear x) with h | h
  · have := daysBeforeYear_mono (y := 9999) (y' := dyear x) (by omega)
    have h2 : daysBeforeYear 9999 = 3651694 := by decide
    have h3 : MAXORD = 3652059 := rfl
    omega
  · exact h

theorem monthYear_first {n d : Int} (h : monthFirst n ≤ d) : monthYear n ≤ dyear d := by
  have v : validYmd (monthYear n) (monthMonth n) 1 :=
    ⟨(monthMonth_range n).1, (monthMonth_range n).2, by omega, by
      have := daysInMonth_pos (monthYear n) (monthMonth n); omega⟩
  have h1 := (ymd_of_ymd2ord v).1
  have h2 := dyear_mono h
  unfold monthFirst at h2
  omega

theorem monthNr_pos {s : Int} (hr : dateInRange s = true) : 12 ≤ monthNr s := by
  have hv := validYmd_date s
  have hy0 := (dateInRange_iff_year s).1 hr
  unfold monthNr; unfold validYmd at hv; omega

section
variable {s iv e c : Int}

theorem dailySeq_moved (hi : 1 ≤ iv) (D : Int) (h0 : 0 ≤ D) (he : e + D ≤ MAXORD) :
    MovedSeq (dailySeq s iv) (dailySeq (s + D) iv) D e (fun k => s + k * iv + D ≤ MAXORD) := by
  unfold dailySeq
  refine ⟨fun k hk => ?_, fun j k hjk hk => ?_, fun k d hd hde => ?_, fun k d hd hde => ?_⟩
  · rw [if_pos (by omega), if_pos (by omega)]
    simp only [Option.map_some, Option.some.injEq]; omega
  · have := mul_mono_step hi hjk; omega
  · split at hd <;> cases hd; omega
  · split at hd <;> cases hd; omega

theorem weeklySeq_moved {wds : List Int} (D : Int) (h7 : 7 ∣ D) (h0 : 0 ≤ D) (he : e + D ≤ MAXORD) :
    MovedSeq (weeklySeq s iv wds) (weeklySeq (s + D) iv wds) D e (fun k => s + k + D ≤ MAXORD) := by
  have hw : ∀ x : Int, weekday (x + D) = weekday x := by
    intro x; unfold weekday; omega
  have hm : ∀ x : Int, mondayOf (x + D) = mondayOf x + D := by
    intro x; unfold mondayOf; rw [hw]; omega
  have e1 : ∀ k : Nat, s + D + k = s + k + D := fun k => by omega
  unfold weeklySeq
  simp only [e1, hw, hm]
  have e2 : ∀ k : Nat, mondayOf (s + k) + D - (mondayOf s + D) = mondayOf (s + k) - mondayOf s := by
    intro k; omega
  simp only [e2]
  refine ⟨fun k hk => ?_, fun j k hjk hk => by omega, fun k d hd hde => ?_, fun k d hd hde => ?_⟩
  · by_cases h : 7 * iv ∣ mondayOf (s + k) - mondayOf s ∧
      (weekday (s + k) ∈ wds ∨ weekday (s + k) = weekday s)
    · rw [if_pos ⟨by omega, h⟩, if_pos ⟨by omega, h⟩]; rfl
    · rw [if_neg (fun hh => h hh.2), if_neg (fun hh => h hh.2)]; rfl
  · split at hd <;> cases hd; omega
  · split at hd <;> cases hd; omega

theorem yearlySeq_moved (hi : 1 ≤ iv) (hr : dateInRange s = true) (hc : 0 ≤ c)
    (he : e + 146097 * c + 400 ≤ MAXORD) :
    MovedSeq (yearlySeq s iv) (yearlySeq (s + 146097 * c) iv) (146097 * c) e
      (fun k => dyear s + k * iv + 400 * c ≤ 9998) := by
  have hy := (dateInRange_iff_year s).1 hr
  have hcap := dyear_cap he
  unfold yearlySeq
  rw [(ymd_400 s c).1, (ymd_400 s c).2.1, (ymd_400 s c).2.2]
  refine ⟨fun k hk => ?_, fun j k hjk hk => ?_, fun k d hd hde => ?_, fun k d hd hde => ?_⟩
  · have hj : (0 : Int) ≤ k * iv := Int.mul_nonneg (by omega) (by omega)
    rw [show dyear s + 400 * c + k * iv = dyear s + k * iv + 400 * c by omega]
    exact dateOf_move hc (by omega) (by omega)
  · have := mul_mono_step hi hjk; omega
  · have h1 := ((dateOf_eq_some _ _ _ _).1 hd).2.1
    have := dyear_mono hde
    omega
  · have h1 := ((dateOf_eq_some _ _ _ _).1 hd).2.1
    have := dyear_mono hde
    rw [(ymd_400 e c).1] at this
    omega

theorem monthdaySeq_moved (hi : 1 ≤ iv) (hr : dateInRange s = true) (hc : 0 ≤ c)
    (he : e + 146097 * c + 400 ≤ MAXORD) :
    MovedSeq (monthdaySeq s iv) (monthdaySeq (s + 146097 * c) iv) (146097 * c) e
      (fun k => monthYear (monthNr s + k * iv) + 400 * c ≤ 9998) := by
  have hn := monthNr_pos hr
  have hcap := dyear_cap he
  unfold monthdaySeq
  have e1 : ∀ k : Nat, monthNr (s + 146097 * c) + k * iv = monthNr s + k * iv + 4800 * c := by
    intro k; rw [monthNr_400]; omega
  simp only [e1, (ymd_400 s c).2.2, monthYear_400, monthMonth_400]
  refine ⟨fun k hk => ?_, fun j k hjk hk => ?_, fun k d hd hde => ?_, fun k d hd hde => ?_⟩
  · have hj : (0 : Int) ≤ k * iv := Int.mul_nonneg (by omega) (by omega)
    exact dateOf_move hc (by omega) (by unfold monthYear; omega)
  · have := mul_mono_step hi hjk
    unfold monthYear at *; omega
  · have h1 := ((dateOf_eq_some _ _ _ _).1 hd).2.1
    have := dyear_mono hde
    omega
  · have h1 := ((dateOf_eq_some _ _ _ _).1 hd).2.1
    have := dyear_mono hde
    rw [(ymd_400 e c).1] at this
    omega

theorem weekdaysOfMonth_head {n wd x : Int} (hw : 0 ≤ wd ∧ wd ≤ 6)
    (h : (weekdaysOfMonth n wd).head? = some x) :
    monthYear n ≤ 9999 ∧ monthFirst n ≤ x ∧ x ≤ monthFirst n + 6 := by
  by_cases hy : 1 ≤ monthYear n ∧ monthYear n ≤ 9999
  · rw [weekdaysOfMonth_eq hy hw] at h
    simp only [List.cons_append, List.head?_cons, Option.some.injEq] at h
    have : 0 ≤ firstOff n wd ∧ firstOff n wd < 7 := by unfold firstOff; omega
    omega
  · unfold weekdaysOfMonth at h
    rw [if_neg hy] at h; cases h

theorem weekdaysOfMonth_last {n wd x : Int} (hw : 0 ≤ wd ∧ wd ≤ 6)
    (h : (weekdaysOfMonth n wd).getLast? = some x) :
    monthYear n ≤ 9999 ∧ monthFirst n + 21 ≤ x := by
  by_cases hy : 1 ≤ monthYear n ∧ monthYear n ≤ 9999
  · rw [weekdaysOfMonth_eq hy hw] at h
    have : 0 ≤ firstOff n wd ∧ firstOff n wd < 7 := by unfold firstOff; omega
    simp only [] at h
    split at h
    · simp at h; omega
    · simp at h; omega
  · unfold weekdaysOfMonth at h
    rw [if_neg hy] at h; cases h

theorem idxOf_moved (hr : dateInRange s = true) (hr' : dateInRange (s + 146097 * c) = true) :
    (weekdaysOfMonth (monthNr (s + 146097 * c)) (weekday (s + 146097 * c))).idxOf (s + 146097 * c) =
      (weekdaysOfMonth (monthNr s) (weekday s)).idxOf s ∧
    (weekdaysOfMonth (monthNr (s + 146097 * c)) (weekday (s + 146097 * c))).reverse.idxOf (s + 146097 * c) =
      (weekdaysOfMonth (monthNr s) (weekday s)).reverse.idxOf s := by
  rw [idxOf_start hr, idxOf_start hr', idxOf_start_rev hr, idxOf_start_rev hr',
    (ymd_400 s c).1, (ymd_400 s c).2.1, (ymd_400 s c).2.2, daysInMonth_400]
  exact ⟨rfl, rfl⟩

theorem idxOf_small (hr : dateInRange s = true) :
    (weekdaysOfMonth (monthNr s) (weekday s)).idxOf s ≤ 4 ∧
    (weekdaysOfMonth (monthNr s) (weekday s)).reverse.idxOf s ≤ 4 := by
  rw [idxOf_start hr, idxOf_start_rev hr]
  have hv := validYmd_date s
  have hL := daysInMonth_pos (dyear s) (dmonth s)
  unfold validYmd at hv
  omega

theorem weekdayDriftSeq_moved (hi : 1 ≤ iv) (hr : dateInRange s = true)
    (hr' : dateInRange (s + 146097 * c) = true) (hc : 0 ≤ c)
    (he : e + 146097 * c + 400 ≤ MAXORD) :
    MovedSeq (weekdayDriftSeq s iv) (weekdayDriftSeq (s + 146097 * c) iv) (146097 * c) e
      (fun k => monthYear (monthNr s + k * iv) + 400 * c ≤ 9998) := by
  have hn := monthNr_pos hr
  have hcap := dyear_cap he
  have hw := weekday_range s
  have hsm := (idxOf_small hr).1
  unfold weekdayDriftSeq
  rw [(idxOf_moved hr hr').1]
  generalize (weekdaysOfMonth (monthNr s) (weekday s)).idxOf s = p at *
  have e1 : ∀ k : Nat, monthNr (s + 146097 * c) + k * iv = monthNr s + k * iv + 4800 * c := by
    intro k; rw [monthNr_400]; omega
  simp only [e1, weekday_400]
  refine ⟨fun k hk => ?_, fun j k hjk hk => ?_, fun k d hd hde => ?_, fun k d hd hde => ?_⟩
  · have hj : (0 : Int) ≤ k * iv := Int.mul_nonneg (by omega) (by omega)
    have hy1 : 1 ≤ monthYear (monthNr s + k * iv) := by unfold monthYear; omega
    rw [weekdaysOfMonth_400 hc (by omega) hy1 hw, List.head?_map]
    cases hx : (weekdaysOfMonth (monthNr s + k * iv) (weekday s)).head? with
    | none => rfl
    | some x =>
      have h2 := weekdaysOfMonth_head hw hx
      have h3 : monthFirst (monthNr s + k * iv) + 146097 * c + 59 ≤ MAXORD := by
        have a1 := monthFirst_add (monthNr s + k * iv + 4800 * c) 1
        have a2 := monthFirst_lt (n := monthNr s + k * iv + 4800 * c) (n' := 12 * 9999) (by
          unfold monthYear at hk; omega)
        have a3 : monthFirst (12 * 9999) = 3651695 := by decide
        have a4 : monthFirst (monthNr s + k * iv + 4800 * c) =
            monthFirst (monthNr s + k * iv) + 146097 * c := by
          unfold monthFirst
          rw [monthYear_400, monthMonth_400, ymd2ord_400]
        have a5 : MAXORD = 3652059 := rfl
        omega
      simp only [Option.map_some, Option.bind_some]
      rw [if_pos (by omega), if_pos (by omega)]
      simp only [Option.map_some, Option.some.injEq]; omega
  · have := mul_mono_step hi hjk
    unfold monthYear at *; omega
  · rw [Option.bind_eq_some_iff] at hd
    obtain ⟨x, hx, hd'⟩ := hd
    have h2 := weekdaysOfMonth_head hw hx
    split at hd' <;> cases hd'
    have h3 := monthYear_first (n := monthNr s + k * iv) (d := e) (by omega)
    omega
  · rw [Option.bind_eq_some_iff] at hd
    obtain ⟨x, hx, hd'⟩ := hd
    have h2 := weekdaysOfMonth_head hw hx
    split at hd' <;> cases hd'
    have h3 := monthYear_first (n := monthNr s + k * iv + 4800 * c) (d := e + 146097 * c) (by omega)
    rw [(ymd_400 e c).1, monthYear_400] at h3
    omega

theorem lastDriftSeq_moved (hi : 1 ≤ iv) (hr : dateInRange s = true)
    (hr' : dateInRange (s + 146097 * c) = true) (hc : 0 ≤ c)
    (he : e + 146097 * c + 400 ≤ MAXORD) :
    MovedSeq
      (fun j => if monthNr s + j * iv < 12 * 9999 + 11 then lastWeekdayDriftSeq s iv j else none)
      (fun j => if monthNr (s + 146097 * c) + j * iv < 12 * 9999 + 11 then
        lastWeekdayDriftSeq (s + 146097 * c) iv j else none) (146097 * c) e
      (fun k => monthYear (monthNr s + k * iv) + 400 * c ≤ 9998) := by
  have hn := monthNr_pos hr
  have hw := weekday_range s
  have hsm := (idxOf_small hr).2
  have hcap : dyear (e + 7) + 400 * c ≤ 9998 := by
    rw [← (ymd_400 (e + 7) c).1]
    generalize hx : e + 7 + 146097 * c = x at *
    have h1 := dyear_bounds x
    rcases Int.lt_or_le 9998 (dyear x) with h | h
    · have := daysBeforeYear_mono (y := 9999) (y' := dyear x) (by omega)
      have h2 : daysBeforeYear 9999 = 3651694 := by decide
      have h3 : MAXORD = 3652059 := rfl
      omega
    · exact h
  unfold lastWeekdayDriftSeq
  rw [(idxOf_moved hr hr').2]
  generalize (weekdaysOfMonth (monthNr s) (weekday s)).reverse.idxOf s = p at *
  have e1 : ∀ k : Nat, monthNr (s + 146097 * c) + k * iv = monthNr s + k * iv + 4800 * c := by
    intro k; rw [monthNr_400]; omega
  simp only [e1, weekday_400]
  refine ⟨fun k hk => ?_, fun j k hjk hk => ?_, fun k d hd hde => ?_, fun k d hd hde => ?_⟩
  · have hj : (0 : Int) ≤ k * iv := Int.mul_nonneg (by omega) (by omega)
    have hy1 : 1 ≤ monthYear (monthNr s + k * iv) := by unfold monthYear; omega
    rw [if_pos (by unfold monthYear at hk; omega), if_pos (by unfold monthYear at hk; omega),
      weekdaysOfMonth_400 hc (by omega) hy1 hw, List.getLast?_map]
    cases hx : (weekdaysOfMonth (monthNr s + k * iv) (weekday s)).getLast? with
    | none => rfl
    | some x => simp only [Option.map_some, Option.some.injEq]; omega
  · have := mul_mono_step hi hjk
    unfold monthYear at *; omega
  · split at hd
    · rw [Option.map_eq_some_iff] at hd
      obtain ⟨x, hx, rfl⟩ := hd
      have h2 := weekdaysOfMonth_last hw hx
      have h3 := monthYear_first (n := monthNr s + k * iv) (d := e + 7) (by omega)
      omega
    · cases hd
  · split at hd
    · rw [Option.map_eq_some_iff] at hd
      obtain ⟨x, hx, rfl⟩ := hd
      have h2 := weekdaysOfMonth_last hw hx
      have h3 := monthYear_first (n := monthNr s + k * iv + 4800 * c) (d := e + 7 + 146097 * c) (by omega)
      rw [(ymd_400 (e + 7) c).1, monthYear_400] at h3
      omega
    · cases hd

end

theorem ruleSeq_400 {r : Rule} {s e c : Int} (hi : 1 ≤ r.interval) (hk : r.kind ≠ .no)
    (hr : dateInRange s = true)
    (hr' : dateInRange (s + 146097 * c) = true) (hc : 0 ≤ c) (he : e + 146097 * c + 400 ≤ MAXORD) :
    ∃ R, MovedSeq (ruleSeq r s) (ruleSeq r (s + 146097 * c)) (146097 * c) e R := by
  unfold ruleSeq
  cases hkind : r.kind with
  | no => exact absurd hkind hk
  | basic => exact ⟨_, dailySeq_moved hi _ (by omega) (by omega)⟩
  | daily => exact ⟨_, dailySeq_moved hi _ (by omega) (by omega)⟩
  | yearly => exact ⟨_, (yearlySeq_moved hi hr hc he).initial⟩
  | weekly wds => exact ⟨_, weeklySeq_moved _ (by omega) (by omega) (by omega)⟩
  | monthly m =>
    cases m with
    | monthday => exact ⟨_, monthdaySeq_moved hi hr hc he⟩
    | weekday => exact ⟨_, weekdayDriftSeq_moved hi hr hr' hc he⟩
    | lastweekday => exact ⟨_, lastDriftSeq_moved hi hr hr' hc he⟩

end CalCore
