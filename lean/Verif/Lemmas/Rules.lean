import Verif.Lemmas.Gen
/- Each rule class walks along a sequence of candidates. -/
namespace CalCore
open Spec

/-- The faults a rule of positive interval can raise. -/
def RangeFault (f : Fault) : Prop := f = .py .ValueError ∨ f = .py .OverflowError

/-- `applyRun` enumerates the sequence `cand`, and has ended after `3652100` iterations. -/
structure Exact (r : Rule) (dt : Int) (cand : Nat → Option Int) : Prop where
  run : ∀ en n, RunSpec r en cand RangeFault 0 (r.applyRun dt en n)
  ends : ∀ en n, 3652100 ≤ n → (r.applyRun dt en n).2 ≠ .running
  first : ∀ en n d, cand 0 = some d → Within r en d 0 → d ∉ r.exceptions →
    ∃ t, (r.applyRun dt en (n + 1)).1 = d :: t

theorem rank_full (cand : Nat → Option Int) (i : Nat) (h : ∀ j < i, (cand j).isSome = true) :
    rank cand i = i := by
  unfold rank
  rw [List.countP_eq_length.2]
  · simp
  · intro a ha; exact h a (List.mem_range.1 ha)

theorem rank_zero (cand : Nat → Option Int) : rank cand 0 = 0 := rfl

theorem basicStep_cases {r : Rule} (h : UntilIsDate r) (en : Option Int) (s : Int × Nat) :
    (¬ Within r en s.1 s.2 ∧ r.basicStep en s = .stop) ∨
    (Within r en s.1 s.2 ∧ r.basicStep en s =
      .yield (r.emit s.1) ((r.nextRecurrence s.1).map (fun c => (c, s.2 + 1)))) := by
  unfold Rule.basicStep
  rcases within_iff_stops r en s.1 s.2 h with ⟨hw, e⟩ | ⟨hw, e⟩ <;> rw [e]
  · exact Or.inr ⟨hw, rfl⟩
  · exact Or.inl ⟨hw, rfl⟩

theorem basic_timeline {r : Rule} (h : UntilIsDate r) (en : Option Int) (cand : Nat → Option Int)
    (mono : ∀ i k d e, cand i = some d → cand k = some e → i < k → d < e)
    (next : ∀ i d, cand i = some d →
      (∃ f, RangeFault f ∧ r.nextRecurrence d = .error f ∧ ∀ k, i < k → cand k = none) ∨
      (∃ j e, i < j ∧ cand j = some e ∧ r.nextRecurrence d = .ok e ∧
        ∀ k, i < k → k < j → cand k = none)) :
    Timeline r en (r.basicStep en) (fun i => ((cand i).getD 0, rank cand i))
      (fun i => (cand i).getD 0) cand (fun i => (cand i).isSome = true) RangeFault := by
  refine ⟨?_, ?_, ?_⟩
  · intro k d hd; rw [hd]; rfl
  · intro i k d hi hd hik
    obtain ⟨c, hc⟩ := Option.isSome_iff_exists.1 hi
    rw [hc]
    exact mono i k c d hc hd hik
  · intro i hi
    obtain ⟨c, hc⟩ := Option.isSome_iff_exists.1 hi
    simp only [hc, Option.getD_some, Option.bind_some]
    rcases basicStep_cases h en (c, rank cand i) with ⟨hw, hs⟩ | ⟨hw, hs⟩
    · exact Or.inl ⟨hw, hs⟩
    · simp only at hw hs
      rcases next i c hc with ⟨f, hq, hf, hn⟩ | ⟨j, e, hij, he, hok, hn⟩
      · refine Or.inr (Or.inr (Or.inl ⟨hw, f, hq, ?_, hn⟩))
        rw [hs, hf]; rfl
      · refine Or.inr (Or.inr (Or.inr ⟨hw, j, hij, by rw [he]; rfl, ?_, hn⟩))
        rw [hs, hok, he]
        have : rank cand j = rank cand i + 1 := by
          rw [rank_skip cand (i := i + 1) (j := j) hij (fun k h1 h2 => hn k h1 h2), rank_succ, hc]
          rfl
        simp only [Except.map, Option.getD_some, this]

theorem exact_of_basic {r : Rule} (h : UntilIsDate r) (dt : Int) (cand : Nat → Option Int)
    (happ : ∀ en n, r.applyRun dt en n = runGen (r.basicStep en) n (dtDate dt, 0))
    (h0 : cand 0 = some (dtDate dt))
    (hB : ∀ k d, cand k = some d → k ≤ 3652060)
    (mono : ∀ i k d e, cand i = some d → cand k = some e → i < k → d < e)
    (next : ∀ i d, cand i = some d →
      (∃ f, RangeFault f ∧ r.nextRecurrence d = .error f ∧ ∀ k, i < k → cand k = none) ∨
      (∃ j e, i < j ∧ cand j = some e ∧ r.nextRecurrence d = .ok e ∧
        ∀ k, i < k → k < j → cand k = none)) :
    Exact r dt cand := by
  have e0 : ((cand 0).getD 0, rank cand 0) = (dtDate dt, 0) := by rw [h0, rank_zero]; rfl
  refine ⟨fun en n => ?_, fun en n hn => ?_, fun en n d hd hw hx => ?_⟩
  · have T := (basic_timeline h en cand mono next).run n 0 (by rw [h0]; rfl)
    rw [happ, ← e0]; exact T
  · have T := (basic_timeline h en cand mono next).ends (B := 3652060)
      (fun i hi => by
        obtain ⟨c, hc⟩ := Option.isSome_iff_exists.1 hi
        exact hB i c hc) n 0 (by rw [h0]; rfl) (by omega)
    rw [happ, ← e0]; exact T
  · have T := (basic_timeline h en cand mono next).first n 0 (by rw [h0]; rfl) hd hw hx
    rw [happ, ← e0]; exact T

theorem dateOf_eq_some (y m d n : Int) :
    dateOf y m d = some n ↔ dateInRange n = true ∧ dyear n = y ∧ dmonth n = m ∧ dday n = d := by
  unfold dateOf
  constructor
  · split
    · rename_i h
      intro e
      injection e with e
      subst e
      have v : validYmd y m d := ⟨h.2.2.1, h.2.2.2.1, h.2.2.2.2.1, h.2.2.2.2.2⟩
      have := ymd_of_ymd2ord v
      refine ⟨?_, this⟩
      rw [dateInRange_iff_year, this.1]
      exact ⟨h.1, h.2.1⟩
    · intro e; cases e
  · rintro ⟨hr, rfl, rfl, rfl⟩
    have v := validYmd_date n
    rw [dateInRange_iff_year] at hr
    rw [if_pos ⟨hr.1, hr.2, v.1, v.2.1, v.2.2.1, v.2.2.2⟩, ymd2ord_date]

theorem mkDate_dateOf (y m d : Int) :
    mkDate y m d = match dateOf y m d with
      | some n => .ok n
      | none => if y > CINT ∨ y < -CINT - 1 then raise .OverflowError else raise .ValueError := by
  unfold mkDate dateOf
  by_cases h : 1 ≤ y ∧ y ≤ 9999 ∧ 1 ≤ m ∧ m ≤ 12 ∧ 1 ≤ d ∧ d ≤ daysInMonth y m
  · rw [if_neg (by unfold CINT; omega), if_pos h, if_pos h]
  · rw [if_neg h, if_neg h]

/-! ### daily -/

theorem daily_exact {r : Rule} (h : UntilIsDate r) (hi : 1 ≤ r.interval)
    (hk : r.kind = .daily ∨ r.kind = .basic) (dt : Int) (hr : dtInRange dt = true) :
    Exact r dt (dailySeq (dtDate dt) r.interval) := by
  rw [dtInRange_date, dateInRange_iff] at hr
  have bound : ∀ k d, dailySeq (dtDate dt) r.interval k = some d →
      d = dtDate dt + k * r.interval ∧ dtDate dt + k * r.interval ≤ MAXORD := by
    intro k d hd
    unfold dailySeq at hd
    split at hd
    · injection hd with hd; exact ⟨hd.symm, by assumption⟩
    · cases hd
  have mulk : ∀ k : Nat, (k : Int) ≤ k * r.interval := by
    intro k
    have := Int.mul_le_mul_of_nonneg_left hi (Int.natCast_nonneg k)
    omega
  have mulmono : ∀ i k : Nat, i < k → (i : Int) * r.interval + r.interval ≤ k * r.interval := by
    intro i k hik
    have : ((i : Int) + 1) * r.interval ≤ k * r.interval :=
      Int.mul_le_mul_of_nonneg_right (by omega) (by omega)
    rw [Int.add_mul] at this
    omega
  refine exact_of_basic h dt _ ?_ ?_ ?_ ?_ ?_
  · intro en n; unfold Rule.applyRun; rcases hk with hk | hk <;> rw [hk]
  · unfold dailySeq; simp; omega
  · intro k d hd
    have b := bound k d hd
    have := mulk k
    unfold MAXORD at b
    omega
  · intro i k d e hd he hik
    have b1 := bound i d hd
    have b2 := bound k e he
    have := mulmono i k hik
    omega
  · intro i d hd
    have b := bound i d hd
    have en : r.nextRecurrence d = dateAdd d r.interval := by
      unfold Rule.nextRecurrence; rcases hk with hk | hk <;> rw [hk]
    have hs : ((i + 1 : Nat) : Int) * r.interval = i * r.interval + r.interval := by
      push_cast; rw [Int.add_mul]; omega
    by_cases hm : d + r.interval ≤ MAXORD
    · refine Or.inr ⟨i + 1, d + r.interval, by omega, ?_, ?_, by intro k; omega⟩
      · unfold dailySeq; rw [hs, if_pos (by omega)]; congr 1; omega
      · rw [en, dateAdd_ok, dateInRange_iff]; have := mulk i; exact ⟨by omega, rfl⟩
    · refine Or.inl ⟨.py .OverflowError, Or.inr rfl, ?_, ?_⟩
      · rw [en]; unfold dateAdd
        rw [if_neg (by rw [dateInRange_iff]; omega)]; rfl
      · intro k hik
        unfold dailySeq
        have := mulmono i k hik
        rw [if_neg (by omega)]

/-! ### yearly -/

theorem initial_eq_some {f : Nat → Option Int} {k : Nat} {d : Int} :
    initial f k = some d ↔ (∀ j ≤ k, (f j).isSome = true) ∧ f k = some d := by
  unfold initial
  split
  · rename_i h; exact ⟨fun e => ⟨h, e⟩, fun e => e.2⟩
  · rename_i h; exact ⟨fun e => (by cases e), fun e => absurd e.1 h⟩

theorem initial_none_of {f : Nat → Option Int} {i k : Nat} (h : f i = none) (hik : i ≤ k) :
    initial f k = none := by
  unfold initial
  rw [if_neg]
  intro hc
  have := hc i hik
  rw [h] at this; cases this

theorem initial_isSome_succ {f : Nat → Option Int} {i : Nat} {d e : Int} (h : initial f i = some d)
    (he : f (i + 1) = some e) : initial f (i + 1) = some e := by
  rw [initial_eq_some] at h ⊢
  refine ⟨fun j hj => ?_, he⟩
  rcases Nat.lt_or_eq_of_le hj with hj | hj
  · exact h.1 j (by omega)
  · rw [hj, he]; rfl

theorem mkDate_fault {y m d : Int} (h : dateOf y m d = none) :
    ∃ f, RangeFault f ∧ mkDate y m d = .error f := by
  rw [mkDate_dateOf, h]
  by_cases hy : y > CINT ∨ y < -CINT - 1
  · exact ⟨_, Or.inr rfl, by simp only [if_pos hy]; rfl⟩
  · exact ⟨_, Or.inl rfl, by simp only [if_neg hy]; rfl⟩

theorem dateOf_lt {y m d y' m' d' n n' : Int} (h : dateOf y m d = some n)
    (h' : dateOf y' m' d' = some n') (hl : y < y' ∨ (y = y' ∧ (m < m' ∨ (m = m' ∧ d < d')))) :
    n < n' := by
  rw [dateOf_eq_some] at h h'
  obtain ⟨_, rfl, rfl, rfl⟩ := h
  obtain ⟨_, rfl, rfl, rfl⟩ := h'
  have := (ymd2ord_lt_iff (validYmd_date n) (validYmd_date n')).2 hl
  rwa [ymd2ord_date, ymd2ord_date] at this

theorem yearly_exact {r : Rule} (h : UntilIsDate r) (hi : 1 ≤ r.interval)
    (hk : r.kind = .yearly) (dt : Int) (hr : dtInRange dt = true) :
    Exact r dt (initial (yearlySeq (dtDate dt) r.interval)) := by
  rw [dtInRange_date] at hr
  have mulmono : ∀ i k : Nat, i < k → (i : Int) * r.interval + r.interval ≤ k * r.interval := by
    intro i k hik
    have : ((i : Int) + 1) * r.interval ≤ k * r.interval :=
      Int.mul_le_mul_of_nonneg_right (by omega) (by omega)
    rw [Int.add_mul] at this
    omega
  have mulk : ∀ k : Nat, (k : Int) ≤ k * r.interval := by
    intro k
    have := Int.mul_le_mul_of_nonneg_left hi (Int.natCast_nonneg k)
    omega
  have h0 : yearlySeq (dtDate dt) r.interval 0 = some (dtDate dt) := by
    unfold yearlySeq
    rw [dateOf_eq_some]
    exact ⟨hr, by simp, rfl, rfl⟩
  refine exact_of_basic h dt _ ?_ ?_ ?_ ?_ ?_
  · intro en n; unfold Rule.applyRun; rw [hk]
  · rw [initial_eq_some]
    refine ⟨fun j hj => ?_, h0⟩
    obtain rfl : j = 0 := by omega
    rw [h0]; rfl
  · intro k d hd
    have hd := (initial_eq_some.1 hd).2
    unfold yearlySeq at hd
    rw [dateOf_eq_some] at hd
    have b := (dateInRange_iff_year d).1 hd.1
    have b' := (dateInRange_iff_year _).1 hr
    have := mulk k
    omega
  · intro i k d e hd he hik
    have hd := (initial_eq_some.1 hd).2
    have he := (initial_eq_some.1 he).2
    unfold yearlySeq at hd he
    refine dateOf_lt hd he (Or.inl ?_)
    have := mulmono i k hik
    omega
  · intro i d hd
    have hd' := (initial_eq_some.1 hd).2
    unfold yearlySeq at hd'
    rw [dateOf_eq_some] at hd'
    have hs : ((i + 1 : Nat) : Int) * r.interval = i * r.interval + r.interval := by
      push_cast; rw [Int.add_mul]; omega
    have en : r.nextRecurrence d =
        mkDate (dyear (dtDate dt) + ((i + 1 : Nat) : Int) * r.interval) (dmonth (dtDate dt))
          (dday (dtDate dt)) := by
      unfold Rule.nextRecurrence
      rw [hk, hs, ← Int.add_assoc, ← hd'.2.1, ← hd'.2.2.1, ← hd'.2.2.2]
    cases hn : yearlySeq (dtDate dt) r.interval (i + 1) with
    | none =>
      obtain ⟨f, hq, hf⟩ := mkDate_fault hn
      exact Or.inl ⟨f, hq, by rw [en, hf], fun k hik => initial_none_of hn hik⟩
    | some e =>
      refine Or.inr ⟨i + 1, e, by omega, initial_isSome_succ hd hn, ?_, by intro k; omega⟩
      rw [en, mkDate_dateOf]
      unfold yearlySeq at hn
      rw [hn]

/-! ### weekly -/

theorem weeklyHit_eq {r : Rule} (hi : 1 ≤ r.interval) {start cur : Int} (wds : List Int)
    (hs : dateInRange start = true) (hc : dateInRange cur = true) :
    r.weeklyHit (wds ++ [weekday start]) start cur =
      .ok (decide (7 * r.interval ∣ mondayOf cur - mondayOf start ∧
        (weekday cur ∈ wds ∨ weekday cur = weekday start))) := by
  unfold Rule.weeklyHit
  rw [weekspan_eq hs hc, ok_bind, if_neg (by omega)]
  have e7 : ∃ q, cur - weekday cur - (start - weekday start) = 7 * q := by
    refine ⟨(cur - weekday cur - (start - weekday start)) / 7, ?_⟩
    unfold weekday; omega
  unfold mondayOf
  obtain ⟨q, hq⟩ := e7
  rw [hq, Int.mul_ediv_cancel_left _ (by decide)]
  congr 1
  have e : 7 * r.interval ∣ 7 * q ↔ q % r.interval = 0 := by
    rw [Int.mul_dvd_mul_iff_left (by decide), Int.dvd_iff_emod_eq_zero]
  simp only [e, List.mem_append, List.mem_singleton]
  exact (Bool.decide_and ..).symm

theorem weekly_exact {r : Rule} (h : UntilIsDate r) (hi : 1 ≤ r.interval) {wds : List Int}
    (hk : r.kind = .weekly wds) (dt : Int) (hr : dtInRange dt = true) :
    Exact r dt (weeklySeq (dtDate dt) r.interval wds) := by
  rw [dtInRange_date] at hr
  have hr' := (dateInRange_iff _).1 hr
  generalize hstart : dtDate dt = start at *
  have happ : ∀ en n, r.applyRun dt en n =
      runGen (r.weeklyStep (wds ++ [weekday start]) start en) n (start, 0) := by
    intro en n; unfold Rule.applyRun; rw [hk, hstart]
  have T : ∀ en, Timeline r en (r.weeklyStep (wds ++ [weekday start]) start en)
      (fun k : Nat => (start + k, rank (weeklySeq start r.interval wds) k)) (fun k : Nat => start + k)
      (weeklySeq start r.interval wds) (fun k => start + k ≤ MAXORD) RangeFault := by
    intro en
    have hc : ∀ k d, weeklySeq start r.interval wds k = some d → d = start + k ∧ start + k ≤ MAXORD := by
      intro k d hd
      unfold weeklySeq at hd
      split at hd
      · rename_i hx; injection hd with hd; exact ⟨hd.symm, hx.1⟩
      · cases hd
    refine ⟨fun k d hd => (hc k d hd).1, ?_, ?_⟩
    · intro i k d _ hd hik
      have := hc k d hd
      omega
    · intro i hl
      have hcur : dateInRange (start + i) = true := by rw [dateInRange_iff]; omega
      unfold Rule.weeklyStep
      simp only
      rcases within_iff_stops r en (start + i) (rank (weeklySeq start r.interval wds) i) h with ⟨hw, e⟩ | ⟨hw, e⟩
      · rw [e, weeklyHit_eq hi wds hr hcur]
        have hcand : weeklySeq start r.interval wds i =
            if (7 * r.interval ∣ mondayOf (start + i) - mondayOf start ∧
              (weekday (start + i) ∈ wds ∨ weekday (start + i) = weekday start))
            then some (start + i) else none := by
          unfold weeklySeq
          by_cases hx : (7 * r.interval ∣ mondayOf (start + i) - mondayOf start ∧
              (weekday (start + i) ∈ wds ∨ weekday (start + i) = weekday start))
          · rw [if_pos hx, if_pos ⟨hl, hx⟩]
          · rw [if_neg hx, if_neg (fun hh => hx hh.2)]
        have hstep : (match decide (7 * r.interval ∣ mondayOf (start + i) - mondayOf start ∧
              (weekday (start + i) ∈ wds ∨ weekday (start + i) = weekday start)) with
            | true => Step.yield (r.emit (start + i)) ((dateAdd (start + i) 1).map
                (fun c => (c, rank (weeklySeq start r.interval wds) i + 1)))
            | false => Step.yield none ((dateAdd (start + i) 1).map
                (fun c => (c, rank (weeklySeq start r.interval wds) i)))) =
            Step.yield ((weeklySeq start r.interval wds i).bind r.emit)
              ((dateAdd (start + i) 1).map
                (fun c => (c, rank (weeklySeq start r.interval wds) (i + 1)))) := by
          rw [rank_succ, hcand]
          split
          · rename_i hx
            rw [if_pos (of_decide_eq_true hx)]; rfl
          · rename_i hx
            rw [if_neg (of_decide_eq_false hx)]; rfl
        have hstep' : (match (Except.ok (decide (7 * r.interval ∣ mondayOf (start + i) - mondayOf start ∧
              (weekday (start + i) ∈ wds ∨ weekday (start + i) = weekday start))) : Res Bool) with
            | .error e => Step.fail e
            | .ok true => Step.yield (r.emit (start + i)) ((dateAdd (start + i) 1).map
                (fun c => (c, rank (weeklySeq start r.interval wds) i + 1)))
            | .ok false => Step.yield none ((dateAdd (start + i) 1).map
                (fun c => (c, rank (weeklySeq start r.interval wds) i)))) =
            Step.yield ((weeklySeq start r.interval wds i).bind r.emit)
              ((dateAdd (start + i) 1).map
                (fun c => (c, rank (weeklySeq start r.interval wds) (i + 1)))) := by
          rw [← hstep]
          cases decide (7 * r.interval ∣ mondayOf (start + i) - mondayOf start ∧
              (weekday (start + i) ∈ wds ∨ weekday (start + i) = weekday start)) <;> rfl
        by_cases hm : start + i + 1 ≤ MAXORD
        · refine Or.inr (Or.inr (Or.inr ⟨hw, i + 1, by omega, by push_cast; omega, ?_, by intro k; omega⟩))
          refine Eq.trans hstep' ?_
          have : dateAdd (start + i) 1 = .ok (start + i + 1) := by
            rw [dateAdd_ok, dateInRange_iff]; exact ⟨by omega, rfl⟩
          rw [this]
          simp only [Except.map]
          congr 3
          push_cast; omega
        · refine Or.inr (Or.inr (Or.inl ⟨hw, .py .OverflowError, Or.inr rfl, ?_, ?_⟩))
          · refine Eq.trans hstep' ?_
            unfold dateAdd
            rw [if_neg (by rw [dateInRange_iff]; omega)]; rfl
          · intro k hik
            unfold weeklySeq
            rw [if_neg (by intro hh; omega)]
      · rw [e]; exact Or.inl ⟨hw, rfl⟩
  refine ⟨fun en n => ?_, fun en n hn => ?_, fun en n d hd hw hx => ?_⟩
  · have := (T en).run n 0 (by simp; omega)
    rw [happ]; simpa [rank_zero] using this
  · have := (T en).ends (B := 3652059) (fun i hi => by unfold MAXORD at hi; omega) n 0 (by simp; omega)
      (by omega)
    rw [happ]; simpa [rank_zero] using this
  · have := (T en).first n 0 (by simp; omega) hd hw hx
    rw [happ]; simpa [rank_zero] using this

/-! ### monthly, same day of the month -/

/-- The search for the next month that has the day. -/
theorem nextMonthly_spec {iv : Int} (day : Int) (hi : 1 ≤ iv) : ∀ (fuel : Nat) (n : Int), 0 ≤ n →
    n < 12 * (CINT + 1) → 12 * (CINT + 1) - n ≤ fuel →
    (∃ (m : Nat) (e : Int), 1 ≤ m ∧
        dateOf (monthYear (n + m * iv)) (monthMonth (n + m * iv)) day = some e ∧
        nextMonthlyLoop iv day fuel (monthYear n) (monthMonth n) = .ok e ∧
        ∀ k : Nat, 1 ≤ k → k < m →
          dateOf (monthYear (n + k * iv)) (monthMonth (n + k * iv)) day = none) ∨
      (nextMonthlyLoop iv day fuel (monthYear n) (monthMonth n) = raise .OverflowError ∧
        ∀ k : Nat, 1 ≤ k →
          dateOf (monthYear (n + k * iv)) (monthMonth (n + k * iv)) day = none) := by
  intro fuel
  induction fuel with
  | zero => intro n h0 h1 h2; omega
  | succ fuel ih =>
    intro n h0 h1 h2
    have hn : monthYear n * 12 + monthMonth n - 1 + iv = n + iv := by
      unfold monthYear monthMonth; omega
    have unf : nextMonthlyLoop iv day (fuel + 1) (monthYear n) (monthMonth n) =
        match mkDate (monthYear (n + iv)) (monthMonth (n + iv)) day with
        | .error (.py .ValueError) =>
          nextMonthlyLoop iv day fuel (monthYear (n + iv)) (monthMonth (n + iv))
        | r => r := by
      conv => lhs; unfold nextMonthlyLoop
      simp only [hn]; rfl
    rw [unf, mkDate_dateOf]
    cases hd : dateOf (monthYear (n + iv)) (monthMonth (n + iv)) day with
    | some e =>
      refine Or.inl ⟨1, e, Nat.le_refl 1, ?_, rfl, by intro k; omega⟩
      simpa using hd
    | none =>
      simp only
      by_cases hy : monthYear (n + iv) > CINT ∨ monthYear (n + iv) < -CINT - 1
      · rw [if_pos hy]
        refine Or.inr ⟨rfl, fun k hk => ?_⟩
        have hmul : iv ≤ (k : Int) * iv := by
          have := Int.mul_le_mul_of_nonneg_right (a := 1) (b := (k : Int)) (c := iv) (by omega) (by omega)
          omega
        unfold dateOf
        rw [if_neg]
        unfold monthYear CINT at *
        omega
      · rw [if_neg hy]
        have hy' : n + iv < 12 * (CINT + 1) := by unfold monthYear at hy; omega
        have shift : ∀ k : Nat, n + iv + (k : Int) * iv = n + ((k + 1 : Nat) : Int) * iv := by
          intro k; push_cast; rw [Int.add_mul]; omega
        rcases ih (n + iv) (by omega) hy' (by omega) with ⟨m, e, hm, he, hl, hb⟩ | ⟨hl, hb⟩
        · refine Or.inl ⟨m + 1, e, by omega, ?_, hl, ?_⟩
          · rw [← shift]; exact he
          · intro k hk1 hk2
            rcases Nat.lt_or_eq_of_le hk1 with hk | hk
            · obtain ⟨k', rfl⟩ : ∃ k', k = k' + 1 := ⟨k - 1, by omega⟩
              rw [← shift]
              exact hb k' (by omega) (by omega)
            · subst hk; simpa using hd
        · refine Or.inr ⟨hl, fun k hk => ?_⟩
          rcases Nat.lt_or_eq_of_le hk with hk | hk
          · obtain ⟨k', rfl⟩ : ∃ k', k = k' + 1 := ⟨k - 1, by omega⟩
            rw [← shift]
            exact hb k' (by omega)
          · subst hk; simpa using hd

theorem monthNr_year (d : Int) : monthYear (monthNr d) = dyear d ∧ monthMonth (monthNr d) = dmonth d := by
  have := validYmd_date d
  unfold validYmd at this
  unfold monthYear monthMonth monthNr; omega

theorem dateOf_monthNr {n day e : Int} (h : dateOf (monthYear n) (monthMonth n) day = some e) :
    monthNr e = n ∧ dday e = day ∧ dateInRange e = true := by
  rw [dateOf_eq_some] at h
  refine ⟨?_, h.2.2.2, h.1⟩
  unfold monthNr; rw [h.2.1, h.2.2.1]; unfold monthYear monthMonth; omega

theorem monthday_exact {r : Rule} (h : UntilIsDate r) (hi : 1 ≤ r.interval)
    (hk : r.kind = .monthly .monthday) (dt : Int) (hr : dtInRange dt = true) :
    Exact r dt (monthdaySeq (dtDate dt) r.interval) := by
  rw [dtInRange_date] at hr
  generalize hstart : dtDate dt = start at *
  have hy := (dateInRange_iff_year _).1 hr
  have hv := validYmd_date start
  have mulmono : ∀ i k : Nat, i < k → (i : Int) * r.interval + r.interval ≤ k * r.interval := by
    intro i k hik
    have : ((i : Int) + 1) * r.interval ≤ k * r.interval :=
      Int.mul_le_mul_of_nonneg_right (by omega) (by omega)
    rw [Int.add_mul] at this
    omega
  have mulk : ∀ k : Nat, (k : Int) ≤ k * r.interval := by
    intro k
    have := Int.mul_le_mul_of_nonneg_left hi (Int.natCast_nonneg k)
    omega
  have hn0 : 12 ≤ monthNr start := by unfold monthNr; unfold validYmd at hv; omega
  refine exact_of_basic h dt _ ?_ ?_ ?_ ?_ ?_
  · intro en n; unfold Rule.applyRun; rw [hk]
  · unfold monthdaySeq
    rw [hstart]
    simp only [Int.natCast_zero, Int.zero_mul, Int.add_zero]
    rw [dateOf_eq_some, (monthNr_year start).1, (monthNr_year start).2]
    exact ⟨hr, rfl, rfl, rfl⟩
  · intro k d hd
    unfold monthdaySeq at hd
    simp only at hd
    have := mulk k
    unfold dateOf at hd
    split at hd
    · rename_i hx; unfold monthYear at hx; omega
    · cases hd
  · intro i k d e hd he hik
    have := mulmono i k hik
    unfold monthdaySeq at hd he
    refine dateOf_lt hd he ?_
    unfold monthYear monthMonth
    omega
  · intro i d hd
    unfold monthdaySeq at hd ⊢
    simp only at hd ⊢
    obtain ⟨e1, e2, e3⟩ := dateOf_monthNr hd
    have e4 := monthNr_year d
    rw [e1] at e4
    have en : r.nextRecurrence d = nextMonthlyLoop r.interval (dday start) nextMonthFuel
        (monthYear (monthNr start + i * r.interval)) (monthMonth (monthNr start + i * r.interval)) := by
      unfold Rule.nextRecurrence
      rw [hk, e4.1, e4.2, e2]
    have hb := (dateInRange_iff_year d).1 e3
    have hv' := validYmd_date d
    have shift : ∀ m : Nat, monthNr start + (i : Int) * r.interval + (m : Int) * r.interval
        = monthNr start + ((i + m : Nat) : Int) * r.interval := by
      intro m; push_cast; rw [Int.add_mul]; omega
    have hmn : monthNr start + (i : Int) * r.interval < 12 * (CINT + 1) := by
      rw [← e1]; unfold monthNr CINT; unfold validYmd at hv'; omega
    have h0 : 0 ≤ monthNr start + (i : Int) * r.interval := by have := mulk i; omega
    rcases nextMonthly_spec (dday start) hi nextMonthFuel (monthNr start + i * r.interval) h0 hmn
      (by rw [show (nextMonthFuel : Int) = 60000000000 from rfl]; unfold CINT; omega) with ⟨m, e, hm, he, hl, hbt⟩ | ⟨hl, hbt⟩
    · refine Or.inr ⟨i + m, e, by omega, ?_, ?_, ?_⟩
      · rw [← shift]; exact he
      · rw [en]; exact hl
      · intro k h1 h2
        have := hbt (k - i) (by omega) (by omega)
        rw [shift] at this
        rwa [show i + (k - i) = k by omega] at this
    · refine Or.inl ⟨.py .OverflowError, Or.inr rfl, ?_, ?_⟩
      · rw [en]; exact hl
      · intro k h1
        have := hbt (k - i) (by omega)
        rw [shift] at this
        rwa [show i + (k - i) = k by omega] at this

/-! ### monthly, same weekday of the month -/

/-- First day of the month with number `n`. -/
def monthFirst (n : Int) : Int := ymd2ord (monthYear n) (monthMonth n) 1

theorem monthMonth_range (n : Int) : 1 ≤ monthMonth n ∧ monthMonth n ≤ 12 := by
  unfold monthMonth; omega

theorem monthFirst_succ (n : Int) :
    monthFirst (n + 1) = monthFirst n + daysInMonth (monthYear n) (monthMonth n) := by
  have := next_month_first (monthYear n) (monthMonth n) (monthMonth_range n)
  unfold monthFirst
  rw [← this]
  have e1 : monthYear (n + 1) = monthYear n + monthMonth n / 12 := by
    unfold monthYear monthMonth; omega
  have e2 : monthMonth (n + 1) = monthMonth n % 12 + 1 := by unfold monthMonth; omega
  rw [e1, e2]

theorem monthFirst_add (n : Int) (k : Nat) : monthFirst n + 28 * k ≤ monthFirst (n + k) := by
  induction k with
  | zero => simp
  | succ k ih =>
    have := monthFirst_succ (n + k)
    have := daysInMonth_pos (monthYear (n + k)) (monthMonth (n + k))
    rw [show n + ((k + 1 : Nat) : Int) = n + k + 1 by push_cast; omega]
    push_cast
    omega

theorem monthFirst_lt {n n' : Int} (h : n < n') : monthFirst n + 28 ≤ monthFirst n' := by
  have := monthFirst_add n (n' - n).toNat
  rw [show n + ((n' - n).toNat : Int) = n' by omega] at this
  omega

theorem mkDate_error {y m d : Int} {f : Fault} (h : mkDate y m d = .error f) : RangeFault f := by
  rw [mkDate_dateOf] at h
  cases hd : dateOf y m d with
  | some n => rw [hd] at h; cases h
  | none =>
    obtain ⟨g, hg, e⟩ := mkDate_fault hd
    rw [mkDate_dateOf] at e
    rw [e] at h
    injection h with h; exact h ▸ hg

theorem dateAdd_error {d n : Int} {f : Fault} (h : dateAdd d n = .error f) : RangeFault f := by
  unfold dateAdd at h
  split at h
  · cases h
  · injection h with h; exact Or.inr h.symm

theorem firstWeekdayLoop_error {y m wd : Int} {f : Fault} : ∀ (l : List Int) (last : Int),
    firstWeekdayLoop y m wd last l = .error f → RangeFault f := by
  intro l
  induction l with
  | nil => intro last h; cases h
  | cons a l ih =>
    intro last h
    unfold firstWeekdayLoop at h
    rw [bind_error] at h
    rcases h with h | ⟨d, hd, h⟩
    · exact mkDate_error h
    · split at h
      · cases h
      · exact ih _ h

theorem monthindex_error {y m i wd : Int} {f : Fault} (h : monthindex y m i wd = .error f) :
    RangeFault f := by
  unfold monthindex at h
  simp only [] at h
  rw [bind_error] at h
  rcases h with h | ⟨d, _, h⟩
  · exact firstWeekdayLoop_error _ _ h
  · rw [bind_error] at h
    rcases h with h | ⟨e, _, h⟩
    · exact mkDate_error h
    · exact dateAdd_error h

/-- The first day on weekday `wd` from day `d` on. -/
def nextWd (d wd : Int) : Int := d + (wd - weekday d) % 7

/-- `monthindex` in terms of month numbers. -/
def miBase (n i : Int) : Int := if i < 0 then monthFirst (n + 1) else monthFirst n
def miOff (i : Int) : Int := if i < 0 then i else i - 1
def miMonth (n i : Int) : Int := if i < 0 then n + 1 else n

theorem monthindex_year {n i wd v : Int} (h : monthindex (monthYear n) (monthMonth n) i wd = .ok v) :
    1 ≤ monthYear (miMonth n i) ∧ monthYear (miMonth n i) ≤ 9999 := by
  unfold monthindex at h
  simp only [] at h
  rw [bind_ok] at h
  obtain ⟨day, _, h⟩ := h
  rw [bind_ok] at h
  obtain ⟨d, hd, _⟩ := h
  rw [mkDate_eq_ok, dateInRange_iff_year] at hd
  obtain ⟨hr, hy, _⟩ := hd
  rw [hy] at hr
  unfold miMonth
  split
  · rename_i hi
    rw [if_pos hi] at hr
    unfold monthYear monthMonth at *
    omega
  · rename_i hi
    rw [if_neg hi] at hr
    exact hr

theorem monthindex_closed {n i wd : Int} (hy : 1 ≤ monthYear n)
    (hy' : monthYear (miMonth n i) ≤ 9999) (hw : 0 ≤ wd ∧ wd ≤ 6) :
    monthindex (monthYear n) (monthMonth n) i wd = dateAdd (nextWd (miBase n i) wd) (miOff i * 7) := by
  unfold miMonth at hy'
  unfold miBase miOff nextWd
  by_cases hi : i < 0
  · rw [if_pos hi] at hy'
    rw [if_pos hi, if_pos hi, monthindex_neg ⟨hy, by unfold monthYear at *; omega⟩ (monthMonth_range n)
      (by unfold monthYear monthMonth at *; omega) hw hi, monthFirst_succ]
    rfl
  · rw [if_neg hi] at hy'
    rw [if_neg hi, if_neg hi, monthindex_pos ⟨hy, hy'⟩ (monthMonth_range n) hw (by omega)]
    rfl

theorem nextWd_bounds (d wd : Int) : d ≤ nextWd d wd ∧ nextWd d wd ≤ d + 6 := by
  unfold nextWd; omega

/-- Successive months give increasing dates. -/
theorem monthindex_lt {n n' i wd v v' : Int} (hn : n < n') (hy : 1 ≤ monthYear n) (hw : 0 ≤ wd ∧ wd ≤ 6)
    (h : monthindex (monthYear n) (monthMonth n) i wd = .ok v)
    (h' : monthindex (monthYear n') (monthMonth n') i wd = .ok v') : v < v' := by
  have b := monthindex_year h
  have b' := monthindex_year h'
  rw [monthindex_closed hy b.2 hw, dateAdd_ok] at h
  rw [monthindex_closed (by unfold monthYear at *; omega) b'.2 hw, dateAdd_ok] at h'
  have n1 := nextWd_bounds (miBase n i) wd
  have n2 := nextWd_bounds (miBase n' i) wd
  have : miBase n i + 28 ≤ miBase n' i := by
    unfold miBase
    split
    · exact monthFirst_lt (by omega)
    · exact monthFirst_lt hn
  omega

/-- The sequence of dates of a 'weekday' or 'lastweekday' rule as computed by `monthindex`. -/
def monthSeq (start interval index : Int) (j : Nat) : Option Int :=
  let n := monthNr start + j * interval
  (monthindex (monthYear n) (monthMonth n) index (weekday start)).toOption

theorem monthSeq_eq_some {start interval index d : Int} {j : Nat} :
    monthSeq start interval index j = some d ↔
      monthindex (monthYear (monthNr start + j * interval)) (monthMonth (monthNr start + j * interval))
        index (weekday start) = .ok d := by
  unfold monthSeq
  simp only
  cases monthindex (monthYear (monthNr start + j * interval)) (monthMonth (monthNr start + j * interval))
        index (weekday start) with
  | error e => simp [Except.toOption]
  | ok a => simp [Except.toOption]

theorem month_exact {r : Rule} (h : UntilIsDate r) (hi : 1 ≤ r.interval) (dt index : Int)
    (hr : dtInRange dt = true)
    (happ : ∀ en n, r.applyRun dt en n =
      runGen (r.monthStep index (weekday (dtDate dt)) en) n (dyear (dtDate dt), dmonth (dtDate dt), 0)) :
    Exact r dt (initial (monthSeq (dtDate dt) r.interval index)) := by
  rw [dtInRange_date] at hr
  generalize hstart : dtDate dt = start at *
  have hy := (dateInRange_iff_year _).1 hr
  have hv := validYmd_date start
  have hw := weekday_range start
  have mulmono : ∀ i k : Nat, i < k → (i : Int) * r.interval + r.interval ≤ k * r.interval := by
    intro i k hik
    have : ((i : Int) + 1) * r.interval ≤ k * r.interval :=
      Int.mul_le_mul_of_nonneg_right (by omega) (by omega)
    rw [Int.add_mul] at this
    omega
  have mulk : ∀ k : Nat, (k : Int) ≤ k * r.interval := by
    intro k
    have := Int.mul_le_mul_of_nonneg_left hi (Int.natCast_nonneg k)
    omega
  have hn0 : 12 ≤ monthNr start := by unfold monthNr; unfold validYmd at hv; omega
  have hyk : ∀ k : Nat, 1 ≤ monthYear (monthNr start + k * r.interval) := by
    intro k; have := mulk k; unfold monthYear; omega
  generalize hf : monthSeq start r.interval index = f
  have hfs : ∀ k d, f k = some d ↔ monthindex (monthYear (monthNr start + k * r.interval))
      (monthMonth (monthNr start + k * r.interval)) index (weekday start) = .ok d := by
    intro k d; rw [← hf]; exact monthSeq_eq_some
  have hmono : ∀ i k d e, f i = some d → f k = some e → i < k → d < e := by
    intro i k d e hd he hik
    rw [hfs] at hd he
    exact monthindex_lt (by have := mulmono i k hik; omega) (hyk i) hw hd he
  have T : ∀ en, Timeline r en (r.monthStep index (weekday start) en)
      (fun k : Nat => (monthYear (monthNr start + k * r.interval),
        monthMonth (monthNr start + k * r.interval), k)) (fun k => (f k).getD 0)
      (initial f) (fun k => ∀ j < k, (f j).isSome = true) RangeFault := by
    intro en
    refine ⟨?_, ?_, ?_⟩
    · intro k d hd; rw [(initial_eq_some.1 hd).2]; rfl
    · intro i k d _ hd hik
      have hd := initial_eq_some.1 hd
      obtain ⟨c, hc⟩ := Option.isSome_iff_exists.1 (hd.1 i (by omega))
      rw [hc]
      exact hmono i k c d hc hd.2 hik
    · intro i hl
      cases hx : monthindex (monthYear (monthNr start + i * r.interval))
          (monthMonth (monthNr start + i * r.interval)) index (weekday start) with
      | error g =>
        have hn : f i = none := by
          cases hfi : f i with
          | none => rfl
          | some d => rw [hfs, hx] at hfi; cases hfi
        refine Or.inr (Or.inl ⟨g, monthindex_error hx, ?_, fun k hk => initial_none_of hn hk⟩)
        unfold Rule.monthStep
        simp only [hx]
      | ok d =>
        have hd : f i = some d := (hfs i d).2 hx
        have hini : initial f i = some d := by
          rw [initial_eq_some]
          refine ⟨fun j hj => ?_, hd⟩
          rcases Nat.lt_or_eq_of_le hj with hj | hj
          · exact hl j hj
          · rw [hj, hd]; rfl
        have hrank : rank (initial f) i = i := by
          apply rank_full
          intro j hj
          have : initial f j = f j := by
            unfold initial; rw [if_pos]; intro k hk; exact hl k (by omega)
          rw [this]; exact hl j hj
        simp only [hd, hini, Option.getD_some, Option.bind_some, hrank]
        rcases within_iff_stops r en d i h with ⟨hw', e⟩ | ⟨hw', e⟩
        · refine Or.inr (Or.inr (Or.inr ⟨hw', i + 1, by omega, ?_, ?_, by intro k; omega⟩))
          · intro j hj
            rcases Nat.lt_or_eq_of_le (Nat.lt_succ_iff.1 hj) with hj | hj
            · exact hl j hj
            · rw [hj, hd]; rfl
          · unfold Rule.monthStep
            simp only [hx, e]
            have : monthYear (monthNr start + i * r.interval) * 12 +
                monthMonth (monthNr start + i * r.interval) + r.interval - 1 =
                monthNr start + ((i + 1 : Nat) : Int) * r.interval := by
              push_cast; rw [Int.add_mul]; unfold monthYear monthMonth; omega
            rw [this]; rfl
        · refine Or.inl ⟨hw', ?_⟩
          unfold Rule.monthStep
          simp only [hx, e]
  have e0 : ((monthYear (monthNr start + ((0 : Nat) : Int) * r.interval),
        monthMonth (monthNr start + ((0 : Nat) : Int) * r.interval), 0) : Int × Int × Nat)
      = (dyear start, dmonth start, 0) := by
    simp [monthNr_year]
  refine ⟨fun en n => ?_, fun en n hn => ?_, fun en n d hd hw hx => ?_⟩
  · have := (T en).run n 0 (by intro j hj; omega)
    rw [happ, ← e0]; exact this
  · have := (T en).ends (B := 200000) (fun i hi' => by
      rcases Nat.eq_zero_or_pos i with h0 | h0
      · omega
      · obtain ⟨c, hc⟩ := Option.isSome_iff_exists.1 (hi' (i - 1) (by omega))
        rw [hfs] at hc
        have b := monthindex_year hc
        have m := mulk (i - 1)
        unfold miMonth at b
        split at b <;> unfold monthYear at b <;> omega) n 0 (by intro j hj; omega)
      (by omega)
    rw [happ, ← e0]; exact this
  · have := (T en).first n 0 (by intro j hj; omega) hd hw hx
    rw [happ, ← e0]; exact this

/-- The start is the `((day - 1) // 7 + 1)`-th of its weekday in its month. -/
theorem monthindex_start {start : Int} (hr : dateInRange start = true) :
    monthindex (dyear start) (dmonth start) ((dday start - 1) / 7 + 1) (weekday start) = .ok start := by
  have hy := (dateInRange_iff_year _).1 hr
  have hv := validYmd_date start
  have hm := monthNr_year start
  have he := ymd2ord_date start
  rw [ymd2ord_day1] at he
  have h3 : 1 ≤ dday start := hv.2.2.1
  rw [monthindex_pos hy ⟨hv.1, hv.2.1⟩ (weekday_range _) (by omega), dateAdd_ok]
  rw [show ymd2ord (dyear start) (dmonth start) 1 = start - (dday start - 1) by omega]
  have : start - (dday start - 1) + (weekday start - weekday (start - (dday start - 1))) % 7 +
      ((dday start - 1) / 7 + 1 - 1) * 7 = start := by
    unfold weekday; omega
  rw [this]; exact ⟨hr, rfl⟩

/-- Counting from the end of the month. -/
theorem monthindex_start_last {start : Int} (hr : dateInRange start = true)
    (hlast : dyear start ≠ 9999 ∨ dmonth start ≠ 12) :
    monthindex (dyear start) (dmonth start)
      ((dday start - daysInMonth (dyear start) (dmonth start) - 1) / 7) (weekday start) = .ok start := by
  have hy := (dateInRange_iff_year _).1 hr
  have hv := validYmd_date start
  have he := ymd2ord_date start
  rw [ymd2ord_day1] at he
  have h3 : 1 ≤ dday start := hv.2.2.1
  have h4 := hv.2.2.2
  rw [monthindex_neg hy ⟨hv.1, hv.2.1⟩ hlast (weekday_range _) (by omega), dateAdd_ok]
  generalize hL : daysInMonth (dyear start) (dmonth start) = L at *
  rw [show ymd2ord (dyear start) (dmonth start) 1 = start - (dday start - 1) by omega]
  have : start - (dday start - 1) + L + (weekday start - weekday (start - (dday start - 1) + L)) % 7 +
      (dday start - L - 1) / 7 * 7 = start := by
    unfold weekday; omega
  rw [this]; exact ⟨hr, rfl⟩

/-- Position of the start in its month, from the first or the last day. -/
def startIndex (m : MonthlyKind) (start : Int) : Int :=
  match m with
  | .lastweekday => (dday start - daysInMonth (dyear start) (dmonth start) - 1) / 7
  | _ => (dday start - 1) / 7 + 1

theorem weekday_exact {r : Rule} (h : UntilIsDate r) (hi : 1 ≤ r.interval)
    (hk : r.kind = .monthly .weekday) (dt : Int) (hr : dtInRange dt = true) :
    Exact r dt (initial (monthSeq (dtDate dt) r.interval (startIndex .weekday (dtDate dt)))) := by
  refine month_exact h hi dt _ hr ?_
  intro en n; unfold Rule.applyRun; rw [hk]; rfl

theorem lastweekday_exact {r : Rule} (h : UntilIsDate r) (hi : 1 ≤ r.interval)
    (hk : r.kind = .monthly .lastweekday) (dt : Int) (hr : dtInRange dt = true) :
    Exact r dt (initial (monthSeq (dtDate dt) r.interval (startIndex .lastweekday (dtDate dt)))) := by
  refine month_exact h hi dt _ hr ?_
  intro en n; unfold Rule.applyRun; rw [hk]; rfl

/-- The sequence a rule runs along (empty for `NoRecurrenceRule`, which has no loop). -/
def seqOf (r : Rule) (start : Int) : Nat → Option Int :=
  match r.kind with
  | .no => fun _ => none
  | .basic => dailySeq start r.interval
  | .daily => dailySeq start r.interval
  | .yearly => initial (yearlySeq start r.interval)
  | .weekly wds => weeklySeq start r.interval wds
  | .monthly .monthday => monthdaySeq start r.interval
  | .monthly .weekday => initial (monthSeq start r.interval (startIndex .weekday start))
  | .monthly .lastweekday => initial (monthSeq start r.interval (startIndex .lastweekday start))

theorem rule_exact {r : Rule} (h : UntilIsDate r) (hi : 1 ≤ r.interval) (hk : r.kind ≠ .no) (dt : Int)
    (hr : dtInRange dt = true) : Exact r dt (seqOf r (dtDate dt)) := by
  unfold seqOf
  split <;> rename_i hk'
  · exact absurd hk' hk
  · exact daily_exact h hi (Or.inr hk') dt hr
  · exact daily_exact h hi (Or.inl hk') dt hr
  · exact yearly_exact h hi hk' dt hr
  · exact weekly_exact h hi hk' dt hr
  · exact monthday_exact h hi hk' dt hr
  · exact weekday_exact h hi hk' dt hr
  · exact lastweekday_exact h hi hk' dt hr

end CalCore
