import Verif.Lemmas.Lang
import Verif.Source.Prog
/- Running util.py and isoweek.py. -/
namespace CalCore.Lang
set_option linter.unusedSectionVars false
variable [Source.Globals]

theorem elems_dtPair (p : Int × Int) : (dtPair p).elems = .ok [.datetime p.1, .datetime p.2] := rfl

theorem cmp_dtPair (a b : Int × Int) :
    (dtPair a).cmp (dtPair b) = .ok (if a.1 < b.1 then .lt else if b.1 < a.1 then .gt
      else if a.2 < b.2 then .lt else if b.2 < a.2 then .gt else .eq) := by
  simp only [dtPair, Val.cmp, Val.cmps, compare_int, M_bind_ok]
  by_cases h1 : a.1 < b.1
  · simp [h1]
  · by_cases h2 : b.1 < a.1
    · simp [h1, h2]
    · simp only [h1, h2, if_false]
      by_cases h3 : a.2 < b.2
      · simp [h3]
      · by_cases h4 : b.2 < a.2
        · simp [h3, h4]
        · simp [h3, h4]

theorem insertVal_dtPair (a : Int × Int) (l : List (Int × Int)) :
    insertVal (dtPair a) (l.map dtPair) = .ok ((insertLex a l).map dtPair) := by
  induction l with
  | nil => simp [insertVal, insertLex]
  | cons b l ih =>
    simp only [List.map_cons, insertVal, cmp_dtPair, M_bind_ok, insertLex, lexLe]
    by_cases h1 : a.1 < b.1
    · simp [h1]
    · by_cases h2 : b.1 < a.1
      · have : ¬ a.1 = b.1 := by omega
        simp [h1, h2, this, ih]
      · have he : a.1 = b.1 := by omega
        simp only [h1, h2, if_false]
        by_cases h3 : a.2 < b.2
        · have h4 : a.2 ≤ b.2 := by omega
          simp [h3, h4, he]
        · by_cases h4 : b.2 < a.2
          · have h5 : ¬ a.2 ≤ b.2 := by omega
            simp [h3, h4, h5, ih]
          · have h5 : a.2 ≤ b.2 := by omega
            simp [h3, h4, h5, he]

theorem sortVals_dtPair (l : List (Int × Int)) : sortVals (l.map dtPair) = .ok ((sortLex l).map dtPair) := by
  induction l with
  | nil => rfl
  | cons a l ih => simp [sortVals, ih, insertVal_dtPair, sortLex]

theorem sortLex_nil {l : List (Int × Int)} (h : sortLex l = []) : l = [] := by
  cases l with
  | nil => rfl
  | cons a l =>
    simp only [sortLex] at h
    cases h' : sortLex l with
    | nil => rw [h'] at h; simp [insertLex] at h
    | cons b m => rw [h'] at h; simp only [insertLex] at h; split at h <;> simp at h

/-- The variables of `removeOverlaps`. -/
def overlapEnv (seq : List Val) (ls le : Int) (res : List Val) (i s e : Option Val) : Env :=
  [("sequence", some (.list seq)), ("last_start", some (.datetime ls)), ("last_end", some (.datetime le)),
   ("result", some (.list res)), ("i", i), ("start", s), ("end", e)]

theorem rangeInt_cons {a b : Int} (h : a < b) : rangeInt a b = .int a :: rangeInt (a + 1) b := by
  unfold rangeInt
  obtain ⟨k, hk⟩ : ∃ k : Nat, (b - a).toNat = k + 1 := ⟨(b - a).toNat - 1, by omega⟩
  have h1 : (b - (a + 1)).toNat = k := by omega
  rw [hk, h1, List.range_succ_eq_map]
  simp only [List.map_cons, List.map_map]
  congr 1
  · simp
  · apply List.map_congr_left
    intro x _
    simp only [Function.comp]
    congr 1
    omega

theorem rangeInt_nil {a b : Int} (h : b ≤ a) : rangeInt a b = [] := by
  unfold rangeInt
  have h1 : (b - a).toNat = 0 := by omega
  rw [h1]
  rfl

theorem removeOverlaps_step (G : Ctx) (W : Nat) (seq : List Val) (ls le : Int) (res : List Val) (s e : Option Val) (k : Nat)
    (p : Int × Int) (hp : seq[k]? = some (dtPair p)) :
    execs G W Source.removeOverlaps_loop1 ⟨overlapEnv seq ls le res (some (.int k)) s e, []⟩
    = (⟨if p.1 ≤ le then
          if p.2 ≤ le then overlapEnv seq ls le res (some (.int k)) (some (.datetime p.1)) (some (.datetime p.2))
          else overlapEnv seq ls p.2 res (some (.int k)) (some (.datetime p.1)) (some (.datetime p.2))
        else overlapEnv seq p.1 p.2 (res ++ [dtPair (ls, le)]) (some (.int k)) (some (.datetime p.1)) (some (.datetime p.2)), []⟩,
       if p.1 ≤ le then .cont else .next) := by
  have hpick : getIndex.pick seq (k : Int) = .ok (dtPair p) := by
    unfold getIndex.pick
    rw [if_pos (by omega), Int.toNat_natCast, hp]
  by_cases h1 : p.1 ≤ le
  · by_cases h2 : p.2 ≤ le
    · lang [overlapEnv, Source.removeOverlaps_loop1, hpick, dtPair, h1, h2]
    · lang [overlapEnv, Source.removeOverlaps_loop1, hpick, dtPair, h1, h2]
  · lang [overlapEnv, Source.removeOverlaps_loop1, hpick, dtPair, h1]

theorem removeOverlaps_loop (G : Ctx) (W : Nat) (seq suf : List (Int × Int)) :
    ∀ (pre : List (Int × Int)) (ls le : Int) (res : List (Int × Int)) (i s e : Option Val), seq = pre ++ suf →
    ∃ ls' le' res' i' s' e', res' ++ [(ls', le')] = res ++ overlapLoop ls le suf ∧
      forLoop (forBody G W (.name "i") Source.removeOverlaps_loop1) (rangeInt pre.length seq.length)
        ⟨overlapEnv (seq.map dtPair) ls le (res.map dtPair) i s e, []⟩
      = (⟨overlapEnv (seq.map dtPair) ls' le' (res'.map dtPair) i' s' e', []⟩, .next) := by
  induction suf with
  | nil =>
    intro pre ls le res i s e h
    refine ⟨ls, le, res, i, s, e, by simp [overlapLoop], ?_⟩
    rw [rangeInt_nil (by simp [h])]
    rfl
  | cons p suf ih =>
    intro pre ls le res i s e h
    have hlen : seq.length = pre.length + (suf.length + 1) := by simp [h]
    rw [rangeInt_cons (by omega)]
    have hpick : (seq.map dtPair)[pre.length]? = some (dtPair p) := by simp [h]
    have hih := ih (pre ++ [p])
    simp only [List.length_append, List.length_cons, List.length_nil, Nat.zero_add, Int.natCast_add, Int.natCast_one] at hih
    have hseq : seq = pre ++ [p] ++ suf := by simp [h]
    have hbody : forBody G W (.name "i") Source.removeOverlaps_loop1 (.int pre.length)
        ⟨overlapEnv (seq.map dtPair) ls le (res.map dtPair) i s e, []⟩
        = execs G W Source.removeOverlaps_loop1
          ⟨overlapEnv (seq.map dtPair) ls le (res.map dtPair) (some (.int pre.length)) s e, []⟩ := by
      simp only [forBody, assign, State.into, andThen, overlapEnv, Env.set, String.reduceEq, ↓reduceIte]
    unfold forLoop
    rw [hbody, removeOverlaps_step G W _ _ _ _ _ _ _ p hpick]
    by_cases h1 : p.1 ≤ le
    · by_cases h2 : p.2 ≤ le
      · simp only [h1, h2, if_true, overlapLoop]
        exact hih _ _ _ _ _ _ hseq
      · simp only [h1, h2, if_true, if_false, overlapLoop]
        exact hih _ _ _ _ _ _ hseq
    · simp only [h1, if_false, overlapLoop]
      obtain ⟨ls', le', res', i', s', e', hr, hf⟩ := hih p.1 p.2 (res ++ [(ls, le)]) (some (.int pre.length))
        (some (.datetime p.1)) (some (.datetime p.2)) hseq
      refine ⟨ls', le', res', i', s', e', by simpa using hr, ?_⟩
      rw [← hf]
      simp

/-- What running `removeOverlaps` leaves in its variable, and what it returns. -/
theorem removeOverlaps_run (G : Ctx) (W : Nat) (l : List (Int × Int)) :
    ∃ s, Source.removeOverlaps.run G W [.list (l.map dtPair)] []
        = .ok (s, .ret (.list ((removeOverlaps l).map dtPair)))
      ∧ s.env.get "sequence" = .ok (.list ((sortLex l).map dtPair)) := by
  cases l with
  | nil =>
    exact ⟨⟨[("sequence", some (.list [])), ("last_start", none), ("last_end", none), ("result", none), ("i", none),
      ("start", none), ("end", none)], []⟩, by lang [Source.removeOverlaps, removeOverlaps, sortLex], by lang [sortLex]⟩
  | cons a l =>
    cases hs : sortLex (a :: l) with
    | nil => have := sortLex_nil hs; simp at this
    | cons b m =>
      obtain ⟨ls, le, res, i, s, e, hr, hf⟩ := removeOverlaps_loop G W (b :: m) m [b] b.1 b.2 [] none none none rfl
      simp only [List.length_cons, List.length_nil, Nat.zero_add, Int.natCast_one, List.map_nil, List.nil_append] at hf hr
      have hsort := sortVals_dtPair (a :: l)
      rw [List.map_cons] at hsort
      have hpick : getIndex.pick ((b :: m).map dtPair) 0 = .ok (dtPair b) := by
        simp [getIndex.pick]
      refine ⟨⟨overlapEnv ((b :: m).map dtPair) ls le ((res ++ [(ls, le)]).map dtPair) i s e, []⟩, ?_, ?_⟩
      · rw [List.map_cons] at hpick
        have hf' := hf
        unfold overlapEnv at hf'
        rw [List.map_cons] at hf'
        lang [Source.removeOverlaps, removeOverlaps, hsort, hs, hpick, elems_dtPair, List.length_cons, List.length_map, hf', ← hr, overlapEnv]
        simp [dtPair]
      · lang [overlapEnv]

theorem fdiv_pos (a : Int) {b : Int} (h : 0 < b) : a.fdiv b = a / b := Int.fdiv_eq_ediv_of_nonneg a (by omega)
theorem fmod_pos (a : Int) {b : Int} (h : 0 < b) : a.fmod b = a % b := Int.fmod_eq_emod_of_nonneg a (by omega)

theorem getWeeksInYear_call (G : Ctx) (W : Nat) (year : Int) :
    Source.getWeeksInYear.call G W [.int year] [] = toM .int (getWeeksInYear year) := by
  unfold getWeeksInYear
  cases h1 : mkDateTime year 1 1 with
  | error e => lang [Source.getWeeksInYear, h1, lift_error, error_bind, toM_error]
  | ok jan1 =>
    cases h2 : mkDateTime year 12 31 with
    | error e => lang [Source.getWeeksInYear, h1, h2, lift_error, error_bind, ok_bind, toM_error]
    | ok dec31 =>
      simp only [ok_bind]
      by_cases h3 : weekday (dtDate jan1) + 1 = 4
      · lang [Source.getWeeksInYear, h1, h2, h3, true_or, toM_ok]
      · by_cases h4 : weekday (dtDate dec31) + 1 = 4
        · lang [Source.getWeeksInYear, h1, h2, h3, h4, or_true, toM_ok]
        · lang [Source.getWeeksInYear, h1, h2, h3, h4, or_false, toM_ok]

theorem weekday_bounds (d : Int) : 0 ≤ weekday d ∧ weekday d < 7 := by unfold weekday; omega

theorem mkDateTime_inRange {y m d t : Int} (h : mkDateTime y m d = .ok t) : dtInRange t = true := by
  obtain ⟨o, h1, h2⟩ := bind_ok.mp h
  injection h2 with h2
  have := ((mkDate_eq_ok _ _ _ _).mp h1).1
  rw [dateInRange_iff] at this
  rw [dtInRange_iff, ← h2]
  simp only [combine, DAY, MAXORD] at *
  omega

theorem dtAdd_inRange {t n u : Int} (h : dtAdd t n = .ok u) : dtInRange u = true := by
  unfold dtAdd at h
  split at h
  · cases h; assumption
  · cases h

theorem weeknr2datetime_tail (G : Ctx) (W : Nat) (weeknr x : Int) (wd : Option Int) (a b c d e : Option Val) :
    Source.weeknr2datetime.result (execs G W (Source.weeknr2datetime.body.drop 3)
      ⟨[("year", a), ("weeknr", some (.int weeknr)), ("weekday", some (ofOption .int wd)), ("jan4", b), ("iso_year", c),
        ("iso_weeknr", d), ("iso_weekday", e), ("week1", some (.datetime x)), ("result", none)], []⟩)
    = toM .datetime (do
        let week1 ← dtAdd x (-(weekday (dtDate x)) * DAY)
        let result ← dtAdd week1 (7 * (weeknr - 1) * DAY)
        match wd with
        | none => .ok result
        | some w => dtAdd result ((w - 1) * DAY)) := by
  have hw := weekday_bounds (dtDate x)
  have hd : mkDelta (weekday (dtDate x) * DAY) = .ok (.delta (weekday (dtDate x) * DAY)) :=
    mkDelta_ok (by simp only [DAY]; omega) (by simp only [DAY]; omega)
  simp only [Source.weeknr2datetime, List.drop_succ_cons, List.drop_zero]
  rw [Int.neg_mul]
  cases h1 : dtAdd x (-(weekday (dtDate x) * DAY)) with
  | error e => lang [hd, h1, lift_error, error_bind, toM_error]
  | ok week1 =>
    have hr := dtAdd_inRange h1
    cases h2 : dtAdd week1 (7 * (weeknr - 1) * DAY) with
    | error e =>
      lang [hd, h1, ok_bind, dtAdd_delta hr, h2, toM_error]
      rw [error_bind, toM_error]
    | ok result =>
      have hr' := dtAdd_inRange h2
      cases wd with
      | none => lang [hd, h1, lift_error, error_bind, ok_bind, toM_ok, dtAdd_delta hr, h2, ofOption]
      | some w =>
        cases h3 : dtAdd result ((w - 1) * DAY) with
        | error e => lang [hd, h1, lift_error, error_bind, ok_bind, toM_ok, dtAdd_delta hr, h2, ofOption, dtAdd_delta hr', h3, toM_error]
        | ok r => lang [hd, h1, lift_error, error_bind, ok_bind, toM_ok, dtAdd_delta hr, h2, ofOption, dtAdd_delta hr', h3]

theorem weeknr2datetime_call (G : Ctx) (W : Nat) (year weeknr : Int) (wd : Option Int) :
    Source.weeknr2datetime.call G W [.int year, .int weeknr, ofOption .int wd] []
    = toM .datetime (weeknr2datetime year weeknr wd) := by
  unfold weeknr2datetime
  cases h1 : mkDateTime year 1 4 with
  | error e => lang [Source.weeknr2datetime, h1, lift_error, error_bind, toM_error]
  | ok jan4 =>
    have hj := mkDateTime_inRange h1
    have h7 : mkDelta (7 * DAY) = .ok (.delta (7 * DAY)) := mkDelta_ok (by simp only [DAY]; omega) (by simp only [DAY]; omega)
    simp only [ok_bind]
    by_cases h2 : (isocalendar (dtDate jan4)).2.1 = 1
    · rw [if_pos h2]
      refine Eq.trans ?_ (weeknr2datetime_tail G W weeknr jan4 wd (some (.int year)) (some (.datetime jan4))
        (some (.int (isocalendar (dtDate jan4)).1)) (some (.int (isocalendar (dtDate jan4)).2.1))
        (some (.int (isocalendar (dtDate jan4)).2.2)))
      rw [← execs_split (k := 3) (s := ⟨[("year", some (.int year)), ("weeknr", some (.int weeknr)), ("weekday", some (ofOption .int wd)),
        ("jan4", none), ("iso_year", none), ("iso_weeknr", none), ("iso_weekday", none), ("week1", none), ("result", none)], []⟩)]
      · rfl
      · lang [Source.weeknr2datetime, List.take_succ_cons, List.take_zero, h1, h2]
    · rw [if_neg h2]
      cases h3 : dtAdd jan4 (7 * DAY) with
      | error e =>
        lang [Source.weeknr2datetime, h1, h2, h7, h3, lift_error]
        rw [error_bind, toM_error]
      | ok x =>
        rw [ok_bind]
        refine Eq.trans ?_ (weeknr2datetime_tail G W weeknr x wd (some (.int year)) (some (.datetime jan4))
          (some (.int (isocalendar (dtDate jan4)).1)) (some (.int (isocalendar (dtDate jan4)).2.1))
          (some (.int (isocalendar (dtDate jan4)).2.2)))
        rw [← execs_split (k := 3) (s := ⟨[("year", some (.int year)), ("weeknr", some (.int weeknr)), ("weekday", some (ofOption .int wd)),
          ("jan4", none), ("iso_year", none), ("iso_weeknr", none), ("iso_weekday", none), ("week1", none), ("result", none)], []⟩)]
        · rfl
        · lang [Source.weeknr2datetime, List.take_succ_cons, List.take_zero, h1, h2, h7, h3]

theorem weekspan_call (G : Ctx) (W : Nat) (first second : Int) :
    Source.weekspan.call G W [.date first, .date second] [] = toM .int (weekspan first second) := by
  unfold weekspan
  have hd : ∀ d, mkDelta (weekday d * DAY) = .ok (.delta (weekday d * DAY)) := by
    intro d
    have := weekday_bounds d
    exact mkDelta_ok (by simp only [DAY]; omega) (by simp only [DAY]; omega)
  have hn : ∀ d, weekday d * DAY / DAY = weekday d := by intro d; simp only [DAY]; omega
  cases h1 : dateAdd first (-weekday first) with
  | error e => lang [Source.weekspan, hd, hn, h1, lift_error, error_bind, toM_error]
  | ok a =>
    cases h2 : dateAdd second (-weekday second) with
    | error e => lang [Source.weekspan, hd, hn, h1, h2, lift_error, ok_bind, error_bind, toM_error]
    | ok b =>
      have h3 : (b - a) * DAY / DAY = b - a := by simp only [DAY]; omega
      lang [Source.weekspan, hd, hn, h1, h2, ok_bind, toM_ok, h3, fdiv_pos _ (show (0 : Int) < 7 by decide), show ¬ (7 : Int) = 0 by decide]

end CalCore.Lang
