import Verif.Lemmas.SourceUtil
/- Running recurrent.py. -/
namespace CalCore.Lang
set_option linter.unusedSectionVars false
variable [Source.Globals]

/-! ### monthindex -/

/-- The variables of `monthindex`. -/
def monthEnv (year month index wd : Int) (yd day shift : Option Val) : Env :=
  [("year", some (.int year)), ("month", some (.int month)), ("index", some (.int index)), ("weekday", some (.int wd)),
   ("yeardelta", yd), ("day", day), ("shift", shift)]

theorem monthindex_loop (G : Ctx) (W : Nat) (year month index wd : Int) (yd shift : Option Val) (ds : List Int) :
    ∀ last : Int, ∃ s', endLoop (forLoop (forBody G W (.name "day") Source.monthindex_loop1) (ds.map .int)
        ⟨monthEnv year month index wd yd (some (.int last)) shift, []⟩) (fun s => (s, .next))
      = match firstWeekdayLoop year month wd last ds with
        | .ok d => (⟨monthEnv year month index wd yd (some (.int d)) shift, []⟩, .next)
        | .error e => (s', .stop (ofFault e)) := by
  induction ds with
  | nil => intro last; exact ⟨⟨[], []⟩, by simp only [List.map_nil, forLoop, firstWeekdayLoop]; lang []⟩
  | cons d ds ih =>
    intro last
    simp only [List.map_cons, forLoop, firstWeekdayLoop, forBody]
    cases h1 : mkDate year month d with
    | error e =>
      refine ⟨⟨monthEnv year month index wd yd (some (.int d)) shift, []⟩, ?_⟩
      lang [monthEnv, Source.monthindex_loop1, h1, lift_error]
      rw [error_bind]
    | ok x =>
      rw [ok_bind]
      by_cases h2 : weekday x = wd
      · refine ⟨⟨[], []⟩, ?_⟩
        lang [monthEnv, Source.monthindex_loop1, h1, h2]
      · obtain ⟨s', hs⟩ := ih d
        refine ⟨s', ?_⟩
        rw [if_neg h2, ← hs]
        lang [monthEnv, Source.monthindex_loop1, h1, h2]

theorem firstWeekdayLoop_ok {year month wd : Int} {ds : List Int} :
    ∀ {last day : Int}, ds ≠ [] → firstWeekdayLoop year month wd last ds = .ok day → ∃ x, mkDate year month day = .ok x := by
  induction ds with
  | nil => intro _ _ h _; exact absurd rfl h
  | cons d ds ih =>
    intro last day _ h
    unfold firstWeekdayLoop at h
    obtain ⟨x, h1, h2⟩ := bind_ok.mp h
    split at h2
    · injection h2 with h2; exact ⟨x, h2 ▸ h1⟩
    · cases ds with
      | nil => unfold firstWeekdayLoop at h2; injection h2 with h2; exact ⟨x, h2 ▸ h1⟩
      | cons d' ds => exact ih (by simp) h2

theorem monthindex_tail (G : Ctx) (W : Nat) (year month index wd : Int) (yd : Option Val) :
    Source.monthindex.result (execs G W (Source.monthindex.body.drop 1) ⟨monthEnv year month index wd yd none none, []⟩)
    = toM .date (do
      let day ← firstWeekdayLoop year month wd 0 [1, 2, 3, 4, 5, 6, 7]
      let d ← mkDate year month day
      dateAdd d ((index - 1) * 7)) := by
  have hr : rangeInt 1 8 = [.int 1, .int 2, .int 3, .int 4, .int 5, .int 6, .int 7] := rfl
  obtain ⟨s', hs⟩ := monthindex_loop G W year month index wd yd none [1, 2, 3, 4, 5, 6, 7] 0
  have hfirst : forLoop (forBody G W (.name "day") Source.monthindex_loop1) (rangeInt 1 8) ⟨monthEnv year month index wd yd none none, []⟩
      = forLoop (forBody G W (.name "day") Source.monthindex_loop1) ([1, 2, 3, 4, 5, 6, 7].map .int)
        ⟨monthEnv year month index wd yd (some (.int 0)) none, []⟩ := by
    rw [hr]
    exact forLoop_first (by unfold forBody; lang [monthEnv])
  rw [← hfirst] at hs
  simp only [Source.monthindex, List.drop_succ_cons, List.drop_zero]
  have h7 : mkDelta (7 * DAY) = .ok (.delta (7 * DAY)) := mkDelta_ok (by simp only [DAY]; omega) (by simp only [DAY]; omega)
  cases h1 : firstWeekdayLoop year month wd 0 [1, 2, 3, 4, 5, 6, 7] with
  | error e =>
    simp only [h1] at hs
    lang [hs, error_bind, toM_error]
  | ok day =>
    simp only [h1] at hs
    obtain ⟨d, h2⟩ := firstWeekdayLoop_ok (by simp) h1
    have hd := ((mkDate_eq_ok _ _ _ _).mp h2).1
    have hadd := dateAdd_delta hd ((index - 1) * 7)
    rw [Int.mul_assoc] at hadd
    rw [ok_bind, h2, ok_bind, ← hadd]
    unfold monthEnv at hs
    cases h3 : mkDelta ((index - 1) * (7 * DAY)) with
    | error e => lang [hs, h7, h3, monthEnv]
    | ok v =>
      lang [hs, h7, h3, monthEnv, h2]
      cases hb : binop .add (.date d) v <;> lang []

theorem monthindex_call (G : Ctx) (W : Nat) (year month index wd : Int) :
    Source.monthindex.call G W [.int year, .int month, .int index, .int wd] []
    = toM .date (monthindex year month index wd) := by
  unfold monthindex
  by_cases h : index < 0
  · simp only [h, if_true]
    refine Eq.trans ?_ (monthindex_tail G W (year + month / 12) (month % 12 + 1) (index + 1) wd (some (.int (month / 12))))
    rw [← execs_split (k := 1) (s := ⟨monthEnv year month index wd none none none, []⟩)]
    · rfl
    · lang [Source.monthindex, List.take_succ_cons, List.take_zero, monthEnv, h, fdiv_pos _ (show (0 : Int) < 12 by decide),
        fmod_pos _ (show (0 : Int) < 12 by decide), show ¬ (12 : Int) = 0 by decide]
  · simp only [h, if_false]
    refine Eq.trans ?_ (monthindex_tail G W year month index wd none)
    rw [← execs_split (k := 1) (s := ⟨monthEnv year month index wd none none none, []⟩)]
    · rfl
    · lang [Source.monthindex, List.take_succ_cons, List.take_zero, monthEnv, h]

end CalCore.Lang
