import Verif.Lemmas.Apply
/- When the generator loops end, for rules with any interval (zero and negative included). -/
namespace CalCore
open Spec

theorem nextMonthlyLoop_ok {iv day : Int} : ∀ (fuel : Nat) (n e : Int),
    nextMonthlyLoop iv day fuel (monthYear n) (monthMonth n) = .ok e →
    dateInRange e = true ∧ dday e = day ∧ ∃ k : Nat, 1 ≤ k ∧ monthNr e = n + k * iv := by
  intro fuel
  induction fuel with
  | zero => intro n e h; cases h
  | succ fuel ih =>
    intro n e h
    have hn : monthYear n * 12 + monthMonth n - 1 + iv = n + iv := by
      unfold monthYear monthMonth; omega
    unfold nextMonthlyLoop at h
    simp only [hn] at h
    cases hm : mkDate ((n + iv) / 12) ((n + iv) % 12 + 1) day with
    | ok a =>
      rw [hm] at h
      injection h with h
      subst h
      have := (mkDate_eq_ok _ _ _ _).1 hm
      refine ⟨this.1, this.2.2.2, 1, Nat.le_refl 1, ?_⟩
      unfold monthNr; rw [this.2.1, this.2.2.1]; omega
    | error f =>
      rw [hm] at h
      rcases mkDate_error hm with rfl | rfl
      · obtain ⟨h1, h2, k, hk, he⟩ := ih (n + iv) e h
        refine ⟨h1, h2, k + 1, by omega, ?_⟩
        rw [he]; push_cast; rw [Int.add_mul]; omega
      · cases h

theorem nextMonthlyLoop_error {iv day : Int} : ∀ (fuel : Nat) (n : Int) (f : Fault),
    nextMonthlyLoop iv day fuel (monthYear n) (monthMonth n) = .error f →
    f = .py .OverflowError ∨ f = .diverge := by
  intro fuel
  induction fuel with
  | zero => intro n f h; injection h with h; exact Or.inr h.symm
  | succ fuel ih =>
    intro n f h
    have hn : monthYear n * 12 + monthMonth n - 1 + iv = n + iv := by
      unfold monthYear monthMonth; omega
    unfold nextMonthlyLoop at h
    simp only [hn] at h
    cases hm : mkDate ((n + iv) / 12) ((n + iv) % 12 + 1) day with
    | ok a => rw [hm] at h; cases h
    | error g =>
      rw [hm] at h
      rcases mkDate_error hm with rfl | rfl
      · exact ih (n + iv) f h
      · injection h with h; exact Or.inl h.symm

theorem nextMonthlyLoop_ne_diverge_neg {iv day : Int} (hi : iv ≤ -1) : ∀ (fuel : Nat) (n : Int),
    n < 12 * (CINT + 1) → n + 12 * (CINT + 3) < fuel →
    -12 * (CINT + 2) ≤ n →
    nextMonthlyLoop iv day fuel (monthYear n) (monthMonth n) ≠ .error .diverge := by
  intro fuel
  induction fuel with
  | zero => intro n h1 h2 h3; unfold CINT at *; omega
  | succ fuel ih =>
    intro n h1 h2 h3
    have hn : monthYear n * 12 + monthMonth n - 1 + iv = n + iv := by
      unfold monthYear monthMonth; omega
    unfold nextMonthlyLoop
    simp only [hn]
    cases hm : mkDate ((n + iv) / 12) ((n + iv) % 12 + 1) day with
    | ok a => simp
    | error g =>
      rcases mkDate_error hm with rfl | rfl
      · have hb : -CINT - 1 ≤ (n + iv) / 12 := by
          unfold mkDate at hm
          split at hm
          · cases hm
          · rename_i hc; omega
        exact ih (n + iv) (by omega) (by omega) (by omega)
      · simp

/-- The month search never runs out of fuel from a real date. -/
theorem nextMonthly_ne_diverge {iv d : Int} (hd : dateInRange d = true) :
    nextMonthlyLoop iv (dday d) nextMonthFuel (dyear d) (dmonth d) ≠ .error .diverge := by
  have hy := (dateInRange_iff_year d).1 hd
  have hv := validYmd_date d
  have hm := monthNr_year d
  have hb : 12 ≤ monthNr d ∧ monthNr d < 120000 := by
    unfold monthNr; unfold validYmd at hv; omega
  rw [← hm.1, ← hm.2]
  rcases Int.lt_trichotomy iv 0 with h | h | h
  · refine nextMonthlyLoop_ne_diverge_neg (by omega) _ _ ?_ ?_ ?_
    · unfold CINT; omega
    · rw [show (nextMonthFuel : Int) = 60000000000 from rfl]; unfold CINT; omega
    · unfold CINT; omega
  · subst h
    have hok : mkDate (monthYear (monthNr d)) (monthMonth (monthNr d)) (dday d) = .ok d := by
      rw [mkDate_eq_ok]; exact ⟨hd, hm.1.symm, hm.2.symm, rfl⟩
    have : nextMonthFuel = 59999999999 + 1 := rfl
    rw [this]
    unfold nextMonthlyLoop
    have e : monthYear (monthNr d) * 12 + monthMonth (monthNr d) - 1 + 0 = monthNr d := by
      unfold monthYear monthMonth; omega
    simp only [e]
    unfold monthYear monthMonth at hok
    rw [hok]; simp
  · rcases nextMonthly_spec (iv := iv) (dday d) (by omega) nextMonthFuel (monthNr d) (by omega)
      (by unfold CINT; omega)
      (by rw [show (nextMonthFuel : Int) = 60000000000 from rfl]; unfold CINT; omega)
      with ⟨m, e, _, _, hl, _⟩ | ⟨hl, _⟩
    · rw [hl]; simp
    · rw [hl]; simp [raise]

theorem map_ok {α β : Type} {x : Res α} {f : α → β} {b : β} (h : x.map f = .ok b) :
    ∃ a, x = .ok a ∧ b = f a := by
  cases x with
  | error e => cases h
  | ok a => injection h with h; exact ⟨a, rfl, h.symm⟩

theorem map_error {α β : Type} {x : Res α} {f : α → β} {e : Fault} (h : x.map f = .error e) :
    x = .error e := by
  cases x with
  | error e' => injection h with h; rw [h]
  | ok a => cases h

theorem nextRecurrence_inRange {r : Rule} {d e : Int}
    (h : r.nextRecurrence d = .ok e) : dateInRange e = true := by
  unfold Rule.nextRecurrence at h
  split at h
  · exact ((mkDate_eq_ok _ _ _ _).1 h).1
  · have hm := monthNr_year d
    rw [← hm.1, ← hm.2] at h
    exact (nextMonthlyLoop_ok _ _ _ h).1
  · exact (dateAdd_ok.1 h).1 |> fun h1 => by rw [(dateAdd_ok.1 h).2]; exact h1

theorem basic_terminates {r : Rule} (hi : r.interval ≠ 0) (en : Option Int) (start : Int)
    (hr : dateInRange start = true) (n : Nat) (hn : 3652100 ≤ n) :
    (runGen (r.basicStep en) n (start, 0)).2 ≠ .running := by
  have hmeas : ∀ μ : Int → Nat,
      (∀ d e, dateInRange d = true → r.nextRecurrence d = .ok e → μ e < μ d) → μ start < n →
      (runGen (r.basicStep en) n (start, 0)).2 ≠ .running := by
    intro μ hμ hlt
    refine runGen_measure _ (fun s => μ s.1) (fun s => dateInRange s.1 = true) ?_ n (start, 0) hr hlt
    intro s out s' hs h
    have hnx := (basicStep_yield h).2.2
    obtain ⟨a, ha, hs'⟩ := map_ok hnx.symm
    rw [hs']
    exact ⟨nextRecurrence_inRange ha, hμ _ _ hs ha⟩
  have hb := (dateInRange_iff_year start).1 hr
  have hb' := (dateInRange_iff start).1 hr
  by_cases hy : r.kind = .yearly
  · refine hmeas (fun d => if 0 < r.interval then (9999 - dyear d).toNat else (dyear d).toNat) ?_ ?_
    · intro d e hd he
      have hd := (dateInRange_iff_year d).1 hd
      have he' := (dateInRange_iff_year e).1 (nextRecurrence_inRange he)
      unfold Rule.nextRecurrence at he
      rw [hy] at he
      have := ((mkDate_eq_ok _ _ _ _).1 he).2.1
      split <;> omega
    · split <;> omega
  · by_cases hm : ∃ m, r.kind = .monthly m
    · obtain ⟨m, hm⟩ := hm
      have bd : ∀ d, dateInRange d = true → 12 ≤ monthNr d ∧ monthNr d < 120000 := by
        intro d hd
        have := (dateInRange_iff_year d).1 hd
        have hv := validYmd_date d
        unfold monthNr; unfold validYmd at hv; omega
      refine hmeas (fun d => if 0 < r.interval then (120000 - monthNr d).toNat else (monthNr d).toNat) ?_ ?_
      · intro d e hd he
        have b1 := bd d hd
        have b2 := bd e (nextRecurrence_inRange he)
        unfold Rule.nextRecurrence at he
        rw [hm] at he
        have hmn := monthNr_year d
        simp only at he
        rw [← hmn.1, ← hmn.2] at he
        obtain ⟨_, _, k, hk, hke⟩ := nextMonthlyLoop_ok _ _ _ he
        split
        · have := Int.mul_pos (a := (k : Int)) (b := r.interval) (by omega) (by assumption); omega
        · have := Int.mul_pos (a := (k : Int)) (b := -r.interval) (by omega) (by omega)
          rw [Int.mul_neg] at this; omega
      · have := bd start hr
        split <;> omega
    · refine hmeas (fun d => if 0 < r.interval then (MAXORD - d).toNat else d.toNat) ?_ ?_
      · intro d e hd he
        have b1 := (dateInRange_iff d).1 hd
        have b2 := (dateInRange_iff e).1 (nextRecurrence_inRange he)
        have : e = d + r.interval := by
          unfold Rule.nextRecurrence at he
          split at he
          · rename_i h; exact absurd h hy
          · rename_i m h; exact absurd ⟨m, h⟩ hm
          · exact (dateAdd_ok.1 he).2
        split <;> omega
      · unfold MAXORD at *; split <;> omega

theorem weekly_terminates (r : Rule) (wds : List Int) (en : Option Int) (start : Int)
    (hr : dateInRange start = true) (n : Nat) (hn : 3652100 ≤ n) :
    (runGen (r.weeklyStep wds start en) n (start, 0)).2 ≠ .running := by
  have hb' := (dateInRange_iff start).1 hr
  refine runGen_measure _ (fun s => (MAXORD - s.1).toNat) (fun s => dateInRange s.1 = true) ?_ n
    (start, 0) hr (by unfold MAXORD at *; simp only; omega)
  intro s out s' hs h
  have hx : ∃ a, dateAdd s.1 1 = .ok a ∧ s'.1 = a := by
    rcases (weeklyStep_yield h).2 with ⟨_, _, hn⟩ | ⟨_, _, hn⟩ <;>
    · obtain ⟨a, ha, hs'⟩ := map_ok hn.symm
      exact ⟨a, ha, by rw [hs']⟩
  obtain ⟨a, ha, hs'⟩ := hx
  obtain ⟨h1, h2⟩ := dateAdd_ok.1 ha
  rw [hs', h2]
  refine ⟨h1, ?_⟩
  rw [dateInRange_iff] at h1
  omega

theorem month_terminates {r : Rule} (hi : r.interval ≠ 0) (index wd : Int) (en : Option Int) (start : Int)
    (hr : dateInRange start = true) (n : Nat) (hn : 3652100 ≤ n) :
    (runGen (r.monthStep index wd en) n (dyear start, dmonth start, 0)).2 ≠ .running := by
  have hb := (dateInRange_iff_year start).1 hr
  have hv := validYmd_date start
  unfold validYmd at hv
  refine runGen_measure _ (fun s => if 0 < r.interval then (120000 - (12 * s.1 + s.2.1 - 1)).toNat
      else (12 * s.1 + s.2.1 - 1).toNat) (fun s => 1 ≤ s.2.1 ∧ s.2.1 ≤ 12) ?_ n _ ⟨hv.1, hv.2.1⟩ ?_
  · intro s out s' hs h
    obtain ⟨cur, hc, _, _, hnx⟩ := monthStep_yield h
    injection hnx with hnx
    have e1 : s.1 = monthYear (12 * s.1 + s.2.1 - 1) := by unfold monthYear; omega
    have e2 : s.2.1 = monthMonth (12 * s.1 + s.2.1 - 1) := by unfold monthMonth; omega
    have hc' : monthindex (monthYear (12 * s.1 + s.2.1 - 1)) (monthMonth (12 * s.1 + s.2.1 - 1))
        index wd = .ok cur := by rw [← e1, ← e2]; exact hc
    have b := monthindex_year hc'
    have b' : 11 ≤ 12 * s.1 + s.2.1 - 1 ∧ 12 * s.1 + s.2.1 - 1 < 120000 := by
      unfold miMonth at b
      split at b <;> unfold monthYear at b <;> omega
    rw [hnx]
    simp only
    refine ⟨by omega, ?_⟩
    split <;> omega
  · simp only; split <;> omega

/-! ### interval zero -/

/-- With interval zero a loop tests the same date again and again. -/
theorem const_loop {σ : Type} (r : Rule) (en : Option Int) (d : Int) (step : σ → Step σ) (st : Nat → σ)
    (out : Option Int)
    (h : ∀ k, step (st k) = match r.stops en d k with
      | .error e => .fail e
      | .ok true => .stop
      | .ok false => .yield out (.ok (st (k + 1)))) :
    ((UntilIsDate r ∧ r.count = none ∧ Within r en d 0) →
      ∀ n, (runGen step n (st 0)).2 = .running) ∧
    (¬ (UntilIsDate r ∧ r.count = none ∧ Within r en d 0) →
      ∀ n, 1 + (r.count.getD 0).toNat ≤ n → (runGen step n (st 0)).2 ≠ .running) := by
  constructor
  · rintro ⟨hu, hc, hw⟩ n
    refine runGen_forever step (fun s => ∃ k, s = st k) ?_ n (st 0) ⟨0, rfl⟩
    rintro s ⟨k, rfl⟩
    have hwk : Within r en d k := ⟨hw.1, (by intro c h; rw [hc] at h; cases h), hw.2.2⟩
    refine ⟨out, st (k + 1), ?_, k + 1, rfl⟩
    rw [h]
    rcases within_iff_stops r en d k hu with ⟨_, e⟩ | ⟨hn, _⟩
    · rw [e]
    · exact absurd hwk hn
  · intro hno n hn
    have hfalse : ∀ k, r.stops en d k = .ok false → ∃ c, r.count = some c ∧ (k : Int) < c := by
      intro k hk
      obtain ⟨hw, hu⟩ := stops_false hk
      cases hc : r.count with
      | some c => exact ⟨c, rfl, hw.2.1 c hc⟩
      | none =>
        exact absurd ⟨hu, hc, hw.1, (by intro c h; rw [hc] at h; cases h), hw.2.2⟩ hno
    have gen : ∀ (m n k : Nat), (∀ c, r.count = some c → c - k ≤ m) → m < n →
        (runGen step n (st k)).2 ≠ .running := by
      intro m
      induction m with
      | zero =>
        intro n k hc hn
        obtain ⟨n, rfl⟩ : ∃ n', n = n' + 1 := ⟨n - 1, by omega⟩
        unfold runGen
        rw [h]
        cases hs : r.stops en d k with
        | error e => simp
        | ok b =>
          cases b with
          | true => simp
          | false =>
            obtain ⟨c, hc1, hc2⟩ := hfalse k hs
            have := hc c hc1
            omega
      | succ m ih =>
        intro n k hc hn
        obtain ⟨n, rfl⟩ : ∃ n', n = n' + 1 := ⟨n - 1, by omega⟩
        unfold runGen
        rw [h]
        cases hs : r.stops en d k with
        | error e => simp
        | ok b =>
          cases b with
          | true => simp
          | false =>
            simp only
            refine ih n (k + 1) ?_ (by omega)
            intro c hc1
            have := hc c hc1
            push_cast; omega
    refine gen (r.count.getD 0).toNat n 0 ?_ (by omega)
    intro c hc
    rw [hc]; simp only [Option.getD_some]; omega

theorem nextRecurrence_zero {r : Rule} (hi : r.interval = 0) {d : Int} (hd : dateInRange d = true) :
    r.nextRecurrence d = .ok d := by
  unfold Rule.nextRecurrence
  rw [hi]
  split
  · rw [mkDate_eq_ok]; exact ⟨hd, by omega, rfl, rfl⟩
  · have hm := monthNr_year d
    have hok : mkDate (monthYear (monthNr d)) (monthMonth (monthNr d)) (dday d) = .ok d := by
      rw [mkDate_eq_ok]; exact ⟨hd, hm.1.symm, hm.2.symm, rfl⟩
    have : nextMonthFuel = 59999999999 + 1 := rfl
    rw [this, ← hm.1, ← hm.2]
    unfold nextMonthlyLoop
    have e : monthYear (monthNr d) * 12 + monthMonth (monthNr d) - 1 + 0 = monthNr d := by
      unfold monthYear monthMonth; omega
    simp only [e]
    unfold monthYear monthMonth at hok
    rw [hok]
  · rw [dateAdd_ok]; simpa using hd

theorem basic_const {r : Rule} (hi : r.interval = 0) {d : Int} (hd : dateInRange d = true)
    (en : Option Int) (k : Nat) : r.basicStep en (d, k) = match r.stops en d k with
      | .error e => .fail e
      | .ok true => .stop
      | .ok false => .yield (r.emit d) (.ok (d, k + 1)) := by
  unfold Rule.basicStep
  simp only [nextRecurrence_zero hi hd]
  rfl

theorem month_const {r : Rule} (hi : r.interval = 0) {d index wd : Int}
    (hm : monthindex (dyear d) (dmonth d) index wd = .ok d)
    (en : Option Int) (k : Nat) : r.monthStep index wd en (dyear d, dmonth d, k) = match r.stops en d k with
      | .error e => .fail e
      | .ok true => .stop
      | .ok false => .yield (r.emit d) (.ok (dyear d, dmonth d, k + 1)) := by
  have hv := validYmd_date d
  unfold validYmd at hv
  unfold Rule.monthStep
  simp only [hm, hi]
  rw [show (dyear d * 12 + dmonth d + 0 - 1) / 12 = dyear d by omega,
    show (dyear d * 12 + dmonth d + 0 - 1) % 12 + 1 = dmonth d by omega]
  rfl

theorem runGen_fail {σ : Type} {step : σ → Step σ} {s : σ} {e : Fault} (h : step s = .fail e) (n : Nat)
    (hn : 0 < n) : (runGen step n s).2 = .raised e := by
  obtain ⟨n, rfl⟩ : ∃ n', n = n' + 1 := ⟨n - 1, by omega⟩
  unfold runGen; rw [h]

/-- A rule hangs, or the generation has ended after `r.fuel` iterations. -/
theorem hangs_or_ends (r : Rule) (dt : Int) (hr : dtInRange dt = true) (en : Option Int) :
    (Hangs r dt en → ∀ n, (r.applyRun dt en n).2 = .running) ∧
    (¬ Hangs r dt en → ∀ n, r.fuel ≤ n → (r.applyRun dt en n).2 ≠ .running) := by
  rw [dtInRange_date] at hr
  by_cases hi : r.interval = 0
  · have hfuel : ∀ n, r.fuel ≤ n → 1 + (r.count.getD 0).toNat ≤ n := by
      intro n hn; unfold Rule.fuel at hn; omega
    unfold Hangs Rule.applyRun
    split
    · rename_i hk; simp [hk]
    · rename_i wds hk
      refine ⟨fun h => absurd hk (h.2.2.1 wds), fun _ n hn => ?_⟩
      exact weekly_terminates r _ en _ hr n (by have := fuel_ge r; omega)
    · rename_i hk
      have C := const_loop r en (dtDate dt) (r.monthStep ((dday (dtDate dt) - 1) / 7 + 1)
        (weekday (dtDate dt)) en) (fun k => (dyear (dtDate dt), dmonth (dtDate dt), k)) _
        (fun k => month_const hi (monthindex_start hr) en k)
      refine ⟨fun h => C.1 ⟨h.2.2.2.1, h.2.2.2.2.1, h.2.2.2.2.2.1⟩, fun h n hn => C.2 ?_ n (hfuel n hn)⟩
      rintro ⟨h1, h2, h3⟩
      exact h ⟨hi, by simp [hk], by simp [hk], h1, h2, h3, by simp [hk]⟩
    · rename_i hk
      by_cases hl : dyear (dtDate dt) = 9999 ∧ dmonth (dtDate dt) = 12
      · refine ⟨fun h => absurd ⟨hk, hl⟩ h.2.2.2.2.2.2, fun _ n hn => ?_⟩
        have hneg : (dday (dtDate dt) - daysInMonth (dyear (dtDate dt)) (dmonth (dtDate dt)) - 1) / 7 < 0 := by
          have := (validYmd_date (dtDate dt)).2.2.2; omega
        have : r.monthStep ((dday (dtDate dt) - daysInMonth (dyear (dtDate dt)) (dmonth (dtDate dt)) - 1) / 7)
            (weekday (dtDate dt)) en (dyear (dtDate dt), dmonth (dtDate dt), 0) =
            .fail (.py .ValueError) := by
          generalize (dday (dtDate dt) - daysInMonth (dyear (dtDate dt)) (dmonth (dtDate dt)) - 1) / 7 = ix at *
          unfold Rule.monthStep
          simp only [hl.1, hl.2, monthindex_neg_last hneg]
          rfl
        rw [runGen_fail this n (by have := fuel_ge r; omega)]
        simp
      · have C := const_loop r en (dtDate dt) (r.monthStep
          ((dday (dtDate dt) - daysInMonth (dyear (dtDate dt)) (dmonth (dtDate dt)) - 1) / 7)
          (weekday (dtDate dt)) en) (fun k => (dyear (dtDate dt), dmonth (dtDate dt), k)) _
          (fun k => month_const hi (monthindex_start_last hr (by omega)) en k)
        refine ⟨fun h => C.1 ⟨h.2.2.2.1, h.2.2.2.2.1, h.2.2.2.2.2.1⟩, fun h n hn => C.2 ?_ n (hfuel n hn)⟩
        rintro ⟨h1, h2, h3⟩
        exact h ⟨hi, by simp [hk], by simp [hk], h1, h2, h3, by simp [hl]⟩
    · rename_i k h1 h2 h3 h4
      have C := const_loop r en (dtDate dt) (r.basicStep en) (fun k => (dtDate dt, k)) _
        (fun k => basic_const hi hr en k)
      refine ⟨fun h => C.1 ⟨h.2.2.2.1, h.2.2.2.2.1, h.2.2.2.2.2.1⟩, fun h n hn => C.2 ?_ n (hfuel n hn)⟩
      rintro ⟨g1, g2, g3⟩
      exact h ⟨hi, h1, h2, g1, g2, g3, fun hh => h4 hh.1⟩
  · refine ⟨fun h => absurd h.1 hi, fun _ n hn => ?_⟩
    have hn : 3652100 ≤ n := by have := fuel_ge r; omega
    unfold Rule.applyRun
    split
    · simp
    · exact weekly_terminates r _ en _ hr n hn
    · exact month_terminates hi _ _ en _ hr n hn
    · exact month_terminates hi _ _ en _ hr n hn
    · exact basic_terminates hi en _ hr n hn

/-- The fuel of `apply` is adequate: running longer makes no difference to whether it ended. -/
theorem apply_fuel_adequate (r : Rule) (dt : Int) (hr : dtInRange dt = true) (en : Option Int)
    (h : (r.applyRun dt en r.fuel).2 = .running) (n : Nat) : (r.applyRun dt en n).2 = .running := by
  by_cases hh : Hangs r dt en
  · exact (hangs_or_ends r dt hr en).1 hh n
  · exact absurd h ((hangs_or_ends r dt hr en).2 hh _ (Nat.le_refl _))

/-! ### faults -/

theorem stops_error {r : Rule} {en : Option Int} {d : Int} {k : Nat} {f : Fault}
    (h : r.stops en d k = .error f) : f = .py .TypeError := by
  by_cases hu : UntilIsDate r
  · rcases within_iff_stops r en d k hu with ⟨_, e⟩ | ⟨_, e⟩ <;> rw [e] at h <;> cases h
  · unfold UntilIsDate at hu
    simp only [not_forall, not_not] at hu
    obtain ⟨t, ht⟩ := hu
    rcases stops_datetime ht en d k with e | e <;> rw [e] at h
    · cases h
    · injection h with h; exact h.symm

theorem raised_ne_diverge (r : Rule) (dt : Int) (hr : dtInRange dt = true) (en : Option Int) (n : Nat)
    (f : Fault) (h : (r.applyRun dt en n).2 = .raised f) : f ≠ .diverge := by
  rw [dtInRange_date] at hr
  have M : ∀ index wd s, (runGen (r.monthStep index wd en) n s).2 = .raised f → f ≠ .diverge := by
    intro index wd s
    refine fun h => runGen_fault _ (fun f => f ≠ .diverge) (fun _ => True) ?_ ?_ (fun _ _ _ _ _ => trivial)
      n s trivial f h
    · intro s f _ hf
      unfold Rule.monthStep at hf
      split at hf
      · rename_i e he; injection hf with hf; subst hf
        rcases monthindex_error he with h | h <;> simp [h]
      · split at hf
        · rename_i e he; injection hf with hf; subst hf; simp [stops_error he]
        · cases hf
        · cases hf
    · intro s out f _ hf
      obtain ⟨_, _, _, _, hn⟩ := monthStep_yield hf
      cases hn
  unfold Rule.applyRun at h
  split at h
  · cases h
  · rename_i wds hk
    refine runGen_fault _ (fun f => f ≠ .diverge) (fun s => dateInRange s.1 = true) ?_ ?_ ?_ n _ hr f h
    · intro s f hs hf
      rcases weeklyStep_fail hf with h | ⟨_, h⟩
      · simp [stops_error h]
      · unfold Rule.weeklyHit at h
        rw [weekspan_eq hr hs, ok_bind] at h
        split at h
        · injection h with h; simp [← h]
        · cases h
    · intro s out f hs hf
      rcases (weeklyStep_yield hf).2 with ⟨_, _, hn⟩ | ⟨_, _, hn⟩ <;>
      · rcases dateAdd_error (map_error hn.symm) with h | h <;> simp [h]
    · intro s out s' hs hf
      rcases (weeklyStep_yield hf).2 with ⟨_, _, hn⟩ | ⟨_, _, hn⟩ <;>
      · obtain ⟨a, ha, hs'⟩ := map_ok hn.symm
        rw [hs', (dateAdd_ok.1 ha).2]; exact (dateAdd_ok.1 ha).1
  · exact M _ _ _ h
  · exact M _ _ _ h
  · refine runGen_fault _ (fun f => f ≠ .diverge) (fun s => dateInRange s.1 = true) ?_ ?_ ?_ n _ hr f h
    · intro s f hs hf
      simp [stops_error (basicStep_fail hf)]
    · intro s out f hs hf
      have he := map_error (basicStep_yield hf).2.2.symm
      unfold Rule.nextRecurrence at he
      split at he
      · rcases mkDate_error he with h | h <;> simp [h]
      · rintro rfl
        exact nextMonthly_ne_diverge hs he
      · rcases dateAdd_error he with h | h <;> simp [h]
    · intro s out s' hs hf
      obtain ⟨a, ha, hs'⟩ := map_ok (basicStep_yield hf).2.2.symm
      rw [hs']; exact nextRecurrence_inRange ha

theorem apply_diverges_iff (r : Rule) (dt : Int) (hr : dtInRange dt = true) (en : Option Int) :
    (r.apply dt en).2 = .error .diverge ↔ Hangs r dt en := by
  rw [(apply_snd r dt en).2]
  constructor
  · rintro (h | ⟨_, h⟩)
    · exact absurd rfl (raised_ne_diverge r dt hr en _ _ h)
    · by_contra hh
      exact (hangs_or_ends r dt hr en).2 hh _ (Nat.le_refl _) h
  · intro h
    exact Or.inr ⟨rfl, (hangs_or_ends r dt hr en).1 h _⟩

end CalCore
