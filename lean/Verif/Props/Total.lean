import Verif.Lemmas.Sane
import Verif.Props.Samples
/- Property C59, and C17 at the level of the store: queries return. -/
namespace CalCore
open Spec

/-! ### C17 -/

theorem occAt_ne_diverge (e : Event) (t b en : Int) : e.occAt t b en ≠ .error .diverge := by
  intro h
  unfold Event.occAt at h
  rw [inPeriod_eq] at h
  cases hd : e.duration with
  | none => rw [hd] at h; cases h
  | some dur =>
    rw [hd] at h
    simp only [] at h
    split at h
    · rw [ok_bind] at h; split at h <;> cases h
    · cases h

theorem expandLoop_ne_diverge (e : Event) (b en : Int) (L : List Int) :
    e.expandLoop b en L ≠ .error .diverge := by
  induction L with
  | nil => intro h; cases h
  | cons d rest ih =>
    intro h
    unfold Event.expandLoop at h
    rw [bind_error] at h
    rcases h with h | ⟨_, _, h⟩
    · exact occAt_ne_diverge _ _ _ _ h
    · rw [bind_error] at h
      rcases h with h | ⟨_, _, h⟩
      · exact ih h
      · cases h

theorem expand_ne_diverge (e : Event) (b en : Int)
    (h : ∀ r, e.recurrence = some r → (r.apply e.dtstart (some (dtDate en))).2 ≠ .error .diverge) :
    e.expand b en ≠ .error .diverge := by
  intro hx
  unfold Event.expand at hx
  cases hr : e.recurrence with
  | none => rw [hr] at hx; exact occAt_ne_diverge _ _ _ _ hx
  | some r =>
    rw [hr] at hx
    simp only [] at hx
    rw [bind_error] at hx
    rcases hx with hx | ⟨_, _, hx⟩
    · exact expandLoop_ne_diverge _ _ _ _ hx
    · rw [bind_error] at hx
      rcases hx with hx | ⟨_, _, hx⟩
      · exact h r hr hx
      · cases hx

theorem expandAll_ne_diverge (b en : Int) (L : List Event)
    (h : ∀ e ∈ L, e.expand b en ≠ .error .diverge) : expandAll b en L ≠ .error .diverge := by
  induction L with
  | nil => intro h; cases h
  | cons d rest ih =>
    intro hx
    unfold expandAll at hx
    rw [bind_error] at hx
    rcases hx with hx | ⟨_, _, hx⟩
    · exact h d (List.mem_cons_self ..) hx
    · rw [bind_error] at hx
      rcases hx with hx | ⟨_, _, hx⟩
      · exact ih (fun e he => h e (List.mem_cons_of_mem _ he)) hx
      · cases hx

/-- C17 for the store: no query for occurrences hangs, for any period and criteria, if no stored rule has
interval 0.  Missing: rules with interval 0, which `import_` creates (`C17_store_counterexample`). -/
theorem C17_store_partial (s : Storage) (hs : s.WF)
    (hg : ∀ ev, Stored s ev → dtInRange ev.dtstart = true ∧ ∀ r, ev.recurrence = some r → r.interval ≠ 0)
    (b e : Option Int) (c : Option Criteria) : s.getOccurrences b e c ≠ .error .diverge := by
  intro h
  unfold Storage.getOccurrences at h
  split at h
  · rename_i b e
    refine expandAll_ne_diverge b e _ (fun ev hev => expand_ne_diverge ev b e fun r hr hd => ?_) h
    obtain ⟨h1, h2⟩ := hg ev ((mem_matching hs c ev).1 hev).1
    obtain ⟨n, hn⟩ := C17_terminates_partial r (h2 r hr) ev.dtstart h1 (some (dtDate e))
    exact hn ((C17_diverge_iff r ev.dtstart h1 _).1 hd n)
  · cases h

/-- C17 fails for the store: one imported event with `INTERVAL=0` makes every query for occurrences up
to a time from its start on hang. -/
theorem C17_store_counterexample (b e : Int) (he : Sample.day ≤ e) :
    ((freshWorld "st" "host").run
        [.import_ (fun _ => 0) [("alice", ())] [("alice", ⟨"Alice", "INDIVIDUAL"⟩)]
          [{ uid := some "i", dtstart := some (.naive Sample.day), duration := some Sample.HOUR
             rrule := some { freq := some "DAILY", interval := some [0] } }]
          none none none false]).store.getOccurrences (some b) (some e) none = .error .diverge := by
  have hst : ((freshWorld "st" "host").run
        [.import_ (fun _ => 0) [("alice", ())] [("alice", ⟨"Alice", "INDIVIDUAL"⟩)]
          [{ uid := some "i", dtstart := some (.naive Sample.day), duration := some Sample.HOUR
             rrule := some { freq := some "DAILY", interval := some [0] } }]
          none none none false]).store.matching none =
      [{ blankEvent "i" with
          dtstart := Sample.day, duration := some Sample.HOUR, status := "TENTATIVE", access := "PUBLIC"
          recurrence := some ⟨.daily, 0, none, none, []⟩, organizerId := some "alice"
          pstate := [("alice", "ACCEPTED")], prole := [("alice", "REQ-PARTICIPANT")] }] := by decide +kernel
  unfold Storage.getOccurrences
  rw [hst]
  have hh : Hangs ⟨.daily, 0, none, none, []⟩ Sample.day (some (dtDate e)) := by
    refine ⟨rfl, by simp, by simp, fun t h => (by cases h), rfl, ⟨?_, ?_, ?_⟩, by simp⟩
    · intro e' h; injection h with h
      have : dtDate Sample.day ≤ dtDate e := by unfold dtDate; exact Int.ediv_le_ediv (by decide) he
      omega
    · intro c h; cases h
    · intro c h; cases h
  have hd : (Rule.apply ⟨.daily, 0, none, none, []⟩ Sample.day (some (dtDate e))).2 = .error .diverge :=
    (C17_diverge_iff _ _ (by decide +kernel) _).2 ((C17_hangs_iff _ _ (by decide +kernel) _).2 hh)
  have hmem : ∀ d ∈ (Rule.apply ⟨.daily, 0, none, none, []⟩ Sample.day (some (dtDate e))).1, d = dtDate Sample.day := by
    intro d hd
    rw [apply_fst] at hd
    have key : ∀ n k, ∀ d ∈ (runGen (Rule.basicStep ⟨.daily, 0, none, none, []⟩ (some (dtDate e))) n
        (dtDate Sample.day, k)).1, d = dtDate Sample.day := by
      intro n
      induction n with
      | zero => intro k d hd; cases hd
      | succ n ih =>
        intro k d hd
        unfold runGen at hd
        have hb : Rule.basicStep ⟨.daily, 0, none, none, []⟩ (some (dtDate e)) (dtDate Sample.day, k) =
            .stop ∨ Rule.basicStep ⟨.daily, 0, none, none, []⟩ (some (dtDate e)) (dtDate Sample.day, k) =
            .yield (some (dtDate Sample.day)) (.ok (dtDate Sample.day, k + 1)) := by
          rcases basicStep_cases (r := ⟨.daily, 0, none, none, []⟩) (fun t h => by cases h) (some (dtDate e))
            (dtDate Sample.day, k) with ⟨_, h⟩ | ⟨_, h⟩
          · exact Or.inl h
          · right
            rw [h]
            have h1 : Rule.emit ⟨.daily, 0, none, none, []⟩ (dtDate Sample.day) = some (dtDate Sample.day) := rfl
            have h2 : Rule.nextRecurrence ⟨.daily, 0, none, none, []⟩ (dtDate Sample.day) = .ok (dtDate Sample.day) := by
              decide +kernel
            rw [h1, h2]; rfl
        rcases hb with hb | hb
        · rw [hb] at hd; cases hd
        · rw [hb] at hd
          simp only [Option.toList, List.cons_append, List.nil_append, List.mem_cons] at hd
          rcases hd with hd | hd
          · exact hd
          · exact ih _ d hd
    exact key _ 0 d hd
  unfold expandAll
  rw [bind_error]
  left
  unfold Event.expand
  simp only []
  generalize hx : Rule.apply ⟨.daily, 0, none, none, []⟩ Sample.day (some (dtDate e)) = x at *
  obtain ⟨l, hl⟩ : ∃ l, Event.expandLoop { blankEvent "i" with
          dtstart := Sample.day, duration := some Sample.HOUR, status := "TENTATIVE", access := "PUBLIC"
          recurrence := some ⟨.daily, 0, none, none, []⟩, organizerId := some "alice"
          pstate := [("alice", "ACCEPTED")], prole := [("alice", "REQ-PARTICIPANT")] } b e x.1 = .ok l := by
    refine ⟨_, expandLoop_ok.2 ⟨fun d hd => ⟨Sample.HOUR, rfl, ?_⟩, rfl⟩⟩
    rw [hmem d hd]
    decide +kernel
  rw [hl, ok_bind, hd]
  rfl

/-- C17, the sample store meets the hypotheses of `C17_store_partial` (its events do not recur); so does
this one. -/
example : ∃ e, newEvent "w" { dtstart := Sample.day, duration := some DAY, recurrence := some ⟨.yearly, 3, none, none, []⟩ } = .ok e ∧
    dtInRange e.dtstart = true ∧ ∀ r, e.recurrence = some r → r.interval ≠ 0 := by
  refine ⟨_, rfl, by decide +kernel, ?_⟩
  intro r hr
  injection hr with hr; subst hr; decide

/-! ### C59 -/

/-- What an event must satisfy, beyond being accepted by `createEvent`, for queries up to the year 2100
to be safe. -/
structure Safe (e : Event) : Prop where
  /-- The start is a Python datetime, there is a duration, and the end is a Python datetime. -/
  start : dtInRange e.dtstart = true
  dur : ∃ d, e.duration = some d ∧ dtInRange (e.dtstart + d) = true ∧
    (e.recurrence ≠ none → d ≤ 2800000 * DAY)
  /-- The interval is between 1 and 7800, `until` is a date, no yearly rule starts on 29
  February, no monthly rule starting on 29 February has an interval above 19, and no 'lastweekday' rule
  starts in December 9999. -/
  rule : ∀ r, e.recurrence = some r → 1 ≤ r.interval ∧ UntilIsDate r ∧ r.interval ≤ 7800 ∧
    (r.kind = .yearly → ¬ IsFeb29 (dtDate e.dtstart)) ∧
    (r.kind = .monthly .monthday → IsFeb29 (dtDate e.dtstart) → r.interval ≤ 19) ∧
    (r.kind = .monthly .lastweekday → ¬ InLastMonth (dtDate e.dtstart))

theorem safe_canExpand {e : Event} (h : Safe e) {en : Int} (hr : dtInRange en = true)
    (hy : dyear (dtDate en) ≤ 2100) : e.CanExpand en := by
  obtain ⟨dur, hd, hde, hdr⟩ := h.dur
  have hrd := dtDate_range hr
  have hmax : dtDate en + 2800001 ≤ MAXORD := by
    have h1 := (dyear_bounds (dtDate en)).2
    have h2 := daysBeforeYear_mono (y := dyear (dtDate en) + 1) (y' := 2101) (by omega)
    have : daysBeforeYear 2101 + 2800001 ≤ MAXORD := by decide
    omega
  constructor
  · intro d hmem
    refine ⟨dur, hd, ?_⟩
    unfold Event.dates at hmem
    cases hrec : e.recurrence with
    | none =>
      rw [hrec, List.mem_singleton] at hmem
      rw [hmem, combine_dt]; exact hde
    | some r =>
      rw [hrec] at hmem
      simp only [] at hmem
      have hv := (h.rule r hrec).1
      have hge := (C14_increasing r hv e.dtstart h.start (some (dtDate en)) r.fuel).2 d (by
        rwa [apply_fst] at hmem)
      by_cases hk : r.kind = .no
      · rw [apply_fst] at hmem
        unfold Rule.applyRun at hmem
        rw [hk, List.mem_singleton] at hmem
        rw [hmem, combine_dt]; exact hde
      · have hle : d ≤ dtDate en := by
          have := (C15_bounds_partial r hk e.dtstart (some (dtDate en)) r.fuel).1 d (by rwa [apply_fst] at hmem)
          exact this.1 _ rfl
        have hdl := hdr (by rw [hrec]; simp)
        have ht := dtTime_range e.dtstart
        rw [dtInRange_iff] at hde ⊢
        have hs : e.dtstart = combine (dtDate e.dtstart) (dtTime e.dtstart) := (combine_dt _).symm
        have hm : (MAXORD : Int) = 3652059 := rfl
        unfold combine at *
        unfold DAY at *
        omega
  · intro r hrec
    obtain ⟨h1, h2, h3, h4, h5, h6⟩ := h.rule r hrec
    exact rule_ok_2100 r h1 h2 h3 e.dtstart h.start h4 h5 h6 _ hrd hy

/-- C59: queries for occurrences in periods ending by the year 2100 return normally for every store of
safe events.  Missing: events that `createEvent` accepts but that are not safe; for some of them the
statement is false (`C59_feb29_counterexample`, `C59_duration_counterexample`,
`C59_interval_counterexample`). -/
theorem C59_queries_return_partial (s : Storage) (hs : s.WF) (hg : ∀ ev, Stored s ev → Safe ev)
    (b e : Int) (hr : dtInRange e = true) (hy : dyear (dtDate e) ≤ 2100) (c : Option Criteria) :
    ∃ l, s.getOccurrences (some b) (some e) c = .ok l :=
  ⟨_, getOccurrences_ok.2
    ⟨fun ev hev => safe_canExpand (hg ev ((mem_matching hs c ev).1 hev).1) hr hy, rfl⟩⟩

/-- C59: the events of the sample store are safe. -/
example : (∀ ev, Stored Sample.store ev → Safe ev) ∧ dtInRange (Sample.day + DAY) = true ∧
    dyear (dtDate (Sample.day + DAY)) ≤ 2100 := by
  refine ⟨fun ev hev => ?_, by decide +kernel, by decide +kernel⟩
  have hm := (Sample.store_wf.mem_values ev).2 hev
  have : ∀ ev ∈ Dict.values Sample.store.events, dtInRange ev.dtstart = true ∧ ev.recurrence = none ∧
      ev.duration.isSome = true ∧ dtInRange (ev.dtstart + ev.duration.getD 0) = true := by decide +kernel
  obtain ⟨h1, h2, h3, h4⟩ := this ev hm
  obtain ⟨d, hd⟩ := Option.isSome_iff_exists.1 h3
  rw [hd] at h4
  exact ⟨h1, ⟨d, hd, h4, fun h => absurd h2 h⟩, fun r hr => by rw [h2] at hr; cases hr⟩

/-- C59: a recurring event that is safe: the last Monday of every second month. -/
example : ∃ e, newEvent "w" { dtstart := Sample.day + 28 * DAY, duration := some DAY
                              recurrence := some ⟨.monthly .lastweekday, 2, none, none, []⟩ } = .ok e ∧ Safe e := by
  refine ⟨_, rfl, by decide +kernel, ⟨DAY, rfl, by decide +kernel, fun _ => by decide +kernel⟩, ?_⟩
  intro r hr
  injection hr with hr; subst hr
  refine ⟨by decide, fun t h => (by cases h), by decide, by simp, by simp, ?_⟩
  intro _ h
  exact absurd h.1 (by decide +kernel)

/-- C59 fails: a yearly event on 29 February makes every query of everybody from the following year on
raise ValueError. -/
theorem C59_feb29_counterexample :
    ∀ y ∈ [2025, 2026, 2099],
    ((freshWorld "st" "host").run
        [.create 0 (some "f") { dtstart := ymd2ord 2024 2 29 * DAY, duration := some DAY
                                recurrence := some ⟨.yearly, 1, none, none, []⟩ }]).store.getOccurrences
      (some (ymd2ord y 3 2 * DAY)) (some (ymd2ord y 3 3 * DAY)) none = raise .ValueError := by
  decide +kernel

/-- C59 fails: an event without duration makes every query raise TypeError. -/
theorem C59_duration_counterexample (b e : Int) :
    ((freshWorld "st" "host").run
        [.create 0 (some "f") { dtstart := Sample.day, duration := none }]).store.getOccurrences
      (some b) (some e) none = raise .TypeError := rfl

/-- C59 fails: a daily rule with a very large interval. -/
theorem C59_interval_counterexample :
    ((freshWorld "st" "host").run
        [.create 0 (some "f") { dtstart := Sample.day, duration := some DAY
                                recurrence := some ⟨.daily, 4000000, none, none, []⟩ }]).store.getOccurrences
      (some Sample.day) (some (Sample.day + DAY)) none = raise .OverflowError := by
  decide +kernel

end CalCore
