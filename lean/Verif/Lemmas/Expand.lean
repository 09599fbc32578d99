import Verif.Lemmas.Queries
import Verif.Props.RecurrenceAll
/- Lemmas on the expansion of events into occurrences. -/
namespace CalCore
open Spec

theorem ruleSeq_eq {r : Rule} (hk : r.kind ≠ .no) (hi : 1 ≤ r.interval) {s : Int} (hr : dateInRange s = true) :
    ruleSeq r s = seqOf r s := by
  unfold ruleSeq seqOf
  cases hkind : r.kind with
  | no => exact absurd hkind hk
  | basic => rfl
  | daily => rfl
  | yearly => rfl
  | weekly wds => rfl
  | monthly m =>
    cases m with
    | monthday => rfl
    | weekday =>
      simp only []
      rw [funext (monthSeq_weekday_drift hi hr), initial_closed (monthSeq_weekday_closed hi hr)]
    | lastweekday =>
      simp only []
      rw [monthSeq_last_initial hi hr]
      rfl

/-! ### narrowing the enddate -/

theorem runGen_narrow {σ : Type} {step1 step2 : σ → Step σ}
    (h : ∀ s, step1 s = .stop ∨ step1 s = step2 s) :
    ∀ (n : Nat) (s : σ), (runGen step2 n s).2 = .finished →
      (runGen step1 n s).2 = .finished ∧ (runGen step1 n s).1 <+: (runGen step2 n s).1 := by
  intro n
  induction n with
  | zero => intro s hs; cases hs
  | succ n ih =>
    intro s hs
    rcases h s with h1 | h1
    · have : runGen step1 (n + 1) s = ([], .finished) := by simp [runGen, h1]
      rw [this]; exact ⟨rfl, List.nil_prefix⟩
    · have e2 : ∀ step : σ → Step σ, runGen step (n + 1) s = match step s with
          | .stop => ([], .finished)
          | .fail e => ([], .raised e)
          | .yield out (.error e) => (out.toList, .raised e)
          | .yield out (.ok s') => (out.toList ++ (runGen step n s').1, (runGen step n s').2) := fun _ => rfl
      rw [e2 step2] at hs ⊢
      rw [e2 step1, h1]
      cases hst : step2 s with
      | stop => exact ⟨rfl, List.nil_prefix⟩
      | fail e => rw [hst] at hs; cases hs
      | yield out next =>
        rw [hst] at hs
        cases next with
        | error e => cases hs
        | ok s' =>
          simp only [] at hs ⊢
          obtain ⟨h3, h4⟩ := ih s' hs
          exact ⟨h3, List.prefix_append_right_inj _ |>.2 h4⟩

theorem stops_narrow (r : Rule) {e1 : Int} {en : Option Int} (he : ∀ e2, en = some e2 → e1 ≤ e2) (d : Int) (k : Nat) :
    r.stops (some e1) d k = .ok true ∨ r.stops (some e1) d k = r.stops en d k := by
  unfold Rule.stops
  by_cases h : d > e1
  · left; rw [if_pos (by simpa using h)]
  · right
    rw [if_neg (by simpa using h)]
    cases en with
    | none => rfl
    | some e2 =>
      have := he e2 rfl
      rw [if_neg (show ¬ (match some e2 with | some e => decide (d > e) | none => false) = true by
        simp only [decide_eq_true_eq]; omega)]

/-- If the generation up to a later enddate ends normally, so does the one up to an earlier enddate,
giving a prefix; for every rule. -/
theorem apply_narrow (r : Rule) (dt : Int) {e1 : Int} {en : Option Int} (he : ∀ e2, en = some e2 → e1 ≤ e2)
    (h : (r.apply dt en).2 = .ok ()) :
    (r.apply dt (some e1)).2 = .ok () ∧ (r.apply dt (some e1)).1 <+: (r.apply dt en).1 := by
  rw [(apply_snd r dt en).1] at h
  rw [(apply_snd r dt (some e1)).1, apply_fst, apply_fst]
  have B : ∀ s, r.basicStep (some e1) s = .stop ∨ r.basicStep (some e1) s = r.basicStep en s := by
    intro s
    unfold Rule.basicStep
    rcases stops_narrow r he s.1 s.2 with h | h
    · rw [h]; exact Or.inl rfl
    · rw [h]; exact Or.inr rfl
  have W : ∀ wds start s, r.weeklyStep wds start (some e1) s = .stop ∨
      r.weeklyStep wds start (some e1) s = r.weeklyStep wds start en s := by
    intro wds start s
    unfold Rule.weeklyStep
    rcases stops_narrow r he s.1 s.2 with h | h
    · rw [h]; exact Or.inl rfl
    · rw [h]; exact Or.inr rfl
  have M : ∀ index wd s, r.monthStep index wd (some e1) s = .stop ∨
      r.monthStep index wd (some e1) s = r.monthStep index wd en s := by
    intro index wd s
    unfold Rule.monthStep
    cases monthindex s.1 s.2.1 index wd with
    | error e => exact Or.inr rfl
    | ok cur =>
      simp only []
      rcases stops_narrow r he cur s.2.2 with h | h
      · rw [h]; exact Or.inl rfl
      · rw [h]; exact Or.inr rfl
  unfold Rule.applyRun at h ⊢
  cases hk : r.kind with
  | no => exact ⟨rfl, List.prefix_refl _⟩
  | basic => rw [hk] at h; exact runGen_narrow B _ _ h
  | daily => rw [hk] at h; exact runGen_narrow B _ _ h
  | yearly => rw [hk] at h; exact runGen_narrow B _ _ h
  | weekly wds => rw [hk] at h; exact runGen_narrow (W _ _) _ _ h
  | monthly m =>
    rw [hk] at h
    cases m with
    | monthday => exact runGen_narrow B _ _ h
    | weekday => exact runGen_narrow (M _ _) _ _ h
    | lastweekday => exact runGen_narrow (M _ _) _ _ h

/-! ### expansion -/

/-- The dates at which `expand` looks. -/
def Event.dates (e : Event) (en : Int) : List Int :=
  match e.recurrence with
  | none => [dtDate e.dtstart]
  | some r => (r.apply e.dtstart (some (dtDate en))).1

/-- Occurrence of `e` on date `d`. -/
def Event.at (e : Event) (d : Int) : Occurrence Event :=
  ⟨combine d (dtTime e.dtstart), e.duration.getD 0, e⟩

/-- The test of `inPeriod`. -/
def rawShown (b en x dur : Int) : Bool := decide (b < x + dur ∧ x < en)

/-- The occurrences `expand` returns if it returns. -/
def Event.occs (e : Event) (b en : Int) : List (Occurrence Event) :=
  ((e.dates en).map e.at).filter (fun o => rawShown b en o.dtstart o.duration)

/-- `expand` returns. -/
structure Event.CanExpand (e : Event) (en : Int) : Prop where
  ends : ∀ d ∈ e.dates en, ∃ dur, e.duration = some dur ∧
    dtInRange (combine d (dtTime e.dtstart) + dur) = true
  rule : ∀ r, e.recurrence = some r → (r.apply e.dtstart (some (dtDate en))).2 = .ok ()

theorem occAt_ok {e : Event} {t b en : Int} {l : List (Occurrence Event)} :
    e.occAt t b en = .ok l ↔ (∃ dur, e.duration = some dur ∧ dtInRange (t + dur) = true) ∧
      l = if rawShown b en t (e.duration.getD 0) = true then [⟨t, e.duration.getD 0, e⟩] else [] := by
  unfold Event.occAt
  rw [inPeriod_eq]
  cases hd : e.duration with
  | none => simp
  | some dur =>
    by_cases hr : dtInRange (t + dur) = true
    · have hx : (∃ dur', some dur = some dur' ∧ dtInRange (t + dur') = true) := ⟨dur, rfl, hr⟩
      simp only []
      rw [if_pos hr, ok_bind]
      simp only [rawShown, Option.getD_some, decide_eq_true_eq]
      rw [and_iff_right hx]
      have hq : (b < t + dur ∧ ∀ e', some en = some e' → t < e') ↔ (b < t + dur ∧ t < en) := by simp
      by_cases hc : b < t + dur ∧ t < en
      · rw [if_pos (hq.2 hc), if_pos hc, Except.ok.injEq, eq_comm]
      · rw [if_neg (fun h => hc (hq.1 h)), if_neg hc, Except.ok.injEq, eq_comm]
    · have hx : ¬ (∃ dur', some dur = some dur' ∧ dtInRange (t + dur') = true) := by
        rintro ⟨d', h1, h2⟩; injection h1 with h1; subst h1; exact hr h2
      simp only []
      rw [if_neg hr, raise_bind, raise_eq_ok]
      exact ⟨False.elim, fun h => hx h.1⟩

theorem expandLoop_ok {e : Event} {b en : Int} {L : List Int} {l : List (Occurrence Event)} :
    e.expandLoop b en L = .ok l ↔
      (∀ d ∈ L, ∃ dur, e.duration = some dur ∧ dtInRange (combine d (dtTime e.dtstart) + dur) = true) ∧
      l = (L.map e.at).filter (fun o => rawShown b en o.dtstart o.duration) := by
  induction L generalizing l with
  | nil => unfold Event.expandLoop; rw [Except.ok.injEq, eq_comm]; simp
  | cons d rest ih =>
    unfold Event.expandLoop
    simp only [bind_ok, ih, occAt_ok]
    constructor
    · rintro ⟨here, ⟨h1, h2⟩, more, ⟨h3, h4⟩, h5⟩
      injection h5 with h5
      refine ⟨?_, ?_⟩
      · intro x hx
        rcases List.mem_cons.1 hx with rfl | hx
        · exact h1
        · exact h3 x hx
      · rw [← h5, h2, h4, List.map_cons, List.filter_cons]
        show _ = if rawShown b en (combine d (dtTime e.dtstart)) (e.duration.getD 0) = true then _ else _
        split <;> simp [*, Event.at]
    · rintro ⟨h1, h2⟩
      refine ⟨_, ⟨h1 d (List.mem_cons_self ..), rfl⟩, _, ⟨fun x hx => h1 x (List.mem_cons_of_mem _ hx), rfl⟩, ?_⟩
      rw [h2, List.map_cons, List.filter_cons]
      show _ = Except.ok (if rawShown b en (combine d (dtTime e.dtstart)) (e.duration.getD 0) = true then _ else _)
      split <;> simp [*, Event.at]

theorem expand_ok {e : Event} {b en : Int} {l : List (Occurrence Event)} :
    e.expand b en = .ok l ↔ e.CanExpand en ∧ l = e.occs b en := by
  unfold Event.expand Event.occs
  cases hr : e.recurrence with
  | none =>
    simp only []
    rw [occAt_ok]
    have hd : e.dates en = [dtDate e.dtstart] := by unfold Event.dates; rw [hr]
    rw [hd]
    constructor
    · rintro ⟨h1, h2⟩
      refine ⟨⟨?_, ?_⟩, ?_⟩
      · intro d hd'
        rw [hd, List.mem_singleton] at hd'
        subst hd'
        rw [combine_dt]; exact h1
      · intro r h; rw [hr] at h; cases h
      · rw [h2]
        simp only [List.map_cons, List.map_nil, List.filter_cons, List.filter_nil, Event.at, combine_dt]
    · rintro ⟨h1, h2⟩
      refine ⟨?_, ?_⟩
      · have := h1.ends (dtDate e.dtstart) (by rw [hd]; simp)
        rwa [combine_dt] at this
      · rw [h2]
        simp only [List.map_cons, List.map_nil, List.filter_cons, List.filter_nil, Event.at, combine_dt]
  | some r =>
    have hd : e.dates en = (r.apply e.dtstart (some (dtDate en))).1 := by unfold Event.dates; rw [hr]
    simp only [bind_ok, expandLoop_ok]
    rw [hd]
    constructor
    · rintro ⟨l', ⟨h1, h2⟩, u, h3, h4⟩
      injection h4 with h4
      refine ⟨⟨by rw [hd]; exact h1, ?_⟩, by rw [← h4, h2]⟩
      intro r' h
      rw [hr] at h; injection h with h; subst h
      exact h3
    · rintro ⟨h1, h2⟩
      have := h1.ends
      rw [hd] at this
      exact ⟨_, ⟨this, rfl⟩, (), h1.rule r hr, by rw [h2]⟩

theorem expandAll_ok {b en : Int} {L : List Event} {l : List (Occurrence Event)} :
    expandAll b en L = .ok l ↔ (∀ e ∈ L, e.CanExpand en) ∧ l = L.flatMap (fun e => e.occs b en) := by
  induction L generalizing l with
  | nil => unfold expandAll; rw [Except.ok.injEq, eq_comm]; simp
  | cons e rest ih =>
    unfold expandAll
    simp only [bind_ok, ih, expand_ok]
    constructor
    · rintro ⟨here, ⟨h1, h2⟩, more, ⟨h3, h4⟩, h5⟩
      injection h5 with h5
      refine ⟨?_, by rw [← h5, h2, h4, List.flatMap_cons]⟩
      intro x hx
      rcases List.mem_cons.1 hx with rfl | hx
      · exact h1
      · exact h3 x hx
    · rintro ⟨h1, h2⟩
      exact ⟨_, ⟨h1 e (List.mem_cons_self ..), rfl⟩, _,
        ⟨fun x hx => h1 x (List.mem_cons_of_mem _ hx), rfl⟩, by rw [h2, List.flatMap_cons]⟩

theorem getOccurrences_ok {s : Storage} {b en : Int} {c : Option Criteria} {l : List (Occurrence Event)} :
    s.getOccurrences (some b) (some en) c = .ok l ↔
      (∀ e ∈ s.matching c, e.CanExpand en) ∧ l = (s.matching c).flatMap (fun e => e.occs b en) := expandAll_ok

/-! ### the dates of an event -/

/-- The day of the start is representable and the rule, if any, has a positive interval. -/
structure Event.Good (e : Event) : Prop where
  start : dtInRange e.dtstart = true
  rule : ∀ r, e.recurrence = some r → 1 ≤ r.interval

theorem dates_sorted {e : Event} (h : e.Good) (en : Int) : (e.dates en).Pairwise (· < ·) := by
  unfold Event.dates
  cases hr : e.recurrence with
  | none => simp
  | some r => exact (C14_increasing r (h.rule r hr) e.dtstart h.start _ _).1

/-- Membership in the dates. -/
theorem mem_dates_rule {e : Event} (h : e.Good) {r : Rule} (hr : e.recurrence = some r) {en : Int} (d : Int) :
    d ∈ e.dates en ↔ (IsDate r (dtDate e.dtstart) d ∧ UntilIsDate r ∧ (r.kind = .no ∨ d ≤ dtDate en)) ∨
      (r.kind = .no ∧ d = dtDate e.dtstart) := by
  have hv := h.rule r hr
  have hd : e.dates en = (r.apply e.dtstart (some (dtDate en))).1 := by unfold Event.dates; rw [hr]
  rw [hd]
  by_cases hk : r.kind = .no
  · have : (r.apply e.dtstart (some (dtDate en))).1 = [dtDate e.dtstart] := by
      rw [apply_fst]; unfold Rule.applyRun; rw [hk]
    rw [this]
    simp only [List.mem_singleton, hk, true_and, true_or, and_true]
    unfold IsDate
    rw [if_pos hk]
    constructor
    · intro h; exact Or.inr h
    · rintro (⟨h, _⟩ | h) <;> exact h
  · unfold IsDate
    rw [if_neg hk]
    simp only [hk, false_or, false_and, or_false]
    by_cases hu : UntilIsDate r
    · have E := rule_exact hu hv hk e.dtstart h.start
      rw [(E.generates _).2 d, ruleSeq_eq hk hv (dtDate_range h.start)]
      constructor
      · rintro ⟨k, hc, hw, hx⟩
        exact ⟨⟨k, hc, ⟨by simp, hw.2⟩, hx⟩, hu, hw.1 _ rfl⟩
      · rintro ⟨⟨k, hc, hw, hx⟩, _, hle⟩
        exact ⟨k, hc, ⟨fun e' he => by injection he with he; omega, hw.2⟩, hx⟩
    · simp only [hu, false_and, and_false, iff_false]
      intro hd
      obtain ⟨_, ⟨k, _, hu'⟩, _⟩ := applyRun_bounds r hk e.dtstart _ _ d hd
      exact hu hu'

end CalCore
