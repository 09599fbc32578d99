import Verif.Props.RecurrenceAll
/- Properties C63-C65: how exceptions, count and until act on the dates of a rule. -/
namespace CalCore
open Spec

/-! ### C63: exceptions -/

/-- A loop body with the yielded dates filtered. -/
def Step.filterOut {σ : Type} (p : Int → Bool) : Step σ → Step σ
  | .stop => .stop
  | .fail e => .fail e
  | .yield out next => .yield (out.filter p) next

theorem runGen_filterOut {σ : Type} (p : Int → Bool) (step step' : σ → Step σ)
    (h : ∀ s, step s = (step' s).filterOut p) (n : Nat) :
    ∀ s, runGen step n s = ((runGen step' n s).1.filter p, (runGen step' n s).2) := by
  have ho : ∀ out : Option Int, (out.filter p).toList = out.toList.filter p := by
    intro out
    cases out with
    | none => rfl
    | some x => by_cases hp : p x = true <;> simp [hp]
  induction n with
  | zero => intro s; rfl
  | succ n ih =>
    intro s
    have hs := h s
    simp only [runGen]
    cases h' : step' s with
    | stop => rw [h'] at hs; simp only [Step.filterOut] at hs; rw [hs]; rfl
    | fail e => rw [h'] at hs; simp only [Step.filterOut] at hs; rw [hs]; rfl
    | yield out next =>
      rw [h'] at hs
      simp only [Step.filterOut] at hs
      rw [hs]
      cases next with
      | error e => simp only [ho]
      | ok s' => simp only [ih s', ho, List.filter_append]

/-- The rule without its exceptions. -/
def Rule.noExceptions (r : Rule) : Rule := { r with exceptions := [] }

theorem emit_noExceptions (r : Rule) (d : Int) :
    r.emit d = (r.noExceptions.emit d).filter (fun d => decide (d ∉ r.exceptions)) := by
  unfold Rule.emit Rule.noExceptions
  by_cases h : d ∈ r.exceptions <;> simp [h, Option.filter]

theorem stops_noExceptions (r : Rule) : r.noExceptions.stops = r.stops := rfl

/-- C63 for every class but `NoRecurrenceRule`, and for every rule, validated or not, every event, enddate
and number of loop iterations: the dates generated are those of the same rule without exceptions, minus the
exceptions, and the generation ends in the same way. In particular an excepted date still counts for
`count`.  Missing: `NoRecurrenceRule`, which ignores its exceptions (`C63_no_counterexample`). -/
theorem C63_exceptions_partial (r : Rule) (hk : r.kind ≠ .no) (dt : Int) (en : Option Int) (n : Nat) :
    r.applyRun dt en n =
      ((({ r with exceptions := [] } : Rule).applyRun dt en n).1.filter (fun d => decide (d ∉ r.exceptions)),
       (({ r with exceptions := [] } : Rule).applyRun dt en n).2) := by
  change _ = ((r.noExceptions.applyRun dt en n).1.filter _, (r.noExceptions.applyRun dt en n).2)
  have hb : ∀ s, r.basicStep en s =
      (r.noExceptions.basicStep en s).filterOut (fun d => decide (d ∉ r.exceptions)) := by
    intro s
    unfold Rule.basicStep
    rw [stops_noExceptions]
    cases r.stops en s.1 s.2 with
    | error e => rfl
    | ok b => cases b with
      | true => rfl
      | false => simp only [Step.filterOut]; rw [emit_noExceptions]; rfl
  have hm : ∀ i w s, r.monthStep i w en s =
      (r.noExceptions.monthStep i w en s).filterOut (fun d => decide (d ∉ r.exceptions)) := by
    intro i w s
    unfold Rule.monthStep
    rw [stops_noExceptions]
    cases monthindex s.1 s.2.1 i w with
    | error e => rfl
    | ok cur =>
      simp only []
      cases r.stops en cur s.2.2 with
      | error e => rfl
      | ok b => cases b with
        | true => rfl
        | false => simp only [Step.filterOut]; rw [emit_noExceptions]; rfl
  have hw : ∀ wds st s, r.weeklyStep wds st en s =
      (r.noExceptions.weeklyStep wds st en s).filterOut (fun d => decide (d ∉ r.exceptions)) := by
    intro wds st s
    unfold Rule.weeklyStep
    rw [stops_noExceptions]
    have : r.noExceptions.weeklyHit = r.weeklyHit := rfl
    rw [this]
    cases r.stops en s.1 s.2 with
    | error e => rfl
    | ok b => cases b with
      | true => rfl
      | false =>
        simp only []
        cases r.weeklyHit wds st s.1 with
        | error e => rfl
        | ok b => cases b with
          | true => simp only [Step.filterOut]; rw [emit_noExceptions]
          | false => rfl
  unfold Rule.applyRun
  have hkk : r.noExceptions.kind = r.kind := rfl
  rw [hkk]
  cases hkind : r.kind with
  | no => exact absurd hkind hk
  | basic => exact runGen_filterOut _ _ _ hb n _
  | daily => exact runGen_filterOut _ _ _ hb n _
  | yearly => exact runGen_filterOut _ _ _ hb n _
  | weekly wds => exact runGen_filterOut _ _ _ (hw _ _) n _
  | monthly m =>
    cases m with
    | monthday => exact runGen_filterOut _ _ _ hb n _
    | weekday => exact runGen_filterOut _ _ _ (hm _ _) n _
    | lastweekday => exact runGen_filterOut _ _ _ (hm _ _) n _

/-- C63 for the whole generation. -/
theorem C63_apply_partial (r : Rule) (hk : r.kind ≠ .no) (dt : Int) (en : Option Int) :
    r.apply dt en =
      ((({ r with exceptions := [] } : Rule).apply dt en).1.filter (fun d => decide (d ∉ r.exceptions)),
       (({ r with exceptions := [] } : Rule).apply dt en).2) := by
  have h := C63_exceptions_partial r hk dt en r.fuel
  have hf : ({ r with exceptions := [] } : Rule).fuel = r.fuel := rfl
  unfold Rule.apply
  simp only [hf]
  rw [h]

/-- C63 fails for `NoRecurrenceRule`. -/
theorem C63_no_counterexample :
    let r : Rule := ⟨.no, 1, none, none, [ymd2ord 2005 2 1]⟩
    r.apply (dayAt 2005 2 1) none = ([ymd2ord 2005 2 1], .ok ()) ∧
      ymd2ord 2005 2 1 ∈ r.exceptions := by decide

/-- C63, a case: the second of three dates excepted. -/
example :
    let r : Rule := ⟨.monthly .weekday, 1, some 3, none, [ymd2ord 2005 2 8]⟩
    r.kind ≠ .no ∧ (r.apply (dayAt 2005 1 11) none).1 = [ymd2ord 2005 1 11, ymd2ord 2005 3 8] ∧
      (({ r with exceptions := [] } : Rule).apply (dayAt 2005 1 11) none).1 =
        [ymd2ord 2005 1 11, ymd2ord 2005 2 8, ymd2ord 2005 3 8] := by
  refine ⟨by simp, by decide +kernel, by decide +kernel⟩

/-! ### C64: count -/

/-- Two loops that do the same until a counter of the yielded dates reaches `c`, where the first stops: the
first yields the first dates of the second. -/
theorem runGen_take {σ : Type} (step step' : σ → Step σ) (cnt : σ → Nat) (c : Nat)
    (hfull : ∀ s, c ≤ cnt s → ∀ n, (runGen step n s).1 = [])
    (hsame : ∀ s, cnt s < c → step s = step' s)
    (hone : ∀ s d s', step s = .yield (some d) (.ok s') → cnt s' = cnt s + 1)
    (hnone : ∀ s s', step s = .yield none (.ok s') → cnt s' = cnt s) (n : Nat) :
    ∀ s, (runGen step n s).1 = (runGen step' n s).1.take (c - cnt s) := by
  induction n with
  | zero => intro s; simp [runGen]
  | succ n ih =>
    intro s
    by_cases hc : c ≤ cnt s
    · rw [hfull s hc, show c - cnt s = 0 by omega, List.take_zero]
    · have hs := hsame s (by omega)
      simp only [runGen]
      rw [← hs]
      cases h : step s with
      | stop => simp
      | fail e => simp
      | yield out next =>
        cases next with
        | error e =>
          cases out with
          | none => simp
          | some d => simp [List.take_of_length_le (l := [d]) (i := c - cnt s) (by simp; omega)]
        | ok s' =>
          cases out with
          | none =>
            have := hnone s s' h
            simp only [Option.toList_none, List.nil_append, ih s', this]
          | some d =>
            have := hone s d s' h
            simp only [Option.toList_some, List.cons_append, List.nil_append, ih s', this]
            rw [show c - cnt s = (c - (cnt s + 1)) + 1 by omega, List.take_succ_cons]

/-- The rule without its count. -/
def Rule.noCount (r : Rule) : Rule := { r with count := none }

theorem stops_count {r : Rule} {c : Int} (hc : r.count = some c) (en : Option Int) (d : Int) (k : Nat) :
    (c ≤ k → r.stops en d k = .ok true) ∧ ((k : Int) < c → r.stops en d k = r.noCount.stops en d k) := by
  unfold Rule.stops Rule.noCount
  rw [hc]
  constructor
  · intro h
    have : ((k : Int) ≥ c) := h
    cases en with
    | none => simp [this]
    | some e => by_cases he : d > e <;> simp [this, he]
  · intro h
    have : ¬ ((k : Int) ≥ c) := by omega
    cases en with
    | none => simp [this]
    | some e => by_cases he : d > e <;> simp [this, he]

theorem emit_nil {r : Rule} (hx : r.exceptions = []) (d : Int) : r.emit d = some d := by
  unfold Rule.emit; rw [hx]; simp

/-- C64 for every class but `NoRecurrenceRule`, every event, enddate, and number of loop iterations: a rule
without exceptions and with count `c` generates the first `c` dates that the same rule without count
generates.  (With exceptions, `C63_exceptions_partial` applies.)  Missing: `NoRecurrenceRule`
(`C64_no_counterexample`). -/
theorem C64_count_partial (r : Rule) (hk : r.kind ≠ .no) (hx : r.exceptions = []) (c : Int)
    (hc : r.count = some c) (dt : Int) (en : Option Int) (n : Nat) :
    (r.applyRun dt en n).1 = (({ r with count := none } : Rule).applyRun dt en n).1.take c.toNat := by
  change _ = (r.noCount.applyRun dt en n).1.take c.toNat
  have hxn : r.noCount.exceptions = [] := hx
  have hb : ∀ s : Int × Nat, (runGen (r.basicStep en) n s).1 =
      (runGen (r.noCount.basicStep en) n s).1.take (c.toNat - s.2) := by
    intro s
    refine runGen_take _ _ (fun s : Int × Nat => s.2) c.toNat ?_ ?_ ?_ ?_ n s
    · intro s hs n
      cases n with
      | zero => rfl
      | succ n =>
        have : r.basicStep en s = .stop := by
          unfold Rule.basicStep; rw [(stops_count hc en s.1 s.2).1 (by omega)]
        simp [runGen, this]
    · intro s hs
      unfold Rule.basicStep
      rw [(stops_count hc en s.1 s.2).2 (by omega)]; rfl
    · intro s d s' h
      obtain ⟨_, _, h3⟩ := basicStep_yield h
      cases hn : r.nextRecurrence s.1 with
      | error e => rw [hn] at h3; cases h3
      | ok x => rw [hn] at h3; injection h3 with h3; rw [h3]
    · intro s s' h
      obtain ⟨_, h2, _⟩ := basicStep_yield h
      rw [emit_nil hx] at h2; cases h2
  have hm : ∀ i w (s : Int × Int × Nat), (runGen (r.monthStep i w en) n s).1 =
      (runGen (r.noCount.monthStep i w en) n s).1.take (c.toNat - s.2.2) := by
    intro i w s
    refine runGen_take _ _ (fun s : Int × Int × Nat => s.2.2) c.toNat ?_ ?_ ?_ ?_ n s
    · intro s hs n
      cases n with
      | zero => rfl
      | succ n =>
        have : r.monthStep i w en s = .stop ∨ ∃ e, r.monthStep i w en s = .fail e := by
          unfold Rule.monthStep
          cases monthindex s.1 s.2.1 i w with
          | error e => exact Or.inr ⟨e, rfl⟩
          | ok cur => simp only []; rw [(stops_count hc en cur s.2.2).1 (by omega)]; exact Or.inl rfl
        rcases this with h | ⟨e, h⟩ <;> simp [runGen, h]
    · intro s hs
      unfold Rule.monthStep
      cases monthindex s.1 s.2.1 i w with
      | error e => rfl
      | ok cur => simp only []; rw [(stops_count hc en cur s.2.2).2 (by omega)]; rfl
    · intro s d s' h
      unfold Rule.monthStep at h
      cases h1 : monthindex s.1 s.2.1 i w with
      | error e => rw [h1] at h; cases h
      | ok cur =>
        rw [h1] at h
        simp only [] at h
        cases h2 : r.stops en cur s.2.2 with
        | error e => rw [h2] at h; cases h
        | ok b =>
          rw [h2] at h
          cases b with
          | true => cases h
          | false => injection h with _ h; injection h with h; rw [← h]
    · intro s s' h
      unfold Rule.monthStep at h
      cases h1 : monthindex s.1 s.2.1 i w with
      | error e => rw [h1] at h; cases h
      | ok cur =>
        rw [h1] at h
        simp only [] at h
        cases h2 : r.stops en cur s.2.2 with
        | error e => rw [h2] at h; cases h
        | ok b =>
          rw [h2] at h
          cases b with
          | true => cases h
          | false => rw [emit_nil hx] at h; injection h with h _; cases h
  have hw : ∀ wds st (s : Int × Nat), (runGen (r.weeklyStep wds st en) n s).1 =
      (runGen (r.noCount.weeklyStep wds st en) n s).1.take (c.toNat - s.2) := by
    intro wds st s
    refine runGen_take _ _ (fun s : Int × Nat => s.2) c.toNat ?_ ?_ ?_ ?_ n s
    · intro s hs n
      cases n with
      | zero => rfl
      | succ n =>
        have : r.weeklyStep wds st en s = .stop := by
          unfold Rule.weeklyStep; rw [(stops_count hc en s.1 s.2).1 (by omega)]
        simp [runGen, this]
    · intro s hs
      unfold Rule.weeklyStep
      rw [(stops_count hc en s.1 s.2).2 (by omega)]; rfl
    · intro s d s' h
      unfold Rule.weeklyStep at h
      cases h2 : r.stops en s.1 s.2 with
      | error e => rw [h2] at h; cases h
      | ok b =>
        rw [h2] at h
        cases b with
        | true => cases h
        | false =>
          simp only [] at h
          cases h3 : r.weeklyHit wds st s.1 with
          | error e => rw [h3] at h; cases h
          | ok b =>
            rw [h3] at h
            cases b with
            | false => injection h with h _; cases h
            | true =>
              injection h with _ h
              cases h4 : dateAdd s.1 1 with
              | error e => rw [h4] at h; cases h
              | ok x => rw [h4] at h; injection h with h; rw [← h]
    · intro s s' h
      unfold Rule.weeklyStep at h
      cases h2 : r.stops en s.1 s.2 with
      | error e => rw [h2] at h; cases h
      | ok b =>
        rw [h2] at h
        cases b with
        | true => cases h
        | false =>
          simp only [] at h
          cases h3 : r.weeklyHit wds st s.1 with
          | error e => rw [h3] at h; cases h
          | ok b =>
            rw [h3] at h
            cases b with
            | true => rw [emit_nil hx] at h; injection h with h _; cases h
            | false =>
              injection h with _ h
              cases h4 : dateAdd s.1 1 with
              | error e => rw [h4] at h; cases h
              | ok x => rw [h4] at h; injection h with h; rw [← h]
  unfold Rule.applyRun
  have hkk : r.noCount.kind = r.kind := rfl
  rw [hkk]
  cases hkind : r.kind with
  | no => exact absurd hkind hk
  | basic => exact hb _
  | daily => exact hb _
  | yearly => exact hb _
  | weekly wds => exact hw _ _ _
  | monthly m =>
    cases m with
    | monthday => exact hb _
    | weekday => exact hm _ _ _
    | lastweekday => exact hm _ _ _

/-- C64 fails for `NoRecurrenceRule`: count 0 still generates the start. -/
theorem C64_no_counterexample :
    let r : Rule := ⟨.no, 1, some 0, none, []⟩
    ValidRule r ∧ (r.apply (dayAt 2005 2 1) none).1 ≠
      (({ r with count := none } : Rule).apply (dayAt 2005 2 1) none).1.take 0 := by
  refine ⟨⟨by decide, by decide, fun l h => (by cases h)⟩, by decide⟩

/-- C64, a case. -/
example :
    let r : Rule := ⟨.weekly [1, 3], 2, some 3, none, []⟩
    r.kind ≠ .no ∧ r.exceptions = [] ∧
      (r.applyRun (dayAt 2005 1 4) (some (ymd2ord 2005 2 15)) 100).1 =
        [ymd2ord 2005 1 4, ymd2ord 2005 1 6, ymd2ord 2005 1 18] ∧
      (({ r with count := none } : Rule).applyRun (dayAt 2005 1 4) (some (ymd2ord 2005 2 15)) 100).1 =
        [ymd2ord 2005 1 4, ymd2ord 2005 1 6, ymd2ord 2005 1 18, ymd2ord 2005 1 20, ymd2ord 2005 2 1,
         ymd2ord 2005 2 3, ymd2ord 2005 2 15] := by
  refine ⟨by simp, rfl, by decide +kernel, by decide +kernel⟩

/-! ### C65: until -/

/-- The earlier of an optional enddate and a date. -/
def earlier (en : Option Int) (u : Int) : Int :=
  match en with
  | none => u
  | some e => min e u

/-- C65 for every class but `NoRecurrenceRule`: a rule with an until date generates, iteration by iteration,
what the same rule without it generates up to the earlier of enddate and until.  Missing:
`NoRecurrenceRule` (`C65_no_counterexample`). -/
theorem C65_until_partial (r : Rule) (hk : r.kind ≠ .no) (u : Int) (hu : r.untl = some (.date u))
    (dt : Int) (en : Option Int) :
    r.apply dt en = ({ r with untl := none } : Rule).apply dt (some (earlier en u)) ∧
    ∀ n, r.applyRun dt en n = ({ r with untl := none } : Rule).applyRun dt (some (earlier en u)) n := by
  have hs : ∀ d k, r.stops en d k = ({ r with untl := none } : Rule).stops (some (earlier en u)) d k := by
    intro d k
    unfold Rule.stops earlier
    rw [hu]
    simp only []
    cases en with
    | none =>
      cases r.count with
      | none => by_cases h : d > u <;> simp [h]
      | some c => by_cases h : d > u <;> by_cases h' : (k : Int) ≥ c <;> simp [h, h']
    | some e =>
      simp only []
      cases r.count with
      | none =>
        by_cases h : d > u <;> by_cases h2 : d > e
        · have : d > min e u := by omega
          simp [h2, this]
        · have : d > min e u := by omega
          simp [h, h2, this]
        · have : d > min e u := by omega
          simp [h2, this]
        · have : ¬ d > min e u := by omega
          simp [h, h2, this]
      | some c =>
        by_cases h : d > u <;> by_cases h2 : d > e <;> by_cases h' : (k : Int) ≥ c <;>
          first
            | (have : d > min e u := by omega
               simp [h, h2, h', this])
            | (have : ¬ d > min e u := by omega
               simp [h, h2, h', this])
  have hrun : ∀ n, r.applyRun dt en n =
      ({ r with untl := none } : Rule).applyRun dt (some (earlier en u)) n := by
    intro n
    have hb : r.basicStep en = ({ r with untl := none } : Rule).basicStep (some (earlier en u)) := by
      funext s; unfold Rule.basicStep; rw [hs]; rfl
    have hm : ∀ i w, r.monthStep i w en =
        ({ r with untl := none } : Rule).monthStep i w (some (earlier en u)) := by
      intro i w; funext s; unfold Rule.monthStep; simp only [hs]; rfl
    have hw : ∀ wds st, r.weeklyStep wds st en =
        ({ r with untl := none } : Rule).weeklyStep wds st (some (earlier en u)) := by
      intro wds st; funext s; unfold Rule.weeklyStep; rw [hs]; rfl
    have hkk : ({ r with untl := none } : Rule).kind = r.kind := rfl
    generalize hr' : ({ r with untl := none } : Rule) = r' at hb hm hw hkk
    have hi : r'.interval = r.interval := by rw [← hr']
    unfold Rule.applyRun
    rw [hkk]
    cases hkind : r.kind with
    | no => exact absurd hkind hk
    | basic => simp only [hb]
    | daily => simp only [hb]
    | yearly => simp only [hb]
    | weekly wds => simp only [hw]
    | monthly m =>
      cases m with
      | monthday => simp only [hb]
      | weekday => simp only [hm]
      | lastweekday => simp only [hm]
  refine ⟨?_, hrun⟩
  unfold Rule.apply
  rw [hrun]
  rfl

/-- C65 fails for `NoRecurrenceRule`. -/
theorem C65_no_counterexample :
    let r : Rule := ⟨.no, 1, none, some (.date (ymd2ord 2005 1 1)), []⟩
    ValidRule r ∧ (r.apply (dayAt 2005 2 1) none).1 = [ymd2ord 2005 2 1] := by
  refine ⟨⟨by decide, by decide, fun l h => (by cases h)⟩, by decide⟩

/-- C65, a case: both an enddate and an until. -/
example :
    let r : Rule := ⟨.yearly, 1, none, some (.date (ymd2ord 2007 1 1)), []⟩
    r.kind ≠ .no ∧ r.apply (dayAt 2005 6 1) (some (ymd2ord 2010 1 1)) =
        ([ymd2ord 2005 6 1, ymd2ord 2006 6 1], .ok ()) ∧
      earlier (some (ymd2ord 2010 1 1)) (ymd2ord 2007 1 1) = ymd2ord 2007 1 1 := by
  refine ⟨by simp, by decide +kernel, by decide⟩

end CalCore
