import Verif.Lemmas.Rules
/- What consuming the whole generator gives; generic facts about generator loops. -/
namespace CalCore
open Spec

theorem apply_fst (r : Rule) (dt : Int) (en : Option Int) :
    (r.apply dt en).1 = (r.applyRun dt en r.fuel).1 := rfl

theorem apply_snd (r : Rule) (dt : Int) (en : Option Int) :
    ((r.apply dt en).2 = .ok () ↔ (r.applyRun dt en r.fuel).2 = .finished) ∧
    (∀ e, (r.apply dt en).2 = .error e ↔ (r.applyRun dt en r.fuel).2 = .raised e ∨
      (e = .diverge ∧ (r.applyRun dt en r.fuel).2 = .running)) := by
  unfold Rule.apply
  simp only
  cases (r.applyRun dt en r.fuel).2 with
  | finished => simp
  | raised e => simp
  | running => simp [eq_comm]

theorem fuel_ge (r : Rule) : 3652100 ≤ r.fuel := by unfold Rule.fuel; omega

theorem Exact.generates {r : Rule} {dt : Int} {cand : Nat → Option Int} (E : Exact r dt cand)
    (en : Option Int) : Generates r en cand (r.apply dt en).1 := by
  obtain ⟨h1, h2, h3, h4, h5⟩ := E.run en r.fuel
  refine ⟨h1, fun d => ⟨fun hd => ?_, ?_⟩⟩
  · obtain ⟨k, _, h⟩ := h2 d hd
    exact ⟨k, h⟩
  · rintro ⟨k, hc, hw, hx⟩
    exact h3 (E.ends en _ (fuel_ge r)) k d (Nat.zero_le k) hc hw hx

theorem Exact.status {r : Rule} {dt : Int} {cand : Nat → Option Int} (E : Exact r dt cand)
    (en : Option Int) : (r.apply dt en).2 = .ok () ∨
      ∃ f, RangeFault f ∧ (r.apply dt en).2 = .error f ∧
        ∀ k d, cand k = some d → Within r en d (rank cand k) := by
  obtain ⟨h1, h2, h3, h4, h5⟩ := E.run en r.fuel
  have he := E.ends en _ (fuel_ge r)
  have hs := apply_snd r dt en
  cases hx : (r.applyRun dt en r.fuel).2 with
  | finished => exact Or.inl (hs.1.2 hx)
  | raised f =>
    exact Or.inr ⟨f, h4 f hx, (hs.2 f).2 (Or.inl hx), fun k d hc => h5 f hx k d (Nat.zero_le k) hc⟩
  | running => exact absurd hx he

/-- A candidate beyond the bounds makes the generation end normally. -/
theorem Exact.ok {r : Rule} {dt : Int} {cand : Nat → Option Int} (E : Exact r dt cand)
    {en : Option Int} {k : Nat} {d : Int} (hc : cand k = some d)
    (hw : ¬ Within r en d (rank cand k)) : (r.apply dt en).2 = .ok () := by
  rcases E.status en with h | ⟨f, _, _, h⟩
  · exact h
  · exact absurd (h k d hc) hw

theorem not_within_enddate {r : Rule} {e d : Int} {k : Nat} (h : e < d) : ¬ Within r (some e) d k := by
  intro hw; have := hw.1 e rfl; omega

/-- A generator loop whose every iteration decreases a measure ends. -/
theorem runGen_measure {σ : Type} (step : σ → Step σ) (μ : σ → Nat) (Inv : σ → Prop)
    (h : ∀ s out s', Inv s → step s = .yield out (.ok s') → Inv s' ∧ μ s' < μ s) :
    ∀ (n : Nat) (s : σ), Inv s → μ s < n → (runGen step n s).2 ≠ .running := by
  intro n
  induction n with
  | zero => intro s _ hn; omega
  | succ n ih =>
    intro s hs hn
    unfold runGen
    split
    · simp
    · simp
    · simp
    · rename_i out s' he
      have := h s out s' hs he
      exact ih s' this.1 (by omega)

/-- A property of the raised faults. -/
theorem runGen_fault {σ : Type} (step : σ → Step σ) (Q : Fault → Prop) (Inv : σ → Prop)
    (h1 : ∀ s f, Inv s → step s = .fail f → Q f)
    (h2 : ∀ s out f, Inv s → step s = .yield out (.error f) → Q f)
    (h3 : ∀ s out s', Inv s → step s = .yield out (.ok s') → Inv s') :
    ∀ (n : Nat) (s : σ), Inv s → ∀ f, (runGen step n s).2 = .raised f → Q f := by
  intro n
  induction n with
  | zero => intro s _ f hf; cases hf
  | succ n ih =>
    intro s hs f hf
    unfold runGen at hf
    split at hf
    · cases hf
    · rename_i e he; injection hf with hf; exact hf ▸ h1 s e hs he
    · rename_i out e he; injection hf with hf; exact hf ▸ h2 s out e hs he
    · rename_i out s' he
      exact ih s' (h3 s out s' hs he) f hf

/-- A loop that neither stops nor raises runs for ever. -/
theorem runGen_forever {σ : Type} (step : σ → Step σ) (Inv : σ → Prop)
    (h : ∀ s, Inv s → ∃ out s', step s = .yield out (.ok s') ∧ Inv s') :
    ∀ (n : Nat) (s : σ), Inv s → (runGen step n s).2 = .running := by
  intro n
  induction n with
  | zero => intro s _; rfl
  | succ n ih =>
    intro s hs
    obtain ⟨out, s', he, hi⟩ := h s hs
    unfold runGen
    rw [he]
    exact ih s' hi

/-- Every date yielded has been yielded by some iteration. -/
theorem runGen_yields {σ : Type} (step : σ → Step σ) (P : Int → Prop)
    (h : ∀ s d next, step s = .yield (some d) next → P d) :
    ∀ (n : Nat) (s : σ), ∀ d ∈ (runGen step n s).1, P d := by
  intro n
  induction n with
  | zero => intro s d hd; cases hd
  | succ n ih =>
    intro s d hd
    unfold runGen at hd
    split at hd
    · cases hd
    · cases hd
    · rename_i out e he
      cases out with
      | none => cases hd
      | some x =>
        have : d = x := by simpa using hd
        exact this ▸ h s x _ he
    · rename_i out s' he
      rcases List.mem_append.1 hd with hd | hd
      · cases out with
        | none => cases hd
        | some x =>
          have : d = x := by simpa using hd
          exact this ▸ h s x _ he
      · exact ih s' d hd

/-- A counter incremented at every yield and bounded by `c` bounds the number of dates. -/
theorem runGen_count {σ : Type} (step : σ → Step σ) (cnt : σ → Nat) (c : Int)
    (h1 : ∀ s d next, step s = .yield (some d) next → (cnt s : Int) < c)
    (h2 : ∀ s d s', step s = .yield (some d) (.ok s') → cnt s + 1 ≤ cnt s')
    (h3 : ∀ s s', step s = .yield none (.ok s') → cnt s ≤ cnt s') :
    ∀ (n : Nat) (s : σ), (runGen step n s).1 ≠ [] →
      (((runGen step n s).1.length + cnt s : Nat) : Int) ≤ c := by
  intro n
  induction n with
  | zero => intro s h; exact absurd rfl h
  | succ n ih =>
    intro s hne
    unfold runGen at hne ⊢
    cases hs : step s with
    | stop => simp [hs] at hne
    | fail e => simp [hs] at hne
    | yield out next =>
      cases next with
      | error e =>
        simp only [hs] at hne ⊢
        cases out with
        | none => simp at hne
        | some x =>
          have := h1 s x _ hs
          simp; omega
      | ok s' =>
        simp only [hs] at hne ⊢
        cases out with
        | none =>
          have := h3 s s' hs
          have := ih s' (by simpa using hne)
          simp; omega
        | some x =>
          have b := h1 s x _ hs
          have c' := h2 s x s' hs
          by_cases hl : (runGen step n s').1 = []
          · simp [hl]; omega
          · have := ih s' hl
            simp; omega

/-- An until that is a datetime makes every comparison raise TypeError: nothing is generated. -/
theorem stops_datetime {r : Rule} {t : Int} (h : r.untl = some (.datetime t)) (en : Option Int)
    (d : Int) (k : Nat) : r.stops en d k = .ok true ∨ r.stops en d k = raise .TypeError := by
  unfold Rule.stops
  rw [h]
  rcases en with _ | e <;> rcases r.count with _ | c <;> grind

theorem stops_false {r : Rule} {en : Option Int} {d : Int} {k : Nat} (h : r.stops en d k = .ok false) :
    Within r en d k ∧ UntilIsDate r := by
  have hu : UntilIsDate r := by
    intro t ht
    rcases stops_datetime ht en d k with h' | h' <;> rw [h'] at h <;> cases h
  rcases within_iff_stops r en d k hu with ⟨hw, _⟩ | ⟨_, h'⟩
  · exact ⟨hw, hu⟩
  · rw [h'] at h; cases h

/-! ### what one iteration can do, without any assumption on the rule -/

theorem basicStep_yield {r : Rule} {en : Option Int} {s : Int × Nat} {out next}
    (h : r.basicStep en s = .yield out next) : r.stops en s.1 s.2 = .ok false ∧ out = r.emit s.1 ∧
      next = (r.nextRecurrence s.1).map (fun c => (c, s.2 + 1)) := by
  unfold Rule.basicStep at h
  split at h
  · cases h
  · cases h
  · rename_i hs; injection h with h1 h2; exact ⟨hs, h1.symm, h2.symm⟩

theorem basicStep_fail {r : Rule} {en : Option Int} {s : Int × Nat} {f}
    (h : r.basicStep en s = .fail f) : r.stops en s.1 s.2 = .error f := by
  unfold Rule.basicStep at h
  split at h
  · injection h with h; rename_i hs; rw [hs, h]
  · cases h
  · cases h

theorem weeklyStep_yield {r : Rule} {wds start en} {s : Int × Nat} {out next}
    (h : r.weeklyStep wds start en s = .yield out next) : r.stops en s.1 s.2 = .ok false ∧
      ((r.weeklyHit wds start s.1 = .ok true ∧ out = r.emit s.1 ∧
        next = (dateAdd s.1 1).map (fun c => (c, s.2 + 1))) ∨
       (r.weeklyHit wds start s.1 = .ok false ∧ out = none ∧
        next = (dateAdd s.1 1).map (fun c => (c, s.2)))) := by
  unfold Rule.weeklyStep at h
  split at h
  · cases h
  · cases h
  · rename_i hs
    refine ⟨hs, ?_⟩
    split at h
    · cases h
    · rename_i hh; injection h with h1 h2; exact Or.inl ⟨hh, h1.symm, h2.symm⟩
    · rename_i hh; injection h with h1 h2; exact Or.inr ⟨hh, h1.symm, h2.symm⟩

theorem weeklyStep_fail {r : Rule} {wds start en} {s : Int × Nat} {f}
    (h : r.weeklyStep wds start en s = .fail f) : r.stops en s.1 s.2 = .error f ∨
      (r.stops en s.1 s.2 = .ok false ∧ r.weeklyHit wds start s.1 = .error f) := by
  unfold Rule.weeklyStep at h
  split at h
  · injection h with h; rename_i hs; rw [hs, h]; exact Or.inl rfl
  · cases h
  · rename_i hs
    refine Or.inr ⟨hs, ?_⟩
    split at h
    · injection h with h; rename_i hh; rw [hh, h]
    · cases h
    · cases h

theorem monthStep_yield {r : Rule} {index wd en} {s : Int × Int × Nat} {out next}
    (h : r.monthStep index wd en s = .yield out next) :
    ∃ cur, monthindex s.1 s.2.1 index wd = .ok cur ∧ r.stops en cur s.2.2 = .ok false ∧
      out = r.emit cur ∧ next = .ok ((s.1 * 12 + s.2.1 + r.interval - 1) / 12,
        (s.1 * 12 + s.2.1 + r.interval - 1) % 12 + 1, s.2.2 + 1) := by
  unfold Rule.monthStep at h
  split at h
  · cases h
  · rename_i cur hc
    refine ⟨cur, hc, ?_⟩
    split at h
    · cases h
    · cases h
    · rename_i hs; injection h with h1 h2; exact ⟨hs, h1.symm, h2.symm⟩

theorem emit_some {r : Rule} {c d : Int} (h : some d = r.emit c) : d = c ∧ d ∉ r.exceptions := by
  unfold Rule.emit at h
  split at h
  · cases h
  · injection h with h; subst h; exact ⟨rfl, by assumption⟩

/-- Every yielded date respects the bounds. -/
theorem applyRun_bounds (r : Rule) (hk : r.kind ≠ .no) (dt : Int) (en : Option Int) (n : Nat) :
    ∀ d ∈ (r.applyRun dt en n).1, (∀ e, en = some e → d ≤ e) ∧
      (∃ k, Within r en d k ∧ UntilIsDate r) ∧ d ∉ r.exceptions := by
  have B : ∀ s : Int × Nat, ∀ d next, r.basicStep en s = .yield (some d) next →
      (∀ e, en = some e → d ≤ e) ∧ (∃ k, Within r en d k ∧ UntilIsDate r) ∧ d ∉ r.exceptions := by
    intro s d next h
    obtain ⟨hs, ho, _⟩ := basicStep_yield h
    obtain ⟨rfl, hx⟩ := emit_some ho
    have := stops_false hs
    exact ⟨this.1.1, ⟨_, this⟩, hx⟩
  have M : ∀ index wd, ∀ s : Int × Int × Nat, ∀ d next, r.monthStep index wd en s = .yield (some d) next →
      (∀ e, en = some e → d ≤ e) ∧ (∃ k, Within r en d k ∧ UntilIsDate r) ∧ d ∉ r.exceptions := by
    intro index wd s d next h
    obtain ⟨cur, _, hs, ho, _⟩ := monthStep_yield h
    obtain ⟨rfl, hx⟩ := emit_some ho
    have := stops_false hs
    exact ⟨this.1.1, ⟨_, this⟩, hx⟩
  unfold Rule.applyRun
  split
  · rename_i hk'; exact absurd hk' hk
  · apply runGen_yields
    intro s d next h
    obtain ⟨hs, ho⟩ := weeklyStep_yield h
    rcases ho with ⟨_, ho, _⟩ | ⟨_, ho, _⟩
    · obtain ⟨rfl, hx⟩ := emit_some ho
      have := stops_false hs
      exact ⟨this.1.1, ⟨_, this⟩, hx⟩
    · cases ho
  · exact runGen_yields _ _ (M _ _) _ _
  · exact runGen_yields _ _ (M _ _) _ _
  · exact runGen_yields _ _ B _ _

theorem applyRun_count (r : Rule) (hk : r.kind ≠ .no) (dt : Int) (en : Option Int) (n : Nat) (c : Int)
    (hc : r.count = some c) : ((r.applyRun dt en n).1.length : Int) ≤ max c 0 := by
  have key : (r.applyRun dt en n).1 ≠ [] → ((r.applyRun dt en n).1.length : Int) ≤ c := by
    have mp : ∀ {x : Res Int} {s' : Int × Nat} {k}, (.ok s' : Res (Int × Nat)) = x.map (fun c => (c, k)) → s'.2 = k := by
      intro x s' k h
      cases x with
      | error e => cases h
      | ok a => injection h with h; rw [h]
    unfold Rule.applyRun
    split
    · rename_i hk'; exact absurd hk' hk
    · rename_i wds _
      have := runGen_count (step := r.weeklyStep (wds ++ [weekday (dtDate dt)]) (dtDate dt) en)
        (fun s => s.2) c (by
          intro s d next h
          have := stops_false (weeklyStep_yield h).1
          exact this.1.2.1 c hc) (by
          intro s d s' h
          rcases (weeklyStep_yield h).2 with ⟨_, _, hn⟩ | ⟨_, hn, _⟩
          · have := mp hn; omega
          · cases hn) (by
          intro s s' h
          rcases (weeklyStep_yield h).2 with ⟨_, _, hn⟩ | ⟨_, _, hn⟩
          · have := mp hn; omega
          · have := mp hn; omega) n (dtDate dt, 0)
      exact this
    all_goals first
    | exact runGen_count (step := r.monthStep _ (weekday (dtDate dt)) en)
        (fun s => s.2.2) c (by
          intro s d next h
          obtain ⟨cur, _, hs, _⟩ := monthStep_yield h
          exact (stops_false hs).1.2.1 c hc) (by
          intro s d s' h
          obtain ⟨cur, _, hs, _, hn⟩ := monthStep_yield h
          injection hn with hn; rw [hn]; simp) (by
          intro s s' h
          obtain ⟨cur, _, hs, _, hn⟩ := monthStep_yield h
          injection hn with hn; rw [hn]; simp) n (dyear (dtDate dt), dmonth (dtDate dt), 0)
    | exact runGen_count (step := r.basicStep en)
        (fun s => s.2) c (by
          intro s d next h
          exact (stops_false (basicStep_yield h).1).1.2.1 c hc) (by
          intro s d s' h
          have := mp (basicStep_yield h).2.2; omega) (by
          intro s s' h
          have := mp (basicStep_yield h).2.2; omega) n (dtDate dt, 0)
  by_cases hl : (r.applyRun dt en n).1 = []
  · rw [hl]; simp; omega
  · have := key hl; omega

end CalCore
