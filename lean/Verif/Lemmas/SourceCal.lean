import Verif.Lemmas.SourceProg
import Verif.Spec.RepresentCal
import Verif.Lemmas.Segments
/- The functions of cal.py that look at events, as written. -/
namespace CalCore.Lang
set_option linter.unusedSectionVars false
variable [Source.Globals]

theorem ofOption_none {α : Type} (f : α → Val) : ofOption f none = .none := rfl
theorem ofOption_some {α : Type} (f : α → Val) (a : α) : ofOption f (some a) = f a := rfl

theorem inPeriod_call (G : Ctx) (W : Nat) (c : String) (attrs : List (String × Val)) (t : Int) (dur b e : Option Int)
    (h1 : getAttr "dtstart" attrs = .ok (.datetime t)) (h2 : getAttr "duration" attrs = .ok (ofOption .delta dur)) :
    Source.inPeriod.call G W [.obj c attrs, ofPeriod b e] [] = toM .bool (inPeriod t dur b e) := by
  cases b with
  | none =>
    cases e with
    | none => lang [Source.inPeriod, ofPeriod, ofOption, h1, h2, inPeriod, toM_ok]
    | some e =>
      lang [Source.inPeriod, ofPeriod, ofOption, h1, h2, inPeriod, toM_ok]
      by_cases h : e ≤ t
      · lang [h, ge_iff_le]
      · lang [h, ge_iff_le]
  | some b =>
    cases dur with
    | none => cases e <;> lang [Source.inPeriod, ofPeriod, ofOption, h1, h2, inPeriod, raise, toM_py]
    | some dur =>
      cases hd : dtAdd t dur with
      | error f =>
        cases e <;> lang [Source.inPeriod, ofPeriod, ofOption, h1, h2, inPeriod, hd, lift_error, error_bind, toM_error]
      | ok y =>
        by_cases hy : y ≤ b
        · cases e <;> lang [Source.inPeriod, ofPeriod, ofOption, h1, h2, inPeriod, hd, ok_bind, hy, toM_ok]
        · cases e with
          | none => lang [Source.inPeriod, ofPeriod, ofOption, h1, h2, inPeriod, hd, ok_bind, hy, toM_ok]
          | some e =>
            lang [Source.inPeriod, ofPeriod, ofOption, h1, h2, inPeriod, hd, ok_bind, hy, toM_ok]
            by_cases h : e ≤ t
            · lang [h, ge_iff_le]
            · lang [h, ge_iff_le]

theorem sameDay_call (G : Ctx) (W : Nat) (a b : Int) :
    Source.sameDay.call G W [.datetime a, .datetime b] [] = .ok (.bool (decide (dtDate a = dtDate b))) := by
  lang [Source.sameDay]

theorem roundtimedelta_call (G : Ctx) (W : Nat) (t : Int) :
    Source.roundtimedelta.call G W [.delta t] []
    = if t % DAY > 0 then mkDelta (roundtimedelta t) else .ok (.delta t) := by
  unfold roundtimedelta
  by_cases h : t % DAY > 0
  · by_cases hs : 0 < t % DAY / 1000000
    · lang [Source.roundtimedelta, hs, h]
      cases mkDelta ((t / DAY + 1) * DAY) <;> rfl
    · have hm : 0 < t % 1000000 := by simp only [DAY] at *; omega
      lang [Source.roundtimedelta, hs, h, hm]
      cases mkDelta ((t / DAY + 1) * DAY) <;> rfl
  · have hs : ¬ 0 < t % DAY / 1000000 := by simp only [DAY] at *; omega
    have hm : ¬ 0 < t % 1000000 := by simp only [DAY] at *; omega
    lang [Source.roundtimedelta, hs, h, hm]

/-! ### loops that follow a computation of the model -/

/-- A loop or statement follows a computation of the model. -/
def Follows {γ : Type} (R : γ → State → Prop) (r : Res γ) (x : State × Ctl) : Prop :=
  (∀ c, r = .ok c → ∃ s, x = (s, .next) ∧ R c s) ∧ (∀ f, r = .error f → ∃ s, x = (s, .stop (ofFault f)))

/-- The body of a loop may also end with `continue`. -/
def FollowsC {γ : Type} (R : γ → State → Prop) (r : Res γ) (x : State × Ctl) : Prop :=
  (∀ c, r = .ok c → ∃ s, (x = (s, .next) ∨ x = (s, .cont)) ∧ R c s) ∧ (∀ f, r = .error f → ∃ s, x = (s, .stop (ofFault f)))

theorem FollowsC.ok {γ : Type} {R : γ → State → Prop} {r : Res γ} {c : γ} {s : State} {x : State × Ctl} (h : r = .ok c)
    (hx : x = (s, .next)) (hR : R c s) : FollowsC R r x :=
  ⟨fun c' h' => by rw [h] at h'; cases h'; exact ⟨s, .inl hx, hR⟩, fun f h' => by rw [h] at h'; cases h'⟩

theorem FollowsC.cont {γ : Type} {R : γ → State → Prop} {r : Res γ} {c : γ} {s : State} {x : State × Ctl} (h : r = .ok c)
    (hx : x = (s, .cont)) (hR : R c s) : FollowsC R r x :=
  ⟨fun c' h' => by rw [h] at h'; cases h'; exact ⟨s, .inr hx, hR⟩, fun f h' => by rw [h] at h'; cases h'⟩

theorem FollowsC.error {γ : Type} {R : γ → State → Prop} {r : Res γ} {f : Fault} {s : State} {x : State × Ctl} (h : r = .error f)
    (hx : x = (s, .stop (ofFault f))) : FollowsC R r x :=
  ⟨fun c' h' => (by rw [h] at h'; cases h'), fun f' h' => by rw [h] at h'; cases h'; exact ⟨s, hx⟩⟩

theorem forLoop_fold {α γ : Type} {g : α → Val} {body : Val → State → State × Ctl} {R : γ → State → Prop} {f : γ → α → Res γ}
    (l : List α) (h : ∀ c, ∀ a ∈ l, ∀ s, R c s → FollowsC R (f c a) (body (g a) s)) :
    ∀ c s, R c s → Follows R (l.foldlM f c) (forLoop body (l.map g) s) := by
  induction l with
  | nil =>
    intro c s hR
    refine ⟨fun c' h' => ?_, fun f' h' => by cases h'⟩
    cases h'
    exact ⟨s, rfl, hR⟩
  | cons a l ih =>
    intro c s hR
    have ha := h c a (List.mem_cons_self ..) s hR
    have ih' := ih (fun c a ha => h c a (List.mem_cons_of_mem _ ha))
    rw [List.map_cons, List.foldlM_cons]
    unfold forLoop
    cases hf : f c a with
    | error e =>
      obtain ⟨s', hs'⟩ := ha.2 e hf
      rw [hs', error_bind]
      exact ⟨fun c' h' => (by cases h'), fun f' h' => by cases h'; exact ⟨s', rfl⟩⟩
    | ok c' =>
      obtain ⟨s', hs', hR'⟩ := ha.1 c' hf
      rw [ok_bind]
      rcases hs' with hs' | hs'
      · rw [hs']; exact ih' c' s' hR'
      · rw [hs']; exact ih' c' s' hR'

theorem fold_concat {α β : Type} {step : α → Res (List β)} {F : List α → Res (List β)} (h0 : F [] = .ok [])
    (h1 : ∀ a l, F (a :: l) = (do
      let here ← step a
      let more ← F l
      .ok (here ++ more))) (l : List α) : ∀ acc : List β,
    l.foldlM (fun acc a => do
      let here ← step a
      .ok (acc ++ here)) acc = (do
      let m ← F l
      .ok (acc ++ m)) := by
  induction l with
  | nil =>
    intro acc
    rw [h0, List.foldlM_nil, ok_bind, List.append_nil]
    rfl
  | cons a l ih =>
    intro acc
    rw [h1, List.foldlM_cons]
    cases hs : step a with
    | error f => rfl
    | ok here =>
      simp only [ok_bind]
      rw [ih]
      cases F l with
      | error f => rfl
      | ok m => simp only [ok_bind, List.append_assoc]

/-! ### objects -/

theorem ctx_method (P : Prog) (W n : Nat) : (P.ctx W n).method = P.method 4 := rfl

theorem inPeriod_prog (W n : Nat) (c : String) (attrs : List (String × Val)) (t : Int) (dur b e : Option Int)
    (h1 : getAttr "dtstart" attrs = .ok (.datetime t)) (h2 : getAttr "duration" attrs = .ok (ofOption .delta dur)) :
    Source.prog.call W (n + 1) "inPeriod" [.obj c attrs, ofPeriod b e] [] = toM .bool (inPeriod t dur b e) := by
  rw [call_eq (d := Source.inPeriod) rfl]; exact inPeriod_call _ _ _ _ _ _ _ _ h1 h2

theorem timed_new (W n : Nat) (a b : Val) :
    (Source.prog.ctx W (n + 1)).new "Timed" [a, b] [] = .ok (.obj "Timed" [("dtstart", a), ("duration", b)]) := by
  show Source.prog.new W (n + 1) "Timed" [a, b] [] = _
  rw [new_eq (f := "Timed.__init__") rfl, call_eq (d := Source.Timed_init) rfl]
  lang [Source.Timed_init]

theorem occurrence_new (W n : Nat) (a b o : Val) :
    (Source.prog.ctx W (n + 1)).new "Occurrence" [a, b, o] []
    = .ok (.obj "Occurrence" [("dtstart", a), ("duration", b), ("original", o)]) := by
  show Source.prog.new W (n + 1) "Occurrence" [a, b, o] [] = _
  rw [new_eq (f := "Occurrence.__init__") rfl, call_eq (d := Source.Occurrence_init) rfl]
  lang [Source.Occurrence_init]

theorem event_dtstart (L : Listing) (e : Event) : getAttr "dtstart" (eventAttrs L e) = .ok (.datetime e.dtstart) := rfl
theorem event_duration (L : Listing) (e : Event) : getAttr "duration" (eventAttrs L e) = .ok (ofOption .delta e.duration) := rfl
theorem event_recurrence (L : Listing) (e : Event) : getAttr "recurrence" (eventAttrs L e) = .ok (ofOption ofRule e.recurrence) := rfl
theorem event_transparent (L : Listing) (e : Event) : getAttr "transparent" (eventAttrs L e) = .ok (.bool e.transparent) := rfl
theorem event_status (L : Listing) (e : Event) : getAttr "status" (eventAttrs L e) = .ok (.str e.status) := rfl
theorem event_categories (L : Listing) (e : Event) : getAttr "categories" (eventAttrs L e) = .ok (.set ((L.cats e.categories).map .str)) := rfl
theorem event_pstate (L : Listing) (e : Event) : getAttr "_participation_state" (eventAttrs L e) = .ok (ofDict e.pstate) := rfl
theorem event_prole (L : Listing) (e : Event) : getAttr "_participation_role" (eventAttrs L e) = .ok (ofDict e.prole) := rfl
theorem event_organizer (L : Listing) (e : Event) : getAttr "_organizer_id" (eventAttrs L e) = .ok (ofOption .str e.organizerId) := rfl

/-! ### `expand` -/

/-- The environment of `expand`. -/
def expandEnv (self period : Val) (res : List Val) (enddate d dt : Option Val) : Env :=
  [("self", some self), ("period", some period), ("result", some (.list res)), ("enddate", enddate), ("d", d), ("dtstart", dt)]

theorem expand_step (W n : Nat) (L : Listing) (e : Event) (b en : Int) (enddate : Option Val)
    (acc : List (Occurrence Event)) (d : Int) (s : State)
    (hs : ∃ x y, s = ⟨expandEnv (ofEvent L e) (ofPeriod (some b) (some en)) (acc.map (ofOcc (ofEvent L))) enddate x y, []⟩) :
    FollowsC (fun acc s => ∃ x y, s = ⟨expandEnv (ofEvent L e) (ofPeriod (some b) (some en)) (acc.map (ofOcc (ofEvent L))) enddate x y, []⟩)
      (do
        let here ← e.occAt (combine d (dtTime e.dtstart)) b en
        .ok (acc ++ here))
      (forBody (Source.prog.ctx W (n + 1)) W (.name "d") Source.EventBase_expand_loop1 (.date d) s) := by
  obtain ⟨x, y, rfl⟩ := hs
  unfold Event.occAt
  have hp : Source.prog.call W (n + 1) "inPeriod" [.obj "Timed" [("dtstart", .datetime (combine d (dtTime e.dtstart))),
      ("duration", ofOption .delta e.duration)], ofPeriod (some b) (some en)] []
      = toM .bool (inPeriod (combine d (dtTime e.dtstart)) e.duration (some b) (some en)) :=
    inPeriod_prog _ _ _ _ _ _ _ _ rfl rfl
  cases hi : inPeriod (combine d (dtTime e.dtstart)) e.duration (some b) (some en) with
  | error f =>
    rw [hi] at hp
    refine FollowsC.error rfl (by
      lang [forBody, Source.EventBase_expand_loop1, expandEnv, ofEvent, event_dtstart, event_duration, timed_new, ctx_call, hp, toM_error]
      rfl)
  | ok v =>
    rw [hi] at hp
    cases v with
    | false =>
      refine FollowsC.cont (c := acc) (by simp [ok_bind]) (by
        lang [forBody, Source.EventBase_expand_loop1, expandEnv, ofEvent, event_dtstart, event_duration, timed_new, ctx_call, hp, toM_ok]
        rfl) ⟨_, _, rfl⟩
    | true =>
      cases hd : e.duration with
      | none => rw [hd] at hi; simp [inPeriod] at hi
      | some dur =>
        rw [hd] at hp
        simp only [ofOption_some] at hp
        refine FollowsC.ok (c := acc ++ [⟨combine d (dtTime e.dtstart), dur, e⟩]) (by simp [ok_bind]) (by
          lang [forBody, Source.EventBase_expand_loop1, expandEnv, ofEvent, event_dtstart, event_duration, timed_new, ctx_call, hp,
            toM_ok, hd, occurrence_new, List.map_append, ofOcc, ofOption_none, ofOption_some]
          rfl) ⟨_, _, rfl⟩

theorem expand_fold (e : Event) (b en : Int) (l : List Int) (acc : List (Occurrence Event)) :
    l.foldlM (fun acc d => do
      let here ← e.occAt (combine d (dtTime e.dtstart)) b en
      .ok (acc ++ here)) acc = (do
      let m ← e.expandLoop b en l
      .ok (acc ++ m)) :=
  fold_concat (step := fun d => e.occAt (combine d (dtTime e.dtstart)) b en) rfl (fun _ _ => rfl) l acc

theorem ofPeriod_end (b e : Option Int) : getIndex (ofPeriod b e) (.int 1) = .ok (ofOption .datetime e) := rfl
theorem ofPeriod_begin (b e : Option Int) : getIndex (ofPeriod b e) (.int 0) = .ok (ofOption .datetime b) := rfl

/-- A list of occurrences. -/
def ofOccs (L : Listing) (l : List (Occurrence Event)) : Val := .list (l.map (ofOcc (ofEvent L)))

theorem expand_plain (W n : Nat) (L : Listing) (e : Event) (b en : Int) (hr : e.recurrence = none) :
    Source.prog.call W (n + 2) "EventBase.expand" [ofEvent L e, ofPeriod (some b) (some en)] []
    = toM (ofOccs L) (e.expand b en) := by
  have hp : Source.prog.call W (n + 1) "inPeriod" [.obj "Event" (eventAttrs L e), ofPeriod (some b) (some en)] []
      = toM .bool (inPeriod e.dtstart e.duration (some b) (some en)) :=
    inPeriod_prog _ _ _ _ _ _ _ _ rfl rfl
  rw [call_eq (d := Source.EventBase_expand) rfl]
  unfold Event.expand Event.occAt
  simp only [hr]
  cases hi : inPeriod e.dtstart e.duration (some b) (some en) with
  | error f =>
    rw [hi] at hp
    lang [Source.EventBase_expand, ofEvent, event_recurrence, hr, ofOption_none, ofOption_some, ctx_call, hp, toM_error, error_bind]
  | ok v =>
    rw [hi] at hp
    cases v with
    | false =>
      lang [Source.EventBase_expand, ofEvent, event_recurrence, hr, ofOption_none, ofOption_some, ctx_call, hp, toM_ok, ok_bind, ofOccs]
    | true =>
      cases hd : e.duration with
      | none => rw [hd] at hi; simp [inPeriod] at hi
      | some dur =>
        lang [Source.EventBase_expand, ofEvent, event_recurrence, hr, ofOption_none, ofOption_some, ctx_call, hp, toM_ok, ok_bind, ofOccs,
          event_dtstart, event_duration, occurrence_new, hd, ofOcc]

theorem expand_rule (W n : Nat) (L : Listing) (e : Event) (b en : Int) (r : Rule) (hr : e.recurrence = some r)
    (ht : dtInRange e.dtstart = true) (hh : (r.apply e.dtstart (some (dtDate en))).2 ≠ .error .diverge)
    (hW : max r.fuel nextMonthFuel ≤ W) :
    Source.prog.call W (n + 4) "EventBase.expand" [ofEvent L e, ofPeriod (some b) (some en)] []
    = toM (ofOccs L) (e.expand b en) := by
  have ha := apply_call W n r "Event" (eventAttrs L e) e.dtstart (some (dtDate en)) ht rfl hh hW
  rw [ofRule] at ha
  simp only [ofOption_some] at ha
  rw [call_eq (d := Source.EventBase_expand) rfl]
  have hl := forLoop_fold (g := .date) (f := fun acc d => do
      let here ← e.occAt (combine d (dtTime e.dtstart)) b en
      .ok (acc ++ here)) (r.apply e.dtstart (some (dtDate en))).1
    (fun acc d _ s hs => expand_step W (n + 2) L e b en (some (.date (dtDate en))) acc d s hs) []
    ⟨expandEnv (ofEvent L e) (ofPeriod (some b) (some en)) [] (some (.date (dtDate en))) none none, []⟩ ⟨_, _, rfl⟩
  rw [expand_fold] at hl
  unfold Event.expand
  simp only [hr]
  rw [expandEnv, ofEvent, show n + 2 + 1 = n + 3 from rfl] at hl
  cases hx : e.expandLoop b en (r.apply e.dtstart (some (dtDate en))).1 with
  | error f =>
    obtain ⟨s, hs⟩ := hl.2 f (by rw [hx]; rfl)
    lang [Source.EventBase_expand, ofEvent, event_recurrence, hr, ofOption_none, ofOption_some, ofRule, ofPeriod_end, ctx_method, method_apply, ctx_call, ha,
      ofApply, hs, error_bind, toM_error]
  | ok l =>
    obtain ⟨s, hs, x, y, rfl⟩ := hl.1 l (by rw [hx]; rfl)
    cases hf : (r.apply e.dtstart (some (dtDate en))).2 with
    | error f =>
      lang [Source.EventBase_expand, ofEvent, event_recurrence, hr, ofOption_none, ofOption_some, ofRule, ofPeriod_end, ctx_method, method_apply, ctx_call, ha,
        ofApply, hs, error_bind, ok_bind, toM_error, hf]
    | ok u =>
      lang [Source.EventBase_expand, ofEvent, event_recurrence, hr, ofOption_none, ofOption_some, ofRule, ofPeriod_end, ctx_method, method_apply, ctx_call, ha,
        ofApply, hs, error_bind, ok_bind, toM_ok, hf, expandEnv, ofOccs]

/-- Loops may run long enough to expand the event. -/
def EventFuel (W : Nat) (e : Event) : Prop := ∀ r, e.recurrence = some r → max r.fuel nextMonthFuel ≤ W

/-- The event can be expanded until a date: its start is a datetime of Python, and its rule does not hang. -/
def Expandable (e : Event) (en : Int) : Prop :=
  dtInRange e.dtstart = true ∧ ∀ r, e.recurrence = some r → (r.apply e.dtstart (some (dtDate en))).2 ≠ .error .diverge

theorem expand_prog (W n : Nat) (L : Listing) (e : Event) (b en : Int) (he : Expandable e en) (hW : EventFuel W e) :
    Source.prog.call W (n + 4) "EventBase.expand" [ofEvent L e, ofPeriod (some b) (some en)] []
    = toM (ofOccs L) (e.expand b en) := by
  cases hr : e.recurrence with
  | none => exact expand_plain W (n + 2) L e b en hr
  | some r => exact expand_rule W n L e b en r hr he.1 (he.2 r hr) (hW r hr)

/-! ### `segmentOccurrences` -/

theorem mut_pop (l : List Val) (x : Val) : callMut .pop (.list (l ++ [x])) [] = .ok (.list l, x) := by
  simp [callMut]

theorem midnight : (if (0 : Int) ≤ 0 ∧ (0 : Int) < 24 ∧ (0 : Int) ≤ 0 ∧ (0 : Int) < 60
    then (.ok (.time (0 * 3600000000 + 0 * 60000000)) : M Val) else .error (.py .ValueError)) = .ok (.time 0) := rfl

theorem mkDelta_day : mkDelta (1 * DAY) = .ok (.delta DAY) := rfl

/-- The environment of `segmentOccurrences`. -/
def segEnv (b en : Int) (occs : Val) (res : List Val) (occ x y borders e s : Option Val) : Env :=
  [("period", some (ofPeriod (some b) (some en))), ("occurrences", some occs), ("start", some (.datetime b)),
   ("end", some (.datetime en)), ("result", some (.list res)), ("occ", occ), ("x", x), ("y", y), ("borders", borders),
   ("e", e), ("s", s)]

theorem border_step (G : Ctx) (W : Nat) (b en y x : Int) (occs : Val) (res : List Val) (occ e s : Option Val) (l : List Val) :
    execs G W Source.segmentOccurrences_loop2 ⟨segEnv b en occs res occ (some (.datetime x)) (some (.datetime y)) (some (.list l)) e s, []⟩
    = match dtAdd (combine (dtDate x) 0) DAY with
      | .error f => (⟨segEnv b en occs res occ (some (.datetime x)) (some (.datetime y)) (some (.list l)) e s, []⟩, .stop (ofFault f))
      | .ok x' => if x' > en ∨ x' > y then (⟨segEnv b en occs res occ (some (.datetime x')) (some (.datetime y)) (some (.list l)) e s, []⟩, .brk)
        else (⟨segEnv b en occs res occ (some (.datetime x')) (some (.datetime y)) (some (.list (l ++ [.datetime x']))) e s, []⟩, .next) := by
  cases hd : dtAdd (combine (dtDate x) 0) DAY with
  | error f =>
    lang [Source.segmentOccurrences_loop2, segEnv, midnight, mkDelta_day, hd, lift_error]
  | ok x' =>
    by_cases h1 : en < x'
    · lang [Source.segmentOccurrences_loop2, segEnv, midnight, mkDelta_day, hd, h1, true_or, gt_iff_lt]
    · by_cases h2 : y < x'
      · lang [Source.segmentOccurrences_loop2, segEnv, midnight, mkDelta_day, hd, h1, h2, or_true, gt_iff_lt]
      · lang [Source.segmentOccurrences_loop2, segEnv, midnight, mkDelta_day, hd, h1, h2, or_self, gt_iff_lt]

theorem border_loop (G : Ctx) (V : Nat) (b en y : Int) (occs : Val) (res : List Val) (occ e s : Option Val) (n : Nat) :
    ∀ (W : Nat) (x : Int) (l : List Val), n ≤ W →
      (∀ inner, borderLoop en y n x = .ok inner → ∃ x', whileLoop (whileCond G (.const (.int 1)))
          (execs G V Source.segmentOccurrences_loop2) W
          ⟨segEnv b en occs res occ (some (.datetime x)) (some (.datetime y)) (some (.list l)) e s, []⟩
        = (⟨segEnv b en occs res occ (some (.datetime x')) (some (.datetime y)) (some (.list (l ++ inner.map .datetime))) e s, []⟩, .next))
      ∧ (∀ f, f ≠ .diverge → borderLoop en y n x = .error f → ∃ s', whileLoop (whileCond G (.const (.int 1)))
          (execs G V Source.segmentOccurrences_loop2) W
          ⟨segEnv b en occs res occ (some (.datetime x)) (some (.datetime y)) (some (.list l)) e s, []⟩ = (s', .stop (ofFault f))) := by
  induction n with
  | zero =>
    intro W x l _
    exact ⟨fun _ h => (by cases h), fun f hf h => by cases h; exact absurd rfl hf⟩
  | succ n ih =>
    intro W x l hW
    obtain ⟨W, rfl⟩ := Nat.exists_eq_add_of_le hW
    rw [show n + 1 + W = (n + W) + 1 by omega]
    unfold borderLoop whileLoop
    simp only [whileCond, eval, truthy_int]
    rw [border_step]
    cases hd : dtAdd (combine (dtDate x) 0) DAY with
    | error f =>
      refine ⟨fun _ h => (by cases h), fun f' hf h => ?_⟩
      cases h
      exact ⟨_, rfl⟩
    | ok x' =>
      simp only [ok_bind]
      by_cases hx : x' > en ∨ x' > y
      · simp only [hx, ↓reduceIte]
        refine ⟨fun inner h => ?_, fun f _ h => by cases h⟩
        cases h
        refine ⟨x', ?_⟩
        simp
      · simp only [hx, ↓reduceIte]
        obtain ⟨h1, h2⟩ := ih (n + W) x' (l ++ [.datetime x']) (by omega)
        constructor
        · intro inner h
          rw [bind_ok] at h
          obtain ⟨more, hm, h⟩ := h
          cases h
          obtain ⟨x'', hx''⟩ := h1 more hm
          refine ⟨x'', ?_⟩
          have : ((1 : Int) ≠ 0) := by decide
          simp only [this, decide_true, ↓reduceIte, ne_eq, not_false_eq_true]
          rw [show l ++ (x' :: more).map Val.datetime = l ++ [.datetime x'] ++ more.map .datetime by simp]
          exact hx''
        · intro f hf h
          rw [bind_error] at h
          rcases h with h | ⟨_, _, h⟩
          · obtain ⟨s', hs'⟩ := h2 f hf h
            refine ⟨s', ?_⟩
            have : ((1 : Int) ≠ 0) := by decide
            simp only [this, decide_true, ↓reduceIte, ne_eq, not_false_eq_true]
            exact hs'
          · cases h

/-- An occurrence in the loop that pops borders. -/
def occVal (t : Int) (d : Val) (o : Val) : Val := .obj "Occurrence" [("dtstart", .datetime t), ("duration", d), ("original", o)]

theorem pop_step (W n : Nat) (b en e : Int) (occs o : Val) (res : List Val) (t s : Int) (d : Val) (x y z : Option Val) (l : List Val) :
    execs (Source.prog.ctx W (n + 1)) W Source.segmentOccurrences_loop3
      ⟨segEnv b en occs res (some (occVal t d o)) x y (some (.list (l ++ [.datetime s]))) (some (.datetime e)) z, []⟩
    = match inPeriod s (some (e - s)) (some b) (some en) with
      | .error f => (⟨segEnv b en occs res (some (occVal s (.delta (e - s)) o)) x y (some (.list l)) (some (.datetime e)) (some (.datetime s)), []⟩,
          .stop (ofFault f))
      | .ok v => (⟨segEnv b en occs (res ++ if v then [occVal s (.delta (e - s)) o] else []) (some (occVal s (.delta (e - s)) o)) x y (some (.list l))
          (some (.datetime s)) (some (.datetime s)), []⟩, .next) := by
  have hp : Source.prog.call W (n + 1) "inPeriod" [occVal s (.delta (e - s)) o, ofPeriod (some b) (some en)] []
      = toM .bool (inPeriod s (some (e - s)) (some b) (some en)) :=
    inPeriod_prog _ _ _ _ _ _ _ _ rfl rfl
  rw [occVal] at hp
  cases hi : inPeriod s (some (e - s)) (some b) (some en) with
  | error f =>
    rw [hi] at hp
    lang [Source.segmentOccurrences_loop3, segEnv, occVal, mut_pop, occurrence_new, ctx_call, hp, toM_error]
  | ok v =>
    rw [hi] at hp
    cases v with
    | false => lang [Source.segmentOccurrences_loop3, segEnv, occVal, mut_pop, occurrence_new, ctx_call, hp, toM_ok, List.append_nil]
    | true => lang [Source.segmentOccurrences_loop3, segEnv, occVal, mut_pop, occurrence_new, ctx_call, hp, toM_ok]

theorem pop_loop {α : Type} (f : α → Val) (orig : α) (W n : Nat) (b en : Int) (occs : Val) (x y : Option Val) (rest : List Int) :
    ∀ (V : Nat) (e t : Int) (d : Val) (z : Option Val) (res : List Val), rest.length < V →
      (∀ m, popLoop b en orig e rest = .ok m → ∃ t' d' e' z', whileLoop (whileCond (Source.prog.ctx W (n + 1)) (.var "borders"))
          (execs (Source.prog.ctx W (n + 1)) W Source.segmentOccurrences_loop3) V
          ⟨segEnv b en occs res (some (occVal t d (f orig))) x y (some (.list (rest.reverse.map .datetime))) (some (.datetime e)) z, []⟩
        = (⟨segEnv b en occs (res ++ m.map (ofOcc f)) (some (occVal t' d' (f orig))) x y (some (.list [])) (some (.datetime e')) z', []⟩, .next))
      ∧ (∀ g, popLoop b en orig e rest = .error g → ∃ s', whileLoop (whileCond (Source.prog.ctx W (n + 1)) (.var "borders"))
          (execs (Source.prog.ctx W (n + 1)) W Source.segmentOccurrences_loop3) V
          ⟨segEnv b en occs res (some (occVal t d (f orig))) x y (some (.list (rest.reverse.map .datetime))) (some (.datetime e)) z, []⟩
        = (s', .stop (ofFault g))) := by
  induction rest with
  | nil =>
    intro V e t d z res hV
    obtain ⟨V, rfl⟩ : ∃ V', V = V' + 1 := ⟨V - 1, by rw [List.length_nil] at hV; omega⟩
    refine ⟨fun m h => ?_, fun g h => by cases h⟩
    cases h
    refine ⟨t, d, e, z, ?_⟩
    unfold whileLoop
    simp [whileCond, eval, segEnv, Env.get, truthy_list]
  | cons s rest ih =>
    intro V e t d z res hV
    rw [List.length_cons] at hV
    obtain ⟨V, rfl⟩ : ∃ V', V = V' + 1 := ⟨V - 1, by omega⟩
    have hc : whileCond (Source.prog.ctx W (n + 1)) (.var "borders")
        ⟨segEnv b en occs res (some (occVal t d (f orig))) x y (some (.list (rest.reverse.map .datetime ++ [.datetime s]))) (some (.datetime e)) z, []⟩
        = .ok (.list (rest.reverse.map .datetime ++ [.datetime s])) := by
      simp [whileCond, eval, segEnv, Env.get]
    have ht : (Val.list (rest.reverse.map .datetime ++ [.datetime s])).truthy = true := by
      rw [truthy_list]; simp
    unfold whileLoop popLoop
    rw [List.reverse_cons, List.map_append, List.map_cons, List.map_nil, hc]
    simp only [ht, ↓reduceIte]
    rw [pop_step]
    cases hi : inPeriod s (some (e - s)) (some b) (some en) with
    | error g =>
      refine ⟨fun m h => (by cases h), fun g' h => ?_⟩
      cases h
      exact ⟨_, rfl⟩
    | ok v =>
      obtain ⟨h1, h2⟩ := ih V s s (.delta (e - s)) (some (.datetime s)) (res ++ if v then [occVal s (.delta (e - s)) (f orig)] else []) (by omega)
      simp only [ok_bind]
      constructor
      · intro m h
        rw [bind_ok] at h
        obtain ⟨more, hm, h⟩ := h
        cases h
        obtain ⟨t', d', e', z', hs⟩ := h1 more hm
        refine ⟨t', d', e', z', ?_⟩
        rw [hs]
        cases v <;> simp [ofOcc, occVal]
      · intro g h
        rw [bind_error] at h
        rcases h with h | ⟨_, _, h⟩
        · exact h2 g h
        · cases h

theorem borderLoop_length {en y : Int} (n : Nat) : ∀ {x : Int} {l : List Int}, borderLoop en y n x = .ok l → l.length ≤ n := by
  induction n with
  | zero => intro x l h; cases h
  | succ n ih =>
    intro x l h
    unfold borderLoop at h
    rw [bind_ok] at h
    obtain ⟨x', _, h⟩ := h
    split at h
    · cases h; exact Nat.zero_le _
    · rw [bind_ok] at h
      obtain ⟨more, hm, h⟩ := h
      cases h
      have := ih hm
      rw [List.length_cons]
      omega

/-- The front of the list of borders. -/
def frontOf (b x0 : Int) (inner : List Int) : List Int :=
  if b > x0 then b :: inner else if inner = [] ∨ inner.head? ≠ some x0 then x0 :: inner else inner

theorem bordersOf_front (b en x0 y : Int) (inner : List Int) :
    bordersOf b en x0 y inner = frontOf b x0 inner ++ [if en < y then en else y] := rfl

theorem frontOf_length (b x0 : Int) (inner : List Int) : (frontOf b x0 inner).length ≤ inner.length + 1 := by
  unfold frontOf
  split
  · exact Nat.le_refl _
  · split
    · exact Nat.le_refl _
    · omega

/-- The statement that puts the first border in front. -/
def frontStmt : Stmt := .ite (.cmp .gt (.var "start") (.attr (.var "occ") "dtstart")) [
    .assign (.name "borders") (.bin .add (.list [(.var "start")]) (.var "borders"))] [
    .ite (.or (.not (.var "borders")) (.cmp .ne (.attr (.var "occ") "dtstart") (.index (.var "borders") (.const (.int 0))))) [
      .assign (.name "borders") (.bin .add (.list [(.attr (.var "occ") "dtstart")]) (.var "borders"))] []]

/-- The statement that adds the last border. -/
def lastStmt : Stmt := .ite (.cmp .lt (.var "end") (.var "y")) [.mutate none "borders" .append [(.var "end")]] [
    .mutate none "borders" .append [(.var "y")]]

/-- The statement that moves the start into the period. -/
def clampStmt : Stmt := .ite (.cmp .lt (.var "x") (.var "start")) [.assign (.name "x") (.var "start")] []

theorem front_step (G : Ctx) (W : Nat) (b en x0 : Int) (occs d o : Val) (res : List Val) (x y e s : Option Val) (inner : List Int) :
    exec G W frontStmt ⟨segEnv b en occs res (some (occVal x0 d o)) x y (some (.list (inner.map .datetime))) e s, []⟩
    = (⟨segEnv b en occs res (some (occVal x0 d o)) x y (some (.list ((frontOf b x0 inner).map .datetime))) e s, []⟩, .next) := by
  unfold frontOf
  rw [frontStmt]
  by_cases h : x0 < b
  · lang [segEnv, occVal, h, gt_iff_lt]
  · cases inner with
    | nil => lang [segEnv, occVal, h, gt_iff_lt, true_or]
    | cons i l =>
      have hp : ∀ v (l : List Val), getIndex.pick (v :: l) 0 = .ok v := fun v l => rfl
      by_cases hi : x0 = i
      · subst hi
        lang [segEnv, occVal, h, gt_iff_lt, hp, List.head?_cons, or_self]
      · have hi' : ¬ i = x0 := fun h => hi h.symm
        lang [segEnv, occVal, h, gt_iff_lt, hp, List.head?_cons, hi, hi', Option.some.injEq, or_true]

theorem last_step (G : Ctx) (W : Nat) (b en y : Int) (occs : Val) (res : List Val) (occ x e s : Option Val) (l : List Val) :
    exec G W lastStmt ⟨segEnv b en occs res occ x (some (.datetime y)) (some (.list l)) e s, []⟩
    = (⟨segEnv b en occs res occ x (some (.datetime y)) (some (.list (l ++ [.datetime (if en < y then en else y)]))) e s, []⟩, .next) := by
  rw [lastStmt]
  by_cases h : en < y
  · lang [segEnv, h]
  · lang [segEnv, h]

theorem clamp_step (G : Ctx) (W : Nat) (b en x : Int) (occs : Val) (res : List Val) (occ y borders e s : Option Val) :
    exec G W clampStmt ⟨segEnv b en occs res occ (some (.datetime x)) y borders e s, []⟩
    = (⟨segEnv b en occs res occ (some (.datetime (if x < b then b else x))) y borders e s, []⟩, .next) := by
  rw [clampStmt]
  by_cases h : x < b
  · lang [segEnv, h]
  · lang [segEnv, h]

theorem loop1_eq : Source.segmentOccurrences_loop1 = [
  .assign (.name "x") (.attr (.var "occ") "dtstart"),
  clampStmt,
  .assign (.name "y") (.bin .add (.attr (.var "occ") "dtstart") (.attr (.var "occ") "duration")),
  .assign (.name "borders") (.list []),
  .while (.const (.int 1)) Source.segmentOccurrences_loop2, frontStmt, lastStmt,
  .mutate (some (.name "e")) "borders" .pop [],
  .while (.var "borders") Source.segmentOccurrences_loop3] := rfl

/-- The values of the variables between two iterations. -/
def SegInv {α : Type} (f : α → Val) (b en : Int) (occs : Val) (acc : List (Occurrence α)) (s : State) : Prop :=
  ∃ occ x y borders e z, s = ⟨segEnv b en occs (acc.map (ofOcc f)) occ x y borders e z, []⟩

theorem segment_step {α : Type} (f : α → Val) (W n : Nat) (b en : Int) (hW : (en / DAY - b / DAY).toNat + 5 ≤ W) (occs : Val)
    (acc : List (Occurrence α)) (occ : Occurrence α) (s : State) (hs : SegInv f b en occs acc s) :
    FollowsC (SegInv f b en occs)
      (do
        let here ← segmentOne b en occ
        .ok (acc ++ here))
      (forBody (Source.prog.ctx W (n + 1)) W (.name "occ") Source.segmentOccurrences_loop1 (ofOcc f occ) s) := by
  obtain ⟨occ', x', y', borders', e', z', rfl⟩ := hs
  unfold segmentOne
  rw [loop1_eq]
  have hx := clamp_step (Source.prog.ctx W (n + 1)) W b en occ.dtstart occs (acc.map (ofOcc f))
    (some (occVal occ.dtstart (.delta occ.duration) (f occ.original))) y' borders' e' z'
  simp only [segEnv, occVal] at hx
  cases hy : dtAdd occ.dtstart occ.duration with
  | error g =>
    refine FollowsC.error rfl (by
      lang [forBody, segEnv, ofOcc, hx, hy, lift_error]
      rfl)
  | ok y =>
    obtain ⟨hb1, hb2⟩ := border_loop (Source.prog.ctx W (n + 1)) W b en y occs (acc.map (ofOcc f))
      (some (occVal occ.dtstart (.delta occ.duration) (f occ.original))) e' z'
      ((en / DAY - (if occ.dtstart < b then b else occ.dtstart) / DAY).toNat + 2) W
      (if occ.dtstart < b then b else occ.dtstart) [] (by
        have : b / DAY ≤ (if occ.dtstart < b then b else occ.dtstart) / DAY := by
          apply Int.ediv_le_ediv (by decide)
          split <;> omega
        omega)
    simp only [ok_bind]
    have hne := borders_ne_diverge en y (if occ.dtstart < b then b else occ.dtstart)
    cases hbl : borderLoop en y ((en / DAY - (if occ.dtstart < b then b else occ.dtstart) / DAY).toNat + 2)
      (if occ.dtstart < b then b else occ.dtstart) with
    | error g =>
      obtain ⟨s', hs'⟩ := hb2 g (fun h => hne (by rw [hbl, h])) hbl
      simp only [segEnv, occVal] at hs'
      refine FollowsC.error rfl (by
        lang [forBody, segEnv, ofOcc, hx, hy, hs']
        rfl)
    | ok inner =>
      obtain ⟨x2, hs'⟩ := hb1 inner hbl
      have hlen := borderLoop_length _ hbl
      have hfl := frontOf_length b occ.dtstart inner
      have hxb : b / DAY ≤ (if occ.dtstart < b then b else occ.dtstart) / DAY := by
        apply Int.ediv_le_ediv (by decide)
        split <;> omega
      obtain ⟨hp1, hp2⟩ := pop_loop f occ.original W n b en occs (some (.datetime x2)) (some (.datetime y))
        (frontOf b occ.dtstart inner).reverse W (if en < y then en else y) occ.dtstart (.delta occ.duration) z' (acc.map (ofOcc f)) (by
          rw [List.length_reverse]
          omega)
      rw [List.reverse_reverse] at hp1 hp2
      have hfs := front_step (Source.prog.ctx W (n + 1)) W b en occ.dtstart occs (.delta occ.duration) (f occ.original)
        (acc.map (ofOcc f)) (some (.datetime x2)) (some (.datetime y)) e' z' inner
      have hls := last_step (Source.prog.ctx W (n + 1)) W b en y occs (acc.map (ofOcc f))
        (some (occVal occ.dtstart (.delta occ.duration) (f occ.original))) (some (.datetime x2)) e' z'
        ((frontOf b occ.dtstart inner).map .datetime)
      simp only [ok_bind, bordersOf_front, List.reverse_append, List.reverse_cons, List.reverse_nil, List.nil_append, List.singleton_append]
      rw [List.nil_append] at hs'
      simp only [segEnv, occVal] at hs' hfs hls hp1 hp2
      cases hpl : popLoop b en occ.original (if en < y then en else y) (frontOf b occ.dtstart inner).reverse with
      | error g =>
        obtain ⟨s'', hs''⟩ := hp2 g hpl
        refine FollowsC.error rfl (by
          lang [forBody, segEnv, ofOcc, hx, hy, hs', hfs, hls, mut_pop, hs'']
          rfl)
      | ok m =>
        obtain ⟨t', d', e'', z'', hs''⟩ := hp1 m hpl
        refine FollowsC.ok (c := acc ++ m) rfl (by
          lang [forBody, segEnv, ofOcc, hx, hy, hs', hfs, hls, mut_pop, hs'', List.map_append]
          rfl) ⟨_, _, _, _, _, _, rfl⟩

theorem segment_fold {α : Type} (b en : Int) (l : List (Occurrence α)) (acc : List (Occurrence α)) :
    l.foldlM (fun acc o => do
      let here ← segmentOne b en o
      .ok (acc ++ here)) acc = (do
      let m ← segmentOccurrences b en l
      .ok (acc ++ m)) :=
  fold_concat (step := fun o => segmentOne b en o) (F := segmentOccurrences b en) rfl (fun _ _ => rfl) l acc

theorem segment_prog {α : Type} (f : α → Val) (W n : Nat) (b en : Int) (hW : (en / DAY - b / DAY).toNat + 5 ≤ W) (l : List (Occurrence α)) :
    Source.prog.call W (n + 2) "segmentOccurrences" [ofPeriod (some b) (some en), .list (l.map (ofOcc f))] []
    = toM (fun l => .list (l.map (ofOcc f))) (segmentOccurrences b en l) := by
  rw [call_eq (d := Source.segmentOccurrences) rfl]
  have hl := forLoop_fold (g := ofOcc f) (f := fun acc o => do
      let here ← segmentOne b en o
      .ok (acc ++ here)) l
    (fun acc o _ s hs => segment_step f W n b en hW (.list (l.map (ofOcc f))) acc o s hs) []
    ⟨segEnv b en (.list (l.map (ofOcc f))) [] none none none none none none, []⟩ ⟨_, _, _, _, _, _, rfl⟩
  rw [segment_fold] at hl
  rw [segEnv] at hl
  have hper : Val.elems (ofPeriod (some b) (some en)) = .ok [.datetime b, .datetime en] := rfl
  cases hx : segmentOccurrences b en l with
  | error g =>
    obtain ⟨s, hs⟩ := hl.2 g (by rw [hx]; rfl)
    lang [Source.segmentOccurrences, hper, hs, toM_error]
  | ok m =>
    obtain ⟨s, hs, _, _, _, _, _, _, rfl⟩ := hl.1 m (by rw [hx]; rfl)
    lang [Source.segmentOccurrences, hper, hs, toM_ok, segEnv]

end CalCore.Lang
