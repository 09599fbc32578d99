import Verif.Model.Untyped
import Verif.Props.Samples
/- C121: rules with arguments of any type. -/
namespace CalCore

/-! ### What arguments of the documented types look like -/

/-- A count as a Python object. -/
def PyObj.ofCount : Option Int → PyObj
  | Option.none => .none
  | some n => .int n

/-- A bound as a Python object. -/
def PyObj.ofUntil : Option Until → PyObj
  | Option.none => .none
  | some (.date d) => .date d
  | some (.datetime t) => .datetime t

/-- An end date as a Python object. -/
def PyObj.ofDate : Option Date → PyObj
  | Option.none => .none
  | some d => .date d

/-- The string for a kind of monthly recurrence. -/
def MonthlyKind.text : MonthlyKind → String
  | .monthday => "monthday"
  | .weekday => "weekday"
  | .lastweekday => "lastweekday"

/-- The class of a rule with its last argument. -/
def RuleKind.cls : RuleKind → UClass
  | .basic => .basic
  | .no => .no
  | .daily => .daily
  | .yearly => .yearly
  | .weekly w => .weekly (.items (w.map .int))
  | .monthly m => .monthly (.str m.text)

/-- The attributes of a rule as Python objects. -/
def RuleKind.untyped : RuleKind → UKind
  | .basic => .basic
  | .no => .no
  | .daily => .daily
  | .yearly => .yearly
  | .weekly w => .weekly (w.map .int)
  | .monthly m => .monthly (.str m.text)

/-- A rule as a Python object. -/
def Rule.untyped (r : Rule) : URule :=
  { kind := r.kind.untyped, interval := .int r.interval, count := .ofCount r.count, untl := .ofUntil r.untl
    exceptions := r.exceptions.map .date }

theorem ofCount_none (c : Option Int) : PyObj.ofCount c ≠ .none ↔ c.isSome = true := by
  cases c <;> simp [PyObj.ofCount]

theorem ofUntil_none (u : Option Until) : PyObj.ofUntil u ≠ .none ↔ u.isSome = true := by
  rcases u with _ | (_ | _) <;> simp [PyObj.ofUntil]

theorem all_weekdays (w : List Int) :
    (w.map PyObj.int).all PyObj.isWeekday = w.all (fun x => decide (0 ≤ x) && decide (x ≤ 6)) := by
  rw [List.all_map]
  rfl

theorem text_mem (m : MonthlyKind) : PyObj.str m.text ∈ [PyObj.str "monthday", .str "weekday", .str "lastweekday"] := by
  cases m <;> decide

theorem untyped_validate (r : Rule) : r.untyped.validate = r.validate := by
  unfold URule.validate Rule.validate
  by_cases h1 : r.count.isSome = true ∧ r.untl.isSome = true
  · have h2 : r.untyped.count ≠ .none ∧ r.untyped.untl ≠ .none := ⟨(ofCount_none _).2 h1.1, (ofUntil_none _).2 h1.2⟩
    rw [if_pos h1, if_pos h2]; rfl
  · have h2 : ¬ (r.untyped.count ≠ .none ∧ r.untyped.untl ≠ .none) :=
      fun h => h1 ⟨(ofCount_none _).1 h.1, (ofUntil_none _).1 h.2⟩
    rw [if_neg h1, if_neg h2]
    have h3 : r.untyped.interval.geInt 1 = .ok (decide (r.interval ≥ 1)) := rfl
    have h4 : r.untyped.exceptions.all PyObj.isDate = true := by
      show (r.exceptions.map PyObj.date).all PyObj.isDate = true
      rw [List.all_map]
      exact List.all_eq_true.2 fun _ _ => rfl
    rw [h3, h4]
    by_cases h5 : r.interval ≥ 1
    · rw [if_neg (fun h : ¬ r.interval ≥ 1 => h h5)]
      simp only [ok_bind, h5, decide_true, Bool.not_true, Bool.false_eq_true, if_false]
      unfold Rule.untyped
      cases hk : r.kind with
      | weekly w =>
        simp only [RuleKind.untyped, all_weekdays]
      | monthly m =>
        simp only [RuleKind.untyped]
        rw [if_pos (text_mem m)]
      | basic => rfl
      | no => rfl
      | daily => rfl
      | yearly => rfl
    · rw [if_pos h5]
      simp only [ok_bind, h5, decide_false, Bool.not_false, if_true]
      rfl

/-- C121: with arguments of the documented types the constructors do what `Rule.new` says. -/
theorem C121_new_partial (kind : RuleKind) (interval : Int) (count : Option Int) (untl : Option Until) (exceptions : List Date) :
    URule.new kind.cls (.int interval) (.ofCount count) (.ofUntil untl) (.items (exceptions.map .date)) =
      (Rule.new kind interval count untl exceptions).map Rule.untyped := by
  unfold URule.new Rule.new
  have hk : kind.cls.kind = .ok kind.untyped := by cases kind <;> rfl
  simp only [PyIter.tuple, ok_bind, hk]
  let r : Rule := { kind, interval, count, untl, exceptions }
  change (r.untyped.validate >>= fun _ => Except.ok r.untyped) = (r.validate >>= fun _ => Except.ok r).map Rule.untyped
  rw [untyped_validate]
  cases r.validate with
  | error e => rfl
  | ok u => rfl

/-! ### What accepted arguments mean -/

/-- The numbers: integers, long integers, and the truth values as 0 and 1. -/
def PyObj.value? : PyObj → Option Int
  | .int n => some n
  | .long n => some n
  | .bool true => some 1
  | .bool false => some 0
  | .none => Option.none
  | .str _ => Option.none
  | .date _ => Option.none
  | .datetime _ => Option.none

/-- The values that count as false. -/
def PyObj.isFalse (x : PyObj) : Bool := decide (x ∈ [.none, .bool false, .int 0, .long 0, .str ""])

theorem value_eq : PyObj.value? = PyObj.num? := by
  funext x
  rcases x with _ | b | _ | _ | _ | _ | _
  any_goals rfl
  cases b <;> rfl

theorem falsy (x : PyObj) : (x.isFalse = true) = (x.truthy = false) := by
  unfold PyObj.isFalse
  rcases x with _ | b | _ | _ | _ | _ | _
  any_goals simp [PyObj.truthy]

/-- A count: a string is greater than every number, so it never stops the recurrence; a date cannot be compared. -/
def PyObj.typedCount : PyObj → Option (Option Int)
  | .none => some Option.none
  | .str _ => some Option.none
  | .date _ => Option.none
  | .datetime _ => Option.none
  | x => some x.value?

/-- A bound: false values are no bound, dates and datetimes are themselves, everything else cannot be compared. -/
def PyObj.typedUntil (x : PyObj) : Option (Option Until) :=
  if x.isFalse = true then some Option.none
  else match x with
    | .date d => some (some (.date d))
    | .datetime t => some (some (.datetime t))
    | _ => Option.none

/-- Plain dates. -/
def PyObj.plainDate? : PyObj → Option Date
  | .date d => some d
  | _ => Option.none

/-- The class and its attributes. -/
def UKind.typed : UKind → Option RuleKind
  | .basic => some .basic
  | .no => some .no
  | .daily => some .daily
  | .yearly => some .yearly
  | .weekly w => some (.weekly (w.filterMap PyObj.value?))
  | .monthly m =>
    if m = .str "monthday" then some (.monthly .monthday)
    else if m = .str "weekday" then some (.monthly .weekday)
    else if m = .str "lastweekday" then some (.monthly .lastweekday)
    else Option.none

/-- The rule with attributes of the documented types that an object stands for, if there is one: exceptions that are datetimes do
not count. -/
def URule.typed (r : URule) : Option Rule := do
  let kind ← r.kind.typed
  let interval ← r.interval.value?
  let count ← r.count.typedCount
  let untl ← r.untl.typedUntil
  some { kind, interval, count, untl, exceptions := r.exceptions.filterMap PyObj.plainDate? }

/-- An end date that passes the assertions: false values are no end date. -/
def PyObj.typedEnd (x : PyObj) : Option (Option Date) :=
  if x.isFalse = true then some Option.none
  else match x with
    | .date d => some (some d)
    | _ => Option.none

theorem typed_eq {r : URule} {q : Rule} (h : r.typed = some q) :
    r.kind.typed = some q.kind ∧ r.interval.num? = some q.interval ∧ r.count.typedCount = some q.count ∧
    r.untl.typedUntil = some q.untl ∧ q.exceptions = r.exceptions.filterMap PyObj.plainDate? := by
  unfold URule.typed at h
  rw [value_eq] at h
  simp only [Option.bind_eq_bind, Option.bind_eq_some_iff] at h
  obtain ⟨kind, h1, interval, h2, count, h3, u, h4, h5⟩ := h
  injection h5 with h5
  subst h5
  exact ⟨h1, h2, h3, h4, rfl⟩

theorem typed_stops {r : URule} {q : Rule} (h : r.typed = some q) {x : PyObj} {e : Option Date} (he : x.typedEnd = some e)
    (cur : Date) (n : Nat) : r.stops x cur n = q.stops e cur n := by
  obtain ⟨_, _, h3, h4, _⟩ := typed_eq h
  have e1 : (if x.truthy then (PyObj.dateGt cur x) else .ok false) =
      .ok (e.elim false fun e => decide (cur > e)) := by
    unfold PyObj.typedEnd at he
    simp only [falsy] at he
    split at he
    · rename_i ht
      injection he with he; subst he
      rw [ht]; rfl
    · rename_i ht
      have ht : x.truthy = true := by simpa using ht
      rw [ht]
      cases x <;> simp only [] at he <;> first | (injection he with he; subst he; rfl) | (cases he)
  have e2 : (if r.count ≠ .none then PyObj.intGe n r.count else .ok false) =
      .ok (q.count.elim false fun c => decide ((n : Int) ≥ c)) := by
    revert h3
    generalize r.count = c, q.count = d
    intro h3
    cases c <;> simp only [PyObj.typedCount, value_eq] at h3 <;> first | (injection h3 with h3; subst h3; rfl) | (cases h3)
  have e3 : (if r.untl.truthy then PyObj.dateGt cur r.untl else .ok false) =
      q.untl.elim (.ok false) (fun u => match u with
        | .date u => .ok (decide (cur > u))
        | .datetime _ => raise .TypeError) := by
    revert h4
    generalize r.untl = c, q.untl = d
    intro h4
    unfold PyObj.typedUntil at h4
    simp only [falsy] at h4
    split at h4
    · rename_i ht
      injection h4 with h4; subst h4
      rw [ht]; rfl
    · rename_i ht
      have ht : c.truthy = true := by simpa using ht
      rw [ht]
      cases c <;> simp only [] at h4 <;> first | (injection h4 with h4; subst h4; rfl) | (cases h4)
  have key : r.stops x cur n = (do
      if (← (if x.truthy then (PyObj.dateGt cur x) else .ok false)) then return true
      if (← (if r.count ≠ .none then PyObj.intGe n r.count else .ok false)) then return true
      if r.untl.truthy then PyObj.dateGt cur r.untl else .ok false) := by
    unfold URule.stops
    cases x.truthy <;> by_cases hc : r.count = .none <;> simp [hc] <;> rfl
  rw [key, e1, e3, e2]
  unfold Rule.stops
  simp only [ok_bind]
  cases e <;> cases q.count <;> rcases q.untl with _ | (_ | _) <;> simp only [Option.elim] <;> rfl

theorem typed_emit {r : URule} {q : Rule} (h : r.typed = some q) (cur : Date) : r.emit cur = q.emit cur := by
  obtain ⟨_, _, _, _, h5⟩ := typed_eq h
  unfold URule.emit Rule.emit
  have : PyObj.date cur ∈ r.exceptions ↔ cur ∈ q.exceptions := by
    rw [h5, List.mem_filterMap]
    constructor
    · intro hm; exact ⟨_, hm, rfl⟩
    · rintro ⟨x, hm, hx⟩
      cases x <;> simp only [PyObj.plainDate?] at hx <;> first | (injection hx with hx; subst hx; exact hm) | (cases hx)
  by_cases hm : cur ∈ q.exceptions
  · rw [if_pos hm, if_pos (this.2 hm)]
  · rw [if_neg hm, if_neg (fun hh => hm (this.1 hh))]

theorem asInt_num {x : PyObj} {n : Int} (h : x.num? = some n) : x.asInt = .ok n := by
  unfold PyObj.asInt
  rw [h]

theorem typed_next {r : URule} {q : Rule} (h : r.typed = some q) (d : Date) : r.nextRecurrence d = q.nextRecurrence d := by
  obtain ⟨h1, h2, _⟩ := typed_eq h
  unfold URule.nextRecurrence Rule.nextRecurrence
  rw [asInt_num h2, ok_bind]
  revert h1
  generalize r.kind = k, q.kind = k'
  intro h1
  cases k with
  | monthly m =>
    simp only [UKind.typed] at h1
    split at h1
    · injection h1 with h1; subst h1; rfl
    · split at h1
      · injection h1 with h1; subst h1; rfl
      · split at h1
        · injection h1 with h1; subst h1; rfl
        · cases h1
  | _ => simp only [UKind.typed] at h1; injection h1 with h1; subst h1; rfl

theorem typed_weekdays (wds : List PyObj) (start cur : Date) :
    inWeekdays wds start cur = decide (weekday cur ∈ wds.filterMap PyObj.num? ++ [weekday start]) := by
  unfold inWeekdays
  rw [Bool.eq_iff_iff]
  simp only [Bool.or_eq_true, decide_eq_true_eq, List.any_eq_true, beq_iff_eq, List.mem_append, List.mem_filterMap,
    List.mem_singleton]
  exact Or.comm

/-- C121: what an object does whose attributes have whatever types, as long as the numbers can be computed with and the bounds
compared, is what the rule does that it stands for. -/
theorem C121_apply_partial (r : URule) (q : Rule) (h : r.typed = some q) (x : PyObj) (e : Option Date) (he : x.typedEnd = some e)
    (dtstart : DateTime) (n : Nat) : r.applyRun dtstart x n = q.applyRun dtstart e n := by
  obtain ⟨h1, h2, _⟩ := typed_eq h
  have hend : enddateOk x = true := by
    unfold PyObj.typedEnd at he
    simp only [falsy] at he
    unfold enddateOk
    split at he
    · rename_i ht; rw [ht]; rfl
    · cases x <;> simp only [] at he <;> first | (rfl) | (cases he)
  have hb : r.basicStep x = q.basicStep e := by
    funext s
    unfold URule.basicStep Rule.basicStep
    rw [typed_stops h he, typed_emit h, typed_next h]
    rcases q.stops e s.1 s.2 with _ | (_ | _) <;> rfl
  have hm : ∀ i w, r.monthStep i w x = q.monthStep i w e := by
    intro i w
    funext s
    unfold URule.monthStep Rule.monthStep
    cases monthindex s.1 s.2.1 i w with
    | error f => rfl
    | ok cur => 
      simp only [typed_stops h he, typed_emit h, asInt_num h2, ok_bind]
      rcases q.stops e cur s.2.2 with _ | (_ | _) <;> rfl
  have hw : ∀ wds start, r.weeklyStep wds start x = q.weeklyStep (wds.filterMap PyObj.num? ++ [weekday start]) start e := by
    intro wds start
    funext s
    have hh : r.weeklyHit wds start s.1 = q.weeklyHit (wds.filterMap PyObj.num? ++ [weekday start]) start s.1 := by
      unfold URule.weeklyHit Rule.weeklyHit
      simp only [asInt_num h2, ok_bind, typed_weekdays]
    unfold URule.weeklyStep Rule.weeklyStep
    rw [typed_stops h he, typed_emit h, hh]
    rcases q.stops e s.1 s.2 with _ | (_ | _) <;>
      rcases q.weeklyHit (wds.filterMap PyObj.num? ++ [weekday start]) start s.1 with _ | (_ | _) <;> rfl
  unfold URule.applyRun
  simp only []
  by_cases hno : r.kind = .no
  · rw [if_pos hno]
    rw [hno] at h1
    injection h1 with h1
    unfold Rule.applyRun
    rw [← h1]
  · rw [if_neg hno]
    by_cases hn : n = 0
    · rw [if_pos hn, hn]
      revert h1 hno
      unfold Rule.applyRun
      generalize r.kind = k, q.kind = k'
      intro h1 hno
      have hk' : k' ≠ .no := by
        rintro rfl
        cases k with
        | no => exact hno rfl
        | monthly m =>
          simp only [UKind.typed] at h1
          split at h1
          · cases h1
          · split at h1
            · cases h1
            · split at h1 <;> cases h1
        | _ => cases h1
      rcases k' with _ | _ | _ | _ | _ | (_ | _ | _) <;> first | rfl | exact absurd rfl hk'
    · rw [if_neg hn, hend]
      simp only [Bool.true_eq_false, if_false]
      rw [hb]
      simp only [hm, hw]
      revert h1 hno
      unfold Rule.applyRun
      generalize r.kind = k, q.kind = k'
      intro h1 hno
      cases k with
      | monthly m =>
        simp only [UKind.typed] at h1 ⊢
        split at h1
        · rename_i hx; injection h1 with h1; subst h1; rw [if_pos hx]
        · rename_i hx
          rw [if_neg hx]
          split at h1
          · rename_i hy; injection h1 with h1; subst h1; rw [if_pos hy]
          · rename_i hy
            rw [if_neg hy]
            split at h1
            · rename_i hz; injection h1 with h1; subst h1; rw [if_pos hz]
            · cases h1
      | no => exact absurd rfl hno
      | _ => simp only [UKind.typed, value_eq] at h1; injection h1 with h1; subst h1; rfl

/-- C121: an end date that is neither false nor a plain date (a datetime, a number, a text) is refused when the first date is
asked for; only the rule without recurrence does not look at it. -/
theorem C121_enddate_partial (r : URule) (x : PyObj) (hx : x.typedEnd = none) (dtstart : DateTime) (n : Nat) :
    r.applyRun dtstart x (n + 1) =
      if r.kind = .no then ([dtDate dtstart], .finished) else ([], .raised (.py .AssertionError)) := by
  unfold URule.applyRun
  simp only []
  split
  · rfl
  · rw [if_neg (Nat.succ_ne_zero n), if_pos]
    unfold PyObj.typedEnd at hx
    simp only [falsy] at hx
    unfold enddateOk
    split at hx
    · cases hx
    · rename_i ht
      have ht : x.truthy = true := by simpa using ht
      rw [ht]
      cases x <;> first | rfl | cases hx

/-- C121: with attributes of the documented types, `apply` is that of the model with types. -/
theorem C121_typed_partial (r : Rule) (dtstart : DateTime) (e : Option Date) (n : Nat) :
    r.untyped.applyRun dtstart (.ofDate e) n = r.applyRun dtstart e n := by
  refine C121_apply_partial r.untyped r ?_ _ e (by cases e <;> rfl) dtstart n
  obtain ⟨kind, interval, count, untl, exceptions⟩ := r
  have h1 : kind.untyped.typed = some kind := by
    cases kind with
    | weekly w =>
      simp only [RuleKind.untyped, UKind.typed, List.filterMap_map]
      have : (PyObj.value? ∘ PyObj.int) = some := rfl
      rw [this, List.filterMap_some]
    | monthly m => cases m <;> rfl
    | _ => rfl
  have h3 : (PyObj.ofCount count).typedCount = some count := by cases count <;> rfl
  have h4 : (PyObj.ofUntil untl).typedUntil = some untl := by rcases untl with _ | (_ | _) <;> rfl
  have h5 : (exceptions.map PyObj.date).filterMap PyObj.plainDate? = exceptions := by
    rw [List.filterMap_map]
    have : (PyObj.plainDate? ∘ PyObj.date) = some := rfl
    rw [this, List.filterMap_some]
  unfold URule.typed Rule.untyped
  simp only [h1, h3, h4, h5]
  rfl

/-- The iteration is the last one. -/
def Step.Ends {σ : Type} : Step σ → Prop
  | .yield _ (.ok _) => False
  | _ => True

theorem runGen_ends {σ : Type} {step : σ → Step σ} {s : σ} (h : (step s).Ends) (n : Nat) :
    (runGen step (n + 1) s).1.length ≤ 1 ∧ (runGen step (n + 1) s).2 ≠ .running := by
  unfold runGen
  cases hs : step s with
  | stop => exact ⟨Nat.zero_le _, by simp⟩
  | fail e => exact ⟨Nat.zero_le _, by simp⟩
  | yield out next =>
    cases next with
    | error e => exact ⟨by cases out <;> simp, by simp⟩
    | ok s' => rw [hs] at h; exact h.elim

theorem stops_ne_false {r : URule} (h : r.count.typedCount = none ∨ r.untl.typedUntil = none) (x : PyObj) (cur : Date) (n : Nat) :
    r.stops x cur n ≠ .ok false := by
  have hc : r.count.typedCount = none → r.count ≠ .none ∧ PyObj.intGe n r.count = raise .TypeError := by
    generalize r.count = c
    intro h
    cases c <;> first | (cases h; done) | exact ⟨by simp, rfl⟩
  have hu : r.untl.typedUntil = none → r.untl.truthy = true ∧ PyObj.dateGt cur r.untl = raise .TypeError := by
    generalize r.untl = c
    unfold PyObj.typedUntil
    simp only [falsy]
    intro h
    split at h
    · cases h
    · rename_i ht
      refine ⟨by simpa using ht, ?_⟩
      cases c <;> first | (cases h; done) | rfl
  have last : (r.untl.typedUntil = none) → (if r.untl.truthy then PyObj.dateGt cur r.untl else .ok false) ≠ .ok false := by
    intro h
    obtain ⟨h1, h2⟩ := hu h
    rw [h1, h2]
    intro h; cases h
  have mid : ((do
      if r.count ≠ .none then
        if (← PyObj.intGe n r.count) then return true
      if r.untl.truthy then PyObj.dateGt cur r.untl
      else return false) : Res Bool) ≠ .ok false := by
    rcases h with h | h
    · obtain ⟨h1, h2⟩ := hc h
      rw [if_pos h1, h2]
      intro h; cases h
    · by_cases h1 : r.count ≠ .none
      · rw [if_pos h1]
        rcases PyObj.intGe n r.count with _ | (_ | _)
        · intro h; cases h
        · exact last h
        · intro h; cases h
      · rw [if_neg h1]
        exact last h
  unfold URule.stops
  cases x.truthy with
  | false => exact mid
  | true =>
    rcases PyObj.dateGt cur x with _ | (_ | _)
    · intro h; cases h
    · exact mid
    · intro h; cases h

/-- C121: an object that does not stand for a rule yields one date at most and is at its end after the first iteration. -/
theorem C121_failing_partial (r : URule) (h : r.typed = none) (hno : r.kind ≠ .no) (dtstart : DateTime) (x : PyObj) (n : Nat) :
    (r.applyRun dtstart x (n + 1)).1.length ≤ 1 ∧ (r.applyRun dtstart x (n + 1)).2 ≠ .running := by
  have hcase : r.kind.typed = none ∨ r.interval.asInt = raise .TypeError ∨
      (r.count.typedCount = none ∨ r.untl.typedUntil = none) := by
    unfold URule.typed at h
    rw [value_eq] at h
    cases hk : r.kind.typed with
    | none => exact Or.inl rfl
    | some k =>
      refine Or.inr ?_
      cases hi : r.interval.num? with
      | none => left; unfold PyObj.asInt; rw [hi]
      | some i =>
        right
        cases hc : r.count.typedCount with
        | none => exact Or.inl rfl
        | some c =>
          right
          cases hu : r.untl.typedUntil with
          | none => rfl
          | some u => rw [hk, hi, hc, hu] at h; cases h
  unfold URule.applyRun
  simp only []
  rw [if_neg hno, if_neg (Nat.succ_ne_zero n)]
  split
  · exact ⟨Nat.zero_le _, by simp⟩
  · have key : r.kind.typed = none ∨ ((∀ s, (r.basicStep x s).Ends) ∧ (∀ w st s, (r.weeklyStep w st x s).Ends) ∧
        ∀ i w s, (r.monthStep i w x s).Ends) := by
      rcases hcase with h1 | h1 | h1
      · exact Or.inl h1
      · refine Or.inr ⟨fun s => ?_, fun w st s => ?_, fun i w s => ?_⟩
        · have : r.nextRecurrence s.1 = raise .TypeError := by unfold URule.nextRecurrence; rw [h1]; rfl
          unfold URule.basicStep
          rw [this]
          rcases r.stops x s.1 s.2 with _ | (_ | _) <;> trivial
        · have : ∃ e, r.weeklyHit w st s.1 = .error e := by
            unfold URule.weeklyHit
            rw [h1]
            cases weekspan st s.1 with
            | error e => exact ⟨e, rfl⟩
            | ok y => exact ⟨_, rfl⟩
          obtain ⟨e, this⟩ := this
          unfold URule.weeklyStep
          rw [this]
          rcases r.stops x s.1 s.2 with _ | (_ | _) <;> trivial
        · unfold URule.monthStep
          rw [h1]
          cases monthindex s.1 s.2.1 i w with
          | error e => trivial
          | ok cur => simp only []; rcases r.stops x cur s.2.2 with _ | (_ | _) <;> trivial
      · have hs := stops_ne_false h1 x
        refine Or.inr ⟨fun s => ?_, fun w st s => ?_, fun i w s => ?_⟩
        · unfold URule.basicStep
          have := hs s.1 s.2
          revert this
          rcases r.stops x s.1 s.2 with _ | (_ | _) <;> intro this <;> trivial
        · unfold URule.weeklyStep
          have := hs s.1 s.2
          revert this
          rcases r.stops x s.1 s.2 with _ | (_ | _) <;> intro this <;> trivial
        · unfold URule.monthStep
          cases monthindex s.1 s.2.1 i w with
          | error e => trivial
          | ok cur =>
            simp only []
            have := hs cur s.2.2
            revert this
            rcases r.stops x cur s.2.2 with _ | (_ | _) <;> intro this <;> trivial
    rcases key with h1 | ⟨hb, hw, hm⟩
    · cases hk : r.kind with
      | monthly m =>
        rw [hk] at h1
        simp only [UKind.typed] at h1 ⊢
        split at h1
        · cases h1
        · rename_i hx; rw [if_neg hx]
          split at h1
          · cases h1
          · rename_i hy; rw [if_neg hy]
            split at h1
            · cases h1
            · rename_i hz; rw [if_neg hz]
              exact ⟨Nat.zero_le _, by simp⟩
      | _ => rw [hk] at h1; cases h1
    · cases hk : r.kind with
      | weekly w => exact runGen_ends (hw _ _ _) n
      | monthly m =>
        simp only []
        split
        · exact runGen_ends (hb _) n
        · split
          · exact runGen_ends (hm _ _ _) n
          · split
            · exact runGen_ends (hm _ _ _) n
            · exact ⟨Nat.zero_le _, by simp⟩
      | _ => exact runGen_ends (hb _) n

/-! ### What is accepted -/

theorem geInt_one (x : PyObj) : x.geInt 1 = .ok true ↔
    (∃ s, x = .str s) ∨ x = .bool true ∨ ∃ n ≥ 1, x = .int n ∨ x = .long n := by
  cases x with
  | none => simp [PyObj.geInt, PyObj.num?]
  | bool b => cases b <;> simp [PyObj.geInt, PyObj.num?]
  | int n => simp [PyObj.geInt, PyObj.num?]
  | long n => simp [PyObj.geInt, PyObj.num?]
  | str s => simp [PyObj.geInt, PyObj.num?]
  | date d => simp [PyObj.geInt, PyObj.num?, raise]
  | datetime t => simp [PyObj.geInt, PyObj.num?, raise]

theorem isDate_iff (x : PyObj) : x.isDate = true ↔ (∃ d, x = .date d) ∨ ∃ t, x = .datetime t := by
  cases x <;> simp [PyObj.isDate]

theorem isWeekday_iff (x : PyObj) : x.isWeekday = true ↔ (∃ b, x = .bool b) ∨ ∃ n, 0 ≤ n ∧ n ≤ 6 ∧ x = .int n := by
  cases x with
  | bool b => cases b <;> simp [PyObj.isWeekday, PyObj.isInt, PyObj.num?]
  | int n =>
    simp only [PyObj.isWeekday, PyObj.isInt, PyObj.num?, Bool.true_and, Bool.and_eq_true, decide_eq_true_eq]
    constructor
    · rintro ⟨h1, h2⟩; exact Or.inr ⟨n, h1, h2, rfl⟩
    · rintro (⟨b, h⟩ | ⟨m, h1, h2, h⟩)
      · cases h
      · injection h with h; subst h; exact ⟨h1, h2⟩
  | _ => simp [PyObj.isWeekday, PyObj.isInt]

theorem untyped_validate_iff (r : URule) : r.validate = .ok () ↔
    (r.count = .none ∨ r.untl = .none) ∧ r.interval.geInt 1 = .ok true ∧ (∀ x ∈ r.exceptions, x.isDate = true) ∧
    (match r.kind with
      | .weekly wds => ∀ x ∈ wds, x.isWeekday = true
      | .monthly m => m = .str "monthday" ∨ m = .str "weekday" ∨ m = .str "lastweekday"
      | _ => True) := by
  unfold URule.validate
  by_cases h1 : r.count ≠ .none ∧ r.untl ≠ .none
  · rw [if_pos h1]
    constructor
    · intro h; cases h
    · rintro ⟨h | h, _⟩
      · exact absurd h h1.1
      · exact absurd h h1.2
  · rw [if_neg h1]
    have h1' : r.count = .none ∨ r.untl = .none := by
      by_cases hc : r.count = .none
      · exact Or.inl hc
      · by_cases hu : r.untl = .none
        · exact Or.inr hu
        · exact absurd ⟨hc, hu⟩ h1
    rcases hg : r.interval.geInt 1 with f | (_ | _)
    · constructor
      · intro h; cases h
      · rintro ⟨_, h, _⟩; cases h
    · constructor
      · intro h; cases h
      · rintro ⟨_, h, _⟩; cases h
    · by_cases ha : r.exceptions.all PyObj.isDate = true
      · have ha' := List.all_eq_true.1 ha
        rw [ha]
        constructor
        · intro h
          refine ⟨h1', rfl, ha', ?_⟩
          cases hk : r.kind with
          | weekly wds =>
            rw [hk] at h
            by_cases hw : wds.all PyObj.isWeekday = true
            · exact List.all_eq_true.1 hw
            · have h : (if wds.all PyObj.isWeekday = true then Except.ok () else raise .ValueError) = .ok () := h
              rw [if_neg hw] at h; cases h
          | monthly m =>
            rw [hk] at h
            by_cases hw : m ∈ [.str "monthday", .str "weekday", .str "lastweekday"]
            · simpa using hw
            · have h : (if m ∈ [PyObj.str "monthday", .str "weekday", .str "lastweekday"] then Except.ok () else raise .ValueError)
                = .ok () := h
              rw [if_neg hw] at h; cases h
          | _ => trivial
        · rintro ⟨_, _, _, h⟩
          cases hk : r.kind with
          | weekly wds =>
            rw [hk] at h
            exact if_pos (List.all_eq_true.2 h)
          | monthly m =>
            rw [hk] at h
            exact if_pos (by simpa using h)
          | _ => rfl
      · have ha2 : r.exceptions.all PyObj.isDate = false := by simpa using ha
        rw [ha2]
        constructor
        · intro h; cases h
        · rintro ⟨_, _, h, _⟩; exact absurd (List.all_eq_true.2 h) ha

/-- C121: exactly these arguments are accepted; the object has them as its attributes. -/
theorem C121_accepts_partial (cls : UClass) (interval count untl : PyObj) (exceptions : PyIter) (r : URule) :
    URule.new cls interval count untl exceptions = .ok r ↔
      (∃ l, exceptions = .items l ∧ r.exceptions = l ∧ ∀ x ∈ l, (∃ d, x = .date d) ∨ ∃ t, x = .datetime t) ∧
      (count = .none ∨ untl = .none) ∧ r.interval = interval ∧ r.count = count ∧ r.untl = untl ∧
      ((∃ s, interval = .str s) ∨ interval = .bool true ∨ ∃ n ≥ 1, interval = .int n ∨ interval = .long n) ∧
      (match cls with
        | .basic => r.kind = .basic
        | .no => r.kind = .no
        | .daily => r.kind = .daily
        | .yearly => r.kind = .yearly
        | .weekly w => ∃ l, w = .items l ∧ r.kind = .weekly l ∧ ∀ x ∈ l, (∃ b, x = .bool b) ∨ ∃ n, 0 ≤ n ∧ n ≤ 6 ∧ x = .int n
        | .monthly m => r.kind = .monthly m ∧ (m = .str "monthday" ∨ m = .str "weekday" ∨ m = .str "lastweekday")) := by
  unfold URule.new
  simp only [bind_ok]
  constructor
  · rintro ⟨l, hl, kind, hk, _, hv, hr⟩
    cases exceptions with
    | notIterable => cases hl
    | items l' =>
      injection hl with hl; subst hl
      injection hr with hr; subst hr
      obtain ⟨h1, h2, h3, h4⟩ := (untyped_validate_iff _).1 hv
      refine ⟨⟨_, rfl, rfl, fun x hx => (isDate_iff x).1 (h3 x hx)⟩, h1, rfl, rfl, rfl, (geInt_one _).1 h2, ?_⟩
      cases cls with
      | weekly w =>
        cases w with
        | notIterable => cases hk
        | items w =>
          injection hk with hk; subst hk
          exact ⟨w, rfl, rfl, fun x hx => (isWeekday_iff x).1 (h4 x hx)⟩
      | monthly m => injection hk with hk; subst hk; exact ⟨rfl, h4⟩
      | _ => injection hk with hk; exact hk.symm
  · rintro ⟨⟨l, rfl, hl, hd⟩, h1, rfl, rfl, rfl, h2, h3⟩
    refine ⟨l, rfl, r.kind, ?_, (), ?_, ?_⟩
    · cases cls with
      | weekly w => obtain ⟨w', rfl, hk, _⟩ := h3; rw [hk]; rfl
      | monthly m => rw [h3.1]; rfl
      | _ => rw [h3]; rfl
    · refine (untyped_validate_iff _).2 ⟨h1, (geInt_one _).2 h2, fun x hx => (isDate_iff x).2 (hd x hx), ?_⟩
      simp only []
      cases cls with
      | weekly w => obtain ⟨w', rfl, hk, hw⟩ := h3; rw [hk]; exact fun x hx => (isWeekday_iff x).2 (hw x hx)
      | monthly m => rw [h3.1]; exact h3.2
      | _ => rw [h3]; trivial
    · rw [← hl]

/-- The arguments for which a constructor raises TypeError: exceptions or weekdays that are no sequence, or an interval
that cannot be compared with a number. -/
def WrongType (cls : UClass) (interval count untl : PyObj) (exceptions : PyIter) : Prop :=
  exceptions = .notIterable ∨ cls = .weekly .notIterable ∨
    (count = .none ∨ untl = .none) ∧ ((∃ d, interval = .date d) ∨ ∃ t, interval = .datetime t)

theorem geInt_error (x : PyObj) (n : Int) (f : Fault) : x.geInt n = .error f ↔
    ((∃ d, x = .date d) ∨ ∃ t, x = .datetime t) ∧ f = .py .TypeError := by
  cases x <;> simp [PyObj.geInt, PyObj.num?, raise, eq_comm]

theorem untyped_validate_error (r : URule) (f : Fault) (h : r.validate = .error f) :
    f = .py .TypeError ∧ (r.count = .none ∨ r.untl = .none) ∧ ((∃ d, r.interval = .date d) ∨ ∃ t, r.interval = .datetime t) ∨
    f = .py .ValueError ∧ ¬ ((r.count = .none ∨ r.untl = .none) ∧ ((∃ d, r.interval = .date d) ∨ ∃ t, r.interval = .datetime t)) := by
  unfold URule.validate at h
  by_cases h1 : r.count ≠ .none ∧ r.untl ≠ .none
  · rw [if_pos h1] at h
    injection h with h
    refine Or.inr ⟨h.symm, ?_⟩
    rintro ⟨h2 | h2, _⟩
    · exact h1.1 h2
    · exact h1.2 h2
  · rw [if_neg h1] at h
    have h1' : r.count = .none ∨ r.untl = .none := by
      by_cases hc : r.count = .none
      · exact Or.inl hc
      · by_cases hu : r.untl = .none
        · exact Or.inr hu
        · exact absurd ⟨hc, hu⟩ h1
    cases hg : r.interval.geInt 1 with
    | error f' =>
      rw [hg] at h
      have hf : f' = f := by injection h
      obtain ⟨hd, hf'⟩ := (geInt_error _ _ _).1 hg
      exact Or.inl ⟨by rw [← hf, hf'], h1', hd⟩
    | ok b =>
      have hno : ¬ ((∃ d, r.interval = .date d) ∨ ∃ t, r.interval = .datetime t) := by
        intro hd
        rw [(geInt_error _ _ (.py .TypeError)).2 ⟨hd, rfl⟩] at hg
        cases hg
      refine Or.inr ⟨?_, fun hx => hno hx.2⟩
      rw [hg] at h
      cases b with
      | false => injection h with h; exact h.symm
      | true =>
        cases ha : r.exceptions.all PyObj.isDate with
        | false => rw [ha] at h; injection h with h; exact h.symm
        | true =>
          rw [ha] at h
          cases hk : r.kind with
          | weekly wds =>
            rw [hk] at h
            have h : (if wds.all PyObj.isWeekday = true then Except.ok () else raise .ValueError) = .error f := h
            split at h
            · cases h
            · injection h with h; exact h.symm
          | monthly m =>
            rw [hk] at h
            have h : (if m ∈ [PyObj.str "monthday", .str "weekday", .str "lastweekday"] then Except.ok () else raise .ValueError) =
              .error f := h
            split at h
            · cases h
            · injection h with h; exact h.symm
          | _ => rw [hk] at h; cases h

/-- C121: what is not accepted is refused with TypeError for the wrong types above, and with ValueError otherwise. -/
theorem C121_refuses (cls : UClass) (interval count untl : PyObj) (exceptions : PyIter) (f : Fault)
    (h : URule.new cls interval count untl exceptions = .error f) :
    (WrongType cls interval count untl exceptions → f = .py .TypeError) ∧
    (¬ WrongType cls interval count untl exceptions → f = .py .ValueError) := by
  cases exceptions with
  | notIterable =>
    have hf : f = .py .TypeError := by injection h with h; exact h.symm
    exact ⟨fun _ => hf, fun hn => absurd (Or.inl rfl) hn⟩
  | items l =>
    cases hk : cls.kind with
    | error f' =>
      have hc : cls = .weekly .notIterable ∧ f' = .py .TypeError := by
        cases cls with
        | weekly w =>
          cases w with
          | notIterable => injection hk with hk; exact ⟨rfl, hk.symm⟩
          | items w => cases hk
        | _ => cases hk
      have hf : f = .py .TypeError := by
        unfold URule.new at h
        rw [show PyIter.tuple (.items l) = .ok l from rfl, ok_bind, hk, error_bind] at h
        injection h with h
        rw [← h, hc.2]
      exact ⟨fun _ => hf, fun hn => absurd (Or.inr (Or.inl hc.1)) hn⟩
    | ok kind =>
      unfold URule.new at h
      rw [show PyIter.tuple (.items l) = .ok l from rfl, ok_bind, hk, ok_bind] at h
      simp only [] at h
      have hv : URule.validate { kind, interval, count, untl, exceptions := l } = .error f := by
        cases hv : URule.validate { kind, interval, count, untl, exceptions := l } with
        | error f' => rw [hv, error_bind] at h; injection h with h; rw [h]
        | ok u => rw [hv, ok_bind] at h; cases h
      have hw : ¬ (cls = .weekly .notIterable) := by rintro rfl; cases hk
      rcases untyped_validate_error _ _ hv with ⟨hf, h2⟩ | ⟨hf, h2⟩
      · exact ⟨fun _ => hf, fun hn => absurd (Or.inr (Or.inr h2)) hn⟩
      · refine ⟨?_, fun _ => hf⟩
        rintro (hx | hx | hx)
        · cases hx
        · exact absurd hx hw
        · exact absurd hx h2

/-! ### Concrete cases -/

/-- C121, concrete: the two refusals. -/
example : URule.new .daily (.date 1) .none .none (.items []) = raise .TypeError ∧
    URule.new .daily (.date 1) (.int 1) (.date 1) (.items []) = raise .ValueError ∧
    URule.new .daily (.int 1) .none .none (.items [.str "Monday"]) = raise .ValueError ∧
    URule.new (.weekly .notIterable) (.int 1) .none .none (.items []) = raise .TypeError := by decide +kernel

/-- A daily rule from untidy arguments: the interval is True, the count a long integer, of the exceptions one is a datetime. -/
def untidy : URule :=
  { kind := .daily, interval := .bool true, count := .long 4, untl := .none
    exceptions := [.datetime Sample.day, .date (dtDate Sample.day + 2)] }

/-- C121, concrete: it is accepted, and is the rule with interval 1, count 4 and one exception. -/
example :
    URule.new .daily (.bool true) (.long 4) .none (.items [.datetime Sample.day, .date (dtDate Sample.day + 2)]) = .ok untidy ∧
    untidy.typed = some { kind := .daily, interval := 1, count := some 4, untl := none, exceptions := [dtDate Sample.day + 2] } ∧
    PyObj.typedEnd (.str "") = some none ∧
    untidy.applyRun Sample.day (.str "") 10 =
      ([dtDate Sample.day, dtDate Sample.day + 1, dtDate Sample.day + 3], .finished) := by decide +kernel

/-- C121, concrete: a datetime as end date. -/
example : PyObj.typedEnd (.datetime Sample.day) = none ∧
    untidy.applyRun Sample.day (.datetime Sample.day) 10 = ([], .raised (.py .AssertionError)) := by decide +kernel

/-- C121, concrete: arguments of the documented types. -/
example : URule.new (RuleKind.cls (.weekly [0, 2])) (.int 1) (.ofCount (some 3)) (.ofUntil none) (.items []) =
    .ok (Rule.untyped { kind := .weekly [0, 2], interval := 1, count := some 3, untl := none, exceptions := [] }) := by decide +kernel

/-- C121 is false: a string is accepted as interval, and the rule raises TypeError after the first date. -/
theorem C121_interval_counterexample :
    ∃ r, URule.new .daily (.str "2") .none .none (.items []) = .ok r ∧ r.typed = none ∧ r.kind ≠ .no ∧
      r.applyRun Sample.day .none 5 = ([dtDate Sample.day], .raised (.py .TypeError)) :=
  ⟨{ kind := .daily, interval := .str "2", count := .none, untl := .none, exceptions := [] }, by decide +kernel⟩

/-- C121 is false: datetimes are accepted as exceptions, and ignored. -/
theorem C121_exception_counterexample :
    ∃ r, URule.new .daily (.int 1) (.int 2) .none (.items [.datetime Sample.day]) = .ok r ∧
      r.applyRun Sample.day .none 5 = ([dtDate Sample.day, dtDate Sample.day + 1], .finished) :=
  ⟨{ kind := .daily, interval := .int 1, count := .int 2, untl := .none, exceptions := [.datetime Sample.day] }, by decide +kernel⟩

/-- C121 is false: a string is accepted as count, and the recurrence never ends on its account. -/
theorem C121_count_counterexample :
    ∃ r, URule.new .daily (.int 1) (.str "2") .none (.items []) = .ok r ∧ (r.applyRun Sample.day .none 5).2 = .running :=
  ⟨{ kind := .daily, interval := .int 1, count := .str "2", untl := .none, exceptions := [] }, by decide +kernel⟩

end CalCore
