import Verif.Spec.ImportErrors
import Verif.Props.Errors
import Verif.Props.Import2
/- C113: which data an import refuses. -/
namespace CalCore
open Spec

theorem Says.bind {α β : Type} {a : Res α} {k : α → Res β} {P Q : PyErr → Prop} (ha : Says a P)
    (hk : ∀ x, a = .ok x → Says (k x) Q) : Says (a >>= k) fun e => P e ∨ (∀ e', ¬ P e') ∧ Q e := by
  intro f
  cases a with
  | error g =>
    rw [error_bind]
    have hg := (ha g).1 rfl
    obtain ⟨e0, rfl, hp⟩ := hg
    constructor
    · intro h
      injection h with h
      exact ⟨e0, h.symm, .inl hp⟩
    · rintro ⟨e, rfl, h | ⟨h, _⟩⟩
      · have := (ha (.py e)).2 ⟨e, rfl, h⟩
        injection this with this
        rw [this]
      · exact absurd hp (h e0)
  | ok x =>
    rw [ok_bind]
    have hn : ∀ e', ¬ P e' := fun e' he => by
      have := (ha (.py e')).2 ⟨e', rfl, he⟩
      cases this
    rw [hk x rfl f]
    simp [hn]

theorem Says.bind' {α β : Type} {a : Res α} {k : α → Res β} {P Q R : PyErr → Prop} (ha : Says a P)
    (hk : ∀ x, a = .ok x → Says (k x) Q) (h : ∀ e, (P e ∨ (∀ e', ¬ P e') ∧ Q e) ↔ R e) : Says (a >>= k) R :=
  (ha.bind hk).congr h

theorem Says.none_ok {α : Type} {a : Res α} {P : PyErr → Prop} (ha : Says a P) :
    (∃ x, a = .ok x) ↔ ∀ e, ¬ P e := by
  constructor
  · rintro ⟨x, rfl⟩ e he
    have := (ha (.py e)).2 ⟨e, rfl, he⟩
    cases this
  · intro h
    cases a with
    | ok x => exact ⟨x, rfl⟩
    | error f =>
      obtain ⟨e, _, he⟩ := (ha f).1 rfl
      exact absurd he (h e)

theorem dtAdd_says (t td : Int) : Says (dtAdd t td) fun e => dtInRange (t + td) = false ∧ e = .OverflowError := by
  unfold dtAdd
  split
  · rename_i h; exact Says.ok fun e => by simp [h]
  · rename_i h; exact Says.raise fun e => by simp [h]

theorem floatDatetime_says (tz : LocalTz) (t : ICalTime) :
    Says (floatDatetime tz t) fun e => TimeFault tz t ∧ e = .OverflowError := by
  cases t with
  | date d => exact Says.ok fun e h => h.1
  | naive d => exact Says.ok fun e h => h.1
  | aware t off =>
    unfold floatDatetime
    refine (dtAdd_says t (-off)).bind' (Q := fun e => dtInRange (t - off + tz (t - off)) = false ∧ e = .OverflowError)
      (fun x hx => ?_) fun e => ?_
    · have : x = t - off := by
        unfold dtAdd at hx
        split at hx
        · injection hx with hx; omega
        · cases hx
      rw [this]
      exact dtAdd_says _ _
    · unfold TimeFault
      rw [show t + -off = t - off by omega]
      by_cases h1 : dtInRange (t - off) = false
      · simp [h1]
      · simp [h1]

theorem importEnd_says (tz : LocalTz) (t : ICalTime) :
    Says (importEnd tz t) fun e => TimeFault tz t ∧ e = .OverflowError := by
  cases t with
  | date d => exact Says.ok fun e h => h.1
  | naive d => exact floatDatetime_says tz (.naive d)
  | aware t off => exact floatDatetime_says tz (.aware t off)

theorem importStart_says (tz : LocalTz) (t : ICalTime) :
    Says (importStart tz t) fun e => TimeFault tz t ∧ e = .OverflowError := by
  have h : ∀ t, Says (do .ok (← floatDatetime tz t, false) : Res (Int × Bool))
      fun e => TimeFault tz t ∧ e = .OverflowError := fun t =>
    (floatDatetime_says tz t).bind' (Q := fun _ => False) (fun x _ => Says.ok fun _ h => h) fun e => by simp
  cases t with
  | date d => exact Says.ok fun e h => h.1
  | naive d => exact h _
  | aware t off => exact h _

theorem getDtstartDuration_says (tz : LocalTz) (v : VEvent) : Says (getDtstartDuration tz v) (TimesFail tz v) := by
  unfold getDtstartDuration
  cases hs : v.dtstart with
  | none => exact Says.raise fun e => by simp [TimesFail, hs]
  | some st =>
    simp only []
    refine (importStart_says tz st).bind'
      (Q := fun e => (∃ en, v.dtend = some en ∧ TimeFault tz en) ∧ e = .OverflowError) (fun x _ => ?_) fun e => ?_
    · cases hen : v.dtend with
      | none =>
        simp only []
        have hn : ∀ e, ¬ ((∃ en, (none : Option ICalTime) = some en ∧ TimeFault tz en) ∧ e = PyErr.OverflowError) := by simp
        cases v.duration with
        | none => exact Says.ok hn
        | some d => exact Says.ok hn
      | some en =>
        simp only []
        refine (importEnd_says tz en).bind' (Q := fun _ => False) (fun y _ => Says.ok fun _ h => h) fun e => ?_
        simp
    · simp only [TimesFail, hs, reduceCtorEq, false_and, false_or, Option.some.injEq, exists_eq_left']
      by_cases h1 : TimeFault tz st
      · simp [h1]
      · simp [h1]

theorem getAttendee_says (src : Source) (a : AttId) :
    Says (src.getAttendee a) fun e => Dict.has src a = false ∧ e = .KeyError := by
  unfold Source.getAttendee
  split
  · rename_i h; exact Says.ok fun e => by simp [h]
  · rename_i h; exact Says.raise fun e => by simp [h]

theorem importOrganizer_says (c : Calendar) (src : Source) (v : VEvent) :
    Says (importOrganizer c src v) (OrganizerFails c src v) := by
  unfold importOrganizer
  have hfrom : ∀ a x, src.fromSpec a = some x → Dict.has src a = true := by
    intro a x h
    unfold Source.fromSpec at h
    split at h
    · assumption
    · cases h
  cases ho : v.organizer.bind src.fromSpec with
  | some a =>
    refine Says.ok ?_
    rintro e ⟨h, _⟩
    obtain ⟨o, h1, h2⟩ := Option.bind_eq_some_iff.1 ho
    have := h o h1
    rw [hfrom o a h2] at this
    cases this
  | none =>
    have hun : ∀ a, v.organizer = some a → Dict.has src a = false := by
      intro a ha
      rw [ha] at ho
      simp only [Option.bind_some, Source.fromSpec] at ho
      split at ho
      · cases ho
      · rename_i h; simpa using h
    simp only []
    unfold Calendar.main
    cases hm : c.mainId with
    | none => exact Says.ok fun e => by simp [OrganizerFails, hm]
    | some a =>
      simp only []
      refine (getAttendee_says src a).bind' (Q := fun _ => False) (fun x _ => Says.ok fun _ h => h) fun e => ?_
      simp only [and_false, or_false, OrganizerFails, hm, Option.some.injEq, exists_eq_left']
      exact ⟨fun h => ⟨hun, h⟩, fun h => h.2⟩

theorem weekdayIndexes_says (l : List String) :
    Says (weekdayIndexes l) fun e => (∃ d ∈ l, d ∉ ["MO", "TU", "WE", "TH", "FR", "SA", "SU"]) ∧ e = .ValueError := by
  induction l with
  | nil => exact Says.ok fun e => by simp
  | cons s rest ih =>
    unfold weekdayIndexes
    have h1 : Says (weekdayIndex s) fun e => s ∉ ["MO", "TU", "WE", "TH", "FR", "SA", "SU"] ∧ e = .ValueError := by
      unfold weekdayIndex
      cases hi : icalWeekdays.findIdx? (· = s) with
      | some i =>
        refine Says.ok fun e he => he.1 ?_
        have := List.findIdx?_isSome (xs := icalWeekdays) (p := (· = s))
        rw [hi] at this
        simp only [Option.isSome_some] at this
        obtain ⟨x, hx, hxs⟩ := List.any_eq_true.1 this.symm
        rw [← of_decide_eq_true hxs]
        exact hx
      | none =>
        refine Says.raise fun e => ?_
        rw [List.findIdx?_eq_none_iff] at hi
        have : s ∉ icalWeekdays := fun h => by simpa using hi s h
        exact ⟨fun h => h.2, fun h => ⟨this, h⟩⟩
    refine h1.bind' (fun i _ => ih.bind' (Q := fun _ => False)
      (R := fun e => (∃ d ∈ rest, d ∉ ["MO", "TU", "WE", "TH", "FR", "SA", "SU"]) ∧ e = .ValueError)
      (fun more _ => Says.ok fun _ h => h) fun e => ?_) fun e => ?_
    · simp only [and_false, or_false]
    · by_cases hs : s ∉ ["MO", "TU", "WE", "TH", "FR", "SA", "SU"]
      · simp only [hs, not_false_eq_true, true_and, forall_eq, false_and, or_false]
        exact ⟨fun h => ⟨⟨s, by simp, hs⟩, h⟩, fun h => h.2⟩
      · simp only [hs, false_and, not_false_eq_true, implies_true, true_and, false_or]
        refine and_congr_left fun _ => ⟨?_, ?_⟩
        · rintro ⟨d, hd, h⟩; exact ⟨d, by simp [hd], h⟩
        · rintro ⟨d, hd, h⟩
          rcases List.mem_cons.1 hd with rfl | hd
          · exact absurd h hs
          · exact ⟨d, hd, h⟩

theorem weekdayIndexes_valid {l : List String} {wds : List Int} (h : weekdayIndexes l = .ok wds) :
    wds.all (fun w => 0 ≤ w && w ≤ 6) = true := by
  induction l generalizing wds with
  | nil => injection h with h; subst h; rfl
  | cons s rest ih =>
    unfold weekdayIndexes at h
    rw [bind_ok] at h
    obtain ⟨i, hi, h⟩ := h
    rw [bind_ok] at h
    obtain ⟨more, hm, h⟩ := h
    injection h with h
    subst h
    rw [List.all_cons, ih hm, Bool.and_true]
    unfold weekdayIndex at hi
    cases hf : icalWeekdays.findIdx? (· = s) with
    | none => rw [hf] at hi; cases hi
    | some j =>
      rw [hf] at hi
      injection hi with hi
      have := (List.findIdx?_eq_some_iff_getElem.1 hf).1
      have h7 : icalWeekdays.length = 7 := rfl
      rw [h7] at this
      subst hi
      simp only [Bool.and_eq_true, decide_eq_true_eq]
      omega

theorem new_says {k : RuleKind} (h : ∀ wds, k = .weekly wds → wds.all (fun w => 0 ≤ w && w ≤ 6) = true) :
    Says (Rule.new k) fun _ => False := by
  have : Rule.new k = .ok ⟨k, 1, none, none, []⟩ := by
    unfold Rule.new Rule.validate
    cases k with
    | weekly wds => simp [h wds rfl]
    | _ => rfl
  rw [this]
  exact Says.ok fun _ h => h

theorem unboundRule_first (rr : RRule) :
    unboundRule rr = if rr.interval = some [] ∨ rr.interval = none ∧ (rr.count = some [] ∨ rr.count = none ∧ rr.untl = some [])
      then .IndexError else .UnboundLocalError := by
  unfold unboundRule
  rcases rr.interval with _ | _ | _ <;> rcases rr.count with _ | _ | _ <;> rcases rr.untl with _ | _ | _ <;> rfl

theorem ruleOfFreq_says (rr : RRule) (f : String) (hf : rr.freq = some f) : Says (ruleOfFreq rr f) (KindFails rr) := by
  unfold ruleOfFreq KindFails
  simp only [hf, reduceCtorEq, false_and, false_or]
  by_cases h1 : f = "DAILY"
  · subst h1
    rw [if_pos rfl]
    exact (new_says (by simp)).congr fun e => by simp
  rw [if_neg h1]
  by_cases h2 : f = "YEARLY"
  · subst h2
    rw [if_pos rfl]
    exact (new_says (by simp)).congr fun e => by simp
  rw [if_neg h2]
  by_cases h3 : f = "WEEKLY"
  · subst h3
    rw [if_pos rfl]
    refine (weekdayIndexes_says _).bind' (Q := fun _ => False) (fun wds hw => new_says fun w hk => ?_) fun e => ?_
    · injection hk with hk
      subst hk
      exact weekdayIndexes_valid hw
    · cases hb : rr.byday with
      | none => simp
      | some l => simp
  rw [if_neg h3]
  by_cases h4 : f = "MONTHLY"
  · subst h4
    rw [if_pos rfl]
    cases hb : rr.byday with
    | none => exact (new_says (by simp)).congr fun e => by simp
    | some l =>
      cases l with
      | nil => exact Says.raise fun e => by simp
      | cons s rest =>
        simp only []
        cases hl : s.toList with
        | nil =>
          have : s = "" := by simpa using hl
          subst this
          exact Says.raise fun e => by simp
        | cons ch cs =>
          have : s ≠ "" := by rintro rfl; simp at hl
          exact (new_says (by simp)).congr fun e => by simp [this]
  · rw [if_neg h4, unboundRule_first]
    by_cases hf : FirstEmpty rr
    · have hf' := hf
      unfold FirstEmpty at hf'
      rw [if_pos hf']
      exact Says.raise fun e => by simp [h1, h2, h3, h4, hf]
    · have hf' := hf
      unfold FirstEmpty at hf'
      rw [if_neg hf']
      exact Says.raise fun e => by simp [h1, h2, h3, h4, hf]

theorem firstOf_says {α : Type} (o : Option (List α)) :
    Says (firstOf o) fun e => o = some [] ∧ e = .IndexError := by
  cases o with
  | none => exact Says.ok fun e => by simp
  | some l =>
    cases l with
    | nil => exact Says.raise fun e => by simp
    | cons x rest => exact Says.ok fun e => by simp

theorem getRecurrenceRule_says (rr : RRule) : Says (getRecurrenceRule rr) (RuleFails rr) := by
  unfold getRecurrenceRule
  cases hf : rr.freq with
  | none =>
    refine Says.raise fun e => ?_
    have : ∀ e, KindFails rr e ↔ e = .KeyError := fun e => by simp [KindFails, hf]
    unfold RuleFails
    simp [this]
  | some f =>
    simp only []
    refine (ruleOfFreq_says rr f hf).bind (fun r _ => ?_)
    refine (firstOf_says rr.interval).bind' (fun i _ => (firstOf_says rr.count).bind (fun n _ =>
      (firstOf_says rr.untl).bind' (Q := fun _ => False) (R := fun e => rr.untl = some [] ∧ e = .IndexError)
        (fun u _ => Says.ok fun _ h => h) fun e => by simp)) fun e => ?_
    by_cases h1 : rr.interval = some []
    · simp [h1]
    · by_cases h2 : rr.count = some []
      · simp [h1, h2]
      · simp [h1, h2]

/-- C113: a component is refused exactly for the described reasons, in this order: no DTSTART (AssertionError), a time
without local time (OverflowError), an organizer and a main attendee unknown to the source (KeyError), a rule without FREQ
(KeyError), with another FREQ than DAILY, WEEKLY, MONTHLY and YEARLY (UnboundLocalError, unless the first of the parts
INTERVAL, COUNT and UNTIL is empty), a weekly rule with a BYDAY that is
not a plain weekday (ValueError), an empty value (IndexError). -/
theorem C113_read (tz : LocalTz) (c : Calendar) (src : Source) (v : VEvent) (f : Fault) :
    importSpec tz c src v = .error f ↔ ∃ e, f = .py e ∧ ReadFails tz c src v e := by
  revert f
  show Says (importSpec tz c src v) (ReadFails tz c src v)
  unfold importSpec
  refine (getDtstartDuration_says tz v).bind (fun x _ => ?_)
  refine (importOrganizer_says c src v).bind (fun o _ => ?_)
  refine Says.bind' (P := fun e => ∃ rr, v.rrule = some rr ∧ RuleFails rr e) (Q := fun _ => False) ?_
    (fun r _ => Says.ok fun _ h => h) fun e => by simp
  unfold importRule
  cases v.rrule with
  | none => exact Says.ok fun e => by simp
  | some rr =>
    simp only []
    exact (getRecurrenceRule_says rr).bind' (Q := fun _ => False) (fun r _ => Says.ok fun _ h => h) fun e => by simp

/-- C113, concrete: one component for every reason. -/
example :
    let read := fun v => (importSpec (fun _ => 0) Sample.cal Sample.src v).map fun _ => ()
    let rule := fun rr => read { Sample.birthday with rrule := some rr }
    read { Sample.birthday with dtstart := none } = raise .AssertionError ∧
    read { Sample.birthday with dtstart := some (.aware 0 1) } = raise .OverflowError ∧
    read { Sample.birthday with dtend := some (.aware 0 1) } = raise .OverflowError ∧
    (importSpec (fun _ => 0) Sample.carol Sample.src Sample.birthday).map (fun _ => ()) = raise .KeyError ∧
    rule { freq := none } = raise .KeyError ∧
    rule { freq := some "HOURLY" } = raise .UnboundLocalError ∧
    rule { freq := some "HOURLY", interval := some [2], count := some [] } = raise .UnboundLocalError ∧
    rule { freq := some "HOURLY", count := some [] } = raise .IndexError ∧
    rule { freq := some "WEEKLY", byday := some ["MO", "-1SU"] } = raise .ValueError ∧
    rule { freq := some "MONTHLY", byday := some [] } = raise .IndexError ∧
    rule { freq := some "DAILY", count := some [] } = raise .IndexError ∧
    rule { freq := some "WEEKLY", byday := some ["MO", "SU"], count := some [3] } = .ok () := by decide +kernel

theorem addressFails_iff (src : Source) (v : VEvent) (e : PyErr) :
    AttendeesFail (v.attendees.map (importAttendee src)) e ↔ AddressFails src v e := by
  have hsome : ∀ p : CalAddress, (importAttendee src p).1.isSome = true ↔ Dict.has src p.addr = true := by
    intro p
    unfold importAttendee Source.fromSpec
    simp only []
    split
    · rename_i h; simp [h]
    · rename_i h; simp [h]
  constructor
  · rintro ⟨pre, a, role, st, post, h, hpre, hx⟩
    obtain ⟨pre', l2, h1, rfl, h2⟩ := List.map_eq_append_iff.1 h
    obtain ⟨p, post', rfl, h3, rfl⟩ := List.map_eq_cons_iff.1 h2
    have hr : p.role.getD "REQ-PARTICIPANT" = role := congrArg (fun x => x.2.1) h3
    have ha : (importAttendee src p).1 = a := congrArg Prod.fst h3
    refine ⟨pre', p, post', h1, fun y hy => ?_, ?_⟩
    · have := hpre _ (List.mem_map.2 ⟨y, hy, rfl⟩)
      exact ⟨(hsome y).1 this.1, this.2⟩
    · rw [hr]
      refine hx.imp id fun ⟨h1, h2, h3⟩ => ⟨h1, ?_, h3⟩
      have := (hsome p).not
      rw [ha, h2] at this
      simpa using this
  · rintro ⟨pre, p, post, h, hpre, hx⟩
    refine ⟨pre.map (importAttendee src), (importAttendee src p).1, p.role.getD "REQ-PARTICIPANT",
      p.partstat.getD "NEEDS-ACTION", post.map (importAttendee src), by rw [h]; simp [importAttendee], ?_, ?_⟩
    · intro y hy
      obtain ⟨q, hq, rfl⟩ := List.mem_map.1 hy
      exact ⟨(hsome q).2 (hpre q hq).1, (hpre q hq).2⟩
    · refine hx.imp id fun ⟨h1, h2, h3⟩ => ⟨h1, ?_, h3⟩
      have := (hsome p).not
      rw [h2] at this
      simpa using this

theorem addressFails_none (src : Source) (v : VEvent) :
    (∀ e, ¬ AddressFails src v e) ↔ ∀ p ∈ v.attendees, AddressOk src p := by
  constructor
  · intro h
    by_contra hc
    obtain ⟨pre, p, post, hl, hp, hpre⟩ : ∃ pre p post, v.attendees = pre ++ p :: post ∧ ¬ AddressOk src p ∧
        ∀ y ∈ pre, AddressOk src y := by
      clear h
      generalize v.attendees = l at hc
      induction l with
      | nil => exact absurd (by simp) hc
      | cons p rest ih =>
        by_cases hp : AddressOk src p
        · obtain ⟨pre, q, post, rfl, hq, hpre⟩ := ih fun hall => hc (by simpa [hp] using hall)
          exact ⟨p :: pre, q, post, rfl, hq, by simpa [hp] using hpre⟩
        · exact ⟨[], p, rest, rfl, hp, by simp⟩
    by_cases hr : RoleOk (p.role.getD "REQ-PARTICIPANT")
    · refine h .AttributeError ⟨pre, p, post, hl, hpre, .inr ⟨hr, ?_, rfl⟩⟩
      cases hh : Dict.has src p.addr with
      | true => exact absurd ⟨hh, hr⟩ hp
      | false => rfl
    · exact h .AssertionError ⟨pre, p, post, hl, hpre, .inl ⟨hr, rfl⟩⟩
  · rintro h e ⟨pre, p, post, hl, _, hx⟩
    have := h p (by rw [hl]; simp)
    rcases hx with ⟨h1, _⟩ | ⟨_, h1, _⟩
    · exact h1 this.2
    · rw [this.1] at h1; cases h1

variable (tz : LocalTz) (c : Calendar) (src : Source)

theorem importAt_says {known : List Uid} {v : VEvent} {u : Uid} (hk : u ∉ known) :
    Says (importAt tz c src known v u none).2
      fun e => ReadFails tz c src v e ∨ (∀ e', ¬ ReadFails tz c src v e') ∧ AddressFails src v e := by
  have h : (importAt tz c src known v u none).2 = (do let spec ← importSpec tz c src v; let _ ← newEvent u spec; .ok ()) := by
    unfold importAt
    rw [if_neg hk]
    simp only []
    cases importSpec tz c src v with
    | error f => rfl
    | ok spec =>
      rw [ok_bind]
      simp only []
      cases newEvent u spec with
      | error f => rfl
      | ok e => rfl
  rw [h]
  refine Says.bind (C113_read tz c src v) fun spec hs => ?_
  refine (newEvent_says u spec).bind' (Q := fun _ => False) (fun _ _ => Says.ok fun _ h => h) fun e => ?_
  have : spec.attendees = v.attendees.map (importAttendee src) := by
    unfold importSpec at hs
    simp only [bind_ok] at hs
    obtain ⟨_, _, _, _, r, hr, hs⟩ := hs
    injection hs with hs
    rw [← hs]
  rw [this, ← addressFails_iff]
  simp

theorem importLoop_says (known : List Uid) (vs : List VEvent) (hd : (dataUids vs).Nodup) (w : World)
    (hnew : ∀ v ∈ vs, ∀ u, v.uid = some u → u ∉ known ∧ Dict.get? w.store.events u = none) :
    Says (World.importLoop tz c src known w vs).2 (FirstFails tz c src vs) := by
  induction vs generalizing w with
  | nil =>
    refine Says.ok ?_
    rintro e ⟨pre, v, post, h, _⟩
    cases pre <;> cases h
  | cons v rest ih =>
    have hfirst : ∀ e, FirstFails tz c src (v :: rest) e ↔
        ComponentFails tz c src v e ∨ (∀ e', ¬ ComponentFails tz c src v e') ∧ FirstFails tz c src rest e := by
      intro e
      constructor
      · rintro ⟨pre, x, post, h, hpre, hx⟩
        cases pre with
        | nil => injection h with h1 h2; subst h1; exact .inl hx
        | cons y pre =>
          injection h with h1 h2
          subst h1
          exact .inr ⟨hpre v (List.mem_cons_self ..), pre, x, post, h2, fun z hz => hpre z (List.mem_cons_of_mem _ hz), hx⟩
      · rintro (h | ⟨h, pre, x, post, rfl, hpre, hx⟩)
        · exact ⟨[], v, rest, rfl, by simp, h⟩
        · refine ⟨v :: pre, x, post, rfl, fun y hy => ?_, hx⟩
          rcases List.mem_cons.1 hy with rfl | hy
          · exact h
          · exact hpre y hy
    rcases importLoop_step tz c src known w v rest with ⟨hno, h⟩ | ⟨uid, huid, h⟩
    · rw [h]
      refine Says.raise fun e => ?_
      have hc : ∀ e, ComponentFails tz c src v e ↔ e = .KeyError := fun e => by simp [ComponentFails, hno]
      rw [hfirst]
      simp [hc]
    · have hone := importOne_at tz c src known w uid v
      obtain ⟨hk, hg⟩ := hnew v (List.mem_cons_self ..) uid huid
      rw [hg] at hone
      have hsays := importAt_says tz c src (v := v) hk
      rw [← hone.2] at hsays
      have hc : ∀ e, ComponentFails tz c src v e ↔
          (ReadFails tz c src v e ∨ (∀ e', ¬ ReadFails tz c src v e') ∧ AddressFails src v e) :=
        fun e => by simp [ComponentFails, huid]
      have hsays : Says (w.importOne tz c src known uid v).2 (ComponentFails tz c src v) := hsays.congr fun e => (hc e).symm
      have hrest : Says (World.importLoop tz c src known (w.importOne tz c src known uid v).1 rest).2
          (FirstFails tz c src rest) := by
        unfold dataUids at hd
        rw [List.filterMap_cons_some huid, List.nodup_cons] at hd
        refine ih hd.2 _ fun v' hv' u hu => ?_
        obtain ⟨h1, h2⟩ := hnew v' (List.mem_cons_of_mem _ hv') u hu
        refine ⟨h1, ?_⟩
        rw [importOne_other w tz c src known uid v, h2]
        rintro rfl
        exact hd.1 (List.mem_filterMap.2 ⟨v', hv', hu⟩)
      have hres : (World.importLoop tz c src known w (v :: rest)).2 =
          (do let _ ← (w.importOne tz c src known uid v).2
              let us ← (World.importLoop tz c src known (w.importOne tz c src known uid v).1 rest).2
              .ok (uid :: us)) := by
        rcases h with ⟨f, hf, h⟩ | ⟨hok, h⟩
        · rw [h, hf]; rfl
        · rw [h, hok, ok_bind]
          simp only []
          cases (World.importLoop tz c src known (w.importOne tz c src known uid v).1 rest).2 <;> rfl
      rw [hres]
      refine hsays.bind' (Q := FirstFails tz c src rest) (fun _ _ => ?_) fun e => (hfirst e).symm
      exact hrest.bind' (Q := fun _ => False) (fun _ _ => Says.ok fun _ h => h) fun e => by simp

variable (parse : List Char → Res (Option (List VEvent))) (text : List Char) (b e : Option Int) (cr : Option Criteria)
  (sync : Bool)

/-- What an import answers, once the calendar and the parser have answered: what its loop answers. -/
theorem import_loop (w : World) (hw : w.store.WF) {l : List Event} {vs : List VEvent}
    (hl : c.getEvents src w.store b e cr = .ok l) (hp : parse (repairText text) = .ok (some vs)) :
    (w.import_ parse tz c src text b e cr sync).2 =
      (World.importLoop tz c src (l.map (·.uid)).dedup w vs).2.map fun _ => () := by
  rcases import_cases w parse tz c src text b e cr sync with ⟨f, hf, _⟩ | ⟨l', hl', h'⟩
  · rw [hl] at hf; cases hf
  · rw [hl] at hl'
    injection hl' with hl'
    subst hl'
    rcases h' with ⟨f, hf, _⟩ | ⟨hf, _⟩ | ⟨vs', hp', ⟨f, hloop, h'⟩ | ⟨uids, hloop, h'⟩⟩
    · rw [hp] at hf; cases hf
    · rw [hp] at hf; cases hf
    · rw [hp] at hp'
      injection hp' with hp'
      injection hp' with hp'
      subst hp'
      rw [h', hloop]
      rfl
    · rw [hp] at hp'
      injection hp' with hp'
      injection hp' with hp'
      subst hp'
      rw [h', hloop]
      split
      · exact (import_removal w hw tz c src b e cr (vs := vs) (uids := uids) hl).1
      · rfl

/-- C113: an import of new events with different uids raises exactly the exception of its first wrong component. -/
theorem C113_new (w : World) (hw : w.store.WF) {l : List Event} {vs : List VEvent}
    (hl : c.getEvents src w.store b e cr = .ok l) (hp : parse (repairText text) = .ok (some vs))
    (hd : (dataUids vs).Nodup) (hnew : ∀ v ∈ vs, ∀ u, v.uid = some u → w.store.hasEvent u = false) (f : Fault) :
    (w.import_ parse tz c src text b e cr sync).2 = .error f ↔ ∃ e', f = .py e' ∧ FirstFails tz c src vs e' := by
  have hnone : ∀ v ∈ vs, ∀ u, v.uid = some u → Dict.get? w.store.events u = none := by
    intro v hv u hu
    cases hg : Dict.get? w.store.events u with
    | none => rfl
    | some x =>
      have := hnew v hv u hu
      rw [Storage.hasEvent_iff.2 ⟨x, hg⟩] at this
      cases this
  have hun : ∀ v ∈ vs, ∀ u, v.uid = some u → u ∉ (l.map (·.uid)).dedup := by
    intro v hv u hu hk
    obtain ⟨ev, _, _, hg⟩ := (known_iff hw hl u).1 hk
    rw [hnone v hv u hu] at hg
    cases hg
  have hs := importLoop_says tz c src (l.map (·.uid)).dedup vs hd w fun v hv u hu => ⟨hun v hv u hu, hnone v hv u hu⟩
  rw [import_loop tz c src parse text b e cr sync w hw hl hp, ← hs f]
  cases (World.importLoop tz c src (l.map (·.uid)).dedup w vs).2 with
  | error g =>
    show (Except.error g : Res Unit) = _ ↔ _
    simp
  | ok us =>
    show (Except.ok () : Res Unit) = _ ↔ _
    simp

/-- C113, concrete: the second component is the first wrong one; its second attendee is not known, the third has a wrong
role. -/
example :
    let w := freshWorld "st" "host"
    let wrong : VEvent := { Sample.birthday with
      uid := some "x", attendees := [{ addr := "bob" }, { addr := "zoe" }, { addr := "bob", role := some "BOSS" }] }
    let f := fun vs => (w.import_ (fun _ => .ok (some vs)) (fun _ => 0) Sample.cal Sample.src [] none none none true).2
    f [Sample.birthday, wrong, { Sample.birthday with uid := none }] = raise .AttributeError ∧
    f [Sample.birthday, { Sample.birthday with uid := none }, wrong] = raise .KeyError ∧
    f [Sample.birthday, { wrong with attendees := wrong.attendees.reverse }] = raise .AssertionError ∧
    f [Sample.birthday, { wrong with attendees := wrong.attendees.take 1 }] = .ok () := by decide +kernel

theorem willModifyLoop_returns (o : Event) (L : List (Option AttId × String × String))
    (h : ∀ p ∈ L, ∃ a, p.1 = some a) : ∃ b, willModifyLoop o L = .ok b := by
  induction L with
  | nil => exact ⟨false, rfl⟩
  | cons p rest ih =>
    obtain ⟨a, role, st⟩ := p
    obtain ⟨a', ha⟩ := h _ (List.mem_cons_self ..)
    simp only [] at ha
    subst ha
    unfold willModifyLoop
    simp only []
    split
    · exact ⟨true, rfl⟩
    · exact ih fun p hp => h p (List.mem_cons_of_mem _ hp)

theorem importOne_returns {known : List Uid} {w : World} {v : VEvent} {u : Uid} (hc : c ≠ [])
    (hk : u ∈ known → ∃ ev, Dict.get? w.store.events u = some ev) (hr : ∀ e', ¬ ReadFails tz c src v e')
    (ha : ∀ p ∈ v.attendees, AddressOk src p) : (w.importOne tz c src known u v).2 = .ok () := by
  obtain ⟨spec, hs⟩ := (Says.none_ok (C113_read tz c src v)).2 hr
  have hs' := hs
  unfold importSpec at hs'
  simp only [bind_ok] at hs'
  obtain ⟨_, _, o, ho, r, _, hs'⟩ := hs'
  injection hs' with hs'
  have hatt : spec.attendees = v.attendees.map (importAttendee src) := by rw [← hs']
  have horg : spec.organizer = o := by rw [← hs']
  have hno : ∀ e', ¬ AttendeesFail spec.attendees e' := by
    intro e' he
    rw [hatt, addressFails_iff] at he
    exact (addressFails_none src v).2 ha e' he
  have hsome : ∃ a, o = some a := by
    unfold importOrganizer at ho
    cases hb : v.organizer.bind src.fromSpec with
    | some a => rw [hb] at ho; injection ho with ho; exact ⟨a, ho.symm⟩
    | none =>
      rw [hb] at ho
      simp only [] at ho
      unfold Calendar.main Calendar.mainId at ho
      cases c with
      | nil => exact absurd rfl hc
      | cons p rest =>
        obtain ⟨a, _⟩ := p
        simp only [Dict.keys, List.map_cons, List.head?_cons, bind_ok] at ho
        obtain ⟨x, _, ho⟩ := ho
        injection ho with ho
        exact ⟨x, ho.symm⟩
  obtain ⟨a, rfl⟩ := hsome
  rw [(importOne_at tz c src known w u v).2]
  unfold importAt
  by_cases hkn : u ∈ known
  · rw [if_pos hkn]
    obtain ⟨ev, hev⟩ := hk hkn
    rw [hev]
    simp only [hs]
    have hwm : ∃ x, spec.willModify ev = .ok x := by
      unfold Spec.willModify
      split
      · exact ⟨true, rfl⟩
      · rw [horg]
        simp only []
        split
        · exact ⟨true, rfl⟩
        · refine willModifyLoop_returns _ _ fun p hp => ?_
          rw [hatt] at hp
          obtain ⟨q, hq, rfl⟩ := List.mem_map.1 hp
          exact ⟨q.addr, by simp [importAttendee, Source.fromSpec, (ha q hq).1]⟩
    obtain ⟨x, hx⟩ := hwm
    rw [hx]
    cases x with
    | false => rfl
    | true =>
      simp only []
      obtain ⟨y, hy⟩ := (Says.none_ok (setAttendeesLoop_says spec.attendees (spec.setOrganizer (spec.setAttrs ev)))).2 hno
      exact hy
  · rw [if_neg hkn]
    cases Dict.get? w.store.events u with
    | some ev => rfl
    | none =>
      simp only [hs]
      obtain ⟨y, hy⟩ := (Says.none_ok (newEvent_says u spec)).2 hno
      rw [hy]

theorem importLoop_returns (hc : c ≠ []) (known : List Uid) (vs : List VEvent) (w : World)
    (hk : ∀ u ∈ known, ∃ ev, Dict.get? w.store.events u = some ev)
    (hv : ∀ v ∈ vs, v.uid ≠ none ∧ (∀ e', ¬ ReadFails tz c src v e') ∧ ∀ p ∈ v.attendees, AddressOk src p) :
    ∃ uids, (World.importLoop tz c src known w vs).2 = .ok uids := by
  induction vs generalizing w with
  | nil => exact ⟨[], rfl⟩
  | cons v rest ih =>
    obtain ⟨h1, h2, h3⟩ := hv v (List.mem_cons_self ..)
    rcases importLoop_step tz c src known w v rest with ⟨hno, h⟩ | ⟨uid, huid, ⟨f, hf, _⟩ | ⟨_, h⟩⟩
    · exact absurd hno h1
    · rw [importOne_returns tz c src hc (fun hu => hk uid hu) h2 h3] at hf
      cases hf
    · obtain ⟨us, hus⟩ := ih (w.importOne tz c src known uid v).1
        (fun u hu => importOne_keeps w tz c src known uid v (hk u hu))
        (fun v hv' => hv v (List.mem_cons_of_mem _ hv'))
      rw [h, hus]
      exact ⟨uid :: us, rfl⟩

/-- C113: whatever is stored, an import into a calendar with attendees returns if the calendar can be queried, every
component has a uid and can be read, and all attendees are known to the source and have documented roles. -/
theorem C113_returns (w : World) (hw : w.store.WF) (hc : c ≠ []) {l : List Event} {vs : List VEvent}
    (hl : c.getEvents src w.store b e cr = .ok l) (hp : parse (repairText text) = .ok (some vs))
    (hv : ∀ v ∈ vs, v.uid ≠ none ∧ (∀ e', ¬ ReadFails tz c src v e') ∧ ∀ p ∈ v.attendees, AddressOk src p) :
    (w.import_ parse tz c src text b e cr sync).2 = .ok () := by
  rw [import_loop tz c src parse text b e cr sync w hw hl hp]
  obtain ⟨us, hus⟩ := importLoop_returns tz c src hc (l.map (·.uid)).dedup vs w (fun u hu => by
    obtain ⟨ev, _, _, hg⟩ := (known_iff hw hl u).1 hu
    exact ⟨ev, hg⟩) hv
  rw [hus]
  rfl

/-- C113 needs a calendar with attendees: an event without organizer is imported for the first time into a calendar that
nobody belongs to, and would be for the second time if it were visible there; but an import into such a calendar shows
nothing. -/
example :
    let f := fun w : World =>
      w.import_ (fun _ => .ok (some [Sample.birthday])) (fun _ => 0) ([] : Calendar) Sample.src [] none none none true
    (f (freshWorld "st" "host")).2 = .ok () ∧ (f (f (freshWorld "st" "host")).1).2 = .ok () ∧
    (f (freshWorld "st" "host")).1.store.hasEvent "b" = true := by decide +kernel

/-- C113, concrete: an update, a new event and one that somebody else has already stored. -/
example :
    let w := (freshWorld "st" "host").run [Sample.imp [Sample.birthday] false,
      .import_ (fun _ => 0) Sample.carol Sample.src3 [{ Sample.clash with uid := some "c" }] none none none false]
    let r := w.import_ (fun _ => .ok (some [{ Sample.birthday with summary := some "party" },
        { Sample.birthday with uid := some "c" }, { Sample.birthday with uid := some "d" }])) (fun _ => 0)
      Sample.cal Sample.src [] none none none true
    r.2 = .ok () ∧ (r.1.store.getEvent "b").map (·.title) = .ok "party" ∧
    (r.1.store.getEvent "c").map (·.title) = .ok "stolen" ∧ (r.1.store.getEvent "d").map (·.title) = .ok "birthday" := by
  decide +kernel

theorem importLoop_refuses (known : List Uid) (pre post : List VEvent) (v : VEvent) (u : Uid) (w : World)
    (hu : v.uid = some u) (hpre : ∀ x ∈ pre, x.uid ≠ some u) (hk : u ∈ known ∨ Dict.get? w.store.events u = none)
    (hr : ∃ e', ReadFails tz c src v e') (uids : List Uid) :
    (World.importLoop tz c src known w (pre ++ v :: post)).2 ≠ .ok uids := by
  induction pre generalizing w uids with
  | nil =>
    intro hok
    simp only [List.nil_append] at hok
    rcases importLoop_step tz c src known w v post with ⟨hno, h⟩ | ⟨uid, huid, ⟨f, _, h⟩ | ⟨hone, _⟩⟩
    · rw [hno] at hu; cases hu
    · rw [h] at hok; cases hok
    · rw [hu] at huid
      injection huid with huid
      subst huid
      rw [(importOne_at tz c src known w u v).2] at hone
      obtain ⟨spec, _, hs, _⟩ := importAt_ok tz c src hone hk
      obtain ⟨e', he⟩ := hr
      exact (Says.none_ok (C113_read tz c src v)).1 ⟨spec, hs⟩ e' he
  | cons x rest ih =>
    intro hok
    rw [List.cons_append] at hok
    rcases importLoop_step tz c src known w x (rest ++ v :: post) with ⟨hno, h⟩ | ⟨uid, huid, ⟨f, _, h⟩ | ⟨_, h⟩⟩
    · rw [h] at hok; cases hok
    · rw [h] at hok; cases hok
    · rw [h] at hok
      simp only [] at hok
      cases hr' : (World.importLoop tz c src known (w.importOne tz c src known uid x).1 (rest ++ v :: post)).2 with
      | error f => rw [hr'] at hok; cases hok
      | ok us =>
        refine ih (w.importOne tz c src known uid x).1 (fun y hy => hpre y (List.mem_cons_of_mem _ hy)) ?_ us hr'
        refine hk.imp id fun hg => ?_
        rw [importOne_other w tz c src known uid x, hg]
        rintro rfl
        exact hpre x (List.mem_cons_self ..) huid

/-- C113: an import does not return if the first component with some uid cannot be read, unless an event with that uid is
stored that the calendar does not show. -/
theorem C113_refused (w : World) (hw : w.store.WF) {l : List Event} {pre post : List VEvent} {v : VEvent} {u : Uid}
    (hl : c.getEvents src w.store b e cr = .ok l) (hp : parse (repairText text) = .ok (some (pre ++ v :: post)))
    (hu : v.uid = some u) (hpre : ∀ x ∈ pre, x.uid ≠ some u)
    (hk : (∃ ev ∈ l, ev.uid = u) ∨ w.store.hasEvent u = false) (e' : PyErr) (hr : ReadFails tz c src v e') :
    ∃ f, (w.import_ parse tz c src text b e cr sync).2 = .error f := by
  rw [import_loop tz c src parse text b e cr sync w hw hl hp]
  cases h : (World.importLoop tz c src (l.map (·.uid)).dedup w (pre ++ v :: post)).2 with
  | error f => exact ⟨f, rfl⟩
  | ok us => exact absurd h (importLoop_refuses tz c src _ pre post v u w hu hpre (knownOrNew hk) ⟨e', hr⟩ us)

/-- C113, concrete: data that cannot be read are refused for a new uid and for that of an event of the calendar, but not
under the uid of somebody else's event. -/
example :
    let w := (freshWorld "st" "host").run [Sample.imp [Sample.birthday] false,
      .import_ (fun _ => 0) Sample.carol Sample.src3 [{ Sample.clash with uid := some "c" }] none none none false]
    let f := fun u => (w.import_ (fun _ => .ok (some [{ Sample.birthday with uid := some u, dtstart := none }]))
      (fun _ => 0) Sample.cal Sample.src [] none none none false).2
    f "b" = raise .AssertionError ∧ f "c" = .ok () ∧ f "d" = raise .AssertionError := by decide +kernel

/-- C113: an import does not return if a component has no uid. -/
theorem C113_uid (w : World) (hw : w.store.WF) {l : List Event} {vs : List VEvent}
    (hl : c.getEvents src w.store b e cr = .ok l) (hp : parse (repairText text) = .ok (some vs))
    (hu : ∃ v ∈ vs, v.uid = none) : ∃ f, (w.import_ parse tz c src text b e cr sync).2 = .error f := by
  rw [import_loop tz c src parse text b e cr sync w hw hl hp]
  generalize (l.map (·.uid)).dedup = known
  clear hl hp hw
  suffices h : ∀ (us : List Uid), (World.importLoop tz c src known w vs).2 ≠ .ok us by
    cases h' : (World.importLoop tz c src known w vs).2 with
    | error f => exact ⟨f, rfl⟩
    | ok us => exact absurd h' (h us)
  induction vs generalizing w with
  | nil => obtain ⟨v, hv, _⟩ := hu; cases hv
  | cons x rest ih =>
    intro us hok
    rcases importLoop_step tz c src known w x rest with ⟨hno, h⟩ | ⟨uid, huid, ⟨f, _, h⟩ | ⟨_, h⟩⟩
    · rw [h] at hok; cases hok
    · rw [h] at hok; cases hok
    · have : ∃ v ∈ rest, v.uid = none := by
        obtain ⟨v, hv, hvu⟩ := hu
        rcases List.mem_cons.1 hv with rfl | hv
        · rw [huid] at hvu; cases hvu
        · exact ⟨v, hv, hvu⟩
      rw [h] at hok
      cases hr' : (World.importLoop tz c src known (w.importOne tz c src known uid x).1 rest).2 with
      | error f => rw [hr'] at hok; cases hok
      | ok us => exact ih (w.importOne tz c src known uid x).1 this us hr'

/-- C113, concrete. -/
example :
    ((freshWorld "st" "host").import_ (fun _ => .ok (some [Sample.birthday, { Sample.birthday with uid := none }]))
      (fun _ => 0) Sample.cal Sample.src [] none none none false).2 = raise .KeyError := by decide +kernel

end CalCore
