import Verif.Lemmas.ICalText
import Verif.Lemmas.Rules
import Verif.Props.Samples
/- Property C57: the iCalendar text of a rule. -/
namespace CalCore
open Spec

/-- A rule whose text says everything: no zero count, not both count and until, and only proper dates. -/
structure Spec.Tellable (r : Rule) : Prop where
  count : r.count ≠ some 0
  both : r.count = none ∨ r.untl = none
  untl : ∀ u, r.untl = some u → ∃ d, u = .date d ∧ dateInRange d = true
  exceptions : ∀ d ∈ r.exceptions, dateInRange d = true

/-- The bound as a field of the RRULE line. -/
inductive BoundField (r : Rule) : List (List Char) → Prop
  | none (h1 : r.count = none) (h2 : r.untl = none) : BoundField r []
  | count (c : Int) (h1 : r.count = some c) (h2 : r.untl = none) : BoundField r ['C' :: ("OUNT=".toList ++ (toString c).toList)]
  | untl (d : Int) (t : String) (h1 : r.count = none) (h2 : r.untl = some (.date d)) (hr : dateInRange d = true)
      (h3 : icalDate d = .ok t) : BoundField r ['U' :: ("NTIL=".toList ++ (t.toList ++ "T000000".toList))]

/-- The day selection as a field of the RRULE line. -/
inductive DayField (d : Int) : RuleKind → List (List Char) → Prop
  | daily : DayField d .daily []
  | yearly : DayField d .yearly []
  | weekly : DayField d (.weekly []) []
  | weekdays (wds : List Int) (names : List String) (h1 : wds ≠ []) (h2 : wds.mapM icalWeekday = .ok names) :
      DayField d (.weekly wds) ['B' :: ("YDAY=".toList ++ (String.intercalate "," names).toList)]
  | monthday : DayField d (.monthly .monthday) ['B' :: ("YMONTHDAY=".toList ++ (toString (dday d)).toList)]
  | weekday (n : String) (h : icalWeekday (weekday d) = .ok n) :
      DayField d (.monthly .weekday) ['B' :: ("YDAY=".toList ++ ((toString ((dday d - 1) / 7 + 1)).toList ++ n.toList))]
  | lastweekday (n : String) (h : icalWeekday (weekday d) = .ok n) :
      DayField d (.monthly .lastweekday) ['B' :: ("YDAY=".toList ++ ((toString (-1 : Int)).toList ++ n.toList))]

theorem icalBound_field {r : Rule} (hr : Tellable r) {s : String} (h : r.icalBound = .ok s) :
    ∃ B, BoundField r B ∧ s.toList = B.flatMap (fun l => l ++ [';']) := by
  obtain ⟨h0, hb, hu, _⟩ := hr
  unfold Rule.icalBound at h
  cases hc : r.count with
  | some c =>
    rw [hc] at h hb h0
    have hun : r.untl = none := by simpa using hb
    have hc0 : c ≠ 0 := fun h => h0 (by rw [h])
    simp only [if_pos hc0, Except.ok.injEq] at h
    subst h
    refine ⟨_, .count c hc hun, ?_⟩
    simp only [String.toList_append, List.flatMap_singleton]
    rfl
  | none =>
    rw [hc] at h
    cases hun : r.untl with
    | none =>
      rw [hun] at h
      injection h with h
      subst h
      exact ⟨[], .none hc hun, rfl⟩
    | some u =>
      obtain ⟨d, rfl, hd⟩ := hu u hun
      rw [hun] at h
      simp only [icalDateTime, bind_ok, Except.ok.injEq] at h
      obtain ⟨_, ⟨t, h1, rfl⟩, rfl⟩ := h
      refine ⟨_, .untl d t hc hun hd h1, ?_⟩
      have : icalTime 0 = "000000" := by decide +kernel
      simp only [String.toList_append, List.flatMap_singleton, this]
      simp

theorem icalArgs_field {r : Rule} {s : Int} {x : Option String} (hk : r.kind.icalFreq ≠ none)
    (h : r.icalArgs s = .ok x) :
    ∃ E, DayField (dtDate s) r.kind E ∧
      (x.map (fun t => t.toList ++ [';'])).getD [] = E.flatMap (fun l => l ++ [';']) := by
  unfold Rule.icalArgs at h
  simp only [] at h
  cases hkind : r.kind with
  | basic => rw [hkind] at hk; exact absurd rfl hk
  | no => rw [hkind] at hk; exact absurd rfl hk
  | daily => rw [hkind] at h; injection h with h; subst h; exact ⟨_, .daily, rfl⟩
  | yearly => rw [hkind] at h; injection h with h; subst h; exact ⟨_, .yearly, rfl⟩
  | weekly wds =>
    rw [hkind] at h
    simp only [] at h
    split at h
    · rename_i hw; subst hw; injection h with h; subst h; exact ⟨_, .weekly, rfl⟩
    · rename_i hw
      simp only [bind_ok, Except.ok.injEq] at h
      obtain ⟨names, h1, rfl⟩ := h
      refine ⟨_, .weekdays wds names hw h1, ?_⟩
      simp only [Option.map_some, Option.getD_some, String.toList_append, List.flatMap_singleton]
      rfl
  | monthly m =>
    rw [hkind] at h
    cases m with
    | monthday =>
      injection h with h; subst h
      refine ⟨_, .monthday, ?_⟩
      simp only [Option.map_some, Option.getD_some, String.toList_append, List.flatMap_singleton]
      rfl
    | weekday =>
      simp only [bind_ok, Except.ok.injEq] at h
      obtain ⟨n, h1, rfl⟩ := h
      refine ⟨_, .weekday n h1, ?_⟩
      simp only [Option.map_some, Option.getD_some, String.toList_append, List.flatMap_singleton]
      rw [show "BYDAY=".toList = 'B' :: "YDAY=".toList from rfl]
      simp only [List.append_assoc, List.cons_append]
    | lastweekday =>
      simp only [bind_ok, Except.ok.injEq] at h
      obtain ⟨n, h1, rfl⟩ := h
      refine ⟨_, .lastweekday n h1, ?_⟩
      simp only [Option.map_some, Option.getD_some, String.toList_append, List.flatMap_singleton]
      rfl

/-- Fields ended by semicolons, and a last one, are fields joined by semicolons. -/
theorem flatMap_intercalate (ls : List (List Char)) (x : Char) (last : List Char) :
    ls.flatMap (fun l => l ++ [x]) ++ last = [x].intercalate (ls ++ [last]) := by
  induction ls with
  | nil => simp
  | cons a ls ih =>
    rw [List.flatMap_cons, List.append_assoc, List.append_assoc, ih]
    cases ls with
    | nil => simp [List.intercalate_cons_cons]
    | cons b ls =>
      simp only [List.cons_append, List.intercalate_cons_cons]
      simp

/-- The text of a rule in fields. -/
theorem icalRepresentation_fields {r : Rule} (hr : Tellable r) {s : Int} {T : List String}
    (h : r.icalRepresentation s = .ok T) :
    ∃ freq B E line, r.kind.icalFreq = some freq ∧ BoundField r B ∧ DayField (dtDate s) r.kind E ∧
      line.toList = [';'].intercalate ((["RRULE:FREQ=".toList ++ freq.toList] ++ (B ++ E)) ++
        ['I' :: ("NTERVAL=".toList ++ (toString r.interval).toList)]) ∧
      ((r.exceptions = [] ∧ T = [line]) ∨ (r.exceptions ≠ [] ∧ ∃ dates, r.exceptions.mapM icalDate = .ok dates ∧
        T = [line, "EXDATE;VALUE=DATE:" ++ String.intercalate "," dates])) := by
  unfold Rule.icalRepresentation at h
  cases hf : r.kind.icalFreq with
  | none => rw [hf] at h; cases h
  | some freq =>
    rw [hf] at h
    simp only [bind_ok] at h
    obtain ⟨bound, hb, extra, he, h⟩ := h
    obtain ⟨B, hB, hBt⟩ := icalBound_field hr hb
    obtain ⟨E, hE, hEt⟩ := icalArgs_field (by rw [hf]; simp) he
    cases extra with
    | none =>
      simp only [] at h
      generalize hl : ("RRULE:FREQ=" ++ freq ++ ";" ++ bound ++ "INTERVAL=" ++ toString r.interval) = line at h
      refine ⟨freq, B, E, line, rfl, hB, hE, ?_, exceptions_line h⟩
      rw [← flatMap_intercalate, ← hl]
      rw [List.flatMap_append, List.flatMap_append, ← hBt, ← hEt]
      simp
    | some x =>
      simp only [] at h
      generalize hl : ("RRULE:FREQ=" ++ freq ++ ";" ++ (bound ++ x ++ ";") ++ "INTERVAL=" ++ toString r.interval) = line at h
      refine ⟨freq, B, E, line, rfl, hB, hE, ?_, exceptions_line h⟩
      rw [← flatMap_intercalate, ← hl]
      rw [List.flatMap_append, List.flatMap_append, ← hBt, ← hEt]
      simp
where
  exceptions_line {r : Rule} {line : String} {T : List String}
      (h : (if r.exceptions = [] then .ok [line] else r.exceptions.mapM icalDate >>= fun dates =>
        (.ok [line, "EXDATE;VALUE=DATE:" ++ String.intercalate "," dates] : Res (List String))) = .ok T) :
      (r.exceptions = [] ∧ T = [line]) ∨ (r.exceptions ≠ [] ∧ ∃ dates, r.exceptions.mapM icalDate = .ok dates ∧
        T = [line, "EXDATE;VALUE=DATE:" ++ String.intercalate "," dates]) := by
    split at h
    · rename_i hx; injection h with h; exact Or.inl ⟨hx, h.symm⟩
    · rename_i hx
      simp only [bind_ok, Except.ok.injEq] at h
      obtain ⟨dates, hd, h⟩ := h
      exact Or.inr ⟨hx, dates, hd, h.symm⟩

theorem freq_chars {k : RuleKind} {f : String} (h : k.icalFreq = some f) : ';' ∉ f.toList := by
  cases k with
  | basic => cases h
  | no => cases h
  | daily => injection h with h; subst h; decide
  | yearly => injection h with h; subst h; decide
  | weekly w => injection h with h; subst h; decide
  | monthly m => injection h with h; subst h; decide

theorem not_semicolon {ch : Char} (h : ch.isDigit = true ∨ ch = '-') : ch ≠ ';' ∧ ch ≠ ',' := by
  rcases h with h | h
  · constructor <;> (rintro rfl; revert h; decide)
  · subst h; decide

theorem boundField_chars {r : Rule} {B : List (List Char)} (h : BoundField r B) : ∀ l ∈ B, ';' ∉ l := by
  cases h with
  | none => simp
  | count c h1 h2 =>
    intro l hl hm
    rw [List.mem_singleton] at hl
    subst hl
    rw [List.mem_cons, List.mem_append] at hm
    rcases hm with hm | hm | hm
    · revert hm; decide
    · revert hm; decide
    · exact (not_semicolon (int_chars c hm)).1 rfl
  | untl d t h1 h2 hr h3 =>
    intro l hl hm
    rw [List.mem_singleton] at hl
    subst hl
    rw [List.mem_cons, List.mem_append, List.mem_append] at hm
    rcases hm with hm | hm | hm | hm
    · revert hm; decide
    · revert hm; decide
    · exact (not_semicolon (Or.inl (icalDate_chars hr h3 hm))).1 rfl
    · revert hm; decide

theorem dayField_chars {d : Int} {k : RuleKind} {E : List (List Char)} (h : DayField d k E) : ∀ l ∈ E, ';' ∉ l := by
  cases h with
  | daily => simp
  | yearly => simp
  | weekly => simp
  | weekdays wds names h1 h2 =>
    intro l hl hm
    rw [List.mem_singleton] at hl
    subst hl
    rw [List.mem_cons, List.mem_append, String.toList_intercalate] at hm
    rcases hm with hm | hm | hm
    · revert hm; decide
    · revert hm; decide
    · rcases mem_intercalate (x := ',') hm with hm | ⟨l, hl, hm⟩
      · revert hm; decide
      · rw [List.mem_map] at hl
        obtain ⟨n, hn, rfl⟩ := hl
        obtain ⟨w, _, hw⟩ := mapM_mem h2 n hn
        exact (icalWeekday_chars hw).2 hm
  | monthday =>
    intro l hl hm
    rw [List.mem_singleton] at hl
    subst hl
    rw [List.mem_cons, List.mem_append] at hm
    rcases hm with hm | hm | hm
    · revert hm; decide
    · revert hm; decide
    · exact (not_semicolon (int_chars _ hm)).1 rfl
  | weekday n h =>
    intro l hl hm
    rw [List.mem_singleton] at hl
    subst hl
    rw [List.mem_cons, List.mem_append, List.mem_append] at hm
    rcases hm with hm | hm | hm | hm
    · revert hm; decide
    · revert hm; decide
    · exact (not_semicolon (int_chars _ hm)).1 rfl
    · exact (icalWeekday_chars h).2 hm
  | lastweekday n h =>
    intro l hl hm
    rw [List.mem_singleton] at hl
    subst hl
    rw [List.mem_cons, List.mem_append, List.mem_append] at hm
    rcases hm with hm | hm | hm | hm
    · revert hm; decide
    · revert hm; decide
    · exact (not_semicolon (int_chars _ hm)).1 rfl
    · exact (icalWeekday_chars h).2 hm

theorem int_text_inj {a b : Int} (h : (toString a : String).toList = (toString b : String).toList) : a = b :=
  Int.repr_injective (String.toList_inj.1 h)

/-- The fields determine the bound. -/
theorem boundField_inj {r r' : Rule} {l : List Char} (h : BoundField r [l]) (h' : BoundField r' [l]) :
    r.count = r'.count ∧ r.untl = r'.untl := by
  cases h with
  | count c h1 h2 =>
    generalize hl : [('C' :: ("OUNT=".toList ++ (toString c).toList) : List Char)] = L at h'
    cases h' with
    | none => cases hl
    | count c' h1' h2' =>
      injection hl with hl _
      injection hl with _ hl
      rw [h1, h1', h2, h2', int_text_inj (List.append_cancel_left hl)]
      exact ⟨rfl, rfl⟩
    | untl d t _ _ _ _ => injection hl with hl _; injection hl with hl _; exact absurd hl (by decide)
  | untl d t h1 h2 hr h3 =>
    generalize hl : [('U' :: ("NTIL=".toList ++ (t.toList ++ "T000000".toList)) : List Char)] = L at h'
    cases h' with
    | none => cases hl
    | count c' h1' h2' => injection hl with hl _; injection hl with hl _; exact absurd hl (by decide)
    | untl d' t' h1' h2' hr' h3' =>
      injection hl with hl _
      injection hl with _ hl
      have := List.append_cancel_right (List.append_cancel_left hl)
      have := String.toList_inj.1 this
      subst this
      rw [h1, h1', h2, h2', icalDate_inj hr hr' h3 h3']
      exact ⟨rfl, rfl⟩

theorem boundField_nil {r : Rule} (h : BoundField r []) : r.count = none ∧ r.untl = none := by
  cases h with
  | none h1 h2 => exact ⟨h1, h2⟩

/-- The fields and the frequency determine the kind. -/
theorem dayField_inj {d : Int} {k k' : RuleKind} {E : List (List Char)} (hf : k.icalFreq = k'.icalFreq)
    (h : DayField d k E) (h' : DayField d k' E) : k = k' := by
  have hday := (validYmd_date d).2.2.1
  cases h with
  | daily => cases h' <;> first | rfl | (exact absurd hf (by simp [RuleKind.icalFreq]))
  | yearly => cases h' <;> first | rfl | (exact absurd hf (by simp [RuleKind.icalFreq]))
  | weekly => cases h' <;> first | rfl | (exact absurd hf (by simp [RuleKind.icalFreq]))
  | weekdays wds names h1 h2 =>
    generalize hl : [('B' :: ("YDAY=".toList ++ (String.intercalate "," names).toList) : List Char)] = L at h'
    cases h' with
    | daily => cases hl
    | yearly => cases hl
    | weekly => cases hl
    | weekdays wds' names' h1' h2' =>
      injection hl with hl _
      injection hl with _ hl
      have := join_inj (x := ',') rfl (mapM_ne_nil h2 h1) (mapM_ne_nil h2' h1')
        (fun s hs => by obtain ⟨w, _, hw⟩ := mapM_mem h2 s hs; exact (icalWeekday_chars hw).1)
        (fun s hs => by obtain ⟨w, _, hw⟩ := mapM_mem h2' s hs; exact (icalWeekday_chars hw).1)
        (List.append_cancel_left hl)
      subst this
      rw [mapM_inj (P := fun _ => True) (fun a a' b _ _ h h' => icalWeekday_inj h h') (fun _ _ => trivial)
        (fun _ _ => trivial) h2 h2']
    | monthday => exact absurd hf (by simp [RuleKind.icalFreq])
    | weekday => exact absurd hf (by simp [RuleKind.icalFreq])
    | lastweekday => exact absurd hf (by simp [RuleKind.icalFreq])
  | monthday =>
    generalize hl : [('B' :: ("YMONTHDAY=".toList ++ (toString (dday d)).toList) : List Char)] = L at h'
    cases h' with
    | daily => cases hl
    | yearly => cases hl
    | weekly => cases hl
    | weekdays => exact absurd hf (by simp [RuleKind.icalFreq])
    | monthday => rfl
    | weekday n h =>
      injection hl with hl _
      injection hl with _ hl
      injection hl with _ hl
      injection hl with hl _
      exact absurd hl (by decide)
    | lastweekday n h =>
      injection hl with hl _
      injection hl with _ hl
      injection hl with _ hl
      injection hl with hl _
      exact absurd hl (by decide)
  | weekday n h =>
    generalize hl : [('B' :: ("YDAY=".toList ++ ((toString ((dday d - 1) / 7 + 1)).toList ++ n.toList)) : List Char)] = L at h'
    cases h' with
    | daily => cases hl
    | yearly => cases hl
    | weekly => cases hl
    | weekdays => exact absurd hf (by simp [RuleKind.icalFreq])
    | monthday =>
      injection hl with hl _
      injection hl with _ hl
      injection hl with _ hl
      injection hl with hl _
      exact absurd hl (by decide)
    | weekday => rfl
    | lastweekday n' h' =>
      injection hl with hl _
      injection hl with _ hl
      rw [h] at h'
      injection h' with h'
      subst h'
      have := int_text_inj (List.append_cancel_right (List.append_cancel_left hl))
      omega
  | lastweekday n h =>
    generalize hl : [('B' :: ("YDAY=".toList ++ ((toString (-1 : Int)).toList ++ n.toList)) : List Char)] = L at h'
    cases h' with
    | daily => cases hl
    | yearly => cases hl
    | weekly => cases hl
    | weekdays => exact absurd hf (by simp [RuleKind.icalFreq])
    | monthday =>
      injection hl with hl _
      injection hl with _ hl
      injection hl with _ hl
      injection hl with hl _
      exact absurd hl (by decide)
    | weekday n' h' =>
      injection hl with hl _
      injection hl with _ hl
      rw [h] at h'
      injection h' with h'
      subst h'
      have := int_text_inj (List.append_cancel_right (List.append_cancel_left hl))
      omega
    | lastweekday => rfl

theorem boundField_cases {r : Rule} {B : List (List Char)} (h : BoundField r B) :
    B = [] ∨ ∃ ch l, B = [ch :: l] ∧ (ch = 'C' ∨ ch = 'U') := by
  cases h with
  | none => exact Or.inl rfl
  | count => exact Or.inr ⟨_, _, rfl, Or.inl rfl⟩
  | untl => exact Or.inr ⟨_, _, rfl, Or.inr rfl⟩

theorem dayField_cases {d : Int} {k : RuleKind} {E : List (List Char)} (h : DayField d k E) :
    E = [] ∨ ∃ l, E = ['B' :: l] := by
  cases h with
  | daily => exact Or.inl rfl
  | yearly => exact Or.inl rfl
  | weekly => exact Or.inl rfl
  | weekdays => exact Or.inr ⟨_, rfl⟩
  | monthday => exact Or.inr ⟨_, rfl⟩
  | weekday => exact Or.inr ⟨_, rfl⟩
  | lastweekday => exact Or.inr ⟨_, rfl⟩

/-- C57: the text determines the rule.  Missing: rules with count zero and rules whose `until` is a datetime,
for which it is false (`C57_counterexample`); rules with both count and until, which cannot be constructed. -/
theorem C57_text_partial (r r' : Rule) (hr : Tellable r) (hr' : Tellable r') (s : Int) (T : List String)
    (h : r.icalRepresentation s = .ok T) (h' : r'.icalRepresentation s = .ok T) : r = r' := by
  obtain ⟨freq, B, E, line, hf, hB, hE, hline, hT⟩ := icalRepresentation_fields hr h
  obtain ⟨freq', B', E', line', hf', hB', hE', hline', hT'⟩ := icalRepresentation_fields hr' h'
  have hex : line = line' ∧ r.exceptions = r'.exceptions := by
    rcases hT with ⟨h1, rfl⟩ | ⟨h1, dates, h2, rfl⟩
    · rcases hT' with ⟨h1', h3⟩ | ⟨h1', dates', h2', h3⟩
      · injection h3 with h3 _; exact ⟨h3, by rw [h1, h1']⟩
      · injection h3 with _ h3; cases h3
    · rcases hT' with ⟨h1', h3⟩ | ⟨h1', dates', h2', h3⟩
      · injection h3 with _ h3; cases h3
      · injection h3 with h3 h4
        injection h4 with h4 _
        refine ⟨h3, ?_⟩
        have h5 := congrArg String.toList h4
        rw [String.toList_append, String.toList_append] at h5
        have := join_inj (x := ',') rfl (mapM_ne_nil h2 h1) (mapM_ne_nil h2' h1')
          (fun x hx hm => by
            obtain ⟨d, hd, hdx⟩ := mapM_mem h2 x hx
            exact (not_semicolon (Or.inl (icalDate_chars (hr.exceptions d hd) hdx hm))).2 rfl)
          (fun x hx hm => by
            obtain ⟨d, hd, hdx⟩ := mapM_mem h2' x hx
            exact (not_semicolon (Or.inl (icalDate_chars (hr'.exceptions d hd) hdx hm))).2 rfl)
          (List.append_cancel_left h5)
        subst this
        exact mapM_inj (P := fun d => dateInRange d = true) (fun a a' b ha ha' => icalDate_inj ha ha')
          hr.exceptions hr'.exceptions h2 h2'
  obtain ⟨rfl, hexc⟩ := hex
  rw [hline] at hline'
  have hI : ∀ n : Int, ';' ∉ ('I' :: ("NTERVAL=".toList ++ (toString n).toList) : List Char) := by
    intro n hm
    rw [List.mem_cons, List.mem_append] at hm
    rcases hm with hm | hm | hm
    · revert hm; decide
    · revert hm; decide
    · exact (not_semicolon (int_chars _ hm)).1 rfl
  have hF : ∀ {k : RuleKind} {f : String}, k.icalFreq = some f → ';' ∉ "RRULE:FREQ=".toList ++ f.toList := by
    intro k f hk hm
    rw [List.mem_append] at hm
    rcases hm with hm | hm
    · revert hm; decide
    · exact freq_chars hk hm
  have hfields := intercalate_inj (by simp) (by simp)
    (by
      intro l hl
      simp only [List.mem_append, List.mem_singleton] at hl
      rcases hl with (rfl | hl | hl) | rfl
      · exact hF hf
      · exact boundField_chars hB l hl
      · exact dayField_chars hE l hl
      · exact hI _)
    (by
      intro l hl
      simp only [List.mem_append, List.mem_singleton] at hl
      rcases hl with (rfl | hl | hl) | rfl
      · exact hF hf'
      · exact boundField_chars hB' l hl
      · exact dayField_chars hE' l hl
      · exact hI _) hline'
  simp only [List.cons_append, List.cons.injEq] at hfields
  obtain ⟨hfreq, hfields⟩ := hfields
  have hfreq := String.toList_inj.1 (List.append_cancel_left hfreq)
  have hkf : r.kind.icalFreq = r'.kind.icalFreq := by rw [hf, hf', hfreq]
  obtain ⟨hBE, hint⟩ := List.append_inj' hfields rfl
  injection hint with hint _
  injection hint with _ hint
  have hint := int_text_inj (List.append_cancel_left hint)
  have hpair : B = B' ∧ E = E' := by
    rcases boundField_cases hB with rfl | ⟨ch, l, rfl, hch⟩
    · rcases boundField_cases hB' with rfl | ⟨ch', l', rfl, hch'⟩
      · exact ⟨rfl, hBE⟩
      · exfalso
        rcases dayField_cases hE with rfl | ⟨e, rfl⟩
        · cases hBE
        · injection hBE with hBE _
          injection hBE with hBE _
          rcases hch' with rfl | rfl <;> exact absurd hBE (by decide)
    · rcases boundField_cases hB' with rfl | ⟨ch', l', rfl, hch'⟩
      · exfalso
        rcases dayField_cases hE' with rfl | ⟨e, rfl⟩
        · cases hBE
        · injection hBE with hBE _
          injection hBE with hBE _
          rcases hch with rfl | rfl <;> exact absurd hBE (by decide)
      · injection hBE with h1 h2
        exact ⟨by rw [h1], h2⟩
  obtain ⟨rfl, rfl⟩ := hpair
  have hkind := dayField_inj hkf hE hE'
  have hbound : r.count = r'.count ∧ r.untl = r'.untl := by
    rcases boundField_cases hB with rfl | ⟨ch, l, rfl, _⟩
    · have := boundField_nil hB
      have h2 := boundField_nil hB'
      rw [this.1, this.2, h2.1, h2.2]
      exact ⟨rfl, rfl⟩
    · exact boundField_inj hB hB'
  cases r
  cases r'
  simp only [Rule.mk.injEq] at hkind hint hbound hexc ⊢
  exact ⟨hkind, hint, hbound.1, hbound.2, hexc⟩

/-- C57 is false for a zero count, which is not written, and for a datetime `until`, which is written like a
date: the rules generate different dates. -/
theorem C57_counterexample :
    (∃ r r' : Rule, Rule.new .daily 1 (some 0) = .ok r ∧ Rule.new .daily 1 none = .ok r' ∧
      r.icalRepresentation Sample.day = .ok ["RRULE:FREQ=DAILY;INTERVAL=1"] ∧
      r'.icalRepresentation Sample.day = .ok ["RRULE:FREQ=DAILY;INTERVAL=1"] ∧
      r.apply Sample.day (some (dtDate Sample.day)) = ([], .ok ()) ∧
      r'.apply Sample.day (some (dtDate Sample.day)) = ([dtDate Sample.day], .ok ())) ∧
    (∃ r r' : Rule, Rule.new .daily 1 none (some (.date (dtDate Sample.day))) = .ok r ∧
      Rule.new .daily 1 none (some (.datetime Sample.day)) = .ok r' ∧
      r.icalRepresentation Sample.day = r'.icalRepresentation Sample.day ∧
      r.apply Sample.day none = ([dtDate Sample.day], .ok ()) ∧
      r'.apply Sample.day none = ([], raise .TypeError)) :=
  ⟨⟨_, _, rfl, rfl, by decide +kernel, by decide +kernel, by decide +kernel, by decide +kernel⟩,
    ⟨_, _, rfl, rfl, by decide +kernel, by decide +kernel, by decide +kernel⟩⟩

/-- C57 fails outright for dates before 1900, which `strftime` refuses. -/
theorem C57_1900_counterexample :
    ({ kind := .daily, interval := 1, count := none, untl := none, exceptions := [ymd2ord 1899 12 31] } : Rule).icalRepresentation
      Sample.day = raise .ValueError := by decide +kernel

/-- C57, concrete. -/
example :
    let r : Rule := { kind := .weekly [0, 2], interval := 2, count := none, untl := some (.date (ymd2ord 2026 12 31))
                      exceptions := [ymd2ord 2026 3 4, ymd2ord 2026 3 16] }
    Tellable r ∧ r.icalRepresentation Sample.day = .ok
      ["RRULE:FREQ=WEEKLY;UNTIL=20261231T000000;BYDAY=MO,WE;INTERVAL=2", "EXDATE;VALUE=DATE:20260304,20260316"] := by
  refine ⟨⟨by decide, by decide, ?_, by decide⟩, by decide +kernel⟩
  intro u hu
  injection hu with hu
  exact ⟨_, hu.symm, by decide⟩

end CalCore
