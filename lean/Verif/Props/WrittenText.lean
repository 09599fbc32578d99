import Verif.Lemmas.SourceICal
import Verif.Lemmas.SourceFuel
import Verif.Lemmas.LangSame
import Verif.Props.ICal
import Verif.Props.RFC
import Verif.Props.Written
/- Property C139: the texts of rules and their comparison, as they are written. -/
namespace CalCore
open Spec Lang

/-! ### dates -/

theorem padNat_read {k n : Nat} (hk : 0 < k) (hn : n < 10 ^ k) : readNat (padNat k n).toList = some n ∧ (padNat k n).toList.length = k
    ∧ 'T' ∉ (padNat k n).toList := by
  rw [padNat_digits hk hn]
  refine ⟨readNat_digits hk hn, digits_length _ _, fun h => ?_⟩
  exact absurd (digits_chars _ _ h) (by decide)

theorem icalDate_late {d : Int} (h : 1900 ≤ dyear d) : ∃ s, icalDate d = .ok s := by
  unfold icalDate
  rw [if_neg (by omega)]
  exact ⟨_, rfl⟩

theorem icalDate_early {d : Int} (h : dyear d < 1900) : icalDate d = raise .ValueError := by
  unfold icalDate
  rw [if_pos h]

theorem readDateTime_time {d t : Int} {s : String} (hr : dateInRange d = true) (ht : 0 ≤ t ∧ t < DAY) (h : icalDate d = .ok s) :
    readDateTime (s ++ "T" ++ icalTime t).toList = some (d * DAY + t / 1000000 * 1000000) := by
  unfold DAY at ht
  obtain ⟨a1, a2, a3⟩ := padNat_read (k := 2) (n := (t / 3600000000).toNat) (by decide) (by omega)
  obtain ⟨b1, b2, b3⟩ := padNat_read (k := 2) (n := (t / 60000000 % 60).toNat) (by decide) (by omega)
  obtain ⟨c1, c2, c3⟩ := padNat_read (k := 2) (n := (t / 1000000 % 60).toNat) (by decide) (by omega)
  have e : (s ++ "T" ++ icalTime t).toList = s.toList ++ 'T' :: ((padNat 2 (t / 3600000000).toNat).toList
      ++ (padNat 2 (t / 60000000 % 60).toNat).toList ++ (padNat 2 (t / 1000000 % 60).toNat).toList) := by
    have hT : "T".toList = ['T'] := by decide
    unfold icalTime
    simp only [String.toList_append, List.append_assoc, hT, List.cons_append, List.nil_append]
  rw [e]
  generalize (padNat 2 (t / 3600000000).toNat).toList = x at *
  generalize (padNat 2 (t / 60000000 % 60).toNat).toList = y at *
  generalize (padNat 2 (t / 1000000 % 60).toNat).toList = z at *
  have t1 : (x ++ y ++ z).take 2 = x := by rw [List.append_assoc, ← a2, List.take_left]
  have t2 : ((x ++ y ++ z).drop 2).take 2 = y := by
    rw [List.append_assoc, ← a2, List.drop_left, a2, ← b2, List.take_left]
  have t3 : (x ++ y ++ z).drop 4 = z := by
    rw [show 4 = (x ++ y).length by rw [List.length_append, a2, b2], List.drop_left]
  unfold readDateTime
  rw [splitOn_two]
  · simp only []
    rw [if_pos (by simp only [List.length_append]; omega), readDate_icalDate hr h, t1, t2, t3, a1, b1, c1]
    simp only [Option.bind_some]
    rw [if_pos (by omega)]
    unfold DAY
    congr 1
    omega
  · intro hm
    exact absurd (icalDate_chars hr h hm) (by decide)
  · simp only [List.mem_append]
    rintro ((h | h) | h)
    · exact a3 h
    · exact b3 h
    · exact c3 h

/-- C139: `ical_date` as written: the text is read as the date; years before 1900 are refused. -/
theorem C139_date (d : Int) (hd : dateInRange d = true) :
    (1900 ≤ dyear d → ∃ s, Gives "ical_date" [.date d] (.ok (.str s)) ∧ readDate s.toList = some d) ∧
    (dyear d < 1900 → Gives "ical_date" [.date d] (.error (.py .ValueError))) := by
  have key : Gives "ical_date" [.date d] (toM .str (icalDate d)) := gives_of 0 1 (fun W n _ => ical_date_prog W n d)
  refine ⟨fun h => ?_, fun h => ?_⟩
  · obtain ⟨s, he⟩ := icalDate_late h
    rw [he, toM_ok] at key
    exact ⟨_, key, readDate_icalDate hd he⟩
  · have he := icalDate_early h
    rw [he] at key
    exact key

/-- C139: `ical_datetime` as written: the text is read as the time, up to seconds; a date is taken as midnight. -/
theorem C139_datetime (u : Until) (d t : Int) (hd : dateInRange d = true) (ht : 0 ≤ t ∧ t < DAY)
    (hu : u = .datetime (combine d t) ∨ (u = .date d ∧ t = 0)) :
    (1900 ≤ dyear d → ∃ s, Gives "ical_datetime" [ofUntil u] (.ok (.str s)) ∧
      readDateTime s.toList = some (combine d (t - t % 1000000))) ∧
    (dyear d < 1900 → Gives "ical_datetime" [ofUntil u] (.error (.py .ValueError))) := by
  have key : Gives "ical_datetime" [ofUntil u] (toM .str (icalDateTime u)) := gives_of 0 1 (fun W n _ => ical_datetime_prog W n u)
  have hu' : icalDateTime u = (do .ok ((← icalDate d) ++ "T" ++ icalTime t)) := by
    rcases hu with rfl | ⟨rfl, rfl⟩
    · have h1 : dtDate (combine d t) = d := by unfold dtDate combine; unfold DAY at *; omega
      have h2 : dtTime (combine d t) = t := by unfold dtTime combine; unfold DAY at *; omega
      unfold icalDateTime
      simp only []
      rw [h1, h2]
    · rfl
  rw [hu'] at key
  refine ⟨fun h => ?_, fun h => ?_⟩
  · obtain ⟨s, he⟩ := icalDate_late h
    rw [he, ok_bind, toM_ok] at key
    refine ⟨_, key, ?_⟩
    rw [readDateTime_time hd ht he]
    unfold combine
    congr 1
    omega
  · have he := icalDate_early h
    rw [he] at key
    exact key

/-! ### the text of a rule -/

theorem rep_answers (r : Rule) (hv : ValidRule r) (t : Int) :
    Answers (ofRule r) "iCalRepresentation" [.datetime t] (toM (fun l => .list (l.map .str)) (r.icalRepresentation t)) :=
  answers_of 0 2 (fun W n _ => by
    have hm : Source.prog.method 4 r.kind.className "iCalRepresentation" = some "BasicRecurrenceRule.iCalRepresentation" := by
      cases r.kind <;> rfl
    have := rep_prog W n r t (fun l hl w hw => (hv.2.2 l hl w hw).1)
    rw [ofRule] at this ⊢
    rw [invoke_eq hm, this])

theorem list_str_inj {l l' : List String} (h : (.list (l.map .str) : Val) = .list (l'.map .str)) : l = l' := by
  injection h with h
  exact List.map_injective_iff.2 (fun a b h => by injection h) h

theorem rep_ok {r : Rule} (hv : ValidRule r) {t : Int} {T : List String}
    (h : Answers (ofRule r) "iCalRepresentation" [.datetime t] (.ok (.list (T.map .str)))) : r.icalRepresentation t = .ok T := by
  have := (rep_answers r hv t).unique h
  cases hx : r.icalRepresentation t with
  | error e => rw [hx, toM_error] at this; cases this
  | ok T' =>
    rw [hx, toM_ok] at this
    injection this with this
    rw [list_str_inj this]

/-- The date of an end. -/
def Spec.endDay : Until → Int
  | .date d => d
  | .datetime t => dtDate t

/-- The text of the rule names the date. -/
def Spec.Mentions (r : Rule) (d : Int) : Prop := d ∈ r.exceptions ∨ ∃ u, r.untl = some u ∧ endDay u = d

theorem dates_late {l : List Int} (h : ∀ d ∈ l, 1900 ≤ dyear d) : ∃ s, l.mapM icalDate = .ok s :=
  mapM_total (fun d hd => icalDate_late (h d hd))

theorem dates_early {l : List Int} (h : ∃ d ∈ l, dyear d < 1900) : l.mapM icalDate = raise .ValueError := by
  induction l with
  | nil => obtain ⟨d, hd, _⟩ := h; cases hd
  | cons a l ih =>
    rw [List.mapM_cons]
    by_cases ha : dyear a < 1900
    · rw [icalDate_early ha]; rfl
    · obtain ⟨s, hs⟩ := icalDate_late (d := a) (by omega)
      obtain ⟨d, hd, he⟩ := h
      rcases List.mem_cons.1 hd with rfl | hd
      · exact absurd he ha
      · rw [hs, ih ⟨d, hd, he⟩]; rfl

theorem until_late {u : Until} {d : Int} (hu : endDay u = d) (h : 1900 ≤ dyear d) : ∃ s, icalDateTime u = .ok s := by
  obtain ⟨s, hs⟩ := icalDate_late h
  cases u with
  | date x => cases hu; unfold endDay at hs; simp only [] at hs; unfold icalDateTime; simp only []; rw [hs]; exact ⟨_, rfl⟩
  | datetime t => cases hu; unfold endDay at hs; simp only [] at hs; unfold icalDateTime; simp only []; rw [hs]; exact ⟨_, rfl⟩

theorem until_early {u : Until} {d : Int} (hu : endDay u = d) (h : dyear d < 1900) : icalDateTime u = raise .ValueError := by
  have hs := icalDate_early h
  cases u with
  | date x => cases hu; unfold endDay at hs; simp only [] at hs; unfold icalDateTime; simp only []; rw [hs]; rfl
  | datetime t => cases hu; unfold endDay at hs; simp only [] at hs; unfold icalDateTime; simp only []; rw [hs]; rfl

theorem args_total {r : Rule} (hv : ValidRule r) (t : Int) : ∃ x, r.icalArgs t = .ok x := by
  have hw : 0 ≤ weekday (dtDate t) ∧ weekday (dtDate t) ≤ 6 := by unfold weekday; omega
  obtain ⟨s, hs⟩ := icalWeekday_total hw
  unfold Rule.icalArgs
  simp only []
  cases hk : r.kind with
  | basic => exact ⟨_, rfl⟩
  | no => exact ⟨_, rfl⟩
  | daily => exact ⟨_, rfl⟩
  | yearly => exact ⟨_, rfl⟩
  | weekly l =>
    simp only []
    by_cases h : l = []
    · rw [if_pos h]; exact ⟨_, rfl⟩
    · obtain ⟨n, hn⟩ := mapM_total (f := icalWeekday) (l := l) (fun w hw => icalWeekday_total (hv.2.2 l hk w hw))
      rw [if_neg h, hn]
      exact ⟨_, rfl⟩
  | monthly m =>
    cases m with
    | monthday => exact ⟨_, rfl⟩
    | weekday => simp only []; rw [hs]; exact ⟨_, rfl⟩
    | lastweekday => simp only []; rw [hs]; exact ⟨_, rfl⟩

/-- C139: `iCalRepresentation` as written, for a valid rule: there is a text, exactly if the rule has a frequency and names no
date before 1900. -/
theorem C139_text (r : Rule) (hv : ValidRule r) (t : Int) :
    (r.kind = .basic ∨ r.kind = .no → Answers (ofRule r) "iCalRepresentation" [.datetime t] (.error (.py .AssertionError))) ∧
    (r.kind ≠ .basic → r.kind ≠ .no → (∃ d, Mentions r d ∧ dyear d < 1900) →
      Answers (ofRule r) "iCalRepresentation" [.datetime t] (.error (.py .ValueError))) ∧
    (r.kind ≠ .basic → r.kind ≠ .no → (∀ d, Mentions r d → 1900 ≤ dyear d) →
      ∃ T : List String, Answers (ofRule r) "iCalRepresentation" [.datetime t] (.ok (.list (T.map .str)))) := by
  have key := rep_answers r hv t
  have hfreq : r.kind ≠ .basic → r.kind ≠ .no → ∃ f, r.kind.icalFreq = some f := by
    intro h1 h2
    cases hk : r.kind with
    | basic => exact absurd hk h1
    | no => exact absurd hk h2
    | daily => exact ⟨_, rfl⟩
    | yearly => exact ⟨_, rfl⟩
    | weekly l => exact ⟨_, rfl⟩
    | monthly m => exact ⟨_, rfl⟩
  obtain ⟨x, hx⟩ := args_total hv t
  refine ⟨fun h => ?_, fun h1 h2 h => ?_, fun h1 h2 h => ?_⟩
  · rw [C98_no_frequency r h t] at key
    exact key
  · obtain ⟨f, hf⟩ := hfreq h1 h2
    have he : r.icalRepresentation t = raise .ValueError := by
      unfold Rule.icalRepresentation
      simp only [hf, hx]
      by_cases hu : ∃ u, r.untl = some u ∧ ∃ d, endDay u = d ∧ dyear d < 1900
      · obtain ⟨u, hu, d, hd, hl⟩ := hu
        have hc : r.count = none := by
          rcases hv.2.1 with hc | hc
          · exact hc
          · rw [hu] at hc; cases hc
        have hb : r.icalBound = raise .ValueError := by
          unfold Rule.icalBound
          simp only [hc, hu]
          rw [until_early hd hl]
          rfl
        rw [hb]
        rfl
      · have hb : ∃ b, r.icalBound = .ok b := by
          unfold Rule.icalBound
          cases hun : r.untl with
          | none =>
            cases r.count with
            | none => exact ⟨_, rfl⟩
            | some c =>
              simp only []
              split <;> exact ⟨_, rfl⟩
          | some u =>
            have hc : r.count = none := by
              rcases hv.2.1 with hc | hc
              · exact hc
              · rw [hun] at hc; cases hc
            simp only [hc]
            have : ∃ d, endDay u = d := ⟨_, rfl⟩
            obtain ⟨d, hd⟩ := this
            obtain ⟨s, hs⟩ := until_late hd (by
              by_contra hl
              exact hu ⟨u, hun, d, hd, by omega⟩)
            rw [hs]
            exact ⟨_, rfl⟩
        obtain ⟨b, hb⟩ := hb
        obtain ⟨d, hm, hl⟩ := h
        have hd : d ∈ r.exceptions := by
          rcases hm with hm | ⟨u, hu', hd⟩
          · exact hm
          · exact absurd ⟨u, hu', d, hd, hl⟩ hu
        rw [hb]
        simp only [ok_bind]
        rw [if_neg (by intro h; rw [h] at hd; cases hd), dates_early ⟨d, hd, hl⟩]
        rfl
    rw [he] at key
    exact key
  · obtain ⟨f, hf⟩ := hfreq h1 h2
    have he : ∃ T, r.icalRepresentation t = .ok T := by
      unfold Rule.icalRepresentation
      simp only [hf, hx]
      have hb : ∃ b, r.icalBound = .ok b := by
        unfold Rule.icalBound
        cases hun : r.untl with
        | none =>
          cases r.count with
          | none => exact ⟨_, rfl⟩
          | some c =>
            simp only []
            split <;> exact ⟨_, rfl⟩
        | some u =>
          have hc : r.count = none := by
            rcases hv.2.1 with hc | hc
            · exact hc
            · rw [hun] at hc; cases hc
          simp only [hc]
          have : ∃ d, endDay u = d := ⟨_, rfl⟩
          obtain ⟨d, hd⟩ := this
          obtain ⟨s, hs⟩ := until_late hd (h d (.inr ⟨u, hun, hd⟩))
          rw [hs]
          exact ⟨_, rfl⟩
      obtain ⟨b, hb⟩ := hb
      obtain ⟨s, hs⟩ := dates_late (l := r.exceptions) (fun d hd => h d (.inl hd))
      rw [hb, hs]
      simp only [ok_bind]
      split <;> exact ⟨_, rfl⟩
    obtain ⟨T, hT⟩ := he
    rw [hT, toM_ok] at key
    exact ⟨T, key⟩

/-- C139: whatever text the source text writes for a rule, a reader of RFC 2445 takes from it the interval, the bound, the days and
the exceptions of the rule.  Missing: rules with a count that is not positive and rules whose `until` is a datetime, for which C98
has counterexamples. -/
theorem C139_reads_partial (r : Rule) (hv : ValidRule r) (hr : Tellable r) (hc : ∀ c, r.count = some c → 0 < c) (t : Int)
    (T : List String) (h : Answers (ofRule r) "iCalRepresentation" [.datetime t] (.ok (.list (T.map .str)))) :
    ∃ R, readText T = some R ∧ Says R r (dtDate t) :=
  C98_reads_partial r hv hr hc t T (rep_ok hv h)

/-- C139: the dates that `apply` as written yields are those which the text that `iCalRepresentation` as written gives stands for,
except for the difference between dates and times in UNTIL and the last month of 9999.  Missing: the rules which `Plain` excludes,
for which C99 has counterexamples. -/
theorem C139_meaning_partial (r : Rule) (hv : ValidRule r) (hr : Tellable r) (hc : ∀ c, r.count = some c → 0 < c) (dt : Int)
    (hdt : dtInRange dt = true) (hp : Spec.Plain r dt) (T : List String)
    (h : Answers (ofRule r) "iCalRepresentation" [.datetime dt] (.ok (.list (T.map .str)))) (c : String)
    (attrs : List (String × Val)) (hev : getAttr "dtstart" attrs = .ok (.datetime dt)) (en : Option Int) (l : List Int) (fin : Option Stop)
    (h' : Answers (ofRule r) "apply" [.obj c attrs, ofOption .date en] (.ok (.gen (l.map .date) fin))) :
    ∃ R, readText T = some R ∧ ∀ d,
      (d ∈ l ∧ ∀ u, r.untl = some (.date u) → combine d (dtTime dt) ≤ combine u 0) ↔
      (Recurs R dt d ∧ (∀ e, en = some e → d ≤ e) ∧ ¬ (r.kind = .monthly .lastweekday ∧ InLastMonth d)) := by
  have hh : ¬ Hangs r dt en := fun hh => by have := hh.1; have := hv.1; omega
  have hl : l = (r.apply dt en).1 := by
    have := h'.unique (C132_same r c attrs dt hdt hev en hh)
    injection this with this
    unfold ofApply at this
    injection this with this _
    exact List.map_injective_iff.2 (fun a b h => by injection h) this
  rw [hl]
  exact C99_general r hv hr hc dt hdt hp T (rep_ok hv h) en

/-! ### comparing -/

/-- C139: `==` and `!=` of rules as written: equal are the rules of the same class with the same attributes, and nothing else. -/
theorem C139_eq (a b : Rule) :
    (a = b → Answers (ofRule a) "__eq__" [ofRule b] (.ok (.bool true)) ∧ Answers (ofRule a) "__ne__" [ofRule b] (.ok (.bool false))) ∧
    (a ≠ b → Answers (ofRule a) "__eq__" [ofRule b] (.ok (.bool false)) ∧ Answers (ofRule a) "__ne__" [ofRule b] (.ok (.bool true))) ∧
    Answers (ofRule a) "__eq__" [.none] (.ok (.bool false)) ∧ Answers (ofRule a) "__ne__" [.none] (.ok (.bool true)) := by
  have h1 : ∀ v r, (∀ W n, Source.prog.call W (n + 3) "BasicRecurrenceRule.__eq__" [ofRule a, v] [] = r) →
      Answers (ofRule a) "__eq__" [v] r := fun v r h => answers_of 0 3 (fun W n _ => by
    have := h W n
    rw [ofRule] at this ⊢
    rw [invoke_eq (method_eq _), this])
  have h2 : ∀ v r, (∀ W n, Source.prog.call W (n + 3) "BasicRecurrenceRule.__ne__" [ofRule a, v] [] = r) →
      Answers (ofRule a) "__ne__" [v] r := fun v r h => answers_of 0 3 (fun W n _ => by
    have := h W n
    rw [ofRule] at this ⊢
    rw [invoke_eq (method_ne _), this])
  refine ⟨fun h => ⟨h1 _ _ fun W n => ?_, h2 _ _ fun W n => ?_⟩, fun h => ⟨h1 _ _ fun W n => ?_, h2 _ _ fun W n => ?_⟩,
    h1 _ _ fun W n => eq_prog_none W (n + 1) a, h2 _ _ fun W n => ne_prog_none W n a⟩
  · rw [eq_prog W (n + 1) a b, decide_eq_true h]
  · rw [ne_prog W n a b, decide_eq_false (fun h' => h' h)]
  · rw [eq_prog W (n + 1) a b, decide_eq_false h]
  · rw [ne_prog W n a b, decide_eq_true h]

/-- C139: rules with the same text are equal for `==`.  Missing: as in C57, rules with count zero or with a datetime as `until`. -/
theorem C139_same_text_partial (a b : Rule) (ha : ValidRule a) (hb : ValidRule b) (ta : Tellable a) (tb : Tellable b) (t : Int)
    (T : List String) (h : Answers (ofRule a) "iCalRepresentation" [.datetime t] (.ok (.list (T.map .str))))
    (h' : Answers (ofRule b) "iCalRepresentation" [.datetime t] (.ok (.list (T.map .str)))) :
    Answers (ofRule a) "__eq__" [ofRule b] (.ok (.bool true)) :=
  ((C139_eq a b).1 (C57_text_partial a b ta tb t T (rep_ok ha h) (rep_ok hb h'))).1

/-- C139 fails for these: the count zero is not written, though it is not equal to no count. -/
theorem C139_same_text_counterexample :
    let a : Rule := ⟨.daily, 1, some 0, none, []⟩
    let b : Rule := ⟨.daily, 1, none, none, []⟩
    ValidRule a ∧ ValidRule b ∧
    Answers (ofRule a) "iCalRepresentation" [.datetime Sample.day] (.ok (.list [.str "RRULE:FREQ=DAILY;INTERVAL=1"])) ∧
    Answers (ofRule b) "iCalRepresentation" [.datetime Sample.day] (.ok (.list [.str "RRULE:FREQ=DAILY;INTERVAL=1"])) ∧
    Answers (ofRule a) "__eq__" [ofRule b] (.ok (.bool false)) := by
  have va : ValidRule ⟨.daily, 1, some 0, none, []⟩ := ⟨by decide, by decide, fun l h => by cases h⟩
  have vb : ValidRule ⟨.daily, 1, none, none, []⟩ := ⟨by decide, by decide, fun l h => by cases h⟩
  refine ⟨va, vb, ?_, ?_, ((C139_eq _ _).2.1 (by decide)).1⟩
  · have := rep_answers _ va Sample.day
    rw [show Rule.icalRepresentation ⟨.daily, 1, some 0, none, []⟩ Sample.day = .ok ["RRULE:FREQ=DAILY;INTERVAL=1"] by decide +kernel] at this
    exact this
  · have := rep_answers _ vb Sample.day
    rw [show Rule.icalRepresentation ⟨.daily, 1, none, none, []⟩ Sample.day = .ok ["RRULE:FREQ=DAILY;INTERVAL=1"] by decide +kernel] at this
    exact this

/-- C139, concrete: every second Monday and Wednesday, six times, without one date. -/
example :
    let r : Rule := ⟨.weekly [0, 2], 2, some 6, none, [ymd2ord 2026 3 4]⟩
    ValidRule r ∧ Tellable r ∧ (∀ c, r.count = some c → 0 < c) ∧ Spec.Plain r Sample.day ∧ dtInRange Sample.day = true ∧
    Source.prog.invoke 9 4 (ofRule r) "iCalRepresentation" [.datetime Sample.day] []
      = .ok (.list [.str "RRULE:FREQ=WEEKLY;COUNT=6;BYDAY=MO,WE;INTERVAL=2", .str "EXDATE;VALUE=DATE:20260304"]) ∧
    Source.prog.invoke 9 4 (ofRule r) "__eq__" [ofRule ⟨.weekly [2, 0], 2, some 6, none, [ymd2ord 2026 3 4]⟩] [] = .ok (.bool false) ∧
    Mentions ⟨.daily, 1, none, some (.datetime (combine (ymd2ord 1899 12 31) 5)), []⟩ (ymd2ord 1899 12 31) ∧
    Source.prog.invoke 9 4 (ofRule ⟨.daily, 1, none, some (.datetime (combine (ymd2ord 1899 12 31) 5)), []⟩) "iCalRepresentation"
      [.datetime Sample.day] [] = .error (.py .ValueError) ∧
    Source.prog.call 9 4 "ical_datetime" [.datetime (Sample.day + 36061999999)] [] = .ok (.str "20260302T100101") := by
  refine ⟨⟨by decide, by decide, ?_⟩, ⟨by decide, by decide, ?_, by decide⟩, ?_, ⟨?_, ?_, ?_, ?_⟩, by decide +kernel,
    sameM_eq (by decide +kernel), sameM_eq (by decide +kernel), .inr ⟨_, rfl, by decide +kernel⟩, sameM_eq (by decide +kernel),
    sameM_eq (by decide +kernel)⟩
  · intro l h; injection h with h; subst h; decide
  · intro u h; cases h
  · intro c h; injection h with h; omega
  · intro l h; injection h with h; subst h; decide +kernel
  · intro h; cases h
  · intro h; cases h
  · intro h; cases h

end CalCore
