import Verif.Lemmas.SourceClock
import Verif.Props.PyEval
import Verif.Props.WrittenText
import Verif.Props.WrittenChanges
/- Property C142: `__repr__`, `__hash__` and `__cmp__` of rules and events, as they are written. -/
namespace CalCore
open Spec Lang

/-! ### rules -/

/-- C142: `repr` of a rule, as written, returns a text, and evaluating the text as a Python expression makes the same rule again. -/
theorem C142_repr (r : Rule) (h : ProperRule r) :
    ∃ text, Answers (ofRule r) "__repr__" [] (.ok (.str text)) ∧ (parsePy text).bind evalRule = some r :=
  ⟨r.repr, answers_of 0 1 (fun W n _ => by
    have := repr_prog W n r
    rw [ofRule] at this ⊢
    rw [invoke_eq (method_repr r.kind), this]), C117_eval r h⟩

/-- C142, concrete: a weekly rule with an interval, a count, an exception and two weekdays. -/
example : Source.prog.invoke 4 4 (ofRule ⟨.weekly [0, 3], 2, some 5, none, [730000]⟩)
    "__repr__" [] [] = .ok (.str "WeeklyRecurrenceRule(2, 5, None, (datetime.date(1999, 9, 3),), (0, 3))") := sameM_eq (by decide +kernel)

theorem ruleTuple_inj {a b : Rule} (h : ruleTuple a = ruleTuple b) : a = b := by
  have h1 := ruleTuple_eq a b
  have h2 := ruleTuple_eq a a
  rw [← h, h2] at h1
  injection h1 with h1
  simpa using h1.symm

/-- C142: `hash` of a rule, as written, is the hash of something that two rules share exactly if they are equal, that is if `==` as
written finds them equal: equal rules are found in a dictionary under each other, and no attribute is left out. -/
theorem C142_hash (a b : Rule) : ∃ x y, Answers (ofRule a) "__hash__" [] (.ok (.obj "hash" [("of", x)])) ∧
    Answers (ofRule b) "__hash__" [] (.ok (.obj "hash" [("of", y)])) ∧ (x = y ↔ a = b) := by
  have key : ∀ r : Rule, Answers (ofRule r) "__hash__" [] (.ok (.obj "hash" [("of", ruleTuple r)])) := fun r =>
    answers_of 0 2 (fun W n _ => by
      have := rule_hash_prog W n r
      rw [ofRule] at this ⊢
      rw [invoke_eq (method_rule_hash r.kind), this])
  exact ⟨_, _, key a, key b, ruleTuple_inj, congrArg _⟩

/-- C142, concrete: the kind counts, too. -/
example : ∃ x y, Answers (ofRule ⟨.daily, 1, none, none, []⟩) "__hash__" [] (.ok (.obj "hash" [("of", x)])) ∧
    Answers (ofRule ⟨.yearly, 1, none, none, []⟩) "__hash__" [] (.ok (.obj "hash" [("of", y)])) ∧ x ≠ y := by
  obtain ⟨x, y, h1, h2, h3⟩ := C142_hash ⟨.daily, 1, none, none, []⟩ ⟨.yearly, 1, none, none, []⟩
  exact ⟨x, y, h1, h2, fun h => absurd (h3.1 h) (by decide)⟩

/-! ### events -/

/-- C142: `hash` of an event, as written, is the hash of its id. -/
theorem C142_event_hash (L L' : Listing) (e e' : Event) : ∃ x y, Answers (ofEvent L e) "__hash__" [] (.ok (.obj "hash" [("of", x)])) ∧
    Answers (ofEvent L' e') "__hash__" [] (.ok (.obj "hash" [("of", y)])) ∧ (x = y ↔ e.uid = e'.uid) := by
  have key : ∀ (L : Listing) (e : Event), Answers (ofEvent L e) "__hash__" [] (.ok (.obj "hash" [("of", .str e.uid)])) := fun L e =>
    answers_of 0 1 (fun W n _ => event_hash_prog W n L e)
  exact ⟨_, _, key L e, key L' e', ⟨fun h => by injection h, congrArg _⟩⟩

/-- C142, the part that holds: comparing an event with an event, as written, gives a negative number, zero or a positive number exactly
if the first starts earlier, at the same time or later. -/
theorem C142_cmp_partial (L L' : Listing) (e e' : Event) : ∃ k : Int, Answers (ofEvent L e) "__cmp__" [ofEvent L' e'] (.ok (.int k)) ∧
    (k < 0 ↔ e.dtstart < e'.dtstart) ∧ (k = 0 ↔ e.dtstart = e'.dtstart) ∧ (0 < k ↔ e'.dtstart < e.dtstart) := by
  refine ⟨_, answers_of 0 1 (fun W n _ => event_cmp_prog W n L L' e e'), ?_⟩
  rcases Int.lt_trichotomy e.dtstart e'.dtstart with h | h | h
  · rw [show compare e.dtstart e'.dtstart = .lt from compare_lt_iff_lt.2 h]
    simp only [ordInt]
    omega
  · rw [show compare e.dtstart e'.dtstart = .eq from compare_eq_iff_eq.2 h, h]
    simp [ordInt]
  · rw [show compare e.dtstart e'.dtstart = .gt from compare_gt_iff_gt.2 h]
    simp only [ordInt]
    omega

/-- C142: two events at the same time compare as equal although their ids and so their hashes differ: the id of the first is compared
with itself. -/
theorem C142_cmp_counterexample : ∃ e e' : Event, e.uid ≠ e'.uid ∧
    Answers (ofEvent Sample.listing e) "__cmp__" [ofEvent Sample.listing e'] (.ok (.int 0)) ∧
    ∃ x y, Answers (ofEvent Sample.listing e) "__hash__" [] (.ok (.obj "hash" [("of", x)])) ∧
      Answers (ofEvent Sample.listing e') "__hash__" [] (.ok (.obj "hash" [("of", y)])) ∧ x ≠ y := by
  refine ⟨Sample.met, { Sample.met with uid := "other" }, by decide, ?_, ?_⟩
  · obtain ⟨k, h1, _, h2, _⟩ := C142_cmp_partial Sample.listing Sample.listing Sample.met { Sample.met with uid := "other" }
    have : k = 0 := h2.2 rfl
    subst this
    exact h1
  · obtain ⟨x, y, h1, h2, h3⟩ := C142_event_hash Sample.listing Sample.listing Sample.met { Sample.met with uid := "other" }
    exact ⟨x, y, h1, h2, fun h => absurd (h3.1 h) (by decide)⟩

/-- C142: an event, as written, comes after `None`, numbers, strings, rules, attendees and specifications. -/
theorem C142_cmp_other (L : Listing) (e : Event) (v : Val)
    (hv : v = .none ∨ (∃ k, v = .int k) ∨ (∃ s, v = .str s) ∨ (∃ r, v = ofRule r) ∨ (∃ a, v = ofAttendee L a) ∨ (∃ s, v = ofSpec L s)) :
    Answers (ofEvent L e) "__cmp__" [v] (.ok (.int 1)) :=
  answers_of 0 1 (fun W n _ => event_cmp_other W n L e v (by
    rcases hv with rfl | ⟨k, rfl⟩ | ⟨s, rfl⟩ | ⟨r, rfl⟩ | ⟨a, rfl⟩ | ⟨s, rfl⟩
    · rfl
    · rfl
    · rfl
    · rw [ofRule]; cases r.kind <;> rfl
    · rfl
    · rfl))

/-- C142, concrete: the meeting comes after a string and before what starts an hour later. -/
example : Source.prog.invoke 4 4 (ofEvent Sample.listing Sample.met) "__cmp__" [.str "m"] [] = .ok (.int 1) ∧
    Source.prog.invoke 4 4 (ofEvent Sample.listing Sample.met) "__cmp__"
      [ofEvent Sample.listing { Sample.met with dtstart := Sample.met.dtstart + Sample.HOUR }] [] = .ok (.int (-1)) :=
  ⟨sameM_eq (by decide +kernel), sameM_eq (by decide +kernel)⟩

end CalCore
