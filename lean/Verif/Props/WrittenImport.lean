import Verif.Lemmas.SourceImportAll
import Verif.Lemmas.LangSame
import Verif.Spec.Asked
import Verif.Props.Import2
import Verif.Props.ImportErrors
import Verif.Props.Imported
import Verif.Props.WrittenCalendar
/- Property C138: the part of cal.py that reads parsed iCalendar components, as it is written. -/
namespace CalCore
open Spec Lang

/-! ### rules -/

theorem weekdayIndexes_named {l : List String} {wds : List Int} (h : weekdayIndexes l = .ok wds) :
    List.Forall₂ (fun s w => 0 ≤ w ∧ dayNames[w.toNat]? = some s.toList) l wds := by
  induction l generalizing wds with
  | nil => cases h; exact .nil
  | cons s l ih =>
    unfold weekdayIndexes at h
    simp only [bind_ok] at h
    obtain ⟨i, hi, more, hm, h⟩ := h
    injection h with h
    subst h
    refine .cons ?_ (ih hm)
    unfold weekdayIndex at hi
    split at hi
    · rename_i j hj
      injection hi with hi
      subst hi
      refine ⟨by omega, ?_⟩
      rw [List.findIdx?_eq_some_iff_getElem] at hj
      obtain ⟨hlt, he, _⟩ := hj
      have : dayNames = icalWeekdays.map String.toList := by decide +kernel
      rw [this, Int.toNat_natCast, List.getElem?_map, List.getElem?_eq_getElem hlt]
      have he : icalWeekdays[j] = s := by simpa using he
      rw [he]
      rfl
    · cases hi

theorem kind_says {rr : RRule} {f : String} {k : RuleKind} (hf : rr.freq = some f) (h : ruleOfFreq rr f = .ok ⟨k, 1, none, none, []⟩) :
    KindSays rr k := by
  unfold ruleOfFreq at h
  unfold KindSays
  rw [hf]
  split at h
  · rename_i h1
    subst h1
    have := congrArg Rule.kind (new_fields h)
    exact .inl ⟨rfl, this⟩
  split at h
  · rename_i h1
    subst h1
    have := congrArg Rule.kind (new_fields h)
    exact .inr (.inl ⟨rfl, this⟩)
  split at h
  · rename_i h1
    subst h1
    simp only [bind_ok] at h
    obtain ⟨wds, hw, h⟩ := h
    have := congrArg Rule.kind (new_fields h)
    exact .inr (.inr (.inl ⟨rfl, wds, this, weekdayIndexes_named hw⟩))
  split at h
  · rename_i h1
    subst h1
    refine .inr (.inr (.inr ⟨rfl, ?_⟩))
    cases hb : rr.byday with
    | none =>
      rw [hb] at h
      exact .inl ⟨rfl, congrArg Rule.kind (new_fields h)⟩
    | some l =>
      rw [hb] at h
      cases l with
      | nil => cases h
      | cons s l =>
        simp only [] at h
        refine .inr ⟨s, l, rfl, ?_⟩
        cases hs : s.toList with
        | nil => rw [hs] at h; cases h
        | cons ch rest =>
          rw [hs] at h
          simp only [] at h
          have := congrArg Rule.kind (new_fields h)
          simp only [] at this
          by_cases hc : ch = '-'
          · rw [if_pos hc] at this
            exact .inl ⟨by rw [hc]; rfl, this⟩
          · rw [if_neg hc] at this
            refine .inr ⟨by simpa using hc, ?_, this⟩
            rintro rfl
            simp at hs
  · cases h

theorem rule_says {rr : RRule} {r : Rule} (h : getRecurrenceRule rr = .ok r) : RuleSays rr r := by
  obtain ⟨f, k, hf, hk, rfl⟩ := getRecurrenceRule_parts h
  exact ⟨kind_says hf hk, rfl, rfl, rfl, rfl⟩

theorem Says.given {α : Type} {a : Res α} {P : PyErr → Prop} (ha : Says a P) {e : PyErr} (h : P e) : a = .error (.py e) :=
  (ha (.py e)).2 ⟨e, rfl, h⟩

/-- C138: `_getRecurrenceRule` as written.  It raises exactly the described exceptions, and otherwise returns the rule that
RRULE describes. -/
theorem C138_rule (L : Listing) (st : Storage) (src : Source) (c : Calendar) (rr : RRule) (d : Dict String Val) (hr : IsRule rr d) :
    (∀ e, RuleFails rr e → Answers (ofCalendar L st src c) "_getRecurrenceRule" [ofMap d] (.error (.py e))) ∧
    ((∀ e, ¬ RuleFails rr e) → ∃ r, RuleSays rr r ∧ Answers (ofCalendar L st src c) "_getRecurrenceRule" [ofMap d] (.ok (ofRule r))) := by
  have h : Answers (ofCalendar L st src c) "_getRecurrenceRule" [ofMap d] (toM ofRule (getRecurrenceRule rr)) :=
    answers_of 0 4 (fun W n _ => getRecurrenceRule_prog W n rr d hr _)
  have hs := getRecurrenceRule_says rr
  constructor
  · intro e he
    rw [hs.given he] at h
    exact h
  · intro hn
    obtain ⟨r, hr⟩ := hs.none_ok.2 hn
    rw [hr] at h
    exact ⟨r, rule_says hr, h⟩

/-! ### times -/

/-- C138: `float_datetime` as written, for times that are no DATE: it gives the local time that is meant, or raises OverflowError
if there is none. -/
theorem C138_float (tz : LocalTz) (t : ICalTime) (ht : ¬ IsDateValue t) :
    (TimeFault tz t → Gives "float_datetime" [ofTime tz t] (.error (.py .OverflowError))) ∧
    ∀ x, Means tz t x → Gives "float_datetime" [ofTime tz t] (.ok (.datetime x)) := by
  have h : Gives "float_datetime" [ofTime tz t] (toM .datetime (floatDatetime tz t)) :=
    gives_of 0 1 (fun W n _ => float_datetime_prog W n tz t (by rintro d rfl; exact ht trivial))
  constructor
  · intro hf
    rw [(floatDatetime_says tz t).given ⟨hf, rfl⟩] at h
    exact h
  · intro x hx
    rw [(floatDatetime_means tz ht).2 hx] at h
    exact h

/-- C138: `_getDtstartDuration` as written, for components with a UID or without one of DTEND and DURATION.  It raises exactly the
described exceptions, and otherwise returns the times that the component says. -/
theorem C138_times (L : Listing) (st : Storage) (src : Source) (c : Calendar) (tz : LocalTz) (v : VEvent) (d : Dict String Val)
    (hp : Parsed tz v d) (hu : v.uid ≠ none ∨ v.dtend = none ∨ v.duration = none) :
    (∀ e, TimesFail tz v e → Answers (ofCalendar L st src c) "_getDtstartDuration" [ofComponent d] (.error (.py e))) ∧
    (∀ x dur ad, TimesSay tz v x dur ad →
      Answers (ofCalendar L st src c) "_getDtstartDuration" [ofComponent d] (.ok (.tuple [.datetime x, .delta dur, .bool ad]))) ∧
    ((∀ e, ¬ TimesFail tz v e) → ∃ x dur ad, TimesSay tz v x dur ad) := by
  have h : Answers (ofCalendar L st src c) "_getDtstartDuration" [ofComponent d] (toM ofTimes (getDtstartDuration tz v)) :=
    answers_of 0 2 (fun W n _ => getDtstartDuration_prog W n tz v d hp hu _)
  have hs := getDtstartDuration_says tz v
  refine ⟨fun e he => ?_, fun x dur ad ht => ?_, fun hn => ?_⟩
  · rw [hs.given he] at h
    exact h
  · rw [(C52_meaning tz v x dur ad).2 ht] at h
    exact h
  · obtain ⟨⟨x, dur, ad⟩, hx⟩ := hs.none_ok.2 hn
    exact ⟨x, dur, ad, (C52_meaning tz v x dur ad).1 hx⟩

/-- C138: with DTEND and DURATION but no UID `_getDtstartDuration` raises KeyError, as it cannot say what it ignores.  (`import_`
does not call it for such components: it has raised KeyError itself.) -/
theorem C138_times_anonymous (L : Listing) (st : Storage) (src : Source) (c : Calendar) (tz : LocalTz) (v : VEvent) (d : Dict String Val)
    (hp : Parsed tz v d) (hu : v.uid = none) (he : v.dtend ≠ none) (hd : v.duration ≠ none) :
    Answers (ofCalendar L st src c) "_getDtstartDuration" [ofComponent d] (.error (.py .KeyError)) :=
  answers_of 0 2 (fun W n _ => nouid_prog W n tz v d hp hu he hd _)

/-! ### categories and text -/

/-- C138: `_getCategories` as written returns a set of exactly the categories that are given, in one line or several. -/
theorem C138_categories (L : Listing) (st : Storage) (src : Source) (c : Calendar) (cats : Categories) (d : Dict String Val)
    (hc : Dict.get? d "CATEGORIES" = ofCategories cats) :
    ∃ l : List String, (∀ x, x ∈ l ↔ ∃ l', (cats = .inline l' ∨ cats = .multi l') ∧ x ∈ l') ∧
      Answers (ofCalendar L st src c) "_getCategories" [ofComponent d] (.ok (.set (l.map .str))) := by
  refine ⟨catList cats, fun x => ?_, answers_of 0 1 (fun W n _ => getCategories_prog W n cats d hc _)⟩
  cases cats <;> simp [catList]

/-- C138: `_repairText` as written.  If the first newline is neither at the beginning nor preceded by a carriage return, it returns
a text in which all are preceded by one, and which differs in nothing but carriage returns.  Otherwise it returns the text. -/
theorem C138_repair (L : Listing) (st : Storage) (src : Source) (c : Calendar) (t : String) :
    ∃ t' : String, Answers (ofCalendar L st src c) "_repairText" [.str t] (.ok (.str t')) ∧
      (FirstIsBare t.toList → Repaired t'.toList ∧ withoutCR t'.toList = withoutCR t.toList) ∧
      (¬ FirstIsBare t.toList → t' = t) := by
  refine ⟨_, answers_of 0 1 (fun W n _ => repairText_prog W n t _), fun h => ?_, fun h => ?_⟩
  · rw [String.toList_ofList]
    exact ⟨(C53_repaired_partial _).2 (.inr h), C53_content _⟩
  · rcases repairText_cases t.toList with ⟨hb, _⟩ | ⟨_, h'⟩
    · exact absurd hb h
    · rw [h', String.ofList_toList]

/-! ### components -/

theorem importSpec_asks {tz : LocalTz} {c : Calendar} {src : Source} {v : VEvent} {s : Spec} (h : importSpec tz c src v = .ok s) :
    Asks tz c src v s := by
  unfold importSpec at h
  simp only [bind_ok] at h
  obtain ⟨⟨x, dur, ad⟩, h1, o, h2, r, h3, h⟩ := h
  injection h with h
  subst h
  have ho := importOrganizer_ok c src h2
  refine ⟨⟨dur, rfl, (C52_meaning tz v x dur ad).1 h1⟩, rfl, rfl, rfl, rfl, ?_, rfl, rfl, ?_, ho.1, ho.2, ?_, ?_, ?_⟩
  · show decide (v.transp.getD "OPAQUE" = "TRANSPARENT") = true ↔ _
    rw [decide_eq_true_eq]
    cases v.transp <;> simp
  · intro x
    show x ∈ getCategories v.categories ↔ _
    cases v.categories <;> simp [getCategories]
  · refine List.map_congr_left (fun p _ => ?_)
    unfold importAttendee Source.fromSpec
    by_cases hk : p.addr ∈ Dict.keys src
    · rw [if_pos hk, if_pos ((Dict.has_iff_mem_keys _ _).2 hk)]
    · rw [if_neg hk, if_neg (fun h => hk ((Dict.has_iff_mem_keys _ _).1 h))]
  · intro hn
    rw [hn] at h3
    injection h3 with h3
    exact h3.symm
  · intro rr hrr
    rw [hrr] at h3
    unfold importRule at h3
    simp only [bind_ok] at h3
    obtain ⟨r', h4, h5⟩ := h3
    injection h5 with h5
    exact ⟨r', h5.symm, rule_says h4⟩

/-- C138: `_importEventSpecification` as written, for components with a UID or without one of DTEND and DURATION.  It raises exactly
the described exceptions; otherwise it returns a specification that asks for what the component says.  (The categories are listed
in the order of the component, everything else as before.) -/
theorem C138_spec (L : Listing) (hL : L.Faithful) (st : Storage) (src : Source) (c : Calendar) (tz : LocalTz) (v : VEvent)
    (d : Dict String Val) (hp : Parsed tz v d) (hu : v.uid ≠ none ∨ v.dtend = none ∨ v.duration = none) :
    (∀ e, ReadFails tz c src v e →
      Answers (ofCalendar L st src c) "_importEventSpecification" [ofComponent d] (.error (.py e))) ∧
    ((∀ e, ¬ ReadFails tz c src v e) → ∃ (s : Spec) (L' : Listing), Asks tz c src v s ∧ L'.Faithful ∧ L'.person = L.person ∧
      Answers (ofCalendar L st src c) "_importEventSpecification" [ofComponent d] (.ok (ofSpec L' s))) := by
  have h : Answers (ofCalendar L st src c) "_importEventSpecification" [ofComponent d]
      (toM (ofSpec (relist L v.categories)) (importSpec tz c src v)) :=
    answers_of 0 5 (fun W n _ => importSpec_prog W n L st src c tz v d hp hu)
  have hs : Says (importSpec tz c src v) (ReadFails tz c src v) := C113_read tz c src v
  constructor
  · intro e he
    rw [hs.given he] at h
    exact h
  · intro hn
    obtain ⟨s, hr⟩ := hs.none_ok.2 hn
    rw [hr] at h
    exact ⟨s, relist L v.categories, importSpec_asks hr, relist_faithful L hL _, rfl, h⟩

/-- C138: without an organizer known to the source, `_getDefaultOrganizer` as written gives the first attendee of the calendar, nobody
if there is none, and raises KeyError if the source does not know that attendee. -/
theorem C138_default (L : Listing) (st : Storage) (src : Source) (c : Calendar) :
    (Dict.keys c = [] → Answers (ofCalendar L st src c) "_getDefaultOrganizer" [] (.ok .none)) ∧
    ∀ a l, Dict.keys c = a :: l →
      (a ∈ Dict.keys src → Answers (ofCalendar L st src c) "_getDefaultOrganizer" [] (.ok (ofAttendee L a))) ∧
      (a ∉ Dict.keys src → Answers (ofCalendar L st src c) "_getDefaultOrganizer" [] (.error (.py .KeyError))) := by
  have h : Answers (ofCalendar L st src c) "_getDefaultOrganizer" [] (toM (ofOption (ofAttendee L)) (c.main src)) :=
    answers_of 0 3 (fun W n _ => default_prog W n L st src c)
  unfold Calendar.main Calendar.mainId at h
  constructor
  · intro hk
    rw [hk] at h
    exact h
  · intro a l hk
    rw [hk] at h
    simp only [List.head?_cons, Source.getAttendee] at h
    constructor
    · intro ha
      rw [if_pos ((Dict.has_iff_mem_keys _ _).2 ha)] at h
      exact h
    · intro ha
      rw [if_neg (fun h => ha ((Dict.has_iff_mem_keys _ _).1 h))] at h
      exact h

namespace Sample

/-- A weekly course in a zone two hours before UTC, with DTEND and DURATION. -/
def lesson : VEvent where
  uid := some "c"
  dtstart := some (.aware (day + 10 * HOUR) (2 * HOUR))
  dtend := some (.aware (day + 12 * HOUR) (2 * HOUR))
  duration := some HOUR
  summary := some "course"
  organizer := some "zoe"
  attendees := [⟨"alice", some "ACCEPTED", none⟩, ⟨"zoe", none, some "OPT-PARTICIPANT"⟩]
  categories := .multi ["work", "art"]
  transp := some "TRANSPARENT"
  rrule := some { freq := some "WEEKLY", byday := some ["WE", "MO"], interval := some [2], untl := some [.date (dtDate day + 30)] }

/-- Its properties, in no particular order, and one that nobody reads. -/
def lessonProps : Dict String Val :=
  [("SUMMARY", .str "course"), ("DTSTART", ofTime (fun _ => HOUR) (.aware (day + 10 * HOUR) (2 * HOUR))),
   ("DTEND", ofTime (fun _ => HOUR) (.aware (day + 12 * HOUR) (2 * HOUR))), ("DURATION", .delta HOUR),
   ("ORGANIZER", .obj "vCalAddress" [("value", .str "zoe"), ("params", ofMap [])]), ("X-COLOUR", .str "red"),
   ("ATTENDEE", .list [.obj "vCalAddress" [("value", .str "alice"), ("params", ofMap [("CN", .str "Alice"), ("PARTSTAT", .str "ACCEPTED")])],
     .obj "vCalAddress" [("value", .str "zoe"), ("params", ofMap [("ROLE", .str "OPT-PARTICIPANT")])]]),
   ("CATEGORIES", .list [.str "work", .str "art"]), ("TRANSP", .str "TRANSPARENT"), ("UID", .str "c"),
   ("RRULE", ofMap [("FREQ", .list [.str "WEEKLY"]), ("INTERVAL", .list [.int 2]), ("UNTIL", .list [ofUntil (.date (dtDate day + 30))]),
     ("BYDAY", .list [.str "WE", .str "MO"])])]

theorem lesson_parsed : Parsed (fun _ => HOUR) lesson lessonProps where
  uid := rfl
  dtstart := rfl
  dtend := rfl
  duration := rfl
  summary := rfl
  description := rfl
  location := rfl
  status := rfl
  organizer := .inr ⟨"zoe", [("params", ofMap [])], rfl, rfl⟩
  attendees := .inr (.inr ⟨_, rfl, .cons ⟨_, rfl, rfl, rfl⟩ (.cons ⟨_, rfl, rfl, rfl⟩ .nil)⟩)
  categories := rfl
  transp := rfl
  cls := rfl
  attach := rfl
  rrule := .inr ⟨_, _, rfl, rfl, ⟨rfl, rfl, rfl, rfl, rfl⟩⟩

end Sample

/-- C138, concrete: one hour after UTC the course takes place from nine to eleven, whatever DURATION says.  The source does not know
Zoe, so Bob, the first attendee of the calendar, is the organizer, and Zoe's entry names nobody. -/
example :
    Sample.listing.Faithful ∧ Parsed (fun _ => Sample.HOUR) Sample.lesson Sample.lessonProps ∧
    Source.prog.invoke 9 12 (ofCalendar Sample.listing Sample.store Sample.people Sample.team) "_importEventSpecification"
        [ofComponent Sample.lessonProps] []
      = .ok (ofSpec ⟨fun _ => ["work", "art"], fun a => Sample.listing.person a⟩ {
          dtstart := Sample.day + 9 * Sample.HOUR, duration := some (2 * Sample.HOUR), title := "course", description := "", location := ""
          status := "TENTATIVE", organizer := some "bob", allday := false, transparent := true, access := "PUBLIC", document := none
          categories := {"work", "art"}
          attendees := [(some "alice", "REQ-PARTICIPANT", "ACCEPTED"), (none, "OPT-PARTICIPANT", "NEEDS-ACTION")]
          recurrence := some ⟨.weekly [2, 0], 2, none, some (.date (dtDate Sample.day + 30)), []⟩ }) ∧
    Source.prog.invoke 9 12 (ofCalendar Sample.listing Sample.store [] Sample.team) "_importEventSpecification"
        [ofComponent Sample.lessonProps] [] = .error (.py .KeyError) ∧
    Source.prog.invoke 9 12 (ofCalendar Sample.listing Sample.store Sample.people Sample.team) "_importEventSpecification"
        [ofComponent (Dict.set Sample.lessonProps "RRULE" (ofMap [("FREQ", .list [.str "HOURLY"])]))] [] = .error (.py .UnboundLocalError) ∧
    Source.prog.invoke 9 12 (ofCalendar Sample.listing Sample.store Sample.people Sample.team) "_importEventSpecification"
        [ofComponent (Dict.del Sample.lessonProps "UID")] [] = .error (.py .KeyError) :=
  ⟨Sample.listing_faithful, Sample.lesson_parsed, sameM_eq (by decide +kernel), sameM_eq (by decide +kernel),
    sameM_eq (by decide +kernel), sameM_eq (by decide +kernel)⟩

/-- C138, concrete: texts. -/
example :
    FirstIsBare "a\nb\r\n".toList ∧
    Source.prog.invoke 9 12 (ofCalendar Sample.listing Sample.store Sample.people Sample.team) "_repairText" [.str "a\nb\r\n"] []
      = .ok (.str "a\r\nb\r\r\n") ∧
    Source.prog.invoke 9 12 (ofCalendar Sample.listing Sample.store Sample.people Sample.team) "_repairText" [.str "a\r\nb\n"] []
      = .ok (.str "a\r\nb\n") ∧
    Gives "float_datetime" [ofTime (fun _ => 0) (.aware 0 1)] (.error (.py .OverflowError)) :=
  ⟨⟨['a'], "b\r\n".toList, by decide, by decide, by decide, by decide⟩, sameM_eq (by decide +kernel), sameM_eq (by decide +kernel),
    (C138_float (fun _ => 0) (.aware 0 1) (fun h => h)).1 (.inl (by decide))⟩

end CalCore
