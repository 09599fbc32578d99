import Verif.Model.Vocabulary
import Verif.Props.Rules
import Verif.Props.Blocked
/- The vocabularies of the forms and what the classes accept (C103). -/
namespace CalCore
open Spec

/-- The form offers the value. -/
def Offered {α : Type} (voc : List (Term α)) (v : α) : Prop := ∃ t ∈ voc, t.value = v

/-- What a vocabulary made from a list of strings offers. -/
theorem offered_string {voc : List (Term String)} (l : List String) (h : voc = l.map fun i => ⟨i, i⟩) (v : String) :
    Offered voc v ↔ v ∈ l := by
  subst h
  unfold Offered
  simp

/-- C103: the monthly behaviours that the form offers are exactly those that the constructor accepts, each as its
own token. -/
theorem C103_monthly : ∃ voc, calendarMonthlyVocabulary = .ok voc ∧ (∀ t ∈ voc, t.token = t.value) ∧
    ∀ v, Offered voc v ↔ ∃ r, newMonthly 1 none none [] v = .ok r := by
  refine ⟨_, rfl, by decide, fun v => ?_⟩
  refine Iff.trans (offered_string ["monthday", "weekday", "lastweekday"] rfl v) ?_
  unfold newMonthly monthlyKindOf
  by_cases h1 : v = "monthday"
  · subst h1; exact ⟨fun _ => ⟨_, rfl⟩, fun _ => by simp⟩
  · by_cases h2 : v = "weekday"
    · subst h2; exact ⟨fun _ => ⟨_, rfl⟩, fun _ => by simp⟩
    · by_cases h3 : v = "lastweekday"
      · subst h3; exact ⟨fun _ => ⟨_, rfl⟩, fun _ => by simp⟩
      · rw [if_neg h1, if_neg h2, if_neg h3]
        constructor
        · intro h; simp [h1, h2, h3] at h
        · rintro ⟨r, h⟩; cases h

theorem offered_weekday {voc : List (Term Int)} (h : calendarWeekdaysVocabulary = .ok voc) (w : Int) :
    Offered voc w ↔ 0 ≤ w ∧ w ≤ 6 := by
  have e : calendarWeekdaysVocabulary = .ok ((List.range 7).map fun (day : Nat) => ⟨(day : Int), toString day⟩) := by
    decide +kernel
  rw [e] at h
  injection h with h
  subst h
  unfold Offered
  simp only [List.mem_map, List.mem_range]
  constructor
  · rintro ⟨_, ⟨d, hd, rfl⟩, rfl⟩; simp only []; omega
  · intro hw
    exact ⟨_, ⟨w.toNat, by omega, rfl⟩, by simp only []; omega⟩

/-- C103: the weekly form, filled in with any selection of the offered weekdays and otherwise as the schema requires
(interval at least 1), is accepted by the constructor if count and until are not both given, and the constructor
accepts nothing else.  Missing: both given, which the schema allows and the constructor refuses
(`C103_both_counterexample`). -/
theorem C103_weekly_partial : ∃ voc, calendarWeekdaysVocabulary = .ok voc ∧
    ∀ (weekdays : List Int) (interval : Int) (count : Option Int) (untl : Option Until) (ex : List Int),
      (∃ r, Rule.new (.weekly weekdays) interval count untl ex = .ok r) ↔
        (∀ w ∈ weekdays, Offered voc w) ∧ 1 ≤ interval ∧ (count = none ∨ untl = none) := by
  have hv : ∃ voc, calendarWeekdaysVocabulary = .ok voc := ⟨_, rfl⟩
  obtain ⟨voc, hv⟩ := hv
  refine ⟨voc, hv, fun wds i c u ex => ?_⟩
  simp only [offered_weekday hv]
  rcases new_eq (.weekly wds) i c u ex with ⟨h, e⟩ | ⟨h, e⟩ <;> rw [e]
  · refine ⟨fun _ => ⟨h.2.2 wds rfl, h.1, h.2.1⟩, fun _ => ⟨_, rfl⟩⟩
  · constructor
    · rintro ⟨r, h'⟩; cases h'
    · rintro ⟨h1, h2, h3⟩
      exact absurd ⟨h2, h3, fun l hl => by injection hl with hl; subst hl; exact h1⟩ h

/-- The same for the monthly form. -/
theorem C103_monthly_form_partial : ∃ voc, calendarMonthlyVocabulary = .ok voc ∧
    ∀ (monthly : String) (interval : Int) (count : Option Int) (untl : Option Until) (ex : List Int),
      (∃ r, newMonthly interval count untl ex monthly = .ok r) ↔
        Offered voc monthly ∧ 1 ≤ interval ∧ (count = none ∨ untl = none) := by
  obtain ⟨voc, hv, _, hoff⟩ := C103_monthly
  refine ⟨voc, hv, fun v i c u ex => ?_⟩
  rw [hoff]
  unfold newMonthly
  cases hk : monthlyKindOf v with
  | error f =>
    simp only [error_bind]
    constructor
    · rintro ⟨r, h⟩; cases h
    · rintro ⟨⟨r, h⟩, _⟩; cases h
  | ok k =>
    simp only [ok_bind]
    rcases new_eq (.monthly k) i c u ex with ⟨h, e⟩ | ⟨h, e⟩ <;> rw [e]
    · exact ⟨fun _ => ⟨⟨_, rfl⟩, h.1, h.2.1⟩, fun _ => ⟨_, rfl⟩⟩
    · constructor
      · rintro ⟨r, h'⟩; cases h'
      · rintro ⟨_, h2, h3⟩
        exact absurd ⟨h2, h3, nofun⟩ h

/-- C103 is false for forms with both count and until, which the schema allows. -/
theorem C103_both_counterexample : ∃ voc, calendarWeekdaysVocabulary = .ok voc ∧ Offered voc 0 ∧
    Rule.new (.weekly [0]) 1 (some 3) (some (.date 738000)) [] = raise .ValueError :=
  ⟨_, rfl, ⟨⟨0, "0"⟩, by decide +kernel, rfl⟩, by decide +kernel⟩

/-- C103: the rules that imports make from weekly and monthly data can be shown in the forms: their weekdays and
their behaviour are offered. -/
theorem C103_imported (rr : RRule) (r : Rule) (h : getRecurrenceRule rr = .ok r) :
    ∃ wv mv, calendarWeekdaysVocabulary = .ok wv ∧ calendarMonthlyVocabulary = .ok mv ∧
      (∀ l, r.kind = .weekly l → ∀ w ∈ l, Offered wv w) ∧
      (∀ k, r.kind = .monthly k → ∃ v, Offered mv v ∧ monthlyKindOf v = .ok k) := by
  have hv : ∃ voc, calendarWeekdaysVocabulary = .ok voc := ⟨_, rfl⟩
  obtain ⟨wv, hwv⟩ := hv
  obtain ⟨mv, hmv, _, hoff⟩ := C103_monthly
  refine ⟨wv, mv, hwv, hmv, ?_, ?_⟩
  · intro l hl w hw
    rw [offered_weekday hwv]
    unfold getRecurrenceRule at h
    split at h
    · cases h
    · simp only [bind_ok] at h
      obtain ⟨r0, h0, _, _, _, _, _, _, h⟩ := h
      injection h with h
      have hk : r0.kind = .weekly l := by rw [← hl, ← h]
      exact (ruleOfFreq_valid h0).1.2.2 l hk w hw
  · intro k _
    cases k with
    | monthday => exact ⟨"monthday", (hoff _).2 ⟨_, rfl⟩, rfl⟩
    | weekday => exact ⟨"weekday", (hoff _).2 ⟨_, rfl⟩, rfl⟩
    | lastweekday => exact ⟨"lastweekday", (hoff _).2 ⟨_, rfl⟩, rfl⟩

/-- C103: the defaults of specifications and of imports are offered, and of the offered statuses exactly 'CANCELED'
makes an event that is not transparent, and not declined or delegated, release its time. -/
theorem C103_status : ∃ sv av, calendarEventStatusVocabulary = .ok sv ∧ calendarEventAccessVocabulary = .ok av ∧
    Offered sv ({ dtstart := 0, duration := none } : Spec).status ∧ Offered av ({ dtstart := 0, duration := none } : Spec).access ∧
    (∀ tz c src v spec, importSpec tz c src v = .ok spec →
      (v.status = none → Offered sv spec.status) ∧ (v.cls = none → Offered av spec.access)) ∧
    ∀ (e : Event) (a : AttId), e.transparent = false → e.getStatus a ≠ some "DECLINED" → e.getStatus a ≠ some "DELEGATED" →
      Offered sv e.status → (blocks e a = false ↔ e.status = "CANCELED") := by
  refine ⟨_, _, rfl, rfl, ⟨⟨"TENTATIVE", "TENTATIVE"⟩, by decide, rfl⟩, ⟨⟨"PUBLIC", "PUBLIC"⟩, by decide, rfl⟩, ?_, ?_⟩
  · intro tz c src v spec h
    unfold importSpec at h
    simp only [bind_ok] at h
    obtain ⟨_, _, _, _, _, _, h⟩ := h
    injection h with h
    subst h
    constructor
    · intro hs
      simp only [hs]
      exact ⟨⟨"TENTATIVE", "TENTATIVE"⟩, by decide, rfl⟩
    · intro hs
      simp only [hs]
      exact ⟨⟨"PUBLIC", "PUBLIC"⟩, by decide, rfl⟩
  · intro e a ht h1 h2 _
    unfold Event.getStatus at h1 h2
    rw [← Bool.not_eq_true, blocks_iff]
    unfold Blocking
    simp [ht, h1, h2]

/-- CLASS (RFC 2445, 4.8.1.3) and STATUS of a VEVENT (4.8.1.11), without extensions. -/
inductive Spec.RFCClass : String → Prop
  | pub : Spec.RFCClass "PUBLIC"
  | priv : Spec.RFCClass "PRIVATE"
  | conf : Spec.RFCClass "CONFIDENTIAL"

@[inherit_doc Spec.RFCClass]
inductive Spec.RFCStatus : String → Prop
  | tentative : Spec.RFCStatus "TENTATIVE"
  | confirmed : Spec.RFCStatus "CONFIRMED"
  | cancelled : Spec.RFCStatus "CANCELLED"

/-- C103: the form for access offers exactly the classes of the standard. -/
theorem C103_access : ∃ av, calendarEventAccessVocabulary = .ok av ∧ ∀ v, Offered av v ↔ Spec.RFCClass v := by
  refine ⟨_, rfl, fun v => Iff.trans (offered_string ["PUBLIC", "PRIVATE", "CONFIDENTIAL"] rfl v) ?_⟩
  constructor
  · intro h
    simp only [List.mem_cons, List.not_mem_nil, or_false] at h
    rcases h with rfl | rfl | rfl
    · exact .pub
    · exact .priv
    · exact .conf
  · intro h
    cases h <;> simp

/-- C103: the form for the status offers the states of the standard, but with another spelling of CANCELLED.  Missing: that
one, `C103_cancelled_counterexample`. -/
theorem C103_states_partial : ∃ sv, calendarEventStatusVocabulary = .ok sv ∧
    ∀ v, v ≠ "CANCELLED" → v ≠ "CANCELED" → (Offered sv v ↔ Spec.RFCStatus v) := by
  refine ⟨_, rfl, fun v h1 h2 => Iff.trans (offered_string ["TENTATIVE", "CONFIRMED", "CANCELED"] rfl v) ?_⟩
  constructor
  · intro h
    simp only [List.mem_cons, List.not_mem_nil, or_false] at h
    rcases h with rfl | rfl | rfl
    · exact .tentative
    · exact .confirmed
    · exact absurd rfl h2
  · intro h
    cases h
    · simp
    · simp
    · exact absurd rfl h1

/-- C103 is false for imported statuses: the 'CANCELLED' of RFC 2445 becomes the status of the event, which the form
does not offer, and with which the event still takes time. -/
theorem C103_cancelled_counterexample : ∃ sv, calendarEventStatusVocabulary = .ok sv ∧ ¬ Offered sv "CANCELLED" ∧
    ∃ spec e, importSpec (fun _ => 0) [("alice", ())] [("alice", ⟨"Alice", "INDIVIDUAL"⟩)]
        { uid := some "i", dtstart := some (.naive Sample.day), duration := some Sample.HOUR
          status := some "CANCELLED", attendees := [] } = .ok spec ∧
      newEvent "i" { spec with organizer := some "alice" } = .ok e ∧ e.status = "CANCELLED" ∧ blocks e "alice" = true := by
  refine ⟨_, rfl, ?_, _, _, rfl, rfl, by decide +kernel, by decide +kernel⟩
  intro h
  exact absurd ((offered_string ["TENTATIVE", "CONFIRMED", "CANCELED"] rfl _).1 h) (by decide)

/-- C103, concrete: a vocabulary with a term twice is refused. -/
example : calendarVocabularyFactory ["a", "b", "a"] = raise .ValueError ∧
    (∃ r, Rule.new (.weekly [0, 4]) 2 (some 5) none [] = .ok r) := ⟨by decide +kernel, _, rfl⟩

end CalCore
