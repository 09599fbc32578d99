import Verif.Spec.Queries
import Verif.Lemmas.Store
/- Lemmas on search criteria and period queries. -/
namespace CalCore
open Spec

theorem matchAttendees_iff (st rl : Option String) (e : Event) (l : List AttId) :
    matchAttendees st rl e l = true ↔
      ∃ a ∈ l, ∃ x, Dict.get? e.pstate a = some x ∧ (∀ s, st = some s → x = s) ∧
        (∀ r, rl = some r → Dict.get? e.prole a = some r) := by
  induction l with
  | nil => simp [matchAttendees]
  | cons a rest ih =>
    unfold matchAttendees
    have key : ((∃ x, Dict.get? e.pstate a = some x ∧ (∀ s, st = some s → x = s) ∧
        (∀ r, rl = some r → Dict.get? e.prole a = some r)) ↔
        e.hasAttendee a = true ∧ (∀ s, st = some s → e.getStatus a = some s) ∧
          (∀ r, rl = some r → e.getRole a = some r)) := by
      unfold Event.hasAttendee Event.getStatus Event.getRole
      cases Dict.get? e.pstate a with
      | none => simp
      | some x => simp
    simp only [List.mem_cons, exists_eq_or_imp]
    rw [key, ← ih]
    by_cases h1 : e.hasAttendee a = true
    · rw [if_neg (by simp [h1])]
      by_cases h2 : ∀ s, st = some s → e.getStatus a = some s
      · rw [if_neg]
        · by_cases h3 : ∀ r, rl = some r → e.getRole a = some r
          · rw [if_neg]
            · simp [h1]; exact Or.inl ⟨h2, h3⟩
            · cases rl with
              | none => simp
              | some r => simp [h3 r rfl]
          · rw [if_pos]
            · simp [h3]
            · cases rl with
              | none => simp at h3
              | some r => simp at h3; simp; exact fun h => h3 h.symm
        · cases st with
          | none => simp
          | some s => simp [h2 s rfl]
      · rw [if_pos]
        · simp [h2]
        · cases st with
          | none => simp at h2
          | some s => simp at h2; simp; exact fun h => h2 h.symm
    · rw [if_pos (by simp [h1])]
      simp [h1]

theorem match_iff (c : Criteria) (e : Event) : c.match e = true ↔ Matches c e := by
  obtain ⟨atts, st, rl, cats, org⟩ := c
  have hA : (match atts with
      | none => true
      | some l => matchAttendees st rl e l) = true ↔
      (∀ l, atts = some l → ∃ a ∈ l, ∃ x, Dict.get? e.pstate a = some x ∧
        (∀ s, st = some s → x = s) ∧ (∀ r, rl = some r → Dict.get? e.prole a = some r)) := by
    cases atts with
    | none => simp
    | some l => simp [matchAttendees_iff]
  unfold Criteria.match Matches
  simp only []
  cases cats with
  | none =>
    cases org with
    | none => simp [← hA]; rfl
    | some o =>
      by_cases ho : e.organizerId = some o
      · simp [← hA, ho]; rfl
      · simp [ho]
  | some cs =>
    by_cases hc : ∃ x ∈ cs, x ∈ e.categories
    · have hc' : cs.any e.inCategory = true := by simpa [Event.inCategory] using hc
      cases org with
      | none => simp [← hA, hc', hc]; rfl
      | some o =>
        by_cases ho : e.organizerId = some o
        · simp [← hA, ho, hc', hc]; rfl
        · simp [ho]
    · have hc' : cs.any e.inCategory = false := by
        rw [Bool.eq_false_iff]; intro h; apply hc; simpa [Event.inCategory] using h
      simp only [hc']
      simp [hc]

theorem mem_matching {s : Storage} (h : s.WF) (c : Option Criteria) (e : Event) :
    e ∈ s.matching c ↔ Stored s e ∧ Matches (c.getD {}) e := by
  unfold Storage.matching
  rw [List.mem_filter, h.mem_values, match_iff]; rfl

theorem matching_uid_nodup {s : Storage} (h : s.WF) (c : Option Criteria) :
    ((s.matching c).map (·.uid)).Nodup :=
  List.Sublist.nodup (List.Sublist.map _ List.filter_sublist) h.values_uid_nodup

theorem matching_nodup {s : Storage} (h : s.WF) (c : Option Criteria) : (s.matching c).Nodup :=
  List.Nodup.of_map _ (matching_uid_nodup h c)

/-- When `inPeriod` returns, and what. -/
theorem inPeriod_eq (x : Int) (dur : Option Int) (b e : Option Int) :
    inPeriod x dur b e =
      match b with
      | none => .ok (decide (∀ e', e = some e' → x < e'))
      | some b => match dur with
        | none => raise .TypeError
        | some d => if dtInRange (x + d) = true then .ok (decide (b < x + d ∧ ∀ e', e = some e' → x < e'))
          else raise .OverflowError := by
  unfold inPeriod
  cases b with
  | none => cases e <;> simp
  | some b =>
    cases dur with
    | none => rfl
    | some d =>
      simp only [dtAdd]
      split
      · simp only [ok_bind]
        split
        · cases e <;> simp <;> omega
        · cases e <;> simp <;> omega
      · rfl

theorem inPeriod_ok {x : Int} {dur : Option Int} {b e : Option Int} {k : Bool} :
    inPeriod x dur b e = .ok k ↔
      (b = none ∨ ∃ d, dur = some d ∧ dtInRange (x + d) = true) ∧
        (k = true ↔ (∀ b', b = some b' → b' < x + dur.getD 0) ∧ ∀ e', e = some e' → x < e') := by
  rw [inPeriod_eq]
  cases b with
  | none =>
    simp only [Except.ok.injEq]
    constructor
    · rintro rfl; simp
    · rintro ⟨_, h⟩
      rw [Bool.eq_iff_iff, h]; simp
  | some b =>
    cases dur with
    | none => simp
    | some d =>
      simp only []
      split
      · rename_i hr
        simp only [Except.ok.injEq]
        constructor
        · rintro rfl; simp [hr]
        · rintro ⟨_, h⟩
          rw [Bool.eq_iff_iff, h]; simp
      · rename_i hr
        simp [hr]

theorem filterInPeriod_ok {b e : Option Int} {L l : List Event} :
    filterInPeriod b e L = .ok l ↔
      (∀ ev ∈ L, ∃ k, inPeriod ev.dtstart ev.duration b e = .ok k) ∧
        l = L.filter (fun ev => decide (inPeriod ev.dtstart ev.duration b e = .ok true)) := by
  induction L generalizing l with
  | nil => simp [filterInPeriod, eq_comm]
  | cons ev rest ih =>
    unfold filterInPeriod
    simp only [bind_ok, ih]
    constructor
    · rintro ⟨k, hk, more, ⟨h1, h2⟩, h3⟩
      refine ⟨?_, ?_⟩
      · intro x hx
        rcases List.mem_cons.1 hx with rfl | hx
        · exact ⟨k, hk⟩
        · exact h1 x hx
      · injection h3 with h3
        rw [← h3, h2, List.filter_cons, hk]
        cases k <;> simp
    · rintro ⟨h1, h2⟩
      obtain ⟨k, hk⟩ := h1 ev (List.mem_cons_self ..)
      refine ⟨k, hk, _, ⟨fun x hx => h1 x (List.mem_cons_of_mem _ hx), rfl⟩, ?_⟩
      rw [h2, List.filter_cons, hk]
      cases k <;> simp

/-- The test made by `inPeriod` is the overlap test, for non-negative durations and proper periods. -/
theorem shown_iff {x d : Int} (hd : 0 ≤ d) {b e : Option Int} (hp : ProperPeriod b e) :
    ((∀ b', b = some b' → b' < x + d) ∧ ∀ e', e = some e' → x < e') ↔ Shown x d b e := by
  unfold Shown InPeriod
  constructor
  · rintro ⟨h1, h2⟩
    by_cases hd0 : d = 0
    · subst hd0; exact Or.inr ⟨rfl, by simpa using h1, h2⟩
    · left
      cases b with
      | none => exact ⟨x, by omega, by omega, by simp, h2⟩
      | some b =>
        refine ⟨max x b, by omega, ?_, ?_, ?_⟩
        · have := h1 b rfl; omega
        · intro b' hb; injection hb with hb; omega
        · intro e' he
          have := h2 e' he
          have := hp b e' rfl he
          omega
  · rintro (⟨t, h1, h2, h3, h4⟩ | ⟨rfl, h1, h2⟩)
    · exact ⟨fun b' hb => by have := h3 b' hb; omega, fun e' he => by have := h4 e' he; omega⟩
    · exact ⟨fun b' hb => by have := h1 b' hb; omega, h2⟩

end CalCore
