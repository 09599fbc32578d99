import Verif.Spec.Criteria
import Verif.Props.Queries
import Verif.Props.Samples
/- Search criteria: clone, and narrowing a query (C76, C77). -/
namespace CalCore
open Spec

/-! ### C76 -/

/-- What `clone` makes of each part: one's own value if it is true in the sense of Python, else the
argument. -/
theorem clone_parts (c : Criteria) (att : Option (List AttId)) (st rl : Option String)
    (cat : Option (List String)) (org : Option AttId) :
    c.clone att st rl cat org =
      { attendees := if c.attendees = none ∨ c.attendees = some [] then att else c.attendees
        status := if c.status = none ∨ c.status = some "" then st else c.status
        role := if c.role = none ∨ c.role = some "" then rl else c.role
        categories := if c.categories = none ∨ c.categories = some [] then cat else c.categories
        organizer := if c.organizer = none then org else c.organizer } := by
  have hl : ∀ {α : Type} [DecidableEq α] (a b : Option (List α)), orList a b = if a = none ∨ a = some [] then b else a := by
    intro α _ a b
    rcases a with _ | (_ | ⟨x, l⟩) <;> simp [orList]
  have hs : ∀ (a b : Option String), orStr a b = if a = none ∨ a = some "" then b else a := by
    intro a b
    rcases a with _ | s
    · simp [orStr]
    · by_cases h : s = "" <;> simp [orStr, h]
  unfold Criteria.clone
  rw [hl, hl, hs, hs]
  congr 1
  cases c.organizer <;> simp

/-- C76: for each part that is unset in the criteria, or not given as argument (and not set to an empty list
or string), `clone` overrides as documented (interfaces.py:190).  Missing: parts that are both set
and given, where it is the argument that is ignored (`C76_clone_counterexample`), and parts set to an empty
list or string, which are lost (`C76_empty_counterexample`). -/
theorem C76_clone_partial (c : Criteria) (att : Option (List AttId)) (st rl : Option String)
    (cat : Option (List String)) (org : Option AttId) :
    (c.attendees = none ∨ (att = none ∧ c.attendees ≠ some []) →
      (c.clone att st rl cat org).attendees = override c.attendees att) ∧
    (c.status = none ∨ (st = none ∧ c.status ≠ some "") →
      (c.clone att st rl cat org).status = override c.status st) ∧
    (c.role = none ∨ (rl = none ∧ c.role ≠ some "") →
      (c.clone att st rl cat org).role = override c.role rl) ∧
    (c.categories = none ∨ (cat = none ∧ c.categories ≠ some []) →
      (c.clone att st rl cat org).categories = override c.categories cat) ∧
    (c.organizer = none ∨ org = none →
      (c.clone att st rl cat org).organizer = override c.organizer org) := by
  have key : ∀ {α : Type} [DecidableEq α] (own arg : Option α) (z : α),
      own = none ∨ (arg = none ∧ own ≠ some z) →
      (if own = none ∨ own = some z then arg else own) = override own arg := by
    intro α _ own arg z h
    rcases h with h | ⟨h, h'⟩
    · rw [h, if_pos (Or.inl rfl)]
      cases arg <;> rfl
    · rw [h]
      cases own with
      | none => rfl
      | some x => rw [if_neg (by rintro (h | h); cases h; exact h' h)]; rfl
  rw [clone_parts]
  refine ⟨key _ _ _, key _ _ _, key _ _ _, key _ _ _, fun h => ?_⟩
  rcases h with h | h
  · simp only [h, if_true]; cases org <;> rfl
  · rw [h]
    cases hc : c.organizer <;> simp [override]

/-- C76, concrete: criteria with a category, restricted to an attendee. -/
example : ({ categories := some ["work"] } : Criteria).clone (attendees := some ["alice"]) =
    { attendees := some ["alice"], categories := some ["work"] } := by decide

/-- C76 is false: arguments do not override what is set. -/
theorem C76_clone_counterexample :
    (({ status := some "ACCEPTED" } : Criteria).clone (status := some "DECLINED")).status = some "ACCEPTED" ∧
    override (some "ACCEPTED") (some "DECLINED") = some "DECLINED" := by decide

/-- C76 is false: an empty list of attendees, which matches no event, is cloned to criteria matching all. -/
theorem C76_empty_counterexample :
    (({ attendees := some [] } : Criteria).clone).attendees = none ∧
    (∀ e, ({ attendees := some [] } : Criteria).match e = false) ∧
    ∀ e, (({ attendees := some [] } : Criteria).clone).match e = true :=
  ⟨by decide, fun _ => rfl, fun _ => rfl⟩

/-- C76: so restricting criteria without attendees of their own gives exactly the events that satisfy the
criteria's own conditions and are attended as required. -/
theorem C76_restrict (c : Criteria) (hc : c.attendees = none) (hs : c.status ≠ some "")
    (hr : c.role ≠ some "") (hk : c.categories ≠ some []) (l : List AttId) (e : Event) :
    Matches (c.clone (attendees := some l)) e ↔
      Matches c e ∧ ∃ a ∈ l, ∃ st, Dict.get? e.pstate a = some st ∧
        (∀ s, c.status = some s → st = s) ∧ ∀ r, c.role = some r → Dict.get? e.prole a = some r := by
  have h1 : (if c.status = none ∨ c.status = some "" then none else c.status) = c.status := by
    split
    · rename_i h; rcases h with h | h
      · exact h.symm
      · exact absurd h hs
    · rfl
  have h2 : (if c.role = none ∨ c.role = some "" then none else c.role) = c.role := by
    split
    · rename_i h; rcases h with h | h
      · exact h.symm
      · exact absurd h hr
    · rfl
  have h3 : (if c.categories = none ∨ c.categories = some [] then none else c.categories) = c.categories := by
    split
    · rename_i h; rcases h with h | h
      · exact h.symm
      · exact absurd h hk
    · rfl
  have h4 : (if c.organizer = none then none else c.organizer) = c.organizer := by
    split
    · rename_i h; exact h.symm
    · rfl
  rw [clone_parts]
  unfold Matches
  simp only [h1, h2, h3, h4, hc, if_true, true_or]
  constructor
  · rintro ⟨a, b, d⟩; exact ⟨⟨a, b, fun _ h => nomatch h⟩, d l rfl⟩
  · rintro ⟨⟨a, b, _⟩, d⟩; exact ⟨a, b, fun l' h => by injection h with h; rw [← h]; exact d⟩

/-! ### C77 -/

theorem narrower_matches {fine coarse : Criteria} (h : Narrower fine coarse) {e : Event}
    (hm : Matches fine e) : Matches coarse e := by
  obtain ⟨m1, m2, m3⟩ := hm
  refine ⟨fun cs hcs => ?_, fun o ho => m2 o (h.organizer o ho), fun l hl => ?_⟩
  · obtain ⟨cs', h1, h2⟩ := h.categories cs hcs
    obtain ⟨x, hx, hx'⟩ := m1 cs' h1
    exact ⟨x, h2 x hx, hx'⟩
  · obtain ⟨⟨l', h1, h2⟩, h3, h4⟩ := h.attendees l hl
    obtain ⟨a, ha, st, k1, k2, k3⟩ := m3 l' h1
    exact ⟨a, h2 a ha, st, k1, fun s hs => k2 s (h3 s hs), fun r hr => k3 r (h4 r hr)⟩

/-- C77: a query over a period inside another, with criteria at least as narrow, lists only events that the
wider query lists; and it returns if the wider one does, unless it asks about a beginning where the wider
one did not. -/
theorem C77_events (s : Storage) (hs : s.WF) (fine coarse : Criteria) (hc : Narrower fine coarse)
    (b e b' e' : Option Int) (hp : Inside b e b' e') (l' : List Event)
    (h' : s.getEvents b' e' (some coarse) = .ok l') :
    (∀ l, s.getEvents b e (some fine) = .ok l → ∀ ev ∈ l, ev ∈ l') ∧
    (b'.isSome → ∃ l, s.getEvents b e (some fine) = .ok l) := by
  constructor
  · intro l h ev hev
    obtain ⟨h1, h2, h3, h4⟩ := (((C20_getEvents_exact s hs b e _).1 l h).2 ev).1 hev
    refine (((C20_getEvents_exact s hs b' e' _).1 l' h').2 ev).2 ⟨h1, narrower_matches hc h2, ?_, ?_⟩
    · intro x hx
      obtain ⟨y, hy, hxy⟩ := hp.1 x hx
      have := h3 y hy
      omega
    · intro x hx
      obtain ⟨y, hy, hxy⟩ := hp.2 x hx
      have := h4 y hy
      omega
  · intro hb
    obtain ⟨x, hx⟩ := Option.isSome_iff_exists.1 hb
    have hok := (C20_getEvents_exact s hs b' e' (some coarse)).2.1 ⟨l', h'⟩
    exact (C20_getEvents_exact s hs b e (some fine)).2.2
      (fun _ _ ev hst hm => hok x hx ev hst (narrower_matches hc hm))

theorem occAt_original {ev : Event} {x b e : Int} {os : List (Occurrence Event)} (h : ev.occAt x b e = .ok os) :
    ∀ o ∈ os, o.original = ev := by
  unfold Event.occAt at h
  simp only [bind_ok] at h
  obtain ⟨keep, _, h⟩ := h
  split at h
  · split at h
    · injection h with h; subst h; simp
    · cases h
  · injection h with h; subst h; simp

theorem expand_original {ev : Event} {b e : Int} {os : List (Occurrence Event)} (h : ev.expand b e = .ok os) :
    ∀ o ∈ os, o.original = ev := by
  have hloop : ∀ (ds : List Date) (os : List (Occurrence Event)), ev.expandLoop b e ds = .ok os →
      ∀ o ∈ os, o.original = ev := by
    intro ds
    induction ds with
    | nil => intro os h; injection h with h; subst h; simp
    | cons d rest ih =>
      intro os h
      unfold Event.expandLoop at h
      simp only [bind_ok] at h
      obtain ⟨here, h1, more, h2, h⟩ := h
      injection h with h; subst h
      intro o ho
      rcases List.mem_append.1 ho with ho | ho
      · exact occAt_original h1 o ho
      · exact ih more h2 o ho
  unfold Event.expand at h
  split at h
  · exact occAt_original h
  · simp only [bind_ok] at h
    obtain ⟨l, hl, _, _, h⟩ := h
    injection h with h; subst h
    exact hloop _ _ hl

theorem expandAll_filter {p q : Event → Bool} (hpq : ∀ e, p e = true → q e = true) {b e : Int} :
    ∀ (evs : List Event) (l' : List (Occurrence Event)), expandAll b e (evs.filter q) = .ok l' →
      expandAll b e (evs.filter p) = .ok (l'.filter (fun o => p o.original)) := by
  intro evs
  induction evs with
  | nil => intro l' h; injection h with h; subst h; rfl
  | cons ev rest ih =>
    intro l' h
    by_cases hq : q ev = true
    · rw [List.filter_cons_of_pos hq] at h
      unfold expandAll at h
      simp only [bind_ok] at h
      obtain ⟨here, h1, more, h2, h⟩ := h
      injection h with h; subst h
      have ho := expand_original h1
      by_cases hp : p ev = true
      · rw [List.filter_cons_of_pos hp]
        unfold expandAll
        have hh : here.filter (fun o => p o.original) = here :=
          List.filter_eq_self.2 (fun o hmem => by rw [ho o hmem]; exact hp)
        rw [h1, ih more h2, List.filter_append, hh]
        rfl
      · have hh : here.filter (fun o => p o.original) = [] :=
          List.filter_eq_nil_iff.2 (fun o hmem => by rw [ho o hmem]; exact hp)
        rw [List.filter_cons_of_neg hp, ih more h2, List.filter_append, hh]
        rfl
    · rw [List.filter_cons_of_neg hq] at h
      rw [List.filter_cons_of_neg (fun hp => hq (hpq ev hp))]
      exact ih l' h

/-- C77: narrowing the criteria only removes occurrences, and what remains is in the same order; a query
that returned still returns. -/
theorem C77_occurrences (s : Storage) (fine coarse : Criteria) (hc : Narrower fine coarse)
    (b e : Option Int) (l' : List (Occurrence Event)) (h' : s.getOccurrences b e (some coarse) = .ok l') :
    ∃ l, s.getOccurrences b e (some fine) = .ok l ∧ l.Sublist l' ∧
      ∀ o ∈ l', o ∈ l ↔ Matches fine o.original := by
  unfold Storage.getOccurrences at h' ⊢
  cases b with
  | none => cases h'
  | some b =>
  cases e with
  | none => cases h'
  | some e =>
  simp only [] at h' ⊢
  unfold Storage.matching at h' ⊢
  simp only [Option.getD_some] at h' ⊢
  refine ⟨_, expandAll_filter (p := fine.match) (fun ev h => ?_) _ _ h', List.filter_sublist, fun o ho => ?_⟩
  · exact (match_iff _ _).2 (narrower_matches hc ((match_iff _ _).1 h))
  · rw [List.mem_filter, match_iff]
    exact ⟨fun h => h.2, fun h => ⟨ho, h⟩⟩

/-- C77, concrete: work that Bob still has to answer, out of everything Alice or Bob attend; the first query
shows less, the second more. -/
example : Narrower { attendees := some ["bob"], status := some "NEEDS-ACTION", categories := some ["work"] }
      { attendees := some ["alice", "bob"] } ∧
    (∃ l, Sample.store.getEvents (some Sample.day) none (some { attendees := some ["alice", "bob"] }) = .ok l ∧
      l.map (·.uid) = ["m", "t", "p"]) ∧
    ∃ l, Sample.store.getEvents (some Sample.day) (some (Sample.day + DAY)) (some { attendees := some ["bob"], status := some "NEEDS-ACTION", categories := some ["work"] }) = .ok l ∧
      l.map (·.uid) = ["m"] :=
  ⟨⟨by simp, by simp, by simp⟩, ⟨_, rfl, by decide +kernel⟩, ⟨_, rfl, by decide +kernel⟩⟩

end CalCore
