import Verif.Lemmas.Order
import Verif.Props.Allday
/- C120: queries treat events one by one. -/
namespace CalCore
open Spec

/-- The answer `x` is the answers `y` and `z` together; there is none if one of them is missing. -/
def Spec.Together {α : Type} (x y z : Res (List α)) : Prop :=
  ∀ l, x = .ok l ↔ ∃ m n, y = .ok m ∧ z = .ok n ∧ l = m ++ n

/-- The events of `s` are divided between `s₁` and `s₂`. -/
def Spec.Divided (s s₁ s₂ : Storage) : Prop := s.events = s₁.events ++ s₂.events

theorem concatM_append {α γ : Type} (f : α → Res (List γ)) (l₁ l₂ : List α) :
    Together (concatM f (l₁ ++ l₂)) (concatM f l₁) (concatM f l₂) := by
  induction l₁ with
  | nil =>
    intro l
    constructor
    · intro h; exact ⟨[], l, rfl, h, rfl⟩
    · rintro ⟨m, n, hm, hn, rfl⟩
      injection hm with hm; subst hm
      exact hn
  | cons a rest ih =>
    intro l
    rw [List.cons_append]
    have hc : ∀ l, concatM f (a :: l) = f a >>= fun here => concatM f l >>= fun more => .ok (here ++ more) := fun _ => rfl
    rw [hc, hc]
    simp only [bind_ok]
    constructor
    · rintro ⟨here, hh, more, hm, hl⟩
      injection hl with hl; subst hl
      obtain ⟨m, n, h1, h2, rfl⟩ := (ih more).1 hm
      exact ⟨here ++ m, n, ⟨here, hh, m, h1, rfl⟩, h2, (List.append_assoc ..).symm⟩
    · rintro ⟨_, n, ⟨here, hh, m, h1, h3⟩, h2, rfl⟩
      injection h3 with h3; subst h3
      exact ⟨here, hh, m ++ n, (ih _).2 ⟨m, n, h1, h2, rfl⟩, by rw [List.append_assoc]⟩

theorem Spec.Divided.matching {s s₁ s₂ : Storage} (h : Divided s s₁ s₂) (c : Option Criteria) :
    s.matching c = s₁.matching c ++ s₂.matching c := by
  unfold Storage.matching
  rw [h, Dict.values, List.map_append, List.filter_append]
  rfl

/-- C120: events of a query. -/
theorem C120_events (s s₁ s₂ : Storage) (h : Divided s s₁ s₂) (b e : Option DateTime) (cr : Option Criteria) :
    Together (s.getEvents b e cr) (s₁.getEvents b e cr) (s₂.getEvents b e cr) := by
  unfold Storage.getEvents
  rw [h.matching, filterInPeriod_eq, filterInPeriod_eq, filterInPeriod_eq]
  exact concatM_append _ _ _

/-- C120: occurrences. -/
theorem C120_occurrences (s s₁ s₂ : Storage) (h : Divided s s₁ s₂) (b e : Option DateTime) (cr : Option Criteria) :
    Together (s.getOccurrences b e cr) (s₁.getOccurrences b e cr) (s₂.getOccurrences b e cr) := by
  unfold Storage.getOccurrences
  cases b with
  | none => intro l; constructor <;> [(intro h; cases h); (rintro ⟨m, n, h, _⟩; cases h)]
  | some b =>
    cases e with
    | none => intro l; constructor <;> [(intro h; cases h); (rintro ⟨m, n, h, _⟩; cases h)]
    | some e =>
      simp only []
      rw [h.matching, expandAll_eq, expandAll_eq, expandAll_eq]
      exact concatM_append _ _ _

theorem together_segments {x y z : Res (List (Occurrence Event))} (h : Together x y z) (b e : Option DateTime) :
    Together (x >>= fun occs => match b, e with
        | some b, some e => segmentOccurrences b e occs
        | _, _ => raise .AssertionError)
      (y >>= fun occs => match b, e with
        | some b, some e => segmentOccurrences b e occs
        | _, _ => raise .AssertionError)
      (z >>= fun occs => match b, e with
        | some b, some e => segmentOccurrences b e occs
        | _, _ => raise .AssertionError) := by
  have no : ∀ (x : Res (List (Occurrence Event))) l,
      (x >>= fun _ => (raise .AssertionError : Res (List (Occurrence Event)))) = .ok l → False := by
    intro x l hx
    obtain ⟨_, _, hx⟩ := bind_ok.1 hx
    cases hx
  intro l
  cases b with
  | none => exact ⟨fun hx => (no x l hx).elim, fun ⟨m, _, hy, _⟩ => (no y m hy).elim⟩
  | some b =>
    cases e with
    | none => exact ⟨fun hx => (no x l hx).elim, fun ⟨m, _, hy, _⟩ => (no y m hy).elim⟩
    | some e =>
      simp only [bind_ok, segmentOccurrences_eq]
      constructor
      · rintro ⟨occs, hx, hl⟩
        obtain ⟨m, n, hy, hz, rfl⟩ := (h occs).1 hx
        obtain ⟨p, q, hp, hq, rfl⟩ := (concatM_append _ m n l).1 hl
        exact ⟨p, q, ⟨m, hy, hp⟩, ⟨n, hz, hq⟩, rfl⟩
      · rintro ⟨p, q, ⟨m, hy, hp⟩, ⟨n, hz, hq⟩, rfl⟩
        exact ⟨m ++ n, (h _).2 ⟨m, n, hy, hz, rfl⟩, (concatM_append _ m n _).2 ⟨p, q, hp, hq, rfl⟩⟩

/-- C120: occurrences divided by days. -/
theorem C120_segmented (s s₁ s₂ : Storage) (h : Divided s s₁ s₂) (b e : Option DateTime) (cr : Option Criteria) :
    Together (s.getOccurrencesSegmented b e cr) (s₁.getOccurrencesSegmented b e cr) (s₂.getOccurrencesSegmented b e cr) := by
  have := together_segments (C120_occurrences s s₁ s₂ h b e cr) b e
  unfold Storage.getOccurrencesSegmented
  cases b <;> cases e <;> exact this

theorem together_bind {α β : Type} (x : Res α) {f g k : α → Res (List β)} (h : ∀ a, Together (f a) (g a) (k a)) :
    Together (x >>= f) (x >>= g) (x >>= k) := by
  intro l
  cases x with
  | error e =>
    constructor
    · intro h; cases h
    · rintro ⟨_, _, h, _⟩; cases h
  | ok a => exact h a l

/-- C120: the queries of a calendar, by period and by day. -/
theorem C120_calendar (s s₁ s₂ : Storage) (h : Divided s s₁ s₂) (c : Calendar) (src : Source) (b e : Option DateTime) (d : Date)
    (cr : Option Criteria) :
    Together (c.getEvents src s b e cr) (c.getEvents src s₁ b e cr) (c.getEvents src s₂ b e cr) ∧
    Together (c.getOccurrences src s b e cr) (c.getOccurrences src s₁ b e cr) (c.getOccurrences src s₂ b e cr) ∧
    Together (c.getOccurrencesSegmented src s b e cr) (c.getOccurrencesSegmented src s₁ b e cr)
      (c.getOccurrencesSegmented src s₂ b e cr) ∧
    Together (c.getEventsInDay src s d cr) (c.getEventsInDay src s₁ d cr) (c.getEventsInDay src s₂ d cr) ∧
    Together (c.getOccurrencesInDay src s d cr) (c.getOccurrencesInDay src s₁ d cr) (c.getOccurrencesInDay src s₂ d cr) := by
  have h1 : ∀ b e, Together (c.getEvents src s b e cr) (c.getEvents src s₁ b e cr) (c.getEvents src s₂ b e cr) :=
    fun b e => together_bind _ fun cr => C120_events s s₁ s₂ h b e (some cr)
  have h2 : ∀ b e, Together (c.getOccurrences src s b e cr) (c.getOccurrences src s₁ b e cr) (c.getOccurrences src s₂ b e cr) :=
    fun b e => together_bind _ fun cr => C120_occurrences s s₁ s₂ h b e (some cr)
  have h3 : ∀ b e, Together (c.getOccurrencesSegmented src s b e cr) (c.getOccurrencesSegmented src s₁ b e cr)
      (c.getOccurrencesSegmented src s₂ b e cr) := by
    intro b e
    have := together_segments (h2 b e) b e
    unfold Calendar.getOccurrencesSegmented
    cases b <;> cases e <;> exact this
  exact ⟨h1 b e, h2 b e, h3 b e, together_bind _ fun en => h1 _ _, together_bind _ fun en => h3 _ _⟩

/-- C120: blocked periods are found iff they are found for both parts; then the time blocked is what one of the parts blocks. -/
theorem C120_blocked (s s₁ s₂ : Storage) (h : Divided s s₁ s₂) (atts : List AttId) (b en tb te : Int) :
    ((∃ R, s.getBlockedPeriods atts b en tb te = .ok R) ↔
      (∃ R, s₁.getBlockedPeriods atts b en tb te = .ok R) ∧ ∃ R, s₂.getBlockedPeriods atts b en tb te = .ok R) ∧
    ∀ R R₁ R₂, s.getBlockedPeriods atts b en tb te = .ok R → s₁.getBlockedPeriods atts b en tb te = .ok R₁ →
      s₂.getBlockedPeriods atts b en tb te = .ok R₂ → ∀ t, Covered R t ↔ Covered R₁ t ∨ Covered R₂ t := by
  have hs : ∀ a, Together _ _ _ := fun a =>
    C120_segmented s s₁ s₂ h (some b) (some en) (some { attendees := some [a] })
  have ret : ∀ s : Storage, (∃ B, s.attendeeBlocks b en tb te atts [] = .ok B) ↔
      ∀ a ∈ atts, ∃ segs, s.getOccurrencesSegmented (some b) (some en) (some { attendees := some [a] }) = .ok segs := by
    intro s
    constructor
    · rintro ⟨B, hB⟩; exact (attendeeBlocks_ok hB).1
    · intro hseg
      refine attendeeBlocks_returns (fun a ha => ?_) []
      obtain ⟨segs, hsg⟩ := hseg a ha
      obtain ⟨occs, _, hso⟩ := segmented_ok hsg
      exact ⟨segs, hsg, segments_range hso⟩
  have blk : ∀ s : Storage, (∃ R, s.getBlockedPeriods atts b en tb te = .ok R) ↔
      (∃ B, s.attendeeBlocks b en tb te atts [] = .ok B) ∧
      ∃ endD, (if dtTime en = 0 then dateAdd (dtDate en) (-1) else Except.ok (dtDate en)) = .ok endD ∧
        ∃ W, windowLoop tb te endD ((endD - dtDate b).toNat + 2) (dtDate b) = .ok W := by
    intro s
    simp only [getBlockedPeriods_eq, bind_ok]
    constructor
    · rintro ⟨R, B, hB, endD, he, W, hW, _⟩; exact ⟨⟨B, hB⟩, endD, he, W, hW⟩
    · rintro ⟨⟨B, hB⟩, endD, he, W, hW⟩; exact ⟨_, B, hB, endD, he, W, hW, rfl⟩
  refine ⟨?_, ?_⟩
  · rw [blk, blk, blk, ret, ret, ret]
    constructor
    · rintro ⟨h1, h2⟩
      refine ⟨⟨fun a ha => ?_, h2⟩, fun a ha => ?_, h2⟩
      · obtain ⟨l, hl⟩ := h1 a ha
        obtain ⟨m, n, hm, _⟩ := (hs a l).1 hl
        exact ⟨m, hm⟩
      · obtain ⟨l, hl⟩ := h1 a ha
        obtain ⟨m, n, _, hn, _⟩ := (hs a l).1 hl
        exact ⟨n, hn⟩
    · rintro ⟨⟨h1, h2⟩, h3, _⟩
      refine ⟨fun a ha => ?_, h2⟩
      obtain ⟨m, hm⟩ := h1 a ha
      obtain ⟨n, hn⟩ := h3 a ha
      exact ⟨m ++ n, (hs a _).2 ⟨m, n, hm, hn, rfl⟩⟩
  · intro R R₁ R₂ hR hR₁ hR₂ t
    obtain ⟨_, B, rfl, hB⟩ := getBlockedPeriods_ok hR
    obtain ⟨_, B₁, rfl, hB₁⟩ := getBlockedPeriods_ok hR₁
    obtain ⟨_, B₂, rfl, hB₂⟩ := getBlockedPeriods_ok hR₂
    obtain ⟨hseg, _⟩ := getBlockedPeriods_ok hR
    rw [removeOverlaps_covered, removeOverlaps_covered, removeOverlaps_covered]
    have hm : ∀ p, p ∈ B ↔ p ∈ B₁ ∨ p ∈ B₂ := by
      intro p
      rw [hB, hB₁, hB₂]
      constructor
      · rintro (⟨a, ha, segs, hsg, o, ho, hx⟩ | hx)
        · obtain ⟨m, n, hm, hn, rfl⟩ := (hs a segs).1 hsg
          rcases List.mem_append.1 ho with ho | ho
          · exact Or.inl (Or.inl ⟨a, ha, m, hm, o, ho, hx⟩)
          · exact Or.inr (Or.inl ⟨a, ha, n, hn, o, ho, hx⟩)
        · exact Or.inl (Or.inr hx)
      · rintro ((⟨a, ha, m', hm', o, ho, hx⟩ | hx) | (⟨a, ha, n', hn', o, ho, hx⟩ | hx))
        · obtain ⟨segs, hsg⟩ := hseg a ha
          obtain ⟨m, n, hm, hn, rfl⟩ := (hs a segs).1 hsg
          rw [hm'] at hm; injection hm with hm; subst hm
          exact Or.inl ⟨a, ha, _, hsg, o, List.mem_append_left _ ho, hx⟩
        · exact Or.inr hx
        · obtain ⟨segs, hsg⟩ := hseg a ha
          obtain ⟨m, n, hm, hn, rfl⟩ := (hs a segs).1 hsg
          rw [hn'] at hn; injection hn with hn; subst hn
          exact Or.inl ⟨a, ha, _, hsg, o, List.mem_append_right _ ho, hx⟩
        · exact Or.inr hx
    constructor
    · rintro ⟨p, hp, hx⟩
      rcases (hm p).1 hp with hp | hp
      · exact Or.inl ⟨p, hp, hx⟩
      · exact Or.inr ⟨p, hp, hx⟩
    · rintro (⟨p, hp, hx⟩ | ⟨p, hp, hx⟩)
      · exact ⟨p, (hm p).2 (Or.inl hp), hx⟩
      · exact ⟨p, (hm p).2 (Or.inr hp), hx⟩

/-- C120: the export of a calendar. -/
theorem C120_export (s s₁ s₂ : Storage) (h : Divided s s₁ s₂) (c : Calendar) (src : Source) (b e : Option DateTime)
    (cr : Option Criteria) (order : Finset String → List String) :
    Together (c.export src s b e cr order) (c.export src s₁ b e cr order) (c.export src s₂ b e cr order) := by
  have hg := (C120_calendar s s₁ s₂ h c src b e 0 cr).1
  intro l
  unfold Calendar.export
  simp only [bind_ok, exportAll_eq]
  constructor
  · rintro ⟨evs, hx, hl⟩
    obtain ⟨m, n, hy, hz, rfl⟩ := (hg evs).1 hx
    obtain ⟨p, q, hp, hq, rfl⟩ := (concatM_append _ m n l).1 hl
    exact ⟨p, q, ⟨m, hy, hp⟩, ⟨n, hz, hq⟩, rfl⟩
  · rintro ⟨p, q, ⟨m, hy, hp⟩, ⟨n, hz, hq⟩, rfl⟩
    exact ⟨m ++ n, (hg _).2 ⟨m, n, hy, hz, rfl⟩, (concatM_append _ m n _).2 ⟨p, q, hp, hq, rfl⟩⟩

/-- The storage with only one of the events. -/
def Spec.onlyWith (s : Storage) (p : Uid × Event) : Storage := { s with events := [p] }

theorem each_of_together {γ : Type} (q : Storage → Res (List γ)) (h0 : ∀ s : Storage, s.events = [] → q s = .ok [])
    (h : ∀ s s₁ s₂, Divided s s₁ s₂ → Together (q s) (q s₁) (q s₂)) (id host : String) (evs : Dict Uid Event) : ∀ l,
    q ⟨id, host, evs⟩ = .ok l ↔ ∃ parts, List.Forall₂ (fun p part => q ⟨id, host, [p]⟩ = .ok part) evs parts ∧ l = parts.flatten := by
  induction evs with
  | nil =>
    intro l
    rw [h0 _ rfl]
    constructor
    · intro hl; injection hl with hl; subst hl; exact ⟨[], .nil, rfl⟩
    · rintro ⟨parts, hf, rfl⟩; cases hf; rfl
  | cons p rest ih =>
    intro l
    rw [h ⟨id, host, p :: rest⟩ ⟨id, host, [p]⟩ ⟨id, host, rest⟩ rfl l]
    constructor
    · rintro ⟨m, n, hm, hn, rfl⟩
      obtain ⟨parts, hf, rfl⟩ := (ih n).1 hn
      exact ⟨m :: parts, .cons hm hf, rfl⟩
    · rintro ⟨parts, hf, rfl⟩
      cases hf with
      | cons hm hf => exact ⟨_, _, hm, (ih _).2 ⟨_, hf, rfl⟩, rfl⟩

/-- C120: a query answers iff it answers for every single event, and the answer is these answers one after the other. -/
theorem C120_each (s : Storage) (b e : DateTime) (cr : Option Criteria) :
    (∀ l, s.getEvents (some b) (some e) cr = .ok l ↔ ∃ parts,
      List.Forall₂ (fun p part => (onlyWith s p).getEvents (some b) (some e) cr = .ok part) s.events parts ∧ l = parts.flatten) ∧
    (∀ l, s.getOccurrences (some b) (some e) cr = .ok l ↔ ∃ parts,
      List.Forall₂ (fun p part => (onlyWith s p).getOccurrences (some b) (some e) cr = .ok part) s.events parts ∧ l = parts.flatten) ∧
    (∀ l, s.getOccurrencesSegmented (some b) (some e) cr = .ok l ↔ ∃ parts,
      List.Forall₂ (fun p part => (onlyWith s p).getOccurrencesSegmented (some b) (some e) cr = .ok part) s.events parts ∧
        l = parts.flatten) := by
  refine ⟨each_of_together (fun s => s.getEvents (some b) (some e) cr) ?_ (fun s s₁ s₂ h => C120_events s s₁ s₂ h _ _ _) s.id s.host s.events,
    each_of_together (fun s => s.getOccurrences (some b) (some e) cr) ?_ (fun s s₁ s₂ h => C120_occurrences s s₁ s₂ h _ _ _) s.id s.host s.events,
    each_of_together (fun s => s.getOccurrencesSegmented (some b) (some e) cr) ?_ (fun s s₁ s₂ h => C120_segmented s s₁ s₂ h _ _ _)
      s.id s.host s.events⟩ <;>
  · rintro ⟨_, _, _⟩ rfl; rfl

/-- The meeting of the sample store alone, and the rest. -/
def Sample.part₁ : Storage := { Sample.store with events := Sample.store.events.take 1 }
/-- The rest. -/
def Sample.part₂ : Storage := { Sample.store with events := Sample.store.events.drop 1 }

/-- C120, concrete: the sample store in two parts, neither of which is empty. -/
example : Divided Sample.store Sample.part₁ Sample.part₂ ∧
    (Dict.keys Sample.part₁.events, Dict.keys Sample.part₂.events) = (["m"], ["t", "p"]) :=
  ⟨(List.take_append_drop 1 _).symm, by decide +kernel⟩

/-- Starts and lengths in hours from the first day. -/
def hours (x : Res (List (Occurrence Event))) : Res (List (Int × Int)) :=
  x.map fun l => l.map fun o => ((o.dtstart - Sample.day) / Sample.HOUR, o.duration / Sample.HOUR)

/-- C120, concrete: the segments of the first two days, of all events and of the parts. -/
example :
    hours (Sample.store.getOccurrencesSegmented (some Sample.day) (some (Sample.day + 2 * DAY)) none) =
      .ok [(10, 2), (24, 24), (20, 4), (33, 0)] ∧
    hours (Sample.part₁.getOccurrencesSegmented (some Sample.day) (some (Sample.day + 2 * DAY)) none) = .ok [(10, 2)] ∧
    hours (Sample.part₂.getOccurrencesSegmented (some Sample.day) (some (Sample.day + 2 * DAY)) none) =
      .ok [(24, 24), (20, 4), (33, 0)] := by decide +kernel

/-- C120, concrete: Bob's blocked hours on the first day, with all events and with the parts. -/
example :
    let hrs (R : Res (List (Int × Int))) := R.map fun l => l.map fun p => ((p.1 - Sample.day) / Sample.HOUR, (p.2 - Sample.day) / Sample.HOUR)
    hrs (Sample.store.getBlockedPeriods ["bob"] Sample.day (Sample.day + DAY) (8 * Sample.HOUR) (22 * Sample.HOUR)) =
      .ok [(0, 8), (10, 12), (20, 24)] ∧
    hrs (Sample.part₁.getBlockedPeriods ["bob"] Sample.day (Sample.day + DAY) (8 * Sample.HOUR) (22 * Sample.HOUR)) =
      .ok [(0, 8), (10, 12), (22, 24)] ∧
    hrs (Sample.part₂.getBlockedPeriods ["bob"] Sample.day (Sample.day + DAY) (8 * Sample.HOUR) (22 * Sample.HOUR)) =
      .ok [(0, 8), (20, 24)] := by decide +kernel

end CalCore
