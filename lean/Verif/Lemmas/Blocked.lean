import Verif.Lemmas.Util
import Verif.Spec.Blocked
import Verif.Props.Segments
/- Lemmas on blocked and free periods. -/
namespace CalCore
open Spec

/-! ### removeOverlaps with empty and inverted tuples -/

/-- Doubling turns the closed period `[s, e]` into the half-open `[2s, 2e+1)`. -/
def dbl (p : Int × Int) : Int × Int := (2 * p.1, 2 * p.2 + 1)

theorem dbl_inj {p q : Int × Int} (h : dbl p = dbl q) : p = q := by
  unfold dbl at h
  injection h with h1 h2
  exact Prod.ext (by omega) (by omega)

theorem lexLe_dbl (p q : Int × Int) : lexLe (dbl p) (dbl q) = lexLe p q := by
  rw [Bool.eq_iff_iff, lexLe_iff, lexLe_iff]
  unfold dbl; simp only []; omega

theorem insertLex_dbl (p : Int × Int) (L : List (Int × Int)) :
    insertLex (dbl p) (L.map dbl) = (insertLex p L).map dbl := by
  induction L with
  | nil => rfl
  | cons q rest ih =>
    simp only [List.map_cons, insertLex, lexLe_dbl, ih]
    split <;> simp

theorem sortLex_dbl (L : List (Int × Int)) : sortLex (L.map dbl) = (sortLex L).map dbl := by
  induction L with
  | nil => rfl
  | cons q rest ih => simp only [List.map_cons, sortLex, ih, insertLex_dbl]

theorem overlapLoop_dbl (L : List (Int × Int)) : ∀ ls le,
    overlapLoop (2 * ls) (2 * le + 1) (L.map dbl) = (overlapLoop ls le L).map dbl := by
  induction L with
  | nil => intro ls le; rfl
  | cons q rest ih =>
    obtain ⟨s, e⟩ := q
    intro ls le
    simp only [List.map_cons, dbl, overlapLoop]
    by_cases h1 : s ≤ le
    · rw [if_pos (by omega : 2 * s ≤ 2 * le + 1), if_pos h1]
      by_cases h2 : e ≤ le
      · rw [if_pos (by omega : 2 * e + 1 ≤ 2 * le + 1), if_pos h2]; exact ih _ _
      · rw [if_neg (by omega : ¬ 2 * e + 1 ≤ 2 * le + 1), if_neg h2]; exact ih _ _
    · rw [if_neg (by omega : ¬ 2 * s ≤ 2 * le + 1), if_neg h1, List.map_cons]
      congr 1
      exact ih _ _

theorem removeOverlaps_dbl (L : List (Int × Int)) :
    removeOverlaps (L.map dbl) = (removeOverlaps L).map dbl := by
  unfold removeOverlaps
  rw [sortLex_dbl]
  cases sortLex L with
  | nil => rfl
  | cons p rest =>
    obtain ⟨s, e⟩ := p
    exact overlapLoop_dbl rest s e

/-- Every tuple that is empty or inverted starts inside another tuple, after its start. -/
def Absorbed (L : List (Int × Int)) : Prop :=
  ∀ p ∈ L, p.1 < p.2 ∨ ∃ q ∈ L, q.1 < p.1 ∧ p.1 < q.2

theorem overlapLoop_absorb (l : List (Int × Int)) :
    ∀ ls le, ls < le → l.Pairwise (fun p q => p.1 ≤ q.1) →
      (∀ p ∈ l, p.1 < p.2 ∨ p.1 ≤ le ∨ ∃ q ∈ l, q.1 < p.1 ∧ p.1 < q.2) →
      ∀ p ∈ overlapLoop ls le l, p.1 < p.2 := by
  induction l with
  | nil => intro ls le h _ _ p hp; simp [overlapLoop] at hp; subst hp; exact h
  | cons a l ih =>
    obtain ⟨s, e⟩ := a
    intro ls le hlt hs ha
    rw [List.pairwise_cons] at hs
    have hhead := ha (s, e) (List.mem_cons_self ..)
    have hhead' : s < e ∨ s ≤ le := by
      rcases hhead with h | h | ⟨q, hq, h1, h2⟩
      · exact Or.inl h
      · exact Or.inr h
      · rcases List.mem_cons.1 hq with rfl | hq
        · simp only [] at h1; omega
        · have := hs.1 q hq; simp only [] at this h1; omega
    have hrest : ∀ le', le ≤ le' ∨ le < s → e ≤ le' → ∀ p ∈ l, p.1 < p.2 ∨ p.1 ≤ le' ∨ ∃ q ∈ l, q.1 < p.1 ∧ p.1 < q.2 := by
      intro le' hle hle' p hp
      have hsp := hs.1 p hp
      simp only [] at hsp
      rcases ha p (List.mem_cons_of_mem _ hp) with h | h | ⟨q, hq, h1, h2⟩
      · exact Or.inl h
      · right; left; omega
      · rcases List.mem_cons.1 hq with rfl | hq
        · right; left; simp only [] at h2; omega
        · exact Or.inr (Or.inr ⟨q, hq, h1, h2⟩)
    unfold overlapLoop
    split
    · split
      · exact ih ls le hlt hs.2 (hrest le (Or.inl (Int.le_refl _)) (by assumption))
      · exact ih ls e (by omega) hs.2 (hrest e (Or.inl (by omega)) (Int.le_refl _))
    · intro p hp
      rcases List.mem_cons.1 hp with rfl | hp
      · exact hlt
      · exact ih s e (by omega) hs.2 (hrest e (Or.inr (by omega)) (Int.le_refl _)) p hp

theorem removeOverlaps_absorb {L : List (Int × Int)} (h : Absorbed L) :
    ∀ p ∈ removeOverlaps L, p.1 < p.2 := by
  have hp := sortLex_perm L
  have hs := sortLex_starts L
  have h' : ∀ p ∈ sortLex L, p.1 < p.2 ∨ ∃ q ∈ sortLex L, q.1 < p.1 ∧ p.1 < q.2 := by
    intro p hpm
    rcases h p (hp.mem_iff.1 hpm) with h1 | ⟨q, hq, h1⟩
    · exact Or.inl h1
    · exact Or.inr ⟨q, hp.mem_iff.2 hq, h1⟩
  unfold removeOverlaps
  cases hsl : sortLex L with
  | nil => simp
  | cons a rest =>
    obtain ⟨s, e⟩ := a
    rw [hsl] at hs h'
    rw [List.pairwise_cons] at hs
    have hse : s < e := by
      rcases h' (s, e) (List.mem_cons_self ..) with h1 | ⟨q, hq, h1, h2⟩
      · exact h1
      · rcases List.mem_cons.1 hq with rfl | hq
        · simp only [] at h1; omega
        · have := hs.1 q hq; simp only [] at this h1; omega
    refine overlapLoop_absorb rest s e hse hs.2 ?_
    intro p hpm
    rcases h' p (List.mem_cons_of_mem _ hpm) with h1 | ⟨q, hq, h1, h2⟩
    · exact Or.inl h1
    · rcases List.mem_cons.1 hq with rfl | hq
      · right; left; simp only [] at h2; omega
      · exact Or.inr (Or.inr ⟨q, hq, h1, h2⟩)

/-- Every inverted tuple starts inside or at the end of another tuple, after its start. -/
def Settled (L : List (Int × Int)) : Prop :=
  ∀ p ∈ L, p.1 ≤ p.2 ∨ ∃ q ∈ L, q.1 < p.1 ∧ p.1 ≤ q.2

theorem settled_dbl {L : List (Int × Int)} (h : Settled L) : Absorbed (L.map dbl) := by
  intro p hp
  rw [List.mem_map] at hp
  obtain ⟨p, hp, rfl⟩ := hp
  rcases h p hp with h | ⟨q, hq, h1, h2⟩
  · left; unfold dbl; simp only []; omega
  · right; exact ⟨dbl q, List.mem_map.2 ⟨q, hq, rfl⟩, by unfold dbl; simp only []; omega, by unfold dbl; simp only []; omega⟩

theorem removeOverlaps_settled {L : List (Int × Int)} (h : Settled L) : ∀ p ∈ removeOverlaps L, p.1 ≤ p.2 := by
  intro p hp
  have := removeOverlaps_absorb (settled_dbl h) (dbl p) (by
    rw [removeOverlaps_dbl]; exact List.mem_map.2 ⟨p, hp, rfl⟩)
  unfold dbl at this; simp only [] at this; omega

/-- Every tuple of the result starts at the start of some tuple of the argument. -/
theorem overlapLoop_start (l : List (Int × Int)) : ∀ ls le, ∀ p ∈ overlapLoop ls le l,
    p.1 = ls ∨ ∃ q ∈ l, q.1 = p.1 := by
  induction l with
  | nil => intro ls le p hp; simp [overlapLoop] at hp; subst hp; exact Or.inl rfl
  | cons a l ih =>
    obtain ⟨s, e⟩ := a
    intro ls le p hp
    have lift : (p.1 = ls ∨ ∃ q ∈ l, q.1 = p.1) → (p.1 = ls ∨ ∃ q ∈ (s, e) :: l, q.1 = p.1) := by
      rintro (h | ⟨q, hq, h⟩)
      · exact Or.inl h
      · exact Or.inr ⟨q, List.mem_cons_of_mem _ hq, h⟩
    unfold overlapLoop at hp
    split at hp
    · split at hp
      · exact lift (ih _ _ p hp)
      · exact lift (ih _ _ p hp)
    · rcases List.mem_cons.1 hp with rfl | hp
      · exact Or.inl rfl
      · rcases ih _ _ p hp with h | ⟨q, hq, h⟩
        · exact Or.inr ⟨(s, e), List.mem_cons_self .., h.symm⟩
        · exact Or.inr ⟨q, List.mem_cons_of_mem _ hq, h⟩

theorem removeOverlaps_start {L : List (Int × Int)} {p : Int × Int} (hp : p ∈ removeOverlaps L) :
    ∃ q ∈ L, q.1 = p.1 := by
  have hperm := sortLex_perm L
  unfold removeOverlaps at hp
  cases hsl : sortLex L with
  | nil => rw [hsl] at hp; cases hp
  | cons a rest =>
    rw [hsl] at hp hperm
    obtain ⟨s, e⟩ := a
    rcases overlapLoop_start rest s e p hp with h | ⟨q, hq, h⟩
    · exact ⟨(s, e), hperm.mem_iff.1 (List.mem_cons_self ..), h.symm⟩
    · exact ⟨q, hperm.mem_iff.1 (List.mem_cons_of_mem _ hq), h⟩

/-! ### the loops of getBlockedPeriods -/

/-- The tuple added for a segment. -/
def clip {α : Type} (tb te : Int) (o : Occurrence α) : Int × Int :=
  let dayStart := combine (dtDate o.dtstart) tb
  let dtstart := if o.dtstart < dayStart then dayStart else o.dtstart
  let dayEnd := combine (dtDate dtstart) te
  (dtstart, if o.dtstart + o.duration ≥ dayEnd then dayEnd else o.dtstart + o.duration)

theorem blockLoop_ok {b en tb te : Int} {a : AttId} {segs : List (Occurrence Event)}
    {acc acc' : List (Int × Int)} (h : blockLoop b en tb te a segs acc = .ok acc') (p : Int × Int) :
    p ∈ acc' ↔ p ∈ acc ∨ ∃ o ∈ segs, blocks o.original a = true ∧ ¬ o.dtstart + o.duration < b ∧
      o.dtstart < en ∧ p = clip tb te o := by
  induction segs generalizing acc with
  | nil => injection h with h; subst h; simp
  | cons o rest ih =>
    have skip : ¬ (blocks o.original a = true ∧ ¬ o.dtstart + o.duration < b ∧ o.dtstart < en) →
        (p ∈ acc' ↔ p ∈ acc ∨ ∃ o ∈ rest, blocks o.original a = true ∧ ¬ o.dtstart + o.duration < b ∧
          o.dtstart < en ∧ p = clip tb te o) →
        (p ∈ acc' ↔ p ∈ acc ∨ ∃ o' ∈ o :: rest, blocks o'.original a = true ∧ ¬ o'.dtstart + o'.duration < b ∧
          o'.dtstart < en ∧ p = clip tb te o') := by
      intro hn hr
      rw [hr]
      constructor
      · rintro (h | ⟨o', ho, hx⟩)
        · exact Or.inl h
        · exact Or.inr ⟨o', List.mem_cons_of_mem _ ho, hx⟩
      · rintro (h | ⟨o', ho, hx⟩)
        · exact Or.inl h
        · rcases List.mem_cons.1 ho with rfl | ho
          · exact absurd ⟨hx.1, hx.2.1, hx.2.2.1⟩ hn
          · exact Or.inr ⟨o', ho, hx⟩
    unfold blockLoop at h
    split at h
    · exact skip (fun hc => by rename_i hb; exact hb hc.1) (ih h)
    · rename_i hb
      rw [bind_ok] at h
      obtain ⟨dtend, hd, h⟩ := h
      rw [dtAdd_ok] at hd
      obtain ⟨hdr, rfl⟩ := hd
      split at h
      · exact skip (fun hc => hc.2.1 (by assumption)) (ih h)
      · split at h
        · exact skip (fun hc => by have := hc.2.2; omega) (ih h)
        · rename_i h1 h2
          simp only [] at h
          rw [ih h]
          have hb' : blocks o.original a = true := by simpa using hb
          have hacc : ∀ c : Int × Int, c = clip tb te o →
              (p ∈ (if c ∈ acc then acc else acc ++ [c]) ↔ p ∈ acc ∨ p = clip tb te o) := by
            intro c hc
            subst hc
            split
            · rename_i hm
              constructor
              · exact Or.inl
              · rintro (h | h)
                · exact h
                · rw [h]; exact hm
            · simp
          refine Iff.trans (or_congr (hacc _ rfl) Iff.rfl) ?_
          constructor
          · rintro ((hx | hx) | ⟨o', ho, hx⟩)
            · exact Or.inl hx
            · exact Or.inr ⟨o, List.mem_cons_self .., hb', h1, by omega, hx⟩
            · exact Or.inr ⟨o', List.mem_cons_of_mem _ ho, hx⟩
          · rintro (hx | ⟨o', ho, hx⟩)
            · exact Or.inl (Or.inl hx)
            · rcases List.mem_cons.1 ho with rfl | ho
              · exact Or.inl (Or.inr hx.2.2.2)
              · exact Or.inr ⟨o', ho, hx⟩

theorem blockLoop_returns {b en tb te : Int} {a : AttId} {segs : List (Occurrence Event)}
    (h : ∀ o ∈ segs, dtInRange (o.dtstart + o.duration) = true) :
    ∀ acc, ∃ acc', blockLoop b en tb te a segs acc = .ok acc' := by
  induction segs with
  | nil => intro acc; exact ⟨acc, rfl⟩
  | cons o rest ih =>
    intro acc
    have ih := ih (fun o ho => h o (List.mem_cons_of_mem _ ho))
    unfold blockLoop
    split
    · exact ih _
    · have : dtAdd o.dtstart o.duration = .ok (o.dtstart + o.duration) :=
        dtAdd_ok.2 ⟨h o (List.mem_cons_self ..), rfl⟩
      rw [this, ok_bind]
      split
      · exact ih _
      · split
        · exact ih _
        · exact ih _

theorem attendeeBlocks_ok {s : Storage} {b en tb te : Int} {atts : List AttId}
    {acc acc' : List (Int × Int)} (h : s.attendeeBlocks b en tb te atts acc = .ok acc') :
    (∀ a ∈ atts, ∃ segs, s.getOccurrencesSegmented (some b) (some en) (some { attendees := some [a] }) = .ok segs) ∧
    ∀ p, p ∈ acc' ↔ p ∈ acc ∨ ∃ a ∈ atts, ∃ segs,
      s.getOccurrencesSegmented (some b) (some en) (some { attendees := some [a] }) = .ok segs ∧
      ∃ o ∈ segs, blocks o.original a = true ∧ ¬ o.dtstart + o.duration < b ∧ o.dtstart < en ∧ p = clip tb te o := by
  induction atts generalizing acc with
  | nil => injection h with h; subst h; simp
  | cons a rest ih =>
    unfold Storage.attendeeBlocks at h
    simp only [bind_ok] at h
    obtain ⟨segs, hs, acc1, hb, h⟩ := h
    obtain ⟨i1, i2⟩ := ih h
    refine ⟨?_, fun p => ?_⟩
    · intro a' ha'
      rcases List.mem_cons.1 ha' with rfl | ha'
      · exact ⟨segs, hs⟩
      · exact i1 a' ha'
    · rw [i2, blockLoop_ok hb]
      constructor
      · rintro ((h | h) | ⟨a', ha', h⟩)
        · exact Or.inl h
        · exact Or.inr ⟨a, List.mem_cons_self .., segs, hs, h⟩
        · exact Or.inr ⟨a', List.mem_cons_of_mem _ ha', h⟩
      · rintro (h | ⟨a', ha', segs', hs', h⟩)
        · exact Or.inl (Or.inl h)
        · rcases List.mem_cons.1 ha' with rfl | ha'
          · rw [hs] at hs'; injection hs' with hs'; subst hs'
            exact Or.inl (Or.inr h)
          · exact Or.inr ⟨a', ha', segs', hs', h⟩

theorem attendeeBlocks_returns {s : Storage} {b en tb te : Int} {atts : List AttId}
    (h : ∀ a ∈ atts, ∃ segs, s.getOccurrencesSegmented (some b) (some en) (some { attendees := some [a] }) = .ok segs ∧
      ∀ o ∈ segs, dtInRange (o.dtstart + o.duration) = true) :
    ∀ acc, ∃ acc', s.attendeeBlocks b en tb te atts acc = .ok acc' := by
  induction atts with
  | nil => intro acc; exact ⟨acc, rfl⟩
  | cons a rest ih =>
    intro acc
    obtain ⟨segs, hs, hr⟩ := h a (List.mem_cons_self ..)
    obtain ⟨acc1, h1⟩ := blockLoop_returns (b := b) (en := en) (tb := tb) (te := te) (a := a) hr acc
    unfold Storage.attendeeBlocks
    rw [hs, ok_bind, h1, ok_bind]
    exact ih (fun a ha => h a (List.mem_cons_of_mem _ ha)) acc1

/-! ### the window -/

theorem windowLoop_ok {tb te endD : Int} : ∀ (fuel : Nat) (d : Int) (W : List (Int × Int)),
    windowLoop tb te endD fuel d = .ok W → ∀ p, p ∈ W ↔
      ∃ x, d ≤ x ∧ x ≤ endD ∧ (p = (combine x 0, combine x tb) ∨ p = (combine x te, combine (x + 1) 0)) := by
  intro fuel
  induction fuel with
  | zero => intro d W h; cases h
  | succ n ih =>
    intro d W h p
    unfold windowLoop at h
    split at h
    · rename_i hd
      simp only [bind_ok] at h
      obtain ⟨next, hn, more, hm, h⟩ := h
      rw [dateAdd_ok] at hn
      obtain ⟨_, rfl⟩ := hn
      injection h with h; subst h
      rw [List.mem_cons, List.mem_cons, ih _ _ hm]
      constructor
      · rintro (h | h | ⟨x, h1, h2, h3⟩)
        · exact ⟨d, Int.le_refl _, hd, Or.inl h⟩
        · exact ⟨d, Int.le_refl _, hd, Or.inr h⟩
        · exact ⟨x, by omega, h2, h3⟩
      · rintro ⟨x, h1, h2, h3⟩
        rcases (by omega : x = d ∨ d + 1 ≤ x) with rfl | hx
        · rcases h3 with h3 | h3
          · exact Or.inl h3
          · exact Or.inr (Or.inl h3)
        · exact Or.inr (Or.inr ⟨x, hx, h2, h3⟩)
    · injection h with h; subst h
      constructor
      · intro h; cases h
      · rintro ⟨x, h1, h2, _⟩; omega

/-- The fuel given by `getBlockedPeriods` is enough. -/
theorem windowLoop_ne_diverge (tb te endD d : Int) :
    windowLoop tb te endD ((endD - d).toNat + 2) d ≠ .error .diverge := by
  have key : ∀ (n : Nat) (d : Int), endD - d < n → windowLoop tb te endD (n + 1) d ≠ .error .diverge := by
    intro n
    induction n with
    | zero =>
      intro d hd h
      unfold windowLoop at h
      rw [if_neg (by omega)] at h
      cases h
    | succ n ih =>
      intro d hd h
      unfold windowLoop at h
      split at h
      · rw [bind_error] at h
        rcases h with h | ⟨x, hx, h⟩
        · unfold dateAdd at h; grind [raise]
        · rw [bind_error] at h
          rcases h with h | ⟨_, _, h⟩
          · rw [dateAdd_ok] at hx
            exact ih x (by omega) h
          · cases h
      · cases h
  exact key _ d (by omega)

theorem windowLoop_returns {tb te endD : Int} (he : endD < MAXORD) : ∀ (fuel : Nat) (d : Int), 1 ≤ d →
    windowLoop tb te endD fuel d = .error .diverge ∨ ∃ W, windowLoop tb te endD fuel d = .ok W := by
  intro fuel
  induction fuel with
  | zero => intro d _; exact Or.inl rfl
  | succ n ih =>
    intro d hd
    unfold windowLoop
    split
    · have : dateAdd d 1 = .ok (d + 1) := dateAdd_ok.2 ⟨(dateInRange_iff _).2 (by omega), rfl⟩
      rw [this, ok_bind]
      rcases ih (d + 1) (by omega) with h | ⟨W, h⟩
      · rw [h]; exact Or.inl rfl
      · rw [h]; exact Or.inr ⟨_, rfl⟩
    · exact Or.inr ⟨[], rfl⟩

/-- The last day of the period. -/
def lastDay (en : Int) : Int := if dtTime en = 0 then dtDate en - 1 else dtDate en

theorem getBlockedPeriods_eq (s : Storage) (atts : List AttId) (b en tb te : Int) :
    s.getBlockedPeriods atts b en tb te = (do
      let blocked ← s.attendeeBlocks b en tb te atts []
      let endD ← (if dtTime en = 0 then dateAdd (dtDate en) (-1) else Except.ok (dtDate en))
      let window ← windowLoop tb te endD ((endD - dtDate b).toNat + 2) (dtDate b)
      Except.ok (removeOverlaps (blocked ++ window))) := by
  unfold Storage.getBlockedPeriods
  simp only []
  congr 1
  funext B
  by_cases h : dtTime en = 0
  · rw [if_pos h, if_pos h]
  · rw [if_neg h, if_neg h]

theorem getBlockedPeriods_ok {s : Storage} {atts : List AttId} {b en tb te : Int} {R : List (Int × Int)}
    (h : s.getBlockedPeriods atts b en tb te = .ok R) :
    (∀ a ∈ atts, ∃ segs, s.getOccurrencesSegmented (some b) (some en) (some { attendees := some [a] }) = .ok segs) ∧
    ∃ B, R = removeOverlaps B ∧ ∀ p, p ∈ B ↔
      (∃ a ∈ atts, ∃ segs, s.getOccurrencesSegmented (some b) (some en) (some { attendees := some [a] }) = .ok segs ∧
        ∃ o ∈ segs, blocks o.original a = true ∧ ¬ o.dtstart + o.duration < b ∧ o.dtstart < en ∧ p = clip tb te o) ∨
      ∃ x, dtDate b ≤ x ∧ x ≤ lastDay en ∧ (p = (combine x 0, combine x tb) ∨ p = (combine x te, combine (x + 1) 0)) := by
  rw [getBlockedPeriods_eq] at h
  simp only [bind_ok] at h
  obtain ⟨B, hB, endD, hend, W, hW, h⟩ := h
  injection h with h
  obtain ⟨h1, h2⟩ := attendeeBlocks_ok hB
  refine ⟨h1, B ++ W, h.symm, fun p => ?_⟩
  have he : endD = lastDay en := by
    unfold lastDay
    split at hend
    · rename_i ht
      rw [dateAdd_ok] at hend
      rw [if_pos ht]; omega
    · rename_i ht
      injection hend with hend
      rw [if_neg ht]; omega
  rw [List.mem_append, h2, windowLoop_ok _ _ _ hW, he]
  simp

theorem getBlockedPeriods_returns {s : Storage} {atts : List AttId} {b en tb te : Int}
    (h : ∀ a ∈ atts, ∃ segs, s.getOccurrencesSegmented (some b) (some en) (some { attendees := some [a] }) = .ok segs ∧
      ∀ o ∈ segs, dtInRange (o.dtstart + o.duration) = true)
    (hb : dtInRange b = true) (hed : dtDate en < MAXORD) (h1 : dtTime en = 0 → 2 ≤ dtDate en) :
    ∃ R, s.getBlockedPeriods atts b en tb te = .ok R := by
  obtain ⟨B, hB⟩ := attendeeBlocks_returns (tb := tb) (te := te) h []
  have hend : ∃ endD, (if dtTime en = 0 then dateAdd (dtDate en) (-1) else Except.ok (dtDate en)) = .ok endD ∧ endD < MAXORD := by
    split
    · rename_i ht
      exact ⟨dtDate en + -1, dateAdd_ok.2 ⟨(dateInRange_iff _).2 (by have := h1 ht; omega), rfl⟩, by omega⟩
    · exact ⟨_, rfl, hed⟩
  obtain ⟨endD, hend, hm⟩ := hend
  have hb1 := (dateInRange_iff _).1 (dtDate_range hb)
  rcases windowLoop_returns (tb := tb) (te := te) hm ((endD - dtDate b).toNat + 2) (dtDate b) (by omega) with h | ⟨W, hW⟩
  · exact absurd h (windowLoop_ne_diverge _ _ _ _)
  · refine ⟨removeOverlaps (B ++ W), ?_⟩
    rw [getBlockedPeriods_eq, hB, ok_bind, hend, ok_bind, hW, ok_bind]

/-! ### which instants the tuples cover -/

theorem clip_covers {α : Type} {tb te : Int} (htb : IsTime tb) (hte : IsTime te) {o : Occurrence α}
    (ho : o.dtstart + o.duration ≤ combine (dtDate o.dtstart + 1) 0) (t : Int) :
    In t (clip tb te o) ↔ Covers o t ∧ InWindow tb te t := by
  unfold IsTime at htb hte
  have hd : dtDate (if o.dtstart < combine (dtDate o.dtstart) tb then combine (dtDate o.dtstart) tb else o.dtstart)
      = dtDate o.dtstart := by
    split
    · exact dtDate_combine _ _ htb.1 htb.2
    · rfl
  unfold clip In Covers InWindow
  simp only [hd]
  unfold combine dtDate dtTime DAY at *
  split <;> split <;> constructor <;> intro h <;> omega

theorem window_covers {tb te d0 d1 : Int} (htb : IsTime tb) (hte : IsTime te) (t : Int) :
    (∃ p : Int × Int, (∃ x, d0 ≤ x ∧ x ≤ d1 ∧ (p = (combine x 0, combine x tb) ∨ p = (combine x te, combine (x + 1) 0))) ∧ In t p) ↔
      d0 ≤ dtDate t ∧ dtDate t ≤ d1 ∧ ¬ InWindow tb te t := by
  unfold IsTime at htb hte
  unfold InWindow
  constructor
  · rintro ⟨p, ⟨x, h1, h2, rfl | rfl⟩, ht⟩
    · unfold In combine at ht
      simp only [] at ht
      unfold dtDate dtTime DAY at *
      omega
    · unfold In combine at ht
      simp only [] at ht
      unfold dtDate dtTime DAY at *
      omega
  · rintro ⟨h1, h2, h3⟩
    by_cases h : dtTime t < tb
    · refine ⟨_, ⟨dtDate t, h1, h2, Or.inl rfl⟩, ?_⟩
      unfold In combine; simp only []
      unfold dtDate dtTime DAY at *; omega
    · refine ⟨_, ⟨dtDate t, h1, h2, Or.inr rfl⟩, ?_⟩
      unfold In combine; simp only []
      unfold dtDate dtTime DAY at *; omega

/-- A segment ends at most at the midnight after its start, ends in range, and passes the period tests. -/
theorem segment_day {α : Type} {b en : Int} {L segs : List (Occurrence α)}
    (h : segmentOccurrences b en L = .ok segs) (seg : Occurrence α) (hs : seg ∈ segs) :
    seg.dtstart + seg.duration ≤ combine (dtDate seg.dtstart + 1) 0 ∧ b < seg.dtstart + seg.duration ∧
      seg.dtstart < en ∧ b ≤ seg.dtstart := by
  obtain ⟨o, _, l, hl, hsl⟩ := mem_segments h seg hs
  obtain ⟨inner, hw, _, rfl⟩ := segmentOne_ok hl
  obtain ⟨h1, h2, h3⟩ := lo_le (x0 := o.dtstart) (b := b) _ rfl
  rw [List.mem_map] at hsl
  obtain ⟨p, hp, rfl⟩ := hsl
  rw [List.mem_filter, List.mem_reverse] at hp
  obtain ⟨hp, hk⟩ := hp
  have hb := segPairs_bounds hw h1 h2 h3 p hp
  unfold keptPair at hk
  rw [decide_eq_true_eq] at hk
  have hblo : b ≤ (if o.dtstart < b then b else o.dtstart) := by split <;> omega
  simp only [mkSeg]
  refine ⟨?_, by omega, by omega, by omega⟩
  have := hb.2.1
  unfold combine dtDate DAY at *; omega

theorem blocks_iff {e : Event} {a : AttId} : blocks e a = true ↔ Blocking e a := by
  unfold blocks Blocking Event.getStatus
  simp only [Bool.and_eq_true, Bool.not_eq_true', Bool.or_eq_false_iff, decide_eq_false_iff_not, and_assoc, ne_eq]


theorem segmentOne_range {α : Type} {b en : Int} {occ : Occurrence α} {l : List (Occurrence α)}
    (h : segmentOne b en occ = .ok l) : ∀ seg ∈ l, dtInRange (seg.dtstart + seg.duration) = true := by
  unfold segmentOne at h
  simp only [] at h
  rw [bind_ok] at h
  obtain ⟨y, hy, h⟩ := h
  rw [bind_ok] at h
  obtain ⟨inner, hi, h⟩ := h
  split at h
  · injection h with h; subst h; intro seg hs; cases hs
  · rw [popLoop_ok] at h
    obtain ⟨h1, rfl⟩ := h
    intro seg hs
    rw [List.mem_map] at hs
    obtain ⟨p, hp, rfl⟩ := hs
    rw [List.mem_filter] at hp
    have := h1 p hp.1
    unfold mkSeg
    simp only []
    rwa [show p.1 + (p.2 - p.1) = p.2 by omega]

theorem segments_range {α : Type} {b en : Int} {L segs : List (Occurrence α)}
    (h : segmentOccurrences b en L = .ok segs) : ∀ seg ∈ segs, dtInRange (seg.dtstart + seg.duration) = true := by
  intro seg hs
  obtain ⟨o, _, l, hl, hsl⟩ := mem_segments h seg hs
  exact segmentOne_range hl seg hsl

/-- Segmentation only depends on which occurrences there are. -/
theorem segments_same {α : Type} {b en : Int} {L L' segs : List (Occurrence α)}
    (h : segmentOccurrences b en L = .ok segs) (hm : ∀ o, o ∈ L' ↔ o ∈ L) :
    ∃ segs', segmentOccurrences b en L' = .ok segs' ∧ ∀ o, o ∈ segs' ↔ o ∈ segs := by
  have hret : ∀ l : List (Occurrence α), (∀ o ∈ l, ∃ x, segmentOne b en o = .ok x) →
      ∃ r, segmentOccurrences b en l = .ok r := by
    intro l
    induction l with
    | nil => intro _; exact ⟨[], rfl⟩
    | cons o rest ih =>
      intro hx
      obtain ⟨x, hx1⟩ := hx o (List.mem_cons_self ..)
      obtain ⟨r, hr⟩ := ih (fun o ho => hx o (List.mem_cons_of_mem _ ho))
      exact ⟨x ++ r, by unfold segmentOccurrences; rw [hx1, ok_bind, hr, ok_bind]⟩
  obtain ⟨segs', hs'⟩ := hret L' (fun o ho => by
    obtain ⟨l, hl, _⟩ := segments_complete h o ((hm o).1 ho)
    exact ⟨l, hl⟩)
  refine ⟨segs', hs', fun seg => ?_⟩
  constructor
  · intro hseg
    obtain ⟨o, ho, l, hl, hsl⟩ := mem_segments hs' seg hseg
    obtain ⟨l2, hl2, hsub⟩ := segments_complete h o ((hm o).1 ho)
    rw [hl] at hl2; injection hl2 with hl2; subst hl2
    exact hsub seg hsl
  · intro hseg
    obtain ⟨o, ho, l, hl, hsl⟩ := mem_segments h seg hseg
    obtain ⟨l2, hl2, hsub⟩ := segments_complete hs' o ((hm o).2 ho)
    rw [hl] at hl2; injection hl2 with hl2; subst hl2
    exact hsub seg hsl

/-- The segments of a store only depend on which events are stored. -/
theorem segmented_same {s s' : Storage} (hs : s.WF) (hs' : s'.WF)
    (he : ∀ uid, Dict.get? s'.events uid = Dict.get? s.events uid) {b en : Int} {c : Option Criteria}
    {segs : List (Occurrence Event)} (h : s.getOccurrencesSegmented (some b) (some en) c = .ok segs) :
    ∃ segs', s'.getOccurrencesSegmented (some b) (some en) c = .ok segs' ∧ ∀ o, o ∈ segs' ↔ o ∈ segs := by
  unfold Storage.getOccurrencesSegmented at h ⊢
  simp only [] at h ⊢
  rw [bind_ok] at h
  obtain ⟨occs, ho, h⟩ := h
  obtain ⟨h1, rfl⟩ := getOccurrences_ok.1 ho
  have hm : ∀ e, e ∈ s'.matching c ↔ e ∈ s.matching c := by
    intro e
    rw [mem_matching hs, mem_matching hs']
    unfold Stored; rw [he]
  have ho' : s'.getOccurrences (some b) (some en) c = .ok ((s'.matching c).flatMap (fun e => e.occs b en)) :=
    getOccurrences_ok.2 ⟨fun e hm' => h1 e ((hm e).1 hm'), rfl⟩
  rw [ho', ok_bind]
  refine segments_same h (fun o => ?_)
  simp only [List.mem_flatMap, hm]

theorem blockLoop_nodup {b en tb te : Int} {a : AttId} {segs : List (Occurrence Event)}
    {acc acc' : List (Int × Int)} (h : blockLoop b en tb te a segs acc = .ok acc') (hn : acc.Nodup) : acc'.Nodup := by
  induction segs generalizing acc with
  | nil => injection h with h; subst h; exact hn
  | cons o rest ih =>
    have hadd : ∀ c : Int × Int, (if c ∈ acc then acc else acc ++ [c]).Nodup := by
      intro c
      split
      · exact hn
      · rename_i hx
        rw [List.nodup_append]
        refine ⟨hn, by simp, ?_⟩
        intro x hx1 y hy hxy
        rw [List.mem_singleton] at hy
        subst hxy hy
        exact hx hx1
    unfold blockLoop at h
    split at h
    · exact ih h hn
    · rw [bind_ok] at h
      obtain ⟨dtend, hd, h⟩ := h
      split at h
      · exact ih h hn
      · split at h
        · exact ih h hn
        · simp only [] at h
          exact ih h (hadd _)

theorem attendeeBlocks_nodup {s : Storage} {b en tb te : Int} {atts : List AttId}
    {acc acc' : List (Int × Int)} (h : s.attendeeBlocks b en tb te atts acc = .ok acc') (hn : acc.Nodup) :
    acc'.Nodup := by
  induction atts generalizing acc with
  | nil => injection h with h; subst h; exact hn
  | cons a rest ih =>
    unfold Storage.attendeeBlocks at h
    simp only [bind_ok] at h
    obtain ⟨segs, hs, acc1, hb, h⟩ := h
    exact ih h (blockLoop_nodup hb hn)

theorem removeOverlaps_perm {L L' : List (Int × Int)} (h : L.Perm L') : removeOverlaps L = removeOverlaps L' := by
  unfold removeOverlaps
  rw [sortLex_perm_eq h]

/-! ### shape of the blocked periods -/

/-- Occurrences have the duration of their event. -/
theorem occurrence_duration {s : Storage} (hs : s.WF) {b en : Int} {c : Option Criteria}
    {l : List (Occurrence Event)} (h : s.getOccurrences (some b) (some en) c = .ok l) (o : Occurrence Event) (ho : o ∈ l) :
    Stored s o.original ∧ o.original.duration = some o.duration := by
  obtain ⟨h1, rfl⟩ := getOccurrences_ok.1 h
  rw [List.mem_flatMap] at ho
  obtain ⟨e, he, ho⟩ := ho
  unfold Event.occs at ho
  rw [List.mem_filter, List.mem_map] at ho
  obtain ⟨⟨d, hd, rfl⟩, _⟩ := ho
  obtain ⟨dur, hdur, _⟩ := (h1 e he).ends d hd
  refine ⟨((mem_matching hs c e).1 he).1, ?_⟩
  show e.duration = some (e.duration.getD 0)
  rw [hdur]; rfl

theorem segmented_ok {s : Storage} {b en : Int} {c : Option Criteria} {segs : List (Occurrence Event)}
    (h : s.getOccurrencesSegmented (some b) (some en) c = .ok segs) :
    ∃ occs, s.getOccurrences (some b) (some en) c = .ok occs ∧ segmentOccurrences b en occs = .ok segs := by
  unfold Storage.getOccurrencesSegmented at h
  simp only [] at h
  rw [bind_ok] at h
  exact h

theorem lastDay_ge {b en x : Int} (h1 : b ≤ x) (h2 : x < en) : dtDate b ≤ dtDate x ∧ dtDate x ≤ lastDay en := by
  unfold lastDay
  split <;> (unfold dtDate dtTime DAY at *; omega)

/-- The tuples of `getBlockedPeriods` before merging. -/
def IsTuple (s : Storage) (atts : List AttId) (b en tb te : Int) (p : Int × Int) : Prop :=
  (∃ a ∈ atts, ∃ segs, s.getOccurrencesSegmented (some b) (some en) (some { attendees := some [a] }) = .ok segs ∧
    ∃ o ∈ segs, blocks o.original a = true ∧ ¬ o.dtstart + o.duration < b ∧ o.dtstart < en ∧ p = clip tb te o) ∨
  ∃ x, dtDate b ≤ x ∧ x ≤ lastDay en ∧ (p = (combine x 0, combine x tb) ∨ p = (combine x te, combine (x + 1) 0))

/-- Position of a clipped segment relative to its day. -/
theorem clip_pos {tb te : Int} (htb : IsTime tb) {α : Type} (o : Occurrence α) (hd : 0 ≤ o.duration) :
    dtDate (clip tb te o).1 = dtDate o.dtstart ∧ tb ≤ dtTime (clip tb te o).1 ∧
      ((clip tb te o).1 ≤ (clip tb te o).2 ∨
       (clip tb te o).1 = combine (dtDate o.dtstart) tb ∧ 0 < tb ∨ combine (dtDate o.dtstart) te < (clip tb te o).1) ∧
      (clip tb te o).2 ≤ combine (dtDate o.dtstart) te := by
  unfold IsTime at htb
  unfold clip
  simp only []
  by_cases h1 : o.dtstart < combine (dtDate o.dtstart) tb
  · rw [if_pos h1, dtDate_combine _ _ htb.1 htb.2, dtTime_combine _ _ htb.1 htb.2]
    split <;> (unfold combine dtDate DAY at *; omega)
  · rw [if_neg h1]
    split <;> (unfold combine dtDate dtTime DAY at *; omega)

theorem tuple_settled {s : Storage} (hs : s.WF) (hn : NoNegative s) {atts : List AttId} {b en tb te : Int}
    (htb : IsTime tb) (hte : IsTime te) {B : List (Int × Int)}
    (hB : ∀ p, p ∈ B ↔ IsTuple s atts b en tb te p) : Settled B := by
  intro p hp
  rcases (hB p).1 hp with ⟨a, ha, segs, hsg, o, ho, _, _, hoen, rfl⟩ | ⟨x, h1, h2, rfl | rfl⟩
  · obtain ⟨occs, hocc, hseg⟩ := segmented_ok hsg
    obtain ⟨o', ho', l, hl, hol⟩ := mem_segments hseg o ho
    have hdur : 0 ≤ o'.duration := hn _ (occurrence_duration hs hocc o' ho').1 _ (occurrence_duration hs hocc o' ho').2
    obtain ⟨_, hd0, hbs, _⟩ := segmentOne_bounds hl hdur o hol
    have hday := lastDay_ge hbs hoen
    have h1 : (combine (dtDate o.dtstart) 0, combine (dtDate o.dtstart) tb) ∈ B :=
      (hB _).2 (Or.inr ⟨_, hday.1, hday.2, Or.inl rfl⟩)
    have h2 : (combine (dtDate o.dtstart) te, combine (dtDate o.dtstart + 1) 0) ∈ B :=
      (hB _).2 (Or.inr ⟨_, hday.1, hday.2, Or.inr rfl⟩)
    obtain ⟨c1, c2, c3, c4⟩ := clip_pos (te := te) htb o hd0
    rcases c3 with h | ⟨h, h'⟩ | h
    · exact Or.inl h
    · right
      refine ⟨_, h1, ?_, ?_⟩
      · simp only []; rw [h]; unfold combine; omega
      · rw [h]
    · right
      refine ⟨_, h2, h, ?_⟩
      simp only []
      generalize (clip tb te o).1 = y at *
      unfold combine dtDate DAY at *; omega
  · left; unfold IsTime at htb; simp only []; unfold combine; omega
  · left; unfold IsTime at hte; simp only []; unfold combine DAY at *; omega

/-- A merged period does not start inside or at the end of a tuple starting earlier. -/
theorem start_fresh {B : List (Int × Int)} (hs : Settled B) {p : Int × Int} (hp : p ∈ removeOverlaps B) :
    ¬ ∃ q ∈ B, q.1 < p.1 ∧ p.1 ≤ q.2 := by
  rintro ⟨q, hq, h1, h2⟩
  have hc : Covered (removeOverlaps (B.map dbl)) (2 * p.1 - 1) := by
    rw [removeOverlaps_covered]
    exact ⟨dbl q, List.mem_map.2 ⟨q, hq, rfl⟩, by unfold In dbl; simp only []; omega⟩
  rw [removeOverlaps_dbl] at hc
  obtain ⟨c', hc', hin⟩ := hc
  rw [List.mem_map] at hc'
  obtain ⟨c, hc, rfl⟩ := hc'
  unfold In dbl at hin
  simp only [] at hin
  have hle := removeOverlaps_settled hs p hp
  have hsep := removeOverlaps_separated B
  unfold Separated at hsep
  rw [List.pairwise_iff_getElem] at hsep
  obtain ⟨i, hi, rfl⟩ := List.mem_iff_getElem.1 hp
  obtain ⟨j, hj, rfl⟩ := List.mem_iff_getElem.1 hc
  rcases Nat.lt_trichotomy i j with h | h | h
  · have := hsep i j hi hj h; omega
  · subst h; omega
  · have := hsep j i hj hi h; omega

/-! ### the free periods -/

theorem freeLoop_filter (tb ends : Int) (m : Int) (L : List (Int × Int)) : ∀ last,
    freeLoop tb ends (some m) last L = (freeLoop tb ends none last L).filter (fun p => decide (m ≤ p.2 - p.1)) := by
  induction L with
  | nil =>
    intro last
    unfold freeLoop longEnough
    simp only [decide_eq_true_eq, and_true]
    by_cases h : last ≠ ends
    · rw [if_pos h, List.filter_cons, List.filter_nil]
      by_cases h2 : m ≤ ends - last
      · rw [if_pos ⟨h, by omega⟩, if_pos (by simpa using h2)]
      · rw [if_neg (fun hx => h2 (by omega)), if_neg (by simpa using h2)]
    · rw [if_neg h, if_neg (fun hx => h hx.1)]; rfl
  | cons p rest ih =>
    obtain ⟨s, e⟩ := p
    intro last
    unfold freeLoop longEnough
    simp only [decide_eq_true_eq, and_true]
    by_cases h : dtTime s ≥ tb ∧ last ≠ s
    · rw [if_pos h, List.filter_cons]
      by_cases h2 : m ≤ s - last
      · rw [if_pos ⟨h.1, h.2, by omega⟩, if_pos (by simpa using h2), ih]
      · rw [if_neg (fun hx => h2 (by omega)), if_neg (by simpa using h2), ih]
    · rw [if_neg h, if_neg (fun hx => h ⟨hx.1, hx.2.1⟩), ih]

/-- The gaps of a list of separated periods that ends at `M`. -/
theorem freeLoop_gaps (tb ends M : Int) (hM : ends ≤ M) (L : List (Int × Int)) :
    ∀ last, Separated L → (∀ p ∈ L, p.1 ≤ p.2 ∧ tb ≤ dtTime p.1 ∧ last < p.1) →
      (match L.getLast? with | none => last = M | some p => p.2 = M) →
      last ≤ M ∧ (∀ t, Covered (freeLoop tb ends none last L) t ↔ last ≤ t ∧ t < M ∧ ¬ Covered L t) ∧
        (ends = M → ∀ p ∈ freeLoop tb ends none last L, p.1 < p.2) := by
  induction L with
  | nil =>
    intro last _ _ hl
    simp only [List.getLast?_nil] at hl
    subst hl
    refine ⟨Int.le_refl _, ?_, ?_⟩
    · intro t
      unfold freeLoop longEnough
      simp only [and_true]
      constructor
      · rintro ⟨p, hp, hin⟩
        split at hp
        · rw [List.mem_singleton] at hp
          subst hp
          unfold In at hin; simp only [] at hin; omega
        · cases hp
      · rintro ⟨h1, h2, _⟩; omega
    · rintro rfl p hp
      unfold freeLoop at hp
      rw [if_neg (fun h => h.1 rfl)] at hp
      cases hp
  | cons q rest ih =>
    obtain ⟨s, e⟩ := q
    intro last hsep hall hl
    unfold Separated at hsep
    rw [List.pairwise_cons] at hsep
    obtain ⟨h1, h2, h3⟩ := hall (s, e) (List.mem_cons_self ..)
    simp only [] at h1 h2 h3
    obtain ⟨i1, i2, i3⟩ := ih e hsep.2 (fun p hp => by
      obtain ⟨k1, k2, _⟩ := hall p (List.mem_cons_of_mem _ hp)
      exact ⟨k1, k2, (hsep.1 p hp).1⟩) (by
      cases rest with
      | nil => simpa using hl
      | cons r rs =>
        rw [List.getLast?_cons_cons] at hl
        cases hx : (r :: rs).getLast? with
        | none => rw [List.getLast?_eq_none_iff] at hx; cases hx
        | some p => rw [hx] at hl; exact hl)
    have hf : freeLoop tb ends none last ((s, e) :: rest) = (last, s) :: freeLoop tb ends none e rest := by
      show (if _ then _ else _) = _
      rw [if_pos ⟨h2, by omega, rfl⟩]
    rw [hf]
    refine ⟨by omega, ?_, ?_⟩
    · intro t
      have hcons : ∀ (p : Int × Int) l, Covered (p :: l) t ↔ In t p ∨ Covered l t := by
        intro p l; unfold Covered; simp
      rw [hcons, hcons, i2]
      have hrest : Covered rest t → e < t := by
        rintro ⟨p, hp, hin⟩
        have := (hsep.1 p hp).1
        unfold In at hin; simp only [] at this; omega
      unfold In
      simp only []
      constructor
      · rintro (h | ⟨ha, hb, hc⟩)
        · refine ⟨h.1, by omega, ?_⟩
          rintro (hx | hx)
          · omega
          · have := hrest hx; omega
        · refine ⟨by omega, hb, ?_⟩
          rintro (hx | hx)
          · omega
          · exact hc hx
      · rintro ⟨ha, hb, hc⟩
        by_cases hts : t < s
        · exact Or.inl ⟨ha, hts⟩
        · right
          refine ⟨?_, hb, fun hx => hc (Or.inr hx)⟩
          by_contra hx
          exact hc (Or.inl ⟨by omega, by omega⟩)
    · intro hE p hp
      rcases List.mem_cons.1 hp with rfl | hp
      · exact h3
      · exact i3 hE p hp

end CalCore
