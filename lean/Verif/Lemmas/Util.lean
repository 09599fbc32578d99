import Verif.Model.Util
import Verif.Spec.Intervals
namespace CalCore
open Spec

theorem lexLe_iff (a b : Int × Int) : lexLe a b = true ↔ a.1 < b.1 ∨ (a.1 = b.1 ∧ a.2 ≤ b.2) := by
  simp [lexLe]

theorem insertLex_perm (a : Int × Int) (l : List (Int × Int)) : (insertLex a l).Perm (a :: l) := by
  induction l with
  | nil => exact List.Perm.refl _
  | cons b l ih =>
    unfold insertLex
    split
    · exact List.Perm.refl _
    · exact (List.Perm.cons b ih).trans (List.Perm.swap a b l)

theorem sortLex_perm (l : List (Int × Int)) : (sortLex l).Perm l := by
  induction l with
  | nil => exact List.Perm.refl _
  | cons a l ih => exact (insertLex_perm a _).trans (List.Perm.cons a ih)

theorem insertLex_sorted (a : Int × Int) (l : List (Int × Int))
    (h : l.Pairwise (fun p q => lexLe p q = true)) :
    (insertLex a l).Pairwise (fun p q => lexLe p q = true) := by
  induction l with
  | nil => simp [insertLex]
  | cons b l ih =>
    rw [List.pairwise_cons] at h
    unfold insertLex
    split
    · rename_i hab
      rw [List.pairwise_cons]
      refine ⟨?_, List.pairwise_cons.2 h⟩
      intro c hc
      rcases List.mem_cons.1 hc with rfl | hc
      · exact hab
      · have := h.1 c hc
        rw [lexLe_iff] at *; omega
    · rename_i hab
      rw [List.pairwise_cons]
      refine ⟨?_, ih h.2⟩
      intro c hc
      rcases List.mem_cons.1 ((insertLex_perm a l).mem_iff.1 hc) with rfl | hc
      · rw [lexLe_iff] at *; omega
      · exact h.1 c hc

/-- `sortLex` returns a sorted list. -/
theorem sortLex_sorted (l : List (Int × Int)) :
    (sortLex l).Pairwise (fun p q => lexLe p q = true) := by
  induction l with
  | nil => exact List.Pairwise.nil
  | cons a l ih => exact insertLex_sorted a _ ih

theorem sortLex_starts (l : List (Int × Int)) : (sortLex l).Pairwise (fun p q => p.1 ≤ q.1) :=
  (sortLex_sorted l).imp (fun h => by rw [lexLe_iff] at h; omega)

theorem covered_cons (p : Int × Int) (l : List (Int × Int)) (t : Int) :
    Covered (p :: l) t ↔ In t p ∨ Covered l t := by simp [Covered]

theorem covered_perm {l l' : List (Int × Int)} (h : l.Perm l') (t : Int) :
    Covered l t ↔ Covered l' t := by
  unfold Covered; constructor
  · rintro ⟨p, hp, ht⟩; exact ⟨p, h.mem_iff.1 hp, ht⟩
  · rintro ⟨p, hp, ht⟩; exact ⟨p, h.mem_iff.2 hp, ht⟩

theorem overlapLoop_covered (l : List (Int × Int)) :
    ∀ ls le t, (∀ p ∈ l, ls ≤ p.1) → l.Pairwise (fun p q => p.1 ≤ q.1) →
      (Covered (overlapLoop ls le l) t ↔ In t (ls, le) ∨ Covered l t) := by
  induction l with
  | nil => intro ls le t _ _; simp [overlapLoop, Covered]
  | cons a l ih =>
    obtain ⟨s, e⟩ := a
    intro ls le t hge hs
    rw [List.pairwise_cons] at hs
    have hls : ls ≤ s := hge (s, e) (by simp)
    have hrest : ∀ p ∈ l, ls ≤ p.1 := fun p hp => hge p (by simp [hp])
    rw [covered_cons]
    unfold overlapLoop
    split
    · split
      · rw [ih ls le t hrest hs.2]
        simp only [In]; constructor
        · rintro (h | h)
          · exact Or.inl h
          · exact Or.inr (Or.inr h)
        · rintro (h | h | h)
          · exact Or.inl h
          · left; omega
          · exact Or.inr h
      · rw [ih ls e t hrest hs.2]
        simp only [In]; constructor
        · rintro (h | h)
          · by_cases h' : t < le
            · exact Or.inl ⟨h.1, h'⟩
            · exact Or.inr (Or.inl (by omega))
          · exact Or.inr (Or.inr h)
        · rintro (h | h | h)
          · left; omega
          · left; omega
          · exact Or.inr h
    · rw [covered_cons, ih s e t hs.1 hs.2]

theorem overlapLoop_sep (l : List (Int × Int)) :
    ∀ ls le, (∀ p ∈ l, ls ≤ p.1) → l.Pairwise (fun p q => p.1 ≤ q.1) →
      Separated (overlapLoop ls le l) ∧ (∀ p ∈ overlapLoop ls le l, ls ≤ p.1) := by
  induction l with
  | nil => intro ls le _ _; simp [overlapLoop, Separated]
  | cons a l ih =>
    obtain ⟨s, e⟩ := a
    intro ls le hge hs
    rw [List.pairwise_cons] at hs
    have hls : ls ≤ s := hge (s, e) (by simp)
    have hrest : ∀ p ∈ l, ls ≤ p.1 := fun p hp => hge p (by simp [hp])
    unfold overlapLoop
    split
    · split
      · exact ih ls le hrest hs.2
      · exact ih ls e hrest hs.2
    · obtain ⟨h1, h2⟩ := ih s e hs.1 hs.2
      constructor
      · unfold Separated at *
        rw [List.pairwise_cons]
        refine ⟨fun p hp => ?_, h1⟩
        have := h2 p hp
        simp only []; omega
      · intro p hp
        rcases List.mem_cons.1 hp with rfl | hp
        · exact Int.le_refl _
        · have := h2 p hp; omega

theorem overlapLoop_wf (l : List (Int × Int)) :
    ∀ ls le, ls ≤ le → (∀ p ∈ l, p.1 ≤ p.2) → ∀ p ∈ overlapLoop ls le l, p.1 ≤ p.2 := by
  induction l with
  | nil => intro ls le h _; simp [overlapLoop]; omega
  | cons a l ih =>
    obtain ⟨s, e⟩ := a
    intro ls le h hwf
    have hse : s ≤ e := hwf (s, e) (by simp)
    have hr : ∀ p ∈ l, p.1 ≤ p.2 := fun p hp => hwf p (by simp [hp])
    unfold overlapLoop
    split
    · split
      · exact ih ls le h hr
      · exact ih ls e (by omega) hr
    · intro p hp
      rcases List.mem_cons.1 hp with rfl | hp
      · exact h
      · exact ih s e hse hr p hp

theorem overlapLoop_wf_strict (l : List (Int × Int)) :
    ∀ ls le, ls < le → (∀ p ∈ l, p.1 < p.2) → ∀ p ∈ overlapLoop ls le l, p.1 < p.2 := by
  induction l with
  | nil => intro ls le h _; simp [overlapLoop]; omega
  | cons a l ih =>
    obtain ⟨s, e⟩ := a
    intro ls le h hwf
    have hse : s < e := hwf (s, e) (by simp)
    have hr : ∀ p ∈ l, p.1 < p.2 := fun p hp => hwf p (by simp [hp])
    unfold overlapLoop
    split
    · split
      · exact ih ls le h hr
      · exact ih ls e (by omega) hr
    · intro p hp
      rcases List.mem_cons.1 hp with rfl | hp
      · exact h
      · exact ih s e hse hr p hp

theorem removeOverlaps_covered (l : List (Int × Int)) (t : Int) :
    Covered (removeOverlaps l) t ↔ Covered l t := by
  rw [← covered_perm (sortLex_perm l)]
  have hs := sortLex_starts l
  unfold removeOverlaps
  split
  · rename_i h; rw [h]
  · rename_i s e rest h
    rw [h] at hs ⊢
    rw [List.pairwise_cons] at hs
    rw [overlapLoop_covered rest s e t hs.1 hs.2, covered_cons]

theorem removeOverlaps_separated (l : List (Int × Int)) : Separated (removeOverlaps l) := by
  have hs := sortLex_starts l
  unfold removeOverlaps
  split
  · exact List.Pairwise.nil
  · rename_i s e rest h
    rw [h, List.pairwise_cons] at hs
    exact (overlapLoop_sep rest s e hs.1 hs.2).1

theorem removeOverlaps_wf (l : List (Int × Int)) (hl : ∀ p ∈ l, p.1 ≤ p.2) :
    ∀ p ∈ removeOverlaps l, p.1 ≤ p.2 := by
  have hp := sortLex_perm l
  unfold removeOverlaps
  split
  · simp
  · rename_i s e rest h
    rw [h] at hp
    have h' : ∀ p ∈ (s, e) :: rest, p.1 ≤ p.2 := fun p hm => hl p (hp.mem_iff.1 hm)
    exact overlapLoop_wf rest s e (h' (s, e) (by simp)) (fun p hm => h' p (by simp [hm]))

theorem removeOverlaps_wf_strict (l : List (Int × Int)) (hl : ∀ p ∈ l, p.1 < p.2) :
    ∀ p ∈ removeOverlaps l, p.1 < p.2 := by
  have hp := sortLex_perm l
  unfold removeOverlaps
  split
  · simp
  · rename_i s e rest h
    rw [h] at hp
    have h' : ∀ p ∈ (s, e) :: rest, p.1 < p.2 := fun p hm => hl p (hp.mem_iff.1 hm)
    exact overlapLoop_wf_strict rest s e (h' (s, e) (by simp)) (fun p hm => h' p (by simp [hm]))

/-- Separated lists of non-empty periods are determined by the time they cover. -/
theorem separated_unique (l : List (Int × Int)) :
    ∀ l', Separated l → Separated l' → (∀ p ∈ l, p.1 < p.2) → (∀ p ∈ l', p.1 < p.2) →
      (∀ t, Covered l t ↔ Covered l' t) → l = l' := by
  induction l with
  | nil =>
    intro l' _ _ _ h' hc
    match l' with
    | [] => rfl
    | p :: r =>
      have := h' p (by simp)
      have := (hc p.1).2 ⟨p, by simp, by simp only [In]; omega⟩
      simp [Covered] at this
  | cons a l ih =>
    intro l' hs hs' hw hw' hc
    match l' with
    | [] =>
      have := hw a (by simp)
      have := (hc a.1).1 ⟨a, by simp, by simp only [In]; omega⟩
      simp [Covered] at this
    | b :: l' =>
      unfold Separated at hs hs'
      rw [List.pairwise_cons] at hs hs'
      have ha := hw a (by simp)
      have hb := hw' b (by simp)
      -- every covered point is at least the first start
      have lowa : ∀ t, Covered (a :: l) t → a.1 ≤ t := by
        rintro t ⟨p, hp, h1, h2⟩
        rcases List.mem_cons.1 hp with rfl | hp
        · exact h1
        · have := hs.1 p hp; omega
      have lowb : ∀ t, Covered (b :: l') t → b.1 ≤ t := by
        rintro t ⟨p, hp, h1, h2⟩
        rcases List.mem_cons.1 hp with rfl | hp
        · exact h1
        · have := hs'.1 p hp; omega
      -- the first end is not covered
      have enda : ¬ Covered (a :: l) a.2 := by
        rintro ⟨p, hp, h1, h2⟩
        rcases List.mem_cons.1 hp with rfl | hp
        · omega
        · have := hs.1 p hp; omega
      have endb : ¬ Covered (b :: l') b.2 := by
        rintro ⟨p, hp, h1, h2⟩
        rcases List.mem_cons.1 hp with rfl | hp
        · omega
        · have := hs'.1 p hp; omega
      have s1 : b.1 ≤ a.1 := lowb _ ((hc a.1).1 ⟨a, by simp, by simp only [In]; omega⟩)
      have s2 : a.1 ≤ b.1 := lowa _ ((hc b.1).2 ⟨b, by simp, by simp only [In]; omega⟩)
      have e1 : ¬ a.2 < b.2 := fun h =>
        enda ((hc a.2).2 ⟨b, by simp, by simp only [In]; omega⟩)
      have e2 : ¬ b.2 < a.2 := fun h =>
        endb ((hc b.2).1 ⟨a, by simp, by simp only [In]; omega⟩)
      have hab : a = b := Prod.ext (by omega) (by omega)
      subst hab
      congr 1
      apply ih l' hs.2 hs'.2 (fun p hp => hw p (by simp [hp])) (fun p hp => hw' p (by simp [hp]))
      intro t
      have := hc t
      rw [covered_cons, covered_cons] at this
      constructor
      · intro h
        rcases this.1 (Or.inr h) with h' | h'
        · obtain ⟨p, hp, h1, h2⟩ := h
          have := hs.1 p hp
          have := h'.2; omega
        · exact h'
      · intro h
        rcases this.2 (Or.inr h) with h' | h'
        · obtain ⟨p, hp, h1, h2⟩ := h
          have := hs'.1 p hp
          have := h'.2; omega
        · exact h'

theorem removeOverlaps_canonical {l l' : List (Int × Int)} (h : ∀ p ∈ l, p.1 < p.2)
    (h' : ∀ p ∈ l', p.1 < p.2) (hc : ∀ t, Covered l t ↔ Covered l' t) :
    removeOverlaps l = removeOverlaps l' :=
  separated_unique _ _ (removeOverlaps_separated l) (removeOverlaps_separated l')
    (removeOverlaps_wf_strict l h) (removeOverlaps_wf_strict l' h')
    (fun t => by rw [removeOverlaps_covered, removeOverlaps_covered, hc t])

/-- Sorting does not depend on the order of the argument. -/
theorem sortLex_perm_eq {l l' : List (Int × Int)} (h : l.Perm l') : sortLex l = sortLex l' := by
  have hp : (sortLex l).Perm (sortLex l') := (sortLex_perm l).trans (h.trans (sortLex_perm l').symm)
  refine List.Perm.eq_of_pairwise (le := fun a b => lexLe a b = true) ?_ (sortLex_sorted l) (sortLex_sorted l') hp
  intro a b _ _ h1 h2
  rw [lexLe_iff] at h1 h2
  exact Prod.ext (by omega) (by omega)

end CalCore
