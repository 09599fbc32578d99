import Verif.Model.Containers
import Verif.Props.Allday
import Verif.Props.Samples
/- Property C119: events in lists and sets. -/
namespace CalCore
open Spec

variable {cmpStr : String → String → Int}

theorem same_iff (hc : ∀ s, cmpStr s s = 0) (y x : EventObj) :
    y.same cmpStr x = true ↔ y.addr = x.addr ∨ y.ev.dtstart = x.ev.dtstart := by
  unfold EventObj.same
  simp only [Bool.or_eq_true, decide_eq_true_eq, (C55_cmp_partial cmpStr hc y.ev x.ev y.ev).2.2.1]

/-- C119 for lists, as far as it goes: an event is found exactly if it or an event that starts at the same time is there. -/
theorem C119_list_partial (hc : ∀ s, cmpStr s s = 0) (l : List EventObj) (x : EventObj) :
    listHas cmpStr l x = true ↔ ∃ y ∈ l, y.addr = x.addr ∨ y.ev.dtstart = x.ev.dtstart := by
  unfold listHas
  simp only [List.any_eq_true, same_iff hc]

/-- C119 for `remove`, as far as it goes: exactly the first event that is the object or starts at the same time is removed; without
one, ValueError. -/
theorem C119_remove_partial (hc : ∀ s, cmpStr s s = 0) (l : List EventObj) (x : EventObj) :
    (∀ l', listRemove cmpStr l x = .ok l' ↔ ∃ l1 y l2, l = l1 ++ y :: l2 ∧ l' = l1 ++ l2 ∧
      (y.addr = x.addr ∨ y.ev.dtstart = x.ev.dtstart) ∧ ∀ z ∈ l1, z.addr ≠ x.addr ∧ z.ev.dtstart ≠ x.ev.dtstart) ∧
    (listRemove cmpStr l x = raise .ValueError ↔ ∀ z ∈ l, z.addr ≠ x.addr ∧ z.ev.dtstart ≠ x.ev.dtstart) := by
  induction l with
  | nil =>
    constructor
    · intro l'
      constructor
      · intro h; cases h
      · rintro ⟨l1, y, l2, h, _⟩
        exact absurd h (by simp)
    · exact ⟨fun _ z hz => (by cases hz), fun _ => rfl⟩
  | cons a l ih =>
    by_cases hs : a.same cmpStr x = true
    · have ha := (same_iff hc a x).1 hs
      rw [listRemove, if_pos hs]
      constructor
      · intro l'
        constructor
        · intro h
          injection h with h
          subst h
          exact ⟨[], a, l, rfl, rfl, ha, fun z hz => by cases hz⟩
        · rintro ⟨l1, y, l2, h, rfl, _, hn⟩
          cases l1 with
          | nil =>
            injection h with _ h
            rw [h]; rfl
          | cons z l1 =>
            injection h with h _
            subst h
            have := hn a (List.mem_cons_self ..)
            rcases ha with ha | ha
            · exact absurd ha this.1
            · exact absurd ha this.2
      · constructor
        · intro h; cases h
        · intro h
          have := h a (List.mem_cons_self ..)
          rcases ha with ha | ha
          · exact absurd ha this.1
          · exact absurd ha this.2
    · have ha : a.addr ≠ x.addr ∧ a.ev.dtstart ≠ x.ev.dtstart := by
        rw [same_iff hc, not_or] at hs
        exact hs
      rw [listRemove, if_neg hs]
      constructor
      · intro l'
        rw [bind_ok]
        constructor
        · rintro ⟨r, hr, h⟩
          injection h with h
          obtain ⟨l1, y, l2, e1, e2, h3, h4⟩ := (ih.1 r).1 hr
          refine ⟨a :: l1, y, l2, by rw [e1]; rfl, by rw [← h, e2]; rfl, h3, ?_⟩
          intro z hz
          rcases List.mem_cons.1 hz with rfl | hz
          · exact ha
          · exact h4 z hz
        · rintro ⟨l1, y, l2, h, rfl, h3, h4⟩
          cases l1 with
          | nil =>
            injection h with h _
            subst h
            rcases h3 with h3 | h3
            · exact absurd h3 ha.1
            · exact absurd h3 ha.2
          | cons z l1 =>
            injection h with h h'
            subst h
            exact ⟨l1 ++ l2, (ih.1 _).2 ⟨l1, y, l2, h', rfl, h3, fun z hz => h4 z (List.mem_cons_of_mem _ hz)⟩, rfl⟩
      · constructor
        · intro h z hz
          rcases List.mem_cons.1 hz with rfl | hz
          · exact ha
          · refine ih.2.1 ?_ z hz
            revert h
            cases hl : listRemove cmpStr l x with
            | ok r => intro h; cases h
            | error f =>
              intro h
              injection h with h
              rw [h]; rfl
        · intro h
          rw [ih.2.2 (fun z hz => h z (List.mem_cons_of_mem _ hz))]
          rfl

theorem setHas_iff (h : String → Int) (hc : ∀ s, cmpStr s s = 0) (s : List EventObj) (x : EventObj) :
    setHas h cmpStr s x = true ↔ ∃ y ∈ s, h y.ev.uid = h x.ev.uid ∧ (y.addr = x.addr ∨ y.ev.dtstart = x.ev.dtstart) := by
  unfold setHas Event.hash
  simp only [List.any_eq_true, Bool.and_eq_true, decide_eq_true_eq, same_iff hc]

/-- C119 for sets, as far as it goes: if the different ids that occur have different hashes, two objects count as one exactly if they have the same
id and start. -/
theorem C119_set_partial (h : String → Int) (hc : ∀ s, cmpStr s s = 0) (l : List EventObj) (x : EventObj)
    (hh : ∀ y ∈ x :: l, ∀ z ∈ x :: l, h y.ev.uid = h z.ev.uid → y.ev.uid = z.ev.uid)
    (hl : ∀ y ∈ x :: l, ∀ z ∈ x :: l, y.addr = z.addr → y = z) :
    (setHas h cmpStr (setOf h cmpStr l) x = true ↔ ∃ y ∈ l, y.ev.uid = x.ev.uid ∧ y.ev.dtstart = x.ev.dtstart) ∧
    (∀ y ∈ setOf h cmpStr l, y ∈ l) ∧
    (setOf h cmpStr l).Pairwise (fun y z => ¬ (y.ev.uid = z.ev.uid ∧ y.ev.dtstart = z.ev.dtstart)) := by
  have key : ∀ (l acc : List EventObj), (∀ y ∈ acc ++ l, ∀ z ∈ acc ++ l, (y.addr = z.addr → y = z) ∧ (h y.ev.uid = h z.ev.uid → y.ev.uid = z.ev.uid)) →
      acc.Pairwise (fun y z => ¬ (y.ev.uid = z.ev.uid ∧ y.ev.dtstart = z.ev.dtstart)) →
      (∀ y ∈ l.foldl (setAdd h cmpStr) acc, y ∈ acc ++ l) ∧
      (∀ y ∈ acc ++ l, ∃ z ∈ l.foldl (setAdd h cmpStr) acc, z.ev.uid = y.ev.uid ∧ z.ev.dtstart = y.ev.dtstart) ∧
      (l.foldl (setAdd h cmpStr) acc).Pairwise (fun y z => ¬ (y.ev.uid = z.ev.uid ∧ y.ev.dtstart = z.ev.dtstart)) := by
    intro l
    induction l with
    | nil =>
      intro acc _ hp
      refine ⟨fun y hy => by simpa using hy, fun y hy => ⟨y, by simpa using hy, rfl, rfl⟩, hp⟩
    | cons a l ih =>
      intro acc ha hp
      rw [List.foldl_cons]
      by_cases hs : setHas h cmpStr acc a = true
      · have hadd : setAdd h cmpStr acc a = acc := by unfold setAdd; rw [if_pos hs]
        rw [hadd]
        obtain ⟨b, hb, hbu, hbs⟩ := (setHas_iff h hc acc a).1 hs
        have hbd : b.ev.dtstart = a.ev.dtstart := by
          rcases hbs with hbs | hbs
          · rw [(ha b (by simp [hb]) a (by simp)).1 hbs]
          · exact hbs
        obtain ⟨i1, i2, i3⟩ := ih acc (fun y hy z hz => ha y (by
          rcases List.mem_append.1 hy with hy | hy <;> simp [hy]) z (by
          rcases List.mem_append.1 hz with hz | hz <;> simp [hz])) hp
        refine ⟨fun y hy => ?_, fun y hy => ?_, i3⟩
        · rcases List.mem_append.1 (i1 y hy) with h' | h' <;> simp [h']
        · rcases List.mem_append.1 hy with h' | h'
          · exact i2 y (by simp [h'])
          · rcases List.mem_cons.1 h' with rfl | h'
            · obtain ⟨z, hz, e1, e2⟩ := i2 b (by simp [hb])
              exact ⟨z, hz, e1.trans ((ha b (by simp [hb]) y (by simp)).2 hbu), e2.trans hbd⟩
            · exact i2 y (by simp [h'])
      · have hadd : setAdd h cmpStr acc a = acc ++ [a] := by unfold setAdd; rw [if_neg hs]
        rw [hadd]
        have hno : ∀ y ∈ acc, ¬ (y.ev.uid = a.ev.uid ∧ y.ev.dtstart = a.ev.dtstart) := by
          intro y hy hya
          exact hs ((setHas_iff h hc acc a).2 ⟨y, hy, by rw [hya.1], Or.inr hya.2⟩)
        obtain ⟨i1, i2, i3⟩ := ih (acc ++ [a]) (by simpa using ha) (by
          rw [List.pairwise_append]
          refine ⟨hp, List.pairwise_singleton _ _, fun y hy z hz => ?_⟩
          rw [List.mem_singleton.1 hz]
          exact hno y hy)
        exact ⟨fun y hy => by simpa using i1 y hy, fun y hy => i2 y (by simpa using hy), i3⟩
  obtain ⟨k1, k2, k3⟩ := key l [] (fun y hy z hz =>
    ⟨hl y (List.mem_cons_of_mem _ hy) z (List.mem_cons_of_mem _ hz), hh y (List.mem_cons_of_mem _ hy) z (List.mem_cons_of_mem _ hz)⟩)
    List.Pairwise.nil
  refine ⟨?_, fun y hy => by simpa using k1 y hy, k3⟩
  rw [setHas_iff h hc]
  constructor
  · rintro ⟨y, hy, hu, hd⟩
    have hyl : y ∈ l := by simpa using k1 y hy
    refine ⟨y, hyl, hh y (List.mem_cons_of_mem _ hyl) x (List.mem_cons_self ..) hu, ?_⟩
    rcases hd with hd | hd
    · rw [hl y (List.mem_cons_of_mem _ hyl) x (List.mem_cons_self ..) hd]
    · exact hd
  · rintro ⟨y, hy, hu, hd⟩
    obtain ⟨z, hz, e1, e2⟩ := k2 y (by simpa using hy)
    exact ⟨z, hz, by rw [e1, hu], Or.inr (e2.trans hd)⟩

/-- C119 for sorting, as far as it goes: the same objects, ordered by start; those with the same start keep their order. -/
theorem C119_sort_partial (hc : ∀ s, cmpStr s s = 0) (l : List EventObj) :
    (listSort cmpStr l).Perm l ∧ (listSort cmpStr l).Pairwise (fun x y => x.ev.dtstart ≤ y.ev.dtstart) ∧
    ∀ t, (listSort cmpStr l).filter (fun x => decide (x.ev.dtstart = t)) = l.filter (fun x => decide (x.ev.dtstart = t)) := by
  have hlt : ∀ x y : EventObj, x.ev.cmp y.ev cmpStr < 0 ↔ x.ev.dtstart < y.ev.dtstart :=
    fun x y => (C55_cmp_partial cmpStr hc x.ev y.ev x.ev).1
  have hperm : ∀ x (l : List EventObj), (insertObj cmpStr x l).Perm (x :: l) := by
    intro x l
    induction l with
    | nil => exact List.Perm.refl _
    | cons y l ih =>
      rw [insertObj]
      split
      · exact List.Perm.refl _
      · exact (ih.cons y).trans (List.Perm.swap x y l)
  have hsort : ∀ x (l : List EventObj), l.Pairwise (fun x y => x.ev.dtstart ≤ y.ev.dtstart) →
      (insertObj cmpStr x l).Pairwise (fun x y => x.ev.dtstart ≤ y.ev.dtstart) := by
    intro x l
    induction l with
    | nil => intro _; exact List.pairwise_singleton _ _
    | cons y l ih =>
      intro hp
      rw [List.pairwise_cons] at hp
      rw [insertObj]
      split
      · rename_i h
        rw [hlt] at h
        rw [List.pairwise_cons]
        refine ⟨fun z hz => ?_, List.pairwise_cons.2 hp⟩
        rcases List.mem_cons.1 hz with rfl | hz
        · omega
        · have := hp.1 z hz; omega
      · rename_i h
        rw [hlt] at h
        rw [List.pairwise_cons]
        refine ⟨fun z hz => ?_, ih hp.2⟩
        rcases List.mem_cons.1 ((hperm x l).mem_iff.1 hz) with rfl | hz
        · omega
        · exact hp.1 z hz
  have hstable : ∀ t x (l : List EventObj), l.Pairwise (fun x y => x.ev.dtstart ≤ y.ev.dtstart) →
      (insertObj cmpStr x l).filter (fun x => decide (x.ev.dtstart = t)) = (l ++ [x]).filter (fun x => decide (x.ev.dtstart = t)) := by
    intro t x l
    induction l with
    | nil => intro _; rfl
    | cons y l ih =>
      intro hp
      have hp' := hp
      rw [List.pairwise_cons] at hp
      rw [insertObj]
      split
      · rename_i h
        rw [hlt] at h
        rw [List.filter_append, List.filter_cons]
        by_cases hx : x.ev.dtstart = t
        · have hnone : (y :: l).filter (fun x => decide (x.ev.dtstart = t)) = [] := by
            rw [List.filter_eq_nil_iff]
            intro z hz
            simp only [decide_eq_true_eq]
            rcases List.mem_cons.1 hz with rfl | hz
            · omega
            · have := hp.1 z hz; omega
          rw [hnone, if_pos (decide_eq_true hx)]
          simp [hx]
        · rw [if_neg (by simpa using hx)]
          simp [hx]
      · rw [List.filter_cons, List.cons_append, List.filter_cons, ih hp.2]
  have key : ∀ (l acc : List EventObj), acc.Pairwise (fun x y => x.ev.dtstart ≤ y.ev.dtstart) →
      (l.foldl (fun acc x => insertObj cmpStr x acc) acc).Perm (acc ++ l) ∧
      (l.foldl (fun acc x => insertObj cmpStr x acc) acc).Pairwise (fun x y => x.ev.dtstart ≤ y.ev.dtstart) ∧
      ∀ t, (l.foldl (fun acc x => insertObj cmpStr x acc) acc).filter (fun x => decide (x.ev.dtstart = t)) =
        (acc ++ l).filter (fun x => decide (x.ev.dtstart = t)) := by
    intro l
    induction l with
    | nil => intro acc hp; exact ⟨by simp, hp, fun t => by simp⟩
    | cons x l ih =>
      intro acc hp
      rw [List.foldl_cons]
      obtain ⟨i1, i2, i3⟩ := ih (insertObj cmpStr x acc) (hsort x acc hp)
      refine ⟨?_, i2, fun t => ?_⟩
      · refine i1.trans ?_
        have := (hperm x acc).append_right l
        refine this.trans ?_
        exact (List.perm_middle (a := x) (l₁ := acc) (l₂ := l)).symm
      · rw [i3 t, List.filter_append, hstable t x acc hp, ← List.filter_append, List.append_assoc]
        rfl
  exact key l [] List.Pairwise.nil

/-- C119 is false: two events that start at the same time are mixed up in lists and not distinguished by `==`, though their hashes
differ (`__cmp__` compares `self.unique_id` with itself); and one event at two places in time is two elements of a set. -/
theorem C119_identity_counterexample (hc : ∀ s, cmpStr s s = 0) (h : String → Int) (hh : ∀ s t, h s = h t → s = t) :
    let a : EventObj := ⟨1, blankEvent "a"⟩
    let b : EventObj := ⟨2, blankEvent "b"⟩
    let a' : EventObj := ⟨3, { blankEvent "a" with dtstart := 7 }⟩
    a.ev.uid ≠ b.ev.uid ∧ listHas cmpStr [a] b = true ∧ listRemove cmpStr [a, b] b = .ok [b] ∧
    a.same cmpStr b = true ∧ a.ev.hash h ≠ b.ev.hash h ∧ setHas h cmpStr (setOf h cmpStr [a]) b = false ∧
    a'.ev.uid = a.ev.uid ∧ setOf h cmpStr [a, a'] = [a, a'] ∧ listSort cmpStr [b, a] = [b, a] := by
  intro a b a'
  have hne : ∀ u v, u ≠ v → h u ≠ h v := fun u v huv e => huv (hh u v e)
  have hab : a.same cmpStr b = true := (same_iff hc a b).2 (Or.inr rfl)
  have hset : ∀ x : EventObj, setOf h cmpStr [x] = [x] := fun _ => rfl
  have hhash : a.ev.hash h ≠ b.ev.hash h := hne "a" "b" (by decide)
  refine ⟨by decide, ?_, ?_, hab, hhash, ?_, rfl, ?_, ?_⟩
  · unfold listHas; simp [hab]
  · rw [listRemove, if_pos hab]
  · rw [hset, ← Bool.not_eq_true, setHas_iff h hc]
    rintro ⟨y, hy, hu, _⟩
    rw [List.mem_singleton.1 hy] at hu
    exact hhash hu
  · show setAdd h cmpStr [a] a' = _
    unfold setAdd
    rw [if_neg]
    · rfl
    · rw [setHas_iff h hc]
      rintro ⟨y, hy, _, hd⟩
      rw [List.mem_singleton.1 hy] at hd
      rcases hd with hd | hd
      · exact absurd hd (by decide)
      · exact absurd hd (by decide)
  · show insertObj cmpStr a [b] = _
    rw [insertObj, if_neg]
    · rfl
    · rw [(C55_cmp_partial cmpStr hc a.ev b.ev a.ev).1]
      decide

/-- C119, concrete: three events of which two start together. -/
example : listSort (fun _ _ => 0) [⟨1, { blankEvent "c" with dtstart := 5 }⟩, ⟨2, { blankEvent "b" with dtstart := 3 }⟩,
      ⟨3, { blankEvent "a" with dtstart := 5 }⟩] =
    [⟨2, { blankEvent "b" with dtstart := 3 }⟩, ⟨1, { blankEvent "c" with dtstart := 5 }⟩, ⟨3, { blankEvent "a" with dtstart := 5 }⟩] := by
  decide +kernel

/-- C119, concrete: two events, one of them twice as the same object. -/
example : setOf (fun u => if u = "a" then 5 else 6) (fun _ _ => 0) [⟨1, blankEvent "a"⟩, ⟨2, blankEvent "b"⟩, ⟨1, blankEvent "a"⟩] =
    [⟨1, blankEvent "a"⟩, ⟨2, blankEvent "b"⟩] ∧
    (∀ y ∈ [(⟨2, blankEvent "b"⟩ : EventObj), ⟨1, blankEvent "a"⟩, ⟨2, blankEvent "b"⟩, ⟨1, blankEvent "a"⟩],
      ∀ z ∈ [(⟨2, blankEvent "b"⟩ : EventObj), ⟨1, blankEvent "a"⟩, ⟨2, blankEvent "b"⟩, ⟨1, blankEvent "a"⟩],
      ((if y.ev.uid = "a" then (5 : Int) else 6) = (if z.ev.uid = "a" then 5 else 6) → y.ev.uid = z.ev.uid) ∧
      (y.addr = z.addr → y = z)) := by decide +kernel

end CalCore
