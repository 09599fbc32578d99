import Verif.Model.Interfaces
import Verif.Lemmas.Res

/-!
# Which calls a signature accepts

`Sig.call` succeeds exactly on the calls that are allowed in the sense of a declarative description, and
then it binds the positional arguments to the first parameters and the keyword arguments to their names.
-/

namespace CalCore

/-- When the keyword loop succeeds, and with what. -/
theorem bindKw_ok {α : Type} (s : Sig) (kw : List (String × α)) :
    ∀ b r, s.bindKw b kw = .ok r ↔
      (kw.map (·.1)).Nodup ∧ (∀ k ∈ kw.map (·.1), k ∉ b.map (·.1) ∧ (k ∈ s.params ∨ s.kwargs = true)) ∧
        r = b ++ kw := by
  induction kw with
  | nil =>
    intro b r
    unfold Sig.bindKw
    constructor
    · intro h
      have h : b = r := by simpa using h
      simp [h]
    · rintro ⟨-, -, rfl⟩
      simp
  | cons p kw ih =>
    obtain ⟨k, v⟩ := p
    intro b r
    unfold Sig.bindKw
    by_cases h1 : b.any (fun p => p.1 == k) = true
    · rw [if_pos h1]
      simp only [List.any_eq_true, beq_iff_eq] at h1
      obtain ⟨q, hq, rfl⟩ := h1
      constructor
      · intro h; exact absurd h (by simp [raise])
      · intro h
        exact absurd (List.mem_map_of_mem hq) (h.2.1 q.1 (by simp)).1
    · rw [if_neg h1]
      have h1' : k ∉ b.map (·.1) := by
        intro hk
        obtain ⟨q, hq, e⟩ := List.mem_map.1 hk
        exact h1 (List.any_eq_true.2 ⟨q, hq, by simpa using e⟩)
      by_cases h2 : (s.params.contains k || s.kwargs) = true
      · rw [if_pos h2, ih]
        have h2' : k ∈ s.params ∨ s.kwargs = true := by simpa using h2
        constructor
        · rintro ⟨a, b1, rfl⟩
          refine ⟨?_, ?_, by simp⟩
          · simp only [List.map_cons, List.nodup_cons]
            refine ⟨fun hk => ?_, a⟩
            exact (b1 k hk).1 (by simp)
          · intro x hx
            simp only [List.map_cons, List.mem_cons] at hx
            rcases hx with rfl | hx
            · exact ⟨h1', h2'⟩
            · refine ⟨fun hh => (b1 x hx).1 ?_, (b1 x hx).2⟩
              rw [List.map_append]; exact List.mem_append_left _ hh
        · rintro ⟨a, b1, rfl⟩
          simp only [List.map_cons, List.nodup_cons] at a
          refine ⟨a.2, ?_, by simp⟩
          intro x hx
          have := b1 x (by simp only [List.map_cons]; exact List.mem_cons_of_mem _ hx)
          refine ⟨fun hh => ?_, this.2⟩
          rw [List.map_append, List.mem_append] at hh
          rcases hh with hh | hh
          · exact this.1 hh
          · simp only [List.map_cons, List.map_nil, List.mem_singleton] at hh
            subst hh; exact a.1 hx
      · rw [if_neg h2]
        constructor
        · intro h; exact absurd h (by simp [raise])
        · intro h
          exact absurd (h.2.1 k (by simp)).2 (by simpa using h2)

/-- The names of the first parameters, as many as there are positional arguments. -/
theorem zip_names {α : Type} : ∀ (l : List String) (p : List α), (l.zip p).map (·.1) = l.take p.length
  | [], _ => by simp
  | _ :: _, [] => by simp
  | a :: l, b :: p => by simp [zip_names l p]

/-- When a call succeeds, and what it binds. -/
theorem call_ok {α : Type} (s : Sig) (c : CallArgs α) (r : List (String × α)) :
    s.call c = .ok r ↔
      c.pos.length ≤ s.params.length ∧ (c.kw.map (·.1)).Nodup ∧
      (∀ k ∈ c.kw.map (·.1), k ∉ s.params.take c.pos.length ∧ (k ∈ s.params ∨ s.kwargs = true)) ∧
      (∀ x ∈ s.required, x ∈ s.params.take c.pos.length ∨ x ∈ c.kw.map (·.1)) ∧
      r = s.params.zip c.pos ++ c.kw := by
  unfold Sig.call
  by_cases h : s.params.length < c.pos.length
  · rw [if_pos h]
    constructor
    · intro hh; exact absurd hh (by simp [raise])
    · intro hh; omega
  · rw [if_neg h, bind_ok]
    constructor
    · rintro ⟨b, hb, hr⟩
      rw [bindKw_ok, zip_names] at hb
      obtain ⟨h1, h2, rfl⟩ := hb
      split at hr
      · rename_i hreq
        have hr : s.params.zip c.pos ++ c.kw = r := by simpa [pure, Except.pure] using hr
        refine ⟨by omega, h1, h2, ?_, hr.symm⟩
        intro x hx
        have := List.all_eq_true.1 hreq x hx
        obtain ⟨q, hq, e⟩ := List.any_eq_true.1 this
        have e : q.1 = x := by simpa using e
        rw [← zip_names, ← List.mem_append, ← List.map_append, ← e]
        exact List.mem_map_of_mem hq
      · exact absurd hr (by simp [raise])
    · rintro ⟨_, h1, h2, h3, rfl⟩
      refine ⟨_, (bindKw_ok s c.kw _ _).2 ⟨h1, by rw [zip_names]; exact h2, rfl⟩, ?_⟩
      rw [if_pos]
      · rfl
      · refine List.all_eq_true.2 fun x hx => List.any_eq_true.2 ?_
        have := h3 x hx
        rw [← zip_names, ← List.mem_append, ← List.map_append] at this
        obtain ⟨q, hq, e⟩ := List.mem_map.1 this
        exact ⟨q, hq, by simpa using e⟩

/-- A call fails with a TypeError or succeeds. -/
theorem call_fails {α : Type} (s : Sig) (c : CallArgs α) (h : ∀ r, s.call c ≠ .ok r) :
    s.call c = raise .TypeError := by
  have kw : ∀ (l : List (String × α)) b, (∃ r, s.bindKw b l = .ok r) ∨ s.bindKw b l = raise .TypeError := by
    intro l
    induction l with
    | nil => intro b; exact .inl ⟨b, rfl⟩
    | cons p l ih =>
      intro b
      unfold Sig.bindKw
      split
      · exact .inr rfl
      · split
        · exact ih _
        · exact .inr rfl
  unfold Sig.call at h ⊢
  split
  · rfl
  · rename_i hl
    rw [if_neg hl] at h
    rcases kw c.kw (s.params.zip c.pos) with ⟨b, hb⟩ | hb
    · rw [hb] at h ⊢
      rw [ok_bind]
      split
      · rename_i hh
        exfalso
        refine h b ?_
        rw [ok_bind, if_pos hh]; rfl
      · rfl
    · rw [hb]; rfl

end CalCore
