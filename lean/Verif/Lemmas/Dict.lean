import Verif.Model.Py
import Mathlib.Data.List.Nodup
import Mathlib.Data.List.Basic
/- Dictionaries as association lists. -/
namespace CalCore
namespace Dict
variable {κ ν : Type} [DecidableEq κ]

@[simp] theorem get?_nil (k : κ) : get? ([] : Dict κ ν) k = none := rfl

theorem get?_cons (p : κ × ν) (d : Dict κ ν) (k : κ) :
    get? (p :: d) k = if p.1 = k then some p.2 else get? d k := by
  unfold get?
  rw [List.find?_cons]
  by_cases h : p.1 = k
  · simp [h]
  · simp [h]

theorem has_iff_mem_keys (d : Dict κ ν) (k : κ) : has d k = true ↔ k ∈ keys d := by
  simp [has, keys]

theorem get?_eq_none (d : Dict κ ν) (k : κ) : get? d k = none ↔ k ∉ keys d := by
  simp only [get?, Option.map_eq_none_iff, List.find?_eq_none, keys, List.mem_map, decide_eq_true_eq,
    not_exists, not_and]

theorem has_iff_get? (d : Dict κ ν) (k : κ) : has d k = true ↔ ∃ v, get? d k = some v := by
  rw [has_iff_mem_keys, ← Option.isSome_iff_exists, Option.isSome_iff_ne_none, Ne, get?_eq_none]
  simp

theorem has_eq (d : Dict κ ν) (k : κ) : has d k = (get? d k).isSome := by
  rw [Bool.eq_iff_iff, has_iff_get?, Option.isSome_iff_exists]

theorem has_false_iff (d : Dict κ ν) (k : κ) : has d k = false ↔ get? d k = none := by
  rw [has_eq]; simp

theorem get?_set (d : Dict κ ν) (k : κ) (v : ν) (k' : κ) :
    get? (set d k v) k' = if k = k' then some v else get? d k' := by
  induction d with
  | nil => simp [set, get?_cons]
  | cons p d ih =>
    obtain ⟨a, b⟩ := p
    unfold set
    by_cases h : a = k
    · subst h
      rw [if_pos rfl, get?_cons, get?_cons]
      simp only
      by_cases h' : a = k' <;> simp [h']
    · rw [if_neg h, get?_cons, get?_cons, ih]
      simp only
      by_cases h1 : a = k'
      · subst h1; simp [Ne.symm h]
      · simp [h1]

theorem get?_set_self (d : Dict κ ν) (k : κ) (v : ν) : get? (set d k v) k = some v := by
  rw [get?_set, if_pos rfl]

theorem get?_set_ne (d : Dict κ ν) {k k' : κ} (v : ν) (h : k ≠ k') : get? (set d k v) k' = get? d k' := by
  rw [get?_set, if_neg h]

theorem get?_del (d : Dict κ ν) (k k' : κ) :
    get? (del d k) k' = if k = k' then none else get? d k' := by
  induction d with
  | nil => simp [del]
  | cons p d ih =>
    unfold del at ih ⊢
    rw [List.filter_cons]
    by_cases h : p.1 = k
    · subst h
      simp only [ne_eq, not_true_eq_false, decide_false, Bool.false_eq_true, if_false]
      rw [ih, get?_cons]
      by_cases h' : p.1 = k' <;> simp [h']
    · simp only [ne_eq, h, not_false_eq_true, decide_true, if_true]
      rw [get?_cons, ih, get?_cons]
      by_cases h' : p.1 = k'
      · simp [h']
        intro h''; exact absurd (h'.trans h''.symm) h
      · simp [h']

theorem mem_keys_set (d : Dict κ ν) (k : κ) (v : ν) (k' : κ) : k' ∈ keys (set d k v) ↔ k' = k ∨ k' ∈ keys d := by
  rw [← has_iff_mem_keys, ← has_iff_mem_keys, has_eq, has_eq, get?_set]
  by_cases h : k = k'
  · simp [h]
  · simp [h, Ne.symm h]

theorem mem_keys_del (d : Dict κ ν) (k k' : κ) : k' ∈ keys (del d k) ↔ k' ≠ k ∧ k' ∈ keys d := by
  rw [← has_iff_mem_keys, ← has_iff_mem_keys, has_eq, has_eq, get?_del]
  by_cases h : k = k'
  · simp [h]
  · simp [h, Ne.symm h]

theorem keys_set_of_mem {d : Dict κ ν} {k : κ} (h : k ∈ keys d) (v : ν) : keys (set d k v) = keys d := by
  induction d with
  | nil => cases h
  | cons p d ih =>
    unfold set
    by_cases h' : p.1 = k
    · simp [h', keys]
    · rw [if_neg h']
      have : k ∈ keys d := by
        simp only [keys, List.map_cons, List.mem_cons] at h
        rcases h with h | h
        · exact absurd h.symm h'
        · exact h
      simp only [keys, List.map_cons] at ih ⊢
      rw [ih this]

theorem set_of_not_mem {d : Dict κ ν} {k : κ} (h : k ∉ keys d) (v : ν) : set d k v = d ++ [(k, v)] := by
  induction d with
  | nil => rfl
  | cons p d ih =>
    simp only [keys, List.map_cons, List.mem_cons, not_or] at h
    unfold set
    rw [if_neg (Ne.symm h.1), ih h.2]
    rfl

theorem keys_set_of_not_mem {d : Dict κ ν} {k : κ} (h : k ∉ keys d) (v : ν) :
    keys (set d k v) = keys d ++ [k] := by
  rw [set_of_not_mem h]; simp [keys]

theorem nodup_set {d : Dict κ ν} (h : (keys d).Nodup) (k : κ) (v : ν) : (keys (set d k v)).Nodup := by
  by_cases hk : k ∈ keys d
  · rw [keys_set_of_mem hk]; exact h
  · rw [keys_set_of_not_mem hk, List.nodup_append]
    refine ⟨h, List.nodup_singleton _, ?_⟩
    intro a ha b hb
    rw [List.mem_singleton] at hb
    subst hb
    rintro rfl; exact hk ha

theorem nodup_del {d : Dict κ ν} (h : (keys d).Nodup) (k : κ) : (keys (del d k)).Nodup := by
  unfold keys del
  exact List.Sublist.nodup (List.Sublist.map _ List.filter_sublist) h

/-- In a dictionary without repeated keys, the entries are the lookups. -/
theorem mem_iff_get? {d : Dict κ ν} (h : (keys d).Nodup) (k : κ) (v : ν) : (k, v) ∈ d ↔ get? d k = some v := by
  induction d with
  | nil => simp
  | cons p d ih =>
    simp only [keys, List.map_cons, List.nodup_cons] at h
    rw [get?_cons, List.mem_cons, ih h.2]
    by_cases hp : p.1 = k
    · subst hp
      simp only [if_true, Option.some.injEq]
      constructor
      · rintro (h' | h')
        · rw [← h']
        · exact absurd ((has_iff_mem_keys d p.1).1 ((has_iff_get? d p.1).2 ⟨v, h'⟩)) h.1
      · rintro rfl; exact Or.inl rfl
    · rw [if_neg hp]
      constructor
      · rintro (h' | h')
        · rw [← h'] at hp; exact absurd rfl hp
        · exact h'
      · exact Or.inr

theorem mem_values {d : Dict κ ν} (h : (keys d).Nodup) (v : ν) : v ∈ values d ↔ ∃ k, get? d k = some v := by
  simp only [values, List.mem_map]
  constructor
  · rintro ⟨⟨k, v'⟩, hm, rfl⟩; exact ⟨k, (mem_iff_get? h k v').1 hm⟩
  · rintro ⟨k, hk⟩; exact ⟨(k, v), (mem_iff_get? h k v).2 hk, rfl⟩

theorem length_set_le (d : Dict κ ν) (k : κ) (v : ν) : d.length ≤ (set d k v).length := by
  induction d with
  | nil => simp
  | cons p d ih =>
    unfold set
    split <;> simp [ih]

theorem length_set_of_mem {d : Dict κ ν} {k : κ} (h : k ∈ keys d) (v : ν) : (set d k v).length = d.length := by
  have := congrArg List.length (keys_set_of_mem h v)
  simpa [keys] using this

/-- Dictionaries with the same lookups and keys in the same order are equal. -/
theorem ext_keys {d d' : Dict κ ν} (hk : keys d = keys d') (hn : (keys d).Nodup)
    (h : ∀ k, get? d k = get? d' k) : d = d' := by
  induction d generalizing d' with
  | nil =>
    cases d' with
    | nil => rfl
    | cons p d' => simp [keys] at hk
  | cons p d ih =>
    cases d' with
    | nil => simp [keys] at hk
    | cons p' d' =>
      simp only [keys, List.map_cons, List.cons.injEq] at hk
      simp only [keys, List.map_cons, List.nodup_cons] at hn
      have h0 := h p.1
      rw [get?_cons, get?_cons, if_pos rfl, if_pos hk.1.symm] at h0
      injection h0 with h0
      have hp : p = p' := Prod.ext hk.1 h0
      subst hp
      congr 1
      refine ih hk.2 hn.2 fun k => ?_
      have h1 := h k
      rw [get?_cons, get?_cons] at h1
      by_cases hpk : p.1 = k
      · subst hpk
        have e1 : get? d p.1 = none := (get?_eq_none d p.1).2 hn.1
        have e2 : get? d' p.1 = none := by
          rw [get?_eq_none]; unfold keys; rw [← hk.2]; exact hn.1
        rw [e1, e2]
      · rw [if_neg hpk, if_neg hpk] at h1; exact h1

theorem set_self {d : Dict κ ν} {k : κ} {v : ν} (h : get? d k = some v) (hn : (keys d).Nodup) :
    set d k v = d := by
  have hm : k ∈ keys d := (has_iff_mem_keys d k).1 ((has_iff_get? d k).2 ⟨v, h⟩)
  refine ext_keys (keys_set_of_mem hm v) (by rw [keys_set_of_mem hm]; exact hn) fun k' => ?_
  rw [get?_set]
  split
  · rename_i e; rw [← e, h]
  · rfl

end Dict
end CalCore
