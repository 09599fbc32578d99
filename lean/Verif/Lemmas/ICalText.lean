import Verif.Lemmas.Text
import Verif.Lemmas.Res
import Verif.Lemmas.DateTime
import Std.Data.String.ToInt
/- Reading the iCalendar text of a rule. -/
namespace CalCore
open Spec

/-- Texts joined with a separator that does not occur in them determine the texts. -/
theorem intercalate_inj {x : Char} {ls ls' : List (List Char)} (h1 : ls ≠ []) (h2 : ls' ≠ [])
    (h3 : ∀ l ∈ ls, x ∉ l) (h4 : ∀ l ∈ ls', x ∉ l) (h : [x].intercalate ls = [x].intercalate ls') : ls = ls' := by
  rw [← List.splitOn_intercalate x h3 h1, h, List.splitOn_intercalate x h4 h2]

theorem int_toString (n : Int) : (toString n : String) = n.repr := rfl

theorem int_chars (n : Int) {ch : Char} (h : ch ∈ (toString n : String).toList) : ch.isDigit = true ∨ ch = '-' := by
  rw [int_toString] at h
  cases n with
  | ofNat m =>
    left
    have : (Int.ofNat m).repr = Nat.repr m := rfl
    rw [this, Nat.toList_repr] at h
    exact Nat.isDigit_of_mem_toDigits (by decide) (by decide) h
  | negSucc m =>
    have : (Int.negSucc m).repr = "-" ++ Nat.repr (m + 1) := rfl
    rw [this, String.toList_append, List.mem_append] at h
    rcases h with h | h
    · right; simpa using h
    · left
      rw [Nat.toList_repr] at h
      exact Nat.isDigit_of_mem_toDigits (by decide) (by decide) h

theorem digits_chars (k n : Nat) {ch : Char} (h : ch ∈ digits k n) : ch.isDigit = true := by
  unfold digits at h
  rw [List.mem_map] at h
  obtain ⟨i, _, rfl⟩ := h
  rw [Nat.isDigit_digitChar]
  exact decide_eq_true (Nat.mod_lt _ (by decide))

/-- The digits determine the number. -/
theorem digits_inj {k n m : Nat} (hk : 0 < k) (hn : n < 10 ^ k) (hm : m < 10 ^ k) (h : digits k n = digits k m) : n = m := by
  obtain ⟨k, rfl⟩ : ∃ j, k = j + 1 := ⟨k - 1, by omega⟩
  clear hk
  induction k generalizing n m with
  | zero =>
    rw [digits_succ, digits_succ] at h
    have h' := (List.append_inj h (by rw [digits_length, digits_length])).2
    injection h' with h' _
    have a : n % 10 = n := Nat.mod_eq_of_lt (by simpa using hn)
    have b : m % 10 = m := Nat.mod_eq_of_lt (by simpa using hm)
    rw [a, b] at h'
    exact digitChar_inj (by simpa using hn) (by simpa using hm) h'
  | succ k ih =>
    rw [digits_succ (k + 1) n, digits_succ (k + 1) m] at h
    obtain ⟨h1, h'⟩ := List.append_inj h (by rw [digits_length, digits_length])
    injection h' with h' _
    have hq := ih (by rw [Nat.div_lt_iff_lt_mul (by omega)]; rw [Nat.pow_succ] at hn; omega)
      (by rw [Nat.div_lt_iff_lt_mul (by omega)]; rw [Nat.pow_succ] at hm; omega) h1
    have hr := digitChar_inj (Nat.mod_lt _ (by decide)) (Nat.mod_lt _ (by decide)) h'
    omega
where
  digitChar_inj {a b : Nat} (ha : a < 10) (hb : b < 10) (h : Nat.digitChar a = Nat.digitChar b) : a = b := by
    have : ∀ a < 10, ∀ b < 10, Nat.digitChar a = Nat.digitChar b → a = b := by decide
    exact this a ha b hb h

/-- The text of a date: 4, 2 and 2 digits. -/
theorem icalDate_ok {d : Int} {s : String} (hr : dateInRange d = true) :
    icalDate d = .ok s ↔ 1900 ≤ dyear d ∧
      s.toList = digits 4 (dyear d).toNat ++ digits 2 (dmonth d).toNat ++ digits 2 (dday d).toNat := by
  have h1 := (dateInRange_iff_year d).1 hr
  obtain ⟨h2, h2', h3, h3'⟩ := validYmd_date d
  have h4 := daysInMonth_pos (dyear d) (dmonth d)
  have ht : (padNat 4 (dyear d).toNat ++ padNat 2 (dmonth d).toNat ++ padNat 2 (dday d).toNat).toList =
      digits 4 (dyear d).toNat ++ digits 2 (dmonth d).toNat ++ digits 2 (dday d).toNat := by
    simp only [String.toList_append]
    rw [padNat_digits (k := 4) (by omega) (by omega), padNat_digits (k := 2) (by omega) (by omega),
      padNat_digits (k := 2) (by omega) (by omega)]
  unfold icalDate
  split
  · rename_i hlt
    constructor
    · intro h; cases h
    · rintro ⟨h, _⟩; omega
  · rename_i hge
    rw [← ht, Except.ok.injEq, String.toList_inj]
    constructor
    · rintro rfl; exact ⟨by omega, rfl⟩
    · rintro ⟨_, h⟩; exact h.symm

theorem icalDate_inj {d d' : Int} {s : String} (hr : dateInRange d = true) (hr' : dateInRange d' = true)
    (h : icalDate d = .ok s) (h' : icalDate d' = .ok s) : d = d' := by
  have h := ((icalDate_ok hr).1 h).2
  have h' := ((icalDate_ok hr').1 h').2
  rw [h] at h'
  have y1 := (dateInRange_iff_year d).1 hr
  have y2 := (dateInRange_iff_year d').1 hr'
  obtain ⟨h2, h2', h3, h3'⟩ := validYmd_date d
  have h4 := daysInMonth_pos (dyear d) (dmonth d)
  obtain ⟨k2, k2', k3, k3'⟩ := validYmd_date d'
  have k4 := daysInMonth_pos (dyear d') (dmonth d')
  obtain ⟨e1, e2⟩ := List.append_inj h' (by simp [digits_length])
  obtain ⟨e3, e4⟩ := List.append_inj e1 (by simp [digits_length])
  have e5 := digits_inj (by omega) (by omega) (by omega) e3
  have e6 := digits_inj (by omega) (by omega) (by omega) e4
  have e7 := digits_inj (by omega) (by omega) (by omega) e2
  have e5' : dyear d = dyear d' := by omega
  have e6' : dmonth d = dmonth d' := by omega
  have e7' : dday d = dday d' := by omega
  rw [← ymd2ord_date d, ← ymd2ord_date d', e5', e6', e7']

theorem icalDate_chars {d : Int} {s : String} (hr : dateInRange d = true) (h : icalDate d = .ok s) {ch : Char}
    (hc : ch ∈ s.toList) : ch.isDigit = true := by
  rw [((icalDate_ok hr).1 h).2, List.mem_append, List.mem_append] at hc
  rcases hc with (hc | hc) | hc <;> exact digits_chars _ _ hc

theorem icalWeekday_ok {w : Int} {s : String} (h : icalWeekday w = .ok s) :
    (w = 0 ∧ s = "MO") ∨ (w = 1 ∧ s = "TU") ∨ (w = 2 ∧ s = "WE") ∨ (w = 3 ∧ s = "TH") ∨ (w = 4 ∧ s = "FR") ∨
      (w = 5 ∧ s = "SA") ∨ (w = 6 ∧ s = "SU") := by
  unfold icalWeekday at h
  split at h
  · cases h
  · rename_i hw
    obtain ⟨n, rfl⟩ : ∃ n : Nat, w = n := ⟨w.toNat, by omega⟩
    have hn : ((n : Int)).toNat = n := rfl
    rw [hn] at h
    match n, h with
    | 0, h => injection h with h; subst h; simp
    | 1, h => injection h with h; subst h; simp
    | 2, h => injection h with h; subst h; simp
    | 3, h => injection h with h; subst h; simp
    | 4, h => injection h with h; subst h; simp
    | 5, h => injection h with h; subst h; simp
    | 6, h => injection h with h; subst h; simp
    | n + 7, h =>
      have : icalWeekdays[n + 7]? = none := List.getElem?_eq_none (by simp [icalWeekdays])
      rw [this] at h
      cases h

theorem icalWeekday_inj {w w' : Int} {s : String} (h : icalWeekday w = .ok s) (h' : icalWeekday w' = .ok s) : w = w' := by
  rcases icalWeekday_ok h with ⟨rfl, rfl⟩ | ⟨rfl, rfl⟩ | ⟨rfl, rfl⟩ | ⟨rfl, rfl⟩ | ⟨rfl, rfl⟩ | ⟨rfl, rfl⟩ | ⟨rfl, rfl⟩ <;>
  rcases icalWeekday_ok h' with ⟨rfl, h⟩ | ⟨rfl, h⟩ | ⟨rfl, h⟩ | ⟨rfl, h⟩ | ⟨rfl, h⟩ | ⟨rfl, h⟩ | ⟨rfl, h⟩ <;>
  first
  | rfl
  | exact absurd h (by decide)

theorem icalWeekday_chars {w : Int} {s : String} (h : icalWeekday w = .ok s) : ',' ∉ s.toList ∧ ';' ∉ s.toList := by
  rcases icalWeekday_ok h with ⟨rfl, rfl⟩ | ⟨rfl, rfl⟩ | ⟨rfl, rfl⟩ | ⟨rfl, rfl⟩ | ⟨rfl, rfl⟩ | ⟨rfl, rfl⟩ | ⟨rfl, rfl⟩ <;> decide

/-! ### mapM -/

theorem mapM_ok_cons {α β : Type} {f : α → Res β} {a : α} {l : List α} {r : List β} :
    (a :: l).mapM f = .ok r ↔ ∃ b bs, f a = .ok b ∧ l.mapM f = .ok bs ∧ r = b :: bs := by
  rw [List.mapM_cons]
  simp only [bind_ok]
  constructor
  · rintro ⟨b, h1, bs, h2, h3⟩; injection h3 with h3; exact ⟨b, bs, h1, h2, h3.symm⟩
  · rintro ⟨b, bs, h1, h2, rfl⟩; exact ⟨b, h1, bs, h2, rfl⟩

theorem mapM_inj {α β : Type} {f : α → Res β} {P : α → Prop}
    (hf : ∀ a a' b, P a → P a' → f a = .ok b → f a' = .ok b → a = a') {l l' : List α} {r : List β}
    (hl : ∀ a ∈ l, P a) (hl' : ∀ a ∈ l', P a) (h : l.mapM f = .ok r) (h' : l'.mapM f = .ok r) : l = l' := by
  induction l generalizing l' r with
  | nil =>
    injection h with h
    subst h
    cases l' with
    | nil => rfl
    | cons a l' =>
      obtain ⟨b, bs, _, _, hh⟩ := mapM_ok_cons.1 h'
      cases hh
  | cons a l ih =>
    obtain ⟨b, bs, h1, h2, rfl⟩ := mapM_ok_cons.1 h
    cases l' with
    | nil => injection h' with h'; cases h'
    | cons a' l' =>
      obtain ⟨b', bs', h1', h2', hh⟩ := mapM_ok_cons.1 h'
      injection hh with hb hbs
      subst hb hbs
      rw [hf a a' b (hl a (List.mem_cons_self ..)) (hl' a' (List.mem_cons_self ..)) h1 h1',
        ih (fun x hx => hl x (List.mem_cons_of_mem _ hx)) (fun x hx => hl' x (List.mem_cons_of_mem _ hx)) h2 h2']

theorem mapM_mem {α β : Type} {f : α → Res β} {l : List α} {r : List β} (h : l.mapM f = .ok r) :
    ∀ b ∈ r, ∃ a ∈ l, f a = .ok b := by
  induction l generalizing r with
  | nil => injection h with h; subst h; intro b hb; cases hb
  | cons a l ih =>
    obtain ⟨b, bs, h1, h2, rfl⟩ := mapM_ok_cons.1 h
    intro x hx
    rcases List.mem_cons.1 hx with rfl | hx
    · exact ⟨a, List.mem_cons_self .., h1⟩
    · obtain ⟨y, hy, hxy⟩ := ih h2 x hx
      exact ⟨y, List.mem_cons_of_mem _ hy, hxy⟩

theorem mapM_ne_nil {α β : Type} {f : α → Res β} {l : List α} {r : List β} (h : l.mapM f = .ok r) (hl : l ≠ []) : r ≠ [] := by
  cases l with
  | nil => exact absurd rfl hl
  | cons a l =>
    obtain ⟨b, bs, _, _, rfl⟩ := mapM_ok_cons.1 h
    simp

theorem join_inj {x : Char} {xs : String} (hx : xs.toList = [x]) {l l' : List String} (h1 : l ≠ []) (h2 : l' ≠ [])
    (h3 : ∀ s ∈ l, x ∉ s.toList) (h4 : ∀ s ∈ l', x ∉ s.toList)
    (h : (String.intercalate xs l).toList = (String.intercalate xs l').toList) : l = l' := by
  rw [String.toList_intercalate, String.toList_intercalate, hx] at h
  have := intercalate_inj (by simpa using h1) (by simpa using h2)
    (by simp only [List.mem_map]; rintro _ ⟨s, hs, rfl⟩; exact h3 s hs)
    (by simp only [List.mem_map]; rintro _ ⟨s, hs, rfl⟩; exact h4 s hs) h
  exact (List.map_inj_right (fun a b hab => String.toList_inj.1 hab)).1 this

theorem mem_intercalate {x : Char} {ls : List (List Char)} {ch : Char} (h : ch ∈ [x].intercalate ls) :
    ch = x ∨ ∃ l ∈ ls, ch ∈ l := by
  induction ls with
  | nil => simp [List.intercalate] at h
  | cons a ls ih =>
    cases ls with
    | nil =>
      rw [List.intercalate_singleton] at h
      exact Or.inr ⟨a, by simp, h⟩
    | cons b ls =>
      rw [List.intercalate_cons_cons, List.mem_append, List.mem_append] at h
      rcases h with (h | h) | h
      · exact Or.inr ⟨a, by simp, h⟩
      · exact Or.inl (by simpa using h)
      · rcases ih h with h | ⟨l, hl, h⟩
        · exact Or.inl h
        · exact Or.inr ⟨l, List.mem_cons_of_mem _ hl, h⟩

end CalCore
