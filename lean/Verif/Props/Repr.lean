import Verif.Model.Repr
import Verif.Lemmas.ICalText
import Verif.Props.Rules
/- Property C92: the `repr` of a rule. -/
namespace CalCore
open Spec

/-- The text goes on with a comma or a closing parenthesis. -/
def Stops (s : List Char) : Prop := ∃ r, s = ',' :: r ∨ s = ')' :: r

/-- What is encoded can be read from the front of a text that goes on with a comma or a closing parenthesis. -/
def Readable {α : Type} (f : α → String) : Prop :=
  ∀ x y s t, Stops s → Stops t → (f x).toList ++ s = (f y).toList ++ t → x = y ∧ s = t

theorem takeWhile_stops {p : Char → Bool} (h1 : p ',' = false) (h2 : p ')' = false) {l s : List Char}
    (hl : ∀ c ∈ l, p c = true) (hs : Stops s) : (l ++ s).takeWhile p = l ∧ (l ++ s).dropWhile p = s := by
  induction l with
  | nil =>
    obtain ⟨r, rfl | rfl⟩ := hs
    · simp [h1]
    · simp [h2]
  | cons c l ih =>
    obtain ⟨i1, i2⟩ := ih (fun c hc => hl c (List.mem_cons_of_mem _ hc))
    simp [hl c (List.mem_cons_self ..), i1, i2]

theorem pyInt_chars (n : Int) : ∀ c ∈ (pyInt n).toList, (c.isDigit || c == '-') = true := by
  intro c hc
  rcases int_chars n hc with h | h
  · rw [h]; rfl
  · rw [h]; rfl

theorem pyInt_readable : Readable pyInt := by
  intro x y s t hs ht h
  have hx := takeWhile_stops (p := fun c => c.isDigit || c == '-') rfl rfl (pyInt_chars x) hs
  have hy := takeWhile_stops (p := fun c => c.isDigit || c == '-') rfl rfl (pyInt_chars y) ht
  rw [h] at hx
  have h1 := hx.1.symm.trans hy.1
  have h2 := hx.2.symm.trans hy.2
  exact ⟨Int.repr_injective (String.toList_inj.1 h1), h2⟩

theorem pyInt_ne (n : Int) : ∃ c l, (pyInt n).toList = c :: l ∧ (c.isDigit || c == '-') = true := by
  cases h : (pyInt n).toList with
  | nil =>
    exfalso
    have h' : (Int.repr n).toList = [] := h
    cases n with
    | ofNat m =>
      have : (toString m : String).toList = [] := h'
      rw [toList_toString] at this
      exact Nat.toDigits_ne_nil this
    | negSucc m =>
      have : ("-" ++ (toString (m + 1) : String)).toList = [] := h'
      simp at this
  | cons c l => exact ⟨c, l, rfl, pyInt_chars n c (by rw [h]; exact List.mem_cons_self ..)⟩

theorem pyMore_stops {α : Type} (f : α → String) (l : List α) (s : List Char) : Stops ((pyMore f l).toList ++ s) := by
  cases l with
  | nil => exact ⟨s, Or.inr (by simp [pyMore])⟩
  | cons x l =>
    refine ⟨(" " ++ f x ++ pyMore f l).toList ++ s, Or.inl ?_⟩
    simp [pyMore]

theorem pyMore_read {α : Type} {f : α → String} (hf : Readable f) (l l' : List α) (s t : List Char)
    (h : (pyMore f l).toList ++ s = (pyMore f l').toList ++ t) : l = l' ∧ s = t := by
  induction l generalizing l' with
  | nil =>
    cases l' with
    | nil => simp [pyMore] at h; exact ⟨rfl, h⟩
    | cons y l' => simp [pyMore] at h
  | cons x l ih =>
    cases l' with
    | nil => simp [pyMore] at h
    | cons y l' =>
      simp only [pyMore, String.toList_append, List.append_assoc, List.append_cancel_left_eq] at h
      obtain ⟨rfl, h'⟩ := hf _ _ _ _ (pyMore_stops f l s) (pyMore_stops f l' t) h
      obtain ⟨rfl, h''⟩ := ih l' h'
      exact ⟨rfl, h''⟩

theorem lit_comma : ", ".toList = [',', ' '] := by simp
theorem lit_one : ",)".toList = [',', ')'] := by simp
theorem lit_open : "(".toList = ['('] := by simp
theorem lit_close : ")".toList = [')'] := by simp
theorem lit_date : "datetime.date(".toList = "datetime.date".toList ++ ['('] := by simp
theorem lit_datetime : "datetime.datetime(".toList = "datetime.date".toList ++ 't' :: "ime(".toList := by simp

/-- Two texts that begin with different characters. -/
theorem head_ne {a b : Char} {s t : List Char} (h : a :: s = b :: t) (hab : a ≠ b) : False := by
  injection h with h _; exact hab h

theorem pyTuple_readable {α : Type} {f : α → String} (hf : Readable f)
    (hp : ∀ x, ∃ c l, (f x).toList = c :: l ∧ c ≠ ')') (l l' : List α) (s t : List Char)
    (h : (pyTuple f l).toList ++ s = (pyTuple f l').toList ++ t) : l = l' ∧ s = t := by
  have h1 : ∀ (x : α) (r : List Char), ¬ ')' :: s = (f x).toList ++ r := by
    intro x r hx
    obtain ⟨c, l, hc, hne⟩ := hp x
    rw [hc] at hx
    exact head_ne hx (Ne.symm hne)
  have h2 : ∀ (x : α) (r : List Char), ¬ (f x).toList ++ r = ')' :: t := by
    intro x r hx
    obtain ⟨c, l, hc, hne⟩ := hp x
    rw [hc] at hx
    exact head_ne hx hne
  match l, l' with
  | [], [] => simp [pyTuple] at h; exact ⟨rfl, h⟩
  | [], [y] =>
    simp only [pyTuple, String.toList_append, List.append_assoc] at h
    exact absurd (List.cons.inj h).2 (h1 y _)
  | [], y :: z :: l' =>
    simp only [pyTuple, String.toList_append, List.append_assoc] at h
    exact absurd (List.cons.inj h).2 (h1 y _)
  | [x], [] =>
    simp only [pyTuple, String.toList_append, List.append_assoc] at h
    exact absurd (List.cons.inj h).2 (h2 x _)
  | x :: z :: l, [] =>
    simp only [pyTuple, String.toList_append, List.append_assoc] at h
    exact absurd (List.cons.inj h).2 (h2 x _)
  | [x], [y] =>
    simp only [pyTuple, String.toList_append, List.append_assoc, List.append_cancel_left_eq] at h
    rw [lit_one] at h
    obtain ⟨rfl, h'⟩ := hf _ _ _ _ ⟨_, Or.inl rfl⟩ ⟨_, Or.inl rfl⟩ h
    exact ⟨rfl, List.append_cancel_left (as := [',', ')']) h'⟩
  | [x], y :: z :: l' =>
    simp only [pyTuple, String.toList_append, List.append_assoc, List.append_cancel_left_eq] at h
    rw [lit_one] at h
    obtain ⟨rfl, h'⟩ := hf _ _ _ _ ⟨_, Or.inl rfl⟩ (pyMore_stops f _ t) h
    simp only [pyMore, String.toList_append, lit_comma] at h'
    exact (head_ne (List.cons.inj h').2 (by decide)).elim
  | x :: z :: l, [y] =>
    simp only [pyTuple, String.toList_append, List.append_assoc, List.append_cancel_left_eq] at h
    rw [lit_one] at h
    obtain ⟨rfl, h'⟩ := hf _ _ _ _ (pyMore_stops f _ s) ⟨_, Or.inl rfl⟩ h
    simp only [pyMore, String.toList_append, lit_comma] at h'
    exact (head_ne (List.cons.inj h').2 (by decide)).elim
  | x :: z :: l, y :: z' :: l' =>
    simp only [pyTuple, String.toList_append, List.append_assoc, List.append_cancel_left_eq] at h
    obtain ⟨rfl, h'⟩ := hf _ _ _ _ (pyMore_stops f _ s) (pyMore_stops f _ t) h
    obtain ⟨h'', rfl⟩ := pyMore_read hf _ _ _ _ h'
    rw [h'']
    exact ⟨rfl, rfl⟩

theorem pyDate_readable : Readable pyDate := by
  intro x y s t hs ht h
  simp only [pyDate, String.toList_append, List.append_assoc, List.append_cancel_left_eq] at h
  obtain ⟨h1, h⟩ := pyInt_readable _ _ _ _ (pyMore_stops _ _ _) (pyMore_stops _ _ _) h
  obtain ⟨h2, h⟩ := pyMore_read pyInt_readable _ _ _ _ h
  injection h2 with h2 h3
  injection h3 with h3 _
  refine ⟨?_, h⟩
  rw [← ymd2ord_date x, ← ymd2ord_date y, h1, h2, h3]

theorem dateTime_parts {t u : Int} (h1 : dtDate t = dtDate u) (h2 : dtTime t / 3600000000 = dtTime u / 3600000000)
    (h3 : dtTime t / 60000000 % 60 = dtTime u / 60000000 % 60)
    (h4 : dtTime t / 1000000 % 60 = dtTime u / 1000000 % 60) (h5 : dtTime t % 1000000 = dtTime u % 1000000) :
    t = u := by
  unfold dtDate at h1
  unfold dtTime at *
  rw [show DAY = 86400000000 from rfl] at *
  omega

theorem pyDateTime_chars (t : Int) : (pyDateTime t).toList = "datetime.datetime(".toList ++
    ((pyInt (dyear (dtDate t))).toList ++ (pyMore pyInt (pyDateTimeArgs t)).toList) := by
  unfold pyDateTime
  rw [String.toList_append, String.toList_append, List.append_assoc]

theorem pyDate_chars (d : Int) : (pyDate d).toList = "datetime.date(".toList ++
    ((pyInt (dyear d)).toList ++ (pyMore pyInt [dmonth d, dday d]).toList) := by
  unfold pyDate
  rw [String.toList_append, String.toList_append, List.append_assoc]

theorem pyDateTime_read (x y : Int) (s t : List Char)
    (h : (pyDateTime x).toList ++ s = (pyDateTime y).toList ++ t) : x = y ∧ s = t := by
  rw [pyDateTime_chars, pyDateTime_chars, List.append_assoc, List.append_assoc, List.append_assoc, List.append_assoc] at h
  have h := List.append_cancel_left h
  obtain ⟨h1, h⟩ := pyInt_readable _ _ _ _ (pyMore_stops _ _ _) (pyMore_stops _ _ _) h
  obtain ⟨h2, h⟩ := pyMore_read pyInt_readable _ _ _ _ h
  refine ⟨?_, h⟩
  unfold pyDateTimeArgs at h2
  simp only [List.cons_append, List.nil_append, List.cons.injEq] at h2
  obtain ⟨ha, hb, hc, hd, h2⟩ := h2
  have hdate : dtDate x = dtDate y := by
    rw [← ymd2ord_date (dtDate x), ← ymd2ord_date (dtDate y), h1, ha, hb]
  have hs : ∀ a b c d : Int, (if b ≠ 0 then [a, b] else if a ≠ 0 then [a] else []) =
      (if d ≠ 0 then [c, d] else if c ≠ 0 then [c] else []) → a = c ∧ b = d := by
    intro a b c d hx
    by_cases hb : b = 0 <;> by_cases hd : d = 0 <;> by_cases ha : a = 0 <;> by_cases hc : c = 0 <;>
      simp [hb, hd, ha, hc] at hx ⊢ <;> exact hx
  obtain ⟨he, hf⟩ := hs _ _ _ _ h2
  exact dateTime_parts hdate hc hd he hf

theorem pyUntil_readable : Readable pyUntil := by
  intro x y s t hs ht h
  cases x with
  | date d =>
    cases y with
    | date d' =>
      obtain ⟨rfl, h'⟩ := pyDate_readable d d' s t hs ht h
      exact ⟨rfl, h'⟩
    | datetime u =>
      simp only [pyUntil] at h
      rw [pyDate_chars, pyDateTime_chars, lit_date, lit_datetime] at h
      rw [List.append_assoc, List.append_assoc, List.append_assoc, List.append_assoc] at h
      exact (head_ne (List.append_cancel_left h) (by decide)).elim
  | datetime u =>
    cases y with
    | date d' =>
      simp only [pyUntil] at h
      rw [pyDate_chars, pyDateTime_chars, lit_date, lit_datetime] at h
      rw [List.append_assoc, List.append_assoc, List.append_assoc, List.append_assoc] at h
      exact (head_ne (List.append_cancel_left h) (by decide)).elim
    | datetime u' =>
      obtain ⟨rfl, h'⟩ := pyDateTime_read u u' s t h
      exact ⟨rfl, h'⟩

theorem pyOption_readable {α : Type} {f : α → String} (hf : Readable f)
    (hp : ∀ x, ∃ c l, (f x).toList = c :: l ∧ c ≠ 'N') : Readable (pyOption f) := by
  intro x y s t hs ht h
  cases x with
  | none =>
    cases y with
    | none => exact ⟨rfl, List.append_cancel_left h⟩
    | some y =>
      obtain ⟨c, l, hc, hne⟩ := hp y
      simp only [pyOption] at h
      rw [hc] at h
      exact (head_ne h (Ne.symm hne)).elim
  | some x =>
    cases y with
    | none =>
      obtain ⟨c, l, hc, hne⟩ := hp x
      simp only [pyOption] at h
      rw [hc] at h
      exact (head_ne h hne).elim
    | some y =>
      obtain ⟨rfl, h'⟩ := hf x y s t hs ht h
      exact ⟨rfl, h'⟩

theorem pyDate_head (d : Int) : ∃ l, (pyDate d).toList = 'd' :: l := by
  refine ⟨("atetime.date(" ++ pyInt (dyear d) ++ pyMore pyInt [dmonth d, dday d]).toList, ?_⟩
  simp [pyDate]

theorem pyUntil_head (u : Until) : ∃ l, (pyUntil u).toList = 'd' :: l := by
  cases u with
  | date d => exact pyDate_head d
  | datetime t =>
    have hl : "datetime.datetime(".toList = 'd' :: "atetime.datetime(".toList := by simp
    exact ⟨_, (pyDateTime_chars t).trans (by rw [hl]; rfl)⟩

theorem pyMonthly_readable : Readable pyMonthly := by
  intro x y s t hs ht h
  have e1 : "'monthday'".toList = '\'' :: 'm' :: "onthday'".toList := by simp
  have e2 : "'weekday'".toList = '\'' :: 'w' :: "eekday'".toList := by simp
  have e3 : "'lastweekday'".toList = '\'' :: 'l' :: "astweekday'".toList := by simp
  cases x <;> cases y <;> simp only [pyMonthly] at h <;>
    first
    | exact ⟨rfl, List.append_cancel_left h⟩
    | (rw [e1, e2] at h; exact (head_ne (List.cons.inj h).2 (by decide)).elim)
    | (rw [e1, e3] at h; exact (head_ne (List.cons.inj h).2 (by decide)).elim)
    | (rw [e2, e3] at h; exact (head_ne (List.cons.inj h).2 (by decide)).elim)

/-- The class is what stands before the first parenthesis. -/
theorem className_read {k k' : RuleKind} {s t : List Char}
    (h : k.className.toList ++ '(' :: s = k'.className.toList ++ '(' :: t) :
    k.className = k'.className ∧ s = t := by
  cases k <;> cases k' <;> simp [RuleKind.className] at h ⊢ <;> exact h

theorem className_kind {k k' : RuleKind} (h : k.className = k'.className) :
    k = k' ∨ (∃ w w', k = .weekly w ∧ k' = .weekly w') ∨ ∃ m m', k = .monthly m ∧ k' = .monthly m' := by
  cases k <;> cases k' <;> simp only [RuleKind.className] at h <;>
    first
    | exact Or.inl rfl
    | exact absurd h (by decide)
    | exact Or.inr (Or.inl ⟨_, _, rfl, rfl⟩)
    | exact Or.inr (Or.inr ⟨_, _, rfl, rfl⟩)

/-- C92: two rules have the same `repr` exactly if they are equal. -/
theorem C92_repr (a b : Rule) : a.repr = b.repr ↔ a.eq b = true := by
  constructor
  · intro h
    rw [C18_eq_iff]
    have h := congrArg String.toList h
    simp only [Rule.repr, String.toList_append, List.append_assoc, lit_comma, lit_open] at h
    obtain ⟨h0, h⟩ := className_read h
    obtain ⟨h1, h⟩ := pyInt_readable _ _ _ _ ⟨_, Or.inl rfl⟩ ⟨_, Or.inl rfl⟩ h
    have h := List.append_cancel_left (as := [',', ' ']) h
    obtain ⟨h2, h⟩ := pyOption_readable pyInt_readable
      (fun n => by
        obtain ⟨c, l, hc, hd⟩ := pyInt_ne n
        refine ⟨c, l, hc, ?_⟩
        rintro rfl
        exact absurd hd (by decide)) _ _ _ _ ⟨_, Or.inl rfl⟩ ⟨_, Or.inl rfl⟩ h
    have h := List.append_cancel_left (as := [',', ' ']) h
    obtain ⟨h3, h⟩ := pyOption_readable pyUntil_readable
      (fun u => by obtain ⟨l, hl⟩ := pyUntil_head u; exact ⟨_, l, hl, by decide⟩) _ _ _ _ ⟨_, Or.inl rfl⟩ ⟨_, Or.inl rfl⟩ h
    have h := List.append_cancel_left (as := [',', ' ']) h
    obtain ⟨h4, h⟩ := pyTuple_readable pyDate_readable
      (fun u => by obtain ⟨l, hl⟩ := pyDate_head u; exact ⟨_, l, hl, by decide⟩) _ _ _ _ h
    refine ⟨?_, h1, h2, h3, h4⟩
    rcases className_kind h0 with hk | ⟨w, w', hk, hk'⟩ | ⟨m, m', hk, hk'⟩
    · exact hk
    · rw [hk, hk'] at h
      simp only [String.toList_append, List.append_assoc, lit_close, lit_comma] at h
      have h := List.append_cancel_left (as := [',', ' ']) h
      obtain ⟨h5, _⟩ := pyTuple_readable pyInt_readable
        (fun n => by
          obtain ⟨c, l, hc, hd⟩ := pyInt_ne n
          refine ⟨c, l, hc, ?_⟩
          rintro rfl
          exact absurd hd (by decide)) _ _ _ _ h
      rw [hk, hk', h5]
    · rw [hk, hk'] at h
      simp only [String.toList_append, List.append_assoc, lit_close, lit_comma] at h
      have h := List.append_cancel_left (as := [',', ' ']) h
      obtain ⟨h5, _⟩ := pyMonthly_readable _ _ _ _ ⟨_, Or.inr rfl⟩ ⟨_, Or.inr rfl⟩ h
      rw [hk, hk', h5]
  · intro h
    obtain ⟨h1, h2, h3, h4, h5⟩ := (C18_eq_iff a b).1 h
    unfold Rule.repr
    rw [h1, h2, h3, h4, h5]

/-- C92, concrete. -/
example :
    (⟨.weekly [0, 3], 2, some 5, none, [ymd2ord 2004 10 13]⟩ : Rule).repr =
      "WeeklyRecurrenceRule(2, 5, None, (datetime.date(2004, 10, 13),), (0, 3))" ∧
    (⟨.monthly .lastweekday, 1, none, some (.datetime (ymd2ord 2004 12 1 * DAY + 45000000000)), []⟩ : Rule).repr =
      "MonthlyRecurrenceRule(1, None, datetime.datetime(2004, 12, 1, 12, 30), (), 'lastweekday')" ∧
    (⟨.no, 1, none, some (.date (ymd2ord 2004 12 1)), []⟩ : Rule).repr =
      "NoRecurrenceRule(1, None, datetime.date(2004, 12, 1), ())" := by decide +kernel

end CalCore
