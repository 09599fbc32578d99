import Verif.Spec.PyEval
import Verif.Props.Repr
/- The texts made by `__repr__` are read back. -/
namespace CalCore
open Spec

/-- The text is read as the expression, whatever follows after a comma or a closing parenthesis. -/
structure Parses (s : List Char) (e : PyExpr) : Prop where
  head : ∃ c l, s = c :: l ∧ c ≠ ')'
  read : ∀ n, s.length ≤ n → ∀ r, Stops r → parseExpr n (s ++ r) = some (e, r)

theorem takeWhile_all {p : Char → Bool} {l s : List Char} (hl : ∀ c ∈ l, p c = true) (hs : ∀ c r, s = c :: r → p c = false) :
    (l ++ s).takeWhile p = l ∧ (l ++ s).dropWhile p = s := by
  induction l with
  | nil =>
    cases s with
    | nil => exact ⟨rfl, rfl⟩
    | cons c r => simp [hs c r rfl]
  | cons c l ih =>
    obtain ⟨i1, i2⟩ := ih (fun c hc => hl c (List.mem_cons_of_mem _ hc))
    simp [hl c (List.mem_cons_self ..), i1, i2]

theorem stops_not {p : Char → Bool} (h1 : p ',' = false) (h2 : p ')' = false) {s : List Char} (hs : Stops s) :
    ∀ c r, s = c :: r → p c = false := by
  rintro c r rfl
  obtain ⟨r', h | h⟩ := hs
  · injection h with h _; rw [h]; exact h1
  · injection h with h _; rw [h]; exact h2

theorem digit_ne {c : Char} (h : c.isDigit = true) : c ≠ '(' ∧ c ≠ '\'' ∧ c ≠ '-' ∧ c ≠ ')' := by
  refine ⟨?_, ?_, ?_, ?_⟩ <;> rintro rfl <;> exact absurd h (by decide)

theorem parses_nat (m : Nat) : Parses (toString m : String).toList (.int m) := by
  rw [toList_toString]
  have hd : ∀ c ∈ Nat.toDigits 10 m, c.isDigit = true := fun c hc => Nat.isDigit_of_mem_toDigits (by decide) (by decide) hc
  have hv := Nat.ofDigitChars_ten_toDigits (n := m)
  revert hd hv
  cases hl : Nat.toDigits 10 m with
  | nil => exact absurd hl Nat.toDigits_ne_nil
  | cons c l =>
    intro hd hv
    have hc := hd c (List.mem_cons_self ..)
    obtain ⟨h1, h2, h3, h4⟩ := digit_ne hc
    refine ⟨⟨c, l, rfl, h4⟩, fun n hn r hr => ?_⟩
    cases n with
    | zero => simp at hn
    | succ n =>
      have ht := takeWhile_all hd (stops_not (p := Char.isDigit) (by decide) (by decide) hr)
      rw [List.cons_append] at ht ⊢
      rw [parseExpr, if_neg h1, if_neg h2, if_neg h3, if_pos hc, ht.1, ht.2, hv]

theorem parses_int (n : Int) : Parses (pyInt n).toList (.int n) := by
  cases n with
  | ofNat m => exact parses_nat m
  | negSucc m =>
    have hs : (pyInt (Int.negSucc m)).toList = '-' :: Nat.toDigits 10 (m + 1) := by
      show ("-" ++ (toString (m + 1) : String)).toList = _
      rw [String.toList_append, toList_toString]
      rfl
    rw [hs]
    refine ⟨⟨_, _, rfl, by decide⟩, fun n hn r hr => ?_⟩
    cases n with
    | zero => simp at hn
    | succ n =>
      have hd : ∀ c ∈ Nat.toDigits 10 (m + 1), c.isDigit = true := fun c hc => Nat.isDigit_of_mem_toDigits (by decide) (by decide) hc
      have ht := takeWhile_all hd (stops_not (p := Char.isDigit) (by decide) (by decide) hr)
      rw [List.cons_append, parseExpr, if_neg (by decide), if_neg (by decide), if_pos rfl, ht.1, ht.2,
        if_neg Nat.toDigits_ne_nil, Nat.ofDigitChars_ten_toDigits]
      rfl

theorem parses_none : Parses "None".toList (.name "None".toList) := by
  refine ⟨⟨'N', ['o', 'n', 'e'], by simp, by decide⟩, fun n hn r hr => ?_⟩
  have hl : "None".toList = ['N', 'o', 'n', 'e'] := by simp
  rw [hl] at hn ⊢
  cases n with
  | zero => simp at hn
  | succ n =>
    have ht := takeWhile_all (l := ['N', 'o', 'n', 'e']) (p := nameChar) (by decide)
      (stops_not (p := nameChar) (by decide) (by decide) hr)
    rw [List.cons_append] at ht ⊢
    rw [parseExpr, if_neg (by decide), if_neg (by decide), if_neg (by decide), if_neg (by decide), if_pos (by decide), ht.1, ht.2]
    obtain ⟨r', rfl | rfl⟩ := hr <;> rfl

theorem parses_str {w : List Char} (hw : ∀ c ∈ w, c ≠ '\'') : Parses ('\'' :: w ++ ['\'']) (.str w) := by
  refine ⟨⟨_, _, rfl, by decide⟩, fun n hn r hr => ?_⟩
  cases n with
  | zero => simp at hn
  | succ n =>
    have ht := takeWhile_all (l := w) (s := '\'' :: r) (p := fun c => decide (c ≠ '\'')) (fun c hc => decide_eq_true (hw c hc))
      (fun c r' h => by injection h with h _; rw [← h]; rfl)
    rw [List.append_assoc, List.cons_append, List.cons_append, List.nil_append, parseExpr, if_neg (by decide), if_pos rfl, ht.1, ht.2]

/-- Further arguments and the closing parenthesis. -/
def moreArgs : List (List Char × PyExpr) → List Char
  | [] => [')']
  | x :: l => ',' :: ' ' :: (x.1 ++ moreArgs l)

theorem moreArgs_stops (l : List (List Char × PyExpr)) (r : List Char) : Stops (moreArgs l ++ r) := by
  cases l with
  | nil => exact ⟨r, Or.inr rfl⟩
  | cons x l => exact ⟨_, Or.inl rfl⟩

theorem parseArgs_step {s : List Char} (hs : ∃ c l, s = c :: l ∧ c ≠ ')') (n : Nat) :
    parseArgs (n + 1) s =
      match parseExpr n s with
      | none => none
      | some (e, ')' :: r) => some ([e], false, r)
      | some (e, ',' :: ')' :: r) => some ([e], true, r)
      | some (e, ',' :: ' ' :: r) =>
        match parseArgs n r with
        | some (l, t, r') => some (e :: l, t, r')
        | none => none
      | some _ => none := by
  obtain ⟨c, l, rfl, hc⟩ := hs
  rw [parseArgs]
  · rfl
  · intro r h
    injection h with h _
    exact hc h

theorem parses_args (x : List Char × PyExpr) (l : List (List Char × PyExpr)) (hx : Parses x.1 x.2) (hl : ∀ y ∈ l, Parses y.1 y.2) :
    ∀ n, (x.1 ++ moreArgs l).length ≤ n → ∀ r,
      parseArgs n (x.1 ++ (moreArgs l ++ r)) = some (x.2 :: l.map (·.2), false, r) := by
  induction l generalizing x with
  | nil =>
    intro n hn r
    cases n with
    | zero => simp [moreArgs] at hn
    | succ n =>
      obtain ⟨c, t, h, hc⟩ := hx.head
      rw [parseArgs_step ⟨c, t ++ (moreArgs [] ++ r), by rw [h]; rfl, hc⟩]
      rw [hx.read n (by simp [moreArgs] at hn; omega) _ (moreArgs_stops [] r)]
      rfl
  | cons y l ih =>
    intro n hn r
    cases n with
    | zero => simp [moreArgs] at hn
    | succ n =>
      obtain ⟨c, t, h, hc⟩ := hx.head
      rw [parseArgs_step ⟨c, t ++ (moreArgs (y :: l) ++ r), by rw [h]; rfl, hc⟩]
      rw [hx.read n (by simp [moreArgs] at hn; omega) _ (moreArgs_stops (y :: l) r)]
      have h2 : moreArgs (y :: l) ++ r = ',' :: ' ' :: (y.1 ++ (moreArgs l ++ r)) := by
        simp [moreArgs]
      rw [h2]
      simp only []
      rw [ih y (hl y (List.mem_cons_self ..)) (fun z hz => hl z (List.mem_cons_of_mem _ hz)) n (by
        simp [moreArgs] at hn ⊢; omega) r]
      rfl

theorem alpha_ne {c : Char} (hc : c.isAlpha = true) : c ≠ '(' ∧ c ≠ '\'' ∧ c ≠ '-' ∧ c ≠ ')' ∧ c.isDigit = false := by
  refine ⟨?_, ?_, ?_, ?_, ?_⟩
  · rintro rfl; exact absurd hc (by decide)
  · rintro rfl; exact absurd hc (by decide)
  · rintro rfl; exact absurd hc (by decide)
  · rintro rfl; exact absurd hc (by decide)
  · cases hd : c.isDigit with
    | false => rfl
    | true =>
      simp only [Char.isAlpha, Char.isUpper, Char.isLower, Char.isDigit, Bool.or_eq_true, Bool.and_eq_true, decide_eq_true_eq,
        UInt32.le_iff_toNat_le] at hc hd
      simp at hc hd
      omega

theorem parses_call_any {f : List Char} (hf : ∀ c ∈ f, c.isAlpha = true ∨ c = '.') (hne : ∃ c l, f = c :: l ∧ c.isAlpha = true)
    (x : List Char × PyExpr) (l : List (List Char × PyExpr)) (hx : Parses x.1 x.2) (hl : ∀ y ∈ l, Parses y.1 y.2)
    (n : Nat) (hn : (f ++ '(' :: (x.1 ++ moreArgs l)).length ≤ n) (r : List Char) :
    parseExpr n (f ++ '(' :: (x.1 ++ moreArgs l) ++ r) = some (.call f (x.2 :: l.map (·.2)), r) := by
  obtain ⟨c, t, rfl, hc⟩ := hne
  obtain ⟨h1, h2, h3, _, h5⟩ := alpha_ne hc
  cases n with
  | zero => simp at hn
  | succ n =>
    have hnc : ∀ d ∈ c :: t, nameChar d = true := by
      intro d hd
      unfold nameChar
      rcases hf d hd with h | h
      · rw [h]; rfl
      · rw [h]; rfl
    have ht := takeWhile_all (s := '(' :: (x.1 ++ (moreArgs l ++ r))) hnc (fun d r' h => by injection h with h _; rw [← h]; decide)
    have hs : c :: t ++ '(' :: (x.1 ++ moreArgs l) ++ r = c :: (t ++ '(' :: (x.1 ++ (moreArgs l ++ r))) := by simp
    rw [List.cons_append] at ht
    rw [hs, parseExpr, if_neg h1, if_neg h2, if_neg h3, if_neg (by rw [h5]; decide),
      if_pos (hnc c (List.mem_cons_self ..)), ht.1, ht.2]
    simp only []
    rw [parses_args x l hx hl n (by simp at hn ⊢; omega) r]

theorem parses_call {f : List Char} (hf : ∀ c ∈ f, c.isAlpha = true ∨ c = '.') (hne : ∃ c l, f = c :: l ∧ c.isAlpha = true)
    (x : List Char × PyExpr) (l : List (List Char × PyExpr)) (hx : Parses x.1 x.2) (hl : ∀ y ∈ l, Parses y.1 y.2) :
    Parses (f ++ '(' :: (x.1 ++ moreArgs l)) (.call f (x.2 :: l.map (·.2))) := by
  refine ⟨?_, fun n hn r _ => parses_call_any hf hne x l hx hl n hn r⟩
  obtain ⟨c, t, rfl, hc⟩ := hne
  exact ⟨c, _, rfl, (alpha_ne hc).2.2.2.1⟩

theorem parses_tuple {α : Type} {f : α → String} {g : α → PyExpr} (h : ∀ x, Parses (f x).toList (g x)) (l : List α) :
    Parses (pyTuple f l).toList (.tuple (l.map g)) := by
  have hm : ∀ l : List α, (pyMore f l).toList = moreArgs (l.map fun x => ((f x).toList, g x)) := by
    intro l
    induction l with
    | nil => simp [pyMore, moreArgs]
    | cons x l ih => simp [pyMore, moreArgs, ih]
  match l with
  | [] =>
    have ht : (pyTuple f ([] : List α)).toList = ['(', ')'] := by simp [pyTuple]
    rw [ht]
    refine ⟨⟨_, _, rfl, by decide⟩, fun n hn r _ => ?_⟩
    match n, hn with
    | n + 2, _ => rfl
    | 1, hn => simp at hn
    | 0, hn => simp at hn
  | [x] =>
    have ht : (pyTuple f [x]).toList = '(' :: ((f x).toList ++ [',', ')']) := by simp [pyTuple]
    rw [ht]
    refine ⟨⟨_, _, rfl, by decide⟩, fun n hn r _ => ?_⟩
    match n, hn with
    | n + 2, hn =>
      obtain ⟨c, t, hx, hc⟩ := (h x).head
      rw [List.cons_append, parseExpr, if_pos rfl, List.append_assoc,
        parseArgs_step ⟨c, t ++ ([',', ')'] ++ r), by rw [hx]; rfl, hc⟩,
        (h x).read n (by simp at hn ⊢; omega) ([',', ')'] ++ r) ⟨_, Or.inl rfl⟩]
      rfl
    | 1, hn => simp at hn
    | 0, hn => simp at hn
  | x :: y :: l =>
    have ht : (pyTuple f (x :: y :: l)).toList = '(' :: ((f x).toList ++ moreArgs ((y :: l).map fun x => ((f x).toList, g x))) := by
      rw [← hm]; simp [pyTuple]
    rw [ht]
    refine ⟨⟨_, _, rfl, by decide⟩, fun n hn r _ => ?_⟩
    cases n with
    | zero => simp at hn
    | succ n =>
      rw [List.cons_append, parseExpr, if_pos rfl, List.append_assoc]
      have := parses_args ((f x).toList, g x) ((y :: l).map fun x => ((f x).toList, g x)) (h x) (by
        intro z hz
        obtain ⟨w, _, rfl⟩ := List.mem_map.1 hz
        exact h w) n (by simp at hn ⊢; omega) r
      simp only [] at this
      rw [this]
      simp

theorem parses_date (d : Int) :
    Parses (pyDate d).toList (.call "datetime.date".toList [.int (dyear d), .int (dmonth d), .int (dday d)]) := by
  have h := parses_call (f := "datetime.date".toList) (by simp) ⟨'d', "atetime.date".toList, by simp, by decide⟩
    ((pyInt (dyear d)).toList, .int (dyear d))
    [((pyInt (dmonth d)).toList, .int (dmonth d)), ((pyInt (dday d)).toList, .int (dday d))] (parses_int _)
    (by
      intro y hy
      simp only [List.mem_cons, List.not_mem_nil, or_false] at hy
      rcases hy with rfl | rfl
      · exact parses_int _
      · exact parses_int _)
  have ht : (pyDate d).toList = "datetime.date".toList ++ '(' :: ((pyInt (dyear d)).toList ++
      moreArgs [((pyInt (dmonth d)).toList, .int (dmonth d)), ((pyInt (dday d)).toList, .int (dday d))]) := by
    rw [pyDate_chars, lit_date]
    simp [moreArgs, pyMore]
  rw [ht]
  exact h

theorem pyMore_args {α : Type} (f : α → String) (g : α → PyExpr) (l : List α) :
    (pyMore f l).toList = moreArgs (l.map fun x => ((f x).toList, g x)) := by
  induction l with
  | nil => simp [pyMore, moreArgs]
  | cons x l ih => simp [pyMore, moreArgs, ih]

theorem parses_datetime (t : Int) :
    Parses (pyDateTime t).toList (.call "datetime.datetime".toList (.int (dyear (dtDate t)) :: (pyDateTimeArgs t).map .int)) := by
  have h := parses_call (f := "datetime.datetime".toList) (by simp) ⟨'d', "atetime.datetime".toList, by simp, by decide⟩
    ((pyInt (dyear (dtDate t))).toList, .int (dyear (dtDate t)))
    ((pyDateTimeArgs t).map fun n => ((pyInt n).toList, .int n)) (parses_int _)
    (by
      intro y hy
      obtain ⟨n, _, rfl⟩ := List.mem_map.1 hy
      exact parses_int _)
  have hl : "datetime.datetime(".toList = "datetime.datetime".toList ++ ['('] := by simp
  rw [pyDateTime_chars, hl, pyMore_args pyInt .int]
  rw [List.map_map] at h
  rw [List.append_assoc]
  exact h

/-- The expression written for `until`. -/
def untilExpr : Until → PyExpr
  | .date d => .call "datetime.date".toList [.int (dyear d), .int (dmonth d), .int (dday d)]
  | .datetime t => .call "datetime.datetime".toList (.int (dyear (dtDate t)) :: (pyDateTimeArgs t).map .int)

theorem parses_until (u : Until) : Parses (pyUntil u).toList (untilExpr u) := by
  cases u with
  | date d => exact parses_date d
  | datetime t => exact parses_datetime t

/-- The expression written for an optional value. -/
def optExpr {α : Type} (g : α → PyExpr) : Option α → PyExpr
  | none => .name "None".toList
  | some x => g x

theorem parses_option {α : Type} {f : α → String} {g : α → PyExpr} (h : ∀ x, Parses (f x).toList (g x)) (o : Option α) :
    Parses (pyOption f o).toList (optExpr g o) := by
  cases o with
  | none => exact parses_none
  | some x => exact h x

/-- The word written for `monthly`. -/
def monthlyWord : MonthlyKind → String
  | .monthday => "monthday"
  | .weekday => "weekday"
  | .lastweekday => "lastweekday"

theorem parses_monthly (m : MonthlyKind) : Parses (pyMonthly m).toList (.str (monthlyWord m).toList) := by
  have hm : (pyMonthly m).toList = '\'' :: (monthlyWord m).toList ++ ['\''] := by
    cases m <;> simp [pyMonthly, monthlyWord]
  rw [hm]
  apply parses_str
  cases m <;> simp [monthlyWord]

/-! ### Values -/

theorem mkDate_date {d : Int} (h : 1 ≤ d ∧ d ≤ MAXORD) : mkDate (dyear d) (dmonth d) (dday d) = .ok d := by
  obtain ⟨h1, h2⟩ := (dateInRange_iff_year d).1 (by
    unfold dateInRange
    simp only [Bool.and_eq_true, decide_eq_true_eq]
    exact h)
  rw [mkDate_ok (validYmd_date d) h1 h2, ymd2ord_date]

theorem evalDate_date {d : Int} (h : 1 ≤ d ∧ d ≤ MAXORD) :
    evalDate (.call "datetime.date".toList [.int (dyear d), .int (dmonth d), .int (dday d)]) = some d := by
  rw [evalDate, if_pos rfl, mkDate_date h]
  rfl

theorem evalTime_time (t : Int) :
    evalTime (([dtTime t / 3600000000, dtTime t / 60000000 % 60] ++
      (if dtTime t % 1000000 ≠ 0 then [dtTime t / 1000000 % 60, dtTime t % 1000000]
       else if dtTime t / 1000000 % 60 ≠ 0 then [dtTime t / 1000000 % 60] else [])).map .int) = some (dtTime t) := by
  have h1 : 0 ≤ dtTime t := by unfold dtTime DAY; omega
  have h2 : dtTime t < 86400000000 := by unfold dtTime DAY; omega
  generalize dtTime t = x at *
  by_cases hu : x % 1000000 = 0
  · by_cases hs : x / 1000000 % 60 = 0
    · rw [if_neg (by omega), if_neg (by omega)]
      show timeOf _ _ 0 0 = _
      unfold timeOf
      rw [if_pos (by omega)]
      congr 1; omega
    · rw [if_neg (by omega), if_pos hs]
      show timeOf _ _ _ 0 = _
      unfold timeOf
      rw [if_pos (by omega)]
      congr 1; omega
  · rw [if_pos hu]
    show timeOf _ _ _ _ = _
    unfold timeOf
    rw [if_pos (by omega)]
    congr 1; omega

theorem evalUntil_until {u : Until} (hd : ∀ d, u = .date d → 1 ≤ d ∧ d ≤ MAXORD) (ht : ∀ t, u = .datetime t → dtInRange t = true) :
    evalUntil (untilExpr u) = some (some u) := by
  cases u with
  | date d =>
    unfold untilExpr evalUntil
    simp only []
    rw [evalDate_date (hd d rfl)]
  | datetime t =>
    have hr := ht t rfl
    have hv : evalDateTime (untilExpr (.datetime t)) = some t := by
      unfold untilExpr pyDateTimeArgs
      simp only [List.cons_append, List.nil_append, List.map_cons]
      rw [evalDateTime, if_pos rfl, mkDate_date (by
        unfold dtInRange at hr
        simp only [Bool.and_eq_true, decide_eq_true_eq] at hr
        unfold dtDate
        rw [show DAY = 86400000000 from rfl] at *
        omega)]
      have := evalTime_time t
      simp only [List.cons_append, List.nil_append, List.map_cons] at this
      rw [this]
      show some (dtDate t * DAY + dtTime t) = some t
      congr 1
      unfold dtDate dtTime
      rw [show DAY = 86400000000 from rfl]
      omega
    have hn : evalDate (untilExpr (.datetime t)) = none := by
      unfold untilExpr pyDateTimeArgs
      simp only [List.cons_append, List.nil_append, List.map_cons]
      rfl
    have he : ∀ f l, evalUntil (.call f l) = match evalDate (.call f l) with
        | some d => some (some (.date d))
        | none => (evalDateTime (.call f l)).map fun t => some (.datetime t) := fun _ _ => rfl
    unfold untilExpr at hv hn ⊢
    simp only [] at hv hn ⊢
    rw [he, hn, hv]
    rfl

theorem evalDates_dates {l : List Date} (h : ∀ d ∈ l, 1 ≤ d ∧ d ≤ MAXORD) :
    evalDates (.tuple (l.map fun d => .call "datetime.date".toList [.int (dyear d), .int (dmonth d), .int (dday d)])) = some l := by
  show List.mapM evalDate _ = _
  induction l with
  | nil => rfl
  | cons d l ih =>
    rw [List.map_cons, List.mapM_cons, evalDate_date (h d (List.mem_cons_self ..)),
      ih (fun x hx => h x (List.mem_cons_of_mem _ hx))]
    rfl

theorem evalInts_ints (l : List Int) : evalInts (.tuple (l.map .int)) = some l := by
  show List.mapM evalInt _ = _
  induction l with
  | nil => rfl
  | cons d l ih =>
    rw [List.map_cons, List.mapM_cons, ih]
    rfl

end CalCore
