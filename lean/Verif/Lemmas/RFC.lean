import Verif.Spec.RFC
import Verif.Props.ICal
import Verif.Lemmas.Algebra
/- Reading the texts of rules back, and the dates they stand for. -/
namespace CalCore
open Spec

/-! ### numbers -/

/-- The value of digits. -/
def digitsVal (l : List Char) : Nat := l.foldl (fun n c => 10 * n + (c.toNat - 48)) 0

theorem digitsVal_append (l : List Char) (c : Char) : digitsVal (l ++ [c]) = 10 * digitsVal l + (c.toNat - 48) := by
  unfold digitsVal; rw [List.foldl_append]; rfl

theorem digitChar_val {n : Nat} (h : n < 10) : (Nat.digitChar n).toNat - 48 = n := by
  have : ∀ n < 10, (Nat.digitChar n).toNat - 48 = n := by decide
  exact this n h

theorem digitsVal_digits (k n : Nat) : digitsVal (digits k n) = n % 10 ^ k := by
  induction k generalizing n with
  | zero => rw [Nat.pow_zero, Nat.mod_one]; rfl
  | succ k ih =>
    rw [digits_succ, digitsVal_append, ih, digitChar_val (Nat.mod_lt _ (by decide)), Nat.pow_succ, Nat.mul_comm (10 ^ k) 10,
      Nat.mod_mul]
    omega

theorem digitsVal_toDigits (n : Nat) : digitsVal (Nat.toDigits 10 n) = n := by
  induction n using Nat.strongRecOn with
  | _ n ih =>
    by_cases h : n < 10
    · rw [Nat.toDigits_of_lt_base h]
      have := digitsVal_append [] (Nat.digitChar n)
      rw [List.nil_append] at this
      rw [this, digitChar_val h]
      simp [digitsVal]
    · rw [Nat.toDigits_of_base_le (by omega) (by omega), digitsVal_append, ih (n / 10) (by omega),
        digitChar_val (Nat.mod_lt _ (by decide))]
      omega

theorem readNat_some {l : List Char} (h1 : l ≠ []) (h2 : ∀ c ∈ l, c.isDigit = true) : readNat l = some (digitsVal l) := by
  unfold readNat
  rw [if_pos ⟨h1, List.all_eq_true.2 h2⟩]
  rfl

theorem readNat_digits {k n : Nat} (hk : 0 < k) (hn : n < 10 ^ k) : readNat (digits k n) = some n := by
  rw [readNat_some, digitsVal_digits, Nat.mod_eq_of_lt hn]
  · intro h
    have := digits_length k n
    rw [h] at this
    simp at this
    omega
  · intro c hc; exact digits_chars _ _ hc

theorem toDigits_ne_nil (n : Nat) : Nat.toDigits 10 n ≠ [] := by
  by_cases h : n < 10
  · rw [Nat.toDigits_of_lt_base h]; simp
  · rw [Nat.toDigits_of_base_le (by omega) (by omega)]; simp

theorem readNat_toDigits (n : Nat) : readNat (Nat.toDigits 10 n) = some n := by
  rw [readNat_some (toDigits_ne_nil n), digitsVal_toDigits]
  intro c hc
  exact Nat.isDigit_of_mem_toDigits (by decide) (by decide) hc

theorem int_text_nonneg {n : Int} (h : 0 ≤ n) : (toString n : String).toList = Nat.toDigits 10 n.toNat := by
  obtain ⟨m, rfl⟩ : ∃ m : Nat, n = m := ⟨n.toNat, by omega⟩
  rw [Int.toNat_natCast, ← Nat.toList_repr]
  rfl

/-- A nonnegative number is read back. -/
theorem readNat_int {n : Int} (h : 0 ≤ n) : readNat (toString n : String).toList = some n.toNat := by
  rw [int_text_nonneg h, readNat_toDigits]

theorem readInt_nonneg {n : Int} (h : 0 ≤ n) : readInt (toString n : String).toList = some n := by
  have h1 := readNat_int h
  have hd : ∀ c l, c.isDigit = false → (toString n : String).toList ≠ c :: l := by
    intro c l hc hl
    rw [int_text_nonneg h] at hl
    have : c ∈ Nat.toDigits 10 n.toNat := by rw [hl]; simp
    have := Nat.isDigit_of_mem_toDigits (by decide) (by decide) this
    rw [hc] at this; cases this
  unfold readInt
  split
  · rename_i l hl; exact absurd hl (hd _ l (by decide))
  · rename_i l hl; exact absurd hl (hd _ l (by decide))
  · rw [h1, Option.map_some, Int.toNat_of_nonneg h]

/-! ### dates -/

theorem readDate_icalDate {d : Int} {s : String} (hr : dateInRange d = true) (h : icalDate d = .ok s) :
    readDate s.toList = some d := by
  have h1 := (dateInRange_iff_year d).1 hr
  obtain ⟨h2, h2', h3, h3'⟩ := validYmd_date d
  have h4 := daysInMonth_pos (dyear d) (dmonth d)
  rw [((icalDate_ok hr).1 h).2]
  unfold readDate
  have e4 : (digits 4 (dyear d).toNat).length = 4 := digits_length _ _
  have e2 : (digits 2 (dmonth d).toNat).length = 2 := digits_length _ _
  have e2' : (digits 2 (dday d).toNat).length = 2 := digits_length _ _
  generalize ha : digits 4 (dyear d).toNat = a at *
  generalize hb : digits 2 (dmonth d).toNat = b at *
  generalize hc : digits 2 (dday d).toNat = c at *
  have t1 : (a ++ b ++ c).take 4 = a := by rw [List.append_assoc, ← e4, List.take_left]
  have t2 : ((a ++ b ++ c).drop 4).take 2 = b := by
    rw [List.append_assoc, ← e4, List.drop_left, ← e2, List.take_left]
  have t3 : (a ++ b ++ c).drop 6 = c := by
    rw [show 6 = (a ++ b).length by rw [List.length_append, e4, e2], List.drop_left]
  rw [if_pos (by simp only [List.length_append]; omega), t1, t2, t3, ← ha, ← hb, ← hc,
    readNat_digits (by omega) (by omega), readNat_digits (by omega) (by omega), readNat_digits (by omega) (by omega)]
  simp only [Option.bind_some]
  rw [show (((dyear d).toNat : Nat) : Int) = dyear d by omega, show (((dmonth d).toNat : Nat) : Int) = dmonth d by omega,
    show (((dday d).toNat : Nat) : Int) = dday d by omega]
  exact (dateOf_eq_some _ _ _ _).2 ⟨hr, rfl, rfl, rfl⟩

/-- Two texts joined by a character that is in neither. -/
theorem splitOn_two {x : Char} {a b : List Char} (ha : x ∉ a) (hb : x ∉ b) : (a ++ x :: b).splitOn x = [a, b] := by
  have := List.splitOn_intercalate x (ls := [a, b]) (by
    intro l hl
    simp only [List.mem_cons, List.not_mem_nil, or_false] at hl
    rcases hl with rfl | rfl <;> assumption) (by simp)
  rw [← this]
  congr 1
  simp [List.intercalate_cons_cons]

theorem readDateTime_midnight {d : Int} {t : String} (hr : dateInRange d = true) (h : icalDate d = .ok t) :
    readDateTime (t.toList ++ "T000000".toList) = some (d * DAY) := by
  unfold readDateTime
  rw [show "T000000".toList = 'T' :: "000000".toList from rfl, splitOn_two]
  · simp only []
    rw [if_pos (by decide), readDate_icalDate hr h]
    rw [show readNat (("000000".toList).take 2) = some 0 by decide, show readNat ((("000000".toList).drop 2).take 2) = some 0 by decide,
      show readNat (("000000".toList).drop 4) = some 0 by decide]
    simp only [Option.bind_some]
    rw [if_pos (by decide)]
    unfold DAY
    congr 1
    omega
  · intro hm
    exact absurd (icalDate_chars hr h hm) (by decide)
  · decide

/-! ### weekdays -/

theorem readDay_name {w : Int} {n : String} (h : icalWeekday w = .ok n) {nr : List Char} {k : Int}
    (hk : (if nr = [] then some 0 else readInt nr) = some k) : readDay (nr ++ n.toList) = some (k, w) := by
  have key : n.toList.length = 2 ∧ n.toList ∈ dayNames ∧ ((dayNames.idxOf n.toList : Nat) : Int) = w := by
    rcases icalWeekday_ok h with ⟨rfl, rfl⟩ | ⟨rfl, rfl⟩ | ⟨rfl, rfl⟩ | ⟨rfl, rfl⟩ | ⟨rfl, rfl⟩ | ⟨rfl, rfl⟩ | ⟨rfl, rfl⟩ <;>
      decide
  obtain ⟨h1, h2, h3⟩ := key
  have h4 : (nr ++ n.toList).length - 2 = nr.length := by rw [List.length_append, h1]; omega
  unfold readDay
  simp only []
  rw [h4, List.drop_left, List.take_left, if_pos h2, hk, h3]
  rfl

theorem optMapM_cons {α β : Type} (f : α → Option β) (a : α) (l : List α) :
    (a :: l).mapM f = (f a).bind fun b => (l.mapM f).map fun bs => b :: bs := by
  rw [List.mapM_cons]
  cases f a with
  | none => rfl
  | some b =>
    cases hl : l.mapM f with
    | none => simp
    | some bs => simp

theorem optMapM_some {α β γ : Type} {f : α → Res β} {g : β → Option γ} {c : α → γ} {l : List α} {r : List β}
    (h : l.mapM f = .ok r) (hg : ∀ a ∈ l, ∀ b, f a = .ok b → g b = some (c a)) : r.mapM g = some (l.map c) := by
  induction l generalizing r with
  | nil =>
    have : r = [] := by injection h with h; exact h.symm
    subst this; rfl
  | cons a l ih =>
    obtain ⟨b, bs, h1, h2, rfl⟩ := mapM_ok_cons.1 h
    rw [optMapM_cons, hg a (by simp) b h1, ih h2 (fun a ha => hg a (by simp [ha]))]
    rfl

/-- A list of texts, joined with commas and split again. -/
theorem splitOn_join {x : Char} {xs : String} (hx : xs.toList = [x]) {l : List String} (h1 : l ≠ [])
    (h3 : ∀ s ∈ l, x ∉ s.toList) : (String.intercalate xs l).toList.splitOn x = l.map String.toList := by
  rw [String.toList_intercalate, hx]
  refine List.splitOn_intercalate x ?_ (by simpa using h1)
  intro s hs
  rw [List.mem_map] at hs
  obtain ⟨s', h, rfl⟩ := hs
  exact h3 s' h

theorem optMapM_map {α β γ : Type} (f : α → β) (g : β → Option γ) (l : List α) :
    (l.map f).mapM g = l.mapM (fun a => g (f a)) := by
  induction l with
  | nil => rfl
  | cons a l ih => rw [List.map_cons, optMapM_cons, optMapM_cons, ih]

/-! ### the parts -/

theorem readPart_eq (R : Recur) {key value : List Char} (h1 : '=' ∉ key) (h2 : '=' ∉ value) :
    readPart R (key ++ '=' :: value) =
      if key = "INTERVAL".toList then (readNat value).map fun n : Nat => { R with interval := n }
      else if key = "COUNT".toList then (readNat value).map fun n : Nat => { R with count := some (n : Int) }
      else if key = "UNTIL".toList then (readDateTime value).map fun t => { R with untl := some t }
      else if key = "BYDAY".toList then ((value.splitOn ',').mapM readDay).map fun l => { R with byday := l }
      else if key = "BYMONTHDAY".toList then ((value.splitOn ',').mapM readInt).map fun l => { R with bymonthday := l }
      else none := by
  unfold readPart
  rw [splitOn_two h1 h2]

theorem int_no_equals (n : Int) : '=' ∉ (toString n : String).toList := by
  intro h
  rcases int_chars n h with h | h
  · exact absurd h (by decide)
  · exact absurd h (by decide)

theorem readPart_interval (R : Recur) {n : Int} (h : 0 ≤ n) :
    readPart R ('I' :: ("NTERVAL=".toList ++ (toString n).toList)) = some { R with interval := n } := by
  rw [show ('I' :: ("NTERVAL=".toList ++ (toString n).toList) : List Char) = "INTERVAL".toList ++ '=' :: (toString n).toList from rfl,
    readPart_eq R (by decide) (int_no_equals n), if_pos rfl, readNat_int h, Option.map_some, Int.toNat_of_nonneg h]

theorem readPart_count (R : Recur) {n : Int} (h : 0 ≤ n) :
    readPart R ('C' :: ("OUNT=".toList ++ (toString n).toList)) = some { R with count := some n } := by
  rw [show ('C' :: ("OUNT=".toList ++ (toString n).toList) : List Char) = "COUNT".toList ++ '=' :: (toString n).toList from rfl,
    readPart_eq R (by decide) (int_no_equals n), if_neg (by decide), if_pos rfl, readNat_int h, Option.map_some,
    Int.toNat_of_nonneg h]

theorem readPart_until (R : Recur) {d : Int} {t : String} (hr : dateInRange d = true) (h : icalDate d = .ok t) :
    readPart R ('U' :: ("NTIL=".toList ++ (t.toList ++ "T000000".toList))) = some { R with untl := some (d * DAY) } := by
  have : '=' ∉ t.toList ++ "T000000".toList := by
    intro hm
    rw [List.mem_append] at hm
    rcases hm with hm | hm
    · exact absurd (icalDate_chars hr h hm) (by decide)
    · exact absurd hm (by decide)
  rw [show ('U' :: ("NTIL=".toList ++ (t.toList ++ "T000000".toList)) : List Char) =
      "UNTIL".toList ++ '=' :: (t.toList ++ "T000000".toList) from rfl,
    readPart_eq R (by decide) this, if_neg (by decide), if_neg (by decide), if_pos rfl, readDateTime_midnight hr h,
    Option.map_some]

theorem icalWeekday_no_equals {w : Int} {s : String} (h : icalWeekday w = .ok s) : '=' ∉ s.toList := by
  rcases icalWeekday_ok h with ⟨rfl, rfl⟩ | ⟨rfl, rfl⟩ | ⟨rfl, rfl⟩ | ⟨rfl, rfl⟩ | ⟨rfl, rfl⟩ | ⟨rfl, rfl⟩ | ⟨rfl, rfl⟩ <;> decide

theorem readPart_byday (R : Recur) {value : List Char} (h : '=' ∉ value) :
    readPart R ('B' :: ("YDAY=".toList ++ value)) = ((value.splitOn ',').mapM readDay).map fun l => { R with byday := l } := by
  rw [show ('B' :: ("YDAY=".toList ++ value) : List Char) = "BYDAY".toList ++ '=' :: value from rfl,
    readPart_eq R (by decide) h, if_neg (by decide), if_neg (by decide), if_neg (by decide), if_pos rfl]

theorem splitOn_one {x : Char} {l : List Char} (h : x ∉ l) : l.splitOn x = [l] := by
  have := List.splitOn_intercalate x (ls := [l]) (by simpa using h) (by simp)
  rwa [List.intercalate_singleton] at this

theorem readPart_weekdays (R : Recur) {wds : List Int} {names : List String} (h1 : wds ≠ [])
    (h2 : wds.mapM icalWeekday = .ok names) :
    readPart R ('B' :: ("YDAY=".toList ++ (String.intercalate "," names).toList)) =
      some { R with byday := wds.map fun w => (0, w) } := by
  rw [readPart_byday, splitOn_join rfl (mapM_ne_nil h2 h1), optMapM_map,
    optMapM_some (g := fun s : String => readDay s.toList) (c := fun w => (0, w)) h2]
  · rfl
  · intro w _ b hb
    have := readDay_name hb (nr := []) (k := 0) rfl
    rwa [List.nil_append] at this
  · intro s hs
    obtain ⟨w, _, hw⟩ := mapM_mem h2 s hs
    exact (icalWeekday_chars hw).1
  · intro hm
    rw [String.toList_intercalate] at hm
    rcases mem_intercalate (x := ',') hm with h | ⟨l, hl, h⟩
    · exact absurd h (by decide)
    · rw [List.mem_map] at hl
      obtain ⟨s, hs, rfl⟩ := hl
      obtain ⟨w, _, hw⟩ := mapM_mem h2 s hs
      exact icalWeekday_no_equals hw h

theorem readPart_ordinal (R : Recur) {w k : Int} {n : String} (h : icalWeekday w = .ok n)
    (hk : readInt (toString k : String).toList = some k) :
    readPart R ('B' :: ("YDAY=".toList ++ ((toString k).toList ++ n.toList))) = some { R with byday := [(k, w)] } := by
  have hc : ',' ∉ (toString k : String).toList ++ n.toList := by
    intro hm
    rw [List.mem_append] at hm
    rcases hm with hm | hm
    · rcases int_chars k hm with h | h <;> exact absurd h (by decide)
    · exact (icalWeekday_chars h).1 hm
  have he : '=' ∉ (toString k : String).toList ++ n.toList := by
    intro hm
    rw [List.mem_append] at hm
    rcases hm with hm | hm
    · exact int_no_equals k hm
    · exact icalWeekday_no_equals h hm
  have hne : (toString k : String).toList ≠ [] := by
    intro h0; rw [h0] at hk; exact absurd hk (by simp [readInt, readNat])
  rw [readPart_byday R he, splitOn_one hc, optMapM_cons, readDay_name h (by rw [if_neg hne]; exact hk)]
  rfl

theorem readPart_monthday (R : Recur) {n : Int} (h : 0 ≤ n) :
    readPart R ('B' :: ("YMONTHDAY=".toList ++ (toString n).toList)) = some { R with bymonthday := [n] } := by
  have hc : ',' ∉ (toString n : String).toList := by
    intro hm
    rcases int_chars n hm with h | h <;> exact absurd h (by decide)
  rw [show ('B' :: ("YMONTHDAY=".toList ++ (toString n).toList) : List Char) = "BYMONTHDAY".toList ++ '=' :: (toString n).toList from rfl,
    readPart_eq R (by decide) (int_no_equals n), if_neg (by decide), if_neg (by decide), if_neg (by decide), if_neg (by decide),
    if_pos rfl, splitOn_one hc, optMapM_cons, readInt_nonneg h]
  rfl

/-- The `until` of a rule as a point in time. -/
def untilTime : Option Until → Option Int
  | some (.date d) => some (d * DAY)
  | _ => none

theorem readParts_bound {r : Rule} {B : List (List Char)} (h : BoundField r B) (hc : ∀ c, r.count = some c → 0 ≤ c)
    (R : Recur) (h1 : R.count = none) (h2 : R.untl = none) :
    B.foldlM readPart R = some { R with count := r.count, untl := untilTime r.untl } := by
  cases h with
  | none k1 k2 =>
    rw [k1, k2, List.foldlM_nil]
    cases R; simp only at h1 h2; subst h1 h2; rfl
  | count c k1 k2 =>
    rw [List.foldlM_cons, readPart_count R (hc c k1), k1, k2]
    cases R; simp only at h1 h2; subst h1 h2; rfl
  | untl d t k1 k2 k3 k4 =>
    rw [List.foldlM_cons, readPart_until R k3 k4, k1, k2]
    cases R; simp only at h1 h2; subst h1 h2; rfl

/-- The weekdays a rule class selects, with ordinals. -/
def kindByday (d : Int) : RuleKind → List (Int × Int)
  | .weekly wds => wds.map fun w => (0, w)
  | .monthly .weekday => [((dday d - 1) / 7 + 1, weekday d)]
  | .monthly .lastweekday => [(-1, weekday d)]
  | _ => []

/-- The days of the month a rule class selects. -/
def kindBymonthday (d : Int) : RuleKind → List Int
  | .monthly .monthday => [dday d]
  | _ => []

theorem readParts_days {d : Int} {k : RuleKind} {E : List (List Char)} (h : DayField d k E) (R : Recur)
    (h1 : R.byday = []) (h2 : R.bymonthday = []) :
    E.foldlM readPart R = some { R with byday := kindByday d k, bymonthday := kindBymonthday d k } := by
  have hd : 1 ≤ dday d := (validYmd_date d).2.2.1
  have key : ∀ (k : RuleKind), kindByday d k = [] → kindBymonthday d k = [] →
      ([] : List (List Char)).foldlM readPart R = some { R with byday := kindByday d k, bymonthday := kindBymonthday d k } := by
    intro k e1 e2
    rw [List.foldlM_nil, e1, e2]
    cases R; simp only at h1 h2; subst h1 h2; rfl
  cases h with
  | daily => exact key _ rfl rfl
  | yearly => exact key _ rfl rfl
  | weekly => exact key _ rfl rfl
  | weekdays wds names k1 k2 =>
    rw [List.foldlM_cons, readPart_weekdays R k1 k2]
    cases R; simp only at h1 h2; subst h1 h2; rfl
  | monthday =>
    rw [List.foldlM_cons, readPart_monthday R (by omega)]
    cases R; simp only at h1 h2; subst h1 h2; rfl
  | weekday n k1 =>
    rw [List.foldlM_cons, readPart_ordinal R k1 (readInt_nonneg (by omega))]
    cases R; simp only at h1 h2; subst h1 h2; rfl
  | lastweekday n k1 =>
    rw [List.foldlM_cons, readPart_ordinal R k1 (by decide +kernel)]
    cases R; simp only at h1 h2; subst h1 h2; rfl

/-- FREQ of a rule class. -/
def kindFreq : RuleKind → Option RFreq
  | .daily => some .daily
  | .weekly _ => some .weekly
  | .monthly _ => some .monthly
  | .yearly => some .yearly
  | _ => none

theorem readFreq_kind {k : RuleKind} {f : String} (h : k.icalFreq = some f) :
    ∃ F, kindFreq k = some F ∧ readFreq ("FREQ=".toList ++ f.toList) = some F := by
  cases k with
  | basic => cases h
  | no => cases h
  | daily => injection h with h; subst h; exact ⟨_, rfl, by decide⟩
  | weekly => injection h with h; subst h; exact ⟨_, rfl, by decide⟩
  | monthly => injection h with h; subst h; exact ⟨_, rfl, by decide⟩
  | yearly => injection h with h; subst h; exact ⟨_, rfl, by decide⟩

theorem intercalate_head {x : Char} (a b : List Char) (ls : List (List Char)) :
    [x].intercalate ((a ++ b) :: ls) = a ++ [x].intercalate (b :: ls) := by
  cases ls with
  | nil => simp
  | cons c ls => rw [List.intercalate_cons_cons, List.intercalate_cons_cons]; simp

/-- What the text of a rule is read as. -/
theorem readText_rule {r : Rule} (hr : Tellable r) (hi : 0 ≤ r.interval) (hc : ∀ c, r.count = some c → 0 ≤ c) {s : Int}
    {T : List String} (h : r.icalRepresentation s = .ok T) :
    ∃ F, kindFreq r.kind = some F ∧ readText T = some
      { freq := F, interval := r.interval, count := r.count, untl := untilTime r.untl
        byday := kindByday (dtDate s) r.kind, bymonthday := kindBymonthday (dtDate s) r.kind, exdates := r.exceptions } := by
  obtain ⟨freq, B, E, line, hf, hB, hE, hline, hT⟩ := icalRepresentation_fields hr h
  obtain ⟨F, hF, hFr⟩ := readFreq_kind hf
  refine ⟨F, hF, ?_⟩
  have hR : readRRule line.toList = some { freq := F, interval := r.interval, count := r.count, untl := untilTime r.untl,
                                             byday := kindByday (dtDate s) r.kind,
                                             bymonthday := kindBymonthday (dtDate s) r.kind } := by
    have hsplit := List.splitOn_intercalate ';'
      (ls := ("FREQ=".toList ++ freq.toList) :: ((B ++ E) ++ ['I' :: ("NTERVAL=".toList ++ (toString r.interval).toList)]))
      (by
        intro l hl
        simp only [List.mem_append, List.mem_cons, List.not_mem_nil, or_false] at hl
        rcases hl with rfl | (hl | hl) | rfl
        · rw [List.mem_append]
          rintro (hm | hm)
          · revert hm; decide
          · exact freq_chars hf hm
        · exact boundField_chars hB l hl
        · exact dayField_chars hE l hl
        · intro hm
          rw [List.mem_cons, List.mem_append] at hm
          rcases hm with hm | hm | hm
          · revert hm; decide
          · revert hm; decide
          · exact (not_semicolon (int_chars _ hm)).1 rfl) (by simp)
    have hl2 : line.toList = "RRULE:".toList ++ [';'].intercalate
        (("FREQ=".toList ++ freq.toList) :: ((B ++ E) ++ ['I' :: ("NTERVAL=".toList ++ (toString r.interval).toList)])) := by
      rw [← intercalate_head, hline]
      rfl
    unfold readRRule
    rw [hl2, if_pos (List.prefix_append _ _), show (6 : Nat) = "RRULE:".toList.length from rfl, List.drop_left, hsplit]
    simp only [hFr, Option.bind_some]
    rw [List.foldlM_append, List.foldlM_append, readParts_bound hB hc _ rfl rfl]
    simp only [Option.bind_eq_bind, Option.bind_some]
    rw [readParts_days hE _ rfl rfl]
    simp only [Option.bind_some]
    rw [List.foldlM_cons, readPart_interval _ hi]
    rfl
  rcases hT with ⟨h1, rfl⟩ | ⟨h1, dates, h2, rfl⟩
  · unfold readText
    simp only []
    rw [hR, h1]
  · unfold readText readExdates
    simp only []
    rw [hR, String.toList_append, if_pos (List.prefix_append _ _), show (18 : Nat) = "EXDATE;VALUE=DATE:".toList.length from rfl,
      List.drop_left, splitOn_join rfl (mapM_ne_nil h2 h1)]
    · rw [optMapM_map, optMapM_some (g := fun s : String => readDate s.toList) (c := id) h2]
      · rw [List.map_id]; rfl
      · intro d hd b hb; exact readDate_icalDate (hr.exceptions d hd) hb
    · intro x hx hm
      obtain ⟨d, hd, hdx⟩ := mapM_mem h2 x hx
      exact (not_semicolon (Or.inl (icalDate_chars (hr.exceptions d hd) hdx hm))).2 rfl

end CalCore
