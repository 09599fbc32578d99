import Verif.Lemmas.SourceProg
import Verif.Lemmas.LangSame
import Verif.Lemmas.Algebra
import Verif.Lemmas.Util
import Verif.Props.Dates
import Verif.Props.Rules
/- Properties C130-C132: util.py, isoweek.py and recurrent.py as they are written.  The statements are about running
the syntax trees of the source text (`Verif/Source`), which tools/translate.py made from it. -/
namespace CalCore
open Spec Lang

/-! ### C130 -/

/-- C130: `removeOverlaps` as written returns a list that covers exactly the instants its argument covers, with
consecutive tuples apart and starts in order; well-formed arguments give well-formed results. -/
theorem C130_removeOverlaps (l : List (Int × Int)) :
    ∃ out, Gives "removeOverlaps" [.list (l.map dtPair)] (.ok (.list (out.map dtPair))) ∧
      (∀ t, Covered out t ↔ Covered l t) ∧ Separated out ∧
      ((∀ p ∈ l, p.1 ≤ p.2) → ∀ p ∈ out, p.1 ≤ p.2) ∧ ((∀ p ∈ l, p.1 < p.2) → ∀ p ∈ out, p.1 < p.2) := by
  refine ⟨removeOverlaps l, gives_of 0 1 (fun W n _ => ?_), removeOverlaps_covered l, removeOverlaps_separated l,
    removeOverlaps_wf l, removeOverlaps_wf_strict l⟩
  rw [call_eq (d := Source.removeOverlaps) rfl]
  obtain ⟨s, h, _⟩ := removeOverlaps_run (Source.prog.ctx W n) W l
  rw [FunDef.call, h]
  rfl

/-- C130: afterwards the list that was passed is sorted: it holds the same tuples, by start and then by end.  (`run`
gives the variables at the end of the call; the parameter `sequence` is never assigned, so it is still the list that
was passed.) -/
theorem C130_sorts_argument (l : List (Int × Int)) :
    ∃ sorted : List (Int × Int), sorted.Perm l ∧ sorted.Pairwise (fun p q => p.1 < q.1 ∨ p.1 = q.1 ∧ p.2 ≤ q.2) ∧
      ∀ W n, ∃ s v, Source.removeOverlaps.run (Source.prog.ctx W n) W [.list (l.map dtPair)] [] = .ok (s, .ret v) ∧
        s.env.get "sequence" = .ok (.list (sorted.map dtPair)) := by
  refine ⟨sortLex l, sortLex_perm l, (sortLex_sorted l).imp (fun {p q} h => ?_), fun W n => ?_⟩
  · rw [lexLe_iff] at h
    omega
  · obtain ⟨s, h, h'⟩ := removeOverlaps_run (Source.prog.ctx W n) W l
    exact ⟨s, _, h, h'⟩

/-- C130: `getWeeksInYear` as written gives the number of weeks between the first Monday of ISO year `year` and that
of the next, 52 or 53. -/
theorem C130_getWeeksInYear (year : Int) (h1 : 1 ≤ year) (h2 : year ≤ 9999) :
    ∃ n, Gives "getWeeksInYear" [.int year] (.ok (.int n)) ∧ (n = 52 ∨ n = 53) ∧
      ∀ m m', IsWeek1Monday year m → IsWeek1Monday (year + 1) m' → m' - m = 7 * n := by
  obtain ⟨n, hn, h⟩ := C05_getWeeksInYear year h1 h2
  refine ⟨n, gives_of 0 1 (fun W k _ => ?_), h⟩
  rw [call_eq (d := Source.getWeeksInYear) rfl, getWeeksInYear_call, hn]
  rfl

/-- C130: `weeknr2datetime` as written gives midnight of the day with this ISO year, week and weekday, and raises
OverflowError if that day is outside Python's calendar; without weekday it gives the Monday. -/
theorem C130_weeknr2datetime (year week wd n d : Int) (h1 : 1 ≤ year) (h2 : year ≤ 9999)
    (hn : Gives "getWeeksInYear" [.int year] (.ok (.int n))) (hw : 1 ≤ week ∧ week ≤ n) (hd : 1 ≤ wd ∧ wd ≤ 7)
    (h : IsIsoDay year week wd d) :
    (dateInRange d = true →
      Gives "weeknr2datetime" [.int year, .int week, .int wd] (.ok (.datetime (combine d 0))) ∧
      (wd = 1 → Gives "weeknr2datetime" [.int year, .int week] (.ok (.datetime (combine d 0))))) ∧
    (dateInRange d = false →
      Gives "weeknr2datetime" [.int year, .int week, .int wd] (.error (.py .OverflowError)) ∧
      (wd = 1 → Gives "weeknr2datetime" [.int year, .int week] (.error (.py .OverflowError)))) := by
  have hn' : getWeeksInYear year = .ok n := by
    obtain ⟨N, hN⟩ := hn
    have := hN (N + 1) (by omega) (N + 1) (by omega)
    rw [call_eq (d := Source.getWeeksInYear) rfl, getWeeksInYear_call] at this
    cases hg : getWeeksInYear year with
    | error e => rw [hg, toM_error] at this; cases this
    | ok m =>
      rw [hg, toM_ok] at this
      injection this with this; injection this with this
      rw [this]
  obtain ⟨ha, hb, hc⟩ := C04_weeknr2datetime year week wd n h1 h2 hn' hw hd
  have key : weeknr2datetime year week (some wd) =
      if dateInRange d = true then .ok (combine d 0) else .error (.py .OverflowError) := by
    cases hr : weeknr2datetime year week (some wd) with
    | ok t =>
      obtain ⟨_, ⟨m, hm, he⟩, h0⟩ := ha t hr
      obtain ⟨m', hm', he'⟩ := h
      have hmm := mondayOf_unique hm hm'
      have hdt : dtDate t = d := by omega
      have hin : dateInRange d = true := by
        rw [← hdt]
        have : dtInRange t = true := by
          unfold weeknr2datetime at hr
          obtain ⟨_, _, hr⟩ := bind_ok.1 hr
          simp only [] at hr
          split at hr <;>
          · obtain ⟨_, _, hr⟩ := bind_ok.1 hr
            obtain ⟨_, _, hr⟩ := bind_ok.1 hr
            obtain ⟨_, _, hr⟩ := bind_ok.1 hr
            rw [(dtAdd_ok.1 hr).2]
            exact (dtAdd_ok.1 hr).1
        rwa [dtInRange_date] at this
      rw [if_pos hin, ← hdt, ← h0, combine_dt]
    | error f =>
      obtain ⟨hf, hdr⟩ := hb f hr
      rw [if_neg (by rw [hdr d h]; simp), hf]
  have w1 : ∀ W k, Source.prog.call W (k + 1) "weeknr2datetime" [.int year, .int week, .int wd] []
      = toM .datetime (weeknr2datetime year week (some wd)) := fun W k => by
    rw [call_eq (d := Source.weeknr2datetime) rfl]
    exact weeknr2datetime_call _ _ year week (some wd)
  have w2 : wd = 1 → ∀ W k, Source.prog.call W (k + 1) "weeknr2datetime" [.int year, .int week] []
      = toM .datetime (weeknr2datetime year week (some wd)) := fun e W k => by
    rw [call_eq (d := Source.weeknr2datetime) rfl]
    subst e
    rw [← hc]
    exact weeknr2datetime_call _ _ year week none
  rw [key] at w1 w2
  constructor
  · intro hin
    rw [if_pos hin] at w1 w2
    exact ⟨gives_of 0 1 (fun W k _ => w1 W k), fun e => gives_of 0 1 (fun W k _ => w2 e W k)⟩
  · intro hin
    rw [if_neg (by rw [hin]; simp)] at w1 w2
    exact ⟨gives_of 0 1 (fun W k _ => w1 W k), fun e => gives_of 0 1 (fun W k _ => w2 e W k)⟩

/-- C130, concrete: five tuples, of which one is inverted; week 53 of 2026; the last days of ISO year 9999. -/
example : Source.prog.call 9 1 "removeOverlaps" [.list ([(5, 9), (1, 3), (2, 4), (9, 7), (1, 3)].map dtPair)] []
      = .ok (.list ([(1, 4), (5, 9)].map dtPair)) ∧
    Source.prog.call 9 1 "getWeeksInYear" [.int 2026] [] = .ok (.int 53) ∧
    Source.prog.call 9 1 "weeknr2datetime" [.int 2026, .int 53, .int 7] [] = .ok (.datetime (combine (ymd2ord 2027 1 3) 0)) ∧
    IsIsoDay 2026 53 7 (ymd2ord 2027 1 3) ∧
    Source.prog.call 9 1 "weeknr2datetime" [.int 9999, .int 52, .int 7] [] = .error (.py .OverflowError) ∧
    IsIsoDay 9999 52 7 (MAXORD + 2) ∧ dateInRange (MAXORD + 2) = false := by
  refine ⟨sameM_eq (by decide +kernel), sameM_eq (by decide +kernel), sameM_eq (by decide +kernel), ⟨ymd2ord 2025 12 29, by unfold IsWeek1Monday IsMondayOf; decide +kernel,
    by decide +kernel⟩, sameM_eq (by decide +kernel),
    ⟨ymd2ord 9999 1 4, by unfold IsWeek1Monday IsMondayOf; decide +kernel, by decide +kernel⟩, by decide +kernel⟩

/-! ### C131 -/

/-- C131: `weekspan` as written gives the number of weeks from the Monday of the first week to that of the second. -/
theorem C131_weekspan (a b : Int) (ha : dateInRange a = true) (hb : dateInRange b = true) :
    ∃ k, Gives "weekspan" [.date a, .date b] (.ok (.int k)) ∧
      ∀ m m', IsMondayOf m a → IsMondayOf m' b → m' - m = 7 * k := by
  obtain ⟨k, hk, h, _⟩ := C06_weekspan a b a ha hb ha
  refine ⟨k, gives_of 0 1 (fun W n _ => ?_), h⟩
  rw [call_eq (d := Source.weekspan) rfl, weekspan_call, hk]
  rfl

/-- C131: `monthindex` as written with an index from 1 to 4 gives the date of the month with this weekday that has
`index - 1` such dates before it. -/
theorem C131_monthindex_pos (y m i wd : Int) (hy : 1 ≤ y ∧ y ≤ 9999) (hm : 1 ≤ m ∧ m ≤ 12) (hw : 0 ≤ wd ∧ wd ≤ 6)
    (hi : 1 ≤ i ∧ i ≤ 4) :
    ∃ d, Gives "monthindex" [.int y, .int m, .int i, .int wd] (.ok (.date d)) ∧ dyear d = y ∧ dmonth d = m ∧
      weekday d = wd ∧ (countWeekday y m wd (dday d - 1).toNat : Int) = i - 1 := by
  obtain ⟨d, hd, h⟩ := C07_monthindex_pos y m i wd hy hm hw hi
  refine ⟨d, gives_of 0 1 (fun W n _ => ?_), h⟩
  rw [call_eq (d := Source.monthindex) rfl, monthindex_call, hd]
  rfl

/-- C131: with an index from -4 to -1 it gives the date that has `-index - 1` such dates after it, except in December
9999 (see `C131_monthindex_december_9999`). -/
theorem C131_monthindex_neg (y m i wd : Int) (hy : 1 ≤ y ∧ y ≤ 9999) (hm : 1 ≤ m ∧ m ≤ 12)
    (hlast : y ≠ 9999 ∨ m ≠ 12) (hw : 0 ≤ wd ∧ wd ≤ 6) (hi : -4 ≤ i ∧ i ≤ -1) :
    ∃ d, Gives "monthindex" [.int y, .int m, .int i, .int wd] (.ok (.date d)) ∧ dyear d = y ∧ dmonth d = m ∧
      weekday d = wd ∧
      (countWeekday y m wd (daysInMonth y m).toNat : Int) - countWeekday y m wd (dday d).toNat = -i - 1 := by
  obtain ⟨d, hd, h⟩ := C07_monthindex_neg_partial y m i wd hy hm hlast hw hi
  refine ⟨d, gives_of 0 1 (fun W n _ => ?_), h⟩
  rw [call_eq (d := Source.monthindex) rfl, monthindex_call, hd]
  rfl

/-- C131: in December 9999 a negative index raises ValueError. -/
theorem C131_monthindex_december_9999 (i wd : Int) (hi : i < 0) :
    Gives "monthindex" [.int 9999, .int 12, .int i, .int wd] (.error (.py .ValueError)) := by
  refine gives_of 0 1 (fun W n _ => ?_)
  rw [call_eq (d := Source.monthindex) rfl, monthindex_call, C07_monthindex_december_9999 i wd hi]
  rfl

/-- C131: the constructors of the daily, yearly, no-recurrence and basic class as written, called with a tuple or a list
of exceptions, make an object with these attributes if the interval is positive and not both count and until are given,
and raise ValueError otherwise. -/
theorem C131_new (k : RuleKind) (h1 : ∀ l, k ≠ .weekly l) (h2 : ∀ m, k ≠ .monthly m) (iv : Int) (count : Option Int)
    (u : Option Until) (exs : List Int) (x : Val) (hx : Seq x (exs.map .date)) :
    (1 ≤ iv ∧ (count = none ∨ u = none) →
      Makes k.className [.int iv, ofOption .int count, ofOption ofUntil u, x] (.ok (ofRule ⟨k, iv, count, u, exs⟩))) ∧
    (¬ (1 ≤ iv ∧ (count = none ∨ u = none)) →
      Makes k.className [.int iv, ofOption .int count, ofOption ofUntil u, x] (.error (.py .ValueError))) := by
  have hn := fun W n => new_plain W n k ⟨h1, h2⟩ iv count u exs x hx
  have hv : ValidRule ⟨k, iv, count, u, exs⟩ ↔ 1 ≤ iv ∧ (count = none ∨ u = none) :=
    ⟨fun h => ⟨h.1, h.2.1⟩, fun h => ⟨h.1, h.2, fun l hl => absurd hl (h1 l)⟩⟩
  constructor
  · intro h
    rw [(C19_new k iv count u exs).1 (hv.2 h)] at hn
    exact makes_of 0 2 (fun W n _ => hn W n)
  · intro h
    rw [(C19_new k iv count u exs).2 (fun h' => h (hv.1 h'))] at hn
    exact makes_of 0 2 (fun W n _ => hn W n)

/-- C131: the same for the weekly class, which also requires that the weekdays are from 0 to 6. -/
theorem C131_new_weekly (wds : List Int) (iv : Int) (count : Option Int) (u : Option Until) (exs : List Int) (x y : Val)
    (hx : Seq x (exs.map .date)) (hy : Seq y (wds.map .int)) :
    (1 ≤ iv ∧ (count = none ∨ u = none) ∧ (∀ w ∈ wds, 0 ≤ w ∧ w ≤ 6) →
      Makes "WeeklyRecurrenceRule" [.int iv, ofOption .int count, ofOption ofUntil u, x, y]
        (.ok (ofRule ⟨.weekly wds, iv, count, u, exs⟩))) ∧
    (¬ (1 ≤ iv ∧ (count = none ∨ u = none) ∧ ∀ w ∈ wds, 0 ≤ w ∧ w ≤ 6) →
      Makes "WeeklyRecurrenceRule" [.int iv, ofOption .int count, ofOption ofUntil u, x, y] (.error (.py .ValueError))) := by
  have hn := fun W n => new_weekly W n iv count u exs wds x y hx hy
  have hv : ValidRule ⟨.weekly wds, iv, count, u, exs⟩ ↔
      1 ≤ iv ∧ (count = none ∨ u = none) ∧ ∀ w ∈ wds, 0 ≤ w ∧ w ≤ 6 :=
    ⟨fun h => ⟨h.1, h.2.1, h.2.2 wds rfl⟩, fun h => ⟨h.1, h.2.1, fun l hl => by cases hl; exact h.2.2⟩⟩
  constructor
  · intro h
    rw [(C19_new _ iv count u exs).1 (hv.2 h)] at hn
    exact makes_of 0 3 (fun W n _ => hn W n)
  · intro h
    rw [(C19_new _ iv count u exs).2 (fun h' => h (hv.1 h'))] at hn
    exact makes_of 0 3 (fun W n _ => hn W n)

/-- C131: the same for the monthly class, which also requires one of the three ways to repeat. -/
theorem C131_new_monthly (s : String) (iv : Int) (count : Option Int) (u : Option Until) (exs : List Int) (x : Val)
    (hx : Seq x (exs.map .date)) :
    (∀ m, s = monthlyName m → 1 ≤ iv ∧ (count = none ∨ u = none) →
      Makes "MonthlyRecurrenceRule" [.int iv, ofOption .int count, ofOption ofUntil u, x, .str s]
        (.ok (ofRule ⟨.monthly m, iv, count, u, exs⟩))) ∧
    (¬ ((∃ m, s = monthlyName m) ∧ 1 ≤ iv ∧ (count = none ∨ u = none)) →
      Makes "MonthlyRecurrenceRule" [.int iv, ofOption .int count, ofOption ofUntil u, x, .str s]
        (.error (.py .ValueError))) := by
  have hn := fun W n => new_monthly W n iv count u exs s x hx
  constructor
  · intro m hs h
    rw [hs, newMonthly_name, (C19_new _ iv count u exs).1 ⟨h.1, h.2, fun l hl => by cases hl⟩, ← hs] at hn
    exact makes_of 0 3 (fun W n _ => hn W n)
  · intro h
    rw [(C19_newMonthly iv count u exs s).2 (fun h' => h ⟨?_, h'.2⟩)] at hn
    · exact makes_of 0 3 (fun W n _ => hn W n)
    · rcases h'.1 with h | h | h
      · exact ⟨.monthday, h⟩
      · exact ⟨.weekday, h⟩
      · exact ⟨.lastweekday, h⟩

/-- C131: `replace` as written, on a rule of any class, with any of the arguments left out: the new object has the
given attributes and otherwise those of the rule, if they are valid; otherwise ValueError is raised.  The arguments are
those the class takes: `extra` holds the weekdays for the weekly class, an ignored argument and the way to repeat for the
monthly class. -/
theorem C131_replace (r : Rule) (iv : Option Int) (count : Option (Option Int)) (u : Option (Option Until))
    (exs : Option (List Int)) (w : Option (List Int)) (m : Option MonthlyKind) (z : Val) :
    ∃ r', replaced r iv count u exs w m r' ∧ ∀ extra,
      ((∀ l, r.kind ≠ .weekly l) → (∀ m, r.kind ≠ .monthly m) → extra = []) →
      (∀ l, r.kind = .weekly l → extra = [ofArg ofInts w, z]) →
      (∀ k, r.kind = .monthly k → extra = [z, ofArg (fun k => .str (monthlyName k)) m]) →
      (ValidRule r' → Answers (ofRule r) "replace" ([ofArg .int iv, ofArg (ofOption .int) count,
        ofArg (ofOption ofUntil) u, ofArg ofDates exs] ++ extra) (.ok (ofRule r'))) ∧
      (¬ ValidRule r' → Answers (ofRule r) "replace" ([ofArg .int iv, ofArg (ofOption .int) count,
        ofArg (ofOption ofUntil) u, ofArg ofDates exs] ++ extra) (.error (.py .ValueError))) := by
  obtain ⟨r', hr', h⟩ := C18_replace r iv count u exs w m
  refine ⟨r', hr', fun extra e1 e2 e3 => ?_⟩
  have key : ∀ W n, Source.prog.invoke W (n + 4) (ofRule r) "replace" ([ofArg .int iv, ofArg (ofOption .int) count,
      ofArg (ofOption ofUntil) u, ofArg ofDates exs] ++ extra) [] = toM ofRule (r.replace iv count u exs w m) := by
    intro W n
    cases hk : r.kind with
    | weekly l =>
      rw [e2 l hk]
      exact (replace_weekly W n r l hk iv count u exs w z).trans (by rw [Rule.replace, Rule.replace, hk])
    | monthly k =>
      rw [e3 k hk]
      exact (replace_monthly W n r k hk iv count u exs z m).trans (by rw [Rule.replace, Rule.replace, hk])
    | _ =>
      rw [e1 (by simp [hk]) (by simp [hk]), List.append_nil]
      exact (replace_plain W (n + 1) r ⟨by simp [hk], by simp [hk]⟩ iv count u exs).trans (by
        rw [Rule.replace, Rule.replace, hk])
  rcases h with ⟨hv, h⟩ | ⟨hv, h⟩
  · rw [h] at key
    exact ⟨fun _ => answers_of 0 4 (fun W n _ => key W n), fun h' => absurd hv h'⟩
  · rw [h] at key
    exact ⟨fun h' => absurd h' hv, fun _ => answers_of 0 4 (fun W n _ => key W n)⟩

/-- C131, concrete: a weekly rule is made, its count replaced, and then refused with a weekday 7. -/
example :
    Source.prog.new 9 3 "WeeklyRecurrenceRule" [.int 2, .none, .none, .list [], .list [.int 1, .int 3]] []
      = .ok (ofRule ⟨.weekly [1, 3], 2, none, none, []⟩) ∧
    Source.prog.invoke 9 4 (ofRule ⟨.weekly [1, 3], 2, none, none, []⟩) "replace" [] [("count", .int 5)]
      = .ok (ofRule ⟨.weekly [1, 3], 2, some 5, none, []⟩) ∧
    Source.prog.invoke 9 4 (ofRule ⟨.weekly [1, 3], 2, none, none, []⟩) "replace" [] [("weekdays", .list [.int 7])]
      = .error (.py .ValueError) ∧
    Source.prog.call 9 1 "weekspan" [.date (ymd2ord 2026 11 15), .date (ymd2ord 2026 11 16)] [] = .ok (.int 1) ∧
    Source.prog.call 9 1 "monthindex" [.int 2026, .int 11, .int (-1), .int 0] [] = .ok (.date (ymd2ord 2026 11 30)) :=
  ⟨sameM_eq (by decide +kernel), sameM_eq (by decide +kernel), sameM_eq (by decide +kernel), sameM_eq (by decide +kernel),
    sameM_eq (by decide +kernel)⟩

/-! ### C132 -/

/-- C132: iterating over `apply(event, enddate)` as written, for a rule of any class and an object with an attribute
`dtstart`, unless it loops for ever: the dates it yields, and how it ends.  For a valid rule that does recur they are
exactly the dates of its sequence within the bounds, in order, without the excepted ones. -/
theorem C132_apply (r : Rule) (c : String) (attrs : List (String × Val)) (dt : Int) (hr : dtInRange dt = true)
    (hev : getAttr "dtstart" attrs = .ok (.datetime dt)) (en : Option Int) (hh : ¬ Hangs r dt en) :
    ∃ (l : List Int) (fin : Option Stop),
      Answers (ofRule r) "apply" [.obj c attrs, ofOption .date en] (.ok (.gen (l.map .date) fin)) ∧
      (fin = none ∨ ∃ e, fin = some (.py e)) ∧
      (r.kind = .no → l = [dtDate dt] ∧ fin = none) ∧
      (r.kind ≠ .no → 1 ≤ r.interval → UntilIsDate r → Generates r en (ruleSeq r (dtDate dt)) l) ∧
      (r.kind ≠ .no → ¬ UntilIsDate r → l = []) := by
  have hd : (r.apply dt en).2 ≠ .error .diverge := fun h => hh ((apply_diverges_iff r dt hr en).1 h)
  refine ⟨(r.apply dt en).1, _, apply_answers r c attrs dt en hr hev hd, ?_, fun hk => ?_, fun hk hi hu =>
    apply_generates hk hi hu hr en, fun hk hu => apply_datetime_nil hk hu dt en⟩
  · cases h : (r.apply dt en).2 with
    | ok u => exact .inl rfl
    | error f =>
      cases f with
      | py e => exact .inr ⟨e, rfl⟩
      | diverge => exact absurd h hd
  · unfold Rule.apply Rule.applyRun
    simp only [hk]
    exact ⟨trivial, trivial⟩

/-- C132: it loops for ever exactly for the rules with interval 0 that `Hangs` describes. -/
theorem C132_loops_iff (r : Rule) (c : String) (attrs : List (String × Val)) (dt : Int) (hr : dtInRange dt = true)
    (hev : getAttr "dtstart" attrs = .ok (.datetime dt)) (en : Option Int) :
    Loops (ofRule r) "apply" [.obj c attrs, ofOption .date en] ↔ Hangs r dt en := by
  constructor
  · intro ⟨N, hN⟩
    by_contra hh
    obtain ⟨l, fin, ⟨N', h'⟩, hf, _⟩ := C132_apply r c attrs dt hr hev en hh
    obtain ⟨l', hl⟩ := hN (max N N') (by omega) (max N N') (by omega)
    rw [h' (max N N') (by omega) (max N N') (by omega)] at hl
    injection hl with hl; injection hl with _ hl
    subst hl
    rcases hf with h | ⟨e, h⟩ <;> cases h
  · intro h
    exact apply_loops r c attrs dt en hr hev ((hangs_or_ends r dt hr en).1 h)

/-- C132: it yields and ends exactly as the function `Rule.apply` of the model says, so that all that is proved of that
function (C08-C17 and what is built on them) holds of the source text. -/
theorem C132_same (r : Rule) (c : String) (attrs : List (String × Val)) (dt : Int) (hr : dtInRange dt = true)
    (hev : getAttr "dtstart" attrs = .ok (.datetime dt)) (en : Option Int) (hh : ¬ Hangs r dt en) :
    Answers (ofRule r) "apply" [.obj c attrs, ofOption .date en] (.ok (ofApply (r.apply dt en))) :=
  apply_answers r c attrs dt en hr hev (fun h => hh ((apply_diverges_iff r dt hr en).1 h))

/-- C132, concrete: the last Friday of a month, four times with one exception. -/
example :
    let r : Rule := ⟨.monthly .lastweekday, 1, some 4, none, [ymd2ord 2026 12 25]⟩
    let dt := combine (ymd2ord 2026 11 27) 36000000000
    Source.prog.invoke 9 4 (ofRule r) "apply" [.obj "Event" [("dtstart", .datetime dt)], .none] []
      = .ok (.gen [.date (ymd2ord 2026 11 27), .date (ymd2ord 2027 1 29), .date (ymd2ord 2027 2 26)] none) ∧
    ¬ Hangs r dt none ∧ dtInRange dt = true ∧ ValidRule r := by
  refine ⟨sameM_eq (by decide +kernel), fun h => absurd h.1 (by decide), by decide, ⟨by decide, by decide, fun l h => (by cases h)⟩⟩

end CalCore
