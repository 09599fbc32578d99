import Verif.Lemmas.SourceImportRule
/- Reading categories and text, as written. -/
namespace CalCore.Lang
open CalCore.Spec
set_option linter.unusedSectionVars false
variable [Source.Globals] [Weekdays]

/-! ### categories -/

theorem upper_categories : "CATEGORIES".toUpper = "CATEGORIES" := by decide +kernel

theorem meth_inline (d : Dict String Val) (k : String) (hk : k.toUpper = k) :
    callMeth .getInline (ofComponent d) [.str k] [] = match Dict.get? d k with
      | some v => inlineOf v
      | none => .error (.py .KeyError) := by
  unfold ofComponent ofMap callMeth callLib
  simp only [hk, lookup_map]
  cases Dict.get? d k <;> rfl

/-- The categories that are written. -/
def catList : Categories → List String
  | .absent => []
  | .inline l => l
  | .multi l => l

theorem catList_mem (c : Categories) (x : String) : x ∈ catList c ↔ x ∈ getCategories c := by
  cases c <;> simp [catList, getCategories]

theorem getCategories_prog (W n : Nat) (c : Categories) (d : Dict String Val) (hc : Dict.get? d "CATEGORIES" = ofCategories c) (S : Val) :
    Source.prog.call W (n + 1) "CalendarBase._getCategories" [S, ofComponent d] [] = .ok (.set ((catList c).map .str)) := by
  rw [call_eq (d := Source.CalendarBase_getCategories) rfl]
  have hi := meth_inline d "CATEGORIES" upper_categories
  have hd := meth_decoded d "CATEGORIES" .none upper_categories
  rw [hc] at hi hd
  cases c with
  | absent =>
    simp only [ofCategories] at hi hd
    lang [Source.CalendarBase_getCategories, hi, hd, List.mem_cons, true_or, catList, List.map_nil]
  | inline l =>
    simp only [ofCategories, inlineOf, Option.getD_some] at hi hd
    lang [Source.CalendarBase_getCategories, hi, hd, catList]
  | multi l =>
    simp only [ofCategories, inlineOf, Option.getD_some] at hi hd
    lang [Source.CalendarBase_getCategories, hi, hd, List.mem_cons, List.not_mem_nil, true_or, false_or, catList]

/-! ### text -/

theorem meth_find (s : String) : callMeth .find (.str s) [.str "\n"] [] = .ok (.int (findChar '\n' s.toList)) := by
  have h : "\n".toList = ['\n'] := by decide +kernel
  unfold callMeth
  simp only [h]

theorem meth_split (s : String) : callMeth .split (.str s) [.str "\n"] []
    = .ok (.list ((splitChars '\n' s.toList).map (fun l => .str (String.ofList l)))) := by
  have h : "\n".toList = ['\n'] := by decide +kernel
  unfold callMeth
  simp only [h]

/-- The text with a return before every line feed. -/
def withReturns (l : List Char) : List Char := l.flatMap (fun c => if c = '\n' then ['\r', '\n'] else [c])

theorem splitChars_ne (c : Char) (l : List Char) : splitChars c l ≠ [] := by
  cases l with
  | nil => simp [splitChars]
  | cons a l =>
    unfold splitChars
    split
    · simp
    · split <;> simp

theorem join_split (l : List Char) : ∃ w, joinStrs "\r\n" ((splitChars '\n' l).map (fun l => .str (String.ofList l))) = .ok w
    ∧ w.toList = withReturns l := by
  induction l with
  | nil => exact ⟨String.ofList [], rfl, by simp [withReturns]⟩
  | cons a l ih =>
    obtain ⟨w, h1, h2⟩ := ih
    have hr : "\r\n".toList = ['\r', '\n'] := by decide +kernel
    cases hs : splitChars '\n' l with
    | nil => exact absurd hs (splitChars_ne _ _)
    | cons p ps =>
      rw [hs] at h1
      by_cases ha : a = '\n'
      · refine ⟨String.ofList [] ++ "\r\n" ++ w, ?_, ?_⟩
        · unfold splitChars
          simp only [hs, ha, if_true, List.map_cons, joinStrs]
          simp only [List.map_cons] at h1
          rw [h1]
          rfl
        · simp [withReturns, ha, hr, h2]
      · cases ps with
        | nil =>
          simp only [List.map_cons, List.map_nil, joinStrs] at h1
          injection h1 with h1
          subst h1
          refine ⟨String.ofList (a :: p), ?_, ?_⟩
          · unfold splitChars
            simp only [hs, ha, if_false, List.map_cons, List.map_nil, joinStrs]
          · simp only [String.toList_ofList] at h2
            simp [withReturns, ha, h2]
        | cons q qs =>
          simp only [List.map_cons, joinStrs] at h1
          cases hj : joinStrs "\r\n" (.str (String.ofList q) :: qs.map (fun l => .str (String.ofList l))) with
          | error e => rw [hj] at h1; cases h1
          | ok w' =>
            rw [hj] at h1
            injection h1 with h1
            subst h1
            refine ⟨String.ofList (a :: p) ++ "\r\n" ++ w', ?_, ?_⟩
            · unfold splitChars
              simp only [hs, ha, if_false, List.map_cons, joinStrs]
              rw [hj]
              rfl
            · simp only [String.toList_append, String.toList_ofList] at h2 ⊢
              simp [withReturns, ha] at h2 ⊢
              exact h2

theorem repairText_prog (W n : Nat) (s : String) (S : Val) :
    Source.prog.call W (n + 1) "CalendarBase._repairText" [S, .str s] [] = .ok (.str (String.ofList (repairText s.toList))) := by
  rw [call_eq (d := Source.CalendarBase_repairText) rfl]
  have hf := meth_find s
  have hs := meth_split s
  obtain ⟨w, h1, h2⟩ := join_split s.toList
  have hj : callMeth .join (.str "\r\n") [.list ((splitChars '\n' s.toList).map (fun l => .str (String.ofList l)))] [] = .ok (.str w) := by
    have : callMeth .join (.str "\r\n") [.list ((splitChars '\n' s.toList).map (fun l => .str (String.ofList l)))] []
        = (do .ok (.str (← joinStrs "\r\n" ((splitChars '\n' s.toList).map (fun l => .str (String.ofList l)))))) := rfl
    rw [this, h1]
    rfl
  unfold findChar at hf
  unfold repairText
  cases hi : List.findIdx? (fun x => decide (x = '\n')) s.toList with
  | none =>
    rw [hi] at hf
    simp only [] at hf ⊢
    lang [Source.CalendarBase_repairText, hf, String.ofList_toList]
  | some i =>
    rw [hi] at hf
    simp only [] at hf ⊢
    have hl : i < s.toList.length := (List.findIdx?_eq_some_iff_getElem.1 hi).1
    have hne : ¬ ((i : Int) = -1) := by omega
    by_cases h0 : i > 0
    · rw [if_pos h0]
      have hp : (0 : Int) < i := by omega
      have hx : getIndex (.str s) (.int ((i : Int) - 1)) = .ok (.str (String.singleton (s.toList[i - 1]'(by omega)))) := by
        rw [index_str]
        unfold getIndex.pick
        rw [if_pos (by omega)]
        have : ((i : Int) - 1).toNat = i - 1 := by omega
        rw [this, List.getElem?_map, List.getElem?_eq_getElem (by omega)]
        rfl
      have hg : s.toList[i - 1]? = some (s.toList[i - 1]'(by omega)) := List.getElem?_eq_getElem (by omega)
      rw [hg]
      generalize s.toList[i - 1]'(by omega) = ch at *
      by_cases hc : ch = '\r'
      · subst hc
        rw [if_neg (by simp)]
        have he : String.singleton '\r' = "\r" := by decide +kernel
        lang [Source.CalendarBase_repairText, hf, String.ofList_toList, hne, hp, hx, he]
      · rw [if_pos (by simp [hc])]
        have he : ¬ String.singleton ch = "\r" := by
          intro h
          have := congrArg String.toList h
          rw [String.toList_singleton] at this
          have e : "\r".toList = ['\r'] := by decide +kernel
          rw [e] at this
          injection this with h
          exact hc h
        have hw : String.ofList (withReturns s.toList) = w := by rw [← h2, String.ofList_toList]
        unfold withReturns at hw
        rw [hw]
        lang [Source.CalendarBase_repairText, hf, hne, hp, hx, he, hs, hj]
    · rw [if_neg h0]
      have hp : ¬ (0 : Int) < i := by omega
      lang [Source.CalendarBase_repairText, hf, String.ofList_toList, hne, hp]

end CalCore.Lang
