import Verif.Lemmas.SourceEqual
import Verif.Lemmas.SourceICal
import Verif.Lemmas.SourceCreate
import Verif.Lemmas.SourceText
import Verif.Lemmas.LangSame
import Verif.Model.Misc
import Verif.Model.Vocabulary
/- Small functions as written: `__repr__`, `__hash__`, `__cmp__`, constructors, vocabularies, and what depends on the clock. -/
namespace CalCore.Lang
open CalCore.Spec
set_option linter.unusedSectionVars false
variable [Source.Globals]

/-! ### `__repr__` -/

theorem format_r (f : List Char) (a : String) (v : Val) (vs : List Val) {s : String} (hv : v.repr = .ok a) (hs : format f vs = .ok s) :
    format ('%' :: 'r' :: f) (v :: vs) = .ok (a ++ s) := by
  rw [format]
  simp only [hv, hs, M_bind_ok]

theorem reprs_map {α : Type} {f : α → Val} {g : α → String} (h : ∀ a, (f a).repr = .ok (g a)) (l : List α) :
    Val.reprs (l.map f) = .ok (l.map g) := by
  induction l with
  | nil => rw [List.map_nil, Val.reprs]; rfl
  | cons a l ih => rw [List.map_cons, Val.reprs, h, M_bind_ok, ih, M_bind_ok]; rfl

theorem pyMore_map {α : Type} (g : α → String) (l : List α) : pyMore id (l.map g) = pyMore g l := by
  induction l with
  | nil => rfl
  | cons a l ih => rw [List.map_cons, pyMore, pyMore, ih]; rfl

theorem pyTuple_map {α : Type} (g : α → String) (l : List α) : pyTuple id (l.map g) = pyTuple g l := by
  match l with
  | [] => rfl
  | [a] => rfl
  | a :: b :: l =>
    rw [List.map_cons, List.map_cons, pyTuple, pyTuple, ← List.map_cons, pyMore_map]; rfl

theorem repr_tuple {α : Type} {f : α → Val} {g : α → String} (h : ∀ a, (f a).repr = .ok (g a)) (l : List α) :
    Val.repr (.tuple (l.map f)) = .ok (pyTuple g l) := by
  rw [Val.repr, reprs_map h, M_bind_ok, pyTuple_map]

theorem repr_int (n : Int) : Val.repr (.int n) = .ok (pyInt n) := by rw [Val.repr]
theorem repr_date (n : Int) : Val.repr (.date n) = .ok (pyDate n) := by rw [Val.repr]

theorem repr_option {α : Type} {f : α → Val} {g : α → String} (h : ∀ a, (f a).repr = .ok (g a)) (o : Option α) :
    Val.repr (ofOption f o) = .ok (pyOption g o) := by
  cases o with
  | none => rw [ofOption_none, Val.repr]; rfl
  | some a => rw [ofOption_some, h]; rfl

theorem repr_until (u : Until) : Val.repr (ofUntil u) = .ok (pyUntil u) := by
  cases u <;> simp only [ofUntil, Val.repr, pyUntil]

theorem repr_monthly (m : MonthlyKind) : Val.repr (.str (monthlyName m)) = .ok (pyMonthly m) := by
  cases m <;> rw [Val.repr] <;> decide +kernel

theorem fmt_repr4 (c : String) (r : Rule) :
    binop .mod (.str "%s(%r, %r, %r, %r)") (.tuple [.str c, .int r.interval, ofOption .int r.count, ofOption ofUntil r.untl,
      .tuple (r.exceptions.map .date)]) = .ok (.str (c ++ "(" ++ pyInt r.interval ++ ", " ++ pyOption pyInt r.count ++ ", " ++
        pyOption pyUntil r.untl ++ ", " ++ pyTuple pyDate r.exceptions ++ ")")) := by
  rw [mod_tuple, show "%s(%r, %r, %r, %r)".toList = '%' :: 's' :: ("(".toList ++ ('%' :: 'r' :: (", ".toList ++ ('%' :: 'r' :: (", ".toList ++
      ('%' :: 'r' :: (", ".toList ++ ('%' :: 'r' :: ")".toList)))))))) by decide +kernel,
    format_s _ _ _ (format_text _ _ _ (by decide +kernel) (format_r _ _ _ _ (repr_int _) (format_text _ _ _ (by decide +kernel)
      (format_r _ _ _ _ (repr_option repr_int _) (format_text _ _ _ (by decide +kernel) (format_r _ _ _ _ (repr_option repr_until _)
        (format_text _ _ _ (by decide +kernel) (format_r _ _ _ _ (repr_tuple repr_date _) (format_tail _ (by decide +kernel))))))))))]
  simp only [String.ofList_toList, String.append_assoc]
  rfl

theorem fmt_repr5 (c : String) (r : Rule) (v : Val) (a : String) (h : v.repr = .ok a) :
    binop .mod (.str "%s(%r, %r, %r, %r, %r)") (.tuple [.str c, .int r.interval, ofOption .int r.count, ofOption ofUntil r.untl,
      .tuple (r.exceptions.map .date), v]) = .ok (.str (c ++ "(" ++ pyInt r.interval ++ ", " ++ pyOption pyInt r.count ++ ", " ++
        pyOption pyUntil r.untl ++ ", " ++ pyTuple pyDate r.exceptions ++ ", " ++ a ++ ")")) := by
  rw [mod_tuple, show "%s(%r, %r, %r, %r, %r)".toList = '%' :: 's' :: ("(".toList ++ ('%' :: 'r' :: (", ".toList ++ ('%' :: 'r' :: (", ".toList ++
      ('%' :: 'r' :: (", ".toList ++ ('%' :: 'r' :: (", ".toList ++ ('%' :: 'r' :: ")".toList)))))))))) by decide +kernel,
    format_s _ _ _ (format_text _ _ _ (by decide +kernel) (format_r _ _ _ _ (repr_int _) (format_text _ _ _ (by decide +kernel)
      (format_r _ _ _ _ (repr_option repr_int _) (format_text _ _ _ (by decide +kernel) (format_r _ _ _ _ (repr_option repr_until _)
        (format_text _ _ _ (by decide +kernel) (format_r _ _ _ _ (repr_tuple repr_date _) (format_text _ _ _ (by decide +kernel)
          (format_r _ _ _ _ h (format_tail _ (by decide +kernel))))))))))))]
  simp only [String.ofList_toList, String.append_assoc]
  rfl

/-- The function that `__repr__` is. -/
def reprName : RuleKind → String
  | .weekly _ => "WeeklyRecurrenceRule.__repr__"
  | .monthly _ => "MonthlyRecurrenceRule.__repr__"
  | _ => "BasicRecurrenceRule.__repr__"

theorem method_repr (k : RuleKind) : Source.prog.method 4 k.className "__repr__" = some (reprName k) := by
  cases k <;> rfl
theorem method_rule_hash (k : RuleKind) : Source.prog.method 4 k.className "__hash__" = some "BasicRecurrenceRule.__hash__" := by
  cases k <;> rfl

theorem repr_prog (W n : Nat) (r : Rule) :
    Source.prog.call W (n + 1) (reprName r.kind) [ofRule r] [] = .ok (.str r.repr) := by
  obtain ⟨kind, interval, count, untl, exceptions⟩ := r
  unfold Rule.repr
  cases kind with
  | weekly w =>
    have h := fmt_repr5 "WeeklyRecurrenceRule" ⟨.weekly w, interval, count, untl, exceptions⟩ _ _ (repr_tuple repr_int w)
    rw [show reprName _ = "WeeklyRecurrenceRule.__repr__" from rfl, call_eq (d := Source.WeeklyRecurrenceRule__repr_) rfl]
    simp only [] at h
    lang [Source.WeeklyRecurrenceRule__repr_, ofRule, kindAttrs, RuleKind.className, h]
    simp only [String.append_assoc]
  | monthly m =>
    have h := fmt_repr5 "MonthlyRecurrenceRule" ⟨.monthly m, interval, count, untl, exceptions⟩ _ _ (repr_monthly m)
    rw [show reprName _ = "MonthlyRecurrenceRule.__repr__" from rfl, call_eq (d := Source.MonthlyRecurrenceRule__repr_) rfl]
    simp only [] at h
    lang [Source.MonthlyRecurrenceRule__repr_, ofRule, kindAttrs, RuleKind.className, h]
    simp only [String.append_assoc]
  | daily =>
    have h := fmt_repr4 "DailyRecurrenceRule" ⟨.daily, interval, count, untl, exceptions⟩
    rw [show reprName _ = "BasicRecurrenceRule.__repr__" from rfl, call_eq (d := Source.BasicRecurrenceRule__repr_) rfl]
    simp only [] at h
    lang [Source.BasicRecurrenceRule__repr_, ofRule, kindAttrs, RuleKind.className, h]
    simp only [String.append_assoc, String.empty_append]
  | yearly =>
    have h := fmt_repr4 "YearlyRecurrenceRule" ⟨.yearly, interval, count, untl, exceptions⟩
    rw [show reprName _ = "BasicRecurrenceRule.__repr__" from rfl, call_eq (d := Source.BasicRecurrenceRule__repr_) rfl]
    simp only [] at h
    lang [Source.BasicRecurrenceRule__repr_, ofRule, kindAttrs, RuleKind.className, h]
    simp only [String.append_assoc, String.empty_append]
  | basic =>
    have h := fmt_repr4 "BasicRecurrenceRule" ⟨.basic, interval, count, untl, exceptions⟩
    rw [show reprName _ = "BasicRecurrenceRule.__repr__" from rfl, call_eq (d := Source.BasicRecurrenceRule__repr_) rfl]
    simp only [] at h
    lang [Source.BasicRecurrenceRule__repr_, ofRule, kindAttrs, RuleKind.className, h]
    simp only [String.append_assoc, String.empty_append]
  | no =>
    have h := fmt_repr4 "NoRecurrenceRule" ⟨.no, interval, count, untl, exceptions⟩
    rw [show reprName _ = "BasicRecurrenceRule.__repr__" from rfl, call_eq (d := Source.BasicRecurrenceRule__repr_) rfl]
    simp only [] at h
    lang [Source.BasicRecurrenceRule__repr_, ofRule, kindAttrs, RuleKind.className, h]
    simp only [String.append_assoc, String.empty_append]

/-! ### `__hash__` and `__cmp__` -/

theorem rule_hash_prog (W n : Nat) (r : Rule) :
    Source.prog.call W (n + 2) "BasicRecurrenceRule.__hash__" [ofRule r] [] = .ok (.obj "hash" [("of", ruleTuple r)]) := by
  have h := tuple_prog W n r
  rw [call_eq (d := Source.BasicRecurrenceRule__hash_) rfl]
  lang [Source.BasicRecurrenceRule__hash_, ↓eval_method, on_rule, callClass_some (method_tuple r.kind), h]
  rfl

theorem event_hash_prog (W n : Nat) (L : Listing) (e : Event) :
    Source.prog.call W (n + 1) "EventBase.__hash__" [ofEvent L e] [] = .ok (.obj "hash" [("of", .str e.uid)]) := by
  rw [call_eq (d := Source.EventBase__hash_) rfl]
  lang [Source.EventBase__hash_, ofEvent, eventAttrs]
  rfl

theorem cmps_start (a b : Int) (u : String) :
    Val.cmp (.tuple [.datetime a, .str u]) (.tuple [.datetime b, .str u]) = .ok (compare a b) := by
  have h : compare u u = .eq := by simp
  rw [Val.cmp, Val.cmps, Val.cmp, M_bind_ok]
  cases hc : compare a b with
  | lt => rfl
  | gt => rfl
  | eq => simp only [Val.cmps, Val.cmp, M_bind_ok, h]

theorem isa_event (W n : Nat) (L : Listing) (e : Event) :
    [Cls.user "EventBase"].any (fun c => isInstance (Source.prog.ctx W n).isa c (ofEvent L e)) = true := rfl

theorem event_cmp_prog (W n : Nat) (L L' : Listing) (e e' : Event) :
    Source.prog.call W (n + 1) "EventBase.__cmp__" [ofEvent L e, ofEvent L' e'] [] = .ok (.int (ordInt (compare e.dtstart e'.dtstart))) := by
  have h := isa_event W n L' e'
  have hc : callPrim .cmp [.tuple [.datetime e.dtstart, .str e.uid], .tuple [.datetime e'.dtstart, .str e.uid]] []
      = .ok (.int (ordInt (compare e.dtstart e'.dtstart))) := by
    rw [callPrim, cmps_start, M_bind_ok]
  rw [call_eq (d := Source.EventBase__cmp_) rfl]
  unfold ofEvent eventAttrs at h ⊢
  lang [Source.EventBase__cmp_, h, hc]

theorem event_cmp_other (W n : Nat) (L : Listing) (e : Event) (v : Val)
    (h : [Cls.user "EventBase"].any (fun c => isInstance (Source.prog.ctx W n).isa c v) = false) :
    Source.prog.call W (n + 1) "EventBase.__cmp__" [ofEvent L e, v] [] = .ok (.int 1) := by
  rw [call_eq (d := Source.EventBase__cmp_) rfl]
  lang [Source.EventBase__cmp_, h]

/-! ### constructors and accessors -/

theorem method_initEvents : Source.prog.method 4 "MemoryStorage" "_initEvents" = some "MemoryStorage._initEvents" := rfl
theorem method_initAttendees : Source.prog.method 4 "Calendar" "_initAttendees" = some "CalendarBase._initAttendees" := rfl

theorem initEvents_prog (W n : Nat) (o : Val) : Source.prog.call W (n + 1) "MemoryStorage._initEvents" [o] [] = .ok (.dict []) := by
  rw [call_eq (d := Source.MemoryStorage_initEvents) rfl]
  lang [Source.MemoryStorage_initEvents]

theorem initAttendees_prog (W n : Nat) (o : Val) : Source.prog.call W (n + 1) "CalendarBase._initAttendees" [o] [] = .ok (.dict []) := by
  rw [call_eq (d := Source.CalendarBase_initAttendees) rfl]
  lang [Source.CalendarBase_initAttendees]

theorem storage_new (W n : Nat) (id host : String) (h : host ≠ "") :
    Source.prog.new W (n + 2) "MemoryStorage" [.str id, .str host] []
      = .ok (.obj "MemoryStorage" [("_storage_id", .str id), ("_events", .dict []), ("_hostname", .str host)]) := by
  have hi := initEvents_prog W n
  have ht : (Val.str host).truthy = true := by simp [Val.truthy, h]
  rw [new_eq (f := "StorageBase.__init__") rfl, call_eq (d := Source.StorageBase_init) rfl]
  lang [Source.StorageBase_init, hi, method_initEvents, ctx_call, ctx_method, ht]

theorem manager_new (W n : Nat) :
    Source.prog.new W (n + 1) "StorageManager" [] [] = .ok (.obj "StorageManager" [("_storage", .none)]) := by
  rw [new_eq (f := "StorageManagerBase.__init__") rfl, call_eq (d := Source.StorageManagerBase_init) rfl]
  lang [Source.StorageManagerBase_init]

theorem setStorage_prog (W n : Nat) (v s : Val) :
    Source.prog.call W (n + 1) "StorageManagerBase.setStorage" [.obj "StorageManager" [("_storage", v)], s] []
      = .ok (procVal [.obj "StorageManager" [("_storage", s)], s] [] none .none) := by
  rw [call_eq (d := Source.StorageManagerBase_setStorage) rfl]
  lang [Source.StorageManagerBase_setStorage]

theorem storageId_prog (W n : Nat) (L : Listing) (s : Storage) :
    Source.prog.call W (n + 1) "StorageBase.getStorageId" [ofStorage L s] [] = .ok (.str s.id) := by
  rw [call_eq (d := Source.StorageBase_getStorageId) rfl]
  lang [Source.StorageBase_getStorageId, ofStorage]

theorem source_new (W n : Nat) (m : Val) :
    Source.prog.new W (n + 1) "SimpleAttendeeSource" [m] [] = .ok (.obj "SimpleAttendeeSource" [("_storage_manager", m), ("_attendees", .dict [])]) := by
  rw [new_eq (f := "SimpleAttendeeSource.__init__") rfl, call_eq (d := Source.SimpleAttendeeSource_init) rfl]
  lang [Source.SimpleAttendeeSource_init]

theorem calendar_new (W n : Nat) (m a : Val) :
    Source.prog.new W (n + 3) "Calendar" [m, a] []
      = .ok (.obj "Calendar" [("_attendees", .dict []), ("_storage_manager", m), ("_attendee_source", a)]) := by
  have hi := initAttendees_prog W n
  have hb : Source.prog.call W (n + 2) "CalendarBase.__init__" [.obj "Calendar" []] [] = .ok (.obj "Calendar" [("_attendees", .dict [])]) := by
    rw [call_eq (d := Source.CalendarBase_init) rfl]
    lang [Source.CalendarBase_init, hi, method_initAttendees, ctx_call, ctx_method]
  rw [new_eq (f := "Calendar.__init__") rfl, call_eq (d := Source.Calendar_init) rfl]
  lang [Source.Calendar_init, ctx_call, hb]

theorem currentUser_prog (W n : Nat) (o : Val) :
    Source.prog.call W (n + 1) "SimpleAttendeeSource.getCurrentUserAttendee" [o] [] = .ok .none ∧
    Source.prog.call W (n + 1) "SimpleAttendeeSource.getCurrentUserAttendeeId" [o] [] = .ok .none := by
  rw [call_eq (d := Source.SimpleAttendeeSource_getCurrentUserAttendee) rfl, call_eq (d := Source.SimpleAttendeeSource_getCurrentUserAttendeeId) rfl]
  constructor
  · lang [Source.SimpleAttendeeSource_getCurrentUserAttendee]
  · lang [Source.SimpleAttendeeSource_getCurrentUserAttendeeId]

theorem types_prog (W n : Nat) (o : Val) :
    Source.prog.call W (n + 1) "SimpleAttendeeSource.getAttendeeTypes" [o] [] = .error (.py .TypeError) := by
  rw [call_eq (d := Source.SimpleAttendeeSource_getAttendeeTypes) rfl]
  lang [Source.SimpleAttendeeSource_getAttendeeTypes]

/-! ### periods of minutes -/

theorem period_prog (W n : Nat) (t m : Int) :
    Source.prog.call W (n + 1) "Period" [.datetime t, .int m] [] = (do .ok (.tuple [.datetime t, ← mkDelta (m * 60000000)])) := by
  rw [call_eq (d := Source.Period) rfl]
  cases hm : mkDelta (m * 60000000) <;> lang [Source.Period, callPrim, hm]

theorem inPeriodDelta_prog (W n : Nat) (c : String) (attrs : List (String × Val)) (t : Int) (dur : Option Int) (p : Int × Int)
    (h1 : getAttr "dtstart" attrs = .ok (.datetime t)) (h2 : getAttr "duration" attrs = .ok (ofOption .delta dur)) :
    Source.prog.call W (n + 1) "inPeriod" [.obj c attrs, .tuple [.datetime p.1, .delta p.2]] [] = toM .bool (inPeriodDelta t dur p) := by
  rw [call_eq (d := Source.inPeriod) rfl]
  have hc : ∀ a b : Int, Val.cmp (.datetime a) (.delta b) = .error (.py .TypeError) := fun a b => by rw [Val.cmp]; rfl
  unfold inPeriodDelta
  cases dur with
  | none => lang [Source.inPeriod, ofOption, h1, h2, raise, toM_py]
  | some d =>
    simp only []
    cases hd : dtAdd t d with
    | error f => lang [Source.inPeriod, ofOption, h1, h2, hd, lift_error, error_bind, toM_error]
    | ok y =>
      by_cases hy : y ≤ p.1
      · lang [Source.inPeriod, ofOption, h1, h2, hd, ok_bind, hy, toM_ok]
      · lang [Source.inPeriod, ofOption, h1, h2, hd, ok_bind, hy, hc, raise, toM_py]

/-! ### vocabularies -/

/-- A term whose value, token and title are the text. -/
def strTerm (s : String) : Val := .obj "SimpleTerm" [("value", .str s), ("token", .str s), ("title", .str s)]

/-- The vocabulary of some terms. -/
def ofTerms (l : List Val) : Val := .obj "SimpleVocabulary" [("terms", .list l)]

theorem simpleTerm_str (s : String) : callPrim .simpleTerm [.str s, .str s, .str s] [] = .ok (strTerm s) := rfl

theorem hasTerm_str (v : String) (l : List String) : hasTerm (.str v) v (l.map strTerm) = .ok (decide (v ∈ l)) := by
  induction l with
  | nil => rfl
  | cons a l ih =>
    rw [List.map_cons, strTerm, hasTerm, eq_str, M_bind_ok, ih]
    by_cases h : a = v
    · simp [h]
    · have h' : ¬ v = a := fun e => h e.symm
      simp [h, h']

theorem addTerms_str (l seen : List String) (hs : seen.Nodup) :
    addTerms (seen.map strTerm) (l.map strTerm)
      = if (seen ++ l).Nodup then .ok ((seen ++ l).map strTerm) else .error (.py .ValueError) := by
  induction l generalizing seen with
  | nil => rw [List.map_nil, addTerms, List.append_nil, if_pos hs]
  | cons a l ih =>
    have hh := hasTerm_str a seen
    rw [List.map_cons]
    conv => lhs; rw [strTerm, addTerms]
    rw [hh, M_bind_ok]
    by_cases h : a ∈ seen
    · rw [if_pos (by simpa using h), if_neg]
      · rfl
      · intro hn
        exact List.disjoint_of_nodup_append hn h (List.mem_cons_self ..)
    · rw [if_neg (by simpa using h)]
      have := ih (seen ++ [a]) (by
        rw [List.nodup_append]
        exact ⟨hs, by simp, fun x hx y hy => by
          rw [List.mem_singleton] at hy
          intro e
          exact h (hy ▸ e ▸ hx)⟩)
      rw [List.append_assoc, List.singleton_append, List.map_append] at this
      exact this

theorem vocabulary_str (l : List String) : callPrim .simpleVocabulary [.list (l.map strTerm)] []
    = if l.Nodup then .ok (ofTerms (l.map strTerm)) else .error (.py .ValueError) := by
  have h := addTerms_str l [] List.nodup_nil
  rw [List.map_nil, List.nil_append] at h
  have he : Val.elems (.list (l.map strTerm)) = .ok (l.map strTerm) := rfl
  rw [callPrim, he, M_bind_ok, h]
  by_cases hn : l.Nodup
  · rw [if_pos hn, if_pos hn]; rfl
  · rw [if_neg hn, if_neg hn]; rfl

theorem vocab_loop (G : Ctx) (W : Nat) (lv : Val) (l : List String) (acc : List Val) (x : Option Val) :
    ∃ x', forLoop (forBody G W (.name "item") Source.CalendarVocabularyFactory_loop1) (l.map .str)
        ⟨[("list", some lv), ("terms", some (.list acc)), ("item", x)], []⟩
      = (⟨[("list", some lv), ("terms", some (.list (acc ++ l.map strTerm))), ("item", x')], []⟩, .next) := by
  induction l generalizing acc x with
  | nil => exact ⟨x, by simp [forLoop]⟩
  | cons a l ih =>
    obtain ⟨x', h⟩ := ih (acc ++ [strTerm a]) (some (.str a))
    refine ⟨x', ?_⟩
    have hb : forBody G W (.name "item") Source.CalendarVocabularyFactory_loop1 (.str a)
        ⟨[("list", some lv), ("terms", some (.list acc)), ("item", x)], []⟩
        = (⟨[("list", some lv), ("terms", some (.list (acc ++ [strTerm a]))), ("item", some (.str a))], []⟩, .next) := by
      lang [forBody, Source.CalendarVocabularyFactory_loop1, simpleTerm_str]
    rw [List.map_cons, forLoop, hb]
    simp only []
    rw [h, List.append_assoc, List.map_cons, List.singleton_append]

theorem factory_prog (W n : Nat) (l : List String) :
    Source.prog.call W (n + 1) "CalendarVocabularyFactory" [.list (l.map .str)] []
      = if l.Nodup then .ok (ofTerms (l.map strTerm)) else .error (.py .ValueError) := by
  obtain ⟨x, h⟩ := vocab_loop (Source.prog.ctx W n) W (.list (l.map .str)) l [] none
  have hv := vocabulary_str l
  rw [call_eq (d := Source.CalendarVocabularyFactory) rfl]
  rw [List.nil_append] at h
  by_cases hn : l.Nodup
  · rw [if_pos hn] at hv ⊢
    lang [Source.CalendarVocabularyFactory, h, hv]
  · rw [if_neg hn] at hv ⊢
    lang [Source.CalendarVocabularyFactory, h, hv]

theorem status_vocab_prog (W n : Nat) (c : Val) : Source.prog.call W (n + 2) "CalendarEventStatusVocabulary" [c] []
    = .ok (ofTerms (["TENTATIVE", "CONFIRMED", "CANCELED"].map strTerm)) := by
  have h := factory_prog W n ["TENTATIVE", "CONFIRMED", "CANCELED"]
  rw [if_pos (by decide)] at h
  simp only [List.map_cons, List.map_nil] at h ⊢
  rw [call_eq (d := Source.CalendarEventStatusVocabulary) rfl]
  lang [Source.CalendarEventStatusVocabulary, ctx_call, h]

theorem access_vocab_prog (W n : Nat) (c : Val) : Source.prog.call W (n + 2) "CalendarEventAccessVocabulary" [c] []
    = .ok (ofTerms (["PUBLIC", "PRIVATE", "CONFIDENTIAL"].map strTerm)) := by
  have h := factory_prog W n ["PUBLIC", "PRIVATE", "CONFIDENTIAL"]
  rw [if_pos (by decide)] at h
  simp only [List.map_cons, List.map_nil] at h ⊢
  rw [call_eq (d := Source.CalendarEventAccessVocabulary) rfl]
  lang [Source.CalendarEventAccessVocabulary, ctx_call, h]

theorem monthly_vocab_prog (W n : Nat) (c : Val) : Source.prog.call W (n + 2) "CalendarMontlyRecurrenceTypeVocabulary" [c] []
    = .ok (ofTerms (["monthday", "weekday", "lastweekday"].map strTerm)) := by
  have h := factory_prog W n ["monthday", "weekday", "lastweekday"]
  rw [if_pos (by decide)] at h
  simp only [List.map_cons, List.map_nil] at h ⊢
  rw [call_eq (d := Source.CalendarMontlyRecurrenceTypeVocabulary) rfl]
  lang [Source.CalendarMontlyRecurrenceTypeVocabulary, ctx_call, h]

/-- A term for a weekday. -/
def dayTerm (d : Int) : Val := .obj "SimpleTerm" [("value", .int d), ("token", .str (toString d)), ("title", .str ("weekday_" ++ toString d))]

theorem fmt_weekday_title (s : String) : binop .mod (.str "weekday_%s") (.str s) = .ok (.str ("weekday_" ++ s)) := by
  rw [mod_str, show "weekday_%s".toList = "weekday_".toList ++ ('%' :: 's' :: []) by decide +kernel,
    format_text _ _ _ (by decide +kernel) (format_s _ _ _ format_end)]
  rw [String.ofList_toList, String.append_empty]
  rfl

theorem prim_str (n : Int) : callPrim .str [.int n] [] = .ok (.str (toString n)) := rfl
theorem simpleTerm_day (d : Int) :
    callPrim .simpleTerm [.int d, .int d, .str ("weekday_" ++ toString d)] [] = .ok (dayTerm d) := rfl

theorem weekday_terms_loop (G : Ctx) (W : Nat) (c : Val) (l : List Int) (acc : List Val) (x : Option Val) :
    ∃ x', forLoop (forBody G W (.name "day") Source.CalendarWeekdaysVocabulary_loop1) (l.map .int)
        ⟨[("context", some c), ("terms", some (.list acc)), ("day", x)], []⟩
      = (⟨[("context", some c), ("terms", some (.list (acc ++ l.map dayTerm))), ("day", x')], []⟩, .next) := by
  induction l generalizing acc x with
  | nil => exact ⟨x, by simp [forLoop]⟩
  | cons a l ih =>
    obtain ⟨x', h⟩ := ih (acc ++ [dayTerm a]) (some (.int a))
    refine ⟨x', ?_⟩
    have hb : forBody G W (.name "day") Source.CalendarWeekdaysVocabulary_loop1 (.int a)
        ⟨[("context", some c), ("terms", some (.list acc)), ("day", x)], []⟩
        = (⟨[("context", some c), ("terms", some (.list (acc ++ [dayTerm a]))), ("day", some (.int a))], []⟩, .next) := by
      lang [forBody, Source.CalendarWeekdaysVocabulary_loop1, prim_str, fmt_weekday_title, simpleTerm_day]
    rw [List.map_cons, forLoop, hb]
    simp only []
    rw [h, List.append_assoc, List.map_cons, List.singleton_append]

theorem days_vocab_prog (W n : Nat) (c : Val) : Source.prog.call W (n + 1) "CalendarWeekdaysVocabulary" [c] []
    = .ok (ofTerms ([0, 1, 2, 3, 4, 5, 6].map dayTerm)) := by
  obtain ⟨x, h⟩ := weekday_terms_loop (Source.prog.ctx W n) W c [0, 1, 2, 3, 4, 5, 6] [] none
  have hr : rangeInt 0 7 = [0, 1, 2, 3, 4, 5, 6].map .int := rfl
  have hv : callPrim .simpleVocabulary [.list ([0, 1, 2, 3, 4, 5, 6].map dayTerm)] [] = .ok (ofTerms ([0, 1, 2, 3, 4, 5, 6].map dayTerm)) :=
    sameM_eq (by decide +kernel)
  rw [call_eq (d := Source.CalendarWeekdaysVocabulary) rfl]
  rw [List.nil_append] at h
  simp only [List.map_cons, List.map_nil] at h hv ⊢
  lang [Source.CalendarWeekdaysVocabulary, hr, h, hv]

end CalCore.Lang
