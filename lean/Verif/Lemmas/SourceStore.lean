import Verif.Lemmas.SourceQuery
/- Running the source text of the queries of storages and storage managers. -/
namespace CalCore.Lang
set_option linter.unusedSectionVars false
variable [Source.Globals]

open Spec

/-! ### criteria -/

theorem sequence_list (isa : String → String → Bool) (l : List Val) :
    [Cls.list, Cls.tuple].any (fun c => isInstance isa c (.list l)) = true := rfl

theorem sequence_attendee (isa : String → String → Bool) (L : Listing) (a : AttId) :
    [Cls.list, Cls.tuple].any (fun c => isInstance isa c (ofAttendee L a)) = false := rfl

/-- What the constructor keeps: a single attendee becomes a list. -/
theorem criteria_new_none (W n : Nat) (cls : String) (s r c o : Val) :
    Source.prog.call W (n + 1) "SearchCriteria.__init__" [.obj cls [], .none, s, r, c, o] []
    = .ok (.obj cls [("attendees", .none), ("participation_status", s), ("participation_role", r), ("categories", c), ("organizer", o)]) := by
  rw [call_eq (d := Source.SearchCriteria_init) rfl]
  lang [Source.SearchCriteria_init]

theorem criteria_new_list (W n : Nat) (cls : String) (l : List Val) (s r c o : Val) :
    Source.prog.call W (n + 1) "SearchCriteria.__init__" [.obj cls [], .list l, s, r, c, o] []
    = .ok (.obj cls [("attendees", .list l), ("participation_status", s), ("participation_role", r), ("categories", c),
        ("organizer", o)]) := by
  rw [call_eq (d := Source.SearchCriteria_init) rfl]
  lang [Source.SearchCriteria_init, sequence_list]

theorem criteria_new_one (W n : Nat) (cls : String) (L : Listing) (a : AttId) (s r c o : Val) :
    Source.prog.call W (n + 1) "SearchCriteria.__init__" [.obj cls [], ofAttendee L a, s, r, c, o] []
    = .ok (.obj cls [("attendees", .list [ofAttendee L a]), ("participation_status", s), ("participation_role", r), ("categories", c),
        ("organizer", o)]) := by
  rw [call_eq (d := Source.SearchCriteria_init) rfl]
  lang [Source.SearchCriteria_init, sequence_attendee, is_attendee_none]

theorem criteria_new_attendees (W n : Nat) (L : Listing) (l : List AttId) :
    (Source.prog.ctx W (n + 1)).new "SearchCriteria" [] [("attendees", .list (l.map (ofAttendee L)))]
    = .ok (ofCriteria L { attendees := some l }) := rfl

theorem null_new (W n : Nat) (L : Listing) :
    (Source.prog.ctx W (n + 2)).new "NullSearchCriteria" [] [] = .ok (.obj "NullSearchCriteria" (criteriaAttrs L {})) := rfl

/-! ### `_getMatchingEvents` -/

theorem method_match : Source.prog.method 4 "SearchCriteria" "_match" = some "SearchCriteria._match" := rfl
theorem method_match_null : Source.prog.method 4 "NullSearchCriteria" "_match" = some "SearchCriteria._match" := rfl

/-- The environment of `_getMatchingEvents`. -/
def matchingEnv (self cr : Val) (res : List Val) (ev : Option Val) : Env :=
  [("self", some self), ("search_criteria", some cr), ("result", some (.list res)), ("event", ev)]

theorem matching_loop (W n : Nat) (L : Listing) (hL : L.Faithful) (self : Val) (cls : String) (cr : Criteria)
    (hc : Source.prog.method 4 cls "_match" = some "SearchCriteria._match") (l : List Event) :
    ∀ (res : List Val) (ev : Option Val), ∃ ev',
      forLoop (forBody (Source.prog.ctx W (n + 4)) W (.name "event") Source.StorageBase_getMatchingEvents_loop1) (l.map (ofEvent L))
        ⟨matchingEnv self (.obj cls (criteriaAttrs L cr)) res ev, []⟩
      = (⟨matchingEnv self (.obj cls (criteriaAttrs L cr)) (res ++ (l.filter (fun e => cr.match e)).map (ofEvent L)) ev', []⟩, .next) := by
  induction l with
  | nil => intro res ev; exact ⟨ev, by simp [forLoop]⟩
  | cons e l ih =>
    intro res ev
    rw [List.map_cons]
    unfold forLoop
    have h := match_prog W n L hL e cls cr
    have hb : forBody (Source.prog.ctx W (n + 4)) W (.name "event") Source.StorageBase_getMatchingEvents_loop1 (ofEvent L e)
        ⟨matchingEnv self (.obj cls (criteriaAttrs L cr)) res ev, []⟩
        = (⟨matchingEnv self (.obj cls (criteriaAttrs L cr)) (if cr.match e then res ++ [ofEvent L e] else res) (some (ofEvent L e)), []⟩, .next) := by
      cases hm : cr.match e with
      | true =>
        rw [hm] at h
        lang [forBody, Source.StorageBase_getMatchingEvents_loop1, matchingEnv, ctx_method, hc, ctx_call, h]
      | false =>
        rw [hm] at h
        lang [forBody, Source.StorageBase_getMatchingEvents_loop1, matchingEnv, ctx_method, hc, ctx_call, h]
    rw [hb]
    obtain ⟨ev', h'⟩ := ih (if cr.match e then res ++ [ofEvent L e] else res) (some (ofEvent L e))
    refine ⟨ev', ?_⟩
    simp only []
    rw [h']
    cases hm : cr.match e <;> simp [hm]

theorem events_values (L : Listing) (s : Storage) :
    (s.events.map (fun p => ((.str p.1 : Val), ofEvent L p.2))).map (fun x => x.2) = (Dict.values s.events).map (ofEvent L) := by
  simp [Dict.values]

theorem storage_events (i h : Val) (d : Val) : getAttr "_events" [("_storage_id", i), ("_hostname", h), ("_events", d)] = .ok d := rfl

theorem matching_prog (W n : Nat) (L : Listing) (hL : L.Faithful) (s : Storage) (c : Option Criteria) :
    Source.prog.call W (n + 5) "StorageBase._getMatchingEvents" [ofStorage L s, ofOption (ofCriteria L) c] []
    = .ok (.list ((s.matching c).map (ofEvent L))) := by
  rw [call_eq (d := Source.StorageBase_getMatchingEvents) rfl]
  cases c with
  | none =>
    obtain ⟨ev, h⟩ := matching_loop W n L hL (ofStorage L s) "NullSearchCriteria" {} method_match_null (Dict.values s.events) [] none
    simp only [matchingEnv, List.nil_append, ofStorage] at h
    have hn := null_new W (n + 2) L
    lang [Source.StorageBase_getMatchingEvents, ofOption_none, ofStorage, hn, storage_events, events_values, h, Storage.matching, Option.getD_none]
  | some c =>
    obtain ⟨ev, h⟩ := matching_loop W n L hL (ofStorage L s) "SearchCriteria" c method_match (Dict.values s.events) [] none
    simp only [matchingEnv, List.nil_append, ofStorage] at h
    lang [Source.StorageBase_getMatchingEvents, ofOption_some, ofCriteria, ofStorage, storage_events, events_values, h, Storage.matching, Option.getD_some]

/-! ### `getEvents` -/

theorem comp_inPeriod (W n : Nat) (L : Listing) (b e : Option Int) (l : List Event) :
    collect (fun v => Source.prog.call W (n + 1) "inPeriod" [v, ofPeriod b e] []) (fun v => .ok v) (l.map (ofEvent L))
    = match filterInPeriod b e l with
      | .ok l => .ok (l.map (ofEvent L))
      | .error f => .error (ofFault f) := by
  induction l with
  | nil => rfl
  | cons a l ih =>
    rw [List.map_cons]
    unfold collect filterInPeriod
    have h : Source.prog.call W (n + 1) "inPeriod" [ofEvent L a, ofPeriod b e] [] = toM .bool (inPeriod a.dtstart a.duration b e) :=
      inPeriod_prog _ _ _ _ _ _ _ _ rfl rfl
    rw [h, ih]
    cases inPeriod a.dtstart a.duration b e with
    | error f => cases f <;> rfl
    | ok k => cases k <;> cases filterInPeriod b e l <;> rfl

theorem method_getMatching : Source.prog.method 4 "MemoryStorage" "_getMatchingEvents" = some "StorageBase._getMatchingEvents" := rfl

theorem getEvents_prog (W n : Nat) (L : Listing) (hL : L.Faithful) (s : Storage) (b e : Option Int) (c : Option Criteria) :
    Source.prog.call W (n + 6) "StorageBase.getEvents" [ofStorage L s, ofPeriod b e, ofOption (ofCriteria L) c] []
    = toM (fun l => .list (l.map (ofEvent L))) (s.getEvents b e c) := by
  rw [call_eq (d := Source.StorageBase_getEvents) rfl]
  have h := matching_prog W n L hL s c
  have hc := comp_inPeriod W (n + 4) L b e (s.matching c)
  rw [ofStorage] at h
  unfold Storage.getEvents
  cases hf : filterInPeriod b e (s.matching c) with
  | ok l =>
    rw [hf] at hc
    lang [Source.StorageBase_getEvents, ofStorage, ctx_method, method_getMatching, ctx_call, h, hc, toM_ok]
  | error f =>
    rw [hf] at hc
    lang [Source.StorageBase_getEvents, ofStorage, ctx_method, method_getMatching, ctx_call, h, hc, toM_error]

/-! ### `getOccurrences` -/

theorem bounded_prog (W n : Nat) (b e : Option Int) :
    Source.prog.call W (n + 1) "assertPeriodBounded" [ofPeriod b e] []
    = if b.isSome && e.isSome then .ok .none else .error (.py .AssertionError) := by
  rw [call_eq (d := Source.assertPeriodBounded) rfl]
  cases b <;> cases e <;> rfl

theorem method_event_expand : Source.prog.method 4 "Event" "expand" = some "EventBase.expand" := rfl

/-- The environment of `getOccurrences`. -/
def occEnv (self period cr events : Val) (res : List Val) (ev : Option Val) : Env :=
  [("self", some self), ("period", some period), ("search_criteria", some cr), ("events", some events), ("result", some (.list res)),
   ("event", ev)]

theorem occ_step (W n : Nat) (L : Listing) (b en : Int) (self cr events : Val) (e : Event) (he : Expandable e en) (hW : EventFuel W e)
    (acc : List (Occurrence Event)) (s : State)
    (hs : ∃ x, s = ⟨occEnv self (ofPeriod (some b) (some en)) cr events (acc.map (ofOcc (ofEvent L))) x, []⟩) :
    FollowsC (fun acc s => ∃ x, s = ⟨occEnv self (ofPeriod (some b) (some en)) cr events (acc.map (ofOcc (ofEvent L))) x, []⟩)
      (do
        let here ← e.expand b en
        .ok (acc ++ here))
      (forBody (Source.prog.ctx W (n + 4)) W (.name "event") Source.StorageBase_getOccurrences_loop1 (ofEvent L e) s) := by
  obtain ⟨x, rfl⟩ := hs
  have h := expand_prog W n L e b en he hW
  rw [ofEvent] at h
  cases hx : e.expand b en with
  | error f =>
    rw [hx, toM_error] at h
    refine FollowsC.error rfl (by lang [forBody, Source.StorageBase_getOccurrences_loop1, occEnv, ofEvent, ctx_method, method_event_expand, ctx_call, h]; rfl)
  | ok l =>
    rw [hx, toM_ok, ofOccs] at h
    refine FollowsC.ok (c := acc ++ l) rfl
      (by lang [forBody, Source.StorageBase_getOccurrences_loop1, occEnv, ofEvent, ctx_method, method_event_expand, ctx_call, h]; rfl)
      ⟨some (ofEvent L e), by simp [occEnv, ofEvent]⟩

theorem occ_fold (b en : Int) (l : List Event) (acc : List (Occurrence Event)) :
    l.foldlM (fun acc e => do
      let here ← e.expand b en
      .ok (acc ++ here)) acc = (do
      let m ← expandAll b en l
      .ok (acc ++ m)) :=
  fold_concat (step := fun e => e.expand b en) (F := expandAll b en) rfl (fun _ _ => rfl) l acc

/-- Every stored event that matches can be expanded. -/
def Ready (W : Nat) (s : Storage) (c : Option Criteria) (en : Int) : Prop := ∀ e ∈ s.matching c, Expandable e en ∧ EventFuel W e

theorem getOccurrences_prog (W n : Nat) (L : Listing) (hL : L.Faithful) (s : Storage) (b e : Option Int) (c : Option Criteria)
    (hr : ∀ b' en, b = some b' → e = some en → Ready W s c en) :
    Source.prog.call W (n + 6) "StorageBase.getOccurrences" [ofStorage L s, ofPeriod b e, ofOption (ofCriteria L) c] []
    = toM (ofOccs L) (s.getOccurrences b e c) := by
  have hb := bounded_prog W (n + 4) b e
  rw [call_eq (d := Source.StorageBase_getOccurrences) rfl]
  cases b with
  | none =>
    rw [Option.isSome_none, Bool.false_and] at hb
    lang [Source.StorageBase_getOccurrences, ctx_call, hb, Storage.getOccurrences, raise, toM_py]
  | some b =>
    cases e with
    | none =>
      rw [Option.isSome_none, Bool.and_false] at hb
      lang [Source.StorageBase_getOccurrences, ctx_call, hb, Storage.getOccurrences, raise, toM_py]
    | some en =>
      rw [Option.isSome_some, Option.isSome_some, Bool.and_self] at hb
      have h := matching_prog W n L hL s c
      have hl := forLoop_fold (g := ofEvent L) (f := fun acc e => do
          let here ← e.expand b en
          .ok (acc ++ here)) (s.matching c)
        (fun acc e he st hs => occ_step W (n + 1) L b en (ofStorage L s) (ofOption (ofCriteria L) c)
          (.list ((s.matching c).map (ofEvent L))) e (hr b en rfl rfl e he).1 (hr b en rfl rfl e he).2 acc st hs) []
        ⟨occEnv (ofStorage L s) (ofPeriod (some b) (some en)) (ofOption (ofCriteria L) c) (.list ((s.matching c).map (ofEvent L))) [] none, []⟩
        ⟨_, rfl⟩
      rw [occ_fold] at hl
      simp only [occEnv, ofStorage] at hl
      rw [show n + 1 + 4 = n + 5 from rfl] at hl
      rw [ofStorage] at h
      unfold Storage.getOccurrences
      simp only []
      cases hx : expandAll b en (s.matching c) with
      | error f =>
        obtain ⟨st, hs⟩ := hl.2 f (by rw [hx]; rfl)
        lang [Source.StorageBase_getOccurrences, ofStorage, ctx_call, hb, ctx_method, method_getMatching, h, hs, toM_error]
      | ok l =>
        obtain ⟨st, hs, x, rfl⟩ := hl.1 l (by rw [hx]; rfl)
        lang [Source.StorageBase_getOccurrences, ofStorage, ctx_call, hb, ctx_method, method_getMatching, h, hs, toM_ok, ofOccs]

/-! ### the storage manager -/

theorem manager_storage (d : Val) : getAttr "_storage" [("_storage", d)] = .ok d := rfl
theorem method_storage_getEvents : Source.prog.method 4 "MemoryStorage" "getEvents" = some "StorageBase.getEvents" := rfl
theorem method_storage_getOccurrences : Source.prog.method 4 "MemoryStorage" "getOccurrences" = some "StorageBase.getOccurrences" := rfl
theorem method_storage_getEvent : Source.prog.method 4 "MemoryStorage" "getEvent" = some "StorageBase.getEvent" := rfl
theorem method_manager_getEvent : Source.prog.method 4 "StorageManager" "getEvent" = some "StorageManagerBase.getEvent" := rfl
theorem method_manager_getOccurrences : Source.prog.method 4 "StorageManager" "getOccurrences" = some "StorageManagerBase.getOccurrences" := rfl
theorem method_manager_segmented :
    Source.prog.method 4 "StorageManager" "getOccurrencesSegmented" = some "StorageManagerBase.getOccurrencesSegmented" := rfl
theorem method_manager_blocked : Source.prog.method 4 "StorageManager" "getBlockedPeriods" = some "StorageManagerBase.getBlockedPeriods" := rfl

theorem lookup_events (L : Listing) (d : Dict Uid Event) (uid : Uid) :
    getIndex.lookup (d.map (fun p => ((.str p.1 : Val), ofEvent L p.2))) (.str uid)
    = match Dict.get? d uid with
      | some e => .ok (ofEvent L e)
      | none => .error (.py .KeyError) := by
  induction d with
  | nil => rfl
  | cons p d ih =>
    rw [List.map_cons]
    unfold getIndex.lookup
    rw [eq_str, ih]
    unfold Dict.get?
    by_cases h : p.1 = uid <;> simp [h]

theorem getEvent_prog (W n : Nat) (L : Listing) (s : Storage) (uid : Uid) :
    Source.prog.call W (n + 1) "StorageBase.getEvent" [ofStorage L s, .str uid] [] = toM (ofEvent L) (s.getEvent uid) := by
  rw [call_eq (d := Source.StorageBase_getEvent) rfl]
  have h := lookup_events L s.events uid
  unfold Storage.getEvent
  cases hg : Dict.get? s.events uid with
  | none =>
    rw [hg] at h
    lang [Source.StorageBase_getEvent, ofStorage, storage_events, h, raise, toM_py]
  | some e =>
    rw [hg] at h
    lang [Source.StorageBase_getEvent, ofStorage, storage_events, h, toM_ok]

theorem manager_getEvent (W n : Nat) (L : Listing) (s : Storage) (uid : Uid) :
    Source.prog.call W (n + 2) "StorageManagerBase.getEvent" [ofManager L s, .str uid] [] = toM (ofEvent L) (s.getEvent uid) := by
  have h := getEvent_prog W n L s uid
  rw [ofStorage] at h
  rw [call_eq (d := Source.StorageManagerBase_getEvent) rfl]
  cases hg : s.getEvent uid with
  | error f => rw [hg] at h; lang [Source.StorageManagerBase_getEvent, ofManager, manager_storage, ofStorage, ctx_method, method_storage_getEvent, ctx_call, h, toM_error]
  | ok e => rw [hg] at h; lang [Source.StorageManagerBase_getEvent, ofManager, manager_storage, ofStorage, ctx_method, method_storage_getEvent, ctx_call, h, toM_ok]

theorem manager_hasEvent (W n : Nat) (L : Listing) (s : Storage) (uid : Uid) :
    Source.prog.call W (n + 3) "StorageManagerBase.hasEvent" [ofManager L s, .str uid] [] = .ok (.bool (s.hasEvent uid)) := by
  have h := manager_getEvent W n L s uid
  rw [ofManager] at h
  rw [call_eq (d := Source.StorageManagerBase_hasEvent) rfl]
  unfold Storage.hasEvent
  unfold Storage.getEvent at h ⊢
  cases hg : Dict.get? s.events uid with
  | none => rw [hg] at h; lang [Source.StorageManagerBase_hasEvent, ofManager, ctx_method, method_manager_getEvent, ctx_call, h, toM_py, raise, catching, List.mem_singleton]
  | some e => rw [hg] at h; lang [Source.StorageManagerBase_hasEvent, ofManager, ctx_method, method_manager_getEvent, ctx_call, h, toM_ok]

theorem manager_getEvents (W n : Nat) (L : Listing) (hL : L.Faithful) (s : Storage) (b e : Option Int) (c : Option Criteria) :
    Source.prog.call W (n + 7) "StorageManagerBase.getEvents" [ofManager L s, ofPeriod b e, ofOption (ofCriteria L) c] []
    = toM (fun l => .list (l.map (ofEvent L))) (s.getEvents b e c) := by
  have h := getEvents_prog W n L hL s b e c
  rw [ofStorage] at h
  rw [call_eq (d := Source.StorageManagerBase_getEvents) rfl]
  cases hg : s.getEvents b e c with
  | error f => rw [hg] at h; lang [Source.StorageManagerBase_getEvents, ofManager, manager_storage, ofStorage, ctx_method, method_storage_getEvents, ctx_call, h, toM_error]
  | ok e => rw [hg] at h; lang [Source.StorageManagerBase_getEvents, ofManager, manager_storage, ofStorage, ctx_method, method_storage_getEvents, ctx_call, h, toM_ok]

theorem manager_getOccurrences (W n : Nat) (L : Listing) (hL : L.Faithful) (s : Storage) (b e : Option Int) (c : Option Criteria)
    (hr : ∀ b' en, b = some b' → e = some en → Ready W s c en) :
    Source.prog.call W (n + 7) "StorageManagerBase.getOccurrences" [ofManager L s, ofPeriod b e, ofOption (ofCriteria L) c] []
    = toM (ofOccs L) (s.getOccurrences b e c) := by
  have h := getOccurrences_prog W n L hL s b e c hr
  rw [ofStorage] at h
  rw [call_eq (d := Source.StorageManagerBase_getOccurrences) rfl]
  cases hg : s.getOccurrences b e c with
  | error f => rw [hg] at h; lang [Source.StorageManagerBase_getOccurrences, ofManager, manager_storage, ofStorage, ctx_method, method_storage_getOccurrences, ctx_call, h, toM_error]
  | ok e => rw [hg] at h; lang [Source.StorageManagerBase_getOccurrences, ofManager, manager_storage, ofStorage, ctx_method, method_storage_getOccurrences, ctx_call, h, toM_ok]

theorem manager_segmented (W n : Nat) (L : Listing) (hL : L.Faithful) (s : Storage) (b e : Option Int) (c : Option Criteria)
    (hr : ∀ b' en, b = some b' → e = some en → Ready W s c en ∧ (en / DAY - b' / DAY).toNat + 5 ≤ W) :
    Source.prog.call W (n + 8) "StorageManagerBase.getOccurrencesSegmented" [ofManager L s, ofPeriod b e, ofOption (ofCriteria L) c] []
    = toM (ofOccs L) (s.getOccurrencesSegmented b e c) := by
  have h := manager_getOccurrences W n L hL s b e c (fun b' en h1 h2 => (hr b' en h1 h2).1)
  rw [ofManager] at h
  rw [call_eq (d := Source.StorageManagerBase_getOccurrencesSegmented) rfl]
  unfold Storage.getOccurrencesSegmented
  cases hg : s.getOccurrences b e c with
  | error f => rw [hg] at h; lang [Source.StorageManagerBase_getOccurrencesSegmented, ofManager, ctx_method, method_manager_getOccurrences, ctx_call, h, toM_error, error_bind]
  | ok l =>
    rw [hg] at h
    rw [ok_bind]
    cases b with
    | none => simp [Storage.getOccurrences, raise] at hg
    | some b =>
      cases e with
      | none => simp [Storage.getOccurrences, raise] at hg
      | some en =>
        have h2 := segment_prog (ofEvent L) W (n + 5) b en (hr b en rfl rfl).2 l
        simp only []
        cases hs : segmentOccurrences b en l with
        | error f => rw [hs] at h2; lang [Source.StorageManagerBase_getOccurrencesSegmented, ofManager, ctx_method, method_manager_getOccurrences, ctx_call, h, toM_ok, ofOccs, h2, toM_error]
        | ok m => rw [hs] at h2; lang [Source.StorageManagerBase_getOccurrencesSegmented, ofManager, ctx_method, method_manager_getOccurrences, ctx_call, h, toM_ok, ofOccs, h2]

end CalCore.Lang
