import Verif.Lemmas.SourceICal
import Verif.Lemmas.SourceImportSpec
import Verif.Spec.RepresentExport
/- `EventBase.export` as written. -/
namespace CalCore.Lang

/-! ### components that are written -/

theorem icalEvent_new : callPrim .icalEvent [] [] = .ok (ofWritten []) := rfl

theorem mut_put (d : Dict String Val) (k : String) (v : Val) :
    callMut .add (ofWritten d) [.str k, v] = .ok (ofWritten (d ++ [(k, v)]), .none) := by
  unfold ofWritten
  rw [callMut]
  simp only [if_true, List.map_append, List.map_cons, List.map_nil]

theorem mut_put3 (d : Dict String Val) (k : String) (v w : Val) :
    callMut .add (ofWritten d) [.str k, v, w] = .ok (ofWritten (d ++ [(k, v)]), .none) := by
  unfold ofWritten
  rw [callMut]
  simp only [if_true, List.map_append, List.map_cons, List.map_nil]

theorem mut_inline (d : Dict String Val) (k : String) (v : Val) :
    callMut .setInline (ofWritten d) [.str k, v] = .ok (ofWritten (d ++ [(k, .obj "vInline" [("list", v)])]), .none) := by
  unfold ofWritten
  rw [callMut]
  simp only [if_true, List.map_append, List.map_cons, List.map_nil]

theorem vRecur_map (d : Dict String Val) :
    callPrim .vRecur [ofMap d] [] = .ok (.obj "vRecur" [("parts", ofMap (d.map (fun p => (p.1, .list [p.2]))))]) := by
  unfold ofMap
  rw [callPrim]
  simp only [List.map_map, Function.comp_def]

/-! ### attributes -/

section
variable (L : Listing) (e : Event)
theorem ev_allday : attrVal "allday" (ofEvent L e) = .ok (.bool e.allday) := rfl
theorem ev_dtstart : attrVal "dtstart" (ofEvent L e) = .ok (.datetime e.dtstart) := rfl
theorem ev_duration : attrVal "duration" (ofEvent L e) = .ok (ofOption .delta e.duration) := rfl
theorem ev_recurrence : attrVal "recurrence" (ofEvent L e) = .ok (ofOption ofRule e.recurrence) := rfl
theorem ev_transparent : attrVal "transparent" (ofEvent L e) = .ok (.bool e.transparent) := rfl
theorem ev_uid : attrVal "unique_id" (ofEvent L e) = .ok (.str e.uid) := rfl
theorem ev_access : attrVal "access" (ofEvent L e) = .ok (.str e.access) := rfl
theorem ev_title : attrVal "title" (ofEvent L e) = .ok (.str e.title) := rfl
theorem ev_description : attrVal "description" (ofEvent L e) = .ok (.str e.description) := rfl
theorem ev_location : attrVal "location" (ofEvent L e) = .ok (.str e.location) := rfl
theorem ev_categories : attrVal "categories" (ofEvent L e) = .ok (.set ((L.cats e.categories).map .str)) := rfl
theorem ev_document : attrVal "document" (ofEvent L e) = .ok (ofOption .str e.document) := rfl
theorem ev_status : attrVal "status" (ofEvent L e) = .ok (.str e.status) := rfl
end

/-- An attribute of an object or of its class. -/
def cattrVal (G : Ctx) (name : String) : Val → M Val
  | .obj cls attrs => G.attrOf cls name attrs
  | .none => err .AttributeError
  | _ => stuck

theorem eval_cattr (G : Ctx) (env : Env) (e : Expr) (name : String) :
    eval G env (.cattr e name) = (do cattrVal G name (← eval G env e)) := by
  rw [eval]
  rfl

/-! ### the statements -/

/-- The local variables of `export`. -/
def exEnv (self priv : Val) (e ds de dep r d : Option Val) : Env :=
  [("self", some self), ("private", some priv), ("e", e), ("dtstart_prop", ds), ("dtend", de), ("dtend_prop", dep), ("r", r), ("d", d)]

def exTimes : Stmt :=
    .ite (.not (.attr (.var "self") "allday")) [
      .mutate none "e" .add [(.const (.str "dtstart")), (.attr (.var "self") "dtstart")],
      .mutate none "e" .add [(.const (.str "dtend")), (.bin .add (.attr (.var "self") "dtstart") (.attr (.var "self") "duration"))]] [
      .assign (.name "dtstart_prop") (.prim .vDate [(.meth (.attr (.var "self") "dtstart") .date [] [])] []),
      .assign (.attrItem "dtstart_prop" "params" (.const (.str "VALUE"))) (.prim .vText [(.const (.str "DATE"))] []),
      .mutate none "e" .add [(.const (.str "dtstart")), (.var "dtstart_prop"), (.const (.int 0))],
      .assign (.name "dtend") (.bin .add (.attr (.var "self") "dtstart") (.attr (.var "self") "duration")),
      .assign (.name "dtend_prop") (.prim .vDate [(.var "dtend")] []),
      .assign (.attrItem "dtend_prop" "params" (.const (.str "VALUE"))) (.prim .vText [(.const (.str "DATE"))] []),
      .mutate none "e" .add [(.const (.str "dtend")), (.var "dtend_prop"), (.const (.int 0))]]

def exRule : Stmt :=
    .ite (.cmp .isNot (.attr (.var "self") "recurrence") (.const .none)) [
      .assign (.name "r") (.attr (.var "self") "recurrence"),
      .assign (.name "d") (.dict [("freq", (.cattr (.var "r") "ical_freq")), ("interval", (.attr (.var "r") "interval"))]),
      .ite (.cmp .isNot (.attr (.var "r") "count") (.const .none)) [
        .assign (.item "d" (.const (.str "count"))) (.attr (.var "r") "count")] [],
      .ite (.cmp .isNot (.attr (.var "r") "until") (.const .none)) [
        .assign (.item "d" (.const (.str "until"))) (.attr (.var "r") "until")] [],
      .mutate none "e" .add [(.const (.str "rrule")), (.prim .vRecur [(.var "d")] [])]] []

def exBase : List Stmt := [
    .ite (.attr (.var "self") "transparent") [
      .mutate none "e" .add [(.const (.str "transp")), (.const (.str "TRANSPARENT"))]] [
      .mutate none "e" .add [(.const (.str "transp")), (.const (.str "OPAQUE"))]],
    .mutate none "e" .add [(.const (.str "uid")), (.attr (.var "self") "unique_id")],
    .mutate none "e" .add [(.const (.str "class")), (.attr (.var "self") "access")]]

def exPrivate : Stmt :=
    .ite (.var "private") [
      .mutate none "e" .add [(.const (.str "summary")), (.const (.str "Private Event"))],
      .ret (.var "e")] []

def exTexts : List Stmt := [
    .mutate none "e" .add [(.const (.str "summary")), (.attr (.var "self") "title")],
    .ite (.attr (.var "self") "description") [
      .mutate none "e" .add [(.const (.str "description")), (.attr (.var "self") "description")]] [],
    .ite (.attr (.var "self") "location") [
      .mutate none "e" .add [(.const (.str "location")), (.attr (.var "self") "location")]] []]

def exRest : List Stmt := [
    .ite (.attr (.var "self") "categories") [
      .mutate none "e" .setInline [(.const (.str "categories")), (.prim .list [(.attr (.var "self") "categories")] [])]] [],
    .ite (.attr (.var "self") "document") [
      .mutate none "e" .add [(.const (.str "attach")), (.attr (.var "self") "document")]] [],
    .mutate none "e" .add [(.const (.str "status")), (.attr (.var "self") "status")],
    .ret (.var "e")]

def exBody : List Stmt :=
  .assign (.name "e") (.prim .icalEvent [] []) :: exTimes :: exRule :: (exBase ++ exPrivate :: (exTexts ++ exRest))

theorem export_def : Source.EventBase_export = ⟨.fn, [("self", none), ("private", some (.bool false))],
    ["e", "dtstart_prop", "dtend", "dtend_prop", "r", "d"], exBody⟩ := rfl

theorem times_stmt (W n : Nat) (L : Listing) (ev : Event) (priv : Val) (dur : TimeDelta) (hd : ev.duration = some dur) (x : DateTime)
    (hx : dtAdd ev.dtstart dur = .ok x) :
    ∃ ds de dep, exec (Source.prog.ctx W n) W exTimes ⟨exEnv (ofEvent L ev) priv (some (ofWritten [])) none none none none none, []⟩ =
      (⟨exEnv (ofEvent L ev) priv (some (ofWritten [
        ("dtstart", writtenTime (if ev.allday then .date (dtDate ev.dtstart) else .naive ev.dtstart)),
        ("dtend", writtenTime (if ev.allday then .date (dtDate x) else .naive x))])) ds de dep none none, []⟩, .next) := by
  have hadd : (lift (dtAdd ev.dtstart dur)).map Val.datetime = .ok (.datetime x) := by
    rw [hx]; rfl
  cases ha : ev.allday
  · refine ⟨none, none, none, ?_⟩
    lang [exTimes, exEnv, ↓eval_attr, ev_allday, ev_dtstart, ev_duration, ha, hd, ofOption_some, mut_put, hadd, writtenTime,
      List.nil_append, List.cons_append]
  · refine ⟨some (dayProp (dtDate ev.dtstart)), some (.datetime x), some (dayProp (dtDate x)), ?_⟩
    have hset : ∀ d, setItemOf "params" (.obj "vText" [("text", .str "DATE")]) (.ok (.str "VALUE")) (.obj "vDate" [("dt", .date d), ("params", .dict [])])
        = .ok (dayProp d) := fun d => rfl
    have hv : ∀ d, callPrim .vDate [.date d] [] = .ok (.obj "vDate" [("dt", .date d), ("params", .dict [])]) := fun d => rfl
    have hv' : ∀ t, callPrim .vDate [.datetime t] [] = .ok (.obj "vDate" [("dt", .date (dtDate t)), ("params", .dict [])]) := fun d => rfl
    have ht : callPrim .vText [.str "DATE"] [] = .ok (.obj "vText" [("text", .str "DATE")]) := rfl
    lang [exTimes, exEnv, ↓eval_attr, ev_allday, ev_dtstart, ev_duration, ha, hd, ofOption_some, mut_put3, hadd, writtenTime,
      ↓assign_attrItem, hset, hv, hv', ht, List.nil_append, List.cons_append]

theorem times_fail (W n : Nat) (L : Listing) (ev : Event) (priv : Val) (f : Fault) (hf : (match ev.duration with
      | none => raise .TypeError
      | some dur => dtAdd ev.dtstart dur) = .error f) :
    ∃ s, exec (Source.prog.ctx W n) W exTimes ⟨exEnv (ofEvent L ev) priv (some (ofWritten [])) none none none none none, []⟩ =
      (s, .stop (ofFault f)) := by
  have hv : ∀ d, callPrim .vDate [.date d] [] = .ok (.obj "vDate" [("dt", .date d), ("params", .dict [])]) := fun d => rfl
  have ht : callPrim .vText [.str "DATE"] [] = .ok (.obj "vText" [("text", .str "DATE")]) := rfl
  have hset : ∀ d, setItemOf "params" (.obj "vText" [("text", .str "DATE")]) (.ok (.str "VALUE")) (.obj "vDate" [("dt", .date d), ("params", .dict [])])
        = .ok (dayProp d) := fun d => rfl
  cases hd : ev.duration with
  | none =>
    rw [hd] at hf
    injection hf with hf
    subst hf
    cases ha : ev.allday
    · refine ⟨?_, ?_⟩
      rotate_left
      · lang [exTimes, exEnv, ↓eval_attr, ev_allday, ev_dtstart, ev_duration, ha, hd, ofOption, mut_put]
        rfl
    · refine ⟨?_, ?_⟩
      rotate_left
      · lang [exTimes, exEnv, ↓eval_attr, ev_allday, ev_dtstart, ev_duration, ha, hd, ofOption, mut_put3, ↓assign_attrItem, hset, hv, ht]
        rfl
  | some dur =>
    rw [hd] at hf
    simp only [] at hf
    have hadd : (lift (dtAdd ev.dtstart dur)).map Val.datetime = .error (ofFault f) := by
      rw [hf]; cases f <;> rfl
    cases ha : ev.allday
    · refine ⟨?_, ?_⟩
      rotate_left
      · lang [exTimes, exEnv, ↓eval_attr, ev_allday, ev_dtstart, ev_duration, ha, hd, ofOption_some, mut_put, hadd]
        rfl
    · refine ⟨?_, ?_⟩
      rotate_left
      · lang [exTimes, exEnv, ↓eval_attr, ev_allday, ev_dtstart, ev_duration, ha, hd, ofOption_some, mut_put3, ↓assign_attrItem, hset, hv, ht,
          hadd]
        rfl

theorem rule_stmt (W n : Nat) (L : Listing) (ev : Event) (priv : Val) (p : Dict String Val) (ds de dep : Option Val) :
    ∃ r d, exec (Source.prog.ctx W n) W exRule ⟨exEnv (ofEvent L ev) priv (some (ofWritten p)) ds de dep none none, []⟩ =
      (⟨exEnv (ofEvent L ev) priv (some (ofWritten (p ++ putting "rrule" ((ev.recurrence.map exportRule).map writtenRule)))) ds de dep r d,
        []⟩, .next) := by
  cases hr : ev.recurrence with
  | none =>
    refine ⟨none, none, ?_⟩
    lang [exRule, exEnv, ↓eval_attr, ev_recurrence, hr, ofOption]
    rw [show putting "rrule" ((Option.map exportRule none).map writtenRule) = [] from rfl, List.append_nil]
  | some r =>
    have h1 : attrVal "interval" (ofRule r) = .ok (.int r.interval) := rfl
    have h2 : attrVal "count" (ofRule r) = .ok (ofOption .int r.count) := rfl
    have h3 : attrVal "until" (ofRule r) = .ok (ofOption ofUntil r.untl) := rfl
    refine ⟨some (ofRule r), some (ofMap ([("freq", ofOption .str r.kind.icalFreq), ("interval", .int r.interval)] ++
      putting "count" (r.count.map .int) ++ putting "until" (r.untl.map ofUntil))), ?_⟩
    have hw : putting "rrule" ((Option.map exportRule (some r)).map writtenRule) = [("rrule", writtenRule (exportRule r))] := rfl
    have hf : cattrVal (Source.prog.ctx W n) "ical_freq" (ofRule r) = .ok (ofOption .str r.kind.icalFreq) := freq_attr W n r _ rfl
    have hn : Val.is (ofRule r) .none = .ok false := by rw [ofRule]; cases r.kind <;> rfl
    have hm : Val.dict [(.str "freq", ofOption .str r.kind.icalFreq), (.str "interval", .int r.interval)] =
      ofMap [("freq", ofOption .str r.kind.icalFreq), ("interval", .int r.interval)] := rfl
    have hc : ∀ u : Until, Val.is (ofUntil u) .none = .ok false := fun u => by cases u <;> rfl
    have hi : ∀ i : Int, Val.is (.int i) .none = .ok false := fun u => rfl
    have hp : ∀ (k : String) (o : Option Val), putting k o = (match o with
      | none => []
      | some v => [(k, v)]) := fun k o => by cases o <;> rfl
    rw [hw]
    unfold writtenRule writtenParts exportRule
    simp only [hp, Option.map_some, List.map_cons, List.map_nil]
    generalize ofOption Val.str r.kind.icalFreq = fv at hf hm ⊢
    cases hco : r.count <;> cases hu : r.untl <;>
    · lang [exRule, exEnv, ↓eval_attr, ↓eval_cattr, ev_recurrence, hr, ofOption_some, hf, hn, h1, h2, h3, hm, hco, hu, ofOption, hc, hi,
        ↓assign_item, setIn_map, Dict.set, vRecur_map, mut_put, Option.map_some, Option.map_none]

theorem base_stmts (W n : Nat) (L : Listing) (ev : Event) (priv : Val) (p : Dict String Val) (ds de dep r d : Option Val) :
    execs (Source.prog.ctx W n) W exBase ⟨exEnv (ofEvent L ev) priv (some (ofWritten p)) ds de dep r d, []⟩ =
      (⟨exEnv (ofEvent L ev) priv (some (ofWritten (p ++ [("transp", .str (if ev.transparent then "TRANSPARENT" else "OPAQUE")),
        ("uid", .str ev.uid), ("class", .str ev.access)]))) ds de dep r d, []⟩, .next) := by
  cases ht : ev.transparent <;>
  lang [exBase, exEnv, ↓eval_attr, ev_transparent, ev_uid, ev_access, ht, mut_put, List.append_assoc, List.cons_append, List.nil_append]

theorem private_stmt (W n : Nat) (L : Listing) (ev : Event) (b : Bool) (p : Dict String Val) (ds de dep r d : Option Val) :
    ∃ s, exec (Source.prog.ctx W n) W exPrivate ⟨exEnv (ofEvent L ev) (.bool b) (some (ofWritten p)) ds de dep r d, []⟩ =
      (if b then (s, .ret (ofWritten (p ++ [("summary", .str "Private Event")])))
        else (⟨exEnv (ofEvent L ev) (.bool b) (some (ofWritten p)) ds de dep r d, []⟩, .next)) := by
  cases b
  · refine ⟨⟨[], []⟩, ?_⟩
    lang [exPrivate, exEnv]
  · refine ⟨?_, ?_⟩
    rotate_left
    · lang [exPrivate, exEnv, mut_put]
      rfl

theorem putting_some (k : String) (v : Val) : putting k (some v) = [(k, v)] := rfl
theorem putting_none (k : String) : putting k none = [] := rfl

theorem text_stmts (W n : Nat) (L : Listing) (ev : Event) (priv : Val) (p : Dict String Val) (ds de dep r d : Option Val) :
    execs (Source.prog.ctx W n) W exTexts ⟨exEnv (ofEvent L ev) priv (some (ofWritten p)) ds de dep r d, []⟩ =
      (⟨exEnv (ofEvent L ev) priv (some (ofWritten (p ++ ([("summary", .str ev.title)] ++
        putting "description" ((if ev.description = "" then none else some ev.description).map .str) ++
        putting "location" ((if ev.location = "" then none else some ev.location).map .str))))) ds de dep r d, []⟩, .next) := by
  by_cases h1 : ev.description = "" <;> by_cases h2 : ev.location = "" <;>
  lang [exTexts, exEnv, ↓eval_attr, ev_title, ev_description, ev_location, h1, h2, truthy_str, mut_put, List.append_assoc, List.cons_append,
    List.nil_append, Option.map_some, Option.map_none, putting_some, putting_none, List.append_nil]

/-- The document that is exported. -/
def exDocument (ev : Event) : Option String :=
  match ev.document with
  | some d => if d = "" then none else some d
  | none => none

theorem rest_stmts (W n : Nat) (L : Listing) (hL : L.Faithful) (ev : Event) (priv : Val) (p : Dict String Val) (ds de dep r d : Option Val) :
    ∃ s, execs (Source.prog.ctx W n) W exRest ⟨exEnv (ofEvent L ev) priv (some (ofWritten p)) ds de dep r d, []⟩ =
      (s, .ret (ofWritten (p ++ (putting "categories" (writtenCategories
        (if ev.categories = ∅ then .absent else .inline (L.cats ev.categories))) ++
        putting "attach" ((exDocument ev).map .str) ++ [("status", .str ev.status)])))) := by
  have hl : ∀ l : List Val, callPrim .list [.set l] [] = .ok (.list l) := fun l => rfl
  have ht : Val.truthy (.set ((L.cats ev.categories).map .str)) = !decide (ev.categories = ∅) := by
    by_cases h : ev.categories = ∅
    · have : L.cats ev.categories = [] := by
        rw [List.eq_nil_iff_forall_not_mem]
        intro c hc
        rw [hL, h] at hc
        simp at hc
      rw [this, h]
      rfl
    · rw [decide_eq_false h]
      obtain ⟨c, hc⟩ := Finset.nonempty_iff_ne_empty.2 h
      rw [← hL] at hc
      cases hq : L.cats ev.categories with
      | nil => rw [hq] at hc; cases hc
      | cons x l => rfl
  have hd : Val.truthy (ofOption .str ev.document) = (exDocument ev).isSome := by
    unfold exDocument
    cases ev.document with
    | none => rfl
    | some x =>
      simp only [ofOption, truthy_str]
      by_cases h : x = "" <;> simp [h]
  have hd' : (exDocument ev).isSome = true → exDocument ev = ev.document := by
    unfold exDocument
    cases ev.document with
    | none => intro h; cases h
    | some x => by_cases h : x = "" <;> simp [h]
  rcases h2 : exDocument ev with _ | x
  · rw [h2] at hd
    simp only [Option.isSome_none] at hd
    by_cases h1 : ev.categories = ∅
    · simp only [h1, decide_true, Bool.not_true] at ht
      refine ⟨?_, ?_⟩
      rotate_left
      · lang [exRest, exEnv, ↓eval_attr, ev_categories, ev_document, ev_status, ht, hd, mut_put, List.append_assoc, List.cons_append,
          List.nil_append, Option.map_some, Option.map_none, putting_some, putting_none, List.append_nil, writtenCategories, h1]
        rfl
    · simp only [h1, decide_false, Bool.not_false] at ht
      refine ⟨?_, ?_⟩
      rotate_left
      · lang [exRest, exEnv, ↓eval_attr, ev_categories, ev_document, ev_status, ht, hd, mut_put, List.append_assoc, List.cons_append,
          hl, mut_inline,
          List.nil_append, Option.map_some, Option.map_none, putting_some, putting_none, List.append_nil, writtenCategories, h1]
        rfl
  · rw [h2] at hd hd'
    have hd' := (hd' rfl).symm
    rw [hd'] at hd
    rw [ofOption_some] at hd
    simp only [Option.isSome_some] at hd
    by_cases h1 : ev.categories = ∅
    · simp only [h1, decide_true, Bool.not_true] at ht
      refine ⟨?_, ?_⟩
      rotate_left
      · lang [exRest, exEnv, ↓eval_attr, ev_categories, ev_document, hd', ofOption_some, ev_status, ht, hd, mut_put, List.append_assoc,
          List.cons_append, List.nil_append, Option.map_some, Option.map_none, putting_some, putting_none, List.append_nil,
          writtenCategories, h1]
        rfl
    · simp only [h1, decide_false, Bool.not_false] at ht
      refine ⟨?_, ?_⟩
      rotate_left
      · lang [exRest, exEnv, ↓eval_attr, ev_categories, ev_document, hd', ofOption_some, ev_status, ht, hd, mut_put, List.append_assoc,
          List.cons_append, List.nil_append, Option.map_some, Option.map_none, putting_some, putting_none, List.append_nil,
          hl, mut_inline, writtenCategories, h1]
        rfl

theorem body_export (W n : Nat) (L : Listing) (hL : L.Faithful) (ev : Event) (b : Bool) :
    FunDef.result ⟨.fn, [("self", none), ("private", some (.bool false))], ["e", "dtstart_prop", "dtend", "dtend_prop", "r", "d"], exBody⟩
      (execs (Source.prog.ctx W n) W exBody ⟨exEnv (ofEvent L ev) (.bool b) none none none none none none, []⟩) =
    toM (fun v => ofWritten (writtenProps v)) (ev.export b L.cats) := by
  have h0 : exec (Source.prog.ctx W n) W (.assign (.name "e") (.prim .icalEvent [] []))
      ⟨exEnv (ofEvent L ev) (.bool b) none none none none none none, []⟩ =
      (⟨exEnv (ofEvent L ev) (.bool b) (some (ofWritten [])) none none none none none, []⟩, .next) := by
    lang [exEnv, icalEvent_new]
  rw [exBody, execs_cons, h0, andThen_next, execs_cons]
  rcases hf : (match ev.duration with
      | none => raise .TypeError
      | some dur => dtAdd ev.dtstart dur : Res DateTime) with f | x
  · obtain ⟨s, hs⟩ := times_fail W n L ev (.bool b) f hf
    have he : ev.export b L.cats = .error f := by
      unfold Event.export
      cases hd : ev.duration with
      | none =>
        rw [hd] at hf
        injection hf with hf
        subst hf
        rfl
      | some dur =>
        rw [hd] at hf
        simp only [] at hf ⊢
        rw [hf]
        rfl
    rw [hs, andThen_stop, he, toM_error]
    rfl
  · cases hd : ev.duration with
    | none => rw [hd] at hf; cases hf
    | some dur =>
      rw [hd] at hf
      simp only [] at hf
      obtain ⟨ds, de, dep, h1⟩ := times_stmt W n L ev (.bool b) dur hd x hf
      rw [h1, andThen_next, execs_cons]
      obtain ⟨r, d, h2⟩ := rule_stmt W n L ev (.bool b) [
        ("dtstart", writtenTime (if ev.allday then .date (dtDate ev.dtstart) else .naive ev.dtstart)),
        ("dtend", writtenTime (if ev.allday then .date (dtDate x) else .naive x))] ds de dep
      rw [h2, andThen_next, execs_append, base_stmts, andThen_next, execs_cons]
      unfold Event.export
      rw [hd]
      simp only [hf]
      cases b
      · obtain ⟨s, h3⟩ := private_stmt W n L ev false (([
          ("dtstart", writtenTime (if ev.allday then .date (dtDate ev.dtstart) else .naive ev.dtstart)),
          ("dtend", writtenTime (if ev.allday then .date (dtDate x) else .naive x))] ++
          putting "rrule" ((ev.recurrence.map exportRule).map writtenRule)) ++
          [("transp", .str (if ev.transparent then "TRANSPARENT" else "OPAQUE")), ("uid", .str ev.uid), ("class", .str ev.access)])
          ds de dep r d
        rw [h3]
        simp only [Bool.false_eq_true, if_false]
        rw [andThen_next, execs_append, text_stmts, andThen_next]
        obtain ⟨s', h4⟩ := rest_stmts W n L hL ev (.bool false) ((([
          ("dtstart", writtenTime (if ev.allday then .date (dtDate ev.dtstart) else .naive ev.dtstart)),
          ("dtend", writtenTime (if ev.allday then .date (dtDate x) else .naive x))] ++
          putting "rrule" ((ev.recurrence.map exportRule).map writtenRule)) ++
          [("transp", .str (if ev.transparent then "TRANSPARENT" else "OPAQUE")), ("uid", .str ev.uid), ("class", .str ev.access)]) ++
          ([("summary", .str ev.title)] ++
          putting "description" ((if ev.description = "" then none else some ev.description).map .str) ++
          putting "location" ((if ev.location = "" then none else some ev.location).map .str))) ds de dep r d
        rw [h4]
        show Except.ok _ = Except.ok _
        congr 2
        unfold writtenProps exDocument
        simp only [Option.map_some, putting_some, List.append_assoc, List.cons_append, List.nil_append]
        cases ev.document <;> rfl
      · obtain ⟨s, h3⟩ := private_stmt W n L ev true (([
          ("dtstart", writtenTime (if ev.allday then .date (dtDate ev.dtstart) else .naive ev.dtstart)),
          ("dtend", writtenTime (if ev.allday then .date (dtDate x) else .naive x))] ++
          putting "rrule" ((ev.recurrence.map exportRule).map writtenRule)) ++
          [("transp", .str (if ev.transparent then "TRANSPARENT" else "OPAQUE")), ("uid", .str ev.uid), ("class", .str ev.access)])
          ds de dep r d
        rw [h3]
        simp only [if_true]
        rw [andThen_ret]
        show Except.ok _ = Except.ok _
        congr 2
        unfold writtenProps
        simp only [Option.map_some, Option.map_none, putting_some, putting_none, writtenCategories, List.append_assoc, List.cons_append,
          List.nil_append]

theorem export_prog (W n : Nat) (L : Listing) (hL : L.Faithful) (ev : Event) (b : Bool) :
    Source.prog.call W (n + 1) "EventBase.export" [ofEvent L ev, .bool b] [] =
      toM (fun v => ofWritten (writtenProps v)) (ev.export b L.cats) := by
  rw [call_eq (d := Source.EventBase_export) rfl, export_def, ← body_export W n L hL ev b]
  rfl

theorem export_default (W n : Nat) (L : Listing) (hL : L.Faithful) (ev : Event) :
    Source.prog.call W (n + 1) "EventBase.export" [ofEvent L ev] [] =
      toM (fun v => ofWritten (writtenProps v)) (ev.export false L.cats) := by
  rw [call_eq (d := Source.EventBase_export) rfl, export_def, ← body_export W n L hL ev false]
  rfl

/-! ### reading again -/

theorem get_putting (k k' : String) (o : Option Val) (rest : Dict String Val) :
    Dict.get? (putting k o ++ rest) k' = if k = k' then o.or (Dict.get? rest k') else Dict.get? rest k' := by
  cases o with
  | none =>
    rw [putting_none, List.nil_append, Option.none_or]
    split <;> rfl
  | some v =>
    rw [putting_some, List.cons_append, List.nil_append]
    unfold Dict.get?
    rw [List.find?_cons]
    by_cases h : k = k'
    · simp [h]
    · simp [h]

theorem get_putting_last (k k' : String) (o : Option Val) : Dict.get? (putting k o) k' = if k = k' then o else none := by
  have h := get_putting k k' o []
  rw [List.append_nil] at h
  rw [h]
  have h0 : Dict.get? ([] : Dict String Val) k' = none := rfl
  rw [h0, Option.or_none]

theorem reread_putting (k : String) (o : Option Val) (rest : Dict String Val) :
    reread (putting k o ++ rest) = putting (readName k) (o.map readValue) ++ reread rest := by
  cases o <;> rfl

theorem reread_last (k : String) (o : Option Val) : reread (putting k o) = putting (readName k) (o.map readValue) := by
  cases o <;> rfl

/-- A time without a timezone. -/
def NoZone : ICalTime → Prop
  | .aware _ _ => False
  | _ => True

theorem read_time (tz : LocalTz) (o : Option ICalTime) (h : ∀ t, o = some t → NoZone t) :
    (o.map writtenTime).map readValue = o.map (ofTime tz) := by
  cases o with
  | none => rfl
  | some t =>
    cases t with
    | date d => rfl
    | naive t => rfl
    | aware t off => exact (h _ rfl).elim

theorem read_str (o : Option String) : (o.map Val.str).map readValue = o.map Val.str := by cases o <;> rfl

theorem read_categories (c : Categories) (h : ∀ l, c ≠ .multi l) : (writtenCategories c).map readValue = ofCategories c := by
  cases c with
  | absent => rfl
  | inline l => rfl
  | multi l => exact (h l rfl).elim

/-- The parts of RRULE, as they are read. -/
def readParts (rr : RRule) : Dict String Val :=
  putting "FREQ" (some (.list [ofOption .str rr.freq])) ++ (putting "INTERVAL" (rr.interval.map (fun l => .list (l.map .int))) ++
  (putting "COUNT" (rr.count.map (fun l => .list (l.map .int))) ++ putting "UNTIL" (rr.untl.map (fun l => .list (l.map ofUntil)))))

theorem read_rule (rr : RRule) : readValue (writtenRule rr) = ofMap (readParts rr) := by
  unfold writtenRule writtenParts readParts
  cases rr.interval <;> cases rr.count <;> cases rr.untl <;> rfl

theorem readParts_rule (rr : RRule) (hf : rr.freq ≠ none) (hb : rr.byday = none) : IsRule rr (readParts rr) := by
  unfold readParts
  have hs := fun (a b : String) (h : a ≠ b) => h
  cases hq : rr.freq with
  | none => exact absurd hq hf
  | some f =>
    constructor <;> simp only [get_putting, get_putting_last, hq, ofOption, Option.map_some, hb, Option.map_none]
    · simp
    · simp
    · simp
    · simp
    · simp

theorem reread_parsed (tz : LocalTz) (v : VEvent) (hd : v.duration = none) (ho : v.organizer = none) (ha : v.attendees = [])
    (hc : ∀ l, v.categories ≠ .multi l) (hs : ∀ t, v.dtstart = some t → NoZone t) (he : ∀ t, v.dtend = some t → NoZone t)
    (hr : ∀ rr, v.rrule = some rr → rr.freq ≠ none ∧ rr.byday = none) : Parsed tz v (reread (writtenProps v)) := by
  have hw : reread (writtenProps v) =
      putting "DTSTART" (v.dtstart.map (ofTime tz)) ++ (putting "DTEND" (v.dtend.map (ofTime tz)) ++
      (putting "RRULE" (v.rrule.map (fun rr => ofMap (readParts rr))) ++ (putting "TRANSP" (v.transp.map .str) ++ (putting "UID" (v.uid.map .str) ++
      (putting "CLASS" (v.cls.map .str) ++ (putting "SUMMARY" (v.summary.map .str) ++ (putting "DESCRIPTION" (v.description.map .str) ++
      (putting "LOCATION" (v.location.map .str) ++ (putting "CATEGORIES" (ofCategories v.categories) ++
      (putting "ATTACH" (v.attach.map .str) ++ putting "STATUS" (v.status.map .str))))))))))) := by
    unfold writtenProps
    simp only [List.append_assoc, reread_putting, reread_last, read_time tz _ hs, read_time tz _ he, read_str, read_categories _ hc]
    rw [show (v.rrule.map writtenRule).map readValue = v.rrule.map (fun rr => ofMap (readParts rr)) by
      cases v.rrule with
      | none => rfl
      | some rr => rw [Option.map_some, Option.map_some, Option.map_some, read_rule]]
    rfl
  rw [hw]
  constructor
  case organizer =>
    left
    refine ⟨ho, ?_⟩
    simp [get_putting, get_putting_last]
  case attendees =>
    left
    refine ⟨ha, ?_⟩
    simp [get_putting, get_putting_last]
  case rrule =>
    cases hq : v.rrule with
    | none =>
      left
      refine ⟨rfl, ?_⟩
      simp [get_putting, get_putting_last]
    | some rr =>
      right
      refine ⟨rr, readParts rr, rfl, ?_, readParts_rule rr (hr rr hq).1 (hr rr hq).2⟩
      simp [get_putting, get_putting_last]
  all_goals simp [get_putting, get_putting_last, hd]

end CalCore.Lang
