import Verif.Lemmas.SourceImportWhole
import Verif.Lemmas.Queries
/- The import of a whole calendar, as written: its loops. -/
namespace CalCore.Lang
open CalCore.Spec
set_option linter.unusedSectionVars false
variable [Source.Globals] [Weekdays]

/-- The local variables of `import_`. -/
def wholeEnv (self text period crit sync events known event ical uids e uid removed : Option Val) : Env :=
  [("self", self), ("text", text), ("period", period), ("search_criteria", crit), ("synchronize", sync), ("events", events),
   ("known_uids", known), ("event", event), ("ical", ical), ("ical_uids", uids), ("e", e), ("uid", uid), ("removed_uids", removed)]

theorem callClass_error (W n : Nat) (cls m : String) (o : Val) (e : Stop) (ks : M (List (String × Val))) :
    callClass W n cls o m (.error e) ks = .error e := rfl

theorem body_cons (f : Val → State → State × Ctl) (v : Val) (vs : List Val) (s : State) :
    forLoop f (v :: vs) s = match f v s with
      | (s', .next) => forLoop f vs s'
      | (s', .cont) => forLoop f vs s'
      | r => r := by rw [forLoop]; rcases f v s with ⟨s', c⟩; cases c <;> rfl

/-! ### the components -/

/-- What is needed of a component. -/
structure Given (L : Listing) (tz : LocalTz) (c : Calendar) (src : CalCore.Source) (v : VEvent) (d : Dict String Val) : Prop where
  parsed : Parsed tz v d
  listed : ListedAs L v
  fits : ∀ s, importSpec tz c src v = .ok s → SpecFits s

theorem add_uid (u : String) (l : List String) :
    callMut .add (.set (l.map .str)) [.str u] = .ok (.set ((if u ∈ l then l else l ++ [u]).map .str), .none) := by
  have h : callMut .add (.set (l.map .str)) [.str u]
    = (do if ← contains (.str u) (l.map .str) then .ok (.set (l.map .str), .none) else .ok (.set (l.map .str ++ [.str u]), .none)) := rfl
  rw [h, contains_strs, M_bind_ok]
  by_cases hu : u ∈ l
  · simp [hu]
  · simp [hu]

theorem decoded_uid {tz : LocalTz} {v : VEvent} {d : Dict String Val} (hp : Parsed tz v d) :
    callMeth .decoded (ofComponent d) [.str "UID"] [] = match v.uid with
      | some u => .ok (.str u)
      | none => .error (.py .KeyError) := by
  rw [meth_decoded1 d "UID" upper_uid, hp.uid]
  cases v.uid <;> rfl

/-- How a component ends. -/
def oneCtl : Res Unit → Bool → Ctl
  | .error f, _ => .stop (ofFault f)
  | .ok _, true => .cont
  | .ok _, false => .next

theorem one_prog (L : Listing) (hL : L.Faithful) (w : World) (hw : w.store.WF) (src : CalCore.Source) (c : Calendar)
    (tz : LocalTz) (known : List Uid) (uid : Uid) (v : VEvent) (d : Dict String Val) (hg : Given L tz c src v d) (hv : v.uid = some uid)
    (acc : List Uid) (text period crit sync events event ical e u removed : Option Val) (out : List Val) :
    ∃ (out' : List Val) (b : Bool), Tells L w (World.importOne w tz c src known uid v).1 out' ∧ ∀ W n,
      forBody (Source.prog.ctx W (n + 9)) W (.name "e") Source.CalendarBase_import__loop1 (ofComponent d)
        ⟨wholeEnv (some (ofCalendar L w.store src c)) text period crit sync events (some (.set (known.map .str))) event ical
          (some (.set (acc.map .str))) e u removed, out⟩
      = (⟨wholeEnv (some (ofCalendar L (World.importOne w tz c src known uid v).1.store src c)) text period crit sync events
          (some (.set (known.map .str))) event ical
          (some (.set ((if uid ∈ acc then acc else acc ++ [uid]).map .str))) (some (ofComponent d)) (some (.str uid)) removed, out ++ out'⟩,
        oneCtl (World.importOne w tz c src known uid v).2 b) := by
  have hd := decoded_uid hg.parsed
  rw [hv] at hd
  simp only [] at hd
  have ha := add_uid uid acc
  have hc := contains_strs uid known
  have hh := fun (W n : Nat) => cal_hasEvent_prog W (n + 5) L w.store src c uid
  unfold World.importOne
  by_cases hk : uid ∈ known
  · rw [if_pos hk]
    obtain ⟨out', h2, h1⟩ := existing_prog L hL w hw src c tz uid v d hg.parsed hv hg.listed
    generalize w.importExisting tz c src uid v = z at h1 h2 ⊢
    obtain ⟨w', r⟩ := z
    refine ⟨out', false, h2, fun W n => ?_⟩
    replace h1 := h1 W (n + 3)
    unfold forBody
    rw [decide_eq_true hk] at hc
    cases r with
    | error f =>
      simp only [endOf] at h1
      lang [Source.CalendarBase_import__loop1, wholeEnv, hd, ha, hc, ↓eval_method, invoke_calendar, callClass_some method_cal_existing, h1,
        after_var_stop, putArgs_str, putArgs_component, oneCtl]
    | ok x =>
      simp only [endOf] at h1
      lang [Source.CalendarBase_import__loop1, wholeEnv, hd, ha, hc, ↓eval_method, invoke_calendar, callClass_some method_cal_existing, h1,
        after_var, putArgs_str, putArgs_component, oneCtl]
  · rw [if_neg hk]
    rw [decide_eq_false hk] at hc
    by_cases hs : w.store.hasEvent uid = true
    · rw [if_neg (by simp [hs])]
      simp only [hs] at hh
      refine ⟨[], true, .refl L _ _ rfl, fun W n => ?_⟩
      replace hh := hh W n
      unfold forBody
      lang [Source.CalendarBase_import__loop1, wholeEnv, hd, ha, hc, ↓eval_method, on_calendar, callClass_some method_cal_hasEvent, hh,
        List.append_nil, oneCtl]
    · rw [if_pos hs]
      rw [Bool.not_eq_true] at hs
      simp only [hs] at hh
      obtain ⟨out', h2, h1⟩ := new_prog L w src c tz uid v d hg.parsed hv hg.listed hg.fits
      generalize w.importNew tz c src uid v = z at h1 h2 ⊢
      obtain ⟨w', r⟩ := z
      refine ⟨out', false, h2, fun W n => ?_⟩
      replace h1 := h1 W n
      replace hh := hh W n
      unfold forBody
      cases r with
      | error f =>
        simp only [endOf] at h1
        lang [Source.CalendarBase_import__loop1, wholeEnv, hd, ha, hc, ↓eval_method, on_calendar, callClass_some method_cal_hasEvent, hh,
          invoke_calendar, callClass_some method_cal_new, h1, after_var_stop, putArgs_str, putArgs_component, oneCtl]
      | ok x =>
        simp only [endOf] at h1
        lang [Source.CalendarBase_import__loop1, wholeEnv, hd, ha, hc, ↓eval_method, on_calendar, callClass_some method_cal_hasEvent, hh,
          invoke_calendar, callClass_some method_cal_new, h1, after_var, putArgs_str, putArgs_component, oneCtl]

/-- How the loop ends. -/
def loopCtl {α : Type} : Res α → Ctl
  | .error f => .stop (ofFault f)
  | .ok _ => .next

theorem components_prog (L : Listing) (hL : L.Faithful) (src : CalCore.Source) (c : Calendar)
    (tz : LocalTz) (known : List Uid) (vs : List VEvent) (ds : List (Dict String Val)) (hg : List.Forall₂ (Given L tz c src) vs ds)
    (text period crit sync events event ical removed : Option Val) :
    ∀ (w : World) (_ : w.store.WF) (acc : List Uid) (e u : Option Val) (out : List Val),
    ∃ (out' : List Val) (uids : List Uid) (e' u' : Option Val),
      Tells L w (World.importLoop tz c src known w vs).1 out' ∧
      (∀ l, (World.importLoop tz c src known w vs).2 = .ok l → ∀ x, x ∈ uids ↔ x ∈ acc ∨ x ∈ l) ∧ ∀ W n,
      forLoop (forBody (Source.prog.ctx W (n + 9)) W (.name "e") Source.CalendarBase_import__loop1) (ds.map ofComponent)
        ⟨wholeEnv (some (ofCalendar L w.store src c)) text period crit sync events (some (.set (known.map .str))) event ical
          (some (.set (acc.map .str))) e u removed, out⟩
      = (⟨wholeEnv (some (ofCalendar L (World.importLoop tz c src known w vs).1.store src c)) text period crit sync events
          (some (.set (known.map .str))) event ical (some (.set (uids.map .str))) e' u' removed, out ++ out'⟩,
        loopCtl (World.importLoop tz c src known w vs).2) := by
  induction hg with
  | nil =>
    intro w hw acc e u out
    refine ⟨[], acc, e, u, .refl L _ _ rfl, ?_, fun W n => ?_⟩
    · intro l hl x
      unfold World.importLoop at hl
      injection hl with hl
      subst hl
      simp
    · rw [List.append_nil]; rfl
  | @cons v d vs ds hgv hgs ih =>
    intro w hw acc e u out
    simp only [List.map_cons, body_cons]
    cases hv : v.uid with
    | none =>
      have hd := decoded_uid hgv.parsed
      rw [hv] at hd
      simp only [] at hd
      have hl : World.importLoop tz c src known w (v :: vs) = (w, raise .KeyError) := by
        unfold World.importLoop; rw [hv]
      rw [hl]
      refine ⟨[], acc, some (ofComponent d), u, .refl L _ _ rfl, fun l h => (by cases h), fun W n => ?_⟩
      unfold forBody
      lang [Source.CalendarBase_import__loop1, wholeEnv, hd, List.append_nil]
      rfl
    | some uid =>
      obtain ⟨o1, b, t1, h1⟩ := one_prog L hL w hw src c tz known uid v d hgv hv acc text period crit sync events event ical e u removed out
      have hm := (w.importOne_many tz c src known uid v).wf hw
      simp only [h1]
      have hl : World.importLoop tz c src known w (v :: vs) = match World.importOne w tz c src known uid v with
          | (w', .error f) => (w', .error f)
          | (w', .ok ()) => match World.importLoop tz c src known w' vs with
            | (w'', .ok uids) => (w'', .ok (uid :: uids))
            | (w'', .error f) => (w'', .error f) := by
        conv => lhs; unfold World.importLoop
        rw [hv]
        rfl
      rw [hl]
      generalize World.importOne w tz c src known uid v = z at t1 hm ⊢
      obtain ⟨w', r⟩ := z
      cases r with
      | error f =>
        exact ⟨o1, _, _, _, t1, fun l h => (by cases h), fun W n => rfl⟩
      | ok x =>
        simp only [] at t1 hm ⊢
        obtain ⟨o2, us, e2, u2, t2, m2, h2⟩ := ih w' hm (if uid ∈ acc then acc else acc ++ [uid]) (some (ofComponent d)) (some (.str uid)) (out ++ o1)
        have hb : ∀ W n : Nat, (match ((⟨wholeEnv (some (ofCalendar L w'.store src c)) text period crit sync events
            (some (.set (known.map .str))) event ical
            (some (.set ((if uid ∈ acc then acc else acc ++ [uid]).map .str))) (some (ofComponent d)) (some (.str uid)) removed, out ++ o1⟩ : State),
            oneCtl (.ok x) b) with
          | (s', .next) => forLoop (forBody (Source.prog.ctx W (n + 9)) W (.name "e") Source.CalendarBase_import__loop1) (ds.map ofComponent) s'
          | (s', .cont) => forLoop (forBody (Source.prog.ctx W (n + 9)) W (.name "e") Source.CalendarBase_import__loop1) (ds.map ofComponent) s'
          | r => r)
          = forLoop (forBody (Source.prog.ctx W (n + 9)) W (.name "e") Source.CalendarBase_import__loop1) (ds.map ofComponent)
            ⟨wholeEnv (some (ofCalendar L w'.store src c)) text period crit sync events
            (some (.set (known.map .str))) event ical
            (some (.set ((if uid ∈ acc then acc else acc ++ [uid]).map .str))) (some (ofComponent d)) (some (.str uid)) removed, out ++ o1⟩ := by
          intro W n
          cases b <;> rfl
        simp only [hb, h2]
        generalize World.importLoop tz c src known w' vs = z at t2 m2 ⊢
        obtain ⟨w'', r⟩ := z
        cases r with
        | error f =>
          refine ⟨o1 ++ o2, us, e2, u2, t1.trans t2, fun l h => (by cases h), fun W n => ?_⟩
          rw [List.append_assoc]
        | ok l =>
          refine ⟨o1 ++ o2, us, e2, u2, t1.trans t2, fun l' h x => ?_, fun W n => by rw [List.append_assoc]; rfl⟩
          · injection h with h
            subst h
            rw [m2 l rfl x]
            split
            · rename_i hm; constructor
              · rintro (h | h)
                · exact .inl h
                · exact .inr (List.mem_cons_of_mem _ h)
              · rintro (h | h)
                · exact .inl h
                · rcases List.mem_cons.1 h with rfl | h
                  · exact .inl hm
                  · exact .inr h
            · rw [List.mem_append, List.mem_singleton, List.mem_cons, or_assoc]

/-! ### the removal -/

theorem removal_prog (L : Listing) (src : CalCore.Source) (c : Calendar)
    (text period crit sync events known event ical uids e removed : Option Val) (us : List Uid) :
    ∀ (w : World) (_ : w.store.WF) (u : Option Val) (out : List Val), ∃ (out' : List Val) (u' : Option Val),
      Tells L w (World.removeLoop w us).1 out' ∧ ∀ W n, forLoop (forBody (Source.prog.ctx W (n + 9)) W (.name "uid") Source.CalendarBase_import__loop2) (us.map .str)
        ⟨wholeEnv (some (ofCalendar L w.store src c)) text period crit sync events known event ical uids e u removed, out⟩
      = (⟨wholeEnv (some (ofCalendar L (World.removeLoop w us).1.store src c)) text period crit sync events known event ical uids e u' removed,
          out ++ out'⟩, loopCtl (World.removeLoop w us).2) := by
  induction us with
  | nil =>
    intro w hw u out
    exact ⟨[], u, .refl L _ _ rfl, fun W n => by rw [List.append_nil]; rfl⟩
  | cons uid rest ih =>
    intro w hw u out
    simp only [List.map_cons, body_cons]
    unfold World.removeLoop
    have hg := fun (W n : Nat) => cal_getEvent_prog W (n + 6) L w.store src c uid
    rcases he : w.store.getEvent uid with f | ev
    · simp only [he, toM_error] at hg
      refine ⟨[], some (.str uid), .refl L _ _ rfl, fun W n => ?_⟩
      replace hg := hg W n
      unfold forBody
      lang [Source.CalendarBase_import__loop2, wholeEnv, ↓eval_method, on_calendar, callClass_some method_cal_getEvent, hg, invoke_calendar,
        callClass_error, List.append_nil, loopCtl]
    · simp only [he, toM_ok] at hg
      obtain ⟨o1, t1, h1⟩ := remove_prog L w hw src c ev
      have hm := (w.deleteEvent_many ev.uid).wf hw
      have hp : ∀ (env : Env), Env.putArgs [.method (.var "self") "getEvent" [.var "uid"] []] [ofEvent L ev] env = env := fun _ => rfl
      simp only []
      generalize w.deleteEvent ev.uid = z at h1 t1 hm ⊢
      obtain ⟨w', r⟩ := z
      cases r with
      | error f =>
        refine ⟨o1, some (.str uid), t1, fun W n => ?_⟩
        replace h1 := h1 W (n + 6)
        replace hg := hg W n
        simp only [endOf] at h1
        unfold forBody
        lang [Source.CalendarBase_import__loop2, wholeEnv, ↓eval_method, on_calendar, callClass_some method_cal_getEvent, hg, invoke_calendar,
          callClass_some method_cal_delete, h1, after_var_stop, hp, loopCtl]
      | ok x =>
        simp only [] at hm t1
        obtain ⟨o2, u2, t2, h2⟩ := ih w' hm (some (.str uid)) (out ++ o1)
        refine ⟨o1 ++ o2, u2, t1.trans t2, fun W n => ?_⟩
        replace h1 := h1 W (n + 6)
        replace hg := hg W n
        simp only [endOf] at h1
        have hb : forBody (Source.prog.ctx W (n + 9)) W (.name "uid") Source.CalendarBase_import__loop2 (.str uid)
            ⟨wholeEnv (some (ofCalendar L w.store src c)) text period crit sync events known event ical uids e u removed, out⟩
            = (⟨wholeEnv (some (ofCalendar L w'.store src c)) text period crit sync events known event ical uids e (some (.str uid)) removed,
              out ++ o1⟩, .next) := by
          unfold forBody
          lang [Source.CalendarBase_import__loop2, wholeEnv, ↓eval_method, on_calendar, callClass_some method_cal_getEvent, hg, invoke_calendar,
            callClass_some method_cal_delete, h1, after_var, hp]
        rw [hb]
        simp only []
        rw [h2, List.append_assoc]

/-! ### the whole -/

theorem setMinus_strs (a b : List String) : setMinus (a.map .str) (b.map .str) = .ok ((a.filter (fun u => u ∉ b)).map .str) := by
  induction a with
  | nil => rfl
  | cons x a ih =>
    rw [List.map_cons, setMinus, contains_strs, M_bind_ok, ih]
    by_cases hx : x ∈ b
    · simp [hx]
    · simp [hx]

theorem minus_strs (a b : List String) : binop .sub (.set (a.map .str)) (.set (b.map .str)) = .ok (.set ((a.filter (fun u => u ∉ b)).map .str)) := by
  have h : binop .sub (.set (a.map .str)) (.set (b.map .str)) = (setMinus (a.map .str) (b.map .str)).map .set := rfl
  rw [h, setMinus_strs]
  rfl

theorem collect_uid (L : Listing) (l : List Event) :
    collect (fun _ => .ok (.bool true)) (fun v => attrVal "unique_id" v) (l.map (ofEvent L)) = .ok ((l.map (·.uid)).map .str) := by
  induction l with
  | nil => rfl
  | cons e l ih =>
    rw [List.map_cons, collect, ih]
    rfl

theorem calendar_uid_nodup {c : Calendar} {src : CalCore.Source} {s : Storage} (hs : s.WF) {b e : Option Int}
    {cr : Option Criteria} {l : List Event} (h : c.getEvents src s b e cr = .ok l) : (l.map (·.uid)).Nodup := by
  unfold Calendar.getEvents at h
  rcases hc : c.criteria src cr with f | k
  · rw [hc] at h; cases h
  · rw [hc] at h
    have h' : s.getEvents b e (some k) = .ok l := h
    unfold Storage.getEvents at h'
    rw [(filterInPeriod_ok.1 h').2]
    exact List.Sublist.nodup (List.Sublist.map _ List.filter_sublist) (matching_uid_nodup hs (some k))

/-- What the parser is supposed to say. -/
inductive Yields (L : Listing) (tz : LocalTz) (c : Calendar) (src : CalCore.Source) : Res (Option (List VEvent)) → M Val → Prop
  | fails (f : Fault) : Yields L tz c src (.error f) (.error (ofFault f))
  | nothing : Yields L tz c src (.ok none) (.ok .none)
  | calendar (vs : List VEvent) (ds : List (Dict String Val)) (h : List.Forall₂ (Given L tz c src) vs ds) :
      Yields L tz c src (.ok (some vs)) (.ok (.obj "ParsedCalendar" [("VEVENT", .list (ds.map ofComponent))]))

omit [Source.Globals] [Weekdays] in
theorem parser_glob [H : Source.Globals] (W n : Nat) (p : Val) (h : getGlobal "parser" H.vars = .ok p) (env : Env) :
    eval (Source.prog.ctx W n) env (.glob "parser") = .ok p := by
  rw [eval]
  exact h

theorem walk_calendar (l : List Val) : callMeth .walk (.obj "ParsedCalendar" [("VEVENT", .list l)]) [.str "VEVENT"] [] = .ok (.list l) := rfl
theorem set_list (l : List Val) : callPrim .set [.list l] [] = .ok (.set l) := rfl

omit [Source.Globals] [Weekdays] in
theorem import_prog [H : Source.Globals] [Weekdays] (L : Listing) (hL : L.Faithful) (w : World) (hw : w.store.WF) (src : CalCore.Source)
    (c : Calendar) (tz : LocalTz) (text : String) (b e : Option Int) (cr : Option Criteria) (sync p : Val)
    (parse : List Char → Res (Option (List VEvent))) (r : M Val) (hp : Yields L tz c src (parse (repairText text.toList)) r)
    (hg : getGlobal "parser" H.vars = .ok p) (hr : callPrim .fromString [p, .str (String.ofList (repairText text.toList))] [] = r) :
    ∃ out, Tells L w (w.import_ parse tz c src text.toList b e cr sync.truthy).1 out ∧ ∀ W n,
      Source.prog.call W (n + 10) "CalendarBase.import_" [ofCalendar L w.store src c, .str text, ofPeriod b e, ofOption (ofCriteria L) cr, sync] []
      = .ok (procVal [ofCalendar L (w.import_ parse tz c src text.toList b e cr sync.truthy).1.store src c,
        .str (String.ofList (repairText text.toList)), ofPeriod b e, ofOption (ofCriteria L) cr, sync] out
        (endOf (w.import_ parse tz c src text.toList b e cr sync.truthy).2) .none) := by
  have h1 := fun (W n : Nat) => repairText_prog W (n + 8) text (ofCalendar L w.store src c)
  have h2 := fun (W n : Nat) => cal_getEvents_prog W (n + 1) L hL w.store src c b e cr
  unfold World.import_
  rcases hev : c.getEvents src w.store b e cr with f | evs
  · simp only [hev, toM_error] at h2
    refine ⟨[], .refl L _ _ rfl, fun W n => ?_⟩
    rw [call_eq (d := Source.CalendarBase_import_) rfl]
    replace h1 := h1 W n
    replace h2 := h2 W n
    lang [Source.CalendarBase_import_, ↓eval_method, on_calendar, callClass_some method_cal_repair, h1, callClass_some method_cal_getEvents, h2, endOf]
  simp only [hev, toM_ok] at h2
  have hnd : ((evs.map (·.uid)).dedup) = evs.map (·.uid) := (calendar_uid_nodup hw hev).dedup
  have h3 := collect_uid L evs
  simp only []
  rw [hnd]
  generalize parse (repairText text.toList) = pr at hp
  cases hp with
  | fails f =>
    refine ⟨[], .refl L _ _ rfl, fun W n => ?_⟩
    rw [call_eq (d := Source.CalendarBase_import_) rfl]
    replace h1 := h1 W n
    replace h2 := h2 W n
    lang [Source.CalendarBase_import_, ↓eval_method, on_calendar, callClass_some method_cal_repair, h1, callClass_some method_cal_getEvents, h2,
      ↓eval_attr, h3, set_list, ↓parser_glob _ _ p hg, hr, endOf]
  | nothing =>
    refine ⟨[], .refl L _ _ rfl, fun W n => ?_⟩
    rw [call_eq (d := Source.CalendarBase_import_) rfl]
    replace h1 := h1 W n
    replace h2 := h2 W n
    lang [Source.CalendarBase_import_, ↓eval_method, on_calendar, callClass_some method_cal_repair, h1, callClass_some method_cal_getEvents, h2,
      ↓eval_attr, h3, set_list, ↓parser_glob _ _ p hg, hr, endOf]
  | calendar vs ds hd =>
    obtain ⟨o1, us, e', u', t1, m1, h4⟩ := components_prog L hL src c tz (evs.map (·.uid)) vs ds hd
      (some (.str (String.ofList (repairText text.toList)))) (some (ofPeriod b e)) (some (ofOption (ofCriteria L) cr)) (some sync)
      (some (.list (evs.map (ofEvent L)))) none (some (.obj "ParsedCalendar" [("VEVENT", .list (ds.map ofComponent))])) none w hw []
      none none []
    have hm := (World.importLoop_many tz c src (evs.map (·.uid)) w vs).wf hw
    simp only []
    generalize World.importLoop tz c src (evs.map (·.uid)) w vs = z at h4 t1 m1 hm ⊢
    obtain ⟨w', r'⟩ := z
    simp only [wholeEnv, List.map_nil, List.nil_append] at h4
    cases r' with
    | error f =>
      refine ⟨o1, t1, fun W n => ?_⟩
      rw [call_eq (d := Source.CalendarBase_import_) rfl]
      replace h1 := h1 W n
      replace h2 := h2 W n
      simp only [loopCtl] at h4
      lang [Source.CalendarBase_import_, ↓eval_method, on_calendar, callClass_some method_cal_repair, h1, callClass_some method_cal_getEvents, h2,
        ↓eval_attr, h3, set_list, ↓parser_glob _ _ p hg, hr, endOf, walk_calendar, h4]
    | ok uids =>
      have hf : (evs.map (·.uid)).filter (fun u => u ∉ uids) = (evs.map (·.uid)).filter (fun u => u ∉ us) := by
        apply List.filter_congr
        intro x _
        have := m1 uids rfl x
        simp only [List.not_mem_nil, false_or] at this
        exact decide_eq_decide.2 (not_congr this.symm)
      simp only [loopCtl] at h4
      simp only []
      cases hsy : sync.truthy with
      | false =>
        refine ⟨o1, t1, fun W n => ?_⟩
        rw [call_eq (d := Source.CalendarBase_import_) rfl]
        replace h1 := h1 W n
        replace h2 := h2 W n
        lang [Source.CalendarBase_import_, ↓eval_method, on_calendar, callClass_some method_cal_repair, h1, callClass_some method_cal_getEvents, h2,
          ↓eval_attr, h3, set_list, ↓parser_glob _ _ p hg, hr, endOf, walk_calendar, h4, hsy]
      | true =>
        rw [if_pos rfl, hf]
        have h5 := minus_strs (evs.map (·.uid)) us
        obtain ⟨o2, u2, t2, h6⟩ := removal_prog L src c (some (.str (String.ofList (repairText text.toList)))) (some (ofPeriod b e))
          (some (ofOption (ofCriteria L) cr)) (some sync) (some (.list (evs.map (ofEvent L)))) (some (.set ((evs.map (·.uid)).map .str))) none
          (some (.obj "ParsedCalendar" [("VEVENT", .list (ds.map ofComponent))])) (some (.set (us.map .str))) e'
          (some (.set (((evs.map (·.uid)).filter (fun u => u ∉ us)).map .str))) ((evs.map (·.uid)).filter (fun u => u ∉ us)) w' hm u' o1
        simp only [wholeEnv] at h6
        refine ⟨o1 ++ o2, t1.trans t2, fun W n => ?_⟩
        rw [call_eq (d := Source.CalendarBase_import_) rfl]
        replace h1 := h1 W n
        replace h2 := h2 W n
        generalize World.removeLoop w' ((evs.map (·.uid)).filter (fun u => u ∉ us)) = z at h6 t2 ⊢
        obtain ⟨w'', r''⟩ := z
        cases r'' with
        | error f =>
          simp only [loopCtl] at h6
          lang [Source.CalendarBase_import_, ↓eval_method, on_calendar, callClass_some method_cal_repair, h1, callClass_some method_cal_getEvents, h2,
            ↓eval_attr, h3, set_list, ↓parser_glob _ _ p hg, hr, endOf, walk_calendar, h4, hsy, h5, h6]
        | ok x =>
          simp only [loopCtl] at h6
          lang [Source.CalendarBase_import_, ↓eval_method, on_calendar, callClass_some method_cal_repair, h1, callClass_some method_cal_getEvents, h2,
            ↓eval_attr, h3, set_list, ↓parser_glob _ _ p hg, hr, endOf, walk_calendar, h4, hsy, h5, h6]

end CalCore.Lang
