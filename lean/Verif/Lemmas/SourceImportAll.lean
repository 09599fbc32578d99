import Verif.Lemmas.SourceImportSpec
/- Making a specification from parsed iCalendar data, as written: the other statements. -/
namespace CalCore.Lang
open CalCore.Spec
set_option linter.unusedSectionVars false
variable [Source.Globals] [Weekdays]

/-! ### the organizer -/

theorem is_person (L : Listing) (a : AttId) : Val.is (ofAttendee L a) .none = .ok false := rfl

theorem organizer_stmts (W n : Nat) (L : Listing) (s : Storage) (src : CalCore.Source) (c : Calendar) (tz : LocalTz) (v : VEvent)
    (d : Dict String Val) (hp : Parsed tz v d) (k : Dict String Val) (x y z : Option Val) :
    ∃ o, execs (Source.prog.ctx W (n + 4)) W organizerStmts
      ⟨impEnv (some (ofCalendar L s src c)) (some (ofComponent d)) (some (ofSource L s src)) (some (ofMap k))
        none none none none none none none none x y z, []⟩
    = match importOrganizer c src v with
      | .ok a => (⟨impEnv (some (ofCalendar L s src c)) (some (ofComponent d)) (some (ofSource L s src))
          (some (ofMap (Dict.set k "organizer" (ofOption (ofAttendee L) a))))
          o none none none none none none none x y z, []⟩, .next)
      | .error e => (⟨impEnv (some (ofCalendar L s src c)) (some (ofComponent d)) (some (ofSource L s src)) (some (ofMap k))
          o none none none none none none none x y z, []⟩, .stop (ofFault e)) := by
  have hd := default_prog W (n + 1) L s src c
  have hk := meth_hasKey d "ORGANIZER" upper_organizer'
  unfold importOrganizer
  rcases hp.organizer with ⟨hn, hg⟩ | ⟨a, ps, hs, hg⟩
  · rw [hg] at hk
    simp only [Option.isSome_none] at hk
    rw [hn]
    simp only [Option.bind_none]
    generalize c.main src = r at hd ⊢
    cases r with
    | ok a =>
      rw [toM_ok] at hd
      refine ⟨some (ofOption (ofAttendee L) a), ?_⟩
      lang [organizerStmts, impEnv, hk, ↓eval_method, on_calendar, callClass_some method_cal_default, hd, ↓assign_item, setIn_map]
    | error e =>
      rw [toM_error] at hd
      refine ⟨some .none, ?_⟩
      lang [organizerStmts, impEnv, hk, ↓eval_method, on_calendar, callClass_some method_cal_default, hd]
  · have hi := index_component d "organizer" _ (by rw [upper_organizer]; exact hg)
    have hf := fromSpec_prog W (n + 3) L s src a ps
    rw [hg] at hk
    simp only [Option.isSome_some] at hk
    rw [hs]
    simp only [Option.bind_some]
    cases hx : src.fromSpec a with
    | some b =>
      rw [hx] at hf
      simp only [ofOption] at hf
      simp only []
      refine ⟨some (ofAttendee L b), ?_⟩
      lang [organizerStmts, impEnv, hk, ↓eval_method, on_source, callClass_some method_fromSpec, hf, hi, is_person, ↓assign_item,
        setIn_map, ofOption_some]
    | none =>
      rw [hx] at hf
      simp only [ofOption] at hf
      simp only []
      generalize c.main src = r at hd ⊢
      cases r with
      | ok a =>
        rw [toM_ok] at hd
        refine ⟨some (ofOption (ofAttendee L) a), ?_⟩
        lang [organizerStmts, impEnv, hk, ↓eval_method, on_source, callClass_some method_fromSpec, hf, hi, on_calendar,
          callClass_some method_cal_default, hd, ↓assign_item, setIn_map]
      | error e =>
        rw [toM_error] at hd
        refine ⟨some .none, ?_⟩
        lang [organizerStmts, impEnv, hk, ↓eval_method, on_source, callClass_some method_fromSpec, hf, hi, on_calendar,
          callClass_some method_cal_default, hd]

/-! ### the attendees -/

theorem address_step (W n : Nat) (L : Listing) (st : Storage) (src : CalCore.Source) (ad : CalAddress) (p : Val) (hp : IsAddress ad p)
    (acc : List Val) (S E k o t q a s r u x y z : Option Val) :
    ∃ a' s' r', forBody (Source.prog.ctx W (n + 4)) W (.name "attendee_spec") Source.CalendarBase_importEventSpecification_loop1 p
      ⟨impEnv S E (some (ofSource L st src)) k o (some (.list acc)) t q a s r u x y z, []⟩
    = (⟨impEnv S E (some (ofSource L st src)) k o (some (.list (acc ++ [ofInvited L (importAttendee src ad)]))) t (some p) a' s' r' u x y z, []⟩,
        .next) := by
  obtain ⟨ps, rfl, h1, h2⟩ := hp
  have hf := fromSpec_prog W (n + 3) L st src ad.addr [("params", ofMap ps)]
  have g1 := get_map2 ps "PARTSTAT" (.str "NEEDS-ACTION")
  have g2 := get_map2 ps "ROLE" (.str "REQ-PARTICIPANT")
  rw [h1, getD_str] at g1
  rw [h2, getD_str] at g2
  refine ⟨some (ofOption (ofAttendee L) (src.fromSpec ad.addr)), some (.str (ad.partstat.getD "NEEDS-ACTION")),
    some (.str (ad.role.getD "REQ-PARTICIPANT")), ?_⟩
  unfold forBody
  lang [Source.CalendarBase_importEventSpecification_loop1, impEnv, ↓eval_method, on_source, callClass_some method_fromSpec, hf, g1, g2,
    ofInvited, importAttendee]

theorem address_loop (W n : Nat) (L : Listing) (st : Storage) (src : CalCore.Source) (S E k o t u x y z : Option Val) (ads : List CalAddress) :
    ∀ (xs acc : List Val) (q a s r : Option Val), List.Forall₂ IsAddress ads xs →
    ∃ q' a' s' r', forLoop (forBody (Source.prog.ctx W (n + 4)) W (.name "attendee_spec") Source.CalendarBase_importEventSpecification_loop1) xs
      ⟨impEnv S E (some (ofSource L st src)) k o (some (.list acc)) t q a s r u x y z, []⟩
    = (⟨impEnv S E (some (ofSource L st src)) k o (some (.list (acc ++ ads.map (fun a => ofInvited L (importAttendee src a))))) t
        q' a' s' r' u x y z, []⟩, .next) := by
  induction ads with
  | nil =>
    intro xs acc q a s r h
    cases h
    exact ⟨q, a, s, r, by simp [forLoop]⟩
  | cons ad ads ih =>
    intro xs acc q a s r h
    cases h with
    | cons h1 h2 =>
      rename_i p xs
      obtain ⟨a1, s1, r1, hs⟩ := address_step W n L st src ad p h1 acc S E k o t q a s r u x y z
      obtain ⟨q', a', s', r', hl⟩ := ih xs (acc ++ [ofInvited L (importAttendee src ad)]) (some p) a1 s1 r1 h2
      refine ⟨q', a', s', r', ?_⟩
      rw [forLoop, hs]
      simp only []
      rw [hl, List.map_cons, List.append_assoc, List.singleton_append]

/-- What is known after the attendees. -/
def kwAttendees (L : Listing) (src : CalCore.Source) (b : Bool) (v : VEvent) (k : Dict String Val) : Dict String Val :=
  if b then Dict.set k "attendees" (.list (v.attendees.map (fun a => ofInvited L (importAttendee src a)))) else k

theorem attendee_stmt (W n : Nat) (L : Listing) (st : Storage) (src : CalCore.Source) (tz : LocalTz) (v : VEvent)
    (d : Dict String Val) (hp : Parsed tz v d) (k : Dict String Val) (S o x y z : Option Val) :
    ∃ b l t p a s r, (b = false → v.attendees = []) ∧ exec (Source.prog.ctx W (n + 4)) W attendeeStmt
      ⟨impEnv S (some (ofComponent d)) (some (ofSource L st src)) (some (ofMap k))
        o none none none none none none none x y z, []⟩
    = (⟨impEnv S (some (ofComponent d)) (some (ofSource L st src)) (some (ofMap (kwAttendees L src b v k)))
        o l t p a s r none x y z, []⟩, .next) := by
  have hk := meth_hasKey d "ATTENDEE" upper_attendee
  rcases hp.attendees with ⟨hn, hg⟩ | ⟨a, p, hs, hg, ha⟩ | ⟨xs, hg, ha⟩
  · rw [hg] at hk
    simp only [Option.isSome_none] at hk
    refine ⟨false, none, none, none, none, none, none, fun _ => hn, ?_⟩
    lang [attendeeStmt, impEnv, hk, kwAttendees]
  · have hi := index_component d "ATTENDEE" _ (by rw [upper_attendee]; exact hg)
    rw [hg] at hk
    simp only [Option.isSome_some] at hk
    have hf : List.Forall₂ IsAddress [a] [p] := .cons ha .nil
    obtain ⟨q', a', s', r', hl⟩ := address_loop W n L st src S (some (ofComponent d)) (some (ofMap k)) o (some (.list [p])) none x y z [a]
      [p] [] none none none none hf
    rw [List.nil_append] at hl
    unfold impEnv at hl
    have ho : isInstance (Source.prog.ctx W (n + 4)).isa .list p = false := by
      obtain ⟨ps, rfl, _, _⟩ := ha
      rfl
    refine ⟨true, some (.list (v.attendees.map (fun a => ofInvited L (importAttendee src a)))), some (.list [p]), q', a', s', r', by simp, ?_⟩
    rw [hs]
    lang [attendeeStmt, impEnv, hk, hi, ho, List.any_cons, List.any_nil, Bool.or_false, hl, ↓assign_item, setIn_map, kwAttendees, hs]
  · have hi := index_component d "ATTENDEE" _ (by rw [upper_attendee]; exact hg)
    rw [hg] at hk
    simp only [Option.isSome_some] at hk
    obtain ⟨q', a', s', r', hl⟩ := address_loop W n L st src S (some (ofComponent d)) (some (ofMap k)) o (some (.list xs)) none x y z v.attendees
      xs [] none none none none ha
    rw [List.nil_append] at hl
    unfold impEnv at hl
    refine ⟨true, some (.list (v.attendees.map (fun a => ofInvited L (importAttendee src a)))), some (.list xs), q', a', s', r', by simp, ?_⟩
    lang [attendeeStmt, impEnv, hk, hi, isInstance, List.any_cons, List.any_nil, Bool.or_false, hl, ↓assign_item, setIn_map, kwAttendees]

/-! ### the rest -/


/-- What is known after the categories and what follows. -/
def kwOther (v : VEvent) (k : Dict String Val) : Dict String Val :=
  Dict.set (Dict.set (Dict.set (Dict.set k "categories" (.set ((catList v.categories).map .str)))
    "transparent" (.bool (decide (v.transp.getD "OPAQUE" = "TRANSPARENT"))))
    "access" (.str (v.cls.getD "PUBLIC"))) "document" (ofOption .str v.attach)

theorem getD_none (o : Option String) : (o.map Val.str).getD .none = ofOption .str o := by cases o <;> rfl

theorem other_stmts (W n : Nat) (L : Listing) (st : Storage) (src : CalCore.Source) (c : Calendar) (tz : LocalTz) (v : VEvent)
    (d : Dict String Val) (hp : Parsed tz v d) (k : Dict String Val) (A o l t p a s r u x y z : Option Val) :
    execs (Source.prog.ctx W (n + 4)) W otherStmts
      ⟨impEnv (some (ofCalendar L st src c)) (some (ofComponent d)) A (some (ofMap k)) o l t p a s r u x y z, []⟩
    = (⟨impEnv (some (ofCalendar L st src c)) (some (ofComponent d)) A (some (ofMap (kwOther v k))) o l t p a s r u x y z, []⟩, .next) := by
  have h := getCategories_prog W (n + 3) v.categories d hp.categories (ofCalendar L st src c)
  have a1 := meth_decoded d "TRANSP" (.str "OPAQUE") upper_transp
  have a2 := meth_decoded d "CLASS" (.str "PUBLIC") upper_class
  have a3 := meth_decoded d "ATTACH" .none upper_attach
  rw [hp.transp, getD_str] at a1
  rw [hp.cls, getD_str] at a2
  rw [hp.attach, getD_none] at a3
  lang [otherStmts, impEnv, ↓eval_method, on_calendar, callClass_some method_cal_cats, h, ↓assign_item, setIn_map, a1, a2, a3, kwOther]

theorem rule_stmts (W n : Nat) (L : Listing) (st : Storage) (src : CalCore.Source) (c : Calendar) (tz : LocalTz) (v : VEvent)
    (d : Dict String Val) (hp : Parsed tz v d)
    (k : Dict String Val) (A o l t p a s r x y z : Option Val) :
    ∃ u, execs (Source.prog.ctx W (n + 4)) W ruleStmts
      ⟨impEnv (some (ofCalendar L st src c)) (some (ofComponent d)) A (some (ofMap k)) o l t p a s r none x y z, []⟩
    = match importRule v.rrule with
      | .ok q => (⟨impEnv (some (ofCalendar L st src c)) (some (ofComponent d)) A (some (ofMap (Dict.set k "recurrence" (ofOption ofRule q))))
          o l t p a s r u x y z, []⟩, .next)
      | .error e => (⟨impEnv (some (ofCalendar L st src c)) (some (ofComponent d)) A (some (ofMap k))
          o l t p a s r u x y z, []⟩, .stop (ofFault e)) := by
  have a1 := meth_decoded d "RRULE" .none upper_rrule
  rcases hp.rrule with ⟨h, hg⟩ | ⟨rr, dr, h, hg, hr⟩
  · rw [hg] at a1
    simp only [Option.getD_none] at a1
    rw [h]
    refine ⟨some .none, ?_⟩
    lang [ruleStmts, impEnv, a1, ↓assign_item, setIn_map, importRule, ofOption_none]
  · rw [hg] at a1
    simp only [Option.getD_some] at a1
    have hc := getRecurrenceRule_prog W n rr dr hr (ofCalendar L st src c)
    have hs : Val.is (ofMap dr) .none = .ok false := rfl
    rw [h]
    refine ⟨some (ofMap dr), ?_⟩
    rcases hq : getRecurrenceRule rr with e | q
    · have hi : importRule (some rr) = .error e := by
        unfold importRule
        simp only []
        rw [hq]
        rfl
      rw [hq, toM_error] at hc
      rw [hi]
      lang [ruleStmts, impEnv, a1, hs, ↓eval_method, on_calendar, callClass_some method_cal_rule, hc, ↓assign_item, setIn_map, ofOption_some]
    · have hi : importRule (some rr) = .ok (some q) := by
        unfold importRule
        simp only []
        rw [hq]
        rfl
      rw [hq, toM_ok] at hc
      rw [hi]
      lang [ruleStmts, impEnv, a1, hs, ↓eval_method, on_calendar, callClass_some method_cal_rule, hc, ↓assign_item, setIn_map, ofOption_some]

/-! ### all of it -/

/-- The listing `L`, but listing the categories in `c` as they are written there. -/
def relist (L : Listing) (c : Categories) : Listing where
  cats := fun s => if s = getCategories c then catList c else L.cats s
  person := L.person

theorem relist_faithful (L : Listing) (hL : L.Faithful) (c : Categories) : (relist L c).Faithful := by
  intro s x
  unfold relist
  simp only []
  by_cases h : s = getCategories c
  · rw [if_pos h, h]
    exact catList_mem c x
  · rw [if_neg h]
    exact hL s x

/-- What is imported, as a dictionary of arguments. -/
def kwAll (L : Listing) (src : CalCore.Source) (b : Bool) (v : VEvent) (p : DateTime × TimeDelta × Bool) (a : Option AttId) (q : Option Rule) :
    Dict String Val :=
  Dict.set (kwOther v (kwAttendees L src b v (Dict.set (kwTimes v p) "organizer" (ofOption (ofAttendee L) a)))) "recurrence" (ofOption ofRule q)

/-- What is imported. -/
def imported (src : CalCore.Source) (v : VEvent) (p : DateTime × TimeDelta × Bool) (a : Option AttId) (q : Option Rule) : CalCore.Spec where
  dtstart := p.1
  duration := some p.2.1
  allday := p.2.2
  title := v.summary.getD ""
  description := v.description.getD ""
  location := v.location.getD ""
  status := v.status.getD "TENTATIVE"
  organizer := a
  attendees := v.attendees.map (importAttendee src)
  categories := getCategories v.categories
  transparent := decide (v.transp.getD "OPAQUE" = "TRANSPARENT")
  access := v.cls.getD "PUBLIC"
  document := v.attach
  recurrence := q

theorem bind_first {x : String} {d : Option Val} {ps : List (String × Option Val)} {v : Val} {kw : List (String × Val)} {e : Env}
    (h : bindParams ps [] kw = .ok e) : bindParams ((x, d) :: ps) [v] kw = .ok ((x, some v) :: e) := by
  rw [bindParams, h]
  rfl

theorem bind_kw {x : String} {d : Option Val} {ps : List (String × Option Val)} {v : Val} {kw rest : List (String × Val)} {e : Env}
    (hf : kw.find? (fun p => p.1 = x) = some (x, v)) (hr : kw.filter (fun p => p.1 ≠ x) = rest) (h : bindParams ps [] rest = .ok e) :
    bindParams ((x, d) :: ps) [] kw = .ok ((x, some v) :: e) := by
  unfold bindParams
  rw [hf]
  simp only []
  rw [hr, h]
  rfl

theorem bind_default {x : String} {v : Val} {ps : List (String × Option Val)} {kw : List (String × Val)} {e : Env}
    (hf : kw.find? (fun p => p.1 = x) = none) (h : bindParams ps [] kw = .ok e) :
    bindParams ((x, some v) :: ps) [] kw = .ok ((x, some v) :: e) := by
  unfold bindParams
  rw [hf]
  simp only []
  rw [h]
  rfl

theorem kw_positions_bind (S a b c d e f g h i j k l m o : Val) :
    bindParams Source.EventSpecification_init.params [S]
      [("dtstart", a), ("duration", b), ("allday", i), ("title", c), ("description", d), ("location", e), ("status", f), ("organizer", g), ("attendees", o), ("categories", j), ("transparent", k), ("access", l), ("document", m), ("recurrence", h)]
    = .ok [("self", some S), ("dtstart", some a), ("duration", some b), ("title", some c), ("description", some d), ("location", some e), ("status", some f), ("organizer", some g), ("recurrence", some h), ("allday", some i), ("categories", some j), ("transparent", some k), ("access", some l), ("document", some m), ("attendees", some o)] := by
  refine bind_first ?_
  refine bind_kw (v := a) (rest := [("duration", b), ("allday", i), ("title", c), ("description", d), ("location", e), ("status", f), ("organizer", g), ("attendees", o), ("categories", j), ("transparent", k), ("access", l), ("document", m), ("recurrence", h)]) (by simp) (by simp) ?_
  refine bind_kw (v := b) (rest := [("allday", i), ("title", c), ("description", d), ("location", e), ("status", f), ("organizer", g), ("attendees", o), ("categories", j), ("transparent", k), ("access", l), ("document", m), ("recurrence", h)]) (by simp) (by simp) ?_
  refine bind_kw (v := c) (rest := [("allday", i), ("description", d), ("location", e), ("status", f), ("organizer", g), ("attendees", o), ("categories", j), ("transparent", k), ("access", l), ("document", m), ("recurrence", h)]) (by simp) (by simp) ?_
  refine bind_kw (v := d) (rest := [("allday", i), ("location", e), ("status", f), ("organizer", g), ("attendees", o), ("categories", j), ("transparent", k), ("access", l), ("document", m), ("recurrence", h)]) (by simp) (by simp) ?_
  refine bind_kw (v := e) (rest := [("allday", i), ("status", f), ("organizer", g), ("attendees", o), ("categories", j), ("transparent", k), ("access", l), ("document", m), ("recurrence", h)]) (by simp) (by simp) ?_
  refine bind_kw (v := f) (rest := [("allday", i), ("organizer", g), ("attendees", o), ("categories", j), ("transparent", k), ("access", l), ("document", m), ("recurrence", h)]) (by simp) (by simp) ?_
  refine bind_kw (v := g) (rest := [("allday", i), ("attendees", o), ("categories", j), ("transparent", k), ("access", l), ("document", m), ("recurrence", h)]) (by simp) (by simp) ?_
  refine bind_kw (v := h) (rest := [("allday", i), ("attendees", o), ("categories", j), ("transparent", k), ("access", l), ("document", m)]) (by simp) (by simp) ?_
  refine bind_kw (v := i) (rest := [("attendees", o), ("categories", j), ("transparent", k), ("access", l), ("document", m)]) (by simp) (by simp) ?_
  refine bind_kw (v := j) (rest := [("attendees", o), ("transparent", k), ("access", l), ("document", m)]) (by simp) (by simp) ?_
  refine bind_kw (v := k) (rest := [("attendees", o), ("access", l), ("document", m)]) (by simp) (by simp) ?_
  refine bind_kw (v := l) (rest := [("attendees", o), ("document", m)]) (by simp) (by simp) ?_
  refine bind_kw (v := m) (rest := [("attendees", o)]) (by simp) (by simp) ?_
  refine bind_kw (v := o) (rest := []) (by simp) (by simp) ?_
  rfl

theorem kw_positions (W n : Nat) (a b c d e f g h i j k l m o : Val) :
    Source.prog.call W (n + 1) "EventSpecification.__init__" [.obj "EventSpecification" []]
      [("dtstart", a), ("duration", b), ("allday", i), ("title", c), ("description", d), ("location", e), ("status", f), ("organizer", g), ("attendees", o), ("categories", j), ("transparent", k), ("access", l), ("document", m), ("recurrence", h)]
    = Source.prog.call W (n + 1) "EventSpecification.__init__" [.obj "EventSpecification" [], a, b, c, d, e, f, g, h, i, j, k, l, m, o] [] := by
  rw [call_eq (d := Source.EventSpecification_init) rfl, call_eq (d := Source.EventSpecification_init) rfl]
  have h1 := kw_positions_bind (.obj "EventSpecification" []) a b c d e f g h i j k l m o
  have h2 : bindParams Source.EventSpecification_init.params [.obj "EventSpecification" [], a, b, c, d, e, f, g, h, i, j, k, l, m, o] [] = .ok [("self", some (.obj "EventSpecification" [])), ("dtstart", some a), ("duration", some b), ("title", some c), ("description", some d), ("location", some e), ("status", some f), ("organizer", some g), ("recurrence", some h), ("allday", some i), ("categories", some j), ("transparent", some k), ("access", some l), ("document", some m), ("attendees", some o)] := rfl
  unfold FunDef.call FunDef.run
  rw [h1, h2]

theorem kw_bind' (S a b c d e f g h i j k l m : Val) :
    bindParams Source.EventSpecification_init.params [S]
      [("dtstart", a), ("duration", b), ("allday", i), ("title", c), ("description", d), ("location", e), ("status", f), ("organizer", g), ("categories", j), ("transparent", k), ("access", l), ("document", m), ("recurrence", h)]
    = .ok [("self", some S), ("dtstart", some a), ("duration", some b), ("title", some c), ("description", some d), ("location", some e), ("status", some f), ("organizer", some g), ("recurrence", some h), ("allday", some i), ("categories", some j), ("transparent", some k), ("access", some l), ("document", some m), ("attendees", some (.list []))] := by
  refine bind_first ?_
  refine bind_kw (v := a) (rest := [("duration", b), ("allday", i), ("title", c), ("description", d), ("location", e), ("status", f), ("organizer", g), ("categories", j), ("transparent", k), ("access", l), ("document", m), ("recurrence", h)]) (by simp) (by simp) ?_
  refine bind_kw (v := b) (rest := [("allday", i), ("title", c), ("description", d), ("location", e), ("status", f), ("organizer", g), ("categories", j), ("transparent", k), ("access", l), ("document", m), ("recurrence", h)]) (by simp) (by simp) ?_
  refine bind_kw (v := c) (rest := [("allday", i), ("description", d), ("location", e), ("status", f), ("organizer", g), ("categories", j), ("transparent", k), ("access", l), ("document", m), ("recurrence", h)]) (by simp) (by simp) ?_
  refine bind_kw (v := d) (rest := [("allday", i), ("location", e), ("status", f), ("organizer", g), ("categories", j), ("transparent", k), ("access", l), ("document", m), ("recurrence", h)]) (by simp) (by simp) ?_
  refine bind_kw (v := e) (rest := [("allday", i), ("status", f), ("organizer", g), ("categories", j), ("transparent", k), ("access", l), ("document", m), ("recurrence", h)]) (by simp) (by simp) ?_
  refine bind_kw (v := f) (rest := [("allday", i), ("organizer", g), ("categories", j), ("transparent", k), ("access", l), ("document", m), ("recurrence", h)]) (by simp) (by simp) ?_
  refine bind_kw (v := g) (rest := [("allday", i), ("categories", j), ("transparent", k), ("access", l), ("document", m), ("recurrence", h)]) (by simp) (by simp) ?_
  refine bind_kw (v := h) (rest := [("allday", i), ("categories", j), ("transparent", k), ("access", l), ("document", m)]) (by simp) (by simp) ?_
  refine bind_kw (v := i) (rest := [("categories", j), ("transparent", k), ("access", l), ("document", m)]) (by simp) (by simp) ?_
  refine bind_kw (v := j) (rest := [("transparent", k), ("access", l), ("document", m)]) (by simp) (by simp) ?_
  refine bind_kw (v := k) (rest := [("access", l), ("document", m)]) (by simp) (by simp) ?_
  refine bind_kw (v := l) (rest := [("document", m)]) (by simp) (by simp) ?_
  refine bind_kw (v := m) (rest := []) (by simp) (by simp) ?_
  exact bind_default rfl rfl

theorem kw_positions' (W n : Nat) (a b c d e f g h i j k l m : Val) :
    Source.prog.call W (n + 1) "EventSpecification.__init__" [.obj "EventSpecification" []]
      [("dtstart", a), ("duration", b), ("allday", i), ("title", c), ("description", d), ("location", e), ("status", f), ("organizer", g), ("categories", j), ("transparent", k), ("access", l), ("document", m), ("recurrence", h)]
    = Source.prog.call W (n + 1) "EventSpecification.__init__" [.obj "EventSpecification" [], a, b, c, d, e, f, g, h, i, j, k, l, m, .list []] [] := by
  rw [call_eq (d := Source.EventSpecification_init) rfl, call_eq (d := Source.EventSpecification_init) rfl]
  have h1 := kw_bind' (.obj "EventSpecification" []) a b c d e f g h i j k l m
  have h2 : bindParams Source.EventSpecification_init.params [.obj "EventSpecification" [], a, b, c, d, e, f, g, h, i, j, k, l, m, .list []] [] = .ok [("self", some (.obj "EventSpecification" [])), ("dtstart", some a), ("duration", some b), ("title", some c), ("description", some d), ("location", some e), ("status", some f), ("organizer", some g), ("recurrence", some h), ("allday", some i), ("categories", some j), ("transparent", some k), ("access", some l), ("document", some m), ("attendees", some (.list []))] := rfl
  unfold FunDef.call FunDef.run
  rw [h1, h2]

theorem set_positions (a b c d e f g h i j k l m o : Val) :
    Dict.set (Dict.set (Dict.set (Dict.set (Dict.set (Dict.set (Dict.set
      ([("dtstart", a), ("duration", b), ("allday", i), ("title", c), ("description", d), ("location", e), ("status", f)] : Dict String Val)
      "organizer" g) "attendees" o) "categories" j) "transparent" k) "access" l) "document" m) "recurrence" h
    = [("dtstart", a), ("duration", b), ("allday", i), ("title", c), ("description", d), ("location", e), ("status", f), ("organizer", g),
        ("attendees", o), ("categories", j), ("transparent", k), ("access", l), ("document", m), ("recurrence", h)] := rfl

theorem set_positions' (a b c d e f g h i j k l m : Val) :
    Dict.set (Dict.set (Dict.set (Dict.set (Dict.set (Dict.set
      ([("dtstart", a), ("duration", b), ("allday", i), ("title", c), ("description", d), ("location", e), ("status", f)] : Dict String Val)
      "organizer" g) "categories" j) "transparent" k) "access" l) "document" m) "recurrence" h
    = [("dtstart", a), ("duration", b), ("allday", i), ("title", c), ("description", d), ("location", e), ("status", f), ("organizer", g),
        ("categories", j), ("transparent", k), ("access", l), ("document", m), ("recurrence", h)] := rfl

theorem new_all (W n : Nat) (L : Listing) (src : CalCore.Source) (b : Bool) (v : VEvent) (hb : b = false → v.attendees = [])
    (p : DateTime × TimeDelta × Bool) (a : Option AttId) (q : Option Rule) :
    (Source.prog.ctx W (n + 1)).new "EventSpecification" [] (kwAll L src b v p a q)
    = .ok (ofSpec (relist L v.categories) (imported src v p a q)) := by
  have hc : (relist L v.categories).cats (imported src v p a q).categories = catList v.categories := if_pos rfl
  have ha : (imported src v p a q).attendees.map (ofInvited (relist L v.categories))
      = v.attendees.map (fun a => ofInvited L (importAttendee src a)) := by
    unfold imported
    simp only [List.map_map]
    rfl
  rw [ctx_new method_spec_init, ← spec_init_prog W n]
  unfold specArgs
  rw [hc, ha]
  unfold kwAll kwOther kwAttendees kwTimes
  cases b with
  | true =>
    rw [if_pos rfl, set_positions, kw_positions]
    rfl
  | false =>
    rw [if_neg (by simp), set_positions', kw_positions', hb rfl]
    rfl

/-- Importing what a component says, as written, makes the specification that the model makes.  The categories are
listed as they are written. -/
theorem importSpec_prog (W n : Nat) (L : Listing) (st : Storage) (src : CalCore.Source) (c : Calendar) (tz : LocalTz) (v : VEvent)
    (d : Dict String Val) (hp : Parsed tz v d) (hu : v.uid ≠ none ∨ v.dtend = none ∨ v.duration = none) :
    Source.prog.call W (n + 5) "CalendarBase._importEventSpecification" [ofCalendar L st src c, ofComponent d] []
    = toM (ofSpec (relist L v.categories)) (importSpec tz c src v) := by
  rw [call_eq (d := Source.CalendarBase_importEventSpecification) rfl]
  have hb : Source.CalendarBase_importEventSpecification.call (Source.prog.ctx W (n + 4)) W [ofCalendar L st src c, ofComponent d] []
      = Source.CalendarBase_importEventSpecification.result (execs (Source.prog.ctx W (n + 4)) W
        Source.CalendarBase_importEventSpecification.body
        ⟨impEnv (some (ofCalendar L st src c)) (some (ofComponent d)) none none none none none none none none none none none none none, []⟩) := rfl
  rw [hb, importSpec_eq]
  simp only []
  obtain ⟨k, x, y, z, ht⟩ := time_stmts W n L st src c tz v d hp hu
  rw [execs_append, ht]
  rcases hgt : getDtstartDuration tz v with e | p
  · have hi : importSpec tz c src v = .error e := by
      unfold importSpec
      rw [hgt]
      rfl
    rw [hi]
    cases e <;> rfl
  · obtain ⟨o, ho⟩ := organizer_stmts W n L st src c tz v d hp (kwTimes v p) x y z
    simp only [andThen_next]
    rw [execs_append, ho]
    rcases hgo : importOrganizer c src v with e | a
    · have hi : importSpec tz c src v = .error e := by
        unfold importSpec
        rw [hgt, hgo]
        rfl
      rw [hi]
      cases e <;> rfl
    · obtain ⟨b, l, t, q, a', s, r, hb', ha⟩ := attendee_stmt W n L st src tz v d hp
        (Dict.set (kwTimes v p) "organizer" (ofOption (ofAttendee L) a)) (some (ofCalendar L st src c)) o x y z
      simp only [andThen_next]
      rw [execs_cons, ha, andThen_next, execs_append,
        other_stmts W n L st src c tz v d hp, andThen_next, execs_append]
      obtain ⟨u, hr⟩ := rule_stmts W n L st src c tz v d hp
        (kwOther v (kwAttendees L src b v (Dict.set (kwTimes v p) "organizer" (ofOption (ofAttendee L) a))))
        (some (ofSource L st src)) o l t q a' s r x y z
      rw [hr]
      rcases hgr : importRule v.rrule with e | rule
      · have hi : importSpec tz c src v = .error e := by
          unfold importSpec
          rw [hgt, hgo, hgr]
          rfl
        rw [hi]
        cases e <;> rfl
      · have hi : importSpec tz c src v = .ok (imported src v p a rule) := by
          unfold importSpec
          rw [hgt, hgo, hgr]
          rfl
        rw [hi, toM_ok]
        simp only [andThen_next]
        rw [execs_single, exec]
        rw [eval_newKw _ _ _ _ (kwAll L src b v p a rule) rfl, new_all W (n + 3) L src b v hb' p a rule]
        rfl

end CalCore.Lang
