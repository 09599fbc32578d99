import Verif.Spec.Export
import Verif.Props.Import
import Verif.Props.Modify
/- Properties C49-C51: export. -/
namespace CalCore
open Spec

/-! ### C51 -/

/-- C51: private export gives the same for events that agree on what everybody may see. -/
theorem C51_private (e e' : Event) (h : SameTimes e e') (order order' : Finset String → List String) :
    e.export true order = e'.export true order' := by
  obtain ⟨h1, h2, h3, h4, h5, h6, h7⟩ := h
  unfold Event.export
  rw [h1, h2, h3, h4, h5, h6, h7]
  rfl

/-- C51: and it has no other properties. -/
theorem C51_nothing_else (e : Event) (order : Finset String → List String) (v : VEvent)
    (h : e.export true order = .ok v) :
    v.summary = some "Private Event" ∧ v.description = none ∧ v.location = none ∧ v.status = none ∧
      v.organizer = none ∧ v.attendees = [] ∧ v.categories = .absent ∧ v.attach = none := by
  unfold Event.export at h
  cases hd : e.duration with
  | none => rw [hd] at h; cases h
  | some dur =>
    rw [hd] at h
    simp only [bind_ok, if_true, Except.ok.injEq] at h
    obtain ⟨dtend, _, rfl⟩ := h
    exact ⟨rfl, rfl, rfl, rfl, rfl, rfl, rfl, rfl⟩

/-- C51, concrete: the public export differs. -/
example :
    let e := Sample.event Sample.party
    let e' := Sample.event { Sample.party with title := "surprise", location := "cellar" }
    e.export true (fun _ => []) = e'.export true (fun _ => []) ∧ e.export false (fun _ => []) ≠ e'.export false (fun _ => []) := by
  decide +kernel

/-! ### C49 -/

/-- C49 for rules: a rule survives export and import exactly if it is expressible. -/
theorem C49_rule_exact (r : Rule) : getRecurrenceRule (exportRule r) = .ok r ↔ Expressible r := by
  have hfirst : ∀ {α : Type} (o : Option α), firstOf (o.map (fun c => [c])) = .ok o := by
    intro α o; cases o <;> rfl
  obtain ⟨kind, interval, count, untl, exceptions⟩ := r
  unfold getRecurrenceRule exportRule Expressible
  have hnew : ∀ k : RuleKind, (∀ l, k = .weekly l → l = []) → Rule.new k = .ok ⟨k, 1, none, none, []⟩ := by
    intro k hk
    cases k with
    | weekly l => rw [hk l rfl]; rfl
    | monthly m => rfl
    | basic => rfl
    | no => rfl
    | daily => rfl
    | yearly => rfl
  have hrest : ∀ k : RuleKind, (do
      let interval' ← firstOf (some [interval])
      let count' ← firstOf (count.map (fun c => [c]))
      let untl' ← firstOf (untl.map (fun c => [c]))
      (.ok ⟨k, interval'.getD 1, count'.or none, untl'.or none, []⟩ : Res Rule)) = .ok ⟨k, interval, count, untl, []⟩ := by
    intro k
    rw [hfirst, hfirst]
    cases count <;> cases untl <;> rfl
  cases kind with
  | basic => simp [RuleKind.icalFreq]
  | no => simp [RuleKind.icalFreq]
  | daily =>
    have := hrest .daily
    simp only [RuleKind.icalFreq, ruleOfFreq, if_true, hnew .daily (by simp), ok_bind] at this ⊢
    rw [this]
    simp only [Except.ok.injEq, Rule.mk.injEq, true_and, reduceCtorEq, or_false]
    exact ⟨fun h => h.symm, fun h => h.symm⟩
  | yearly =>
    have := hrest .yearly
    simp only [RuleKind.icalFreq, ruleOfFreq, if_true, hnew .yearly (by simp), ok_bind,
      show ¬ ("YEARLY" = "DAILY") by decide, if_false] at this ⊢
    rw [this]
    simp only [Except.ok.injEq, Rule.mk.injEq, true_and, reduceCtorEq, false_or, or_false]
    exact ⟨fun h => h.symm, fun h => h.symm⟩
  | weekly l =>
    have := hrest (.weekly [])
    simp only [RuleKind.icalFreq, ruleOfFreq, if_true, ok_bind,
      show ¬ ("WEEKLY" = "DAILY") by decide, show ¬ ("WEEKLY" = "YEARLY") by decide, if_false, Option.getD_none,
      weekdayIndexes, hnew (.weekly []) (by simp)] at this ⊢
    rw [this]
    simp only [Except.ok.injEq, Rule.mk.injEq, true_and, reduceCtorEq, false_or, or_false, RuleKind.weekly.injEq]
    exact ⟨fun h => ⟨h.1.symm, h.2.symm⟩, fun h => ⟨h.1.symm, h.2.symm⟩⟩
  | monthly m =>
    have := hrest (.monthly .monthday)
    simp only [RuleKind.icalFreq, ruleOfFreq, if_true, ok_bind,
      show ¬ ("MONTHLY" = "DAILY") by decide, show ¬ ("MONTHLY" = "YEARLY") by decide,
      show ¬ ("MONTHLY" = "WEEKLY") by decide, if_false, hnew (.monthly .monthday) (by simp)] at this ⊢
    rw [this]
    simp only [Except.ok.injEq, Rule.mk.injEq, true_and, reduceCtorEq, false_or, RuleKind.monthly.injEq]
    exact ⟨fun h => ⟨h.1.symm, h.2.symm⟩, fun h => ⟨h.1.symm, h.2.symm⟩⟩

theorem main_known {c : Calendar} {src : Source} (hc : ∀ a ∈ Dict.keys c, Dict.has src a = true) :
    ∃ m, c.main src = .ok m := by
  unfold Calendar.main Calendar.mainId
  cases hk : Dict.keys c with
  | nil => exact ⟨none, rfl⟩
  | cons a l =>
    have := hc a (by rw [hk]; exact List.mem_cons_self ..)
    simp only [List.head?_cons, Source.getAttendee, this, if_true, ok_bind]
    exact ⟨_, rfl⟩

/-- The specification read from an export has the content of the event, and the main attendee as organizer. -/
theorem importSpec_export (tz : LocalTz) (c : Calendar) (src : Source) (e : Event) (hx : Exportable e)
    (order : Finset String → List String) (ho : Lists order) (v : VEvent) (h : e.export false order = .ok v)
    (m : Option AttId) (hm : c.main src = .ok m) :
    v.uid = some e.uid ∧ ProperAllday v ∧ ∃ s, importSpec tz c src v = .ok s ∧ s.organizer = m ∧ s.attendees = [] ∧ s.setAttrs e = e := by
  unfold Event.export at h
  cases hd : e.duration with
  | none => rw [hd] at h; cases h
  | some dur =>
    rw [hd] at h
    simp only [bind_ok, dtAdd_ok, Bool.false_eq_true, if_false, Except.ok.injEq] at h
    obtain ⟨_, ⟨_, rfl⟩, rfl⟩ := h
    have hsd : getDtstartDuration tz ({ uid := some e.uid
                                        dtstart := some (if e.allday then .date (dtDate e.dtstart) else .naive e.dtstart)
                                        dtend := some (if e.allday then .date (dtDate (e.dtstart + dur)) else .naive (e.dtstart + dur)) } : VEvent)
        = .ok (e.dtstart, dur, e.allday) := by
      unfold getDtstartDuration
      simp only []
      cases ha : e.allday with
      | false =>
        simp only [Bool.false_eq_true, if_false, importStart, floatDatetime, ok_bind, importEnd]
        rw [show e.dtstart + dur - e.dtstart = dur by omega]
      | true =>
        obtain ⟨h1, k, hk, h2⟩ := hx.allday ha
        rw [hd] at h2
        injection h2 with h2
        simp only [if_true, importStart, ok_bind, importEnd]
        have e1 : combine (dtDate e.dtstart) 0 = e.dtstart := by
          unfold combine dtDate; unfold DAY at *; omega
        have e2 : combine (dtDate (e.dtstart + dur)) 0 = e.dtstart + dur := by
          unfold combine dtDate; unfold DAY at *; omega
        rw [e1, e2, show e.dtstart + dur - e.dtstart = dur by omega]
    refine ⟨rfl, ?_, ?_⟩
    · intro d hdate
      cases ha : e.allday with
      | false => simp [ha] at hdate
      | true =>
        obtain ⟨h1, k, hk, h2⟩ := hx.allday ha
        rw [hd] at h2
        injection h2 with h2
        left
        refine ⟨dtDate (e.dtstart + dur), by simp, ?_⟩
        simp only [ha, if_true, Option.some.injEq, ICalTime.date.injEq] at hdate
        rw [← hdate]
        unfold dtDate
        unfold DAY at *
        omega
    · unfold importSpec
      have hsd' := hsd
      unfold getDtstartDuration at hsd' ⊢
      simp only [] at hsd' ⊢
      rw [hsd']
      simp only [ok_bind, importOrganizer, Option.bind_none, hm]
      have hrule : importRule (e.recurrence.map exportRule) = .ok e.recurrence := by
        cases hr : e.recurrence with
        | none => rfl
        | some r =>
          simp only [Option.map_some, importRule, (C49_rule_exact r).2 (hx.recurrence r hr)]
          rfl
      rw [hrule]
      simp only [ok_bind]
      refine ⟨_, rfl, rfl, rfl, ?_⟩
      unfold Spec.setAttrs
      have hdesc : ((if e.description = "" then none else some e.description : Option String)).getD "" = e.description := by
        split
        · rename_i h; rw [h]; rfl
        · rfl
      have hloc : ((if e.location = "" then none else some e.location : Option String)).getD "" = e.location := by
        split
        · rename_i h; rw [h]; rfl
        · rfl
      have hcat : getCategories (if e.categories = ∅ then .absent else .inline (order e.categories)) = e.categories := by
        split
        · rename_i h; rw [h]; rfl
        · exact ho _
      have htr : decide ((some (if e.transparent = true then "TRANSPARENT" else "OPAQUE")).getD "OPAQUE" = "TRANSPARENT") =
          e.transparent := by
        cases e.transparent <;> decide
      simp only [Option.getD_some] at htr ⊢
      rw [hdesc, hloc, hcat, htr, ← hd]
      have hdoc := hx.document
      cases hdd : e.document with
      | none => simp only []; rw [← hdd]
      | some d =>
        rw [hdd] at hdoc
        simp only []
        rw [if_neg (fun h => hdoc (by rw [h])), ← hdd]

/-- C49: an event that the exported properties say completely, exported and imported into an empty store, has
the same content, for every calendar, local timezone and order of listing the categories.  Missing: all other
events; rules that are not expressible are always lost (`C49_rule_exact`, `C49_counterexample`). -/
theorem C49_round_trip_partial (id host : String) (parse : List Char → Res (Option (List VEvent))) (text : List Char)
    (tz : LocalTz) (c : Calendar) (src : Source) (sync : Bool) (e : Event) (hx : Exportable e)
    (order : Finset String → List String) (ho : Lists order) (v : VEvent) (h : e.export false order = .ok v)
    (hp : parse (repairText text) = .ok (some [v])) (hc : ∀ a ∈ Dict.keys c, Dict.has src a = true) :
    ∃ w' e', (freshWorld id host).import_ parse tz c src text none none none sync = (w', .ok ()) ∧
      w'.store.getEvent e.uid = .ok e' ∧ SameContent e e' := by
  obtain ⟨m, hm⟩ : ∃ m, c.main src = .ok m := main_known hc
  obtain ⟨huid, hpa, s, hs, horg, hatt, hattrs⟩ := importSpec_export tz c src e hx order ho v h m hm
  obtain ⟨ev, hev⟩ : ∃ ev, newEvent e.uid s = .ok ev := by
    unfold newEvent Spec.setOnObject
    rw [hatt]
    exact ⟨_, rfl⟩
  have hset := newEvent_whole (importSpec_wholeDays hs hpa) hev
  have hget : c.getEvents src (freshWorld id host).store none none none = .ok [] := by
    unfold Calendar.getEvents Calendar.criteria Calendar.getAttendees
    rw [lookupAll_known hc]
    rfl
  have hcreate : (freshWorld id host).createEvent 0 (some e.uid) s =
      ({ store := { (freshWorld id host).store with events := [(e.uid, ev)] }, log := [.created e.uid] }, .ok ev) := by
    have hu := newEvent_uid hev
    unfold World.createEvent Storage.createEvent
    simp only [Option.getD_some, hev, hu]
    rfl
  refine ⟨{ store := { (freshWorld id host).store with events := [(e.uid, ev)] }, log := [.created e.uid] }, ev, ?_, ?_, ?_⟩
  · have hloop : World.importLoop tz c src (([] : List Event).map (·.uid)).dedup (freshWorld id host) [v] =
        ({ store := { (freshWorld id host).store with events := [(e.uid, ev)] }, log := [.created e.uid] },
          .ok [e.uid]) := by
      have hone : (freshWorld id host).importOne tz c src (([] : List Event).map (·.uid)).dedup e.uid v =
          ({ store := { (freshWorld id host).store with events := [(e.uid, ev)] }, log := [.created e.uid] }, .ok ()) := by
        unfold World.importOne
        rw [if_neg (by simp), if_pos (by rw [Storage.hasEvent_iff]; rintro ⟨_, h⟩; cases h)]
        unfold World.importNew
        simp only [hs, hcreate]
      rw [World.importLoop_cons, huid]
      simp only [hone]
      rfl
    unfold World.import_
    simp only [hget, hp, hloop]
    cases sync <;> rfl
  · rw [Storage.getEvent_ok]
    simp [Dict.get?]
  · have := setOnObject_attributes s (blankEvent e.uid)
    rw [hset] at this
    unfold SameButParticipation at this
    simp only [Spec.setAttrs, Event.mk.injEq] at this
    obtain ⟨_, h1, h2, h3, h4, h5, h6, h7, h8, h9, h10, h11, h12, h13, _⟩ := this
    unfold SameContent
    rw [h1, h2, h3, h4, h5, h6, h7, h8, h9, h10, h11, h12, ← hattrs]
    exact ⟨rfl, rfl, rfl, rfl, rfl, rfl, rfl, rfl, rfl, rfl, rfl, rfl⟩

/-- A weekly course on Mondays and Wednesdays, without the 4th. -/
def Sample.course : Spec :=
  { Sample.party with recurrence := some ⟨.weekly [0, 2], 1, some 4, none, [ymd2ord 2026 3 4]⟩ }

/-- What becomes of an event that is exported and imported into an empty store. -/
def Sample.roundTrip (e : Event) : Res Event :=
  match e.export false (fun _ => []) with
  | .error f => .error f
  | .ok v => ((freshWorld "st" "host").run [Sample.imp [v] false]).store.getEvent e.uid

/-- C49 is false: the weekdays and exceptions of a weekly rule and the kind of a monthly rule are lost, and an
empty document becomes None. -/
theorem C49_counterexample :
    (Sample.roundTrip (Sample.event Sample.course)).map (·.recurrence) = .ok (some ⟨.weekly [], 1, some 4, none, []⟩) ∧
    (Sample.roundTrip (Sample.event { Sample.party with recurrence := some ⟨.monthly .lastweekday, 1, none, none, []⟩ })).map
      (·.recurrence) = .ok (some ⟨.monthly .monthday, 1, none, none, []⟩) ∧
    (Sample.roundTrip (Sample.event { Sample.party with document := some "" })).map (·.document) = .ok none := by
  decide +kernel

/-- C49, concrete: a recurring all-day event. -/
example :
    let s : Spec := { Sample.party with allday := true, duration := some (2 * DAY), description := "bring cake"
                                        recurrence := some ⟨.yearly, 1, none, some (.date (ymd2ord 2036 1 1)), []⟩ }
    Exportable (Sample.event s) ∧ (Sample.roundTrip (Sample.event s)).map (·.recurrence) = .ok s.recurrence ∧
      (Sample.roundTrip (Sample.event s)).map (·.duration) = .ok s.duration := by
  refine ⟨⟨fun _ => ⟨by decide +kernel, 2, by decide, by decide +kernel⟩, ?_, by decide +kernel⟩, by decide +kernel, by decide +kernel⟩
  intro r hr
  have : (Sample.event { Sample.party with allday := true, duration := some (2 * DAY), description := "bring cake"
                                           recurrence := some ⟨.yearly, 1, none, some (.date (ymd2ord 2036 1 1)), []⟩ }).recurrence =
    some ⟨.yearly, 1, none, some (.date (ymd2ord 2036 1 1)), []⟩ := by decide +kernel
  rw [this] at hr
  injection hr with hr
  subst hr
  exact ⟨Or.inr (Or.inl rfl), rfl⟩

/-! ### C50 -/

theorem exportAll_mem {order : Finset String → List String} {l : List Event} {vs : List VEvent}
    (h : exportAll order l = .ok vs) :
    (∀ v ∈ vs, ∃ ev ∈ l, ev.export false order = .ok v) ∧ ∀ ev ∈ l, ∃ v ∈ vs, ev.export false order = .ok v := by
  induction l generalizing vs with
  | nil =>
    injection h with h
    subst h
    simp
  | cons ev l ih =>
    unfold exportAll at h
    simp only [bind_ok, Except.ok.injEq] at h
    obtain ⟨v, h1, more, h2, rfl⟩ := h
    obtain ⟨i1, i2⟩ := ih h2
    constructor
    · intro x hx
      rcases List.mem_cons.1 hx with rfl | hx
      · exact ⟨ev, List.mem_cons_self .., h1⟩
      · obtain ⟨y, hy, hxy⟩ := i1 x hx
        exact ⟨y, List.mem_cons_of_mem _ hy, hxy⟩
    · intro x hx
      rcases List.mem_cons.1 hx with rfl | hx
      · exact ⟨v, List.mem_cons_self .., h1⟩
      · obtain ⟨y, hy, hxy⟩ := i2 x hx
        exact ⟨y, List.mem_cons_of_mem _ hy, hxy⟩

theorem importLoop_unmodified (tz : LocalTz) (c : Calendar) (src : Source) (known : List Uid) (w : World)
    (vs : List VEvent) (h : ∀ v ∈ vs, ∃ u ev s, v.uid = some u ∧ u ∈ known ∧ Dict.get? w.store.events u = some ev ∧
      importSpec tz c src v = .ok s ∧ s.willModify ev = .ok false) :
    World.importLoop tz c src known w vs = (w, .ok (dataUids vs)) := by
  induction vs with
  | nil => rfl
  | cons v rest ih =>
    obtain ⟨u, ev, s, h1, h2, h3, h4, h5⟩ := h v (List.mem_cons_self ..)
    have hone : w.importOne tz c src known u v = (w, .ok ()) := by
      unfold World.importOne
      rw [if_pos h2]
      unfold World.importExisting
      simp only [Storage.getEvent_ok.2 h3, h4, h5]
    rw [World.importLoop_cons, h1]
    simp only [hone, ih (fun x hx => h x (List.mem_cons_of_mem _ hx))]
    unfold dataUids
    rw [List.filterMap_cons_some h1]

/-- C50: exporting a calendar and importing the result, for the same period and criteria, changes nothing and
sends no notification, when all exported events are said completely by the exported properties and are
organized and accepted by the main attendee of the calendar.  Missing: other events, for which it is false
(`C50_counterexample`). -/
theorem C50_own_export_partial (w : World) (hw : w.store.WF) (parse : List Char → Res (Option (List VEvent)))
    (text : List Char) (tz : LocalTz) (c : Calendar) (src : Source) (b e : Option Int) (cr : Option Criteria) (sync : Bool)
    (order : Finset String → List String) (ho : Lists order) (vs : List VEvent)
    (hx : c.export src w.store b e cr order = .ok vs) (hp : parse (repairText text) = .ok (some vs)) (m : AttId)
    (hm : c.main src = .ok (some m))
    (hev : ∀ l, c.getEvents src w.store b e cr = .ok l → ∀ ev ∈ l, Exportable ev ∧ ev.organizerId = some m ∧
      ev.getStatus m = some "ACCEPTED" ∧ ev.getRole m = some "REQ-PARTICIPANT") :
    w.import_ parse tz c src text b e cr sync = (w, .ok ()) := by
  unfold Calendar.export at hx
  simp only [bind_ok] at hx
  obtain ⟨l, hl, hx⟩ := hx
  obtain ⟨hfrom, hto⟩ := exportAll_mem hx
  have hev := hev l hl
  have hloop : World.importLoop tz c src (l.map (·.uid)).dedup w vs = (w, .ok (dataUids vs)) := by
    apply importLoop_unmodified
    intro v hv
    obtain ⟨ev, hevl, hexp⟩ := hfrom v hv
    obtain ⟨hxev, hoid, host, horo⟩ := hev ev hevl
    obtain ⟨huid, _, s, hs, horg, hatt, hattrs⟩ := importSpec_export tz c src ev hxev order ho v hexp (some m) hm
    refine ⟨ev.uid, ev, s, huid, ?_, calendar_stored hw hl hevl, hs, ?_⟩
    · rw [List.mem_dedup]; exact List.mem_map_of_mem hevl
    · unfold Spec.willModify
      rw [attrsDiffer_false.2 hattrs, horg, hatt]
      simp [hoid, host, horo, willModifyLoop]
  have hnone : (l.map (·.uid)).dedup.filter (fun u => u ∉ dataUids vs) = [] := by
    rw [List.filter_eq_nil_iff]
    intro u hu
    rw [List.mem_dedup, List.mem_map] at hu
    obtain ⟨ev, hevl, rfl⟩ := hu
    obtain ⟨v, hv, hexp⟩ := hto ev hevl
    obtain ⟨huid, _⟩ := importSpec_export tz c src ev (hev ev hevl).1 order ho v hexp (some m) hm
    simp only [decide_eq_true_eq, not_not]
    exact mem_dataUids.2 ⟨v, hv, huid⟩
  unfold World.import_
  simp only [hl, hp, hloop, hnone]
  cases sync <;> rfl

/-- A store with a meeting of Bob, to which Alice is invited. -/
def Sample.bobs : World :=
  (freshWorld "st" "host").run [.create 0 (some "p") { Sample.party with
    organizer := some "bob", attendees := [(some "alice", "REQ-PARTICIPANT", "NEEDS-ACTION")] }]

/-- C50 is false: Alice exports their calendar, imports it again, and is the organizer of Bob's meeting, which they
have accepted. -/
theorem C50_counterexample :
    (match Sample.cal.export Sample.src Sample.bobs.store none none none (fun _ => []) with
     | .error _ => none
     | .ok vs =>
       let w := Sample.bobs.run [Sample.imp vs false]
       some (w.log, (w.store.getEvent "p").map (fun e => (e.organizerId, e.getStatus "alice")))) =
    some ([.created "p", .modified "p"], .ok (some "alice", some "ACCEPTED")) := by decide +kernel

/-- C50, concrete: Alice's own party, without a rule; Bob's answer does not matter. -/
example :
    let w := (freshWorld "st" "host").run [.create 0 (some "p") Sample.party]
    (match Sample.cal.export Sample.src w.store none none none (fun _ => []) with
     | .error _ => none
     | .ok vs => some ((w.run [Sample.imp vs true]).log, vs.length)) = some ([.created "p"], 1) ∧
    Sample.cal.main Sample.src = .ok (some "alice") := by decide +kernel

end CalCore
