import Verif.Props.Mirror
/- Property C97: what an export and import into an empty store makes of an event, and that doing it twice
changes nothing more. -/
namespace CalCore
open Spec

/-- The rule read from an export. -/
theorem getRecurrenceRule_export (r : Rule) :
    getRecurrenceRule (exportRule r) = match copyRule r with
      | some r' => .ok r'
      | none => raise .KeyError := by
  obtain ⟨kind, interval, count, untl, exceptions⟩ := r
  cases kind <;> cases count <;> cases untl <;> rfl

/-- Reading an export: when it succeeds, and what specification it gives. -/
theorem importSpec_any (tz : LocalTz) (c : Calendar) (src : Source) (e : Event)
    (order : Finset String → List String) (ho : Lists order) (v : VEvent) (h : e.export false order = .ok v)
    (m : Option AttId) (hm : c.main src = .ok m) :
    v.uid = some e.uid ∧
    ((∃ r, e.recurrence = some r ∧ copyRule r = none ∧ importSpec tz c src v = raise .KeyError) ∨
     ((∀ r, e.recurrence = some r → copyRule r ≠ none) ∧ ∃ s d, importSpec tz c src v = .ok s ∧ e.duration = some d ∧
      s.organizer = m ∧ s.attendees = [] ∧
      s = { s with
            title := e.title, description := e.description, location := e.location, status := e.status
            categories := e.categories, transparent := e.transparent, access := e.access, allday := e.allday
            document := if e.document = some "" then none else e.document
            recurrence := e.recurrence.bind copyRule
            dtstart := if e.allday then combine (dtDate e.dtstart) 0 else e.dtstart
            duration := some (if e.allday then combine (dtDate (e.dtstart + d)) 0 - combine (dtDate e.dtstart) 0
              else d) })) := by
  unfold Event.export at h
  cases hd : e.duration with
  | none => rw [hd] at h; cases h
  | some dur =>
    rw [hd] at h
    simp only [bind_ok, dtAdd_ok, Bool.false_eq_true, if_false, Except.ok.injEq] at h
    obtain ⟨_, ⟨_, rfl⟩, rfl⟩ := h
    refine ⟨rfl, ?_⟩
    have hsd : getDtstartDuration tz ({ uid := some e.uid
                                        dtstart := some (if e.allday then .date (dtDate e.dtstart) else .naive e.dtstart)
                                        dtend := some (if e.allday then .date (dtDate (e.dtstart + dur)) else .naive (e.dtstart + dur)) } : VEvent)
        = .ok (if e.allday then combine (dtDate e.dtstart) 0 else e.dtstart,
            if e.allday then combine (dtDate (e.dtstart + dur)) 0 - combine (dtDate e.dtstart) 0 else dur, e.allday) := by
      unfold getDtstartDuration
      simp only []
      cases ha : e.allday with
      | false =>
        simp only [Bool.false_eq_true, if_false, importStart, floatDatetime, ok_bind, importEnd]
        rw [show e.dtstart + dur - e.dtstart = dur by omega]
      | true => simp only [if_true, importStart, ok_bind, importEnd]
    unfold importSpec
    have hsd' := hsd
    unfold getDtstartDuration at hsd' ⊢
    simp only [] at hsd' ⊢
    rw [hsd']
    simp only [ok_bind, importOrganizer, Option.bind_none, hm]
    have hdesc : ((if e.description = "" then none else some e.description : Option String)).getD "" = e.description := by
      split
      · rename_i h; rw [h]; rfl
      · rfl
    have hloc : ((if e.location = "" then none else some e.location : Option String)).getD "" = e.location := by
      split
      · rename_i h; rw [h]; rfl
      · rfl
    have hcat : getCategories (if e.categories = ∅ then .absent else .inline (order e.categories)) = e.categories := by
      split
      · rename_i h; rw [h]; rfl
      · exact ho _
    have htr : decide ((some (if e.transparent = true then "TRANSPARENT" else "OPAQUE")).getD "OPAQUE" = "TRANSPARENT") =
        e.transparent := by
      cases e.transparent <;> decide
    have hrule : importRule (e.recurrence.map exportRule) = match e.recurrence with
        | none => .ok none
        | some r => match copyRule r with
          | some r' => .ok (some r')
          | none => raise .KeyError := by
      cases e.recurrence with
      | none => rfl
      | some r =>
        simp only [Option.map_some, importRule, getRecurrenceRule_export]
        cases copyRule r <;> rfl
    rw [hrule, hdesc, hloc, hcat, htr]
    cases hr : e.recurrence with
    | none =>
      right
      refine ⟨(fun r hr => nomatch hr), _, dur, rfl, rfl, rfl, rfl, ?_⟩
      cases hdd : e.document with
      | none => rfl
      | some d => simp
    | some r =>
      cases hc : copyRule r with
      | none => exact Or.inl ⟨r, rfl, hc, by simp only [hc]; rfl⟩
      | some r' =>
        right
        simp only [hc]
        refine ⟨by intro r2 hr2; injection hr2 with hr2; rw [← hr2, hc]; simp, _, dur, rfl, rfl, rfl, rfl, ?_⟩
        cases hdd : e.document with
        | none => simp [hc]
        | some d => simp [hc]

/-- The event made from an export. -/
theorem newEvent_copied (tz : LocalTz) (c : Calendar) (src : Source) (e : Event)
    (order : Finset String → List String) (ho : Lists order) (v : VEvent) (h : e.export false order = .ok v)
    (m : Option AttId) (hm : c.main src = .ok m) (s : Spec) (hs : importSpec tz c src v = .ok s) (u : Uid) :
    ∃ e', newEvent u s = .ok e' ∧ Copied e e' ∧ e'.uid = u := by
  rcases (importSpec_any tz c src e order ho v h m hm).2 with ⟨r, _, _, h'⟩ | ⟨hrec, s', d, hs', hd, horg, hatt, heq⟩
  · rw [hs] at h'; cases h'
  rw [hs] at hs'
  injection hs' with hs'
  subst hs'
  obtain ⟨o, ho'⟩ := setOnObject_nil hatt (blankEvent u)
  have hat := setOnObject_attributes s (blankEvent u)
  rw [ho'] at hat
  obtain ⟨n, hn⟩ : ∃ n, newEvent u s = .ok n := by
    unfold newEvent
    rw [ho']
    exact ⟨_, rfl⟩
  refine ⟨n, hn, ?_, newEvent_uid hn⟩
  obtain ⟨o', ho'', hall, hn'⟩ := newEvent_made hn
  rw [ho'] at ho''
  injection ho'' with ho'' _
  subst ho''
  unfold SameButParticipation at hat
  have g1 : o.title = s.title := congrArg Event.title hat
  have g2 : o.description = s.description := congrArg Event.description hat
  have g3 : o.location = s.location := congrArg Event.location hat
  have g4 : o.status = s.status := congrArg Event.status hat
  have g5 : o.categories = s.categories := congrArg Event.categories hat
  have g6 : o.transparent = s.transparent := congrArg Event.transparent hat
  have g7 : o.access = s.access := congrArg Event.access hat
  have g8 : o.allday = s.allday := congrArg Event.allday hat
  have g9 : o.document = s.document := congrArg Event.document hat
  have g10 : o.recurrence = s.recurrence := congrArg Event.recurrence hat
  have g11 : o.dtstart = s.dtstart := congrArg Event.dtstart hat
  have g12 : o.duration = s.duration := congrArg Event.duration hat
  have f1 := congrArg Spec.title heq
  have f2 := congrArg Spec.description heq
  have f3 := congrArg Spec.location heq
  have f4 := congrArg Spec.status heq
  have f5 := congrArg Spec.categories heq
  have f6 := congrArg Spec.transparent heq
  have f7 := congrArg Spec.access heq
  have f8 := congrArg Spec.allday heq
  have f9 := congrArg Spec.document heq
  have f10 := congrArg Spec.recurrence heq
  have f11 := congrArg Spec.dtstart heq
  have f12 := congrArg Spec.duration heq
  simp only [] at f1 f2 f3 f4 f5 f6 f7 f8 f9 f10 f11 f12
  have hkeep : n.title = o.title ∧ n.description = o.description ∧ n.location = o.location ∧ n.status = o.status ∧
      n.categories = o.categories ∧ n.transparent = o.transparent ∧ n.access = o.access ∧ n.allday = o.allday ∧
      n.document = o.document ∧ n.recurrence = o.recurrence := by
    rw [hn']
    split
    · exact ⟨rfl, rfl, rfl, rfl, rfl, rfl, rfl, rfl, rfl, rfl⟩
    · exact ⟨rfl, rfl, rfl, rfl, rfl, rfl, rfl, rfl, rfl, rfl⟩
  obtain ⟨k1, k2, k3, k4, k5, k6, k7, k8, k9, k10⟩ := hkeep
  constructor
  · rw [k1, g1, f1]
  · rw [k2, g2, f2]
  · rw [k3, g3, f3]
  · rw [k4, g4, f4]
  · rw [k5, g5, f5]
  · rw [k6, g6, f6]
  · rw [k7, g7, f7]
  · rw [k8, g8, f8]
  · rw [k9, g9, f9]
  · intro hr; rw [k10, g10, f10, hr]; rfl
  · intro r hr; rw [k10, g10, f10, hr]; exact ⟨rfl, hrec r hr⟩
  · intro ha
    rw [f8, ha, if_neg (by simp)] at hn'
    rw [ha, if_neg (by simp)] at f11 f12
    rw [hn', hd, g11, g12, f11, f12]
    exact ⟨rfl, rfl⟩
  · intro ha
    rw [f8, ha, if_pos rfl] at hn'
    rw [ha, if_pos rfl] at f11 f12
    have hdur : n.duration = some (if dtDate (e.dtstart + d) = dtDate e.dtstart then DAY else
        (dtDate (e.dtstart + d) - dtDate e.dtstart) * DAY) := by
      rw [hn']
      unfold Event.alldayAdjust
      simp only [g12, f12]
      congr 1
      have e1 : combine (dtDate (e.dtstart + d)) 0 - combine (dtDate e.dtstart) 0 =
          (dtDate (e.dtstart + d) - dtDate e.dtstart) * DAY := by
        unfold combine; unfold DAY; omega
      rw [e1]
      generalize dtDate (e.dtstart + d) = x
      generalize dtDate e.dtstart = y
      unfold DAY
      split <;> split <;> omega
    refine ⟨?_, d, hd, ?_, ?_⟩
    · rw [hn']
      unfold Event.alldayAdjust
      simp only [g11, f11]
      unfold combine dtDate DAY
      omega
    · intro hx; rw [hdur, if_pos hx]
    · intro hx; rw [hdur, if_neg hx]

theorem copied_twice {e e' e'' : Event} (h : Copied e e') (h' : Copied e' e'') : SameContent e' e'' := by
  have hdoc : e''.document = e'.document := by
    rw [h'.document, h.document]
    cases e.document with
    | none => rfl
    | some d => by_cases hd : d = "" <;> simp [hd]
  have hrec : e''.recurrence = e'.recurrence := by
    cases hr : e.recurrence with
    | none => rw [h.once hr, h'.once (h.once hr)]
    | some r =>
      obtain ⟨h1, h2⟩ := h.recurs r hr
      cases hc : copyRule r with
      | none => exact absurd hc h2
      | some r' =>
        rw [hc] at h1
        rw [(h'.recurs r' h1).1, h1]
        obtain ⟨kind, interval, count, untl, exceptions⟩ := r
        cases kind <;> simp only [copyRule, Option.some.injEq, reduceCtorEq] at hc <;> subst hc <;> rfl
  have htime : e''.dtstart = e'.dtstart ∧ e''.duration = e'.duration := by
    cases ha : e.allday with
    | false => exact h'.timed (by rw [h.allday, ha])
    | true =>
      obtain ⟨h1, d, hd, h2, h3⟩ := h.days ha
      obtain ⟨h4, d', hd', h5, h6⟩ := h'.days (by rw [h.allday, ha])
      have e1 : dtDate e'.dtstart = dtDate e.dtstart := by
        rw [h1]; unfold combine dtDate DAY; omega
      refine ⟨by rw [h4, e1, h1], ?_⟩
      by_cases hx : dtDate (e.dtstart + d) = dtDate e.dtstart
      · rw [h2 hx] at hd' ⊢
        injection hd' with hd'
        have : dtDate (e'.dtstart + d') = dtDate e'.dtstart + 1 := by
          rw [h1, ← hd']; unfold combine dtDate DAY; omega
        rw [h6 (by omega), this]
        congr 1
        unfold DAY
        omega
      · rw [h3 hx] at hd' ⊢
        injection hd' with hd'
        have : dtDate (e'.dtstart + d') = dtDate e'.dtstart + (dtDate (e.dtstart + d) - dtDate e.dtstart) := by
          rw [h1, ← hd']
          generalize dtDate (e.dtstart + d) - dtDate e.dtstart = k
          unfold combine dtDate DAY
          omega
        rw [h6 (by omega), this]
        congr 1
        unfold DAY
        omega
  exact ⟨htime.1.symm, htime.2.symm, h'.allday.symm, h'.title.symm, h'.description.symm, h'.location.symm,
    h'.status.symm, h'.categories.symm, h'.transparent.symm, h'.access.symm, hdoc.symm, hrec.symm⟩

/-- C97, first half: importing the export of an event under an unused uid raises KeyError, changing nothing, if
the event has a rule of a class without frequency; otherwise it returns and stores a copy that differs from
the event exactly as `Copied` says. -/
theorem C97_copy (parse : List Char → Res (Option (List VEvent))) (text : List Char) (tz : LocalTz) (c : Calendar)
    (src : Source) (hc : ∀ a ∈ Dict.keys c, Dict.has src a = true) (e : Event) (order : Finset String → List String)
    (ho : Lists order) (v : VEvent) (h : e.export false order = .ok v)
    (hp : parse (repairText text) = .ok (some [v])) (w : World) (hw : w.store.WF)
    (hf : w.store.hasEvent e.uid = false) (sync : Bool) :
    (if ∃ r, e.recurrence = some r ∧ (r.kind = .basic ∨ r.kind = .no) then
      w.import_ parse tz c src text none none none sync = (w, raise .KeyError)
    else
      ∃ w' e', w.import_ parse tz c src text none none none sync = (w', .ok ()) ∧
        w'.store.getEvent e.uid = .ok e' ∧ Copied e e') := by
  obtain ⟨m, hm⟩ := main_known hc
  obtain ⟨l, hl, _⟩ := calendar_all (src := src) hw hc
  have hnone : Dict.get? w.store.events e.uid = none := by
    cases hg : Dict.get? w.store.events e.uid with
    | none => rfl
    | some x => rw [Storage.hasEvent_iff.2 ⟨x, hg⟩] at hf; cases hf
  have hunknown : e.uid ∉ (l.map (·.uid)).dedup := by
    intro hk
    obtain ⟨x, _, _, hx⟩ := (known_iff hw hl e.uid).1 hk
    rw [hnone] at hx
    cases hx
  obtain ⟨hu, hcase⟩ := importSpec_any tz c src e order ho v h m hm
  have hcopy : ∀ r, copyRule r = none ↔ r.kind = .basic ∨ r.kind = .no := by
    rintro ⟨kind, interval, count, untl, exceptions⟩
    cases kind <;> simp [copyRule]
  rcases hcase with ⟨r, hr, hcr, hs⟩ | ⟨hrec, s, d, hs, _⟩
  · rw [if_pos ⟨r, hr, (hcopy r).1 hcr⟩]
    have hone : w.importOne tz c src (l.map (·.uid)).dedup e.uid v = (w, raise .KeyError) := by
      unfold World.importOne
      rw [if_neg hunknown, if_pos (by rw [hf]; simp)]
      unfold World.importNew
      simp only [hs]
      rfl
    unfold World.import_
    rw [hl]
    simp only [hp, World.importLoop_cons, hu, hone]
    rfl
  · rw [if_neg (by rintro ⟨r, hr, hk⟩; exact hrec r hr ((hcopy r).2 hk))]
    obtain ⟨e', hnew, hcop, hue⟩ := newEvent_copied tz c src e order ho v h m hm s hs e.uid
    have hd : (dataUids [v]).Nodup := by unfold dataUids; rw [List.filterMap_cons, hu]; simp
    obtain ⟨hiff, hres⟩ := import_at parse tz c src text none none none sync w hw [v] hd l hp hl
    have hat : importAt tz c src (l.map (·.uid)).dedup v e.uid (Dict.get? w.store.events e.uid) = (some e', .ok ()) := by
      unfold importAt
      rw [if_neg hunknown, hnone]
      simp only [hs, hnew]
    have hok := hiff.2 (by
      intro x hx
      rw [List.mem_singleton] at hx
      subst hx
      exact ⟨e.uid, hu, by rw [hat]⟩)
    refine ⟨_, e', Prod.ext rfl hok, ?_, hcop⟩
    rw [Storage.getEvent_ok, (hres hok).1 v (List.mem_singleton.2 rfl) e.uid hu, hat]

/-- C97, second half: a copy that can be exported can be imported under an unused uid, and that copy of the copy
has the same content as the copy. -/
theorem C97_again (parse : List Char → Res (Option (List VEvent))) (text : List Char) (tz : LocalTz) (c : Calendar)
    (src : Source) (hc : ∀ a ∈ Dict.keys c, Dict.has src a = true) (e e' : Event) (hcop : Copied e e')
    (order : Finset String → List String) (ho : Lists order) (v : VEvent) (h : e'.export false order = .ok v)
    (hp : parse (repairText text) = .ok (some [v])) (w : World) (hw : w.store.WF)
    (hf : w.store.hasEvent e'.uid = false) (sync : Bool) :
    ∃ w' e'', w.import_ parse tz c src text none none none sync = (w', .ok ()) ∧
      w'.store.getEvent e'.uid = .ok e'' ∧ SameContent e' e'' := by
  have hx := C97_copy parse text tz c src hc e' order ho v h hp w hw hf sync
  rw [if_neg] at hx
  · obtain ⟨w', e'', h1, h2, h3⟩ := hx
    exact ⟨w', e'', h1, h2, copied_twice hcop h3⟩
  · rintro ⟨r', hr', hk⟩
    cases hr : e.recurrence with
    | none => rw [hcop.once hr] at hr'; cases hr'
    | some r =>
      obtain ⟨h1, h2⟩ := hcop.recurs r hr
      rw [hr'] at h1
      obtain ⟨kind, interval, count, untl, exceptions⟩ := r
      cases kind <;> simp only [copyRule, Option.some.injEq, reduceCtorEq] at h1 <;> subst h1 <;>
        simp at hk

/-- C97, concrete: an all-day course on Mondays and Wednesdays without the 4th, from 10:00 for no time, with an empty
document; and that a rule without frequency is not imported. -/
example :
    let e := { Sample.event { Sample.course with document := some "" } with
      allday := true, dtstart := Sample.day + 10 * Sample.HOUR, duration := some 0 }
    (Sample.roundTrip e).map (fun x => (x.dtstart, x.duration, x.document)) = .ok (Sample.day, some DAY, none) ∧
    (Sample.roundTrip e).map (·.recurrence) = .ok (some ⟨.weekly [], 1, some 4, none, []⟩) ∧
    (Sample.roundTrip e).bind Sample.roundTrip = Sample.roundTrip e ∧
    Sample.roundTrip { e with recurrence := some ⟨.no, 1, none, none, []⟩ } = raise .KeyError := by decide +kernel

end CalCore
