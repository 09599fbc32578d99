import Verif.Lemmas.ImportExact
import Verif.Lemmas.When
import Verif.Props.Import
/- What the imported data become: C82 (the data win), C83 (order), C84 (visibility). -/
namespace CalCore
open Spec

variable (parse : List Char → Res (Option (List VEvent))) (tz : LocalTz) (c : Calendar) (src : Source)
  (text : List Char) (b e : Option Int) (cr : Option Criteria) (sync : Bool)

/-- The store after an import of components with different uids that returned. -/
theorem import_at (w : World) (hw : w.store.WF) (vs : List VEvent) (hd : (dataUids vs).Nodup) (l : List Event)
    (hp : parse (repairText text) = .ok (some vs)) (hl : c.getEvents src w.store b e cr = .ok l) :
    ((w.import_ parse tz c src text b e cr sync).2 = .ok () ↔
      ∀ v ∈ vs, ∃ u, v.uid = some u ∧
        (importAt tz c src (l.map (·.uid)).dedup v u (Dict.get? w.store.events u)).2 = .ok ()) ∧
    ((w.import_ parse tz c src text b e cr sync).2 = .ok () →
      (∀ v ∈ vs, ∀ u, v.uid = some u →
        Dict.get? (w.import_ parse tz c src text b e cr sync).1.store.events u =
          (importAt tz c src (l.map (·.uid)).dedup v u (Dict.get? w.store.events u)).1) ∧
      ∀ u, (∀ v ∈ vs, v.uid ≠ some u) →
        Dict.get? (w.import_ parse tz c src text b e cr sync).1.store.events u =
          if sync = true ∧ u ∈ (l.map (·.uid)).dedup then none else Dict.get? w.store.events u) := by
  obtain ⟨hex1, hex2⟩ := importLoop_exact tz c src (l.map (·.uid)).dedup vs hd w
  rcases import_cases w parse tz c src text b e cr sync with ⟨f, hf, _⟩ | ⟨l', hl', h'⟩
  · rw [hl] at hf; cases hf
  rw [hl] at hl'
  injection hl' with hl'
  subst hl'
  rcases h' with ⟨f, hf, _⟩ | ⟨hf, _⟩ | ⟨vs', hp', ⟨f, hf, h'⟩ | ⟨uids, hloop, h'⟩⟩
  · rw [hp] at hf; cases hf
  · rw [hp] at hf; cases hf
  · rw [hp] at hp'
    injection hp' with hp'; injection hp' with hp'; subst hp'
    rw [← hex1, hf, h']
    constructor
    · constructor
      · intro h; cases h
      · rintro ⟨_, h⟩; cases h
    · intro h; cases h
  · rw [hp] at hp'
    injection hp' with hp'; injection hp' with hp'; subst hp'
    have hrem := import_removal w hw tz c src b e cr (vs := vs) (uids := uids) hl
    simp only [] at hrem
    have huids : uids = dataUids vs := (importLoop_ok tz c src _ vs w hloop).1
    have hok : (w.import_ parse tz c src text b e cr sync).2 = .ok () := by
      rw [h']
      cases sync with
      | false => rfl
      | true => exact hrem.1
    refine ⟨⟨fun _ => hex1.1 ⟨uids, hloop⟩, fun _ => hok⟩, fun _ => ⟨?_, ?_⟩⟩
    · intro v hv u hu
      have hmem : u ∈ uids := by rw [huids, mem_dataUids]; exact ⟨v, hv, hu⟩
      rw [← hex2 ⟨uids, hloop⟩ v hv u hu, h']
      cases sync with
      | false => rfl
      | true =>
        rw [if_pos rfl, hrem.2 u, if_neg]
        intro hm
        have := (List.mem_filter.1 hm).2
        simp only [decide_eq_true_eq] at this
        exact this hmem
    · intro u hu
      have hmem : u ∉ uids := by
        rw [huids, mem_dataUids]; rintro ⟨v, hv, hv'⟩; exact hu v hv hv'
      have hoth := importLoop_other tz c src (l.map (·.uid)).dedup vs w hu
      rw [h']
      cases sync with
      | false => rw [if_neg (by simp), if_neg (by simp)]; exact hoth
      | true =>
        rw [if_pos rfl, hrem.2 u]
        by_cases hk : u ∈ (l.map (·.uid)).dedup
        · rw [if_pos (List.mem_filter.2 ⟨hk, by simpa using hmem⟩), if_pos ⟨rfl, hk⟩]
        · rw [if_neg (fun h => hk (List.mem_filter.1 h).1), if_neg (fun h => hk h.2)]; exact hoth

/-! ### C82 -/

theorem importSpec_says {v : VEvent} {spec : Spec} (h : importSpec tz c src v = .ok spec) (e0 : Event) :
    SaysWhat v (spec.setAttrs e0) := by
  unfold importSpec at h
  simp only [bind_ok] at h
  obtain ⟨_, _, _, _, r, hr, h⟩ := h
  injection h with h; subst h
  refine ⟨rfl, rfl, rfl, rfl, ?_, rfl, rfl, ?_, ?_⟩
  · show decide (v.transp.getD "OPAQUE" = "TRANSPARENT") = true ↔ _
    rw [decide_eq_true_eq]
    cases v.transp <;> simp
  · intro x
    show x ∈ getCategories v.categories ↔ _
    cases v.categories <;> simp [getCategories]
  · show r.isSome ↔ _
    unfold importRule at hr
    cases hv : v.rrule with
    | none => rw [hv] at hr; injection hr with hr; subst hr; simp
    | some rr =>
      rw [hv] at hr
      simp only [bind_ok] at hr
      obtain ⟨r0, _, hr⟩ := hr
      injection hr with hr; subst hr; simp

theorem _root_.CalCore.Spec.SaysWhat.of_same {v : VEvent} {e e' : Event} (h : SaysWhat v e) (o : Option AttId)
    (hs : SameButParticipation { e with organizerId := o } e') : SaysWhat v e' := by
  have h1 := congrArg Event.title hs
  have h2 := congrArg Event.description hs
  have h3 := congrArg Event.location hs
  have h4 := congrArg Event.status hs
  have h5 := congrArg Event.transparent hs
  have h6 := congrArg Event.access hs
  have h7 := congrArg Event.document hs
  have h8 := congrArg Event.categories hs
  have h9 := congrArg Event.recurrence hs
  simp only [] at h1 h2 h3 h4 h5 h6 h7 h8 h9
  exact ⟨h1.trans h.title, h2.trans h.description, h3.trans h.location, h4.trans h.status,
    by rw [h5]; exact h.transparent, h6.trans h.access, h7.trans h.document,
    by rw [h8]; exact h.categories, by rw [h9]; exact h.recurs⟩

/-- What `importAt` leaves when it succeeds on a known or new uid. -/
theorem importAt_ok {known : List Uid} {v : VEvent} {u : Uid} {old : Option Event}
    (h : (importAt tz c src known v u old).2 = .ok ()) (hk : u ∈ known ∨ old = none) :
    ∃ spec ev, importSpec tz c src v = .ok spec ∧ (importAt tz c src known v u old).1 = some ev ∧
      ((∃ e0, old = some e0 ∧ spec.willModify e0 = .ok false ∧ ev = e0) ∨
       (∃ e0, old = some e0 ∧ spec.setOnObject e0 = (ev, .ok ())) ∨
       (old = none ∧ newEvent u spec = .ok ev)) := by
  unfold importAt at h ⊢
  by_cases hkn : u ∈ known
  · rw [if_pos hkn] at h ⊢
    cases old with
    | none => cases h
    | some e =>
      simp only [] at h ⊢
      cases hi : importSpec tz c src v with
      | error f => rw [hi] at h; cases h
      | ok spec =>
        rw [hi] at h
        simp only [] at h ⊢
        cases hm : spec.willModify e with
        | error f => rw [hm] at h; cases h
        | ok m =>
          rw [hm] at h
          cases m with
          | false => exact ⟨spec, e, rfl, rfl, Or.inl ⟨e, rfl, hm, rfl⟩⟩
          | true => exact ⟨spec, _, rfl, rfl, Or.inr (Or.inl ⟨e, rfl, by rw [← h]⟩)⟩
  · rw [if_neg hkn] at h ⊢
    have hold : old = none := hk.resolve_left hkn
    subst hold
    simp only [] at h ⊢
    cases hi : importSpec tz c src v with
    | error f => rw [hi] at h; cases h
    | ok spec =>
      rw [hi] at h
      simp only [] at h ⊢
      cases hn : newEvent u spec with
      | error f => rw [hn] at h; cases h
      | ok ev => exact ⟨spec, ev, rfl, rfl, Or.inr (Or.inr ⟨trivial, hn⟩)⟩

theorem newEvent_made {uid : Uid} {s : Spec} {ev : Event} (h : newEvent uid s = .ok ev) :
    ∃ e0, s.setOnObject (blankEvent uid) = (e0, .ok ()) ∧ e0.allday = s.allday ∧
      ev = if s.allday then e0.alldayAdjust else e0 := by
  have hat := setOnObject_attributes s (blankEvent uid)
  unfold newEvent at h
  split at h
  · cases h
  · rename_i e' h'
    injection h with h
    rw [h'] at hat
    have ha : e'.allday = s.allday := congrArg Event.allday hat
    rw [ha] at h
    exact ⟨e', h', ha, h.symm⟩

/-- The organizer of the data, in terms of the data. -/
theorem importOrganizer_ok {v : VEvent} {o : Option AttId} (h : importOrganizer c src v = .ok o) :
    (∀ a, HasKnownOrganizer src v a → o = some a) ∧
      ((¬ ∃ a, HasKnownOrganizer src v a) → o = (Dict.keys c).head?) := by
  have hfrom : ∀ a b, src.fromSpec a = some b ↔ b = a ∧ a ∈ Dict.keys src := by
    intro a b
    unfold Source.fromSpec
    rw [← Dict.has_iff_mem_keys]
    split
    · rename_i h; simp [h, eq_comm]
    · rename_i h; simp [h]
  unfold importOrganizer at h
  constructor
  · rintro a ⟨h1, h2⟩
    rw [h1, Option.bind_some, (hfrom a a).2 ⟨rfl, h2⟩] at h
    injection h with h
    exact h.symm
  · intro hno
    have : v.organizer.bind src.fromSpec = none := by
      cases hv : v.organizer with
      | none => rfl
      | some a =>
        rw [Option.bind_some]
        cases hf : src.fromSpec a with
        | none => rfl
        | some b => exact absurd ⟨a, hv, ((hfrom a b).1 hf).2⟩ hno
    rw [this] at h
    simp only [] at h
    unfold Calendar.main Calendar.mainId at h
    cases hk : (Dict.keys c).head? with
    | none => rw [hk] at h; injection h with h; exact h.symm
    | some a =>
      rw [hk] at h
      simp only [bind_ok] at h
      obtain ⟨b, hb, h⟩ := h
      injection h with h
      unfold Source.getAttendee at hb
      split at hb
      · injection hb with hb; rw [← h, hb]
      · cases hb

theorem setAttendeesLoop_named (L : List (Option AttId × String × String)) (q q' : Event)
    (hq : setAttendeesLoop q L = (q', .ok ())) : ∀ p ∈ L, ∃ a, p.1 = some a := by
  induction L generalizing q with
  | nil => intro p hp; cases hp
  | cons p rest ih =>
    obtain ⟨a, role, status⟩ := p
    unfold setAttendeesLoop at hq
    split at hq
    · cases hq
    · cases a with
      | none => cases hq
      | some a =>
        intro p' hp'
        rcases List.mem_cons.1 hp' with rfl | hp'
        · exact ⟨a, rfl⟩
        · exact ih _ hq p' hp'

/-- Who attends after a successful assignment. -/
theorem setOnObject_attends {s : Spec} {e e' : Event} (h : s.setOnObject e = (e', .ok ())) (a : AttId) :
    Attends e' a ↔ (∃ p ∈ s.attendees, p.1 = some a) ∨ s.organizer = some a ∨ Attends e a := by
  have hl := (setOnObject_lookup h a).1
  have hA : ∀ x : Event, Attends x a ↔ x.getStatus a ≠ none := by
    intro x
    unfold Attends Event.getStatus
    rw [Option.ne_none_iff_exists']
  rw [hA, hA, hl]
  by_cases hx : ∃ p ∈ s.attendees, p.1 = some a
  · cases hle : lastEntry s.attendees a with
    | none =>
      obtain ⟨p, hp, hpa⟩ := hx
      exact absurd hpa (lastEntry_none.1 hle p hp)
    | some q => simp [hx]
  · have : lastEntry s.attendees a = none := lastEntry_none.2 (fun p hp hpa => hx ⟨p, hp, hpa⟩)
    rw [this]
    simp only [hx, false_or, Option.map_none, Option.none_or]
    by_cases ho : s.organizer = some a <;> simp [ho]

/-- What a successful import of one component with a new or known uid leaves. -/
theorem importAt_carries {known : List Uid} {v : VEvent} {u : Uid} {old : Option Event}
    (h : (importAt tz c src known v u old).2 = .ok ()) (hk : u ∈ known ∨ old = none) :
    ∃ ev, (importAt tz c src known v u old).1 = some ev ∧ SaysWhat v ev ∧
      (∃ st, v.dtstart = some st ∧ (ev.allday = true ↔ IsDateValue st)) ∧
      (ev.allday = false ∨ old ≠ none → AtTime tz v ev) ∧
      importOrganizer c src v = .ok ev.organizerId ∧
      ∀ a, Attends ev a ↔ (∃ p ∈ v.attendees, p.addr = a) ∨ ev.organizerId = some a ∨
        ∃ e0, old = some e0 ∧ Attends e0 a := by
  obtain ⟨spec, ev, hspec, hev, hcase⟩ := importAt_ok tz c src h hk
  refine ⟨ev, hev, ?_⟩
  have hsays := importSpec_says tz c src hspec
  have hfields := hspec
  unfold importSpec at hfields
  simp only [bind_ok] at hfields
  obtain ⟨⟨x, dur, ad⟩, ht, o, horg, r, _, hfields⟩ := hfields
  injection hfields with hfields
  have e1 : spec.dtstart = x := by rw [← hfields]
  have e2 : spec.duration = some dur := by rw [← hfields]
  have e3 : spec.allday = ad := by rw [← hfields]
  have e4 : spec.organizer = o := by rw [← hfields]
  have e5 : spec.attendees = v.attendees.map (importAttendee src) := by rw [← hfields]
  have hfrom : ∀ a b, src.fromSpec a = some b → b = a := by
    intro a b hab
    unfold Source.fromSpec at hab
    split at hab
    · injection hab with hab; exact hab.symm
    · cases hab
  obtain ⟨st, hst, hm1, hm2, hm3, hm4, hm5⟩ := (C52_meaning tz v x dur ad).1 ht
  have hAt : ∀ ev : Event, ev.dtstart = x → ev.duration = some dur → AtTime tz v ev := by
    intro ev h1 h2
    rw [AtTime, h1]
    exact ⟨fun st' hst' => by rw [hst] at hst'; injection hst' with hst'; rw [← hst']; exact hm1,
      dur, h2, hm3, hm4, hm5⟩
  -- who attends after an assignment
  have hatt : ∀ e0 e1, spec.setOnObject e0 = (e1, .ok ()) → ∀ a, Attends e1 a ↔
      (∃ p ∈ v.attendees, p.addr = a) ∨ o = some a ∨ Attends e0 a := by
    intro e0 e1 hset a
    rw [setOnObject_attends hset, e4]
    have hset' := hset
    unfold Spec.setOnObject at hset'
    have hn := setAttendeesLoop_named _ _ _ hset'
    have : (∃ p ∈ spec.attendees, p.1 = some a) ↔ ∃ p ∈ v.attendees, p.addr = a := by
      rw [e5] at hn ⊢
      constructor
      · rintro ⟨p, hp, hpa⟩
        obtain ⟨q, hq, rfl⟩ := List.mem_map.1 hp
        exact ⟨q, hq, (hfrom _ _ hpa).symm⟩
      · rintro ⟨q, hq, rfl⟩
        have hmem : importAttendee src q ∈ v.attendees.map (importAttendee src) := List.mem_map.2 ⟨q, hq, rfl⟩
        obtain ⟨b, hb⟩ := hn _ hmem
        refine ⟨_, hmem, ?_⟩
        rw [hb, hfrom _ _ hb]
    rw [this]
  rcases hcase with ⟨e0, hold, hwm, rfl⟩ | ⟨e0, hold, hset⟩ | ⟨hold, hnew⟩
  · obtain ⟨ha, a, ho, h1, h2, _, h3⟩ := willModify_false hwm
    have hsy := hsays ev
    rw [ha] at hsy
    have had : ev.allday = ad := by rw [← e3]; exact (congrArg Event.allday ha).symm
    have hoid : ev.organizerId = o := by rw [h1, ← e4, ho]
    refine ⟨hsy, ⟨st, hst, by rw [had]; exact hm2⟩, fun _ => hAt _ ?_ ?_, by rw [hoid]; exact horg, fun a' => ?_⟩
    · rw [← e1]; exact (congrArg Event.dtstart ha).symm
    · rw [← e2]; exact (congrArg Event.duration ha).symm
    · constructor
      · intro h; exact Or.inr (Or.inr ⟨ev, hold, h⟩)
      · rintro (⟨p, hp, rfl⟩ | h | ⟨e', he', h⟩)
        · have hmem : importAttendee src p ∈ spec.attendees := by rw [e5]; exact List.mem_map.2 ⟨p, hp, rfl⟩
          obtain ⟨a', ha', hst, _⟩ := h3 _ hmem
          rw [← hfrom _ _ ha']
          exact ⟨_, hst⟩
        · rw [h1] at h; injection h with h; subst h; exact ⟨_, h2⟩
        · rw [hold] at he'; injection he' with he'; rw [he']; exact h
  · have hat := setOnObject_attributes spec e0
    rw [hset] at hat
    have had : ev.allday = ad := by rw [← e3]; exact congrArg Event.allday hat
    have hoid : ev.organizerId = o := by rw [← e4]; exact congrArg Event.organizerId hat
    refine ⟨(hsays e0).of_same _ hat, ⟨st, hst, by rw [had]; exact hm2⟩, fun _ => hAt _ ?_ ?_,
      by rw [hoid]; exact horg, fun a' => ?_⟩
    · rw [← e1]; exact congrArg Event.dtstart hat
    · rw [← e2]; exact congrArg Event.duration hat
    · rw [hatt _ _ hset, hold, hoid]; simp
  · obtain ⟨e0, hset, had, hev'⟩ := newEvent_made hnew
    have hat := setOnObject_attributes spec (blankEvent u)
    rw [hset] at hat
    have hs0 := (hsays (blankEvent u)).of_same _ hat
    have ho0 : e0.organizerId = o := by rw [← e4]; exact congrArg Event.organizerId hat
    rw [e3] at hev' had
    have had' : ev.allday = ad := by rw [hev']; cases ad <;> exact had
    have hoid : ev.organizerId = o := by rw [hev']; cases ad <;> exact ho0
    refine ⟨?_, ⟨st, hst, by rw [had']; exact hm2⟩, ?_, by rw [hoid]; exact horg, fun a' => ?_⟩
    · rw [hev']; cases ad
      · exact hs0
      · exact ⟨hs0.title, hs0.description, hs0.location, hs0.status, hs0.transparent, hs0.access, hs0.document,
          hs0.categories, hs0.recurs⟩
    · rintro (h0 | h0)
      · rw [had'] at h0
        subst h0
        rw [hev']
        exact hAt _ (by rw [← e1]; exact congrArg Event.dtstart hat) (by rw [← e2]; exact congrArg Event.duration hat)
      · exact absurd hold h0
    · have hblank : ¬ Attends (blankEvent u) a' := by rintro ⟨st, h⟩; cases h
      have hAA : Attends ev a' ↔ Attends e0 a' := by rw [hev']; cases ad <;> exact Iff.rfl
      rw [hAA, hatt _ _ hset, hoid, hold]
      simp [hblank]

/-- The uid is new, or that of an event shown. -/
theorem knownOrNew {w : World} {l : List Event} {u : Uid} (hk : (∃ ev ∈ l, ev.uid = u) ∨ w.store.hasEvent u = false) :
    u ∈ (l.map (·.uid)).dedup ∨ Dict.get? w.store.events u = none := by
  rcases hk with ⟨ev, hev, he⟩ | hk
  · left; rw [List.mem_dedup, List.mem_map]; exact ⟨ev, hev, he⟩
  · right
    cases hg : Dict.get? w.store.events u with
    | none => rfl
    | some x => rw [Storage.hasEvent_iff.2 ⟨x, hg⟩] at hk; cases hk

/-- C82: after an import that returned, for components with different uids: every component whose uid was new,
or that of an event the calendar showed for the given period and criteria, is stored with what the component
says, under its organizer if the source knows that organizer, attended by everybody listed, all-day iff DTSTART
is a DATE, and at the time of the component unless it was new and is all-day (then see C45, C52).
Missing: uids of events that were stored but not shown, for which the data are silently ignored
(`C82_ignored_counterexample`). -/
theorem C82_data_partial (w : World) (hw : w.store.WF) (vs : List VEvent) (hd : (dataUids vs).Nodup)
    (l : List Event) (hp : parse (repairText text) = .ok (some vs))
    (hl : c.getEvents src w.store b e cr = .ok l)
    (h : (w.import_ parse tz c src text b e cr sync).2 = .ok ()) (v : VEvent) (hv : v ∈ vs) (u : Uid)
    (hu : v.uid = some u) (hk : (∃ ev ∈ l, ev.uid = u) ∨ w.store.hasEvent u = false) :
    ∃ ev, (w.import_ parse tz c src text b e cr sync).1.store.getEvent u = .ok ev ∧ SaysWhat v ev ∧
      (∃ st, v.dtstart = some st ∧ (ev.allday = true ↔ IsDateValue st)) ∧
      (ev.allday = false ∨ w.store.hasEvent u = true → AtTime tz v ev) ∧
      (∀ a, HasKnownOrganizer src v a → ev.organizerId = some a ∧ Attends ev a) ∧
      ∀ p ∈ v.attendees, Attends ev p.addr := by
  obtain ⟨hiff, hres⟩ := import_at parse tz c src text b e cr sync w hw vs hd l hp hl
  have hres := (hres h).1 v hv u hu
  obtain ⟨u', hu', hok⟩ := hiff.1 h v hv
  rw [hu] at hu'; injection hu' with hu'; subst hu'
  obtain ⟨ev, hev, h1, h2, h3, h4, h5⟩ := importAt_carries tz c src hok (knownOrNew hk)
  rw [hev] at hres
  refine ⟨ev, Storage.getEvent_ok.2 hres, h1, h2, ?_, ?_, ?_⟩
  · rintro (h0 | h0)
    · exact h3 (Or.inl h0)
    · obtain ⟨x, hx⟩ := Storage.hasEvent_iff.1 h0
      exact h3 (Or.inr (by rw [hx]; simp))
  · intro a ha
    have := (importOrganizer_ok c src h4).1 a ha
    exact ⟨this, (h5 a).2 (Or.inr (Or.inl this))⟩
  · intro p hp
    exact (h5 _).2 (Or.inl ⟨p, hp, rfl⟩)

/-- C82 fails: an event of the calendar itself, outside the period given to the import, is not updated, and the
import reports success; so are events of others that happen to have the uid. -/
theorem C82_ignored_counterexample :
    let w := (freshWorld "st" "host").run [Sample.imp [Sample.birthday] false]
    let r := w.import_ (fun _ => .ok (some [{ Sample.birthday with summary := some "party" }])) (fun _ => 0)
      Sample.cal Sample.src [] none (some 0) none false
    r.2 = .ok () ∧ (r.1.store.getEvent "b").map (·.title) = .ok "birthday" ∧
    (Sample.cal.getEvents Sample.src w.store none none none).map (·.map (·.uid)) = .ok ["b"] := by decide +kernel

/-- C82, concrete: an update and a new event with a known organizer, a listed attendee and a rule. -/
example :
    let w := (freshWorld "st" "host").run [Sample.imp [Sample.birthday] false]
    let r := w.import_ (fun _ => .ok (some [{ Sample.birthday with summary := some "party" },
        { uid := some "m", dtstart := some (.naive Sample.day), duration := some Sample.HOUR, organizer := some "bob",
          attendees := [{ addr := "alice" }], transp := some "TRANSPARENT" }])) (fun _ => 0)
      Sample.cal Sample.src [] none none none true
    r.2 = .ok () ∧ (r.1.store.getEvent "b").map (·.title) = .ok "party" ∧
    (r.1.store.getEvent "m").map (fun e => (e.organizerId, e.duration, e.transparent, Dict.keys e.pstate)) =
      .ok (some "bob", some Sample.HOUR, true, ["bob", "alice"]) := by decide +kernel

/-! ### C83 -/

/-- C83: for components with different uids, their order does not matter: the import of a permutation returns
too, and leaves the same event, or none, under every uid. -/
theorem C83_order (text' : List Char) (w : World) (hw : w.store.WF) (vs vs' : List VEvent)
    (hperm : vs.Perm vs') (hd : (dataUids vs).Nodup)
    (hp : parse (repairText text) = .ok (some vs)) (hp' : parse (repairText text') = .ok (some vs'))
    (h : (w.import_ parse tz c src text b e cr sync).2 = .ok ()) :
    (w.import_ parse tz c src text' b e cr sync).2 = .ok () ∧
    ∀ u, (w.import_ parse tz c src text' b e cr sync).1.store.getEvent u =
      (w.import_ parse tz c src text b e cr sync).1.store.getEvent u := by
  have hd' : (dataUids vs').Nodup := by
    unfold dataUids at hd ⊢
    exact (hperm.filterMap _).nodup_iff.1 hd
  obtain ⟨l, hl⟩ : ∃ l, c.getEvents src w.store b e cr = .ok l := by
    rcases import_cases w parse tz c src text b e cr sync with ⟨f, hf, h'⟩ | ⟨l, hl, _⟩
    · rw [h'] at h; cases h
    · exact ⟨l, hl⟩
  obtain ⟨h1, h2⟩ := import_at parse tz c src text b e cr sync w hw vs hd l hp hl
  obtain ⟨h1', h2'⟩ := import_at parse tz c src text' b e cr sync w hw vs' hd' l hp' hl
  have hok : (w.import_ parse tz c src text' b e cr sync).2 = .ok () :=
    h1'.2 (fun v hv => h1.1 h v (hperm.mem_iff.2 hv))
  refine ⟨hok, fun u => ?_⟩
  obtain ⟨a1, a2⟩ := h2 h
  obtain ⟨b1, b2⟩ := h2' hok
  unfold Storage.getEvent
  by_cases hin : ∃ v ∈ vs, v.uid = some u
  · obtain ⟨v, hv, hvu⟩ := hin
    rw [a1 v hv u hvu, b1 v (hperm.mem_iff.1 hv) u hvu]
  · have hn : ∀ v ∈ vs, v.uid ≠ some u := fun v hv hvu => hin ⟨v, hv, hvu⟩
    rw [a2 u hn, b2 u (fun v hv => hn v (hperm.mem_iff.2 hv))]

/-- C83 needs different uids: with a uid twice, the last component wins for a known uid, the first for a new one. -/
theorem C83_duplicate_counterexample :
    let f := fun vs => ((freshWorld "st" "host").run [Sample.imp vs false]).store.getEvent "d"
    (f Sample.twice).map (·.title) = .ok "first" ∧ (f Sample.twice.reverse).map (·.title) = .ok "second" := by
  decide +kernel

/-- C83, concrete. -/
example :
    let w := (freshWorld "st" "host").run [Sample.imp [Sample.birthday, { Sample.birthday with uid := some "x" }] false]
    let w1 := w.run [Sample.imp Sample.good true]
    let w2 := w.run [Sample.imp Sample.good.reverse true]
    (dataUids Sample.good).Nodup ∧ Dict.keys w1.store.events = ["b", "m"] ∧
      w1.store.getEvent "m" = w2.store.getEvent "m" := by decide +kernel

/-! ### C84 -/

/-- Somebody of the calendar attends the event left by an import iff the component concerns the calendar or somebody
did before. -/
theorem attended_iff {v : VEvent} {ev : Event} {old : Option Event}
    (h4 : importOrganizer c src v = .ok ev.organizerId)
    (h5 : ∀ a, Attends ev a ↔ (∃ p ∈ v.attendees, p.addr = a) ∨ ev.organizerId = some a ∨
        ∃ e0, old = some e0 ∧ Attends e0 a) :
    (∃ a ∈ Dict.keys c, Attends ev a) ↔ Concerns src c v ∨ ∃ e0, old = some e0 ∧ ∃ a ∈ Dict.keys c, Attends e0 a := by
  obtain ⟨ho1, ho2⟩ := importOrganizer_ok c src h4
  constructor
  · rintro ⟨a, ha, hat⟩
    rcases (h5 a).1 hat with ⟨p, hp, rfl⟩ | ho | ⟨e0, he0, hat0⟩
    · exact Or.inl (Or.inl ⟨p, hp, ha⟩)
    · left; right
      by_cases hex : ∃ x, HasKnownOrganizer src v x
      · obtain ⟨x, hx⟩ := hex
        left
        have := ho1 x hx
        rw [ho] at this; injection this with this; subst this
        exact ⟨_, ha, hx⟩
      · right
        refine ⟨hex, ?_⟩
        intro hnil; rw [hnil] at ha; cases ha
    · exact Or.inr ⟨e0, he0, a, ha, hat0⟩
  · rintro ((⟨p, hp, ha⟩ | ⟨a, ha, hx⟩ | ⟨hno, hne⟩) | ⟨e0, he0, a, ha, hat⟩)
    · exact ⟨_, ha, (h5 _).2 (Or.inl ⟨p, hp, rfl⟩)⟩
    · exact ⟨a, ha, (h5 a).2 (Or.inr (Or.inl (ho1 a hx)))⟩
    · have := ho2 hno
      cases hkc : Dict.keys c with
      | nil => exact absurd hkc hne
      | cons a rest =>
        rw [hkc] at this
        exact ⟨a, List.mem_cons_self .., (h5 a).2 (Or.inr (Or.inl this))⟩
    · exact ⟨a, ha, (h5 a).2 (Or.inr (Or.inr ⟨e0, he0, hat⟩))⟩

/-- C84: after an import into a calendar with criteria naming no attendees, the calendar shows the event of a
component (with a uid that was new or shown before) exactly if it was shown before or the component concerns the
calendar.  So the plain statement, that what was imported is shown, holds for these components only
(`C84_lost_counterexample`). -/
theorem C84_visible_partial (w : World) (hw : w.store.WF) (vs : List VEvent) (hd : (dataUids vs).Nodup)
    (l : List Event) (hp : parse (repairText text) = .ok (some vs)) (hcr : NoAttendees cr)
    (hl : c.getEvents src w.store b e cr = .ok l)
    (h : (w.import_ parse tz c src text b e cr sync).2 = .ok ()) (v : VEvent) (hv : v ∈ vs) (u : Uid)
    (hu : v.uid = some u) (hk : (∃ ev ∈ l, ev.uid = u) ∨ w.store.hasEvent u = false)
    (l' : List Event)
    (hl' : c.getEvents src (w.import_ parse tz c src text b e cr sync).1.store none none none = .ok l') :
    (∃ ev ∈ l', ev.uid = u) ↔ (∃ ev ∈ l, ev.uid = u) ∨ Concerns src c v := by
  obtain ⟨hiff, hres⟩ := import_at parse tz c src text b e cr sync w hw vs hd l hp hl
  have hres := (hres h).1 v hv u hu
  obtain ⟨u', hu', hok⟩ := hiff.1 h v hv
  rw [hu] at hu'; injection hu' with hu'; subst hu'
  obtain ⟨ev, hev, _, _, _, h4, h5⟩ := importAt_carries tz c src hok (knownOrNew hk)
  rw [hev] at hres
  have hw' : (w.import_ parse tz c src text b e cr sync).1.store.WF := (World.import_many w parse tz c src text b e cr sync).wf hw
  obtain ⟨_, hs'⟩ := calendar_getEvents_ok.1 hl'
  have hmem := ((C20_getEvents_exact _ hw' none none _).1 l' hs').2
  have hevu : ev.uid = u := hw'.uid u ev hres
  -- shown means attended by somebody of the calendar
  have hshown : (∃ ev ∈ l', ev.uid = u) ↔ ∃ a ∈ Dict.keys c, Attends ev a := by
    constructor
    · rintro ⟨ev', hev', hu'⟩
      obtain ⟨hst, hm, _⟩ := (hmem ev').1 hev'
      unfold Stored at hst
      rw [hu', hres] at hst
      injection hst with hst
      subst hst
      obtain ⟨a, ha, st, hst, _⟩ := hm.2.2 _ rfl
      exact ⟨a, ha, st, hst⟩
    · rintro ⟨a, ha, st, hst⟩
      refine ⟨ev, (hmem ev).2 ⟨by unfold Stored; rw [hevu]; exact hres, ⟨by simp, by simp, ?_⟩, by simp, by simp⟩, hevu⟩
      intro L hL
      injection hL with hL
      subst hL
      exact ⟨a, ha, st, hst, by simp, by simp⟩
  rw [hshown]
  rw [attended_iff c src h4 h5]
  constructor
  · rintro (h | ⟨e0, he0, a, ha, hat⟩)
    · exact Or.inr h
    · rcases hk with hk | hk
      · exact Or.inl hk
      · rw [Storage.hasEvent_iff.2 ⟨e0, he0⟩] at hk; cases hk
  · rintro (⟨ev0, hev0, hu0⟩ | h)
    · obtain ⟨⟨a, ha, hat⟩, hst⟩ := C37_calendar_partial w.store hw c src b e cr hcr l hl ev0 hev0
      unfold Stored at hst
      rw [hu0] at hst
      exact Or.inr ⟨ev0, hst, a, ha, hat⟩
    · exact Or.inl h

/-- C84 fails: Alice imports an event organized by Bob, whom the source knows, that lists nobody.  It is stored,
and Alice does not see it. -/
theorem C84_lost_counterexample :
    let vs : List VEvent := [{ uid := some "m", dtstart := some (.naive Sample.day), organizer := some "bob" }]
    let w := (freshWorld "st" "host").run [Sample.imp vs false]
    w.store.hasEvent "m" = true ∧ Sample.cal.getEvents Sample.src w.store none none none = .ok [] := by
  decide +kernel

/-- C84, concrete: an organizer the source does not know is replaced by Alice. -/
example :
    let vs : List VEvent := [{ uid := some "m", dtstart := some (.naive Sample.day), organizer := some "zoe" }]
    let w := (freshWorld "st" "host").run [Sample.imp vs false]
    (Sample.cal.getEvents Sample.src w.store none none none).map (·.map (fun e => (e.uid, e.organizerId))) =
      .ok [("m", some "alice")] := by decide +kernel

end CalCore
