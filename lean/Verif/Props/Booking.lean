import Verif.Props.Blocked
import Verif.Props.Participation
import Verif.Props.Import2
/- Properties C94 and C95: booking and cancelling, and what a synchronizing import leaves. -/
namespace CalCore
open Spec

/-! ### C94 -/

/-- What is stored after an event has been created. -/
theorem created_stored {w : World} {now : Int} {uid : Option Uid} {spec : Spec} {e : Event}
    (h : (w.createEvent now uid spec).2 = .ok e) (x : Event) :
    Stored (w.createEvent now uid spec).1.store x ↔ x = e ∨ (x.uid ≠ e.uid ∧ Stored w.store x) := by
  rcases w.createEvent_eq now uid spec with ⟨f, _, h'⟩ | ⟨e', _, _, h'⟩
  · rw [h'] at h; cases h
  rw [h'] at h ⊢
  injection h with h
  subst h
  unfold Stored
  simp only [Dict.get?_set]
  by_cases hu : e'.uid = x.uid
  · simp only [hu, if_true, Option.some.injEq, ne_eq, not_true_eq_false, false_and, or_false]
    exact ⟨fun h => h.symm, fun h => h.symm⟩
  · rw [if_neg hu]
    constructor
    · exact fun hx => Or.inr ⟨fun h => hu h.symm, hx⟩
    · rintro (rfl | ⟨_, hx⟩)
      · exact absurd rfl hu
      · exact hx

/-- C94: after booking, everybody is busy exactly when the new event takes place and they have not declined
it, or when another event (not one replaced by the new one) kept them busy before. -/
theorem C94_busy (w : World) (now : Int) (uid : Option Uid) (spec : Spec) (e : Event)
    (h : (w.createEvent now uid spec).2 = .ok e) (a : AttId) (t : Int) :
    BusyAt (w.createEvent now uid spec).1.store a t ↔
      (Attends e a ∧ Blocking e a ∧ OccursAt e t) ∨
      ∃ x, x.uid ≠ e.uid ∧ Stored w.store x ∧ Attends x a ∧ Blocking x a ∧ OccursAt x t := by
  unfold BusyAt
  simp only [created_stored h]
  constructor
  · rintro ⟨x, rfl | ⟨h1, h2⟩, h3⟩
    · exact Or.inl h3
    · exact Or.inr ⟨x, h1, h2, h3⟩
  · rintro (h3 | ⟨x, h1, h2, h3⟩)
    · exact ⟨e, Or.inl rfl, h3⟩
    · exact ⟨x, Or.inr ⟨h1, h2⟩, h3⟩

/-- C94, an id that was not in use. -/
theorem C94_busy_fresh (w : World) (now : Int) (uid : Option Uid) (spec : Spec) (e : Event)
    (h : (w.createEvent now uid spec).2 = .ok e) (hf : w.store.hasEvent e.uid = false) (a : AttId) (t : Int) :
    BusyAt (w.createEvent now uid spec).1.store a t ↔
      (Attends e a ∧ Blocking e a ∧ OccursAt e t) ∨ BusyAt w.store a t := by
  rw [C94_busy w now uid spec e h a t]
  refine or_congr Iff.rfl ⟨fun ⟨x, _, h⟩ => ⟨x, h⟩, fun ⟨x, hx, h⟩ => ⟨x, ?_, hx, h⟩⟩
  intro hu
  rw [Storage.hasEvent_iff.2 ⟨x, by rw [← hu]; exact hx⟩] at hf
  cases hf

/-- The slot of a simple booking by `a`. -/
theorem booked_slot {w : World} {now : Int} {a : AttId} {spec : Spec} {e : Event} {d : Int}
    (h : (w.attendeeCreateEvent now a spec).2 = .ok e) (hl : ∀ p ∈ spec.attendees, p.1 ≠ some a)
    (hd : spec.duration = some d) (had : spec.allday = false) (hr : spec.recurrence = none)
    (ht : spec.transparent = false) (hs : spec.status ≠ "CANCELED") :
    e.duration = some d ∧ e.dtstart = spec.dtstart ∧ e.recurrence = none ∧ Attends e a ∧ Blocking e a ∧
      ∀ t, OccursAt e t ↔ spec.dtstart ≤ t ∧ t < spec.dtstart + d := by
  have hacc := (C44_accepted_partial w now a spec e h hl).1
  unfold World.attendeeCreateEvent at h
  rcases w.createEvent_eq now none { spec with organizer := some a } with ⟨f, _, h'⟩ | ⟨e', hn, hu, h'⟩
  · rw [h'] at h; cases h
  rw [h'] at h
  injection h with h
  subst h
  obtain ⟨e0, h0, _, he⟩ := newEvent_made hn
  simp only [had, Bool.false_eq_true, if_false] at he
  subst he
  have hat := setOnObject_attributes { spec with organizer := some a } (blankEvent ((none : Option Uid).getD (w.store.autoId now)))
  rw [h0] at hat
  unfold SameButParticipation at hat
  have e1 := congrArg Event.duration hat
  have e2 := congrArg Event.dtstart hat
  have e3 := congrArg Event.recurrence hat
  have e4 := congrArg Event.transparent hat
  have e5 := congrArg Event.status hat
  simp only [Spec.setAttrs] at e1 e2 e3 e4 e5
  unfold Event.getStatus at hacc
  refine ⟨by rw [e1, hd], e2, by rw [e3, hr], ⟨_, hacc⟩, ⟨by rw [e4, ht], by rw [e5]; exact hs, ?_, ?_⟩, ?_⟩
  · rw [hacc]; decide
  · rw [hacc]; decide
  · intro t
    unfold OccursAt StartsAt
    simp only [e1, e2, e3, hr, hd, Option.some.injEq]
    constructor
    · rintro ⟨x, dur, rfl, rfl, h1, h2⟩; exact ⟨h1, h2⟩
    · rintro ⟨h1, h2⟩; exact ⟨_, _, rfl, rfl, h1, h2⟩

/-- C94, free time: when an attendee books a single event of non-negative duration within the period, under an
id that was not in use, the free time of every group with that attendee loses exactly the booked time. -/
theorem C94_slot (w : World) (hw : w.store.WF) (hg : ∀ ev, Stored w.store ev → Regular ev) (hn : NoNegative w.store)
    (now : Int) (a : AttId) (spec : Spec) (e : Event) (d : Int)
    (h : (w.attendeeCreateEvent now a spec).2 = .ok e) (hf : w.store.hasEvent e.uid = false)
    (hl : ∀ p ∈ spec.attendees, p.1 ≠ some a) (hd : spec.duration = some d) (hd0 : 0 ≤ d)
    (had : spec.allday = false) (hr : spec.recurrence = none) (ht : spec.transparent = false)
    (hs : spec.status ≠ "CANCELED") (hst : dtInRange spec.dtstart = true)
    (atts : List AttId) (ha : a ∈ atts) (b en tb te : Int) (htb : IsTime tb) (hte : IsTime te) (hbe : b < en)
    (hb : b ≤ spec.dtstart) (hen : spec.dtstart + d ≤ en) (F F' : List (Int × Int))
    (hF : w.store.getFreePeriods atts b en tb te none = .ok F)
    (hF' : (w.attendeeCreateEvent now a spec).1.store.getFreePeriods atts b en tb te none = .ok F') (t : Int) :
    Covered F' t ↔ Covered F t ∧ ¬ (spec.dtstart ≤ t ∧ t < spec.dtstart + d) := by
  obtain ⟨e1, e2, e3, hat, hbl, hocc⟩ := booked_slot h hl hd had hr ht hs
  unfold World.attendeeCreateEvent at h hF'
  have hst' := created_stored h
  have hw' := (w.createEvent_many now none { spec with organizer := some a }).wf hw
  have hg' : ∀ ev, Stored (w.createEvent now none { spec with organizer := some a }).1.store ev → Regular ev := by
    intro ev hev
    rcases (hst' ev).1 hev with rfl | ⟨_, hev⟩
    · exact ⟨by rw [e2]; exact hst, fun r hr => by rw [e3] at hr; cases hr⟩
    · exact hg ev hev
  have hn' : NoNegative (w.createEvent now none { spec with organizer := some a }).1.store := by
    intro ev hev d' hd'
    rcases (hst' ev).1 hev with rfl | ⟨_, hev⟩
    · rw [e1] at hd'; injection hd' with hd'; omega
    · exact hn ev hev d' hd'
  rw [(C29_general _ hw' hg' hn' atts b en tb te htb hte hbe F' hF').1 t,
    (C29_general _ hw hg hn atts b en tb te htb hte hbe F hF).1 t]
  simp only [C94_busy_fresh w now none _ e h hf]
  constructor
  · rintro ⟨h1, h2, h3, h4⟩
    refine ⟨⟨h1, h2, h3, fun hx hy y hya hbu => h4 hx hy y hya (Or.inr hbu)⟩, ?_⟩
    rintro ⟨h5, h6⟩
    exact h4 (by omega) (by omega) a ha (Or.inl ⟨hat, hbl, (hocc t).2 ⟨h5, h6⟩⟩)
  · rintro ⟨⟨h1, h2, h3, h4⟩, h5⟩
    refine ⟨h1, h2, h3, fun hx hy y hya => ?_⟩
    rintro (⟨_, _, h6⟩ | h6)
    · exact h5 ((hocc t).1 h6)
    · exact h4 hx hy y hya h6

/-- Creating an event under a new id and deleting it leaves the events as they were. -/
theorem created_deleted {w : World} {now : Int} {uid : Option Uid} {spec : Spec} {e : Event}
    (h : (w.createEvent now uid spec).2 = .ok e) (hf : w.store.hasEvent e.uid = false) :
    ((w.createEvent now uid spec).1.deleteEvent e.uid).2 = .ok () ∧
    ∀ u, Dict.get? ((w.createEvent now uid spec).1.deleteEvent e.uid).1.store.events u = Dict.get? w.store.events u := by
  rcases w.createEvent_eq now uid spec with ⟨f, _, h'⟩ | ⟨e', _, _, h'⟩
  · rw [h'] at h; cases h
  rw [h'] at h ⊢
  injection h with h
  subst h
  simp only []
  rcases World.deleteEvent_eq { store := { w.store with events := Dict.set w.store.events e'.uid e' }
                                log := w.log ++ [.created e'.uid] } e'.uid with ⟨hh, _⟩ | ⟨_, h''⟩
  · exfalso
    have : Dict.has (Dict.set w.store.events e'.uid e') e'.uid = true :=
      (Dict.has_iff_get? _ _).2 ⟨e', Dict.get?_set_self ..⟩
    simp only [] at hh
    rw [this] at hh
    cases hh
  · rw [h'']
    refine ⟨rfl, fun u => ?_⟩
    simp only [Dict.get?_del, Dict.get?_set]
    by_cases hu : e'.uid = u
    · subst hu
      rw [if_pos rfl]
      cases hg : Dict.get? w.store.events e'.uid with
      | none => rfl
      | some x => rw [Storage.hasEvent_iff.2 ⟨x, hg⟩] at hf; cases hf
    · rw [if_neg hu, if_neg hu]

/-- C94, cancelling: booking under an id that was not in use and then deleting the event succeeds and gives
everybody the same blocked and free periods as before the booking; those queries return exactly when they
returned before. -/
theorem C94_cancel (w : World) (hw : w.store.WF) (now : Int) (uid : Option Uid) (spec : Spec) (e : Event)
    (h : (w.createEvent now uid spec).2 = .ok e) (hf : w.store.hasEvent e.uid = false) :
    ((w.createEvent now uid spec).1.deleteEvent e.uid).2 = .ok () ∧
    ∀ atts b en tb te,
      (∀ R, ((w.createEvent now uid spec).1.deleteEvent e.uid).1.store.getBlockedPeriods atts b en tb te = .ok R ↔
        w.store.getBlockedPeriods atts b en tb te = .ok R) ∧
      ∀ md F, ((w.createEvent now uid spec).1.deleteEvent e.uid).1.store.getFreePeriods atts b en tb te md = .ok F ↔
        w.store.getFreePeriods atts b en tb te md = .ok F := by
  obtain ⟨h1, h2⟩ := created_deleted h hf
  have hw' : ((w.createEvent now uid spec).1.deleteEvent e.uid).1.store.WF :=
    (World.deleteEvent_many _ _).wf ((w.createEvent_many now uid spec).wf hw)
  refine ⟨h1, fun atts b en tb te => ⟨fun R => ?_, fun md F => ?_⟩⟩
  · exact (C27_blocked_order _ _ hw hw' h2 atts atts (fun _ => Iff.rfl) b en tb te R).symm
  · exact (C27_free_order _ _ hw hw' h2 atts atts (fun _ => Iff.rfl) b en tb te md F).symm

/-- C94, concrete: Alice is free from 12 to 17 on the first day and books 13 to 14. -/
example :
    let spec : Spec := { dtstart := Sample.day + 13 * Sample.HOUR, duration := some Sample.HOUR, title := "lunch" }
    let r := Sample.world.attendeeCreateEvent Sample.day "alice" spec
    (∃ e, r.2 = .ok e ∧ Sample.world.store.hasEvent e.uid = false ∧
      (∀ R, (r.1.deleteEvent e.uid).1.store.getFreePeriods ["alice"] Sample.day (Sample.day + DAY) (8 * Sample.HOUR)
        (17 * Sample.HOUR) none = .ok R ↔ Sample.world.store.getFreePeriods ["alice"] Sample.day (Sample.day + DAY)
        (8 * Sample.HOUR) (17 * Sample.HOUR) none = .ok R)) ∧
    Sample.world.store.getFreePeriods ["alice"] Sample.day (Sample.day + DAY) (8 * Sample.HOUR) (17 * Sample.HOUR) none =
      .ok [(Sample.day + 8 * Sample.HOUR, Sample.day + 10 * Sample.HOUR),
           (Sample.day + 12 * Sample.HOUR, Sample.day + 17 * Sample.HOUR)] ∧
    r.1.store.getFreePeriods ["alice"] Sample.day (Sample.day + DAY) (8 * Sample.HOUR) (17 * Sample.HOUR) none =
      .ok [(Sample.day + 8 * Sample.HOUR, Sample.day + 10 * Sample.HOUR),
           (Sample.day + 12 * Sample.HOUR, Sample.day + 13 * Sample.HOUR),
           (Sample.day + 14 * Sample.HOUR, Sample.day + 17 * Sample.HOUR)] := by
  refine ⟨⟨_, rfl, by decide +kernel, ?_⟩, by decide +kernel, by decide +kernel⟩
  exact fun R => ((C94_cancel Sample.world Sample.store_wf Sample.day none _ _ rfl (by decide +kernel)).2 _ _ _ _ _).2 _ R

/-- C94: the condition on the id is needed: a booking under an id in use replaces the event that had it, and
its time is free again. -/
theorem C94_replaced_counterexample :
    let spec : Spec := { dtstart := Sample.day + 13 * Sample.HOUR, duration := some Sample.HOUR, organizer := some "alice" }
    let r := Sample.world.createEvent 0 (some "m") spec
    r.1.store.getFreePeriods ["alice"] Sample.day (Sample.day + DAY) (8 * Sample.HOUR) (17 * Sample.HOUR) none =
      .ok [(Sample.day + 8 * Sample.HOUR, Sample.day + 13 * Sample.HOUR),
           (Sample.day + 14 * Sample.HOUR, Sample.day + 17 * Sample.HOUR)] := by decide +kernel

/-! ### C95 -/

variable (parse : List Char → Res (Option (List VEvent))) (tz : LocalTz) (c : Calendar) (src : Source)
  (text : List Char) (b e : Option Int) (cr : Option Criteria)

/-- C95: after a synchronizing import that returned, the calendar shows, for the same period and criteria,
only events whose uid is in the data. -/
theorem C95_only_data (w : World) (hw : w.store.WF) (vs : List VEvent)
    (hp : parse (repairText text) = .ok (some vs)) (h : (w.import_ parse tz c src text b e cr true).2 = .ok ())
    (l : List Event) (hl : c.getEvents src (w.import_ parse tz c src text b e cr true).1.store b e cr = .ok l) :
    ∀ ev ∈ l, ∃ v ∈ vs, v.uid = some ev.uid := by
  intro ev hev
  by_contra hno
  have hno : ∀ v ∈ vs, v.uid ≠ some ev.uid := fun v hv hu => hno ⟨v, hv, hu⟩
  have hw' := (World.import_many w parse tz c src text b e cr true).wf hw
  have hst := calendar_stored hw' hl hev
  rcases import_cases w parse tz c src text b e cr true with ⟨f, _, h'⟩ | ⟨l0, hl0, h'⟩
  · rw [h'] at h; cases h
  rcases h' with ⟨f, hf, _⟩ | ⟨hf, _⟩ | ⟨vs', hp', ⟨f, _, h'⟩ | ⟨uids, hloop, h'⟩⟩
  · rw [hp] at hf; cases hf
  · rw [hp] at hf; cases hf
  · rw [h'] at h; cases h
  · rw [hp] at hp'
    injection hp' with hp'; injection hp' with hp'; subst hp'
    have hrem := (import_removal w hw tz c src b e cr (vs := vs) (uids := uids) hl0).2 ev.uid
    rw [h', if_pos rfl] at hst
    rw [hst] at hrem
    obtain ⟨hu, _, _⟩ := importLoop_ok tz c src _ vs w hloop
    have hnu : ev.uid ∉ uids := by
      rw [hu, mem_dataUids]
      rintro ⟨v, hv, hvu⟩
      exact hno v hv hvu
    split at hrem
    · cases hrem
    · rename_i hgone
      rw [importLoop_other tz c src _ vs w hno] at hrem
      have hmem : ev ∈ l0 := by
        rw [calendar_getEvents_ok] at hl hl0
        have h1 := ((C20_getEvents_exact _ hw' b e _).1 l hl.2).2 ev
        have h0 := ((C20_getEvents_exact _ hw b e _).1 l0 hl0.2).2 ev
        exact h0.2 ⟨hrem.symm, (h1.1 hev).2⟩
      apply hgone
      rw [List.mem_filter]
      refine ⟨?_, by simpa using hnu⟩
      rw [List.mem_dedup]
      exact List.mem_map_of_mem hmem

/-- C95, concrete: of two events one is in the data, which also bring a new one. -/
example :
    let w := (freshWorld "st" "host").run
      [Sample.imp [Sample.birthday, { Sample.birthday with uid := some "x" }] false]
    let w' := w.run [Sample.imp [Sample.birthday, { Sample.birthday with uid := some "y" }] true]
    (Sample.cal.getEvents Sample.src w.store none none none).map (·.map (·.uid)) = .ok ["b", "x"] ∧
    (Sample.cal.getEvents Sample.src w'.store none none none).map (·.map (·.uid)) = .ok ["b", "y"] := by decide +kernel

end CalCore
