import Verif.Props.Export
import Verif.Props.Import2
import Verif.Props.Booking
/- Property C96: a synchronizing import of an export mirrors the exported calendar. -/
namespace CalCore
open Spec

theorem exportAll_uids {order : Finset String → List String} {l : List Event} {vs : List VEvent}
    (h : exportAll order l = .ok vs) : dataUids vs = l.map (·.uid) := by
  induction l generalizing vs with
  | nil => injection h with h; subst h; rfl
  | cons ev l ih =>
    unfold exportAll at h
    simp only [bind_ok, Except.ok.injEq] at h
    obtain ⟨v, h1, more, h2, rfl⟩ := h
    have hu : v.uid = some ev.uid := by
      unfold Event.export at h1
      cases hd : ev.duration with
      | none => rw [hd] at h1; cases h1
      | some dur =>
        rw [hd] at h1
        simp only [bind_ok, Bool.false_eq_true, if_false, Except.ok.injEq] at h1
        obtain ⟨_, _, rfl⟩ := h1
        rfl
    have := ih h2
    unfold dataUids at this ⊢
    rw [List.filterMap_cons, hu, List.map_cons, this]

/-- Two events with the attributes of the same specification have the same content. -/
theorem sameContent_of_spec {s : Spec} {e e' o : Event} (h : s.setAttrs e = e)
    (h' : SameButParticipation { s.setAttrs o with organizerId := s.organizer } e') : SameContent e e' := by
  unfold SameButParticipation at h'
  simp only [Spec.setAttrs, Event.mk.injEq] at h'
  obtain ⟨_, h1, h2, h3, h4, h5, h6, h7, h8, h9, h10, h11, h12, h13, _⟩ := h'
  unfold SameContent
  rw [h1, h2, h3, h4, h5, h6, h7, h8, h9, h10, h11, h12, ← h]
  exact ⟨rfl, rfl, rfl, rfl, rfl, rfl, rfl, rfl, rfl, rfl, rfl, rfl⟩

theorem setOnObject_nil {s : Spec} (h : s.attendees = []) (e : Event) : ∃ e', s.setOnObject e = (e', .ok ()) := by
  unfold Spec.setOnObject
  rw [h]
  exact ⟨_, rfl⟩

/-- Importing one exported event. -/
theorem importAt_export (tz : LocalTz) (c : Calendar) (src : Source) (m : AttId) (hm : c.main src = .ok (some m))
    (known : List Uid) (ev : Event) (hx : Exportable ev) (order : Finset String → List String) (ho : Lists order)
    (v : VEvent) (hv : ev.export false order = .ok v) (old : Option Event)
    (hk : if ev.uid ∈ known then ∃ x, old = some x ∧ x.uid = ev.uid else old = none) :
    (importAt tz c src known v ev.uid old).2 = .ok () ∧
    ∃ ev', (importAt tz c src known v ev.uid old).1 = some ev' ∧ ev'.uid = ev.uid ∧ SameContent ev ev' ∧
      Attends ev' m := by
  obtain ⟨_, hpa, s, hs, horg, hatt, hattrs⟩ := importSpec_export tz c src ev hx order ho v hv (some m) hm
  unfold importAt
  by_cases hkn : ev.uid ∈ known
  · rw [if_pos hkn] at hk ⊢
    obtain ⟨x, rfl, hxu⟩ := hk
    simp only [hs]
    obtain ⟨x', hx'⟩ := setOnObject_nil hatt x
    cases hm' : s.willModify x with
    | error f =>
      exfalso
      unfold Spec.willModify at hm'
      rw [hatt, horg] at hm'
      simp only [willModifyLoop] at hm'
      split at hm'
      · cases hm'
      · split at hm' <;> cases hm'
    | ok r =>
      cases r with
      | false =>
        obtain ⟨h1, a, h2, _, h4, _⟩ := willModify_false hm'
        rw [horg] at h2
        injection h2 with h2
        subst h2
        refine ⟨rfl, x, rfl, hxu, ?_, ⟨_, h4⟩⟩
        rw [← h1, ← hattrs]
        exact ⟨rfl, rfl, rfl, rfl, rfl, rfl, rfl, rfl, rfl, rfl, rfl, rfl⟩
      | true =>
        simp only [hx']
        have hat := setOnObject_attributes s x
        have huid := setOnObject_uid s x
        rw [hx'] at hat huid
        exact ⟨trivial, x', rfl, by rw [huid]; exact hxu, sameContent_of_spec hattrs hat,
          (setOnObject_attends hx' m).2 (Or.inr (Or.inl horg))⟩
  · rw [if_neg hkn] at hk ⊢
    subst hk
    simp only [hs]
    obtain ⟨e', he'⟩ := setOnObject_nil hatt (blankEvent ev.uid)
    obtain ⟨n, hn⟩ : ∃ n, newEvent ev.uid s = .ok n := by
      unfold newEvent
      rw [he']
      exact ⟨_, rfl⟩
    have hset := newEvent_whole (importSpec_wholeDays hs hpa) hn
    have hat := setOnObject_attributes s (blankEvent ev.uid)
    rw [hset] at hat
    rw [hn]
    exact ⟨rfl, n, rfl, newEvent_uid hn, sameContent_of_spec hattrs hat,
      (setOnObject_attends hset m).2 (Or.inr (Or.inl horg))⟩

/-- A calendar whose attendees are known can always be asked without period and criteria, and then shows
exactly the events attended by one of its attendees. -/
theorem calendar_all {c : Calendar} {src : Source} {s : Storage} (hs : s.WF)
    (hc : ∀ a ∈ Dict.keys c, Dict.has src a = true) :
    ∃ l, c.getEvents src s none none none = .ok l ∧
      ∀ ev, ev ∈ l ↔ Stored s ev ∧ ∃ a ∈ Dict.keys c, Attends ev a := by
  obtain ⟨l, hl⟩ := (C20_getEvents_exact s hs none none (some { attendees := some (Dict.keys c) })).2.2
    (by intro b hb; cases hb)
  refine ⟨l, calendar_getEvents_ok.2 ⟨hc, hl⟩, fun ev => ?_⟩
  rw [((C20_getEvents_exact s hs none none _).1 l hl).2 ev]
  simp [Matches, Attends]

/-- C96: export a calendar (any period and criteria) and import the data, synchronizing, into a calendar of
another store: the import returns, and the second calendar then shows an event with the same uid and content
for each exported event, and nothing else.  It must have known attendees, at least one.  Missing: exported
events that the exported properties do not say completely (C49), and uids that the second store uses for
events its calendar does not show; for the latter see `C96_foreign_counterexample`. -/
theorem C96_mirror_partial (parse : List Char → Res (Option (List VEvent))) (text : List Char) (tz : LocalTz)
    (cA : Calendar) (srcA : Source) (sA : Storage) (hA : sA.WF) (bA eA : Option Int) (crA : Option Criteria)
    (order : Finset String → List String) (ho : Lists order) (lA : List Event) (vs : List VEvent)
    (hlA : cA.getEvents srcA sA bA eA crA = .ok lA) (hx : cA.export srcA sA bA eA crA order = .ok vs)
    (hxa : ∀ ev ∈ lA, Exportable ev) (hp : parse (repairText text) = .ok (some vs))
    (cB : Calendar) (srcB : Source) (w : World) (hw : w.store.WF)
    (hc : ∀ a ∈ Dict.keys cB, Dict.has srcB a = true) (hne : Dict.keys cB ≠ [])
    (lB : List Event) (hlB : cB.getEvents srcB w.store none none none = .ok lB)
    (hfor : ∀ ev ∈ lA, w.store.hasEvent ev.uid = true → ∃ x ∈ lB, x.uid = ev.uid) :
    ∃ w' l, w.import_ parse tz cB srcB text none none none true = (w', .ok ()) ∧
      cB.getEvents srcB w'.store none none none = .ok l ∧
      (∀ ev ∈ lA, ∃ ev' ∈ l, ev'.uid = ev.uid ∧ SameContent ev ev') ∧
      (∀ ev' ∈ l, ∃ ev ∈ lA, ev'.uid = ev.uid ∧ SameContent ev ev') := by
  unfold Calendar.export at hx
  rw [hlA] at hx
  simp only [ok_bind] at hx
  obtain ⟨hfrom, hto⟩ := exportAll_mem hx
  have hd : (dataUids vs).Nodup := by
    rw [exportAll_uids hx]
    rw [calendar_getEvents_ok] at hlA
    exact ((C20_getEvents_exact sA hA bA eA _).1 lA hlA.2).1
  obtain ⟨m, hm, hmk⟩ : ∃ m, cB.main srcB = .ok (some m) ∧ m ∈ Dict.keys cB := by
    unfold Calendar.main Calendar.mainId
    cases hk : Dict.keys cB with
    | nil => exact absurd hk hne
    | cons a rest =>
      have := hc a (by rw [hk]; exact List.mem_cons_self ..)
      simp only [List.head?_cons, Source.getAttendee, this, if_true, ok_bind]
      exact ⟨a, rfl, List.mem_cons_self ..⟩
  have huid : ∀ ev v, ev ∈ lA → ev.export false order = .ok v → v.uid = some ev.uid := fun ev v hev hv =>
    (importSpec_export tz cB srcB ev (hxa ev hev) order ho v hv (some m) hm).1
  have hcond : ∀ ev ∈ lA, if ev.uid ∈ (lB.map (·.uid)).dedup then
      ∃ x, Dict.get? w.store.events ev.uid = some x ∧ x.uid = ev.uid else Dict.get? w.store.events ev.uid = none := by
    intro ev hev
    split
    · rename_i hk
      obtain ⟨x, _, h1, h2⟩ := (known_iff hw hlB ev.uid).1 hk
      exact ⟨x, h2, h1⟩
    · rename_i hk
      cases hg : Dict.get? w.store.events ev.uid with
      | none => rfl
      | some x =>
        obtain ⟨y, hy, hyu⟩ := hfor ev hev (Storage.hasEvent_iff.2 ⟨x, hg⟩)
        exact absurd (List.mem_dedup.2 (List.mem_map.2 ⟨y, hy, hyu⟩)) hk
  have hat : ∀ ev v, ev ∈ lA → ev.export false order = .ok v → _ := fun ev v hev hv =>
    importAt_export tz cB srcB m hm (lB.map (·.uid)).dedup ev (hxa ev hev) order ho v hv
      (Dict.get? w.store.events ev.uid) (hcond ev hev)
  obtain ⟨hiff, hres⟩ := import_at parse tz cB srcB text none none none true w hw vs hd lB hp hlB
  have hok : (w.import_ parse tz cB srcB text none none none true).2 = .ok () := by
    refine hiff.2 fun v hv => ?_
    obtain ⟨ev, hev, hexp⟩ := hfrom v hv
    exact ⟨ev.uid, huid ev v hev hexp, (hat ev v hev hexp).1⟩
  obtain ⟨hin, _⟩ := hres hok
  have hw' := (World.import_many w parse tz cB srcB text none none none true).wf hw
  obtain ⟨l, hl, hmem⟩ := calendar_all (src := srcB) hw' hc
  have hstored : ∀ ev ∈ lA, ∃ ev', Stored (w.import_ parse tz cB srcB text none none none true).1.store ev' ∧
      ev'.uid = ev.uid ∧ SameContent ev ev' ∧ Attends ev' m := by
    intro ev hev
    obtain ⟨v, hv, hexp⟩ := hto ev hev
    obtain ⟨_, ev', h1, h2, h3, h4⟩ := hat ev v hev hexp
    refine ⟨ev', ?_, h2, h3, h4⟩
    unfold Stored
    rw [h2, hin v hv ev.uid (huid ev v hev hexp), h1]
  refine ⟨_, l, Prod.ext rfl hok, hl, ?_, ?_⟩
  · intro ev hev
    obtain ⟨ev', h1, h2, h3, h4⟩ := hstored ev hev
    exact ⟨ev', (hmem ev').2 ⟨h1, m, hmk, h4⟩, h2, h3⟩
  · intro ev' hev'
    obtain ⟨v, hv, hvu⟩ := C95_only_data parse tz cB srcB text none none none w hw vs hp hok l hl ev' hev'
    obtain ⟨ev, hev, hexp⟩ := hfrom v hv
    have hu := huid ev v hev hexp
    rw [hvu] at hu
    injection hu with hu
    obtain ⟨ev'', h1, h2, h3, _⟩ := hstored ev hev
    have h5 := ((hmem ev').1 hev').1
    unfold Stored at h1 h5
    rw [h2, ← hu, h5] at h1
    injection h1 with h1
    subst h1
    exact ⟨ev, hev, hu, h3⟩

/-- C96, concrete: Alice's store has a party and a lunch; Bob's calendar in another store has an old version of the
party and something else. -/
example :
    let lunch : Spec := { dtstart := Sample.day + 12 * Sample.HOUR, duration := some Sample.HOUR, organizer := some "alice" }
    let wA := (freshWorld "st" "host").run [.create 0 (some "p") { Sample.party with title := "big party", recurrence := none }, .create 0 (some "l") lunch]
    let wB := (freshWorld "st2" "host").run [.create 0 (some "p") { Sample.party with organizer := some "bob", attendees := [], recurrence := none },
      .create 0 (some "z") { lunch with organizer := some "bob" }]
    let cB : Calendar := [("bob", ())]
    (match Sample.cal.export Sample.src wA.store none none none (fun _ => []) with
     | .error _ => none
     | .ok vs =>
       let w := (wB.import_ (fun _ => .ok (some vs)) (fun _ => 0) cB Sample.src [] none none none true).1
       some ((cB.getEvents Sample.src w.store none none none).map (·.map (fun e => (e.uid, e.title, e.organizerId))))) =
    some (.ok [("p", "big party", some "bob"), ("l", "", some "bob")]) := by decide +kernel

/-- C96 fails for a uid that the second store uses for an event that its calendar does not show: the import
returns, and Bob's calendar does not show Alice's party. -/
theorem C96_foreign_counterexample :
    let wA := (freshWorld "st" "host").run [.create 0 (some "p") { Sample.party with recurrence := none }]
    let wB := (freshWorld "st2" "host").run [.create 0 (some "p") { dtstart := Sample.day, duration := some 0, organizer := some "carol" }]
    let cB : Calendar := [("bob", ())]
    (match Sample.cal.export Sample.src wA.store none none none (fun _ => []) with
     | .error _ => none
     | .ok vs =>
       let r := wB.import_ (fun _ => .ok (some vs)) (fun _ => 0) cB Sample.src [] none none none true
       some (vs.length, r.2, (cB.getEvents Sample.src r.1.store none none none).map (·.length))) =
    some (1, .ok (), .ok 0) := by decide +kernel

end CalCore
