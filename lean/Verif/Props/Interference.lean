import Verif.Props.Blocked
import Verif.Props.Store
import Verif.Lemmas.SetOnObject
/- Properties C72 to C74: which events blocked time depends on, and calls on different events. -/
namespace CalCore
open Spec

/-! ### C72 -/

theorem matching_attends {s : Storage} (hs : s.WF) {a : AttId} {e : Event} :
    e ∈ s.matching (some { attendees := some [a] }) ↔ Stored s e ∧ Attends e a := by
  rw [mem_matching hs]
  simp [Matches, Attends]

/-- The segments of an attendee only depend on the events they attend. -/
theorem segmented_attends {s s' : Storage} (hs : s.WF) (hs' : s'.WF) {a : AttId}
    (he : ∀ ev, Attends ev a → (Stored s' ev ↔ Stored s ev)) {b en : Int} {segs : List (Occurrence Event)}
    (h : s.getOccurrencesSegmented (some b) (some en) (some { attendees := some [a] }) = .ok segs) :
    ∃ segs', s'.getOccurrencesSegmented (some b) (some en) (some { attendees := some [a] }) = .ok segs' ∧
      ∀ o, o ∈ segs' ↔ o ∈ segs := by
  obtain ⟨occs, ho, h⟩ := segmented_ok h
  obtain ⟨h1, rfl⟩ := getOccurrences_ok.1 ho
  have hm : ∀ e, e ∈ s'.matching (some { attendees := some [a] }) ↔ e ∈ s.matching (some { attendees := some [a] }) := by
    intro e
    rw [matching_attends hs, matching_attends hs']
    constructor
    · rintro ⟨h2, h3⟩; exact ⟨(he e h3).1 h2, h3⟩
    · rintro ⟨h2, h3⟩; exact ⟨(he e h3).2 h2, h3⟩
  have ho' : s'.getOccurrences (some b) (some en) (some { attendees := some [a] }) =
      .ok ((s'.matching (some { attendees := some [a] })).flatMap (fun e => e.occs b en)) :=
    getOccurrences_ok.2 ⟨fun e hm' => h1 e ((hm e).1 hm'), rfl⟩
  unfold Storage.getOccurrencesSegmented
  simp only []
  rw [ho', ok_bind]
  refine segments_same h (fun o => ?_)
  simp only [List.mem_flatMap, hm]

theorem blocked_attends {s s' : Storage} (hs : s.WF) (hs' : s'.WF) {atts : List AttId}
    (he : ∀ ev, (∃ a ∈ atts, Attends ev a) → (Stored s' ev ↔ Stored s ev)) {b en tb te : Int} {R : List (Int × Int)}
    (h : s.getBlockedPeriods atts b en tb te = .ok R) : s'.getBlockedPeriods atts b en tb te = .ok R := by
  rw [getBlockedPeriods_eq] at h ⊢
  simp only [bind_ok] at h
  obtain ⟨B, hB, endD, hend, W, hW, h⟩ := h
  injection h with h
  obtain ⟨hseg, hmem⟩ := attendeeBlocks_ok hB
  obtain ⟨B', hB'⟩ := attendeeBlocks_returns (s := s') (b := b) (en := en) (tb := tb) (te := te) (atts := atts) (by
    intro a haa
    obtain ⟨segs, hsg⟩ := hseg a haa
    obtain ⟨segs', hsg', _⟩ := segmented_attends hs hs' (fun ev hx => he ev ⟨a, haa, hx⟩) hsg
    obtain ⟨occs, _, hso⟩ := segmented_ok hsg'
    exact ⟨segs', hsg', segments_range hso⟩) []
  obtain ⟨hseg', hmem'⟩ := attendeeBlocks_ok hB'
  have hm : ∀ p, p ∈ B' ↔ p ∈ B := by
    intro p
    rw [hmem, hmem']
    refine or_congr Iff.rfl ?_
    constructor
    · rintro ⟨a, haa, segs', hsg', o, ho, hr⟩
      obtain ⟨segs, hsg, hss⟩ := segmented_attends hs' hs (fun ev hx => (he ev ⟨a, haa, hx⟩).symm) hsg'
      exact ⟨a, haa, segs, hsg, o, (hss o).2 ho, hr⟩
    · rintro ⟨a, haa, segs, hsg, o, ho, hr⟩
      obtain ⟨segs', hsg', hss⟩ := segmented_attends hs hs' (fun ev hx => he ev ⟨a, haa, hx⟩) hsg
      exact ⟨a, haa, segs', hsg', o, (hss o).2 ho, hr⟩
  have hperm : B'.Perm B := (List.perm_ext_iff_of_nodup (attendeeBlocks_nodup hB' List.nodup_nil)
    (attendeeBlocks_nodup hB List.nodup_nil)).2 hm
  rw [hB', ok_bind, hend, ok_bind, hW, ok_bind, ← h]
  rw [removeOverlaps_perm (List.Perm.append_right W hperm)]

/-- C72: the blocked periods of attendees depend on nothing but the events these attendees attend: two
stores that agree on them give the same answer, and one returns if and only if the other does. -/
theorem C72_blocked_private (s s' : Storage) (hs : s.WF) (hs' : s'.WF) (atts : List AttId)
    (he : ∀ ev, (∃ a ∈ atts, Attends ev a) → (Stored s' ev ↔ Stored s ev)) (b en tb te : Int) (R : List (Int × Int)) :
    s.getBlockedPeriods atts b en tb te = .ok R ↔ s'.getBlockedPeriods atts b en tb te = .ok R :=
  ⟨blocked_attends hs hs' he, blocked_attends hs' hs (fun ev h => (he ev h).symm)⟩

/-- C72 for free periods. -/
theorem C72_free_private (s s' : Storage) (hs : s.WF) (hs' : s'.WF) (atts : List AttId)
    (he : ∀ ev, (∃ a ∈ atts, Attends ev a) → (Stored s' ev ↔ Stored s ev)) (b en tb te : Int) (md : Option Int)
    (F : List (Int × Int)) :
    s.getFreePeriods atts b en tb te md = .ok F ↔ s'.getFreePeriods atts b en tb te md = .ok F := by
  unfold Storage.getFreePeriods
  simp only [bind_ok, C72_blocked_private s s' hs hs' atts he]

/-- The sample world after a further event of Carol's, which makes Carol's own query raise. -/
def noisyOps : List Op := Sample.ops ++ [.create Sample.day (some "c") Sample.open_]
/-- Its store. -/
def noisyStore : Storage := ((freshWorld "st" "host").run noisyOps).store

/-- C72, concrete: the two stores differ, agree on the events Alice or Bob attend, and give the same
blocked periods for them; for Carol they do not. -/
example :
    noisyStore.events.length ≠ Sample.store.events.length ∧
    (∀ ev ∈ Dict.values noisyStore.events, Dict.has ev.pstate "alice" = true ∨ Dict.has ev.pstate "bob" = true →
      Dict.get? Sample.store.events ev.uid = some ev) ∧
    noisyStore.getBlockedPeriods ["alice", "bob"] Sample.day (Sample.day + 3 * DAY) (8 * Sample.HOUR) (21 * Sample.HOUR) =
      Sample.store.getBlockedPeriods ["alice", "bob"] Sample.day (Sample.day + 3 * DAY) (8 * Sample.HOUR) (21 * Sample.HOUR) ∧
    noisyStore.getBlockedPeriods ["carol"] Sample.day (Sample.day + 3 * DAY) (8 * Sample.HOUR) (21 * Sample.HOUR) =
      raise .TypeError ∧
    Sample.store.getBlockedPeriods ["carol"] Sample.day (Sample.day + 3 * DAY) (8 * Sample.HOUR) (21 * Sample.HOUR) ≠
      raise .TypeError := by decide +kernel

/-! ### C73 -/

theorem segment_original {s : Storage} (hs : s.WF) {a : AttId} {b en : Int} {segs : List (Occurrence Event)}
    (h : s.getOccurrencesSegmented (some b) (some en) (some { attendees := some [a] }) = .ok segs)
    (seg : Occurrence Event) (hm : seg ∈ segs) : Stored s seg.original ∧ Attends seg.original a := by
  obtain ⟨occs, ho, h⟩ := segmented_ok h
  obtain ⟨h1, rfl⟩ := getOccurrences_ok.1 ho
  obtain ⟨o, ho, l, hl, hsl⟩ := mem_segments h seg hm
  obtain ⟨inner, _, _, rfl⟩ := segmentOne_ok hl
  rw [List.mem_map] at hsl
  obtain ⟨p, _, rfl⟩ := hsl
  rw [List.mem_flatMap] at ho
  obtain ⟨e, he, ho⟩ := ho
  unfold Event.occs at ho
  rw [List.mem_filter, List.mem_map] at ho
  obtain ⟨⟨d, _, rfl⟩, _⟩ := ho
  exact (matching_attends hs).1 he

/-- A segment is also shown by another store that has its event. -/
theorem segment_transfer {s s' : Storage} (hs : s.WF) (hs' : s'.WF) {a : AttId} {b en : Int}
    {segs segs' : List (Occurrence Event)}
    (h : s.getOccurrencesSegmented (some b) (some en) (some { attendees := some [a] }) = .ok segs)
    (h' : s'.getOccurrencesSegmented (some b) (some en) (some { attendees := some [a] }) = .ok segs')
    (seg : Occurrence Event) (hm : seg ∈ segs) (hst : Stored s' seg.original) : seg ∈ segs' := by
  obtain ⟨_, hatt⟩ := segment_original hs h seg hm
  obtain ⟨occs, ho, h⟩ := segmented_ok h
  obtain ⟨occs', ho', h'⟩ := segmented_ok h'
  obtain ⟨h1, rfl⟩ := getOccurrences_ok.1 ho
  obtain ⟨h1', rfl⟩ := getOccurrences_ok.1 ho'
  obtain ⟨o, ho, l, hl, hsl⟩ := mem_segments h seg hm
  have hor : seg.original = o.original := by
    obtain ⟨inner, _, _, rfl⟩ := segmentOne_ok hl
    rw [List.mem_map] at hsl
    obtain ⟨p, _, rfl⟩ := hsl
    rfl
  have ho2 : o ∈ (s'.matching (some { attendees := some [a] })).flatMap (fun e => e.occs b en) := by
    rw [List.mem_flatMap] at ho ⊢
    obtain ⟨e, he, hoe⟩ := ho
    have : e = o.original := by
      unfold Event.occs at hoe
      rw [List.mem_filter, List.mem_map] at hoe
      obtain ⟨⟨d, _, rfl⟩, _⟩ := hoe
      rfl
    rw [← hor] at this
    subst this
    exact ⟨_, (matching_attends hs').2 ⟨hst, hatt⟩, hoe⟩
  obtain ⟨l2, hl2, hsub⟩ := segments_complete h' o ho2
  rw [hl] at hl2
  injection hl2 with hl2
  subst hl2
  exact hsub seg hsl

/-- C73: events that take no time from any of the attendees (transparent, cancelled, declined or delegated)
have no influence on the blocked periods: two stores that agree on the events that do take time give the
same periods, if both calls return. -/
theorem C73_blocked_neutral (s s' : Storage) (hs : s.WF) (hs' : s'.WF) (atts : List AttId)
    (he : ∀ ev, (∃ a ∈ atts, Attends ev a ∧ Blocking ev a) → (Stored s' ev ↔ Stored s ev)) (b en tb te : Int)
    (R R' : List (Int × Int)) (h : s.getBlockedPeriods atts b en tb te = .ok R)
    (h' : s'.getBlockedPeriods atts b en tb te = .ok R') : R' = R := by
  rw [getBlockedPeriods_eq] at h h'
  simp only [bind_ok] at h h'
  obtain ⟨B, hB, endD, hend, W, hW, h⟩ := h
  obtain ⟨B', hB', endD', hend', W', hW', h'⟩ := h'
  rw [hend] at hend'
  injection hend' with hend'
  subst hend'
  rw [hW] at hW'
  injection hW' with hW'
  subst hW'
  injection h with h
  injection h' with h'
  obtain ⟨hseg, hmem⟩ := attendeeBlocks_ok hB
  obtain ⟨hseg', hmem'⟩ := attendeeBlocks_ok hB'
  have hm : ∀ p, p ∈ B' ↔ p ∈ B := by
    intro p
    rw [hmem, hmem']
    refine or_congr Iff.rfl ?_
    constructor
    · rintro ⟨a, haa, segs', hsg', o, ho, hbl, hr⟩
      obtain ⟨segs, hsg⟩ := hseg a haa
      obtain ⟨k1, k2⟩ := segment_original hs' hsg' o ho
      exact ⟨a, haa, segs, hsg, o, segment_transfer hs' hs hsg' hsg o ho
        ((he _ ⟨a, haa, k2, blocks_iff.1 hbl⟩).1 k1), hbl, hr⟩
    · rintro ⟨a, haa, segs, hsg, o, ho, hbl, hr⟩
      obtain ⟨segs', hsg'⟩ := hseg' a haa
      obtain ⟨k1, k2⟩ := segment_original hs hsg o ho
      exact ⟨a, haa, segs', hsg', o, segment_transfer hs hs' hsg hsg' o ho
        ((he _ ⟨a, haa, k2, blocks_iff.1 hbl⟩).2 k1), hbl, hr⟩
  have hperm : B'.Perm B := (List.perm_ext_iff_of_nodup (attendeeBlocks_nodup hB' List.nodup_nil)
    (attendeeBlocks_nodup hB List.nodup_nil)).2 hm
  rw [← h, ← h', removeOverlaps_perm (List.Perm.append_right W hperm)]

/-- C73: creating a transparent or cancelled event under a new id changes nobody's blocked periods. -/
theorem C73_create_neutral (w : World) (hw : w.store.WF) (now : Int) (u : Uid) (spec : Spec)
    (hn : spec.transparent = true ∨ spec.status = "CANCELED") (hu : w.store.hasEvent u = false)
    (atts : List AttId) (b en tb te : Int) (R R' : List (Int × Int))
    (h : w.store.getBlockedPeriods atts b en tb te = .ok R)
    (h' : (w.createEvent now (some u) spec).1.store.getBlockedPeriods atts b en tb te = .ok R') : R' = R := by
  rcases w.createEvent_eq now (some u) spec with ⟨f, _, hc⟩ | ⟨e, hne, heu, hc⟩
  · rw [hc] at h'
    simp only [] at h'
    rw [h] at h'
    injection h' with h'
    exact h'.symm
  · have hwf : (w.createEvent now (some u) spec).1.store.WF := by
      have := (w.step_many (.create now (some u) spec)).wf hw
      exact this
    refine C73_blocked_neutral _ _ hw hwf atts ?_ b en tb te R R' h h'
    rintro ev ⟨a, _, _, hbl⟩
    rw [hc]
    unfold Stored
    simp only []
    rw [Dict.get?_set]
    have hu' : Dict.get? w.store.events u = none := by
      unfold Storage.hasEvent at hu
      cases hg : w.store.getEvent u with
      | ok x => rw [hg] at hu; cases hu
      | error x => exact (Storage.getEvent_error.1 hg).2
    split
    · rename_i hx
      have hattr : e.transparent = spec.transparent ∧ e.status = spec.status := by
        unfold newEvent at hne
        have hsame := setOnObject_attributes spec (blankEvent ((some u).getD (w.store.autoId now)))
        cases hso : spec.setOnObject (blankEvent ((some u).getD (w.store.autoId now))) with
        | mk e1 r =>
          rw [hso] at hne hsame
          cases r with
          | error x => cases hne
          | ok y =>
            injection hne with hne
            subst hne
            unfold SameButParticipation at hsame
            simp only [] at hsame
            have k1 : e1.transparent = spec.transparent := congrArg Event.transparent hsame
            have k2 : e1.status = spec.status := congrArg Event.status hsame
            have k3 : e1.alldayAdjust.transparent = e1.transparent ∧ e1.alldayAdjust.status = e1.status :=
              ⟨rfl, rfl⟩
            split
            · rw [k3.1, k3.2]; exact ⟨k1, k2⟩
            · exact ⟨k1, k2⟩
      have hx' : u = ev.uid := by simpa [heu] using hx
      rw [← hx', hu']
      constructor
      · intro hx2
        exfalso
        injection hx2 with hx2
        subst hx2
        unfold Blocking at hbl
        rw [hattr.1, hattr.2] at hbl
        rcases hn with hn | hn
        · rw [hn] at hbl; cases hbl.1
        · exact hbl.2.1 hn
      · intro hx2; cases hx2
    · exact Iff.rfl

/-- A transparent event of Alice's on the first day. -/
def neutralSpec : Spec :=
  { dtstart := Sample.day + 14 * Sample.HOUR, duration := some (2 * Sample.HOUR), organizer := some "alice"
    transparent := true }

/-- C73, concrete: the transparent event changes nothing; the same event, opaque, blocks 14 to 16. -/
example :
    Sample.world.store.hasEvent "n" = false ∧
    (Sample.world.createEvent Sample.day (some "n") neutralSpec).1.store.getBlockedPeriods ["alice"]
        Sample.day (Sample.day + DAY) (8 * Sample.HOUR) (18 * Sample.HOUR) =
      Sample.world.store.getBlockedPeriods ["alice"] Sample.day (Sample.day + DAY) (8 * Sample.HOUR) (18 * Sample.HOUR) ∧
    (Sample.world.createEvent Sample.day (some "n") { neutralSpec with transparent := false }).1.store.getBlockedPeriods
        ["alice"] Sample.day (Sample.day + DAY) (8 * Sample.HOUR) (18 * Sample.HOUR) ≠
      Sample.world.store.getBlockedPeriods ["alice"] Sample.day (Sample.day + DAY) (8 * Sample.HOUR) (18 * Sample.HOUR) := by
  decide +kernel

/-! ### C74 -/

/-- The uid of the event a call is about, if the call is about one event whose uid is known beforehand. -/
def opTarget : Op → Option Uid
  | .create _ uid _ => uid
  | .attendeeCreate .. => none
  | .delete uid => some uid
  | .setStatus uid _ _ => some uid
  | .setRole uid _ _ => some uid
  | .invite uid _ => some uid
  | .alldayAdjust uid => some uid
  | .edit uid _ => some uid
  | .import_ .. => none

theorem put_self (m : EventMap) (u : Uid) : m.put u (m u) = m := by
  funext k
  unfold EventMap.put
  split
  · rename_i h; rw [h]
  · rfl

theorem on_local (m : EventMap) (u : Uid) (f : Event → Event × Res Unit) :
    m.on u f = (m.put u ((m u).map (fun e => (f e).1)),
      match m u with | none => .error (.py .KeyError) | some e => (f e).2) := by
  unfold EventMap.on
  cases h : m u with
  | none =>
    simp only [Option.map_none]
    rw [← h, put_self]
  | some e => rfl

/-- A call with a target reads and changes nothing but its target. -/
theorem step_local {op : Op} {u : Uid} (h : opTarget op = some u) :
    ∃ F : Option Event → Option Event × Res Unit,
      ∀ (m : EventMap) (auto : Uid), m.step auto op = (m.put u (F (m u)).1, (F (m u)).2) := by
  have hon : ∀ (v : Uid) (f : Event → Event × Res Unit), ∃ F : Option Event → Option Event × Res Unit,
      ∀ m : EventMap, m.on v f = (m.put v (F (m v)).1, (F (m v)).2) := by
    intro v f
    exact ⟨fun x => (x.map (fun e => (f e).1),
      match x with | none => .error (.py .KeyError) | some e => (f e).2), fun m => on_local m v f⟩
  cases op with
  | create now uid spec =>
    unfold opTarget at h
    simp only [] at h
    subst h
    refine ⟨fun x => match newEvent u spec with | .ok e => (some e, .ok ()) | .error f => (x, .error f), fun m auto => ?_⟩
    unfold EventMap.step EventMap.create
    simp only [Option.getD_some]
    cases newEvent u spec with
    | ok e => rfl
    | error f => simp only []; rw [put_self]
  | attendeeCreate now a spec => cases h
  | delete uid =>
    injection h with h; subst h
    refine ⟨fun x => match x with | none => (none, .error (.py .KeyError)) | some _ => (none, .ok ()), fun m auto => ?_⟩
    unfold EventMap.step
    simp only []
    cases hm : m uid with
    | none => simp only []; rw [← hm, put_self]
    | some e => rfl
  | setStatus uid a st =>
    injection h with h; subst h
    obtain ⟨F, hF⟩ := hon uid (fun e => ((e.setStatus a st).1, (e.setStatus a st).2.2))
    exact ⟨F, fun m _ => hF m⟩
  | setRole uid a role =>
    injection h with h; subst h
    obtain ⟨F, hF⟩ := hon uid (fun e => e.setRole a role)
    exact ⟨F, fun m _ => hF m⟩
  | invite uid atts =>
    injection h with h; subst h
    obtain ⟨F, hF⟩ := hon uid (fun e => ((e.invite atts).1, (e.invite atts).2.2))
    exact ⟨F, fun m _ => hF m⟩
  | alldayAdjust uid =>
    injection h with h; subst h
    obtain ⟨F, hF⟩ := hon uid (fun e => (e.alldayAdjust, .ok ()))
    exact ⟨F, fun m _ => hF m⟩
  | edit uid spec =>
    injection h with h; subst h
    obtain ⟨F, hF⟩ := hon uid (fun e => spec.setOnObject e)
    exact ⟨F, fun m _ => hF m⟩
  | import_ => cases h

theorem target_noImport {op : Op} {u : Uid} (h : opTarget op = some u) : NoImport op := by
  cases op with
  | import_ => cases h
  | _ => trivial

/-- C74: two calls about different events can be exchanged: the same events are stored afterwards, and each
call has the same outcome in either order, also when one of them raises. -/
theorem C74_commute (w : World) (hw : w.store.WF) (op1 op2 : Op) (u1 u2 : Uid)
    (h1 : opTarget op1 = some u1) (h2 : opTarget op2 = some u2) (hne : u1 ≠ u2) :
    (∀ k, Dict.get? ((w.step op1).1.step op2).1.store.events k = Dict.get? ((w.step op2).1.step op1).1.store.events k) ∧
    ((w.step op1).1.step op2).2 = (w.step op2).2 ∧ ((w.step op2).1.step op1).2 = (w.step op1).2 := by
  obtain ⟨F1, hF1⟩ := step_local h1
  obtain ⟨F2, hF2⟩ := step_local h2
  have hw1 := (w.step_many op1).wf hw
  have hw2 := (w.step_many op2).wf hw
  have a1 := C32_step w hw op1 (target_noImport h1)
  have a2 := C32_step w hw op2 (target_noImport h2)
  have b2 := C32_step (w.step op1).1 hw1 op2 (target_noImport h2)
  have b1 := C32_step (w.step op2).1 hw2 op1 (target_noImport h1)
  rw [hF1] at a1 b1
  rw [hF2] at a2 b2
  injection a1 with a1 r1
  injection a2 with a2 r2
  injection b1 with b1 q1
  injection b2 with b2 q2
  have e2 : (w.step op1).1.store.map u2 = w.store.map u2 := by
    rw [a1]; unfold EventMap.put; rw [if_neg (fun h => hne h.symm)]
  have e1 : (w.step op2).1.store.map u1 = w.store.map u1 := by
    rw [a2]; unfold EventMap.put; rw [if_neg hne]
  refine ⟨fun k => ?_, ?_, ?_⟩
  · have l : Dict.get? ((w.step op1).1.step op2).1.store.events k = ((w.step op1).1.step op2).1.store.map k := rfl
    have r : Dict.get? ((w.step op2).1.step op1).1.store.events k = ((w.step op2).1.step op1).1.store.map k := rfl
    rw [l, r, b1, b2, e1, e2, a1, a2]
    unfold EventMap.put
    by_cases hk1 : k = u1
    · subst hk1; simp [hne]
    · by_cases hk2 : k = u2
      · subst hk2; simp [hk1]
      · simp [hk1, hk2]
  · rw [q2, r2, e2]
  · rw [q1, r1, e1]

/-- C74, concrete: a deletion, a creation that fails and an invitation, about three events. -/
example :
    opTarget (.delete "m") = some "m" ∧ opTarget (.invite "t" ["carol"]) = some "t" ∧
    Dict.get? ((Sample.world.step (.delete "m")).1.step (.invite "t" ["carol"])).1.store.events "m" = none ∧
    ((Dict.get? ((Sample.world.step (.delete "m")).1.step (.invite "t" ["carol"])).1.store.events "t").map
      (fun e => Dict.get? e.pstate "carol")) = some (some "NEEDS-ACTION") ∧
    ((Dict.get? ((Sample.world.step (.invite "t" ["carol"])).1.step (.delete "m")).1.store.events "t").map
      (fun e => Dict.get? e.pstate "carol")) = some (some "NEEDS-ACTION") := by
  decide +kernel

/-- C74 needs ids that are given: two creations without one cannot be exchanged, because the generated id
contains the number of events. -/
theorem C74_generated_counterexample :
    let a : Op := .create Sample.day none { Sample.meeting with title := "a" }
    let b : Op := .create Sample.day none { Sample.meeting with title := "b" }
    ∃ k, (Dict.get? ((Sample.world.step a).1.step b).1.store.events k).map (·.title) ≠
      (Dict.get? ((Sample.world.step b).1.step a).1.store.events k).map (·.title) :=
  ⟨Sample.world.store.autoId Sample.day, by decide +kernel⟩

end CalCore
