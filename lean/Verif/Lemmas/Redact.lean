import Verif.Lemmas.Rename
import Verif.Spec.Redact
import Verif.Spec.Store
/- Blotting out texts commutes with the functions of the model. -/
namespace CalCore
open Spec

theorem redact_getStatus (e : Event) (a : AttId) : (redactEvent e).getStatus a = e.getStatus a := rfl

theorem redact_getRole (e : Event) (a : AttId) : (redactEvent e).getRole a = e.getRole a := rfl

/-- Rename the event and the notifications in the result of a method. -/
def redactRes (x : Event × List Note × Res Unit) : Event × List Note × Res Unit :=
  (redactEvent x.1, x.2.1, x.2.2)

theorem redact_setStatusRaw (e : Event) (a : AttId) (st : Option String) :
    (redactEvent e).setStatusRaw a st = (redactEvent (e.setStatusRaw a st).1, (e.setStatusRaw a st).2) := by
  unfold Event.setStatusRaw
  cases st with
  | none =>
    have h1 : (redactEvent e).pstate = e.pstate := rfl
    have h2 : (redactEvent e).prole = e.prole := rfl
    simp only [h1, h2]
    cases Dict.has e.pstate a <;> cases Dict.has e.prole a <;> rfl
  | some s => rfl

theorem redact_setStatus (e : Event) (a : AttId) (st : Option String) :
    (redactEvent e).setStatus a st = redactRes (e.setStatus a st) := by
  unfold Event.setStatus
  rw [redact_getStatus, redact_setStatusRaw]
  split
  · rfl
  · simp only []
    split
    · rfl
    · generalize e.setStatusRaw a st = x
      obtain ⟨e', r⟩ := x
      cases r <;> rfl

theorem redact_setRole (e : Event) (a : AttId) (role : String) :
    (redactEvent e).setRole a role = (redactEvent (e.setRole a role).1, (e.setRole a role).2) := by
  unfold Event.setRole
  split
  · rfl
  · simp only [redactEvent]

theorem redact_inviteOne (e : Event) (a : AttId) :
    (redactEvent e).inviteOne a = redactRes (e.inviteOne a) := by
  unfold Event.inviteOne
  rw [redact_getStatus, redact_setStatus]
  split
  · generalize e.setStatus a (some "NEEDS-ACTION") = x
    obtain ⟨e', n, r⟩ := x
    cases r with
    | error x => rfl
    | ok _ =>
      simp only [redactRes]
      rw [redact_setRole]
  · rfl

theorem redact_invite (l : List AttId) : ∀ e : Event,
    (redactEvent e).invite l = redactRes (e.invite l) := by
  induction l with
  | nil => intro e; rfl
  | cons a rest ih =>
    intro e
    unfold Event.invite
    simp only []
    rw [redact_inviteOne]
    generalize e.inviteOne a = x
    obtain ⟨e', n, r⟩ := x
    cases r with
    | error x => rfl
    | ok _ =>
      simp only [redactRes]
      rw [ih]
      simp [redactRes]

theorem redact_alldayAdjust (e : Event) : (redactEvent e).alldayAdjust = redactEvent e.alldayAdjust := rfl

theorem redact_setAttendees (l : List (Option AttId × String × String)) : ∀ o : Event,
    setAttendeesLoop (redactEvent o) l =
      (redactEvent (setAttendeesLoop o l).1, (setAttendeesLoop o l).2) := by
  induction l with
  | nil => intro o; rfl
  | cons x rest ih =>
    intro o
    obtain ⟨a, role, status⟩ := x
    unfold setAttendeesLoop
    split
    · rfl
    · cases a with
      | none => rfl
      | some a =>
        simp only []
        rw [← ih]
        rfl

theorem redact_setOnObject (s : Spec) (o : Event) :
    (redactSpec s).setOnObject (redactEvent o) =
      (redactEvent (s.setOnObject o).1, (s.setOnObject o).2) := by
  unfold Spec.setOnObject
  rw [← redact_setAttendees]
  have : (redactSpec s).setOrganizer ((redactSpec s).setAttrs (redactEvent o)) =
      redactEvent (s.setOrganizer (s.setAttrs o)) := by
    unfold Spec.setOrganizer
    cases h : s.organizer with
    | none => simp [redactSpec, h, redactEvent, Spec.setAttrs]
    | some a => simp [redactSpec, h, redactEvent, Spec.setAttrs]
  rw [this]
  rfl

theorem redact_newEvent (uid : Uid) (s : Spec) :
    newEvent uid (redactSpec s) = (newEvent uid s).map redactEvent := by
  unfold newEvent
  have : blankEvent uid = redactEvent (blankEvent uid) := rfl
  rw [this, redact_setOnObject, ← this]
  generalize s.setOnObject (blankEvent uid) = x
  obtain ⟨e, r⟩ := x
  cases r with
  | error x => rfl
  | ok _ =>
    simp only [Except.map]
    have : (redactEvent e).allday = e.allday := rfl
    rw [this, redact_alldayAdjust]
    split <;> rfl

theorem redact_match {c : Criteria} (hc : c.categories = none) (e : Event) : c.match (redactEvent e) = c.match e := by
  unfold Criteria.match
  rw [hc]
  have h : ∀ l, matchAttendees c.status c.role (redactEvent e) l = matchAttendees c.status c.role e l := by
    intro l
    induction l with
    | nil => rfl
    | cons a rest ih => unfold matchAttendees; rw [ih]; rfl
  simp only [h]
  rfl

theorem redact_matching (s : Storage) {c : Option Criteria} (hc : (c.getD {}).categories = none) :
    (redactStore s).matching c = (s.matching c).map redactEvent := by
  unfold Storage.matching
  have h1 : Dict.values (redactStore s).events = (Dict.values s.events).map redactEvent := by
    unfold Dict.values redactStore
    simp [List.map_map, Function.comp_def]
  rw [h1, List.filter_map]
  congr 1
  exact List.filter_congr fun e _ => redact_match hc e

theorem redact_filterInPeriod (b e : Option DateTime) (l : List Event) :
    filterInPeriod b e (l.map redactEvent) = (filterInPeriod b e l).map (·.map redactEvent) := by
  induction l with
  | nil => rfl
  | cons ev rest ih =>
    rw [List.map_cons]
    unfold filterInPeriod
    rw [ih]
    have h1 : (redactEvent ev).dtstart = ev.dtstart := rfl
    have h2 : (redactEvent ev).duration = ev.duration := rfl
    rw [h1, h2]
    cases inPeriod ev.dtstart ev.duration b e with
    | error x => rfl
    | ok keep =>
      simp only [ok_bind]
      cases filterInPeriod b e rest with
      | error x => rfl
      | ok more => cases keep <;> rfl

theorem redact_getEvents (s : Storage) (b e : Option DateTime) {c : Option Criteria}
    (hc : (c.getD {}).categories = none) :
    (redactStore s).getEvents b e c = (s.getEvents b e c).map (·.map redactEvent) := by
  unfold Storage.getEvents
  rw [redact_matching s hc, redact_filterInPeriod]

theorem redact_occAt (e : Event) (t b en : DateTime) :
    (redactEvent e).occAt t b en = (e.occAt t b en).map (·.map (redactOcc)) := by
  unfold Event.occAt
  have h2 : (redactEvent e).duration = e.duration := rfl
  rw [h2]
  cases inPeriod t e.duration (some b) (some en) with
  | error x => rfl
  | ok keep =>
    simp only [ok_bind]
    cases keep with
    | false => rfl
    | true =>
      simp only [if_true]
      cases e.duration <;> rfl

theorem redact_expandLoop (e : Event) (b en : DateTime) (l : List Date) :
    (redactEvent e).expandLoop b en l = (e.expandLoop b en l).map (·.map (redactOcc)) := by
  induction l with
  | nil => rfl
  | cons d rest ih =>
    unfold Event.expandLoop
    rw [ih, redact_occAt]
    have h1 : (redactEvent e).dtstart = e.dtstart := rfl
    rw [h1]
    cases e.occAt (combine d (dtTime e.dtstart)) b en with
    | error x => rfl
    | ok here =>
      simp only [Except.map, ok_bind]
      cases e.expandLoop b en rest with
      | error x => rfl
      | ok more => simp

theorem redact_expand (e : Event) (b en : DateTime) :
    (redactEvent e).expand b en = (e.expand b en).map (·.map (redactOcc)) := by
  unfold Event.expand
  have h1 : (redactEvent e).dtstart = e.dtstart := rfl
  have h2 : (redactEvent e).recurrence = e.recurrence := rfl
  rw [h1, h2]
  cases e.recurrence with
  | none => exact redact_occAt e _ _ _
  | some r =>
    simp only []
    rw [redact_expandLoop]
    cases e.expandLoop b en (r.apply e.dtstart (some (dtDate en))).1 with
    | error x => rfl
    | ok l =>
      simp only [Except.map, ok_bind]
      cases (r.apply e.dtstart (some (dtDate en))).2 <;> rfl

theorem redact_expandAll (b en : DateTime) (l : List Event) :
    expandAll b en (l.map redactEvent) = (expandAll b en l).map (·.map (redactOcc)) := by
  induction l with
  | nil => rfl
  | cons e rest ih =>
    rw [List.map_cons]
    unfold expandAll
    rw [ih, redact_expand]
    cases e.expand b en with
    | error x => rfl
    | ok here =>
      simp only [Except.map, ok_bind]
      cases expandAll b en rest with
      | error x => rfl
      | ok more => simp

theorem redact_getOccurrences (s : Storage) (b e : Option DateTime) {c : Option Criteria}
    (hc : (c.getD {}).categories = none) :
    (redactStore s).getOccurrences b e c = (s.getOccurrences b e c).map (·.map (redactOcc)) := by
  unfold Storage.getOccurrences
  cases b with
  | none => rfl
  | some b =>
    cases e with
    | none => rfl
    | some e =>
      simp only []
      rw [redact_matching s hc, redact_expandAll]

theorem redact_popLoop (b en : DateTime) (o : Event) (l : List DateTime) : ∀ e,
    popLoop b en (redactEvent o) e l = (popLoop b en o e l).map (·.map (redactOcc)) := by
  induction l with
  | nil => intro e; rfl
  | cons s rest ih =>
    intro e
    unfold popLoop
    rw [ih]
    cases inPeriod s (some (e - s)) (some b) (some en) with
    | error x => rfl
    | ok keep =>
      simp only [ok_bind]
      cases popLoop b en o s rest with
      | error x => rfl
      | ok more => cases keep <;> rfl

theorem redact_segmentOne (b en : DateTime) (o : Occurrence Event) :
    segmentOne b en (redactOcc o) = (segmentOne b en o).map (·.map (redactOcc)) := by
  unfold segmentOne
  have h1 : (redactOcc o).dtstart = o.dtstart := rfl
  have h2 : (redactOcc o).duration = o.duration := rfl
  have h3 : (redactOcc o).original = redactEvent o.original := rfl
  rw [h1, h2, h3]
  simp only []
  cases dtAdd o.dtstart o.duration with
  | error x => rfl
  | ok y =>
    simp only [ok_bind]
    cases borderLoop en y ((en / DAY - (if o.dtstart < b then b else o.dtstart) / DAY).toNat + 2)
        (if o.dtstart < b then b else o.dtstart) with
    | error x => rfl
    | ok inner =>
      simp only [ok_bind]
      cases (bordersOf b en o.dtstart y inner).reverse with
      | nil => rfl
      | cons e rest => exact redact_popLoop _ _ _ _ _

theorem redact_segments (b en : DateTime) (l : List (Occurrence Event)) :
    segmentOccurrences b en (l.map (redactOcc)) = (segmentOccurrences b en l).map (·.map (redactOcc)) := by
  induction l with
  | nil => rfl
  | cons o rest ih =>
    rw [List.map_cons]
    unfold segmentOccurrences
    rw [ih, redact_segmentOne]
    cases segmentOne b en o with
    | error x => rfl
    | ok here =>
      simp only [Except.map, ok_bind]
      cases segmentOccurrences b en rest with
      | error x => rfl
      | ok more => simp

theorem redact_getSegmented (s : Storage) (b e : Option DateTime) {c : Option Criteria}
    (hc : (c.getD {}).categories = none) :
    (redactStore s).getOccurrencesSegmented b e c =
      (s.getOccurrencesSegmented b e c).map (·.map (redactOcc)) := by
  unfold Storage.getOccurrencesSegmented
  rw [redact_getOccurrences s _ _ hc]
  cases s.getOccurrences b e c with
  | error x => rfl
  | ok l =>
    simp only [Except.map, ok_bind]
    cases b with
    | none => rfl
    | some b =>
      cases e with
      | none => rfl
      | some e => exact redact_segments b e l

theorem redact_blocks (e : Event) (a : AttId) : blocks (redactEvent e) a = blocks e a := by
  unfold blocks
  rw [redact_getStatus]
  rfl

theorem redact_blockLoop (b en : DateTime) (tb te : Time) (a : AttId) (l : List (Occurrence Event)) : ∀ acc,
    blockLoop b en tb te a (l.map (redactOcc)) acc = blockLoop b en tb te a l acc := by
  induction l with
  | nil => intro acc; rfl
  | cons o rest ih =>
    intro acc
    rw [List.map_cons]
    unfold blockLoop
    have h1 : (redactOcc o).dtstart = o.dtstart := rfl
    have h2 : (redactOcc o).duration = o.duration := rfl
    have h3 : (redactOcc o).original = redactEvent o.original := rfl
    simp only [h1, h2, h3, redact_blocks, ih]

theorem redact_attendeeBlocks (s : Storage) (b en : DateTime) (tb te : Time) (l : List AttId) : ∀ acc,
    (redactStore s).attendeeBlocks b en tb te l acc = s.attendeeBlocks b en tb te l acc := by
  induction l with
  | nil => intro acc; rfl
  | cons a rest ih =>
    intro acc
    unfold Storage.attendeeBlocks
    rw [redact_getSegmented s (some b) (some en) (c := some { attendees := some [a] }) rfl]
    cases s.getOccurrencesSegmented (some b) (some en) (some { attendees := some [a] }) with
    | error x => rfl
    | ok segs =>
      simp only [Except.map, ok_bind]
      rw [redact_blockLoop]
      cases blockLoop b en tb te a segs acc with
      | error x => rfl
      | ok acc => exact ih acc

theorem redact_blocked (s : Storage) (atts : List AttId) (b en : DateTime) (tb te : Time) :
    (redactStore s).getBlockedPeriods atts b en tb te = s.getBlockedPeriods atts b en tb te := by
  unfold Storage.getBlockedPeriods
  rw [redact_attendeeBlocks]

/-! ### calls -/

theorem redact_getEvent (s : Storage) (uid : Uid) : (redactStore s).getEvent uid = (s.getEvent uid).map redactEvent := by
  unfold Storage.getEvent redactStore
  simp only [get?_mapValues]
  cases Dict.get? s.events uid <;> rfl

theorem redact_hasEvent (s : Storage) (uid : Uid) : (redactStore s).hasEvent uid = s.hasEvent uid := by
  unfold Storage.hasEvent
  rw [redact_getEvent]
  cases s.getEvent uid <;> rfl

theorem redact_createEvent (w : World) (now : DateTime) (uid : Option Uid) (spec : Spec) :
    (redactWorld w).createEvent now uid (redactSpec spec) =
      (redactWorld (w.createEvent now uid spec).1, (w.createEvent now uid spec).2.map redactEvent) := by
  unfold World.createEvent Storage.createEvent
  have h1 : (redactWorld w).store.autoId now = w.store.autoId now := by
    unfold Storage.autoId
    show addrspecUniqueId now (w.store.id ++ "-" ++ toString (w.store.events.map _).length) w.store.host = _
    rw [List.length_map]
  rw [h1]
  simp only []
  rw [redact_newEvent]
  cases newEvent (uid.getD (w.store.autoId now)) spec with
  | error x => rfl
  | ok e =>
    simp only [Except.map, redactWorld, redactStore, set_mapValues]
    rfl

theorem redact_deleteEvent (w : World) (uid : Uid) :
    (redactWorld w).deleteEvent uid = (redactWorld (w.deleteEvent uid).1, (w.deleteEvent uid).2) := by
  unfold World.deleteEvent Storage.deleteEvent
  have h1 : Dict.has (redactWorld w).store.events uid = Dict.has w.store.events uid := has_mapValues _ _ _
  rw [h1]
  cases Dict.has w.store.events uid with
  | true =>
    simp only [if_true, redactWorld, redactStore, del_mapValues]
  | false => rfl

theorem redact_onEvent (w : World) (uid : Uid) (m m' : Event → Event × List Note × Res Unit)
    (hm : ∀ e, m' (redactEvent e) = redactRes (m e)) :
    (redactWorld w).onEvent uid m' = (redactWorld (w.onEvent uid m).1, (w.onEvent uid m).2) := by
  unfold World.onEvent
  have h := redact_getEvent w.store uid
  have h1 : (redactWorld w).store = redactStore w.store := rfl
  rw [h1, h]
  cases w.store.getEvent uid with
  | error x => rfl
  | ok e =>
    simp only [Except.map]
    rw [hm]
    generalize m e = x
    obtain ⟨e', n, r⟩ := x
    simp only [redactRes, redactWorld, redactStore, set_mapValues]


theorem redact_step (w : World) {op : Op} (hop : NoImport op) :
    (redactWorld w).step (redactOp op) = (redactWorld (w.step op).1, (w.step op).2) := by
  cases op with
  | create now uid spec =>
    show dropRes ((redactWorld w).createEvent now uid (redactSpec spec)) = _
    rw [redact_createEvent]
    show _ = (redactWorld (dropRes (w.createEvent now uid spec)).1, (dropRes (w.createEvent now uid spec)).2)
    generalize w.createEvent now uid spec = x
    obtain ⟨w', r⟩ := x
    cases r <;> rfl
  | attendeeCreate now a spec =>
    have : (redactWorld w).attendeeCreateEvent now a (redactSpec spec) =
        (redactWorld w).createEvent now none (redactSpec { spec with organizer := some a }) := rfl
    show dropRes ((redactWorld w).attendeeCreateEvent now a (redactSpec spec)) = _
    rw [this, redact_createEvent]
    show _ = (redactWorld (dropRes (w.createEvent now none { spec with organizer := some a })).1,
      (dropRes (w.createEvent now none { spec with organizer := some a })).2)
    generalize w.createEvent now none { spec with organizer := some a } = x
    obtain ⟨w', r⟩ := x
    cases r <;> rfl
  | delete uid =>
    unfold World.step
    simp only [redactOp]
    have h1 : (redactWorld w).store = redactStore w.store := rfl
    rw [h1, redact_getEvent]
    cases w.store.getEvent uid with
    | error x => rfl
    | ok e =>
      simp only [Except.map]
      exact redact_deleteEvent w e.uid
  | setStatus uid a st => exact redact_onEvent w uid _ _ (fun e => redact_setStatus e a st)
  | setRole uid a role =>
    refine redact_onEvent w uid (fun e => ((e.setRole a role).1, [], (e.setRole a role).2))
      (fun e => ((e.setRole a role).1, [], (e.setRole a role).2)) (fun e => ?_)
    simp only [redact_setRole]
    rfl
  | invite uid atts => exact redact_onEvent w uid _ _ (fun e => redact_invite atts e)
  | alldayAdjust uid =>
    exact redact_onEvent w uid (fun e => (e.alldayAdjust, [], .ok ())) (fun e => (e.alldayAdjust, [], .ok ()))
      (fun e => by rw [redact_alldayAdjust]; rfl)
  | edit uid spec =>
    refine redact_onEvent w uid (fun e => ((spec.setOnObject e).1, [], (spec.setOnObject e).2))
      (fun e => (((redactSpec spec).setOnObject e).1, [], ((redactSpec spec).setOnObject e).2)) (fun e => ?_)
    simp only [redact_setOnObject]
    rfl
  | import_ tz c src vs b e cr sync => exact hop.elim

theorem redact_run (ops : List Op) (hops : ∀ op ∈ ops, NoImport op) :
    ∀ w : World, (redactWorld w).run (ops.map redactOp) = redactWorld (w.run ops) := by
  induction ops with
  | nil => intro w; rfl
  | cons op rest ih =>
    intro w
    rw [List.map_cons]
    unfold World.run
    rw [redact_step w (hops op List.mem_cons_self)]
    exact ih (fun o ho => hops o (List.mem_cons_of_mem _ ho)) _

end CalCore
