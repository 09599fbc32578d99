import Verif.Spec.Rename
import Verif.Lemmas.Dict
import Verif.Lemmas.Res
import Mathlib.Logic.Function.Basic
/- Every function of the model commutes with renaming attendees. -/
namespace CalCore
open Spec
variable {f : AttId → AttId}

theorem get?_renameKeys {ν : Type} (hf : f.Injective) (d : Dict AttId ν) (a : AttId) :
    Dict.get? (renameKeys f d) (f a) = Dict.get? d a := by
  induction d with
  | nil => rfl
  | cons p d ih =>
    unfold renameKeys at ih ⊢
    rw [List.map_cons, Dict.get?_cons, Dict.get?_cons, ih]
    simp only [hf.eq_iff]

theorem has_renameKeys {ν : Type} (hf : f.Injective) (d : Dict AttId ν) (a : AttId) :
    Dict.has (renameKeys f d) (f a) = Dict.has d a := by
  unfold Dict.has renameKeys
  rw [List.any_map]
  congr 1
  funext p
  simp [hf.eq_iff]

theorem set_renameKeys {ν : Type} (hf : f.Injective) (d : Dict AttId ν) (a : AttId) (v : ν) :
    Dict.set (renameKeys f d) (f a) v = renameKeys f (Dict.set d a v) := by
  induction d with
  | nil => rfl
  | cons p d ih =>
    unfold renameKeys at ih ⊢
    simp only [List.map_cons, Dict.set, hf.eq_iff]
    split
    · rfl
    · rw [ih]; rfl

theorem del_renameKeys {ν : Type} (hf : f.Injective) (d : Dict AttId ν) (a : AttId) :
    Dict.del (renameKeys f d) (f a) = renameKeys f (Dict.del d a) := by
  unfold Dict.del renameKeys
  rw [List.filter_map]
  congr 1
  refine List.filter_congr fun p _ => ?_
  simp [hf.eq_iff]

section events
variable {α β : Type} (g : α → β)

theorem get?_mapValues (d : Dict Uid α) (k : Uid) :
    Dict.get? (d.map (fun p => (p.1, g p.2))) k = (Dict.get? d k).map g := by
  induction d with
  | nil => rfl
  | cons p d ih =>
    rw [List.map_cons, Dict.get?_cons, Dict.get?_cons, ih]
    split <;> rfl

theorem has_mapValues (d : Dict Uid α) (k : Uid) : Dict.has (d.map (fun p => (p.1, g p.2))) k = Dict.has d k := by
  unfold Dict.has
  rw [List.any_map]
  rfl

theorem set_mapValues (d : Dict Uid α) (k : Uid) (v : α) :
    Dict.set (d.map (fun p => (p.1, g p.2))) k (g v) = (Dict.set d k v).map (fun p => (p.1, g p.2)) := by
  induction d with
  | nil => rfl
  | cons p d ih =>
    simp only [List.map_cons, Dict.set]
    split
    · rfl
    · rw [ih]; rfl

theorem del_mapValues (d : Dict Uid α) (k : Uid) :
    Dict.del (d.map (fun p => (p.1, g p.2))) k = (Dict.del d k).map (fun p => (p.1, g p.2)) := by
  unfold Dict.del
  rw [List.filter_map]
  rfl

end events

/-! ### events -/

@[simp] theorem rename_getStatus (hf : f.Injective) (e : Event) (a : AttId) :
    (renameEvent f e).getStatus (f a) = e.getStatus a := get?_renameKeys hf _ _

@[simp] theorem rename_getRole (hf : f.Injective) (e : Event) (a : AttId) :
    (renameEvent f e).getRole (f a) = e.getRole a := get?_renameKeys hf _ _

/-- Rename the event and the notifications in the result of a method. -/
def renameRes (f : AttId → AttId) (x : Event × List Note × Res Unit) : Event × List Note × Res Unit :=
  (renameEvent f x.1, x.2.1.map (renameNote f), x.2.2)

theorem rename_setStatusRaw (hf : f.Injective) (e : Event) (a : AttId) (st : Option String) :
    (renameEvent f e).setStatusRaw (f a) st = (renameEvent f (e.setStatusRaw a st).1, (e.setStatusRaw a st).2) := by
  unfold Event.setStatusRaw
  cases st with
  | none =>
    simp only [renameEvent, has_renameKeys hf, del_renameKeys hf]
    split
    · split <;> rfl
    · rfl
  | some s => simp only [renameEvent, set_renameKeys hf]

theorem rename_setStatus (hf : f.Injective) (e : Event) (a : AttId) (st : Option String) :
    (renameEvent f e).setStatus (f a) st = renameRes f (e.setStatus a st) := by
  unfold Event.setStatus
  rw [rename_getStatus hf, rename_setStatusRaw hf]
  split
  · rfl
  · simp only []
    split
    · rfl
    · generalize e.setStatusRaw a st = x
      obtain ⟨e', r⟩ := x
      cases r <;> rfl

theorem rename_setRole (hf : f.Injective) (e : Event) (a : AttId) (role : String) :
    (renameEvent f e).setRole (f a) role = (renameEvent f (e.setRole a role).1, (e.setRole a role).2) := by
  unfold Event.setRole
  split
  · rfl
  · simp only [renameEvent, set_renameKeys hf]

theorem rename_inviteOne (hf : f.Injective) (e : Event) (a : AttId) :
    (renameEvent f e).inviteOne (f a) = renameRes f (e.inviteOne a) := by
  unfold Event.inviteOne
  rw [rename_getStatus hf, rename_setStatus hf]
  split
  · generalize e.setStatus a (some "NEEDS-ACTION") = x
    obtain ⟨e', n, r⟩ := x
    cases r with
    | error x => rfl
    | ok _ =>
      simp only [renameRes]
      rw [rename_setRole hf]
  · rfl

theorem rename_invite (hf : f.Injective) (l : List AttId) : ∀ e : Event,
    (renameEvent f e).invite (l.map f) = renameRes f (e.invite l) := by
  induction l with
  | nil => intro e; rfl
  | cons a rest ih =>
    intro e
    unfold Event.invite
    rw [List.map_cons]
    simp only []
    rw [rename_inviteOne hf]
    generalize e.inviteOne a = x
    obtain ⟨e', n, r⟩ := x
    cases r with
    | error x => rfl
    | ok _ =>
      simp only [renameRes]
      rw [ih]
      simp [renameRes]

theorem rename_alldayAdjust (e : Event) : (renameEvent f e).alldayAdjust = renameEvent f e.alldayAdjust := rfl

theorem rename_setAttendees (hf : f.Injective) (l : List (Option AttId × String × String)) : ∀ o : Event,
    setAttendeesLoop (renameEvent f o) (l.map (fun x => (x.1.map f, x.2))) =
      (renameEvent f (setAttendeesLoop o l).1, (setAttendeesLoop o l).2) := by
  induction l with
  | nil => intro o; rfl
  | cons x rest ih =>
    intro o
    obtain ⟨a, role, status⟩ := x
    rw [List.map_cons]
    unfold setAttendeesLoop
    simp only []
    split
    · rfl
    · cases a with
      | none => rfl
      | some a =>
        simp only [Option.map_some]
        rw [← ih]
        simp only [renameEvent, set_renameKeys hf]

theorem rename_setOnObject (hf : f.Injective) (s : Spec) (o : Event) :
    (renameSpec f s).setOnObject (renameEvent f o) =
      (renameEvent f (s.setOnObject o).1, (s.setOnObject o).2) := by
  unfold Spec.setOnObject
  rw [← rename_setAttendees hf]
  have : (renameSpec f s).setOrganizer ((renameSpec f s).setAttrs (renameEvent f o)) =
      renameEvent f (s.setOrganizer (s.setAttrs o)) := by
    unfold Spec.setOrganizer
    cases h : s.organizer with
    | none => simp [renameSpec, h, renameEvent, Spec.setAttrs]
    | some a => simp [renameSpec, h, renameEvent, Spec.setAttrs, set_renameKeys hf]
  rw [this]
  rfl

theorem rename_newEvent (hf : f.Injective) (uid : Uid) (s : Spec) :
    newEvent uid (renameSpec f s) = (newEvent uid s).map (renameEvent f) := by
  unfold newEvent
  have : blankEvent uid = renameEvent f (blankEvent uid) := rfl
  rw [this, rename_setOnObject hf, ← this]
  generalize s.setOnObject (blankEvent uid) = x
  obtain ⟨e, r⟩ := x
  cases r with
  | error x => rfl
  | ok _ =>
    simp only [Except.map]
    have : (renameEvent f e).allday = e.allday := rfl
    rw [this, rename_alldayAdjust]
    split <;> rfl

theorem rename_willModifyLoop (hf : f.Injective) (o : Event) (l : List (Option AttId × String × String)) :
    willModifyLoop (renameEvent f o) (l.map (fun x => (x.1.map f, x.2))) = willModifyLoop o l := by
  induction l with
  | nil => rfl
  | cons x rest ih =>
    obtain ⟨a, role, status⟩ := x
    rw [List.map_cons]
    unfold willModifyLoop
    cases a with
    | none => rfl
    | some a =>
      simp only [Option.map_some, rename_getStatus hf, rename_getRole hf, ih]

theorem rename_willModify (hf : f.Injective) (s : Spec) (o : Event) :
    (renameSpec f s).willModify (renameEvent f o) = s.willModify o := by
  unfold Spec.willModify
  have h1 : (renameSpec f s).attrsDiffer (renameEvent f o) = s.attrsDiffer o := rfl
  rw [h1]
  split
  · rfl
  · cases h : s.organizer with
    | none => simp [renameSpec, h]
    | some a =>
      have h2 : (renameSpec f s).organizer = some (f a) := by simp [renameSpec, h]
      rw [h2]
      simp only [rename_getStatus hf, rename_getRole hf]
      have h3 : (renameEvent f o).organizerId = some (f a) ↔ o.organizerId = some a := by
        show o.organizerId.map f = some (f a) ↔ _
        cases o.organizerId with
        | none => simp
        | some x => simp [hf.eq_iff]
      simp only [ne_eq, h3]
      have : willModifyLoop (renameEvent f o) (renameSpec f s).attendees = willModifyLoop o s.attendees :=
        rename_willModifyLoop hf o s.attendees
      rw [this]

theorem rename_getAttendeeIds (hf : f.Injective) (e : Event) (ps pr : Option String) :
    (renameEvent f e).getAttendeeIds ps pr = (e.getAttendeeIds ps pr).map (·.map f) := by
  unfold Event.getAttendeeIds
  show getAttendeeIdsLoop (renameKeys f e.prole) ps pr (renameKeys f e.pstate) = _
  induction e.pstate with
  | nil => rfl
  | cons p rest ih =>
    obtain ⟨a, s⟩ := p
    unfold renameKeys at ih ⊢
    rw [List.map_cons]
    unfold getAttendeeIdsLoop
    simp only []
    have hr := get?_renameKeys hf e.prole a
    unfold renameKeys at hr
    rw [hr, ih]
    generalize getAttendeeIdsLoop e.prole ps pr rest = x
    rcases ps with _ | p
    · rw [if_neg (by simp), if_neg (by simp)]
      cases pr with
      | none => cases x <;> rfl
      | some q =>
        simp only []
        cases Dict.get? e.prole a with
        | none => rfl
        | some q' =>
          simp only []
          by_cases hq : q ≠ q'
          · rw [if_pos hq, if_pos hq]
          · rw [if_neg hq, if_neg hq]; cases x <;> rfl
    · by_cases hp : p ≠ s
      · rw [if_pos (by simpa using hp), if_pos (by simpa using hp)]
      · rw [if_neg (by simpa using hp), if_neg (by simpa using hp)]
        cases pr with
        | none => cases x <;> rfl
        | some q =>
          simp only []
          cases Dict.get? e.prole a with
          | none => rfl
          | some q' =>
            simp only []
            by_cases hq : q ≠ q'
            · rw [if_pos hq, if_pos hq]
            · rw [if_neg hq, if_neg hq]; cases x <;> rfl

/-! ### queries -/

theorem rename_hasAttendee (hf : f.Injective) (e : Event) (a : AttId) :
    (renameEvent f e).hasAttendee (f a) = e.hasAttendee a := by
  unfold Event.hasAttendee; rw [rename_getStatus hf]

theorem rename_matchAttendees (hf : f.Injective) (st rl : Option String) (e : Event) (l : List AttId) :
    matchAttendees st rl (renameEvent f e) (l.map f) = matchAttendees st rl e l := by
  induction l with
  | nil => rfl
  | cons a rest ih =>
    rw [List.map_cons]
    unfold matchAttendees
    rw [rename_hasAttendee hf, rename_getStatus hf, rename_getRole hf, ih]

theorem rename_match (hf : f.Injective) (c : Criteria) (e : Event) :
    (renameCriteria f c).match (renameEvent f e) = c.match e := by
  unfold Criteria.match
  have h1 : (renameEvent f e).inCategory = e.inCategory := rfl
  have h3 : (renameCriteria f c).categories = c.categories := rfl
  have h4 : (renameCriteria f c).attendees = c.attendees.map (·.map f) := rfl
  have h5 : (renameCriteria f c).organizer = c.organizer.map f := rfl
  have h6 : (renameEvent f e).organizerId = e.organizerId.map f := rfl
  have h7 : (match c.attendees.map (·.map f) with
      | none => true
      | some l => matchAttendees (renameCriteria f c).status (renameCriteria f c).role (renameEvent f e) l) =
      (match c.attendees with | none => true | some l => matchAttendees c.status c.role e l) := by
    cases c.attendees with
    | none => rfl
    | some l => exact rename_matchAttendees hf _ _ _ _
  have h8 : ∀ o, e.organizerId.map f ≠ some (f o) ↔ e.organizerId ≠ some o := by
    intro o
    cases e.organizerId with
    | none => simp
    | some x => simp [hf.eq_iff]
  rw [h1, h3, h4, h5, h6]
  cases c.organizer with
  | none => simp only [Option.map_none]; congr 1
  | some o => simp only [Option.map_some, h8]; congr 2

theorem rename_matching (hf : f.Injective) (s : Storage) (c : Option Criteria) :
    (renameStore f s).matching (c.map (renameCriteria f)) = (s.matching c).map (renameEvent f) := by
  unfold Storage.matching
  have h1 : Dict.values (renameStore f s).events = (Dict.values s.events).map (renameEvent f) := by
    unfold Dict.values renameStore
    simp [List.map_map, Function.comp_def]
  have h2 : (c.map (renameCriteria f)).getD {} = renameCriteria f (c.getD {}) := by
    cases c <;> rfl
  rw [h1, h2, List.filter_map]
  congr 1
  refine List.filter_congr fun e _ => ?_
  exact rename_match hf _ e

theorem rename_filterInPeriod (b e : Option DateTime) (l : List Event) :
    filterInPeriod b e (l.map (renameEvent f)) = (filterInPeriod b e l).map (·.map (renameEvent f)) := by
  induction l with
  | nil => rfl
  | cons ev rest ih =>
    rw [List.map_cons]
    unfold filterInPeriod
    rw [ih]
    have h1 : (renameEvent f ev).dtstart = ev.dtstart := rfl
    have h2 : (renameEvent f ev).duration = ev.duration := rfl
    rw [h1, h2]
    cases inPeriod ev.dtstart ev.duration b e with
    | error x => rfl
    | ok keep =>
      simp only [ok_bind]
      cases filterInPeriod b e rest with
      | error x => rfl
      | ok more => cases keep <;> rfl

theorem rename_getEvents (hf : f.Injective) (s : Storage) (b e : Option DateTime) (c : Option Criteria) :
    (renameStore f s).getEvents b e (c.map (renameCriteria f)) = (s.getEvents b e c).map (·.map (renameEvent f)) := by
  unfold Storage.getEvents
  rw [rename_matching hf, rename_filterInPeriod]

theorem rename_occAt (e : Event) (t b en : DateTime) :
    (renameEvent f e).occAt t b en = (e.occAt t b en).map (·.map (renameOcc f)) := by
  unfold Event.occAt
  have h2 : (renameEvent f e).duration = e.duration := rfl
  rw [h2]
  cases inPeriod t e.duration (some b) (some en) with
  | error x => rfl
  | ok keep =>
    simp only [ok_bind]
    cases keep with
    | false => rfl
    | true =>
      simp only [if_true]
      cases e.duration <;> rfl

theorem rename_expandLoop (e : Event) (b en : DateTime) (l : List Date) :
    (renameEvent f e).expandLoop b en l = (e.expandLoop b en l).map (·.map (renameOcc f)) := by
  induction l with
  | nil => rfl
  | cons d rest ih =>
    unfold Event.expandLoop
    rw [ih, rename_occAt]
    have h1 : (renameEvent f e).dtstart = e.dtstart := rfl
    rw [h1]
    cases e.occAt (combine d (dtTime e.dtstart)) b en with
    | error x => rfl
    | ok here =>
      simp only [Except.map, ok_bind]
      cases e.expandLoop b en rest with
      | error x => rfl
      | ok more => simp

theorem rename_expand (e : Event) (b en : DateTime) :
    (renameEvent f e).expand b en = (e.expand b en).map (·.map (renameOcc f)) := by
  unfold Event.expand
  have h1 : (renameEvent f e).dtstart = e.dtstart := rfl
  have h2 : (renameEvent f e).recurrence = e.recurrence := rfl
  rw [h1, h2]
  cases e.recurrence with
  | none => exact rename_occAt e _ _ _
  | some r =>
    simp only []
    rw [rename_expandLoop]
    cases e.expandLoop b en (r.apply e.dtstart (some (dtDate en))).1 with
    | error x => rfl
    | ok l =>
      simp only [Except.map, ok_bind]
      cases (r.apply e.dtstart (some (dtDate en))).2 <;> rfl

theorem rename_expandAll (b en : DateTime) (l : List Event) :
    expandAll b en (l.map (renameEvent f)) = (expandAll b en l).map (·.map (renameOcc f)) := by
  induction l with
  | nil => rfl
  | cons e rest ih =>
    rw [List.map_cons]
    unfold expandAll
    rw [ih, rename_expand]
    cases e.expand b en with
    | error x => rfl
    | ok here =>
      simp only [Except.map, ok_bind]
      cases expandAll b en rest with
      | error x => rfl
      | ok more => simp

theorem rename_getOccurrences (hf : f.Injective) (s : Storage) (b e : Option DateTime) (c : Option Criteria) :
    (renameStore f s).getOccurrences b e (c.map (renameCriteria f)) = (s.getOccurrences b e c).map (·.map (renameOcc f)) := by
  unfold Storage.getOccurrences
  cases b with
  | none => rfl
  | some b =>
    cases e with
    | none => rfl
    | some e =>
      simp only []
      rw [rename_matching hf, rename_expandAll]

theorem rename_popLoop (b en : DateTime) (o : Event) (l : List DateTime) : ∀ e,
    popLoop b en (renameEvent f o) e l = (popLoop b en o e l).map (·.map (renameOcc f)) := by
  induction l with
  | nil => intro e; rfl
  | cons s rest ih =>
    intro e
    unfold popLoop
    rw [ih]
    cases inPeriod s (some (e - s)) (some b) (some en) with
    | error x => rfl
    | ok keep =>
      simp only [ok_bind]
      cases popLoop b en o s rest with
      | error x => rfl
      | ok more => cases keep <;> rfl

theorem rename_segmentOne (b en : DateTime) (o : Occurrence Event) :
    segmentOne b en (renameOcc f o) = (segmentOne b en o).map (·.map (renameOcc f)) := by
  unfold segmentOne
  have h1 : (renameOcc f o).dtstart = o.dtstart := rfl
  have h2 : (renameOcc f o).duration = o.duration := rfl
  have h3 : (renameOcc f o).original = renameEvent f o.original := rfl
  rw [h1, h2, h3]
  simp only []
  cases dtAdd o.dtstart o.duration with
  | error x => rfl
  | ok y =>
    simp only [ok_bind]
    cases borderLoop en y ((en / DAY - (if o.dtstart < b then b else o.dtstart) / DAY).toNat + 2)
        (if o.dtstart < b then b else o.dtstart) with
    | error x => rfl
    | ok inner =>
      simp only [ok_bind]
      cases (bordersOf b en o.dtstart y inner).reverse with
      | nil => rfl
      | cons e rest => exact rename_popLoop _ _ _ _ _

theorem rename_segments (b en : DateTime) (l : List (Occurrence Event)) :
    segmentOccurrences b en (l.map (renameOcc f)) = (segmentOccurrences b en l).map (·.map (renameOcc f)) := by
  induction l with
  | nil => rfl
  | cons o rest ih =>
    rw [List.map_cons]
    unfold segmentOccurrences
    rw [ih, rename_segmentOne]
    cases segmentOne b en o with
    | error x => rfl
    | ok here =>
      simp only [Except.map, ok_bind]
      cases segmentOccurrences b en rest with
      | error x => rfl
      | ok more => simp

theorem rename_getSegmented (hf : f.Injective) (s : Storage) (b e : Option DateTime) (c : Option Criteria) :
    (renameStore f s).getOccurrencesSegmented b e (c.map (renameCriteria f)) =
      (s.getOccurrencesSegmented b e c).map (·.map (renameOcc f)) := by
  unfold Storage.getOccurrencesSegmented
  rw [rename_getOccurrences hf]
  cases s.getOccurrences b e c with
  | error x => rfl
  | ok l =>
    simp only [Except.map, ok_bind]
    cases b with
    | none => rfl
    | some b =>
      cases e with
      | none => rfl
      | some e => exact rename_segments b e l

theorem rename_blocks (hf : f.Injective) (e : Event) (a : AttId) : blocks (renameEvent f e) (f a) = blocks e a := by
  unfold blocks
  rw [rename_getStatus hf]
  rfl

theorem rename_blockLoop (hf : f.Injective) (b en : DateTime) (tb te : Time) (a : AttId) (l : List (Occurrence Event)) : ∀ acc,
    blockLoop b en tb te (f a) (l.map (renameOcc f)) acc = blockLoop b en tb te a l acc := by
  induction l with
  | nil => intro acc; rfl
  | cons o rest ih =>
    intro acc
    rw [List.map_cons]
    unfold blockLoop
    have h1 : (renameOcc f o).dtstart = o.dtstart := rfl
    have h2 : (renameOcc f o).duration = o.duration := rfl
    have h3 : (renameOcc f o).original = renameEvent f o.original := rfl
    simp only [h1, h2, h3, rename_blocks hf, ih]

theorem rename_attendeeBlocks (hf : f.Injective) (s : Storage) (b en : DateTime) (tb te : Time) (l : List AttId) : ∀ acc,
    (renameStore f s).attendeeBlocks b en tb te (l.map f) acc = s.attendeeBlocks b en tb te l acc := by
  induction l with
  | nil => intro acc; rfl
  | cons a rest ih =>
    intro acc
    rw [List.map_cons]
    unfold Storage.attendeeBlocks
    have h := rename_getSegmented hf s (some b) (some en) (some { attendees := some [a] })
    have hc : (some ({ attendees := some [a] } : Criteria)).map (renameCriteria f) = some { attendees := some [f a] } := rfl
    rw [hc] at h
    rw [h]
    cases s.getOccurrencesSegmented (some b) (some en) (some { attendees := some [a] }) with
    | error x => rfl
    | ok segs =>
      simp only [Except.map, ok_bind]
      rw [rename_blockLoop hf]
      cases blockLoop b en tb te a segs acc with
      | error x => rfl
      | ok acc => exact ih acc

theorem rename_blocked (hf : f.Injective) (s : Storage) (atts : List AttId) (b en : DateTime) (tb te : Time) :
    (renameStore f s).getBlockedPeriods (atts.map f) b en tb te = s.getBlockedPeriods atts b en tb te := by
  unfold Storage.getBlockedPeriods
  rw [rename_attendeeBlocks hf]

/-! ### calls -/

theorem rename_getEvent (s : Storage) (uid : Uid) : (renameStore f s).getEvent uid = (s.getEvent uid).map (renameEvent f) := by
  unfold Storage.getEvent renameStore
  simp only [get?_mapValues]
  cases Dict.get? s.events uid <;> rfl

theorem rename_hasEvent (s : Storage) (uid : Uid) : (renameStore f s).hasEvent uid = s.hasEvent uid := by
  unfold Storage.hasEvent
  rw [rename_getEvent]
  cases s.getEvent uid <;> rfl

theorem rename_createEvent (hf : f.Injective) (w : World) (now : DateTime) (uid : Option Uid) (spec : Spec) :
    (renameWorld f w).createEvent now uid (renameSpec f spec) =
      (renameWorld f (w.createEvent now uid spec).1, (w.createEvent now uid spec).2.map (renameEvent f)) := by
  unfold World.createEvent Storage.createEvent
  have h1 : (renameWorld f w).store.autoId now = w.store.autoId now := by
    unfold Storage.autoId
    show addrspecUniqueId now (w.store.id ++ "-" ++ toString (w.store.events.map _).length) w.store.host = _
    rw [List.length_map]
  rw [h1]
  simp only []
  rw [rename_newEvent hf]
  cases newEvent (uid.getD (w.store.autoId now)) spec with
  | error x => rfl
  | ok e =>
    simp only [Except.map, renameWorld, renameStore, set_mapValues, List.map_append, List.map_cons, List.map_nil, renameNote]
    rfl

theorem rename_deleteEvent (w : World) (uid : Uid) :
    (renameWorld f w).deleteEvent uid = (renameWorld f (w.deleteEvent uid).1, (w.deleteEvent uid).2) := by
  unfold World.deleteEvent Storage.deleteEvent
  have h1 : Dict.has (renameWorld f w).store.events uid = Dict.has w.store.events uid := has_mapValues _ _ _
  rw [h1]
  cases Dict.has w.store.events uid with
  | true =>
    simp only [if_true, renameWorld, renameStore, del_mapValues, List.map_append, List.map_cons, List.map_nil, renameNote]
  | false => rfl

theorem rename_onEvent (w : World) (uid : Uid) (m m' : Event → Event × List Note × Res Unit)
    (hm : ∀ e, m' (renameEvent f e) = renameRes f (m e)) :
    (renameWorld f w).onEvent uid m' = (renameWorld f (w.onEvent uid m).1, (w.onEvent uid m).2) := by
  unfold World.onEvent
  have h := rename_getEvent (f := f) w.store uid
  have h1 : (renameWorld f w).store = renameStore f w.store := rfl
  rw [h1, h]
  cases w.store.getEvent uid with
  | error x => rfl
  | ok e =>
    simp only [Except.map]
    rw [hm]
    generalize m e = x
    obtain ⟨e', n, r⟩ := x
    simp only [renameRes, renameWorld, renameStore, set_mapValues, List.map_append]

/-! ### importing -/

theorem rename_fromSpec (hf : f.Injective) (src : Source) (a : AttId) :
    Source.fromSpec (renameKeys f src) (f a) = (Source.fromSpec src a).map f := by
  unfold Source.fromSpec
  rw [has_renameKeys hf]
  split <;> rfl

theorem rename_getAttendee (hf : f.Injective) (src : Source) (a : AttId) :
    Source.getAttendee (renameKeys f src) (f a) = (Source.getAttendee src a).map f := by
  unfold Source.getAttendee
  rw [has_renameKeys hf]
  split <;> rfl

theorem keys_renameKeys {ν : Type} (d : Dict AttId ν) : Dict.keys (renameKeys f d) = (Dict.keys d).map f := by
  unfold Dict.keys renameKeys
  simp [List.map_map, Function.comp_def]

theorem rename_main (hf : f.Injective) (c : Calendar) (src : Source) :
    Calendar.main (renameKeys f c) (renameKeys f src) = (Calendar.main c src).map (·.map f) := by
  unfold Calendar.main Calendar.mainId
  rw [keys_renameKeys, List.head?_map]
  cases (Dict.keys c).head? with
  | none => rfl
  | some a =>
    simp only [Option.map_some]
    rw [rename_getAttendee hf]
    cases Source.getAttendee src a <;> rfl

theorem rename_lookupAll (hf : f.Injective) (src : Source) (l : List AttId) :
    lookupAll (renameKeys f src) (l.map f) = (lookupAll src l).map (·.map f) := by
  induction l with
  | nil => rfl
  | cons a rest ih =>
    rw [List.map_cons]
    unfold lookupAll
    rw [ih, rename_getAttendee hf]
    cases Source.getAttendee src a with
    | error x => rfl
    | ok y =>
      simp only [Except.map, ok_bind]
      cases lookupAll src rest <;> rfl

theorem rename_clone (c : Criteria) (l : List AttId) :
    (renameCriteria f c).clone (attendees := some (l.map f)) = renameCriteria f (c.clone (attendees := some l)) := by
  unfold Criteria.clone renameCriteria
  simp only [Option.or_none]
  cases c.attendees with
  | none => rfl
  | some x => cases x <;> rfl

theorem rename_criteria (hf : f.Injective) (c : Calendar) (src : Source) (cr : Option Criteria) :
    Calendar.criteria (renameKeys f c) (renameKeys f src) (cr.map (renameCriteria f)) =
      (Calendar.criteria c src cr).map (renameCriteria f) := by
  unfold Calendar.criteria Calendar.getAttendees
  rw [keys_renameKeys, rename_lookupAll hf]
  cases lookupAll src (Dict.keys c) with
  | error x => rfl
  | ok l =>
    simp only [Except.map, ok_bind]
    cases cr with
    | none => rfl
    | some cr =>
      simp only [Option.map_some]
      rw [rename_clone]

theorem rename_calendarGetEvents (hf : f.Injective) (c : Calendar) (src : Source) (s : Storage) (b e : Option DateTime)
    (cr : Option Criteria) :
    Calendar.getEvents (renameKeys f c) (renameKeys f src) (renameStore f s) b e (cr.map (renameCriteria f)) =
      (Calendar.getEvents c src s b e cr).map (·.map (renameEvent f)) := by
  unfold Calendar.getEvents
  rw [rename_criteria hf]
  cases Calendar.criteria c src cr with
  | error x => rfl
  | ok cr' =>
    simp only [Except.map, ok_bind]
    exact rename_getEvents hf s b e (some cr')

theorem rename_importOrganizer (hf : f.Injective) (c : Calendar) (src : Source) (v : VEvent) :
    importOrganizer (renameKeys f c) (renameKeys f src) (renameVEvent f v) = (importOrganizer c src v).map (·.map f) := by
  unfold importOrganizer
  have h : (renameVEvent f v).organizer.bind (Source.fromSpec (renameKeys f src)) =
      (v.organizer.bind (Source.fromSpec src)).map f := by
    show (v.organizer.map f).bind _ = _
    cases v.organizer with
    | none => rfl
    | some a => exact rename_fromSpec hf src a
  rw [h]
  cases v.organizer.bind (Source.fromSpec src) with
  | none => exact rename_main hf c src
  | some a => rfl

theorem rename_importSpec (hf : f.Injective) (tz : LocalTz) (c : Calendar) (src : Source) (v : VEvent) :
    importSpec tz (renameKeys f c) (renameKeys f src) (renameVEvent f v) = (importSpec tz c src v).map (renameSpec f) := by
  unfold importSpec
  have h1 : getDtstartDuration tz (renameVEvent f v) = getDtstartDuration tz v := rfl
  have h2 : (renameVEvent f v).rrule = v.rrule := rfl
  rw [h1, h2, rename_importOrganizer hf]
  cases getDtstartDuration tz v with
  | error x => rfl
  | ok y =>
    obtain ⟨x, dur, ad⟩ := y
    simp only [ok_bind]
    cases importOrganizer c src v with
    | error x => rfl
    | ok o =>
      simp only [Except.map, ok_bind]
      cases importRule v.rrule with
      | error x => rfl
      | ok r =>
        simp only [ok_bind]
        have : (renameVEvent f v).attendees.map (importAttendee (renameKeys f src)) =
            (v.attendees.map (importAttendee src)).map (fun x => (x.1.map f, x.2)) := by
          show (v.attendees.map _).map _ = _
          rw [List.map_map, List.map_map]
          refine List.map_congr_left fun a _ => ?_
          simp only [Function.comp_def, importAttendee, rename_fromSpec hf]
        rw [this]
        rfl

/-- Rename the world in the result of a call. -/
def renameStep {α : Type} (f : AttId → AttId) (x : World × Res α) : World × Res α := (renameWorld f x.1, x.2)

theorem rename_importExisting (hf : f.Injective) (w : World) (tz : LocalTz) (c : Calendar) (src : Source) (uid : Uid)
    (v : VEvent) :
    (renameWorld f w).importExisting tz (renameKeys f c) (renameKeys f src) uid (renameVEvent f v) =
      renameStep f (w.importExisting tz c src uid v) := by
  unfold World.importExisting
  have h1 : (renameWorld f w).store = renameStore f w.store := rfl
  rw [h1, rename_getEvent, rename_importSpec hf]
  cases w.store.getEvent uid with
  | error x => rfl
  | ok e =>
    simp only [Except.map]
    cases importSpec tz c src v with
    | error x => rfl
    | ok spec =>
      simp only []
      rw [rename_willModify hf]
      cases spec.willModify e with
      | error x => rfl
      | ok m =>
        cases m with
        | false => rfl
        | true =>
          simp only []
          rw [rename_setOnObject hf]
          generalize spec.setOnObject e = x
          obtain ⟨e', r⟩ := x
          cases r with
          | error x => simp only [renameStep, renameWorld, renameStore, set_mapValues]
          | ok _ =>
            simp only [renameStep, renameWorld, renameStore, set_mapValues, List.map_append, List.map_cons, List.map_nil,
              renameNote]
            rfl

theorem rename_importNew (hf : f.Injective) (w : World) (tz : LocalTz) (c : Calendar) (src : Source) (uid : Uid)
    (v : VEvent) :
    (renameWorld f w).importNew tz (renameKeys f c) (renameKeys f src) uid (renameVEvent f v) =
      renameStep f (w.importNew tz c src uid v) := by
  unfold World.importNew
  rw [rename_importSpec hf]
  cases importSpec tz c src v with
  | error x => rfl
  | ok spec =>
    simp only [Except.map]
    rw [rename_createEvent hf]
    generalize w.createEvent 0 (some uid) spec = x
    obtain ⟨w', r⟩ := x
    cases r <;> rfl

theorem rename_importLoop (hf : f.Injective) (tz : LocalTz) (c : Calendar) (src : Source) (known : List Uid)
    (vs : List VEvent) : ∀ w : World,
    World.importLoop tz (renameKeys f c) (renameKeys f src) known (renameWorld f w) (vs.map (renameVEvent f)) =
      renameStep f (World.importLoop tz c src known w vs) := by
  induction vs with
  | nil => intro w; rfl
  | cons v rest ih =>
    intro w
    rw [List.map_cons]
    unfold World.importLoop
    have h1 : (renameVEvent f v).uid = v.uid := rfl
    rw [h1]
    cases v.uid with
    | none => rfl
    | some uid =>
      simp only []
      have h2 : (if uid ∈ known then (renameWorld f w).importExisting tz (renameKeys f c) (renameKeys f src) uid (renameVEvent f v)
          else if ¬ (renameWorld f w).store.hasEvent uid then
            (renameWorld f w).importNew tz (renameKeys f c) (renameKeys f src) uid (renameVEvent f v)
          else (renameWorld f w, .ok ())) =
          renameStep f (if uid ∈ known then w.importExisting tz c src uid v
            else if ¬ w.store.hasEvent uid then w.importNew tz c src uid v else (w, .ok ())) := by
        have h3 : (renameWorld f w).store.hasEvent uid = w.store.hasEvent uid := rename_hasEvent _ _
        rw [h3, rename_importExisting hf, rename_importNew hf]
        split
        · rfl
        · split <;> rfl
      rw [h2]
      generalize (if uid ∈ known then w.importExisting tz c src uid v
            else if ¬ w.store.hasEvent uid then w.importNew tz c src uid v else (w, .ok ())) = x
      obtain ⟨w', r⟩ := x
      cases r with
      | error x => rfl
      | ok _ =>
        simp only [renameStep]
        rw [ih]
        generalize World.importLoop tz c src known w' rest = x
        obtain ⟨w'', r⟩ := x
        cases r <;> rfl

theorem rename_removeLoop (l : List Uid) : ∀ w : World,
    World.removeLoop (renameWorld f w) l = renameStep f (World.removeLoop w l) := by
  induction l with
  | nil => intro w; rfl
  | cons uid rest ih =>
    intro w
    unfold World.removeLoop
    have h1 : (renameWorld f w).store = renameStore f w.store := rfl
    rw [h1, rename_getEvent]
    cases w.store.getEvent uid with
    | error x => rfl
    | ok e =>
      simp only [Except.map]
      have h2 : (renameEvent f e).uid = e.uid := rfl
      rw [h2, rename_deleteEvent]
      generalize w.deleteEvent e.uid = x
      obtain ⟨w', r⟩ := x
      cases r with
      | error x => rfl
      | ok _ => exact ih w'

theorem rename_import (hf : f.Injective) (w : World) (tz : LocalTz) (c : Calendar) (src : Source) (vs : List VEvent)
    (b e : Option DateTime) (cr : Option Criteria) (sync : Bool) :
    (renameWorld f w).import_ (fun _ => .ok (some (vs.map (renameVEvent f)))) tz (renameKeys f c) (renameKeys f src) [] b e
        (cr.map (renameCriteria f)) sync =
      renameStep f (w.import_ (fun _ => .ok (some vs)) tz c src [] b e cr sync) := by
  unfold World.import_
  have h1 : (renameWorld f w).store = renameStore f w.store := rfl
  simp only []
  rw [h1, rename_calendarGetEvents hf]
  cases Calendar.getEvents c src w.store b e cr with
  | error x => rfl
  | ok events =>
    simp only [Except.map]
    have h2 : (events.map (renameEvent f)).map (·.uid) = events.map (·.uid) := by
      rw [List.map_map]; rfl
    rw [h2, rename_importLoop hf]
    generalize World.importLoop tz c src (events.map (·.uid)).dedup w vs = x
    obtain ⟨w', r⟩ := x
    cases r with
    | error x => rfl
    | ok uids =>
      simp only [renameStep]
      cases sync with
      | false => rfl
      | true => exact rename_removeLoop _ w'

theorem rename_step (hf : f.Injective) (w : World) (op : Op) :
    (renameWorld f w).step (renameOp f op) = renameStep f (w.step op) := by
  cases op with
  | create now uid spec =>
    show dropRes ((renameWorld f w).createEvent now uid (renameSpec f spec)) = renameStep f (dropRes (w.createEvent now uid spec))
    rw [rename_createEvent hf]
    generalize w.createEvent now uid spec = x
    obtain ⟨w', r⟩ := x
    cases r <;> rfl
  | attendeeCreate now a spec =>
    have : (renameWorld f w).attendeeCreateEvent now (f a) (renameSpec f spec) =
        (renameWorld f w).createEvent now none (renameSpec f { spec with organizer := some a }) := rfl
    show dropRes ((renameWorld f w).attendeeCreateEvent now (f a) (renameSpec f spec)) =
      renameStep f (dropRes (w.createEvent now none { spec with organizer := some a }))
    rw [this, rename_createEvent hf]
    generalize w.createEvent now none { spec with organizer := some a } = x
    obtain ⟨w', r⟩ := x
    cases r <;> rfl
  | delete uid =>
    unfold World.step
    simp only [renameOp]
    have h1 : (renameWorld f w).store = renameStore f w.store := rfl
    rw [h1, rename_getEvent]
    cases w.store.getEvent uid with
    | error x => rfl
    | ok e =>
      simp only [Except.map]
      exact rename_deleteEvent w e.uid
  | setStatus uid a st => exact rename_onEvent w uid _ _ (fun e => rename_setStatus hf e a st)
  | setRole uid a role =>
    refine rename_onEvent w uid (fun e => ((e.setRole a role).1, [], (e.setRole a role).2))
      (fun e => ((e.setRole (f a) role).1, [], (e.setRole (f a) role).2)) (fun e => ?_)
    simp only [rename_setRole hf]
    rfl
  | invite uid atts => exact rename_onEvent w uid _ _ (fun e => rename_invite hf atts e)
  | alldayAdjust uid =>
    exact rename_onEvent w uid (fun e => (e.alldayAdjust, [], .ok ())) (fun e => (e.alldayAdjust, [], .ok ()))
      (fun e => by rw [rename_alldayAdjust]; rfl)
  | edit uid spec =>
    refine rename_onEvent w uid (fun e => ((spec.setOnObject e).1, [], (spec.setOnObject e).2))
      (fun e => (((renameSpec f spec).setOnObject e).1, [], ((renameSpec f spec).setOnObject e).2)) (fun e => ?_)
    simp only [rename_setOnObject hf]
    rfl
  | import_ tz c src vs b e cr sync => exact rename_import hf w tz c src vs b e cr sync

theorem rename_run (hf : f.Injective) (ops : List Op) : ∀ w : World,
    (renameWorld f w).run (ops.map (renameOp f)) = renameWorld f (w.run ops) := by
  induction ops with
  | nil => intro w; rfl
  | cons op rest ih =>
    intro w
    rw [List.map_cons]
    unfold World.run
    rw [rename_step hf]
    exact ih _

end CalCore
