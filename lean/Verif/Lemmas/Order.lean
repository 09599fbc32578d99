import Verif.Spec.Order
import Verif.Lemmas.Import
import Verif.Lemmas.Blocked
import Verif.Spec.Store
/- Simulation: what the calls do does not depend on the order of dictionaries. -/
namespace CalCore
open Spec

/-- Two dictionaries with the same entries. -/
structure DEq {κ ν : Type} [DecidableEq κ] (d d' : Dict κ ν) : Prop where
  left : (Dict.keys d).Nodup
  right : (Dict.keys d').Nodup
  get : ∀ k, Dict.get? d k = Dict.get? d' k

section
variable {κ ν : Type} [DecidableEq κ] {d d' d'' : Dict κ ν}

theorem DEq.has (h : DEq d d') (k : κ) : Dict.has d k = Dict.has d' k := by
  rw [Dict.has_eq, Dict.has_eq, h.get]

theorem DEq.set (h : DEq d d') (k : κ) (v : ν) : DEq (Dict.set d k v) (Dict.set d' k v) :=
  ⟨Dict.nodup_set h.left k v, Dict.nodup_set h.right k v, fun k' => by rw [Dict.get?_set, Dict.get?_set, h.get]⟩

theorem DEq.del (h : DEq d d') (k : κ) : DEq (Dict.del d k) (Dict.del d' k) :=
  ⟨Dict.nodup_del h.left k, Dict.nodup_del h.right k, fun k' => by rw [Dict.get?_del, Dict.get?_del, h.get]⟩

theorem DEq.nil : DEq ([] : Dict κ ν) [] := ⟨List.nodup_nil, List.nodup_nil, fun _ => rfl⟩

theorem DEq.trans (h : DEq d d') (h' : DEq d' d'') : DEq d d'' :=
  ⟨h.left, h'.right, fun k => (h.get k).trans (h'.get k)⟩

theorem DEq.symm (h : DEq d d') : DEq d' d := ⟨h.right, h.left, fun k => (h.get k).symm⟩

omit [DecidableEq κ] in
theorem nodup_of_keys (h : (Dict.keys d).Nodup) : d.Nodup := List.Nodup.of_map _ h

theorem DEq.perm (h : DEq d d') : d.Perm d' := by
  rw [List.perm_ext_iff_of_nodup (nodup_of_keys h.left) (nodup_of_keys h.right)]
  rintro ⟨k, v⟩
  rw [Dict.mem_iff_get? h.left, Dict.mem_iff_get? h.right, h.get]

theorem DEq.of_perm (hd : (Dict.keys d).Nodup) (h : d.Perm d') : DEq d d' := by
  have hd' : (Dict.keys d').Nodup := (h.map Prod.fst).nodup_iff.1 hd
  refine ⟨hd, hd', fun k => ?_⟩
  have key : ∀ v, Dict.get? d k = some v ↔ Dict.get? d' k = some v := fun v => by
    rw [← Dict.mem_iff_get? hd, ← Dict.mem_iff_get? hd', h.mem_iff]
  cases hv : Dict.get? d k with
  | some v => exact ((key v).1 hv).symm
  | none =>
    cases hv' : Dict.get? d' k with
    | none => rfl
    | some v => rw [(key v).2 hv'] at hv; cases hv

end

/-- Two events that differ in the order of their dictionaries. -/
inductive Event.Sim : Event → Event → Prop
  | mk (e : Event) (p r : Dict AttId String) : DEq e.pstate p → DEq e.prole r → Event.Sim e { e with pstate := p, prole := r }

theorem Event.Sim.same {e f : Event} (h : e.Sim f) : SameEvent e f := by
  obtain ⟨p, r, hp, hr⟩ := h
  exact ⟨rfl, hp.perm, hr.perm⟩

theorem Event.Sim.of_same {e f : Event} (h : SameEvent e f) (h1 : (Dict.keys e.pstate).Nodup) (h2 : (Dict.keys e.prole).Nodup) :
    e.Sim f := by
  obtain ⟨ha, hs, hr⟩ := h
  have : f = { e with pstate := f.pstate, prole := f.prole } := by
    rw [← ha]
  rw [this]
  exact .mk e _ _ (.of_perm h1 hs) (.of_perm h2 hr)

theorem Event.Sim.trans {e f g : Event} (h : e.Sim f) (h' : f.Sim g) : e.Sim g := by
  obtain ⟨p, r, hp, hr⟩ := h
  obtain ⟨p', r', hp', hr'⟩ := h'
  exact .mk e p' r' (hp.trans hp') (hr.trans hr')

theorem Event.Sim.left_nodup {e f : Event} (h : e.Sim f) : (Dict.keys e.pstate).Nodup ∧ (Dict.keys e.prole).Nodup := by
  obtain ⟨p, r, hp, hr⟩ := h
  exact ⟨hp.left, hr.left⟩

theorem Event.Sim.right_nodup {e f : Event} (h : e.Sim f) : (Dict.keys f.pstate).Nodup ∧ (Dict.keys f.prole).Nodup := by
  obtain ⟨p, r, hp, hr⟩ := h
  exact ⟨hp.right, hr.right⟩

theorem Event.Sim.uid {e f : Event} (h : e.Sim f) : f.uid = e.uid := by
  obtain ⟨p, r, hp, hr⟩ := h
  rfl

theorem Event.Sim.getStatus {e f : Event} (h : e.Sim f) (a : AttId) : f.getStatus a = e.getStatus a := by
  obtain ⟨p, r, hp, hr⟩ := h
  exact (hp.get a).symm

theorem Event.Sim.getRole {e f : Event} (h : e.Sim f) (a : AttId) : f.getRole a = e.getRole a := by
  obtain ⟨p, r, hp, hr⟩ := h
  exact (hr.get a).symm

/-- Corresponding results of methods. -/
def Sim2 {α : Type} (x y : Event × α) : Prop := x.1.Sim y.1 ∧ x.2 = y.2

theorem Event.Sim.setStatusRaw {e f : Event} (h : e.Sim f) (a : AttId) (st : Option String) :
    Sim2 (e.setStatusRaw a st) (f.setStatusRaw a st) := by
  obtain ⟨p, r, hp, hr⟩ := h
  cases st with
  | some s => exact ⟨.mk { e with pstate := Dict.set e.pstate a s } _ _ (hp.set a s) hr, rfl⟩
  | none =>
    unfold Event.setStatusRaw
    simp only []
    rw [← hp.has a, ← hr.has a]
    cases h1 : Dict.has e.pstate a with
    | false => exact ⟨.mk e _ _ hp hr, rfl⟩
    | true =>
      cases h2 : Dict.has e.prole a with
      | false => exact ⟨.mk { e with pstate := Dict.del e.pstate a } _ _ (hp.del a) hr, rfl⟩
      | true => exact ⟨.mk { e with pstate := Dict.del e.pstate a, prole := Dict.del e.prole a } _ _ (hp.del a) (hr.del a), rfl⟩

theorem Event.Sim.setStatus {e f : Event} (h : e.Sim f) (a : AttId) (st : Option String) :
    Sim2 (e.setStatus a st) (f.setStatus a st) := by
  unfold Event.setStatus
  split
  · exact ⟨h, rfl⟩
  · simp only []
    rw [h.getStatus a]
    split
    · exact ⟨h, rfl⟩
    · have hx := h.setStatusRaw a st
      generalize e.setStatusRaw a st = x at hx
      generalize f.setStatusRaw a st = y at hx
      obtain ⟨x1, x2⟩ := x
      obtain ⟨y1, y2⟩ := y
      obtain ⟨hx1, hx2⟩ := hx
      simp only [] at hx1 hx2
      subst hx2
      rw [h.uid]
      cases x2 with
      | ok u => exact ⟨hx1, rfl⟩
      | error f => exact ⟨hx1, rfl⟩

theorem Event.Sim.setRole {e f : Event} (h : e.Sim f) (a : AttId) (role : String) :
    Sim2 (e.setRole a role) (f.setRole a role) := by
  unfold Event.setRole
  split
  · exact ⟨h, rfl⟩
  · obtain ⟨p, r, hp, hr⟩ := h
    exact ⟨.mk { e with prole := Dict.set e.prole a role } _ _ hp (hr.set a role), rfl⟩

theorem Event.Sim.inviteOne {e f : Event} (h : e.Sim f) (a : AttId) : Sim2 (e.inviteOne a) (f.inviteOne a) := by
  unfold Event.inviteOne
  rw [h.getStatus a]
  split
  · have hx := h.setStatus a (some "NEEDS-ACTION")
    generalize e.setStatus a (some "NEEDS-ACTION") = x at hx
    generalize f.setStatus a (some "NEEDS-ACTION") = y at hx
    obtain ⟨x1, x2, x3⟩ := x
    obtain ⟨y1, y2, y3⟩ := y
    obtain ⟨hx1, hx2⟩ := hx
    simp only [Prod.mk.injEq] at hx1 hx2
    obtain ⟨rfl, rfl⟩ := hx2
    cases x3 with
    | error f => exact ⟨hx1, rfl⟩
    | ok u =>
      have hr := hx1.setRole a "REQ-PARTICIPANT"
      exact ⟨hr.1, by simp only [hr.2]⟩
  · exact ⟨h, rfl⟩

theorem Event.Sim.invite (l : List AttId) {e f : Event} (h : e.Sim f) : Sim2 (e.invite l) (f.invite l) := by
  induction l generalizing e f with
  | nil => exact ⟨h, rfl⟩
  | cons a rest ih =>
    unfold Event.invite
    have hx := h.inviteOne a
    generalize e.inviteOne a = x at hx
    generalize f.inviteOne a = y at hx
    obtain ⟨x1, x2, x3⟩ := x
    obtain ⟨y1, y2, y3⟩ := y
    obtain ⟨hx1, hx2⟩ := hx
    simp only [Prod.mk.injEq] at hx1 hx2
    obtain ⟨rfl, rfl⟩ := hx2
    cases x3 with
    | error f => exact ⟨hx1, rfl⟩
    | ok u =>
      have hr := ih hx1
      exact ⟨hr.1, by simp only [hr.2]⟩

theorem Event.Sim.alldayAdjust {e f : Event} (h : e.Sim f) : e.alldayAdjust.Sim f.alldayAdjust := by
  obtain ⟨p, r, hp, hr⟩ := h
  exact .mk e.alldayAdjust p r hp hr

theorem Event.Sim.setAttendees (l : List (Option AttId × String × String)) {e f : Event} (h : e.Sim f) :
    Sim2 (setAttendeesLoop e l) (setAttendeesLoop f l) := by
  induction l generalizing e f with
  | nil => exact ⟨h, rfl⟩
  | cons x rest ih =>
    obtain ⟨a, role, status⟩ := x
    unfold setAttendeesLoop
    split
    · exact ⟨h, rfl⟩
    · cases a with
      | none => exact ⟨h, rfl⟩
      | some a =>
        obtain ⟨p, r, hp, hr⟩ := h
        exact ih (.mk { e with prole := Dict.set e.prole a role, pstate := Dict.set e.pstate a status } _ _
          (hp.set a status) (hr.set a role))

theorem Event.Sim.setOnObject (s : Spec) {e f : Event} (h : e.Sim f) : Sim2 (s.setOnObject e) (s.setOnObject f) := by
  unfold Spec.setOnObject
  apply Event.Sim.setAttendees
  obtain ⟨p, r, hp, hr⟩ := h
  unfold Spec.setOrganizer
  cases s.organizer with
  | none => exact .mk { s.setAttrs e with organizerId := none } p r hp hr
  | some a =>
    exact .mk { s.setAttrs e with pstate := Dict.set e.pstate a "ACCEPTED", prole := Dict.set e.prole a "REQ-PARTICIPANT", organizerId := some a }
      _ _ (hp.set a _) (hr.set a _)

/-- The event made by a constructor has dictionaries without repetitions. -/
theorem newEvent_sim {uid : Uid} {s : Spec} {e : Event} (h : newEvent uid s = .ok e) : e.Sim e := by
  have hb : (blankEvent uid).Sim (blankEvent uid) := .mk (blankEvent uid) [] [] .nil .nil
  have hx := hb.setOnObject s
  unfold newEvent at h
  revert h hx
  generalize s.setOnObject (blankEvent uid) = x
  obtain ⟨x1, x2⟩ := x
  cases x2 with
  | error f => intro h _; cases h
  | ok u =>
    rintro h ⟨hx, _⟩
    simp only [] at hx h
    injection h with h
    rw [← h]
    split
    · exact hx.alldayAdjust
    · exact hx

theorem Event.Sim.willModify (s : Spec) {e f : Event} (h : e.Sim f) : s.willModify f = s.willModify e := by
  have hl : ∀ l, willModifyLoop f l = willModifyLoop e l := by
    intro l
    induction l with
    | nil => rfl
    | cons x rest ih =>
      obtain ⟨a, role, status⟩ := x
      cases a with
      | none => rfl
      | some a =>
        unfold willModifyLoop
        simp only [h.getStatus, h.getRole, ih]
  unfold Spec.willModify
  simp only [h.getStatus, h.getRole, hl]
  obtain ⟨p, r, hp, hr⟩ := h
  rfl

theorem Event.Sim.match (c : Criteria) {e f : Event} (h : e.Sim f) : c.match f = c.match e := by
  have hl : ∀ st rl l, matchAttendees st rl f l = matchAttendees st rl e l := by
    intro st rl l
    induction l with
    | nil => rfl
    | cons a rest ih =>
      have hh : f.hasAttendee a = e.hasAttendee a := by unfold Event.hasAttendee; rw [h.getStatus]
      unfold matchAttendees
      rw [hh, ih, h.getStatus, h.getRole]
  unfold Criteria.match
  simp only [hl]
  obtain ⟨p, r, hp, hr⟩ := h
  rfl

theorem Event.Sim.blocks {e f : Event} (h : e.Sim f) (a : AttId) : CalCore.blocks f a = CalCore.blocks e a := by
  unfold CalCore.blocks
  rw [h.getStatus]
  obtain ⟨p, r, hp, hr⟩ := h
  rfl

theorem rel_isSome {α β : Type} {R : α → β → Prop} {x : Option α} {y : Option β} (h : Option.Rel R x y) :
    x.isSome = y.isSome := by
  cases h <;> rfl

/-! ### Storages -/

/-- Two storages that differ in the order of all dictionaries. -/
structure Storage.Sim (s t : Storage) : Prop where
  id : s.id = t.id
  host : s.host = t.host
  left : s.WF
  right : t.WF
  get : ∀ u, Option.Rel Event.Sim (Dict.get? s.events u) (Dict.get? t.events u)

theorem Storage.Sim.keys {s t : Storage} (h : s.Sim t) : (Dict.keys s.events).Perm (Dict.keys t.events) := by
  rw [List.perm_ext_iff_of_nodup h.left.nodup h.right.nodup]
  intro u
  rw [← Dict.has_iff_mem_keys, ← Dict.has_iff_mem_keys, Dict.has_eq, Dict.has_eq, rel_isSome (h.get u)]

theorem Storage.Sim.length {s t : Storage} (h : s.Sim t) : s.events.length = t.events.length := by
  have := h.keys.length_eq
  simpa [Dict.keys] using this

theorem Storage.Sim.has {s t : Storage} (h : s.Sim t) (u : Uid) : Dict.has s.events u = Dict.has t.events u := by
  rw [Dict.has_eq, Dict.has_eq, rel_isSome (h.get u)]

theorem Storage.Sim.autoId {s t : Storage} (h : s.Sim t) (now : Int) : t.autoId now = s.autoId now := by
  unfold Storage.autoId
  rw [h.id, h.host, h.length]

theorem Storage.Sim.hasEvent {s t : Storage} (h : s.Sim t) (u : Uid) : t.hasEvent u = s.hasEvent u := by
  unfold Storage.hasEvent Storage.getEvent
  have hg := h.get u
  revert hg
  cases Dict.get? s.events u <;> cases Dict.get? t.events u <;> intro hg <;> first | rfl | cases hg

theorem Storage.Sim.set {s t : Storage} (h : s.Sim t) {u : Uid} {e f : Event} (he : e.Sim f) (hu : e.uid = u) :
    Storage.Sim { s with events := Dict.set s.events u e } { t with events := Dict.set t.events u f } := by
  have key : ∀ (s : Storage) (e : Event), s.WF → e.uid = u → Storage.WF { s with events := Dict.set s.events u e } := by
    intro s e hs hu
    refine ⟨Dict.nodup_set hs.nodup u e, fun k x hx => ?_⟩
    simp only [] at hx
    rw [Dict.get?_set] at hx
    split at hx
    · rename_i hk; injection hx with hx; rw [← hx, hu, hk]
    · exact hs.uid k x hx
  refine ⟨h.id, h.host, key s e h.left hu, key t f h.right (he.uid.trans hu), fun k => ?_⟩
  simp only []
  rw [Dict.get?_set, Dict.get?_set]
  split
  · exact .some he
  · exact h.get k

theorem Storage.Sim.del {s t : Storage} (h : s.Sim t) (u : Uid) :
    Storage.Sim { s with events := Dict.del s.events u } { t with events := Dict.del t.events u } := by
  have key : ∀ (s : Storage), s.WF → Storage.WF { s with events := Dict.del s.events u } := by
    intro s hs
    refine ⟨Dict.nodup_del hs.nodup u, fun k x hx => ?_⟩
    simp only [] at hx
    rw [Dict.get?_del] at hx
    split at hx
    · cases hx
    · exact hs.uid k x hx
  refine ⟨h.id, h.host, key s h.left, key t h.right, fun k => ?_⟩
  simp only []
  rw [Dict.get?_del, Dict.get?_del]
  split
  · exact .none
  · exact h.get k

/-! ### Calls -/

/-- Logs with the same entries; equal if `strict`. -/
structure LogRel (strict : Prop) (l l' : List Note) : Prop where
  perm : l.Perm l'
  eq : strict → l = l'

theorem LogRel.append {strict : Prop} {l l' : List Note} (h : LogRel strict l l') (m : List Note) :
    LogRel strict (l ++ m) (l' ++ m) := ⟨h.perm.append_right m, fun hs => by rw [h.eq hs]⟩

/-- Corresponding worlds. -/
structure World.Sim (strict : Prop) (w v : World) : Prop where
  store : w.store.Sim v.store
  log : LogRel strict w.log v.log

/-- Corresponding results of calls. -/
def SimStep {α : Type} (strict : Prop) (x y : World × Res α) : Prop := x.1.Sim strict y.1 ∧ x.2 = y.2

theorem World.Sim.createEvent {strict : Prop} {w v : World} (h : w.Sim strict v) (now : Int) (uid : Option Uid) (spec : Spec) :
    SimStep strict (w.createEvent now uid spec) (v.createEvent now uid spec) := by
  unfold World.createEvent Storage.createEvent
  rw [h.store.autoId now]
  simp only []
  cases hn : newEvent (uid.getD (w.store.autoId now)) spec with
  | error f => exact ⟨⟨h.store, h.log⟩, rfl⟩
  | ok e => exact ⟨⟨h.store.set (newEvent_sim hn) (newEvent_uid hn), h.log.append _⟩, rfl⟩

theorem World.Sim.deleteEvent {strict : Prop} {w v : World} (h : w.Sim strict v) (uid : Uid) :
    SimStep strict (w.deleteEvent uid) (v.deleteEvent uid) := by
  unfold World.deleteEvent Storage.deleteEvent
  rw [← h.store.has uid]
  cases Dict.has w.store.events uid with
  | false => exact ⟨⟨h.store, h.log⟩, rfl⟩
  | true => exact ⟨⟨h.store.del uid, h.log.append _⟩, rfl⟩

theorem World.Sim.getEvent {strict : Prop} {w v : World} (h : w.Sim strict v) (uid : Uid) :
    (∃ f, w.store.getEvent uid = .error f ∧ v.store.getEvent uid = .error f) ∨
    ∃ e e', w.store.getEvent uid = .ok e ∧ v.store.getEvent uid = .ok e' ∧ e.Sim e' ∧ e.uid = uid := by
  unfold Storage.getEvent
  have hg := h.store.get uid
  have hw := h.store.left.uid uid
  revert hg hw
  cases Dict.get? w.store.events uid <;> cases Dict.get? v.store.events uid <;> intro hg hw
  · exact Or.inl ⟨_, rfl, rfl⟩
  · cases hg
  · cases hg
  · cases hg with
    | some hg => exact Or.inr ⟨_, _, rfl, rfl, hg, hw _ rfl⟩

theorem World.Sim.onEvent {strict : Prop} {w v : World} (h : w.Sim strict v) (uid : Uid) (f : Event → Event × List Note × Res Unit)
    (hf : ∀ e e' : Event, e.Sim e' → Sim2 (f e) (f e')) (hu : ∀ e, (f e).1.uid = e.uid) :
    SimStep strict (w.onEvent uid f) (v.onEvent uid f) := by
  unfold World.onEvent
  rcases h.getEvent uid with ⟨x, h1, h2⟩ | ⟨e, e', h1, h2, he, hue⟩
  · rw [h1, h2]; exact ⟨h, rfl⟩
  · rw [h1, h2]
    simp only []
    have hx := hf e e' he
    have hu' := (hu e).trans hue
    generalize f e = x at hx hu'
    generalize f e' = y at hx
    obtain ⟨x1, x2, x3⟩ := x
    obtain ⟨y1, y2, y3⟩ := y
    obtain ⟨hx1, hx2⟩ := hx
    simp only [Prod.mk.injEq] at hx1 hx2 hu'
    obtain ⟨rfl, rfl⟩ := hx2
    exact ⟨⟨h.store.set hx1 hu', h.log.append _⟩, rfl⟩

/-! ### Lists in another order -/

section
variable {α β γ δ : Type} {R : α → β → Prop} {S : γ → δ → Prop}

theorem Spec.Reordered.of_forall {l : List α} {l' : List β} (h : List.Forall₂ R l l') : Reordered R l l' := ⟨l, List.Perm.refl _, h⟩

theorem Spec.Reordered.append {l m : List α} {l' m' : List β} (h : Reordered R l l') (h' : Reordered R m m') :
    Reordered R (l ++ m) (l' ++ m') := by
  obtain ⟨x, hx, hf⟩ := h
  obtain ⟨y, hy, hg⟩ := h'
  exact ⟨x ++ y, hx.append hy, List.rel_append hf hg⟩

theorem Spec.Reordered.perm_left {l m : List α} {l' : List β} (h : Reordered R m l') (hp : l.Perm m) : Reordered R l l' := by
  obtain ⟨x, hx, hf⟩ := h
  exact ⟨x, hp.trans hx, hf⟩

theorem Spec.Reordered.mono {R' : α → β → Prop} (hr : ∀ a b, R a b → R' a b) {l : List α} {l' : List β} (h : Reordered R l l') :
    Reordered R' l l' := by
  obtain ⟨x, hx, hf⟩ := h
  exact ⟨x, hx, hf.imp hr⟩

theorem Spec.Reordered.map {f : α → γ} {g : β → δ} (hr : ∀ a b, R a b → S (f a) (g b)) {l : List α} {l' : List β}
    (h : Reordered R l l') : Reordered S (l.map f) (l'.map g) := by
  obtain ⟨x, hx, hf⟩ := h
  refine ⟨x.map f, hx.map f, ?_⟩
  clear hx
  induction hf with
  | nil => exact .nil
  | cons h _ ih => exact .cons (hr _ _ h) ih

theorem Spec.Reordered.filter {p : α → Bool} {q : β → Bool} (hr : ∀ a b, R a b → p a = q b) {l : List α} {l' : List β}
    (h : Reordered R l l') : Reordered R (l.filter p) (l'.filter q) := by
  obtain ⟨x, hx, hf⟩ := h
  refine ⟨x.filter p, hx.filter p, ?_⟩
  clear hx
  induction hf with
  | nil => exact .nil
  | @cons a b _ _ h _ ih =>
    rw [List.filter_cons, List.filter_cons, hr _ _ h]
    split
    · exact .cons h ih
    · exact ih

theorem Spec.Reordered.mem {l : List α} {l' : List β} (h : Reordered R l l') {b : β} (hb : b ∈ l') : ∃ a ∈ l, R a b := by
  obtain ⟨x, hx, hf⟩ := h
  have : ∃ a ∈ x, R a b := by
    clear hx
    induction hf with
    | nil => cases hb
    | @cons a b' l₁ l₂ h _ ih =>
      rcases List.mem_cons.1 hb with rfl | hb
      · exact ⟨a, List.mem_cons_self .., h⟩
      · obtain ⟨a', ha', hr⟩ := ih hb
        exact ⟨a', List.mem_cons_of_mem _ ha', hr⟩
  obtain ⟨a, ha, hr⟩ := this
  exact ⟨a, hx.mem_iff.2 ha, hr⟩

theorem Spec.Reordered.mem' {l : List α} {l' : List β} (h : Reordered R l l') {a : α} (ha : a ∈ l) : ∃ b ∈ l', R a b := by
  obtain ⟨x, hx, hf⟩ := h
  have ha := hx.mem_iff.1 ha
  clear hx
  induction hf with
  | nil => cases ha
  | @cons a' b l₁ l₂ h _ ih =>
    rcases List.mem_cons.1 ha with rfl | ha
    · exact ⟨b, List.mem_cons_self .., h⟩
    · obtain ⟨b', hb', hr⟩ := ih ha
      exact ⟨b', List.mem_cons_of_mem _ hb', hr⟩

/-- The loops of the queries: the results of `f` one after the other. -/
def concatM (f : α → Res (List γ)) : List α → Res (List γ)
  | [] => .ok []
  | a :: rest => do
    let here ← f a
    let more ← concatM f rest
    .ok (here ++ more)

theorem Spec.SameAnswer.cons {x : Res (List γ)} {x' : Res (List δ)} {y : Res (List γ)} {y' : Res (List δ)}
    (h : SameAnswer S x x') (h' : SameAnswer S y y') :
    SameAnswer S (x >>= fun here => y >>= fun more => .ok (here ++ more))
      (x' >>= fun here => y' >>= fun more => .ok (here ++ more)) := by
  rcases h with ⟨l, l', rfl, rfl, hl⟩ | ⟨f, f', rfl, rfl⟩
  · rcases h' with ⟨m, m', rfl, rfl, hm⟩ | ⟨f, f', rfl, rfl⟩
    · exact Or.inl ⟨_, _, rfl, rfl, hl.append hm⟩
    · exact Or.inr ⟨_, _, rfl, rfl⟩
  · exact Or.inr ⟨_, _, rfl, rfl⟩

theorem concatM_cases (f : α → Res (List γ)) (l : List α) :
    ((∀ a ∈ l, ∃ x, f a = .ok x) ∧ concatM f l = .ok (l.flatMap fun a => (f a).toOption.getD [])) ∨
    ((∃ a ∈ l, ∃ x, f a = .error x) ∧ ∃ x, concatM f l = .error x) := by
  induction l with
  | nil => exact Or.inl ⟨fun _ h => absurd h List.not_mem_nil, rfl⟩
  | cons a rest ih =>
    unfold concatM
    cases ha : f a with
    | error x => exact Or.inr ⟨⟨a, List.mem_cons_self .., x, ha⟩, x, rfl⟩
    | ok here =>
      rcases ih with ⟨h1, h2⟩ | ⟨⟨b, hb, hx⟩, x, h2⟩
      · refine Or.inl ⟨fun b hb => ?_, ?_⟩
        · rcases List.mem_cons.1 hb with rfl | hb
          · exact ⟨here, ha⟩
          · exact h1 b hb
        · rw [h2, List.flatMap_cons, ha]; rfl
      · exact Or.inr ⟨⟨b, List.mem_cons_of_mem _ hb, hx⟩, x, by rw [h2]; rfl⟩

theorem Spec.SameAnswer.concatM {f : α → Res (List γ)} {g : β → Res (List δ)} (hr : ∀ a b, R a b → SameAnswer S (f a) (g b))
    {l : List α} {l' : List β} (h : Reordered R l l') : SameAnswer S (concatM f l) (CalCore.concatM g l') := by
  obtain ⟨x, hx, hf⟩ := h
  have h2 : SameAnswer S (CalCore.concatM f x) (CalCore.concatM g l') := by
    clear hx
    induction hf with
    | nil => exact Or.inl ⟨[], [], rfl, rfl, Reordered.of_forall .nil⟩
    | cons h _ ih => exact (hr _ _ h).cons ih
  rcases concatM_cases f l with ⟨h3, h4⟩ | ⟨⟨a, ha, y, hy⟩, z, h4⟩
  · rcases concatM_cases f x with ⟨h5, h6⟩ | ⟨⟨a, ha, y, hy⟩, _⟩
    · rcases h2 with ⟨m, m', h7, h8, hm⟩ | ⟨_, _, h7, _⟩
      · rw [h6] at h7
        injection h7 with h7
        refine Or.inl ⟨_, _, h4, h8, hm.perm_left ?_⟩
        rw [← h7]
        exact hx.flatMap_right _
      · rw [h6] at h7; cases h7
    · obtain ⟨v, hv⟩ := h3 a (hx.mem_iff.2 ha)
      rw [hv] at hy; cases hy
  · rcases concatM_cases f x with ⟨h5, h6⟩ | ⟨_, v, h6⟩
    · obtain ⟨v, hv⟩ := h5 a (hx.mem_iff.1 ha)
      rw [hv] at hy; cases hy
    · rcases h2 with ⟨_, _, h7, _⟩ | ⟨_, v', _, h8⟩
      · rw [h6] at h7; cases h7
      · exact Or.inr ⟨_, _, h4, h8⟩

theorem Spec.SameAnswer.of_bind {x : Res (List α)} {x' : Res (List β)} {f : List α → Res (List γ)} {g : List β → Res (List δ)}
    (h : SameAnswer R x x') (hf : ∀ l l', Reordered R l l' → SameAnswer S (f l) (g l')) : SameAnswer S (x >>= f) (x' >>= g) := by
  rcases h with ⟨l, l', rfl, rfl, hl⟩ | ⟨f, f', rfl, rfl⟩
  · exact hf l l' hl
  · exact Or.inr ⟨_, _, rfl, rfl⟩

theorem Spec.SameAnswer.mono {R' : α → β → Prop} (hr : ∀ a b, R a b → R' a b) {x : Res (List α)} {x' : Res (List β)}
    (h : SameAnswer R x x') : SameAnswer R' x x' := by
  rcases h with ⟨l, l', h1, h2, hl⟩ | h
  · exact Or.inl ⟨l, l', h1, h2, hl.mono hr⟩
  · exact Or.inr h

end

theorem filterInPeriod_eq (b e : Option DateTime) (l : List Event) : filterInPeriod b e l =
    concatM (fun ev : Event => inPeriod ev.dtstart ev.duration b e >>= fun keep => .ok (if keep then [ev] else [])) l := by
  induction l with
  | nil => rfl
  | cons ev rest ih =>
    unfold filterInPeriod concatM
    rw [ih]
    cases inPeriod ev.dtstart ev.duration b e with
    | error x => rfl
    | ok keep => cases keep <;> rfl

theorem expandAll_eq (b e : DateTime) (l : List Event) : expandAll b e l = concatM (fun ev => ev.expand b e) l := by
  induction l with
  | nil => rfl
  | cons ev rest ih => unfold expandAll concatM; rw [ih]

theorem segmentOccurrences_eq {α : Type} (b e : DateTime) (l : List (Occurrence α)) :
    segmentOccurrences b e l = concatM (fun o => segmentOne b e o) l := by
  induction l with
  | nil => rfl
  | cons ev rest ih => unfold segmentOccurrences concatM; rw [ih]

theorem lookupAll_eq (src : Source) (l : List AttId) :
    lookupAll src l = concatM (fun a => src.getAttendee a >>= fun x => .ok [x]) l := by
  induction l with
  | nil => rfl
  | cons a rest ih =>
    unfold lookupAll concatM
    rw [ih]
    cases src.getAttendee a <;> rfl

theorem exportAll_eq (order : Finset String → List String) (l : List Event) :
    exportAll order l = concatM (fun e => e.export false order >>= fun x => .ok [x]) l := by
  induction l with
  | nil => rfl
  | cons a rest ih =>
    unfold exportAll concatM
    rw [ih]
    cases a.export false order <;> rfl

/-! ### Queries -/

/-- Corresponding occurrences. -/
structure OccSim (o p : Occurrence Event) : Prop where
  dtstart : o.dtstart = p.dtstart
  duration : o.duration = p.duration
  original : o.original.Sim p.original

/-- Corresponding answers in the same order, or the same exception. -/
inductive RelRes {α β : Type} (R : α → β → Prop) : Res (List α) → Res (List β) → Prop
  | ok {l : List α} {l' : List β} : List.Forall₂ R l l' → RelRes R (.ok l) (.ok l')
  | error (f : Fault) : RelRes R (.error f) (.error f)

theorem RelRes.same {α β : Type} {R : α → β → Prop} {x : Res (List α)} {y : Res (List β)} (h : RelRes R x y) : SameAnswer R x y := by
  cases h with
  | ok h => exact Or.inl ⟨_, _, rfl, rfl, .of_forall h⟩
  | error f => exact Or.inr ⟨_, _, rfl, rfl⟩

theorem Event.Sim.occAt {e f : Event} (h : e.Sim f) (t b en : Int) : RelRes OccSim (e.occAt t b en) (f.occAt t b en) := by
  have h' := h
  obtain ⟨p, r, hp, hr⟩ := h
  unfold Event.occAt
  simp only []
  cases inPeriod t e.duration (some b) (some en) with
  | error x => exact .error x
  | ok keep =>
    cases keep with
    | false => exact .ok .nil
    | true =>
      simp only [ok_bind, if_true]
      split
      · exact .ok (.cons ⟨rfl, rfl, h'⟩ .nil)
      · exact .error _

theorem Event.Sim.dtstart {e f : Event} (h : e.Sim f) : f.dtstart = e.dtstart := by
  obtain ⟨p, r, hp, hr⟩ := h
  rfl

theorem Event.Sim.recurrence {e f : Event} (h : e.Sim f) : f.recurrence = e.recurrence := by
  obtain ⟨p, r, hp, hr⟩ := h
  rfl

theorem Event.Sim.expandLoop {e f : Event} (h : e.Sim f) (b en : Int) (l : List Date) :
    RelRes OccSim (e.expandLoop b en l) (f.expandLoop b en l) := by
  induction l with
  | nil => exact .ok .nil
  | cons d rest ih =>
    unfold Event.expandLoop
    rw [h.dtstart]
    have h1 := h.occAt (combine d (dtTime e.dtstart)) b en
    generalize e.occAt (combine d (dtTime e.dtstart)) b en = x at h1
    generalize f.occAt (combine d (dtTime e.dtstart)) b en = y at h1
    generalize e.expandLoop b en rest = x' at ih
    generalize f.expandLoop b en rest = y' at ih
    cases h1 with
    | error f => exact .error f
    | ok h1 =>
      cases ih with
      | error f => exact .error f
      | ok ih => exact .ok (List.rel_append h1 ih)

theorem Event.Sim.expand {e f : Event} (h : e.Sim f) (b en : Int) : RelRes OccSim (e.expand b en) (f.expand b en) := by
  unfold Event.expand
  rw [h.dtstart, h.recurrence]
  cases e.recurrence with
  | none => exact h.occAt _ _ _
  | some r =>
    simp only []
    have h1 := h.expandLoop b en (r.apply e.dtstart (some (dtDate en))).1
    generalize e.expandLoop b en (r.apply e.dtstart (some (dtDate en))).1 = x at h1
    generalize f.expandLoop b en (r.apply e.dtstart (some (dtDate en))).1 = y at h1
    generalize (r.apply e.dtstart (some (dtDate en))).2 = z
    cases h1 with
    | error f => exact .error f
    | ok h1 =>
      cases z with
      | error f => exact .error f
      | ok u => exact .ok h1

theorem sim_popLoop {e f : Event} (h : e.Sim f) (b en : Int) (l : List DateTime) : ∀ t,
    RelRes OccSim (popLoop b en e t l) (popLoop b en f t l) := by
  induction l with
  | nil => intro t; exact .ok .nil
  | cons s rest ih =>
    intro t
    unfold popLoop
    have ih := ih s
    generalize popLoop b en e s rest = x at ih
    generalize popLoop b en f s rest = y at ih
    cases inPeriod s (some (t - s)) (some b) (some en) with
    | error x => exact .error x
    | ok keep =>
      cases ih with
      | error f => exact .error f
      | ok ih =>
        cases keep with
        | false => exact .ok ih
        | true => exact .ok (.cons ⟨rfl, rfl, h⟩ ih)

theorem sim_segmentOne {o p : Occurrence Event} (h : OccSim o p) (b en : Int) :
    RelRes OccSim (segmentOne b en o) (segmentOne b en p) := by
  unfold segmentOne
  rw [← h.dtstart, ← h.duration]
  simp only []
  cases dtAdd o.dtstart o.duration with
  | error x => exact .error x
  | ok y =>
    simp only [ok_bind]
    cases borderLoop en y ((en / DAY - (if o.dtstart < b then b else o.dtstart) / DAY).toNat + 2)
        (if o.dtstart < b then b else o.dtstart) with
    | error x => exact .error x
    | ok inner =>
      simp only [ok_bind]
      cases (bordersOf b en o.dtstart y inner).reverse with
      | nil => exact .ok .nil
      | cons e rest => exact sim_popLoop h.original _ _ _ _

theorem keys_forall {R : Event → Event → Prop} {m l : Dict Uid Event}
    (h : List.Forall₂ (fun p q : Uid × Event => p.1 = q.1 ∧ R p.2 q.2) m l) : Dict.keys m = Dict.keys l := by
  unfold Dict.keys
  induction h with
  | nil => rfl
  | cons h _ ih => rw [List.map_cons, List.map_cons, h.1, ih]

/-- The entries of the two dictionaries correspond. -/
theorem Storage.Sim.reordered {s t : Storage} (h : s.Sim t) :
    Reordered (fun p q : Uid × Event => p.1 = q.1 ∧ p.2.Sim q.2) s.events t.events := by
  let m : List (Uid × Event) := t.events.filterMap fun q => (Dict.get? s.events q.1).map fun e => (q.1, e)
  have hm : List.Forall₂ (fun p q : Uid × Event => p.1 = q.1 ∧ p.2.Sim q.2) m t.events := by
    have hall : ∀ q ∈ t.events, ∃ e, Dict.get? s.events q.1 = some e ∧ e.Sim q.2 := by
      rintro ⟨k, f⟩ hq
      have hf := (Dict.mem_iff_get? h.right.nodup _ _).1 hq
      have hg := h.get k
      rw [hf] at hg
      revert hg
      cases Dict.get? s.events k with
      | none => intro hg; cases hg
      | some e => intro hg; cases hg with | some hg => exact ⟨e, rfl, hg⟩
    show List.Forall₂ _ (t.events.filterMap _) t.events
    generalize t.events = l at hall
    induction l with
    | nil => exact .nil
    | cons q rest ih =>
      obtain ⟨e, he, hs⟩ := hall q (List.mem_cons_self ..)
      rw [List.filterMap_cons, he]
      exact .cons ⟨rfl, hs⟩ (ih fun q hq => hall q (List.mem_cons_of_mem _ hq))
  have hk : Dict.keys m = Dict.keys t.events := keys_forall hm
  have hn : (Dict.keys m).Nodup := by rw [hk]; exact h.right.nodup
  refine ⟨m, ?_, hm⟩
  rw [List.perm_ext_iff_of_nodup (nodup_of_keys h.left.nodup) (nodup_of_keys hn)]
  rintro ⟨k, e⟩
  rw [Dict.mem_iff_get? h.left.nodup]
  constructor
  · intro hg
    have hx := h.get k
    rw [hg] at hx
    have : k ∈ Dict.keys t.events := by
      rw [← Dict.has_iff_mem_keys, Dict.has_eq, ← rel_isSome hx]; rfl
    obtain ⟨q, hq, rfl⟩ := List.mem_map.1 this
    exact List.mem_filterMap.2 ⟨q, hq, by rw [hg]; rfl⟩
  · intro hm
    obtain ⟨q, hq, hh⟩ := List.mem_filterMap.1 hm
    cases hg : Dict.get? s.events q.1 with
    | none => rw [hg] at hh; cases hh
    | some e' =>
      rw [hg] at hh
      injection hh with hh
      injection hh with h1 h2
      rw [← h1, ← h2, hg]

theorem Storage.Sim.same {s t : Storage} (h : s.Sim t) : SameStore s t :=
  ⟨h.id, h.host, h.reordered.mono fun _ _ hh => ⟨hh.1, hh.2.same⟩⟩

theorem get?_forall {R : Event → Event → Prop} {m l : Dict Uid Event}
    (h : List.Forall₂ (fun p q : Uid × Event => p.1 = q.1 ∧ R p.2 q.2) m l) (k : Uid) :
    Option.Rel R (Dict.get? m k) (Dict.get? l k) := by
  induction h with
  | nil => exact .none
  | cons h _ ih =>
    rw [Dict.get?_cons, Dict.get?_cons, h.1]
    split
    · exact .some h.2
    · exact ih

/-- Reordering a storage with proper dictionaries. -/
theorem Storage.Sim.shuffle {s t : Storage} (h : s.Sim s) (hs : SameStore s t) : s.Sim t := by
  obtain ⟨h1, h2, m, hp, hf⟩ := hs
  have hd := DEq.of_perm h.left.nodup hp
  have hk : Dict.keys m = Dict.keys t.events := keys_forall hf
  have hg : ∀ u, Option.Rel Event.Sim (Dict.get? s.events u) (Dict.get? t.events u) := by
    intro u
    have hx := get?_forall hf u
    have hy := h.get u
    rw [hd.get] at hy ⊢
    revert hx hy
    cases Dict.get? m u with
    | none => cases Dict.get? t.events u <;> intro hx _ <;> cases hx; exact .none
    | some e =>
      cases Dict.get? t.events u with
      | none => intro hx; cases hx
      | some f =>
        intro hx hy
        cases hx with
        | some hx => cases hy with | some hy => exact .some (.of_same hx hy.left_nodup.1 hy.left_nodup.2)
  refine ⟨h1, h2, h.left, ⟨?_, ?_⟩, hg⟩
  · rw [← hk]; exact hd.right
  · intro u f hu
    have := hg u
    rw [hu] at this
    revert this
    cases hgs : Dict.get? s.events u with
    | none => intro this; cases this
    | some e =>
      intro this
      cases this with
      | some this => rw [this.uid]; exact h.left.uid _ _ hgs

theorem Storage.Sim.matching {s t : Storage} (h : s.Sim t) {c c' : Option Criteria}
    (hc : ∀ e : Event, (c'.getD {}).match e = (c.getD {}).match e) :
    Reordered Event.Sim (s.matching c) (t.matching c') := by
  unfold Storage.matching
  refine Reordered.filter (fun e f he => ?_) (h.reordered.map (S := Event.Sim) fun _ _ hh => hh.2)
  rw [hc, he.match]

theorem Storage.Sim.getEvents {s t : Storage} (h : s.Sim t) (b e : Option DateTime) {c c' : Option Criteria}
    (hc : ∀ e : Event, (c'.getD {}).match e = (c.getD {}).match e) :
    SameAnswer Event.Sim (s.getEvents b e c) (t.getEvents b e c') := by
  unfold Storage.getEvents
  rw [filterInPeriod_eq, filterInPeriod_eq]
  refine SameAnswer.concatM (fun x y hxy => ?_) (h.matching hc)
  have h' := hxy
  obtain ⟨p, r, hp, hr⟩ := hxy
  simp only []
  cases inPeriod x.dtstart x.duration b e with
  | error f => exact Or.inr ⟨_, _, rfl, rfl⟩
  | ok keep =>
    cases keep with
    | false => exact Or.inl ⟨_, _, rfl, rfl, .of_forall .nil⟩
    | true => exact Or.inl ⟨_, _, rfl, rfl, .of_forall (.cons h' .nil)⟩

theorem Storage.Sim.getOccurrences {s t : Storage} (h : s.Sim t) (b e : Option DateTime) {c c' : Option Criteria}
    (hc : ∀ e : Event, (c'.getD {}).match e = (c.getD {}).match e) :
    SameAnswer OccSim (s.getOccurrences b e c) (t.getOccurrences b e c') := by
  unfold Storage.getOccurrences
  cases b with
  | none => exact Or.inr ⟨_, _, rfl, rfl⟩
  | some b =>
    cases e with
    | none => exact Or.inr ⟨_, _, rfl, rfl⟩
    | some e =>
      simp only []
      rw [expandAll_eq, expandAll_eq]
      exact SameAnswer.concatM (fun x y hxy => (hxy.expand b e).same) (h.matching hc)

theorem sim_segments (b e : DateTime) {l l' : List (Occurrence Event)} (h : Reordered OccSim l l') :
    SameAnswer OccSim (segmentOccurrences b e l) (segmentOccurrences b e l') := by
  rw [segmentOccurrences_eq, segmentOccurrences_eq]
  exact SameAnswer.concatM (R := OccSim) (fun x y hxy => (sim_segmentOne hxy b e).same) h

theorem Storage.Sim.getOccurrencesSegmented {s t : Storage} (h : s.Sim t) (b e : Option DateTime) {c c' : Option Criteria}
    (hc : ∀ e : Event, (c'.getD {}).match e = (c.getD {}).match e) :
    SameAnswer OccSim (s.getOccurrencesSegmented b e c) (t.getOccurrencesSegmented b e c') := by
  unfold Storage.getOccurrencesSegmented
  refine SameAnswer.of_bind (h.getOccurrences b e hc) fun l l' hl => ?_
  cases b with
  | none => exact Or.inr ⟨_, _, rfl, rfl⟩
  | some b =>
    cases e with
    | none => exact Or.inr ⟨_, _, rfl, rfl⟩
    | some e => exact sim_segments b e hl

theorem matchAttendees_perm (st rl : Option String) (e : Event) {l l' : List AttId} (h : l.Perm l') :
    matchAttendees st rl e l' = matchAttendees st rl e l := by
  rw [Bool.eq_iff_iff, matchAttendees_iff, matchAttendees_iff]
  simp only [h.mem_iff]

/-- Only the attendees are in another order. -/
theorem match_attendees (k : Criteria) {l l' : List AttId} (h : l.Perm l') (e : Event) :
    ({ k with attendees := some l' } : Criteria).match e = ({ k with attendees := some l } : Criteria).match e := by
  unfold Criteria.match
  simp only [matchAttendees_perm _ _ _ h]

theorem match_clone (cr : Criteria) {l l' : List AttId} (h : l.Perm l') (e : Event) :
    (cr.clone (attendees := some l')).match e = (cr.clone (attendees := some l)).match e := by
  rcases cr with ⟨atts, s, r, c, o⟩
  rcases atts with _ | _ | _
  · exact match_attendees ((⟨none, s, r, c, o⟩ : Criteria).clone) h e
  · exact match_attendees ((⟨none, s, r, c, o⟩ : Criteria).clone) h e
  · rfl

/-- The criteria of a calendar with its dictionary in another order. -/
theorem sim_criteria {c c' : Calendar} (h : c.Perm c') (src : Source) (cr : Option Criteria) :
    (∃ k k', c.criteria src cr = .ok k ∧ c'.criteria src cr = .ok k' ∧ ∀ e : Event, k'.match e = k.match e) ∨
    ∃ f f', c.criteria src cr = .error f ∧ c'.criteria src cr = .error f' := by
  have hk : Reordered Eq (Dict.keys c) (Dict.keys c') := ⟨Dict.keys c', h.map _, List.forall₂_eq_eq_eq ▸ rfl⟩
  have hl : SameAnswer Eq (c.getAttendees src) (c'.getAttendees src) := by
    unfold Calendar.getAttendees
    rw [lookupAll_eq, lookupAll_eq]
    refine SameAnswer.concatM (fun a b hab => ?_) hk
    subst hab
    cases src.getAttendee a with
    | error f => exact Or.inr ⟨_, _, rfl, rfl⟩
    | ok x => exact Or.inl ⟨_, _, rfl, rfl, .of_forall (.cons rfl .nil)⟩
  unfold Calendar.criteria
  rcases hl with ⟨l, l', h1, h2, m, hp, hf⟩ | ⟨f, f', h1, h2⟩
  · rw [List.forall₂_eq_eq_eq] at hf
    subst hf
    rw [h1, h2]
    cases cr with
    | none => exact Or.inl ⟨_, _, rfl, rfl, match_attendees {} hp⟩
    | some cr => exact Or.inl ⟨_, _, rfl, rfl, match_clone cr hp⟩
  · rw [h1, h2]; exact Or.inr ⟨_, _, rfl, rfl⟩

theorem sim_calendar {α : Type} {R : α → α → Prop} {c c' : Calendar} (h : c.Perm c') (src : Source) (cr : Option Criteria)
    {f g : Criteria → Res (List α)} (hf : ∀ k k', (∀ e : Event, k'.match e = k.match e) → SameAnswer R (f k) (g k')) :
    SameAnswer R (c.criteria src cr >>= f) (c'.criteria src cr >>= g) := by
  rcases sim_criteria h src cr with ⟨k, k', h1, h2, hk⟩ | ⟨x, x', h1, h2⟩
  · rw [h1, h2]; exact hf k k' hk
  · rw [h1, h2]; exact Or.inr ⟨_, _, rfl, rfl⟩

theorem Storage.Sim.calendarGetEvents {s t : Storage} (h : s.Sim t) {c c' : Calendar} (hc : c.Perm c') (src : Source)
    (b e : Option DateTime) (cr : Option Criteria) :
    SameAnswer Event.Sim (c.getEvents src s b e cr) (c'.getEvents src t b e cr) :=
  sim_calendar hc src cr fun _ _ hk => h.getEvents b e hk

theorem Storage.Sim.calendarGetOccurrences {s t : Storage} (h : s.Sim t) {c c' : Calendar} (hc : c.Perm c') (src : Source)
    (b e : Option DateTime) (cr : Option Criteria) :
    SameAnswer OccSim (c.getOccurrences src s b e cr) (c'.getOccurrences src t b e cr) :=
  sim_calendar hc src cr fun _ _ hk => h.getOccurrences b e hk

theorem Storage.Sim.calendarSegmented {s t : Storage} (h : s.Sim t) {c c' : Calendar} (hc : c.Perm c') (src : Source)
    (b e : Option DateTime) (cr : Option Criteria) :
    SameAnswer OccSim (c.getOccurrencesSegmented src s b e cr) (c'.getOccurrencesSegmented src t b e cr) := by
  unfold Calendar.getOccurrencesSegmented
  refine SameAnswer.of_bind (h.calendarGetOccurrences hc src b e cr) fun l l' hl => ?_
  cases b with
  | none => exact Or.inr ⟨_, _, rfl, rfl⟩
  | some b =>
    cases e with
    | none => exact Or.inr ⟨_, _, rfl, rfl⟩
    | some e => exact sim_segments b e hl

theorem Storage.Sim.calendarExport {s t : Storage} (h : s.Sim t) {c c' : Calendar} (hc : c.Perm c') (src : Source)
    (b e : Option DateTime) (cr : Option Criteria) (order : Finset String → List String) :
    SameAnswer Eq (c.export src s b e cr order) (c'.export src t b e cr order) := by
  unfold Calendar.export
  refine SameAnswer.of_bind (h.calendarGetEvents hc src b e cr) fun l l' hl => ?_
  rw [exportAll_eq, exportAll_eq]
  refine SameAnswer.concatM (fun x y hxy => ?_) hl
  obtain ⟨p, r, hp, hr⟩ := hxy
  show SameAnswer Eq (x.export false order >>= _) (x.export false order >>= _)
  cases x.export false order with
  | error f => exact Or.inr ⟨_, _, rfl, rfl⟩
  | ok v => exact Or.inl ⟨_, _, rfl, rfl, .of_forall (.cons rfl .nil)⟩

/-! ### Imports -/

theorem importSpec_main (tz : LocalTz) {c c' : Calendar} (h : c.mainId = c'.mainId) (src : Source) (v : VEvent) :
    importSpec tz c' src v = importSpec tz c src v := by
  unfold importSpec importOrganizer Calendar.main
  rw [h]

theorem World.Sim.importExisting {strict : Prop} {w v : World} (h : w.Sim strict v) (tz : LocalTz) {c c' : Calendar}
    (hc : c.mainId = c'.mainId) (src : Source) (uid : Uid) (x : VEvent) :
    SimStep strict (w.importExisting tz c src uid x) (v.importExisting tz c' src uid x) := by
  unfold World.importExisting
  rw [importSpec_main tz hc]
  rcases h.getEvent uid with ⟨x, h1, h2⟩ | ⟨e, e', h1, h2, he, hue⟩
  · rw [h1, h2]; exact ⟨h, rfl⟩
  · rw [h1, h2]
    simp only []
    cases importSpec tz c src x with
    | error f => exact ⟨h, rfl⟩
    | ok spec =>
      simp only []
      rw [he.willModify]
      cases spec.willModify e with
      | error f => exact ⟨h, rfl⟩
      | ok m =>
        cases m with
        | false => exact ⟨h, rfl⟩
        | true =>
          simp only []
          have hx := he.setOnObject spec
          have hu := setOnObject_uid spec e
          generalize spec.setOnObject e = x at hx hu
          generalize spec.setOnObject e' = y at hx
          obtain ⟨x1, x2⟩ := x
          obtain ⟨y1, y2⟩ := y
          obtain ⟨hx1, hx2⟩ := hx
          simp only [] at hx1 hx2 hu
          subst hx2
          have hst := h.store.set hx1 (hu.trans hue)
          cases x2 with
          | error f => exact ⟨⟨hst, h.log⟩, rfl⟩
          | ok u =>
            refine ⟨⟨hst, ?_⟩, rfl⟩
            simp only [hx1.uid]
            exact h.log.append _

theorem World.Sim.importNew {strict : Prop} {w v : World} (h : w.Sim strict v) (tz : LocalTz) {c c' : Calendar}
    (hc : c.mainId = c'.mainId) (src : Source) (uid : Uid) (x : VEvent) :
    SimStep strict (w.importNew tz c src uid x) (v.importNew tz c' src uid x) := by
  unfold World.importNew
  rw [importSpec_main tz hc]
  cases importSpec tz c src x with
  | error f => exact ⟨h, rfl⟩
  | ok spec =>
    simp only []
    have hx := h.createEvent 0 (some uid) spec
    generalize w.createEvent 0 (some uid) spec = x at hx
    generalize v.createEvent 0 (some uid) spec = y at hx
    obtain ⟨x1, x2⟩ := x
    obtain ⟨y1, y2⟩ := y
    obtain ⟨hx1, hx2⟩ := hx
    simp only [] at hx1 hx2
    subst hx2
    cases x2 <;> exact ⟨hx1, rfl⟩

theorem World.Sim.importLoop {strict : Prop} (tz : LocalTz) {c c' : Calendar} (hc : c.mainId = c'.mainId) (src : Source)
    {known known' : List Uid} (hk : ∀ u, u ∈ known ↔ u ∈ known') (vs : List VEvent) : ∀ {w v : World}, w.Sim strict v →
    SimStep strict (World.importLoop tz c src known w vs) (World.importLoop tz c' src known' v vs) := by
  induction vs with
  | nil => intro w v h; exact ⟨h, rfl⟩
  | cons x rest ih =>
    intro w v h
    unfold World.importLoop
    cases x.uid with
    | none => exact ⟨h, rfl⟩
    | some uid =>
      simp only []
      have h2 : SimStep strict (if uid ∈ known then w.importExisting tz c src uid x
            else if ¬ w.store.hasEvent uid then w.importNew tz c src uid x else (w, .ok ()))
          (if uid ∈ known' then v.importExisting tz c' src uid x
            else if ¬ v.store.hasEvent uid then v.importNew tz c' src uid x else (v, .ok ())) := by
        rw [h.store.hasEvent uid]
        simp only [← hk uid]
        split
        · exact h.importExisting tz hc src uid x
        · split
          · exact h.importNew tz hc src uid x
          · exact ⟨h, rfl⟩
      generalize (if uid ∈ known then w.importExisting tz c src uid x
            else if ¬ w.store.hasEvent uid then w.importNew tz c src uid x else (w, .ok ())) = x1 at h2
      generalize (if uid ∈ known' then v.importExisting tz c' src uid x
            else if ¬ v.store.hasEvent uid then v.importNew tz c' src uid x else (v, .ok ())) = y1 at h2
      obtain ⟨w1, r⟩ := x1
      obtain ⟨v1, r'⟩ := y1
      obtain ⟨h3, h4⟩ := h2
      simp only [] at h3 h4
      subst h4
      cases r with
      | error f => exact ⟨h3, rfl⟩
      | ok u =>
        have h5 := ih h3
        simp only []
        generalize World.importLoop tz c src known w1 rest = x2 at h5
        generalize World.importLoop tz c' src known' v1 rest = y2 at h5
        obtain ⟨w2, r⟩ := x2
        obtain ⟨v2, r'⟩ := y2
        obtain ⟨h6, h7⟩ := h5
        simp only [] at h6 h7
        subst h7
        cases r <;> exact ⟨h6, rfl⟩

theorem removeLoop_log (l : List Uid) (w : World) (hw : w.store.WF) (hn : l.Nodup)
    (hl : ∀ u ∈ l, ∃ e, Dict.get? w.store.events u = some e) :
    (World.removeLoop w l).1.log = w.log ++ l.map Note.deleted ∧ (World.removeLoop w l).1.store.id = w.store.id ∧
      (World.removeLoop w l).1.store.host = w.store.host ∧ (World.removeLoop w l).1.store.WF := by
  induction l generalizing w with
  | nil => exact ⟨by simp [World.removeLoop], rfl, rfl, hw⟩
  | cons uid rest ih =>
    obtain ⟨e, he⟩ := hl uid (List.mem_cons_self ..)
    have hu := hw.uid _ _ he
    rw [List.nodup_cons] at hn
    have hhas : Dict.has w.store.events uid = true := by rw [Dict.has_eq, he]; rfl
    have hd : w.deleteEvent uid =
        (⟨{ w.store with events := Dict.del w.store.events uid }, w.log ++ [.deleted uid]⟩, .ok ()) := by
      unfold World.deleteEvent Storage.deleteEvent
      rw [if_pos hhas]
    unfold World.removeLoop
    rw [Storage.getEvent_ok.2 he]
    simp only [hu, hd]
    have hw' : Storage.WF { w.store with events := Dict.del w.store.events uid } := by
      refine ⟨Dict.nodup_del hw.nodup uid, fun k x hx => ?_⟩
      simp only [] at hx
      rw [Dict.get?_del] at hx
      split at hx
      · cases hx
      · exact hw.uid k x hx
    obtain ⟨h1, h2, h3, h4⟩ := ih ⟨{ w.store with events := Dict.del w.store.events uid }, w.log ++ [.deleted uid]⟩ hw' hn.2 (by
      intro u hu
      obtain ⟨x, hx⟩ := hl u (List.mem_cons_of_mem _ hu)
      refine ⟨x, ?_⟩
      simp only []
      rw [Dict.get?_del, if_neg]
      · exact hx
      · rintro rfl; exact hn.1 hu)
    exact ⟨by rw [h1]; simp, h2, h3, h4⟩

theorem World.Sim.removeLoop {strict : Prop} {w v : World} (h : w.Sim strict v) (hs : ¬ strict) {l l' : List Uid} (hp : l.Perm l')
    (hn : l.Nodup) (hl : ∀ u ∈ l, ∃ e, Dict.get? w.store.events u = some e) :
    SimStep strict (World.removeLoop w l) (World.removeLoop v l') := by
  have hl' : ∀ u ∈ l', ∃ e, Dict.get? v.store.events u = some e := by
    intro u hu
    obtain ⟨e, he⟩ := hl u (hp.mem_iff.2 hu)
    have := rel_isSome (h.store.get u)
    rw [he] at this
    exact Option.isSome_iff_exists.1 this.symm
  have hn' := hp.nodup_iff.1 hn
  obtain ⟨a1, a2⟩ := removeLoop_spec l w h.store.left hn hl
  obtain ⟨b1, b2⟩ := removeLoop_spec l' v h.store.right hn' hl'
  obtain ⟨a3, a4, a5, a6⟩ := removeLoop_log l w h.store.left hn hl
  obtain ⟨b3, b4, b5, b6⟩ := removeLoop_log l' v h.store.right hn' hl'
  refine ⟨⟨⟨by rw [a4, b4, h.store.id], by rw [a5, b5, h.store.host], a6, b6, fun u => ?_⟩, ?_, fun hh => absurd hh hs⟩, by rw [a1, b1]⟩
  · rw [a2, b2]
    simp only [hp.mem_iff]
    split
    · exact .none
    · exact h.store.get u
  · rw [a3, b3]
    exact h.log.perm.append (hp.map _)

theorem known_perm {l l' : List Event} (h : Reordered Event.Sim l l') :
    (l.map (·.uid)).dedup.Perm (l'.map (·.uid)).dedup := by
  rw [List.perm_ext_iff_of_nodup (List.nodup_dedup _) (List.nodup_dedup _)]
  intro u
  simp only [List.mem_dedup, List.mem_map]
  constructor
  · rintro ⟨e, he, rfl⟩
    obtain ⟨f, hf, hr⟩ := h.mem' he
    exact ⟨f, hf, hr.uid⟩
  · rintro ⟨f, hf, rfl⟩
    obtain ⟨e, he, hr⟩ := h.mem hf
    exact ⟨e, he, hr.uid.symm⟩

/-- Corresponding results, where exceptions may differ. -/
def SimStep' (strict : Prop) (x y : World × Res Unit) : Prop := x.1.Sim strict y.1 ∧ (x.2 = .ok () ↔ y.2 = .ok ())

theorem SimStep.weaken {strict : Prop} {x y : World × Res Unit} (h : SimStep strict x y) : SimStep' strict x y :=
  ⟨h.1, by rw [h.2]⟩

theorem World.Sim.import_ {strict : Prop} {w v : World} (h : w.Sim strict v) (parse : List Char → Res (Option (List VEvent)))
    (tz : LocalTz) {c c' : Calendar} (hc : SameCalendar c c') (src : Source) (text : List Char) (b e : Option DateTime)
    (cr : Option Criteria) (sync : Bool) (hs : sync = true → ¬ strict) :
    SimStep' strict (w.import_ parse tz c src text b e cr sync) (v.import_ parse tz c' src text b e cr sync) := by
  unfold World.import_
  simp only []
  have hq := h.store.calendarGetEvents hc.1 src b e cr
  rcases hq with ⟨l, l', h1, h2, hl⟩ | ⟨f, f', h1, h2⟩
  · have hkn : ∀ u ∈ (l.map (·.uid)).dedup, ∃ e, Dict.get? w.store.events u = some e := by
      intro u hu
      obtain ⟨ev, _, _, hev⟩ := (known_iff h.store.left h1 u).1 hu
      exact ⟨ev, hev⟩
    rw [h1, h2]
    simp only []
    cases parse (repairText text) with
    | error f => exact ⟨h, by simp⟩
    | ok o =>
      cases o with
      | none => exact ⟨h, Iff.rfl⟩
      | some vs =>
        simp only []
        have hk := known_perm hl
        have hx := World.Sim.importLoop tz hc.2 src (known := (l.map (·.uid)).dedup) (known' := (l'.map (·.uid)).dedup)
          (fun u => hk.mem_iff) vs h
        have hkeep := fun u => importLoop_keeps tz c src (l.map (·.uid)).dedup vs w (u := u)
        generalize World.importLoop tz c src (l.map (·.uid)).dedup w vs = x at hx hkeep
        generalize World.importLoop tz c' src (l'.map (·.uid)).dedup v vs = y at hx
        obtain ⟨w1, r⟩ := x
        obtain ⟨v1, r'⟩ := y
        obtain ⟨h3, h4⟩ := hx
        simp only [] at h3 h4 hkeep
        subst h4
        cases r with
        | error f => exact ⟨h3, by simp⟩
        | ok uids =>
          simp only []
          cases sync with
          | false => exact ⟨h3, Iff.rfl⟩
          | true =>
            refine (World.Sim.removeLoop h3 (hs rfl) (hk.filter _) ((List.nodup_dedup _).filter _) fun u hu => ?_).weaken
            exact hkeep u (hkn u (List.mem_filter.1 hu).1)
  · rw [h1, h2]
    exact ⟨h, by simp⟩

theorem SimStep.dropRes {α : Type} {strict : Prop} {x y : World × Res α} (h : SimStep strict x y) :
    SimStep strict (CalCore.dropRes x) (CalCore.dropRes y) := ⟨h.1, by unfold CalCore.dropRes; rw [h.2]⟩

/-- Every call other than an import. -/
theorem World.Sim.step {strict : Prop} {w v : World} (h : w.Sim strict v) (op : Op) (hi : NoImport op) :
    SimStep strict (w.step op) (v.step op) := by
  cases op with
  | create now uid spec => exact (h.createEvent now uid spec).dropRes
  | attendeeCreate now a spec => exact (h.createEvent now none _).dropRes
  | delete uid =>
    simp only [World.step]
    rcases h.getEvent uid with ⟨x, h1, h2⟩ | ⟨e, e', h1, h2, he, hue⟩
    · rw [h1, h2]; exact ⟨h, rfl⟩
    · rw [h1, h2]
      simp only [he.uid]
      exact h.deleteEvent e.uid
  | setStatus uid a st => exact h.onEvent uid (fun e => e.setStatus a st) (fun e e' he => he.setStatus a st) (fun e => setStatus_uid e a st)
  | setRole uid a role =>
    exact h.onEvent uid (fun e => ((e.setRole a role).1, [], (e.setRole a role).2))
      (fun e e' he => ⟨(he.setRole a role).1, by simp only [(he.setRole a role).2]⟩) (fun e => setRole_uid e a role)
  | invite uid atts => exact h.onEvent uid (fun e => e.invite atts) (fun e e' he => he.invite atts) (fun e => invite_uid e atts)
  | alldayAdjust uid =>
    exact h.onEvent uid (fun e => (e.alldayAdjust, [], .ok ())) (fun e e' he => ⟨he.alldayAdjust, rfl⟩) (fun e => rfl)
  | edit uid spec =>
    exact h.onEvent uid (fun e => ((spec.setOnObject e).1, [], (spec.setOnObject e).2))
      (fun e e' he => ⟨(he.setOnObject spec).1, by simp only [(he.setOnObject spec).2]⟩) (fun e => setOnObject_uid spec e)
  | import_ tz c src vs b e cr sync => exact hi.elim

theorem sameCall_eq {op op' : Op} (h : SameCall op op') (hi : NoImport op) : op = op' := by
  cases op with
  | import_ tz c src vs b e cr sync => exact hi.elim
  | _ => exact h

theorem World.Sim.sameCall {strict : Prop} {w v : World} (h : w.Sim strict v) {op op' : Op} (hi : NoImport op)
    (hc : SameCall op op') : SimStep' strict (w.step op) (v.step op') := by
  have := sameCall_eq hc hi
  subst this
  exact (h.step op hi).weaken

/-- Every call, where calendars may be reordered. -/
theorem World.Sim.call {strict : Prop} {w v : World} (h : w.Sim strict v) {op op' : Op} (hc : SameCall op op')
    (hs : strict → NoSync op) : SimStep' strict (w.step op) (v.step op') := by
  cases op with
  | import_ tz c src vs b e cr sync =>
    cases op' with
    | import_ tz' c' src' vs' b' e' cr' sync' =>
      obtain ⟨hc, rfl, rfl, rfl, rfl, rfl, rfl, rfl⟩ := hc
      refine h.import_ _ tz hc src [] b e cr sync fun hh hst => ?_
      have := hs hst
      rw [hh] at this
      cases this
    | _ => cases hc
  | _ => exact h.sameCall (by trivial) hc

theorem fresh_sim (id host : String) : (freshWorld id host).Sim True (freshWorld id host) :=
  ⟨⟨rfl, rfl, freshWorld_wf id host, freshWorld_wf id host, fun _ => .none⟩, List.Perm.refl _, fun _ => rfl⟩

theorem SameCall.refl (op : Op) : SameCall op op := by
  cases op with
  | import_ tz c src vs b e cr sync => exact ⟨⟨List.Perm.refl _, rfl⟩, rfl, rfl, rfl, rfl, rfl, rfl, rfl⟩
  | _ => rfl

theorem World.Sim.run (ops : List Op) : ∀ {w : World}, w.Sim False w → (w.run ops).Sim False (w.run ops) := by
  induction ops with
  | nil => intro w h; exact h
  | cons op rest ih => intro w h; exact ih (h.call (SameCall.refl op) False.elim).1

/-- The storage reached by any sequence of calls has proper dictionaries. -/
theorem reached_sim (id host : String) (ops : List Op) :
    ((freshWorld id host).run ops).store.Sim ((freshWorld id host).run ops).store :=
  (World.Sim.run ops ⟨(fresh_sim id host).store, List.Perm.refl _, fun _ => rfl⟩).store

theorem Storage.Sim.trans {r s t : Storage} (h : r.Sim s) (h' : s.Sim t) : r.Sim t := by
  refine ⟨h.id.trans h'.id, h.host.trans h'.host, h.left, h'.right, fun u => ?_⟩
  have h1 := h.get u
  have h2 := h'.get u
  revert h1 h2
  cases Dict.get? r.events u <;> cases Dict.get? s.events u <;> cases Dict.get? t.events u <;> intro h1 h2 <;>
    first | exact .none | (cases h1; done) | (cases h2; done) | skip
  cases h1 with | some h1 => cases h2 with | some h2 => exact .some (h1.trans h2)

theorem Event.Sim.refl_right {e f : Event} (h : e.Sim f) : f.Sim f := by
  obtain ⟨p, r, hp, hr⟩ := h
  exact .mk { e with pstate := p, prole := r } p r ⟨hp.right, hp.right, fun _ => rfl⟩ ⟨hr.right, hr.right, fun _ => rfl⟩

theorem Storage.Sim.refl_right {s t : Storage} (h : s.Sim t) : t.Sim t := by
  refine ⟨rfl, rfl, h.right, h.right, fun u => ?_⟩
  have h1 := h.get u
  revert h1
  cases Dict.get? t.events u with
  | none => intro _; exact .none
  | some f =>
    cases Dict.get? s.events u with
    | none => intro h1; cases h1
    | some e => intro h1; cases h1 with | some h1 => exact .some h1.refl_right

theorem World.Sim.shuffled {strict : Prop} {v : World} {ops : List Op} {v' : World} (hr : ShuffledRun v ops v') :
    ∀ {w : World}, w.Sim strict v → (strict → ∀ op ∈ ops, NoSync op) → (w.run ops).Sim strict v' := by
  induction hr with
  | done v => intro w h _; exact h
  | @call v t op op' ops v' hst hc _ ih =>
    intro w h hs
    have h1 : w.Sim strict ⟨t, v.log⟩ := ⟨h.store.trans (h.store.refl_right.shuffle hst), h.log⟩
    exact ih (h1.call hc fun hh => hs hh op (List.mem_cons_self ..)).1
      fun hh op hop => hs hh op (List.mem_cons_of_mem _ hop)

/-! ### Blocked and free periods -/

theorem sim_blocked {s t : Storage} (h : ∀ b e c, SameAnswer OccSim (s.getOccurrencesSegmented b e c) (t.getOccurrencesSegmented b e c)
    ∧ SameAnswer OccSim (t.getOccurrencesSegmented b e c) (s.getOccurrencesSegmented b e c)) {atts : List AttId} {b en tb te : Int}
    {R : List (Int × Int)} (hR : s.getBlockedPeriods atts b en tb te = .ok R) : t.getBlockedPeriods atts b en tb te = .ok R := by
  rw [getBlockedPeriods_eq] at hR ⊢
  simp only [bind_ok] at hR
  obtain ⟨B, hB, endD, hend, W, hW, hR⟩ := hR
  injection hR with hR
  obtain ⟨hseg, hmem⟩ := attendeeBlocks_ok hB
  have key : ∀ {s t : Storage} {b e c} {segs : List (Occurrence Event)},
      SameAnswer OccSim (s.getOccurrencesSegmented b e c) (t.getOccurrencesSegmented b e c) →
      s.getOccurrencesSegmented b e c = .ok segs → ∃ segs', t.getOccurrencesSegmented b e c = .ok segs' ∧ Reordered OccSim segs segs' := by
    intro s t b e c segs hh hs
    rcases hh with ⟨l, l', h1, h2, hl⟩ | ⟨f, _, h1, _⟩
    · rw [hs] at h1; injection h1 with h1; subst h1; exact ⟨l', h2, hl⟩
    · rw [hs] at h1; cases h1
  have cl : ∀ {o p : Occurrence Event}, OccSim o p → clip tb te o = clip tb te p := by
    intro o p hop
    unfold clip
    rw [hop.dtstart, hop.duration]
  obtain ⟨B', hB'⟩ := attendeeBlocks_returns (s := t) (b := b) (en := en) (tb := tb) (te := te) (atts := atts) (by
    intro a haa
    obtain ⟨segs, hsg⟩ := hseg a haa
    obtain ⟨segs', hsg', _⟩ := key (h _ _ _).1 hsg
    obtain ⟨occs, _, hso⟩ := segmented_ok hsg'
    exact ⟨segs', hsg', segments_range hso⟩) []
  obtain ⟨hseg', hmem'⟩ := attendeeBlocks_ok hB'
  have hm : ∀ p, p ∈ B' ↔ p ∈ B := by
    intro p
    rw [hmem, hmem']
    refine or_congr Iff.rfl ?_
    constructor
    · rintro ⟨a, haa, segs', hsg', o, ho, hb, h1, h2, h3⟩
      obtain ⟨segs, hsg, hss⟩ := key (h _ _ _).2 hsg'
      obtain ⟨o', ho', hop⟩ := hss.mem' ho
      exact ⟨a, haa, segs, hsg, o', ho', by rw [hop.original.blocks]; exact hb, by rw [← hop.dtstart, ← hop.duration]; exact h1,
        by rw [← hop.dtstart]; exact h2, by rw [← cl hop]; exact h3⟩
    · rintro ⟨a, haa, segs, hsg, o, ho, hb, h1, h2, h3⟩
      obtain ⟨segs', hsg', hss⟩ := key (h _ _ _).1 hsg
      obtain ⟨o', ho', hop⟩ := hss.mem' ho
      exact ⟨a, haa, segs', hsg', o', ho', by rw [hop.original.blocks]; exact hb, by rw [← hop.dtstart, ← hop.duration]; exact h1,
        by rw [← hop.dtstart]; exact h2, by rw [← cl hop]; exact h3⟩
  have hperm : B'.Perm B := (List.perm_ext_iff_of_nodup (attendeeBlocks_nodup hB' List.nodup_nil)
    (attendeeBlocks_nodup hB List.nodup_nil)).2 hm
  rw [hB', ok_bind, hend, ok_bind, hW, ok_bind, ← hR]
  rw [removeOverlaps_perm (List.Perm.append_right W hperm)]

theorem Event.Sim.symm {e f : Event} (h : e.Sim f) : f.Sim e := by
  obtain ⟨p, r, hp, hr⟩ := h
  exact .mk { e with pstate := p, prole := r } e.pstate e.prole hp.symm hr.symm

theorem Storage.Sim.symm {s t : Storage} (h : s.Sim t) : t.Sim s := by
  refine ⟨h.id.symm, h.host.symm, h.right, h.left, fun u => ?_⟩
  have h1 := h.get u
  revert h1
  cases Dict.get? s.events u <;> cases Dict.get? t.events u <;> intro h1
  · exact .none
  · cases h1
  · cases h1
  · cases h1 with | some h1 => exact .some h1.symm

theorem Storage.Sim.blocked {s t : Storage} (h : s.Sim t) (atts : List AttId) (b en tb te : Int) (R : List (Int × Int)) :
    s.getBlockedPeriods atts b en tb te = .ok R ↔ t.getBlockedPeriods atts b en tb te = .ok R :=
  ⟨sim_blocked fun b e _ => ⟨h.getOccurrencesSegmented b e fun _ => rfl, h.symm.getOccurrencesSegmented b e fun _ => rfl⟩,
   sim_blocked fun b e _ => ⟨h.symm.getOccurrencesSegmented b e fun _ => rfl, h.getOccurrencesSegmented b e fun _ => rfl⟩⟩

end CalCore
