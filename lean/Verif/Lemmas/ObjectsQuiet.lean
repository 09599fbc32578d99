import Verif.Lemmas.Objects
/- Without subscribers, calls on stored objects do what `World` says. -/
namespace CalCore
open Spec

namespace Dict
variable {κ ν μ : Type} [DecidableEq κ]

theorem get?_map (d : Dict κ ν) (f : ν → μ) (k : κ) :
    get? (d.map (fun p => (p.1, f p.2))) k = (get? d k).map f := by
  induction d with
  | nil => rfl
  | cons p d ih =>
    rw [List.map_cons, get?_cons, get?_cons, ih]
    simp only []
    split <;> rfl

omit [DecidableEq κ] in
theorem keys_map (d : Dict κ ν) (f : ν → μ) : keys (d.map (fun p => (p.1, f p.2))) = keys d := by
  unfold keys
  rw [List.map_map]
  rfl

theorem set_map (d : Dict κ ν) (f : ν → μ) (k : κ) (v : ν) :
    (set d k v).map (fun p => (p.1, f p.2)) = set (d.map (fun p => (p.1, f p.2))) k (f v) := by
  induction d with
  | nil => rfl
  | cons p d ih =>
    obtain ⟨k', v'⟩ := p
    unfold set
    simp only [List.map_cons]
    split
    · rfl
    · rw [List.map_cons, ih]

theorem del_map (d : Dict κ ν) (f : ν → μ) (k : κ) :
    (del d k).map (fun p => (p.1, f p.2)) = del (d.map (fun p => (p.1, f p.2))) k := by
  unfold del
  rw [List.filter_map]
  rfl

theorem has_map (d : Dict κ ν) (f : ν → μ) (k : κ) : has (d.map (fun p => (p.1, f p.2))) k = has d k := by
  rw [has_eq, has_eq, get?_map, Option.isSome_map]

end Dict

/-- Every stored object is stored once, under its own uid, and has been made. -/
structure Heap.WF (h : Heap) : Prop where
  nodup : (Dict.keys h.events).Nodup
  uid : ∀ u r, Dict.get? h.events u = some r → (h.obj r).uid = u ∧ r < h.next

theorem Heap.WF.store {h : Heap} (hw : h.WF) : h.store.WF := by
  constructor
  · show (Dict.keys (h.events.map _)).Nodup
    rw [Dict.keys_map]
    exact hw.nodup
  · intro k e he
    rw [show Dict.get? h.store.events k = (Dict.get? h.events k).map h.obj from Dict.get?_map _ _ _] at he
    cases hr : Dict.get? h.events k with
    | none => rw [hr] at he; cases he
    | some r =>
      rw [hr] at he
      injection he with he
      rw [← he]
      exact (hw.uid k r hr).1

theorem Heap.put_put (h : Heap) (r : Ref) (e e' : Event) : (h.put r e).put r e' = h.put r e' := by
  unfold Heap.put
  congr 1
  funext r'
  simp only []
  split <;> rfl

theorem Heap.put_self (h : Heap) (r : Ref) : h.put r (h.obj r) = h := by
  unfold Heap.put
  congr 1
  funext r'
  split
  · rename_i hr; rw [hr]
  · rfl

theorem Heap.put_obj (h : Heap) (r : Ref) (e : Event) : (h.put r e).obj r = e := if_pos rfl

theorem Heap.step_wf {h h' : Heap} (hs : Heap.Step h h') (hw : h.WF) : h'.WF := by
  cases hs with
  | method r e hm =>
    refine ⟨hw.nodup, fun u r' hr => ?_⟩
    obtain ⟨h1, h2⟩ := hw.uid u r' hr
    refine ⟨?_, h2⟩
    show (if r' = r then e else h.obj r').uid = u
    split
    · rename_i hx; subst hx; rw [hm.uid]; exact h1
    · exact h1
  | make u spec e hn =>
    refine ⟨Dict.nodup_set hw.nodup _ _, fun u' r hr => ?_⟩
    rw [show (h.add u e).events = Dict.set h.events u h.next from rfl, Dict.get?_set] at hr
    show (if r = h.next then e else h.obj r).uid = u' ∧ r < h.next + 1
    split at hr
    · rename_i hu
      injection hr with hr
      rw [if_pos hr.symm, newEvent_uid hn, hu, ← hr]
      exact ⟨rfl, Nat.lt_succ_self _⟩
    · obtain ⟨h1, h2⟩ := hw.uid u' r hr
      rw [if_neg (Nat.ne_of_lt h2)]
      exact ⟨h1, Nat.lt_succ_of_lt h2⟩
  | delete u =>
    refine ⟨Dict.nodup_del hw.nodup _, fun u' r hr => ?_⟩
    rw [show ({ h with events := Dict.del h.events u } : Heap).events = Dict.del h.events u from rfl, Dict.get?_del] at hr
    split at hr
    · cases hr
    · exact hw.uid u' r hr
  | record n => exact ⟨hw.nodup, hw.uid⟩

theorem Heap.Steps.wf {h h' : Heap} (hs : Heap.Steps h h') (hw : h.WF) : h'.WF :=
  Heap.Steps.inv (I := Heap.WF) (fun _ _ => Heap.step_wf) hs hw

/-! ### the world of a heap -/

theorem Heap.world_put {h : Heap} (hw : h.WF) {u : Uid} {r : Ref} (hr : Dict.get? h.events u = some r) (e : Event)
    (l : List HNote) :
    ({ h.put r e with log := h.log ++ l } : Heap).world =
      { store := { h.store with events := Dict.set h.store.events u e }
        log := h.world.log ++ l.map (·.note) } := by
  have hev : (h.events.map (fun p => (p.1, (h.put r e).obj p.2)) : Dict Uid Event) = Dict.set h.store.events u e := by
    refine Dict.ext_keys ?_ ?_ ?_
    · rw [Dict.keys_map, Dict.keys_set_of_mem, Heap.store, Dict.keys_map]
      rw [Heap.store, Dict.keys_map, ← Dict.has_iff_mem_keys, Dict.has_iff_get?]
      exact ⟨r, hr⟩
    · rw [Dict.keys_map]; exact hw.nodup
    · intro k
      rw [Dict.get?_map, Dict.get?_set]
      show _ = if u = k then some e else Dict.get? (h.events.map (fun p => (p.1, h.obj p.2))) k
      rw [Dict.get?_map]
      cases hk : Dict.get? h.events k with
      | none =>
        split
        · rename_i huk; rw [huk, hk] at hr; cases hr
        · rfl
      | some r' =>
        show some (if r' = r then e else h.obj r') = _
        split
        · rename_i hrr
          subst hrr
          rw [if_pos ((hw.uid u r' hr).1.symm.trans (hw.uid k r' hk).1)]
        · rename_i hrr
          rw [if_neg]
          · rfl
          · rintro rfl; rw [hr] at hk; injection hk with hk; exact hrr hk.symm
  unfold Heap.world Heap.store
  simp only [List.map_append]
  have hev' : (h.put r e).events.map (fun p => (p.1, (h.put r e).obj p.2)) =
    Dict.set (h.events.map (fun p => (p.1, h.obj p.2))) u e := hev
  rw [hev']
  rfl

theorem Heap.world_add {h : Heap} (hw : h.WF) (u : Uid) (e : Event) (l : List HNote) :
    ({ h.add u e with log := h.log ++ l } : Heap).world =
      { store := { h.store with events := Dict.set h.store.events u e }
        log := h.world.log ++ l.map (·.note) } := by
  have hev : ((Dict.set h.events u h.next).map (fun p => (p.1, (h.add u e).obj p.2)) : Dict Uid Event) =
      Dict.set h.store.events u e := by
    rw [Dict.set_map h.events (fun r => (h.add u e).obj r)]
    have h1 : (h.add u e).obj h.next = e := if_pos rfl
    rw [h1]
    congr 1
    show h.events.map _ = h.events.map _
    refine List.map_congr_left fun p hp => ?_
    have hg := (Dict.mem_iff_get? hw.nodup p.1 p.2).1 hp
    have : (h.add u e).obj p.2 = h.obj p.2 := if_neg (Nat.ne_of_lt (hw.uid _ _ hg).2)
    rw [this]
  unfold Heap.world Heap.store
  simp only [List.map_append]
  have hev' : (h.add u e).events.map (fun p => (p.1, (h.add u e).obj p.2)) =
    Dict.set (h.events.map (fun p => (p.1, h.obj p.2))) u e := hev
  rw [hev']
  rfl

theorem Heap.world_del (h : Heap) (u : Uid) (l : List HNote) :
    ({ h with events := Dict.del h.events u, log := h.log ++ l } : Heap).world =
      { store := { h.store with events := Dict.del h.store.events u }
        log := h.world.log ++ l.map (·.note) } := by
  unfold Heap.world Heap.store
  simp only [List.map_append, Dict.del_map]

theorem Heap.getEvent_world (h : Heap) (u : Uid) : h.store.getEvent u = (h.getEvent u).map h.obj := by
  unfold Storage.getEvent Heap.getEvent
  rw [show Dict.get? h.store.events u = (Dict.get? h.events u).map h.obj from Dict.get?_map _ _ _]
  cases Dict.get? h.events u <;> rfl

/-! ### calls without subscribers -/

theorem Heap.setStatus_quiet (h : Heap) (r : Ref) (a : AttId) (st : Option String) :
    h.setStatus quiet r a st =
      ({ h.put r ((h.obj r).setStatus a st).1 with
          log := h.log ++ ((h.obj r).setStatus a st).2.1.map (HNote.mk r) }, ((h.obj r).setStatus a st).2.2) := by
  unfold Heap.setStatus Event.setStatus
  split
  · simp only [List.map_nil, List.append_nil, Heap.put_self]
  · simp only []
    split
    · simp only [List.map_nil, List.append_nil, Heap.put_self]
    · cases (h.obj r).setStatusRaw a st with
      | mk e res =>
        cases res with
        | error f => simp only [List.map_nil, List.append_nil]; rfl
        | ok _ => rfl

theorem Heap.put_log (h : Heap) (l : List HNote) (r : Ref) (e : Event) :
    ({ h with log := l } : Heap).put r e = { h.put r e with log := l } := rfl

theorem Heap.inviteOne_quiet (h : Heap) (r : Ref) (a : AttId) :
    h.inviteOne quiet r a =
      ({ h.put r ((h.obj r).inviteOne a).1 with
          log := h.log ++ ((h.obj r).inviteOne a).2.1.map (HNote.mk r) }, ((h.obj r).inviteOne a).2.2) := by
  unfold Heap.inviteOne Event.inviteOne
  split
  · rw [Heap.setStatus_quiet]
    cases (h.obj r).setStatus a (some "NEEDS-ACTION") with
    | mk e rest =>
      obtain ⟨notes, res⟩ := rest
      cases res with
      | error f => rfl
      | ok _ =>
        simp only []
        unfold Heap.setRole
        rw [Heap.put_log, Heap.put_put]
        have : ({ h.put r e with log := h.log ++ notes.map (HNote.mk r) } : Heap).obj r = e := Heap.put_obj ..
        rw [this]
  · simp only [List.map_nil, List.append_nil, Heap.put_self]

theorem Heap.invite_quiet (l : List AttId) (h : Heap) (r : Ref) :
    h.invite quiet r l =
      ({ h.put r ((h.obj r).invite l).1 with
          log := h.log ++ ((h.obj r).invite l).2.1.map (HNote.mk r) }, ((h.obj r).invite l).2.2) := by
  induction l generalizing h with
  | nil =>
    unfold Heap.invite Event.invite
    simp only [List.map_nil, List.append_nil, Heap.put_self]
  | cons a rest ih =>
    unfold Heap.invite Event.invite
    rw [Heap.inviteOne_quiet]
    cases (h.obj r).inviteOne a with
    | mk e more =>
      obtain ⟨notes, res⟩ := more
      cases res with
      | error f => rfl
      | ok _ =>
        simp only []
        rw [ih, Heap.put_log, Heap.put_put]
        have : ({ h.put r e with log := h.log ++ notes.map (HNote.mk r) } : Heap).obj r = e := Heap.put_obj ..
        rw [this]
        simp only [List.map_append, List.append_assoc]

/-- The call on objects and the call on values have the same effect and outcome. -/
def Agree (x : Heap × Res Unit) (y : World × Res Unit) : Prop := x.1.world = y.1 ∧ x.2 = y.2

theorem Heap.onEvent_agree {h : Heap} (hw : h.WF) {u : Uid} {r : Ref} (hr : Dict.get? h.events u = some r)
    (f : Event → Event × List Note × Res Unit) :
    Agree ({ h.put r (f (h.obj r)).1 with log := h.log ++ (f (h.obj r)).2.1.map (HNote.mk r) }, (f (h.obj r)).2.2)
      (h.world.onEvent u f) := by
  have hg : h.world.store.getEvent u = .ok (h.obj r) := by
    show h.store.getEvent u = _
    rw [Heap.getEvent_world, Heap.getEvent, hr]
    rfl
  unfold World.onEvent
  rw [hg]
  simp only []
  refine ⟨?_, rfl⟩
  rw [Heap.world_put hw hr, List.map_map]
  have : ((fun n : HNote => n.note) ∘ HNote.mk r) = _root_.id := rfl
  rw [this, List.map_id]
  rfl

theorem Heap.createEvent_agree {h : Heap} (hw : h.WF) (now : Int) (uid : Option Uid) (spec : Spec) :
    (h.createEvent quiet now uid spec).1.world = (h.world.createEvent now uid spec).1 ∧
    ((h.createEvent quiet now uid spec).2.map (fun _ => ())) =
      (h.world.createEvent now uid spec).2.map (fun _ => ()) := by
  have hid : addrspecUniqueId now (h.id ++ "-" ++ toString h.events.length) h.host = h.world.store.autoId now := by
    unfold Storage.autoId
    show _ = addrspecUniqueId now (h.id ++ "-" ++ toString (h.events.map _).length) h.host
    rw [List.length_map]
  unfold Heap.createEvent
  simp only []
  rw [hid]
  rcases h.world.createEvent_eq now uid spec with ⟨f, hn, h'⟩ | ⟨e, hn, hu, h'⟩
  · rw [hn, h']; exact ⟨rfl, rfl⟩
  · rw [hn, h', ← hu]
    simp only [quiet]
    refine ⟨?_, rfl⟩
    exact h.world_add hw e.uid e [⟨h.next, .created e.uid⟩]

theorem Heap.deleteEvent_agree (h : Heap) (r : Ref) :
    Agree (h.deleteEvent quiet r) (h.world.deleteEvent (h.obj r).uid) := by
  unfold Heap.deleteEvent
  simp only []
  have hhas : Dict.has h.world.store.events (h.obj r).uid = Dict.has h.events (h.obj r).uid := Dict.has_map ..
  rcases h.world.deleteEvent_eq (h.obj r).uid with ⟨h1, h2⟩ | ⟨h1, h2⟩
  · rw [h2, if_neg (by rw [← hhas, h1]; simp)]
    exact ⟨rfl, rfl⟩
  · rw [h2, if_pos (by rw [← hhas, h1])]
    exact ⟨h.world_del _ [⟨r, .deleted (h.obj r).uid⟩], rfl⟩

theorem Heap.importOne_agree {h : Heap} (hw : h.WF) (tz : LocalTz) (c : Calendar) (src : Source) (known : List Uid)
    (u : Uid) (v : VEvent) :
    Agree (h.importOne quiet tz c src known u v) (h.world.importOne tz c src known u v) := by
  unfold Heap.importOne World.importOne
  by_cases hk : u ∈ known
  · rw [if_pos hk, if_pos hk]
    unfold Heap.importExisting World.importExisting
    rw [show h.world.store = h.store from rfl, Heap.getEvent_world]
    unfold Heap.getEvent
    cases hr : Dict.get? h.events u with
    | none => exact ⟨rfl, rfl⟩
    | some r =>
      simp only [Except.map]
      cases importSpec tz c src v with
      | error f => exact ⟨rfl, rfl⟩
      | ok spec =>
        simp only []
        cases spec.willModify (h.obj r) with
        | error f => exact ⟨rfl, rfl⟩
        | ok b =>
          cases b with
          | false => exact ⟨rfl, rfl⟩
          | true =>
            simp only [Heap.edit]
            cases hs : spec.setOnObject (h.obj r) with
            | mk e res =>
              cases res with
              | error f =>
                have := Heap.world_put hw hr e []
                simp only [List.append_nil, List.map_nil] at this
                exact ⟨this, rfl⟩
              | ok _ =>
                refine ⟨?_, rfl⟩
                simp only [quiet, Heap.put_obj]
                exact Heap.world_put hw hr e [⟨r, .modified e.uid⟩]
  · rw [if_neg hk, if_neg hk]
    have hhas : h.world.store.hasEvent u = Dict.has h.events u := by
      rw [show h.world.store = h.store from rfl]
      unfold Storage.hasEvent
      rw [Heap.getEvent_world, Heap.getEvent, Dict.has_eq]
      cases Dict.get? h.events u <;> rfl
    rw [hhas]
    split
    · unfold Heap.importNew World.importNew
      cases importSpec tz c src v with
      | error f => exact ⟨rfl, rfl⟩
      | ok spec =>
        simp only []
        have := h.createEvent_agree hw 0 (some u) spec
        cases hx : h.createEvent quiet 0 (some u) spec with
        | mk h1 r1 =>
          cases hy : h.world.createEvent 0 (some u) spec with
          | mk w1 s1 =>
            rw [hx, hy] at this
            obtain ⟨h2, h3⟩ := this
            cases r1 with
            | ok _ =>
              cases s1 with
              | ok _ => exact ⟨h2, rfl⟩
              | error f => cases h3
            | error f =>
              cases s1 with
              | ok _ => cases h3
              | error f' => injection h3 with h3; subst h3; exact ⟨h2, rfl⟩
    · exact ⟨rfl, rfl⟩

theorem Heap.importLoop_agree (tz : LocalTz) (c : Calendar) (src : Source) (known : List Uid) (vs : List VEvent)
    {h : Heap} (hw : h.WF) :
    (Heap.importLoop quiet tz c src known h vs).1.world = (World.importLoop tz c src known h.world vs).1 ∧
    (Heap.importLoop quiet tz c src known h vs).2 = (World.importLoop tz c src known h.world vs).2 := by
  induction vs generalizing h with
  | nil => exact ⟨rfl, rfl⟩
  | cons v rest ih =>
    rw [World.importLoop_cons]
    unfold Heap.importLoop
    cases v.uid with
    | none => exact ⟨rfl, rfl⟩
    | some u =>
      simp only []
      have h1 := Heap.importOne_agree hw tz c src known u v
      have hw1 := (h.importOne_steps quiet_proper tz c src known u v).wf hw
      cases hx : h.importOne quiet tz c src known u v with
      | mk h' r =>
        cases hy : h.world.importOne tz c src known u v with
        | mk w' s =>
          rw [hx, hy] at h1
          rw [hx] at hw1
          obtain ⟨h2, h3⟩ := h1
          simp only [] at h2 h3 hw1
          subst h3
          subst h2
          cases r with
          | error f => exact ⟨rfl, rfl⟩
          | ok _ =>
            simp only []
            obtain ⟨i1, i2⟩ := ih hw1
            cases hp : Heap.importLoop quiet tz c src known h' rest with
            | mk h'' r' =>
              cases hq : World.importLoop tz c src known h'.world rest with
              | mk w'' s' =>
                rw [hp, hq] at i1 i2
                simp only [] at i1 i2
                subst i2
                cases r' <;> exact ⟨i1, rfl⟩

theorem Heap.removeLoop_agree (us : List Uid) {h : Heap} (hw : h.WF) :
    Agree (Heap.removeLoop quiet h us) (World.removeLoop h.world us) := by
  induction us generalizing h with
  | nil => exact ⟨rfl, rfl⟩
  | cons u rest ih =>
    unfold Heap.removeLoop World.removeLoop
    rw [show h.world.store = h.store from rfl, Heap.getEvent_world]
    unfold Heap.getEvent
    cases hr : Dict.get? h.events u with
    | none => exact ⟨rfl, rfl⟩
    | some r =>
      simp only [Except.map]
      have h1 := h.deleteEvent_agree r
      have hw1 := (h.deleteEvent_steps quiet_proper r).wf hw
      cases hx : h.deleteEvent quiet r with
      | mk h' res =>
        cases hy : h.world.deleteEvent (h.obj r).uid with
        | mk w' s =>
          rw [hx, hy] at h1
          rw [hx] at hw1
          obtain ⟨h2, h3⟩ := h1
          simp only [] at h2 h3 hw1
          subst h3
          subst h2
          cases res with
          | error f => exact ⟨rfl, rfl⟩
          | ok _ => exact ih hw1

theorem Heap.import_agree {h : Heap} (hw : h.WF) (tz : LocalTz) (c : Calendar) (src : Source) (vs : List VEvent)
    (b e : Option Int) (cr : Option Criteria) (sync : Bool) :
    Agree (h.import_ quiet tz c src vs b e cr sync)
      (h.world.import_ (fun _ => .ok (some vs)) tz c src [] b e cr sync) := by
  unfold Heap.import_ World.import_
  rw [show h.world.store = h.store from rfl]
  cases c.getEvents src h.store b e cr with
  | error f => exact ⟨rfl, rfl⟩
  | ok events =>
    simp only []
    obtain ⟨i1, i2⟩ := Heap.importLoop_agree tz c src (events.map (·.uid)).dedup vs hw
    have hw1 := (Heap.importLoop_steps quiet_proper tz c src (events.map (·.uid)).dedup vs h).wf hw
    cases hp : Heap.importLoop quiet tz c src (events.map (·.uid)).dedup h vs with
    | mk h'' r' =>
      cases hq : World.importLoop tz c src (events.map (·.uid)).dedup h.world vs with
      | mk w'' s' =>
        rw [hp, hq] at i1 i2
        rw [hp] at hw1
        simp only [] at i1 i2 hw1
        subst i2
        subst i1
        cases r' with
        | error f => exact ⟨rfl, rfl⟩
        | ok uids =>
          simp only []
          split
          · exact Heap.removeLoop_agree _ hw1
          · exact ⟨rfl, rfl⟩

end CalCore
