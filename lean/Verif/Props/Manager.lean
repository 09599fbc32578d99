import Verif.Lemmas.Manager
import Verif.Lemmas.Text
import Verif.Props.Fresh
import Verif.Props.Samples
/- C114: storages are independent.  C115: generated ids of different storages are different. -/
namespace CalCore
open Spec

/-- The manager uses one of the storages, and these are in order. -/
structure Manager.Proper (m : Manager) : Prop where
  current : ∀ i, m.current = some i → i < m.stores.length
  wf : ∀ (i : Nat) (s : Storage), m.stores[i]? = some s → s.WF

theorem delete_step (s : Storage) (hs : s.WF) (l : List Note) (uid : Uid) :
    World.deleteEvent ⟨s, l⟩ uid = World.step ⟨s, l⟩ (.delete uid) := by
  simp only [World.step]
  cases hg : s.getEvent uid with
  | ok e => simp only []; rw [hs.uid uid e (Storage.getEvent_ok.1 hg)]
  | error f =>
    obtain ⟨rfl, hn⟩ := Storage.getEvent_error.1 hg
    rcases World.deleteEvent_eq ⟨s, l⟩ uid with ⟨_, h⟩ | ⟨h, _⟩
    · exact h
    · rw [Dict.has_eq] at h
      simp only [] at h
      rw [hn] at h
      cases h

/-- The call that a client's call amounts to on the storage in use. -/
theorem on_eq {m : Manager} {i : Nat} {s : Storage} (h : m.stores[i]? = some s) (op : Op) :
    m.on i (fun w => w.step op) =
      ({ m with stores := m.stores.set i (World.step ⟨s, []⟩ op).1.store, log := m.log ++ (World.step ⟨s, []⟩ op).1.log },
        (World.step ⟨s, []⟩ op).2) := by
  unfold Manager.on
  rw [h]
  simp only []
  rw [step_after s m.log op]

theorem on_delete {m : Manager} {i : Nat} {s : Storage} (h : m.stores[i]? = some s) (hs : s.WF) (uid : Uid) :
    m.on i (fun w => w.deleteEvent uid) = m.on i (fun w => w.step (.delete uid)) := by
  unfold Manager.on
  rw [h]
  simp only []
  rw [delete_step s hs]

theorem step_wf {s : Storage} (hs : s.WF) (op : Op) : (World.step ⟨s, []⟩ op).1.store.WF :=
  (World.step_many ⟨s, []⟩ op).wf hs

theorem on_proper {m : Manager} (hm : m.Proper) {i : Nat} {s : Storage} (h : m.stores[i]? = some s) (op : Op) :
    (m.on i (fun w => w.step op)).1.Proper := by
  rw [on_eq h]
  refine ⟨fun j hj => ?_, fun j s' hs' => ?_⟩
  · simp only [List.length_set]
    exact hm.current j hj
  · simp only [List.getElem?_set] at hs'
    split at hs'
    · split at hs'
      · injection hs' with hs'
        rw [← hs']
        exact step_wf (hm.wf i s h) op
      · cases hs'
    · exact hm.wf j s' hs'

theorem getElem_of_current {m : Manager} (hm : m.Proper) {i : Nat} (h : m.current = some i) :
    ∃ s, m.stores[i]? = some s :=
  ⟨m.stores[i]'(hm.current i h), List.getElem?_eq_getElem (hm.current i h)⟩

theorem manager_proper {m : Manager} (hm : m.Proper) (op : ManagerOp) : (m.step op).1.Proper := by
  cases op with
  | newStorage id host =>
    refine ⟨fun i hi => ?_, fun i s hs => ?_⟩
    · have := hm.current i hi
      simp only [Manager.step, List.length_append, List.length_singleton]
      omega
    · simp only [Manager.step, List.getElem?_append] at hs
      split at hs
      · exact hm.wf i s hs
      · have : s = ⟨id, host, []⟩ := by
          cases hx : i - m.stores.length with
          | zero => rw [hx] at hs; simpa using hs.symm
          | succ n => rw [hx] at hs; simp at hs
        rw [this]
        exact freshWorld_wf id host
  | setStorage i =>
    cases i with
    | none => exact ⟨fun i hi => (by cases hi), hm.wf⟩
    | some i =>
      simp only [Manager.step]
      split
      · rename_i h
        exact ⟨fun j hj => by injection hj with hj; rw [← hj]; exact h, hm.wf⟩
      · exact hm
  | call op =>
    simp only [Manager.step]
    cases hc : m.current with
    | none => exact hm
    | some i =>
      obtain ⟨s, hs⟩ := getElem_of_current hm hc
      exact on_proper hm hs op
  | discard uid =>
    simp only [Manager.step]
    cases hc : m.current with
    | none => exact hm
    | some i =>
      obtain ⟨s, hs⟩ := getElem_of_current hm hc
      simp only []
      rw [on_delete hs (hm.wf i s hs)]
      exact on_proper hm hs _
  | object i op =>
    simp only [Manager.step]
    split
    · rename_i h
      exact on_proper hm (List.getElem?_eq_getElem h.1) op
    · exact hm

theorem run_cons_store (s : Storage) (op : Op) (rest : List Op) :
    (World.run ⟨s, []⟩ (op :: rest)).store = (World.run ⟨(World.step ⟨s, []⟩ op).1.store, []⟩ rest).store :=
  run_store rest _ _ rfl

/-- One call, seen from storage `i`. -/
theorem step_seen {m : Manager} (hm : m.Proper) {i : Nat} {s : Storage} (hs : m.stores[i]? = some s) (op : ManagerOp)
    (rest : List ManagerOp) :
    ∃ s', (m.step op).1.stores[i]? = some s' ∧
      (World.run ⟨s, []⟩ (callsOn i m.stores.length m.current (op :: rest))).store =
        (World.run ⟨s', []⟩ (callsOn i (m.step op).1.stores.length (m.step op).1.current rest)).store := by
  have hi : i < m.stores.length := (List.getElem?_eq_some_iff.1 hs).1
  have hon : ∀ j s0 op', m.stores[j]? = some s0 →
      ∃ s', (m.on j (fun w => w.step op')).1.stores[i]? = some s' ∧
        (World.run ⟨s, []⟩ (if j = i then op' :: callsOn i m.stores.length m.current rest
          else callsOn i m.stores.length m.current rest)).store =
        (World.run ⟨s', []⟩ (callsOn i (m.on j (fun w => w.step op')).1.stores.length
          (m.on j (fun w => w.step op')).1.current rest)).store := by
    intro j s0 op' hj
    rw [on_eq hj]
    simp only [List.length_set]
    by_cases hji : j = i
    · subst hji
      rw [hs] at hj
      injection hj with hj
      subst hj
      rw [if_pos rfl, List.getElem?_set_self hi]
      exact ⟨_, rfl, run_cons_store s op' _⟩
    · rw [if_neg hji, List.getElem?_set_ne hji]
      exact ⟨s, hs, rfl⟩
  cases op with
  | newStorage id host =>
    refine ⟨s, ?_, ?_⟩
    · simp only [Manager.step]
      rw [List.getElem?_append_left hi]
      exact hs
    · simp only [callsOn, Manager.step, List.length_append, List.length_singleton]
  | setStorage j =>
    cases j with
    | none => exact ⟨s, hs, rfl⟩
    | some j =>
      simp only [callsOn, Manager.step]
      by_cases hj : j < m.stores.length
      · rw [if_pos hj, if_pos hj]; exact ⟨s, hs, rfl⟩
      · rw [if_neg hj, if_neg hj]; exact ⟨s, hs, rfl⟩
  | call op =>
    simp only [callsOn, Manager.step]
    cases hc : m.current with
    | none => exact ⟨s, hs, by simp [hc]⟩
    | some j =>
      obtain ⟨s0, hj⟩ := getElem_of_current hm hc
      have := hon j s0 op hj
      rw [hc] at this
      simpa using this
  | discard uid =>
    simp only [callsOn, Manager.step]
    cases hc : m.current with
    | none => exact ⟨s, hs, by simp [hc]⟩
    | some j =>
      obtain ⟨s0, hj⟩ := getElem_of_current hm hc
      have := hon j s0 (.delete uid) hj
      rw [hc] at this
      simp only []
      rw [on_delete hj (hm.wf j s0 hj)]
      simpa using this
  | object j op =>
    simp only [callsOn, Manager.step]
    rw [← show isMethod op = onObject op by cases op <;> rfl]
    by_cases hj : j < m.stores.length ∧ isMethod op = true
    · rw [if_pos hj]
      have := hon j _ op (List.getElem?_eq_getElem hj.1)
      by_cases hji : j = i
      · rw [if_pos hji] at this
        rw [if_pos ⟨hji, hi, hj.2⟩]
        exact this
      · rw [if_neg hji] at this
        rw [if_neg (fun h => hji h.1)]
        exact this
    · rw [if_neg hj, if_neg (fun h : j = i ∧ i < m.stores.length ∧ isMethod op = true => hj ⟨h.1 ▸ h.2.1, h.2.2⟩)]
      exact ⟨s, hs, rfl⟩

theorem run_seen (ops : List ManagerOp) {m : Manager} (hm : m.Proper) {i : Nat} {s : Storage}
    (hs : m.stores[i]? = some s) :
    (m.run ops).stores[i]? = some (World.run ⟨s, []⟩ (callsOn i m.stores.length m.current ops)).store := by
  induction ops generalizing m s with
  | nil => exact hs
  | cons op rest ih =>
    obtain ⟨s', h1, h2⟩ := step_seen hm hs op rest
    rw [h2]
    exact ih (manager_proper hm op) h1

/-- Nothing but `MemoryStorage(...)` makes storages. -/
theorem step_count {m : Manager} (op : ManagerOp) (h : ∀ id host, op ≠ .newStorage id host) :
    (m.step op).1.stores.length = m.stores.length := by
  have hon : ∀ j f, (m.on j f).1.stores.length = m.stores.length := by
    intro j f
    unfold Manager.on
    split
    · rfl
    · simp
  cases op with
  | newStorage id host => exact absurd rfl (h id host)
  | setStorage i =>
    cases i with
    | none => rfl
    | some i => simp only [Manager.step]; split <;> rfl
  | call op =>
    simp only [Manager.step]
    split
    · rfl
    · exact hon ..
  | discard uid =>
    simp only [Manager.step]
    split
    · rfl
    · exact hon ..
  | object i op =>
    simp only [Manager.step]
    split
    · exact hon ..
    · rfl

theorem callsOn_later {m : Manager} (hm : m.Proper) {i : Nat} (hi : m.stores.length ≤ i) (op : ManagerOp)
    (rest : List ManagerOp) : callsOn i m.stores.length m.current (op :: rest) =
      callsOn i (m.step op).1.stores.length (m.step op).1.current rest := by
  have hc : m.current ≠ some i := fun h => by have := hm.current i h; omega
  have hon : ∀ j f, (m.on j f).1.current = m.current := by
    intro j f
    unfold Manager.on
    split <;> rfl
  cases op with
  | newStorage id host => simp [callsOn, Manager.step]
  | setStorage j =>
    cases j with
    | none => rfl
    | some j =>
      simp only [callsOn, Manager.step]
      by_cases hj : j < m.stores.length
      · rw [if_pos hj, if_pos hj]
      · rw [if_neg hj, if_neg hj]
  | call op =>
    rw [step_count _ (by simp)]
    simp only [callsOn, Manager.step]
    rw [if_neg hc]
    cases hcc : m.current with
    | none => simp [hcc]
    | some j => simp only []; rw [hon, hcc]
  | discard uid =>
    rw [step_count _ (by simp)]
    simp only [callsOn, Manager.step]
    rw [if_neg hc]
    cases hcc : m.current with
    | none => simp [hcc]
    | some j => simp only []; rw [hon, hcc]
  | object j op =>
    rw [step_count _ (by simp)]
    simp only [callsOn, Manager.step]
    rw [if_neg (fun h => absurd h.2.1 (by omega))]
    split
    · rw [hon]
    · rfl

theorem run_made (ops : List ManagerOp) {m : Manager} (hm : m.Proper) {i : Nat} (hi : m.stores.length ≤ i) :
    (m.run ops).stores[i]? = ((made ops)[i - m.stores.length]?).map fun p =>
      ((freshWorld p.1 p.2).run (callsOn i m.stores.length m.current ops)).store := by
  induction ops generalizing m with
  | nil => simp [Manager.run, made, hi]
  | cons op rest ih =>
    rw [callsOn_later hm hi op rest]
    show ((m.step op).1.run rest).stores[i]? = _
    have hp := manager_proper hm op
    by_cases hn : ∃ id host, op = .newStorage id host
    · obtain ⟨id, host, rfl⟩ := hn
      have hl : (m.step (.newStorage id host)).1.stores.length = m.stores.length + 1 := by
        simp [Manager.step]
      by_cases hii : i = m.stores.length
      · have hs : (m.step (.newStorage id host)).1.stores[i]? = some ⟨id, host, []⟩ := by
          rw [hii]; simp [Manager.step]
        rw [run_seen rest hp hs]
        subst hii
        simp [made, freshWorld]
      · rw [ih hp (by omega), hl]
        have : i - m.stores.length = (i - (m.stores.length + 1)) + 1 := by omega
        rw [this]
        simp [made]
    · have hl := step_count (m := m) op (fun id host h => hn ⟨id, host, h⟩)
      rw [ih hp (by omega), hl]
      have : made (op :: rest) = made rest := by
        cases op with
        | newStorage id host => exact absurd ⟨id, host, rfl⟩ hn
        | _ => rfl
      rw [this]

theorem newManager_proper : newManager.Proper := ⟨fun i h => (by cases h), fun i s h => (by simp [newManager] at h)⟩

/-- C114: whatever a client does with several storages and a manager that is switched between them, every storage holds
what it would hold behind a manager of its own, after those calls that were made while the manager used it and the
methods called on its own events. -/
theorem C114_history (ops : List ManagerOp) (i : Nat) :
    (newManager.run ops).stores[i]? =
      ((made ops)[i]?).map fun p => ((freshWorld p.1 p.2).run (callsOn i 0 none ops)).store :=
  run_made ops newManager_proper (Nat.zero_le i)

theorem run_proper (ops : List ManagerOp) {m : Manager} (hm : m.Proper) : (m.run ops).Proper := by
  induction ops generalizing m with
  | nil => exact hm
  | cons op rest ih => exact ih (manager_proper hm op)

/-- C114: every call and every query is answered, and every notification sent, as by the manager of its own. -/
theorem C114_answers (ops : List ManagerOp) (i : Nat) (hi : (newManager.run ops).current = some i) :
    ∃ id host, (made ops)[i]? = some (id, host) ∧
      (∀ op, ((newManager.run ops).step (.call op)).2 =
        (((freshWorld id host).run (callsOn i 0 none ops)).step op).2) ∧
      (∀ op, ∃ notes, ((newManager.run ops).step (.call op)).1.log = (newManager.run ops).log ++ notes ∧
        (((freshWorld id host).run (callsOn i 0 none ops)).step op).1.log =
          ((freshWorld id host).run (callsOn i 0 none ops)).log ++ notes) ∧
      ∀ (α : Type) (f : Storage → Res α), (newManager.run ops).query f =
        f ((freshWorld id host).run (callsOn i 0 none ops)).store := by
  have hm := run_proper ops newManager_proper
  obtain ⟨s, hs⟩ := getElem_of_current hm hi
  have hh := C114_history ops i
  rw [hs] at hh
  cases hmade : (made ops)[i]? with
  | none => rw [hmade] at hh; cases hh
  | some p =>
    obtain ⟨id, host⟩ := p
    rw [hmade] at hh
    injection hh with hh
    simp only [] at hh
    refine ⟨id, host, rfl, ?_⟩
    generalize (freshWorld id host).run (callsOn i 0 none ops) = w at hh ⊢
    obtain ⟨s', l⟩ := w
    simp only [] at hh
    subst hh
    refine ⟨fun op => ?_, fun op => ⟨(World.step ⟨s, []⟩ op).1.log, ?_, ?_⟩, fun α f => ?_⟩
    · simp only [Manager.step, hi]
      rw [on_eq hs, step_after s l op]
    · simp only [Manager.step, hi]
      rw [on_eq hs]
    · rw [step_after s l op]
    · unfold Manager.query
      rw [hi]
      simp only [Option.bind_some, hs]

/-- C114: without a storage nothing is done: every call raises AttributeError, or KeyError for an import into a calendar
with an unknown attendee, and changes nothing; so do the deletion of an event at hand and every query of the storage. -/
theorem C114_none (m : Manager) (h : m.current = none) (op : Op) :
    (m.step (.call op)).1 = m ∧
    ((m.step (.call op)).2 = raise .AttributeError ∨ (m.step (.call op)).2 = raise .KeyError ∧
      ∃ tz c src vs b e cr sync, op = .import_ tz c src vs b e cr sync ∧ ∃ a, Dict.has c a = true ∧ Dict.has src a = false) ∧
    (∀ uid, m.step (.discard uid) = (m, raise .AttributeError)) ∧
    ∀ (α : Type) (f : Storage → Res α), m.query f = raise .AttributeError := by
  refine ⟨by simp only [Manager.step, h], ?_, fun uid => by simp only [Manager.step, h], fun α f => by simp [Manager.query, h]⟩
  simp only [Manager.step, h]
  cases op with
  | import_ tz c src vs b e cr sync =>
    simp only [noStorage]
    have key : ∀ l : List AttId, (∃ r, lookupAll src l = .ok r) ∨
        lookupAll src l = raise .KeyError ∧ ∃ a ∈ l, Dict.has src a = false := by
      intro l
      induction l with
      | nil => exact .inl ⟨[], rfl⟩
      | cons a rest ih =>
        unfold lookupAll Source.getAttendee
        by_cases ha : Dict.has src a = true
        · rw [if_pos ha, ok_bind]
          rcases ih with ⟨r, hr⟩ | ⟨hr, x, hx, hx'⟩
          · left; rw [hr]; exact ⟨a :: r, rfl⟩
          · right; rw [hr]; exact ⟨rfl, x, List.mem_cons_of_mem _ hx, hx'⟩
        · right
          rw [if_neg ha]
          exact ⟨rfl, a, List.mem_cons_self .., by simpa using ha⟩
    rcases key (Dict.keys c) with ⟨r, hr⟩ | ⟨hr, a, ha, ha'⟩
    · left
      unfold Calendar.criteria Calendar.getAttendees
      rw [hr, ok_bind]
      cases cr <;> rfl
    · right
      refine ⟨?_, tz, c, src, vs, b, e, cr, sync, rfl, a, (Dict.has_iff_mem_keys c a).2 ha, ha'⟩
      unfold Calendar.criteria Calendar.getAttendees
      rw [hr]
      rfl
  | _ => exact .inl rfl

/-- C114: an event of another storage cannot be deleted unless the storage in use has an event with the same id. -/
theorem C114_foreign (m : Manager) (hm : m.Proper) (i : Nat) (s : Storage) (hc : m.current = some i)
    (hs : m.stores[i]? = some s) (uid : Uid) (h : s.hasEvent uid = false) :
    m.step (.discard uid) = (m, raise .KeyError) := by
  simp only [Manager.step, hc]
  have hw := hm.wf i s hs
  have hg : s.getEvent uid = raise .KeyError := by
    unfold Storage.getEvent
    cases hg : Dict.get? s.events uid with
    | none => rfl
    | some e => rw [Storage.hasEvent_iff.2 ⟨e, hg⟩] at h; cases h
  rw [on_delete hs hw, on_eq hs]
  have : World.step ⟨s, []⟩ (.delete uid) = (⟨s, []⟩, raise .KeyError) := by
    simp only [World.step, hg]
    rfl
  rw [this]
  simp only [List.append_nil]
  have hi := (List.getElem?_eq_some_iff.1 hs)
  obtain ⟨hi, rfl⟩ := hi
  rw [List.set_getElem_self]

/-- C114: the blocked periods are those of the storage in use; without attendees no storage is needed. -/
theorem C114_blocked (m : Manager) (i : Nat) (s : Storage) (hc : m.current = some i) (hs : m.stores[i]? = some s)
    (atts : List AttId) (b e : Int) (tb te : Int) :
    m.getBlockedPeriods atts b e tb te = s.getBlockedPeriods atts b e tb te := by
  unfold Manager.getBlockedPeriods
  cases atts with
  | nil => rfl
  | cons a l =>
    unfold Manager.query
    rw [hc]
    simp only [Option.bind_some, hs]

/-! ### C115 -/

theorem split_last {α : Type} {x : α} {a b a' b' : List α} (h : a ++ x :: b = a' ++ x :: b') (hb : x ∉ b) (hb' : x ∉ b') :
    a = a' ∧ b = b' := by
  rcases List.append_eq_append_iff.1 h with ⟨c, h1, h2⟩ | ⟨c, h1, h2⟩
  · cases c with
    | nil => simp at h1 h2; exact ⟨h1.symm, h2⟩
    | cons y c =>
      simp only [List.cons_append, List.cons.injEq] at h2
      exact absurd (h2.2 ▸ List.mem_append_right c (List.mem_cons_self ..)) hb
  · cases c with
    | nil => simp at h1 h2; exact ⟨h1, h2.symm⟩
    | cons y c =>
      simp only [List.cons_append, List.cons.injEq] at h2
      exact absurd (h2.2 ▸ List.mem_append_right c (List.mem_cons_self ..)) hb'

theorem dash_not_mem (n : Nat) : '-' ∉ (toString n : String).toList := by
  intro h
  rw [toList_toString] at h
  have := Nat.isDigit_of_mem_toDigits (by decide) (by decide) h
  revert this
  decide

/-- C115: if the names of hosts do not contain an at sign, an id tells which storage on which host made it. -/
theorem C115_maker (id id' host host' : String) (u : Uid) (n n' : Nat) (h1 : '@' ∉ host.toList) (h2 : '@' ∉ host'.toList)
    (h : GeneratedId id host u n) (h' : GeneratedId id' host' u n') : id = id' ∧ host = host' ∧ n = n' := by
  obtain ⟨t, ht, rfl⟩ := h
  obtain ⟨t', ht', h'⟩ := h'
  have hl := congrArg String.toList h'
  rw [C61_shape, C61_shape] at hl
  simp only [List.append_assoc] at hl
  have e1 : (iso8601 t).toList.length = (iso8601 t').toList.length := by
    rw [String.length_toList, String.length_toList, iso8601_length ht, iso8601_length ht']
  have hl := (List.append_inj hl e1).2
  simp only [List.cons_append, List.nil_append, List.cons.injEq, true_and] at hl
  obtain ⟨e2, e3⟩ := split_last hl h1 h2
  simp only [String.toList_append, List.append_assoc] at e2
  have hd : "-".toList = ['-'] := rfl
  rw [hd] at e2
  simp only [List.cons_append, List.nil_append] at e2
  obtain ⟨e4, e5⟩ := split_last e2 (dash_not_mem n) (dash_not_mem n')
  have hid := String.toList_inj.1 e4
  have hhost := String.toList_inj.1 e3
  subst hid hhost
  exact ⟨rfl, rfl, generatedId_inj ⟨t, ht, rfl⟩ ⟨t', ht', h'⟩⟩

/-- What `OwnIds` says about the calls on one storage. -/
def OwnOp : Op → Prop
  | .create now uid _ => uid = none ∧ dtInRange now = true
  | .attendeeCreate now _ _ => dtInRange now = true
  | .import_ .. => False
  | _ => True

theorem callsOn_own (ops : List ManagerOp) (h : ∀ op ∈ ops, OwnIds op) (i n : Nat) (cur : Option Nat) :
    ∀ op ∈ callsOn i n cur ops, OwnOp op := by
  induction ops generalizing n cur with
  | nil => intro op hop; cases hop
  | cons x rest ih =>
    have ih := ih (fun op hop => h op (List.mem_cons_of_mem _ hop))
    have hx := h x (List.mem_cons_self ..)
    have key : ∀ (c : Prop) [Decidable c] (y : Op), (c → OwnOp y) → ∀ n cur,
        ∀ op ∈ (if c then y :: callsOn i n cur rest else callsOn i n cur rest), OwnOp op := by
      intro c _ y hy n cur op hop
      split at hop
      · rename_i hc
        rcases List.mem_cons.1 hop with rfl | hop
        · exact hy hc
        · exact ih _ _ _ hop
      · exact ih _ _ _ hop
    cases x with
    | newStorage id host => exact ih _ _
    | setStorage j =>
      cases j with
      | none => exact ih _ _
      | some j => exact ih _ _
    | call op =>
      refine key _ op (fun _ => ?_) n cur
      cases op <;> exact hx
    | discard uid => exact key _ (.delete uid) (fun _ => trivial) n cur
    | object j op =>
      refine key _ op (fun hc => ?_) n cur
      have := hc.2.2
      cases op <;> trivial

theorem run_generated (ops : List Op) {w : World} (hw : w.store.WF) (h : ∀ op ∈ ops, OwnOp op)
    (hg : ∀ u e, Dict.get? w.store.events u = some e → ∃ n, GeneratedId w.store.id w.store.host u n) :
    (w.run ops).store.id = w.store.id ∧ (w.run ops).store.host = w.store.host ∧
    ∀ u e, Dict.get? (w.run ops).store.events u = some e → ∃ n, GeneratedId w.store.id w.store.host u n := by
  induction ops generalizing w with
  | nil => exact ⟨rfl, rfl, hg⟩
  | cons op rest ih =>
    have hk := step_keeps w op
    have := ih (w := (w.step op).1) ((w.step_many op).wf hw) (fun x hx => h x (List.mem_cons_of_mem _ hx)) (by
      intro u e he
      rw [hk.1, hk.2]
      cases hu : Dict.get? w.store.events u with
      | some e' => exact hg u e' hu
      | none =>
        have hop := h op (List.mem_cons_self ..)
        by_cases hc : MayCreate w.store u op
        · cases op with
          | create now uid spec =>
            obtain ⟨rfl, hr⟩ := hop
            exact ⟨_, now, hr, hc⟩
          | attendeeCreate now a spec => exact ⟨_, now, hop, hc⟩
          | import_ => exact absurd hop id
          | _ => exact absurd hc id
        · rw [step_new hw hu hc] at he
          cases he)
    rw [hk.1, hk.2] at this
    exact this

/-- C115: if storages choose the ids themselves and hosts are named without at signs, no id is found in two storages that
differ in id or host. -/
theorem C115_histories (ops : List ManagerOp) (h : ∀ op ∈ ops, OwnIds op) (i j : Nat) (p q : String × String)
    (hp : (made ops)[i]? = some p) (hq : (made ops)[j]? = some q) (hpq : p ≠ q) (h1 : '@' ∉ p.2.toList)
    (h2 : '@' ∉ q.2.toList) : ∃ s t, (newManager.run ops).stores[i]? = some s ∧ (newManager.run ops).stores[j]? = some t ∧
      ∀ u, ¬ (s.hasEvent u = true ∧ t.hasEvent u = true) := by
  refine ⟨_, _, (C114_history ops i).trans (by rw [hp]; rfl), (C114_history ops j).trans (by rw [hq]; rfl), ?_⟩
  rintro u ⟨hs, ht⟩
  obtain ⟨e, he⟩ := Storage.hasEvent_iff.1 hs
  obtain ⟨e', he'⟩ := Storage.hasEvent_iff.1 ht
  have key := fun (r : String × String) (k : Nat) => run_generated (callsOn k 0 none ops)
    (freshWorld_wf r.1 r.2) (callsOn_own ops h k 0 none) (fun u e he => by cases he)
  obtain ⟨n, hn⟩ := (key p i).2.2 u e he
  obtain ⟨n', hn'⟩ := (key q j).2.2 u e' he'
  obtain ⟨h3, h4, _⟩ := C115_maker _ _ _ _ u n n' h1 h2 hn hn'
  exact hpq (Prod.ext h3 h4)

/-- C115: with at signs in the names of hosts, different storages on different hosts may make the same id. -/
theorem C115_at_counterexample :
    addrspecUniqueId Sample.day ("a" ++ "-" ++ toString 0) "x@b-0@y" = addrspecUniqueId Sample.day ("a-0@x@b" ++ "-" ++ toString 0) "y" := by
  decide +kernel

/-- C115: storages of the same name on the same host make the same id within a second, and one storage can be given the
ids of another. -/
theorem C115_same_counterexample :
    let ops : List ManagerOp := [.newStorage "st" "host", .newStorage "st" "host",
      .setStorage (some 0), .call (.create Sample.day none Sample.meeting),
      .setStorage (some 1), .call (.create (Sample.day + 999999) none Sample.trip)]
    (newManager.run ops).stores.map (fun s => (Dict.keys s.events)) = [["20260302T000000-st-0@host"], ["20260302T000000-st-0@host"]] := by
  decide +kernel

/-! ### A case -/

namespace Sample

/-- Two storages, used in turn: a meeting is created in the first, a trip in the second; meanwhile Bob accepts the meeting, which
is in the storage not in use; and the meeting cannot be deleted until the manager is switched back. -/
def twoStorages : List ManagerOp :=
  [.newStorage "st" "host", .setStorage (some 0), .call (.create day none meeting),
   .newStorage "other" "host", .setStorage (some 1), .call (.create day none trip),
   .object 0 (.setStatus "20260302T000000-st-0@host" "bob" "ACCEPTED"),
   .discard "20260302T000000-st-0@host"]

end Sample

example : made Sample.twoStorages = [("st", "host"), ("other", "host")] ∧ (newManager.run Sample.twoStorages).current = some 1 ∧
    (newManager.run Sample.twoStorages).stores.map (fun s => Dict.keys s.events) =
      [["20260302T000000-st-0@host"], ["20260302T000000-other-0@host"]] ∧
    (callsOn 0 0 none Sample.twoStorages).length = 2 ∧ (callsOn 1 0 none Sample.twoStorages).length = 2 ∧
    ((newManager.run Sample.twoStorages).stores[0]?.bind
      (fun s => (Dict.get? s.events "20260302T000000-st-0@host").map (fun e => e.getStatus "bob"))) = some (some "ACCEPTED") ∧
    ((newManager.run Sample.twoStorages).step (.discard "20260302T000000-st-0@host")).2 = raise .KeyError ∧
    ((newManager.run (Sample.twoStorages ++ [.setStorage (some 0), .discard "20260302T000000-st-0@host"])).stores.map
      (fun s => s.events.length)) = [0, 1] := by
  decide +kernel
example : ∀ op ∈ Sample.twoStorages, OwnIds op := by
  intro op hop
  simp only [Sample.twoStorages, List.mem_cons, List.not_mem_nil, or_false] at hop
  rcases hop with rfl | rfl | rfl | rfl | rfl | rfl | rfl | rfl <;> trivial
example : newManager.step (.call (.create Sample.day none Sample.meeting)) = (newManager, raise .AttributeError) := rfl
example : (newManager.step (.call (.import_ (fun _ => 0) [("bob", ())] [] [] none none none false))).2 = raise .KeyError := by
  decide +kernel

end CalCore
