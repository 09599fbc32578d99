import Verif.Spec.Store
import Verif.Lemmas.Store
import Verif.Props.Samples
import Verif.Props.Dates
import Verif.Lemmas.Text
/- Properties C32, C33, C34, C38 and C61: the store as a map, generated ids, notifications, failures. -/
namespace CalCore
open Spec

/-- The map represented by a store. -/
def Storage.map (s : Storage) : EventMap := fun u => Dict.get? s.events u

/-! ### C32 -/

theorem map_set (s : Storage) (u : Uid) (e : Event) :
    Storage.map { s with events := Dict.set s.events u e } = s.map.put u (some e) := by
  funext k
  unfold Storage.map EventMap.put
  rw [Dict.get?_set]
  by_cases h : u = k
  · rw [if_pos h, if_pos h.symm]
  · rw [if_neg h, if_neg (fun h' => h h'.symm)]

theorem map_del (s : Storage) (u : Uid) :
    Storage.map { s with events := Dict.del s.events u } = s.map.put u none := by
  funext k
  unfold Storage.map EventMap.put
  rw [Dict.get?_del]
  by_cases h : u = k
  · rw [if_pos h, if_pos h.symm]
  · rw [if_neg h, if_neg (fun h' => h h'.symm)]

theorem onEvent_map (w : World) (u : Uid) (f : Event → Event × List Note × Res Unit) :
    ((w.onEvent u f).1.store.map, (w.onEvent u f).2) =
      w.store.map.on u (fun e => ((f e).1, (f e).2.2)) := by
  unfold World.onEvent EventMap.on
  cases h : w.store.getEvent u with
  | error x =>
    obtain ⟨rfl, hn⟩ := Storage.getEvent_error.1 h
    have : w.store.map u = none := hn
    rw [this]
  | ok e =>
    have : w.store.map u = some e := Storage.getEvent_ok.1 h
    rw [this]
    simp only []
    rw [map_set]

theorem createEvent_map (w : World) (now : DateTime) (uid : Option Uid) (spec : Spec) :
    ((dropRes (w.createEvent now uid spec)).1.store.map, (dropRes (w.createEvent now uid spec)).2) =
      w.store.map.create (uid.getD (w.store.autoId now)) spec := by
  unfold EventMap.create
  rcases w.createEvent_eq now uid spec with ⟨f, hn, h⟩ | ⟨e, hn, hu, h⟩
  · rw [hn, h]; rfl
  · rw [hn, h]
    unfold dropRes
    simp only []
    rw [map_set, hu]
    rfl

/-- C32: every call other than `import_` (see C46, C47 for it) acts on the store as on a map. -/
theorem C32_step (w : World) (hw : w.store.WF) (op : Op) (hop : NoImport op) :
    ((w.step op).1.store.map, (w.step op).2) = w.store.map.step (w.store.autoId (clock op)) op := by
  cases op with
  | create now uid spec => exact createEvent_map w now uid spec
  | attendeeCreate now a spec => exact createEvent_map w now none _
  | delete uid =>
    unfold World.step EventMap.step
    simp only []
    cases h : w.store.getEvent uid with
    | error x =>
      obtain ⟨rfl, hn⟩ := Storage.getEvent_error.1 h
      have : w.store.map uid = none := hn
      rw [this]
    | ok e =>
      have hg := Storage.getEvent_ok.1 h
      have : w.store.map uid = some e := hg
      rw [this]
      simp only []
      rw [hw.uid _ _ hg]
      rcases w.deleteEvent_eq uid with ⟨hh, _⟩ | ⟨_, h⟩
      · rw [Dict.has_false_iff] at hh; rw [hh] at hg; cases hg
      · rw [h]; simp only []; rw [map_del]
  | setStatus uid a st => exact onEvent_map w uid _
  | setRole uid a role => exact onEvent_map w uid _
  | invite uid atts => exact onEvent_map w uid _
  | alldayAdjust uid => exact onEvent_map w uid _
  | edit uid spec => exact onEvent_map w uid _
  | import_ => exact hop.elim

/-- The calls of a history with the ids generated on the way. -/
def withIds (w : World) : List Op → List (Op × Uid)
  | [] => []
  | op :: rest => (op, w.store.autoId (clock op)) :: withIds (w.step op).1 rest

/-- C32: after every history without imports the store is the map obtained by executing the calls on a map,
starting with the empty one. -/
theorem C32_history (id host : String) (ops : List Op) (hops : ∀ op ∈ ops, NoImport op) :
    ((freshWorld id host).run ops).store.map =
      EventMap.run (fun _ => none) (withIds (freshWorld id host) ops) := by
  have key : ∀ (ops : List Op) (w : World), w.store.WF → (∀ op ∈ ops, NoImport op) →
      (w.run ops).store.map = EventMap.run w.store.map (withIds w ops) := by
    intro ops
    induction ops with
    | nil => intro w _ _; rfl
    | cons op rest ih =>
      intro w hw ho
      have hs := C32_step w hw op (ho op (List.mem_cons_self ..))
      have hw' := (w.step_many op).wf hw
      have := ih (w.step op).1 hw' (fun x hx => ho x (List.mem_cons_of_mem _ hx))
      show ((w.step op).1.run rest).store.map = _
      rw [this]
      show _ = EventMap.run (w.store.map.step _ op).1 (withIds (w.step op).1 rest)
      rw [← hs]
  exact key ops _ (freshWorld_wf id host) hops

/-- C32: `getEvent` returns what the map holds, raises KeyError exactly when it holds nothing, and
`hasEvent` agrees. -/
theorem C32_getEvent (s : Storage) (u : Uid) :
    (∀ e, s.getEvent u = .ok e ↔ s.map u = some e) ∧
      (∀ f, s.getEvent u = .error f ↔ f = .py .KeyError ∧ s.map u = none) ∧
      (s.hasEvent u = true ↔ ∃ e, s.map u = some e) :=
  ⟨fun _ => Storage.getEvent_ok, fun _ => Storage.getEvent_error, Storage.hasEvent_iff⟩

/-- C32: deleting raises KeyError exactly when there is no event, and otherwise succeeds. -/
theorem C32_deleteEvent (w : World) (u : Uid) :
    ((w.deleteEvent u).2 = raise .KeyError ↔ w.store.map u = none) ∧
      ((w.deleteEvent u).2 = .ok () ↔ ∃ e, w.store.map u = some e) := by
  have hm : w.store.map u = Dict.get? w.store.events u := rfl
  rcases w.deleteEvent_eq u with ⟨hh, h⟩ | ⟨hh, h⟩
  · rw [Dict.has_false_iff] at hh
    rw [h, hm, hh]; simp [raise]
  · obtain ⟨v, hv⟩ := (Dict.has_iff_get? _ _).1 hh
    rw [h, hm, hv]; simp [raise]

/-- C32: the latest creation wins, whatever was stored, and the event is found afterwards. -/
theorem C32_latest (w : World) (now : DateTime) (uid : Option Uid) (spec : Spec) (e : Event)
    (h : (w.createEvent now uid spec).2 = .ok e) (k : Uid) :
    (w.createEvent now uid spec).1.store.map k = if k = e.uid then some e else w.store.map k := by
  rcases w.createEvent_eq now uid spec with ⟨f, _, h'⟩ | ⟨e', hn, hu, h'⟩
  · rw [h'] at h; cases h
  · rw [h'] at h ⊢
    injection h with h
    subst h
    simp only []
    rw [map_set]
    rfl

/-- C32, concrete: in the sample history "x" is created and deleted, "m" stays. -/
example : (∀ op ∈ Sample.ops, NoImport op) ∧ Sample.store.hasEvent "x" = false ∧ Sample.store.hasEvent "m" = true ∧
    Sample.store.getEvent "x" = raise .KeyError := by
  refine ⟨?_, by decide +kernel, by decide +kernel, by decide +kernel⟩
  intro op hop
  simp only [Sample.ops, List.mem_cons, List.not_mem_nil, or_false] at hop
  rcases hop with rfl | rfl | rfl | rfl | rfl | rfl <;> trivial

/-! ### C33 -/

theorem iso8601_length {now : Int} (h : dtInRange now = true) : (iso8601 now).length = 15 := by
  have h1 := (dateInRange_iff_year _).1 ((dtInRange_date now).1 h)
  obtain ⟨h2, h2', h3, h3'⟩ := validYmd_date (dtDate now)
  have h4 := daysInMonth_pos (dyear (dtDate now)) (dmonth (dtDate now))
  have ht := dtTime_range now
  unfold iso8601 icalTime
  simp only [String.length_append]
  rw [padNat_length (k := 4) (by omega) (by omega), padNat_length (k := 2) (by omega) (by omega),
    padNat_length (k := 2) (by omega) (by omega), padNat_length (k := 2) (by unfold DAY at ht; omega) (by omega),
    padNat_length (k := 2) (by omega) (by omega), padNat_length (k := 2) (by omega) (by omega)]
  rfl

/-- The number can be read off a generated id. -/
theorem generatedId_inj {id host : String} {u : Uid} {n m : Nat} (h : GeneratedId id host u n)
    (h' : GeneratedId id host u m) : n = m := by
  obtain ⟨now, hr, rfl⟩ := h
  obtain ⟨now', hr', h⟩ := h'
  unfold addrspecUniqueId at h
  have hl := congrArg String.toList h
  simp only [String.toList_append, List.append_assoc] at hl
  have e1 : (iso8601 now).toList.length = (iso8601 now').toList.length := by
    rw [String.length_toList, String.length_toList, iso8601_length hr, iso8601_length hr']
  obtain ⟨_, h2⟩ := List.append_inj hl e1
  have h3 := List.append_cancel_left h2
  have h4 := List.append_cancel_left h3
  have h5 := List.append_cancel_left h4
  have h6 := List.append_cancel_right h5
  have h7 : (toString n : String) = toString m := String.toList_inj.1 h6
  exact Nat.repr_injective h7

/-- C61: `iso8601` writes year, month, day, a T, hours, minutes and seconds as 4, 2, 2, 2, 2, 2 decimal
digits, for every Python datetime: 15 characters. -/
theorem C61_iso8601 (t : Int) (h : dtInRange t = true) :
    (iso8601 t).length = 15 ∧ ∃ y m d hh mm ss : Nat,
      (iso8601 t).toList = digits 4 y ++ digits 2 m ++ digits 2 d ++ ['T'] ++ digits 2 hh ++ digits 2 mm ++ digits 2 ss ∧
      1 ≤ y ∧ y ≤ 9999 ∧ mkDate y m d = .ok (dtDate t) ∧ hh < 24 ∧ mm < 60 ∧ ss < 60 ∧
      ∃ us : Nat, us < 1000000 ∧ t = combine (dtDate t) ((((hh * 60 + mm) * 60 + ss : Nat) : Int) * 1000000 + us) := by
  have hr := (dtInRange_date t).1 h
  have h1 := (dateInRange_iff_year _).1 hr
  have hv := validYmd_date (dtDate t)
  obtain ⟨h2, h2', h3, h3'⟩ := id hv
  have h4 := daysInMonth_pos (dyear (dtDate t)) (dmonth (dtDate t))
  have ht := dtTime_range t
  refine ⟨iso8601_length h, (dyear (dtDate t)).toNat, (dmonth (dtDate t)).toNat, (dday (dtDate t)).toNat,
    (dtTime t / 3600000000).toNat, (dtTime t / 60000000 % 60).toNat, (dtTime t / 1000000 % 60).toNat,
    ?_, by omega, by omega, ?_, by unfold DAY at ht; omega, by omega, by omega, (dtTime t % 1000000).toNat, by omega, ?_⟩
  · unfold iso8601 icalTime
    simp only [String.toList_append]
    rw [padNat_digits (k := 4) (by omega) (by omega), padNat_digits (k := 2) (by omega) (by omega),
      padNat_digits (k := 2) (by omega) (by omega), padNat_digits (k := 2) (by omega) (by unfold DAY at ht; omega),
      padNat_digits (k := 2) (by omega) (by omega), padNat_digits (k := 2) (by omega) (by omega)]
    simp
  · rw [Int.toNat_of_nonneg (by omega), Int.toNat_of_nonneg (by omega), Int.toNat_of_nonneg (by omega),
      mkDate_ok hv h1.1 h1.2, ymd2ord_date]
  · have := combine_dt t
    unfold combine at this ⊢
    unfold DAY at *
    omega

/-- C61: an id is the timestamp, a dash, the maker, an at sign and the host. -/
theorem C61_shape (now : Int) (maker host : String) :
    (addrspecUniqueId now maker host).toList =
      (iso8601 now).toList ++ ['-'] ++ maker.toList ++ ['@'] ++ host.toList := by
  unfold addrspecUniqueId
  simp only [String.toList_append]
  rfl

/-- C61: for one host and storage, ids with different counts differ, whatever the clock readings. -/
theorem C61_distinct (id host : String) (t t' : Int) (n n' : Nat) (ht : dtInRange t = true)
    (ht' : dtInRange t' = true) (hn : n ≠ n') :
    addrspecUniqueId t (id ++ "-" ++ toString n) host ≠ addrspecUniqueId t' (id ++ "-" ++ toString n') host :=
  fun h => hn (generatedId_inj (id := id) (host := host) ⟨t, ht, rfl⟩ ⟨t', ht', h⟩)

/-- C61: an event created without an id gets the id made of the timestamp, the id of the storage, the number of
stored events in decimal notation, and the host. -/
theorem C61_created (s s' : Storage) (now : Int) (spec : Spec) (e : Event)
    (h : s.createEvent now none spec = (s', .ok e)) :
    e.uid.toList = (iso8601 now).toList ++ ['-'] ++ s.id.toList ++ ['-'] ++ (Nat.repr s.events.length).toList ++
      ['@'] ++ s.host.toList ∧ Dict.get? s'.events e.uid = some e := by
  unfold Storage.createEvent at h
  simp only [] at h
  cases hn : newEvent ((none : Option Uid).getD (s.autoId now)) spec with
  | error f => rw [hn] at h; injection h with _ h; cases h
  | ok e' =>
    rw [hn] at h
    injection h with h1 h2
    injection h2 with h2
    subst h1 h2
    have hu : e'.uid = s.autoId now := newEvent_uid hn
    refine ⟨?_, ?_⟩
    · rw [hu]
      unfold Storage.autoId
      rw [C61_shape]
      simp only [String.toList_append, List.append_assoc]
      rfl
    · rw [hu]; exact Dict.get?_set_self _ _ _

example : ((Sample.store.createEvent (Sample.day + 37 * Sample.HOUR / 4) none
    { dtstart := Sample.day, duration := some DAY }).2.map (fun e => e.uid)) = .ok "20260302T091500-st-3@host" := by
  decide +kernel

/-- C61, concrete. -/
example : dtInRange Sample.day = true ∧
    addrspecUniqueId (Sample.day + 37 * Sample.HOUR / 4) "st-12" "host" = "20260302T091500-st-12@host" := by decide +kernel

/-- Generated ids in the store have a number below its size. -/
def IdsBelow (s : Storage) : Prop :=
  ∀ k e n, Dict.get? s.events k = some e → GeneratedId s.id s.host k n → n < s.events.length

theorem idsBelow_fresh {s : Storage} (h : IdsBelow s) {now : Int} (hr : dtInRange now = true) :
    Dict.get? s.events (s.autoId now) = none := by
  cases hg : Dict.get? s.events (s.autoId now) with
  | none => rfl
  | some e =>
    have := h _ e s.events.length hg ⟨now, hr, rfl⟩
    omega

theorem length_set_of_none {κ ν : Type} [DecidableEq κ] {d : Dict κ ν} {k : κ} (h : Dict.get? d k = none) (v : ν) :
    (Dict.set d k v).length = d.length + 1 := by
  rw [Dict.set_of_not_mem ((Dict.get?_eq_none d k).1 h)]; simp

theorem step_keeps (w : World) (op : Op) :
    (w.step op).1.store.id = w.store.id ∧ (w.step op).1.store.host = w.store.host := by
  have := (w.step_many op).preserves (P := fun w' => w'.store.id = w.store.id ∧ w'.store.host = w.store.host)
    (by intro a b hs h; cases hs <;> exact h) ⟨rfl, rfl⟩
  exact this

theorem create_idsBelow {w : World} (h : IdsBelow w.store) {now : Int} (hr : dtInRange now = true) (spec : Spec) :
    IdsBelow (w.createEvent now none spec).1.store := by
  rcases w.createEvent_eq now none spec with ⟨f, _, h'⟩ | ⟨e, hn, hu, h'⟩
  · rw [h']; exact h
  · rw [h']
    have hf := idsBelow_fresh h hr
    simp only [Option.getD_none] at hu
    intro k e' n hk hg
    simp only [] at hk hg ⊢
    rw [hu] at hk ⊢
    rw [length_set_of_none hf]
    rw [Dict.get?_set] at hk
    split at hk
    · rename_i hke
      have := generatedId_inj hg (m := w.store.events.length) ⟨now, hr, hke.symm⟩
      omega
    · have := h k e' n hk hg; omega

theorem onEvent_idsBelow {w : World} (h : IdsBelow w.store) (u : Uid) (f : Event → Event × List Note × Res Unit) :
    IdsBelow (w.onEvent u f).1.store := by
  unfold World.onEvent
  cases hg : w.store.getEvent u with
  | error x => exact h
  | ok e =>
    have hge := Storage.getEvent_ok.1 hg
    intro k e' n hk hgen
    simp only [] at hk hgen ⊢
    have hm : u ∈ Dict.keys w.store.events := (Dict.has_iff_mem_keys _ _).1 ((Dict.has_iff_get? _ _).2 ⟨e, hge⟩)
    rw [Dict.length_set_of_mem hm]
    rw [Dict.get?_set] at hk
    split at hk
    · rename_i hke; subst hke; exact h u e n hge hgen
    · exact h k e' n hk hgen

theorem step_idsBelow {w : World} (h : IdsBelow w.store) (op : Op) (hop : KeepsIds w.store.id w.store.host op) :
    IdsBelow (w.step op).1.store := by
  cases op with
  | create now uid spec =>
    cases uid with
    | none => exact create_idsBelow h hop spec
    | some u =>
      show IdsBelow (w.createEvent now (some u) spec).1.store
      rcases w.createEvent_eq now (some u) spec with ⟨f, _, h'⟩ | ⟨e, hn, hu, h'⟩
      · rw [h']; exact h
      · rw [h']
        simp only [Option.getD_some] at hu
        intro k e' n hk hg
        simp only [] at hk hg ⊢
        rw [hu] at hk ⊢
        have hle := Dict.length_set_le w.store.events u e
        rw [Dict.get?_set] at hk
        split at hk
        · rename_i hke; subst hke; exact absurd hg (hop n)
        · have := h k e' n hk hg; omega
  | attendeeCreate now a spec => exact create_idsBelow h hop _
  | delete uid => exact hop.elim
  | setStatus uid a st => exact onEvent_idsBelow h uid _
  | setRole uid a role => exact onEvent_idsBelow h uid _
  | invite uid atts => exact onEvent_idsBelow h uid _
  | alldayAdjust uid => exact onEvent_idsBelow h uid _
  | edit uid spec => exact onEvent_idsBelow h uid _
  | import_ => exact hop.elim

/-- C33: in a history without deletions and imports, where explicit ids do not look like generated ones,
the id generated next is not in use.  Missing: histories with deletions, for which the statement is false
(`C33_delete_counterexample`). -/
theorem C33_fresh_partial (id host : String) (ops : List Op) (hops : ∀ op ∈ ops, KeepsIds id host op)
    (now : Int) (hr : dtInRange now = true) :
    ((freshWorld id host).run ops).store.hasEvent (((freshWorld id host).run ops).store.autoId now) = false := by
  have key : ∀ (ops : List Op) (w : World), w.store.id = id → w.store.host = host → IdsBelow w.store →
      (∀ op ∈ ops, KeepsIds id host op) → IdsBelow (w.run ops).store := by
    intro ops
    induction ops with
    | nil => intro w _ _ h _; exact h
    | cons op rest ih =>
      intro w h1 h2 h ho
      have hk := step_keeps w op
      refine ih _ (hk.1.trans h1) (hk.2.trans h2) (step_idsBelow h op ?_) (fun x hx => ho x (List.mem_cons_of_mem _ hx))
      rw [h1, h2]; exact ho op (List.mem_cons_self ..)
  have hb := key ops (freshWorld id host) rfl rfl (fun k e n hk _ => by simp [freshWorld] at hk) hops
  have := idsBelow_fresh hb hr
  rw [Bool.eq_false_iff]
  intro hh
  obtain ⟨e, he⟩ := Storage.hasEvent_iff.1 hh
  rw [this] at he; cases he

/-- C33, concrete: two creations in the same microsecond get different ids. -/
example : let w := (freshWorld "st" "host").run [.create Sample.day none Sample.trip, .attendeeCreate Sample.day "bob" Sample.trip]
    (∀ op ∈ [Op.create Sample.day none Sample.trip, .attendeeCreate Sample.day "bob" Sample.trip],
      KeepsIds "st" "host" op) ∧ Dict.keys w.store.events = ["20260302T000000-st-0@host", "20260302T000000-st-1@host"] := by
  refine ⟨fun op hop => ?_, by decide +kernel⟩
  simp only [List.mem_cons, List.not_mem_nil, or_false] at hop
  rcases hop with rfl | rfl
  · show dtInRange Sample.day = true; decide +kernel
  · show dtInRange Sample.day = true; decide +kernel

/-- C33 is false once events are deleted: after creating two events, deleting the first and creating a third
in the same second, the second event is gone. -/
theorem C33_delete_counterexample :
    let w := (freshWorld "st" "host").run
      [.create Sample.day none { dtstart := Sample.day, duration := some 0, title := "A" },
       .create Sample.day none { dtstart := Sample.day, duration := some 0, title := "B" },
       .delete "20260302T000000-st-0@host"]
    w.store.hasEvent (w.store.autoId (Sample.day + 999999)) = true ∧
    (Dict.values (w.run [.create (Sample.day + 999999) none
      { dtstart := Sample.day, duration := some 0, title := "C" }]).store.events).map (·.title) = ["C"] := by
  decide +kernel

/-! ### C34 -/

theorem subscriber_append_inner (notes : List Note) (hn : ∀ n ∈ notes, n.inner) (l : List Note) (u : Uid) :
    subscriber ((l ++ notes).reverse) u = subscriber l.reverse u := by
  rw [List.reverse_append]
  have hn' : ∀ n ∈ notes.reverse, n.inner := fun n h => hn n (List.mem_reverse.1 h)
  generalize notes.reverse = r at hn'
  induction r with
  | nil => rfl
  | cons n r ih =>
    rw [List.cons_append]
    have h1 := hn' n (List.mem_cons_self ..)
    have h2 := ih (fun x hx => hn' x (List.mem_cons_of_mem _ hx))
    cases n with
    | created v => exact h1.elim
    | deleted v => exact h1.elim
    | modified v => exact h2
    | participation v a o n => exact h2

/-- C34: in every history, imports included (also those that raise half-way), a subscriber that adds on
`created` and removes on `deleted` holds exactly the uids in the store. -/
theorem C34_mirror (id host : String) (ops : List Op) (u : Uid) :
    subscriber ((freshWorld id host).run ops).log.reverse u = ((freshWorld id host).run ops).store.hasEvent u := by
  have h := (World.run_many (freshWorld id host) ops).preserves
    (P := fun w => ∀ u, subscriber w.log.reverse u = (Dict.get? w.store.events u).isSome) ?_ (by intro u; rfl)
  · rw [h u, Bool.eq_iff_iff, Storage.hasEvent_iff, Option.isSome_iff_exists]
  · intro w w' hs hw u
    cases hs with
    | create uid spec e he =>
      simp only [List.reverse_append, List.reverse_singleton, List.singleton_append]
      rw [Dict.get?_set]
      unfold subscriber
      by_cases hu : u = uid
      · simp [hu]
      · rw [if_neg (fun h => hu h.symm)]
        simp only [hu, if_false]
        exact hw u
    | update uid e e' notes hg hu hn =>
      simp only []
      rw [subscriber_append_inner notes hn, Dict.get?_set, hw u]
      by_cases hue : uid = u
      · subst hue; rw [if_pos rfl, hg]; rfl
      · rw [if_neg hue]
    | delete uid hh =>
      simp only [List.reverse_append, List.reverse_singleton, List.singleton_append]
      rw [Dict.get?_del]
      unfold subscriber
      by_cases hu : u = uid
      · simp [hu]
      · rw [if_neg (fun h => hu h.symm)]
        simp only [hu, if_false]
        exact hw u

theorem onEvent_log (w : World) (u : Uid) (f : Event → Event × List Note × Res Unit)
    (hf : ∀ e x, (f e).2.2 = .error x → (f e).2.1 = []) {x : Fault} (h : (w.onEvent u f).2 = .error x) :
    (w.onEvent u f).1.log = w.log := by
  unfold World.onEvent at h ⊢
  cases hg : w.store.getEvent u with
  | error y => rfl
  | ok e =>
    rw [hg] at h
    simp only [] at h ⊢
    rw [hf e x h]; simp

theorem setStatus_fail_quiet {e : Event} {a : AttId} {st : Option String} {x : Fault}
    (h : (e.setStatus a st).2.2 = .error x) : (e.setStatus a st).2.1 = [] := by
  unfold Event.setStatus at h ⊢
  split
  · rfl
  · rename_i hs
    rw [if_neg hs] at h
    simp only [] at h ⊢
    split
    · rfl
    · rename_i ho
      rw [if_neg ho] at h
      split at h
      · cases h
      · rfl

theorem inviteOne_never_fails (e : Event) (a : AttId) : (e.inviteOne a).2.2 = .ok () := by
  unfold Event.inviteOne
  split
  · rename_i hn
    have hs : e.setStatus a (some "NEEDS-ACTION") =
        ({ e with pstate := Dict.set e.pstate a "NEEDS-ACTION" },
          [.participation e.uid a none (some "NEEDS-ACTION")], .ok ()) := by
      unfold Event.setStatus
      rw [if_neg (by decide)]
      simp only [hn]
      rw [if_neg (by simp)]
      rfl
    rw [hs]
    rfl
  · rfl

theorem invite_never_fails (e : Event) (l : List AttId) : (e.invite l).2.2 = .ok () := by
  induction l generalizing e with
  | nil => rfl
  | cons a rest ih =>
    have h := inviteOne_never_fails e a
    unfold Event.invite
    split
    · rename_i h'; rw [h'] at h; cases h
    · exact ih _

/-- C34: a call (other than an import) that raises notifies nobody. -/
theorem C34_failures_silent (w : World) (op : Op) (hop : NoImport op) (x : Fault)
    (h : (w.step op).2 = .error x) : (w.step op).1.log = w.log := by
  cases op with
  | create now uid spec =>
    unfold World.step at h ⊢
    simp only [] at h ⊢
    rcases w.createEvent_eq now uid spec with ⟨f, _, h'⟩ | ⟨e, _, _, h'⟩
    · rw [h']; rfl
    · rw [h'] at h; cases h
  | attendeeCreate now a spec =>
    unfold World.step World.attendeeCreateEvent at h ⊢
    simp only [] at h ⊢
    rcases w.createEvent_eq now none { spec with organizer := some a } with ⟨f, _, h'⟩ | ⟨e, _, _, h'⟩
    · rw [h']; rfl
    · rw [h'] at h; cases h
  | delete uid =>
    unfold World.step at h ⊢
    simp only [] at h ⊢
    cases hg : w.store.getEvent uid with
    | error y => rfl
    | ok e =>
      rw [hg] at h
      simp only [] at h ⊢
      rcases w.deleteEvent_eq e.uid with ⟨_, h'⟩ | ⟨_, h'⟩
      · rw [h']
      · rw [h'] at h; cases h
  | setStatus uid a st => exact onEvent_log w uid _ (fun e x hx => setStatus_fail_quiet hx) h
  | setRole uid a role => exact onEvent_log w uid _ (fun e x hx => rfl) h
  | invite uid atts =>
    exact onEvent_log w uid _ (fun e x hx => by rw [invite_never_fails] at hx; cases hx) h
  | alldayAdjust uid => exact onEvent_log w uid _ (fun e x hx => rfl) h
  | edit uid spec => exact onEvent_log w uid _ (fun e x hx => rfl) h
  | import_ => exact hop.elim

/-- C34, concrete: the log of the sample history. -/
example : Sample.world.log = [.created "m", .created "x", .created "t", .deleted "x", .created "p",
    .participation "t" "alice" none (some "NEEDS-ACTION")] := by decide +kernel

/-- C34, concrete: deleting the deleted event again fails and is silent. -/
example : (Sample.world.step (.delete "x")).2 = raise .KeyError := by decide +kernel

/-! ### C38 -/

/-- C38 for `createEvent` and `deleteEvent`: a call that raises leaves the world as it was. -/
theorem C38_create_delete (w : World) (op : Op)
    (hop : (∃ now uid spec, op = .create now uid spec) ∨ (∃ now a spec, op = .attendeeCreate now a spec) ∨
      ∃ uid, op = .delete uid) (x : Fault) (h : (w.step op).2 = .error x) : (w.step op).1 = w := by
  rcases hop with ⟨now, uid, spec, rfl⟩ | ⟨now, a, spec, rfl⟩ | ⟨uid, rfl⟩
  · unfold World.step at h ⊢
    simp only [] at h ⊢
    rcases w.createEvent_eq now uid spec with ⟨f, _, h'⟩ | ⟨e, _, _, h'⟩
    · rw [h']; rfl
    · rw [h'] at h; cases h
  · unfold World.step World.attendeeCreateEvent at h ⊢
    simp only [] at h ⊢
    rcases w.createEvent_eq now none { spec with organizer := some a } with ⟨f, _, h'⟩ | ⟨e, _, _, h'⟩
    · rw [h']; rfl
    · rw [h'] at h; cases h
  · unfold World.step at h ⊢
    simp only [] at h ⊢
    cases hg : w.store.getEvent uid with
    | error y => rfl
    | ok e =>
      rw [hg] at h
      simp only [] at h ⊢
      rcases w.deleteEvent_eq e.uid with ⟨_, h'⟩ | ⟨_, h'⟩
      · rw [h']
      · rw [h'] at h; cases h

/-- C38 for `setParticipationStatus`: if it raises, event and notifications are as before, provided the
attendee has a role or no status.  Missing: attendees with a status but without a role, for which it is
false (`C38_status_counterexample`). -/
theorem C38_status_partial (e : Event) (a : AttId) (st : Option String)
    (ha : (∃ r, Dict.get? e.prole a = some r) ∨ Dict.get? e.pstate a = none) (x : Fault)
    (h : (e.setStatus a st).2.2 = .error x) : (e.setStatus a st).1 = e ∧ (e.setStatus a st).2.1 = [] := by
  refine ⟨?_, setStatus_fail_quiet h⟩
  unfold Event.setStatus at h ⊢
  split
  · rfl
  · rename_i hs
    rw [if_neg hs] at h
    simp only [] at h ⊢
    split
    · rfl
    · rename_i ho
      rw [if_neg ho] at h
      cases st with
      | some s => cases h
      | none =>
        exfalso
        have hp : ∃ v, Dict.get? e.pstate a = some v := by
          unfold Event.getStatus at ho
          cases hv : Dict.get? e.pstate a with
          | none => exact absurd hv ho
          | some v => exact ⟨v, rfl⟩
        have hr : ∃ r, Dict.get? e.prole a = some r := by
          rcases ha with ha | ha
          · exact ha
          · rw [ha] at hp; obtain ⟨v, hv⟩ := hp; cases hv
        have h1 := (Dict.has_iff_get? _ _).2 hp
        have h2 := (Dict.has_iff_get? _ _).2 hr
        unfold Event.setStatusRaw at h
        simp only [h1, h2, if_true] at h
        cases h

/-- C38 is false: dave accepts without having been invited, and is then removed; the call raises KeyError,
but the status is gone. -/
theorem C38_status_counterexample :
    let w := Sample.world.run [.setStatus "m" "dave" (some "ACCEPTED")]
    let x := w.step (.setStatus "m" "dave" none)
    x.2 = raise .KeyError ∧
      (w.store.getEvent "m").map (fun e => e.hasAttendee "dave") = .ok true ∧
      (x.1.store.getEvent "m").map (fun e => e.hasAttendee "dave") = .ok false := by decide +kernel

/-- C38, concrete: an unknown status raises and changes nothing. -/
example : (Sample.world.step (.setStatus "m" "bob" (some "MAYBE"))).2 = raise .AssertionError := by decide +kernel

end CalCore
