import Verif.Lemmas.Participation
import Verif.Lemmas.Queries
import Verif.Props.Queries
/- Lemmas on `import_`. -/
namespace CalCore
open Spec

/-- The uids of the imported data. -/
def dataUids (vs : List VEvent) : List Uid := vs.filterMap (·.uid)

theorem mem_dataUids {vs : List VEvent} {u : Uid} : u ∈ dataUids vs ↔ ∃ v ∈ vs, v.uid = some u := by
  unfold dataUids; rw [List.mem_filterMap]

/-! ### one element -/

theorem importExisting_other (w : World) (tz : LocalTz) (c : Calendar) (src : Source) (uid : Uid) (v : VEvent)
    {u : Uid} (h : u ≠ uid) :
    Dict.get? (w.importExisting tz c src uid v).1.store.events u = Dict.get? w.store.events u := by
  unfold World.importExisting
  cases w.store.getEvent uid with
  | error f => rfl
  | ok e =>
    simp only []
    cases importSpec tz c src v with
    | error f => rfl
    | ok spec =>
      simp only []
      cases spec.willModify e with
      | error f => rfl
      | ok b =>
        cases b with
        | false => rfl
        | true =>
          simp only []
          cases spec.setOnObject e with
          | mk e' r =>
            cases r with
            | error f => exact Dict.get?_set_ne _ _ (fun h' => h h'.symm)
            | ok _ => exact Dict.get?_set_ne _ _ (fun h' => h h'.symm)

theorem importNew_other (w : World) (tz : LocalTz) (c : Calendar) (src : Source) (uid : Uid) (v : VEvent)
    {u : Uid} (h : u ≠ uid) :
    Dict.get? (w.importNew tz c src uid v).1.store.events u = Dict.get? w.store.events u := by
  unfold World.importNew
  cases importSpec tz c src v with
  | error f => rfl
  | ok spec =>
    simp only []
    rcases w.createEvent_eq 0 (some uid) spec with ⟨f, _, h'⟩ | ⟨e, hn, hu, h'⟩
    · rw [h']
    · rw [h']
      simp only [Option.getD_some] at hu
      simp only [hu]
      exact Dict.get?_set_ne _ _ (fun h' => h h'.symm)

/-- Importing an element does not touch events under other uids. -/
theorem importOne_other (w : World) (tz : LocalTz) (c : Calendar) (src : Source) (known : List Uid) (uid : Uid)
    (v : VEvent) {u : Uid} (h : u ≠ uid) :
    Dict.get? (w.importOne tz c src known uid v).1.store.events u = Dict.get? w.store.events u := by
  unfold World.importOne
  split
  · exact importExisting_other w tz c src uid v h
  · split
    · exact importNew_other w tz c src uid v h
    · rfl

/-- Importing an element does not touch an existing event that is not known. -/
theorem importOne_foreign (w : World) (tz : LocalTz) (c : Calendar) (src : Source) (known : List Uid) (uid : Uid)
    (v : VEvent) {u : Uid} {e : Event} (hk : u ∉ known) (hg : Dict.get? w.store.events u = some e) :
    Dict.get? (w.importOne tz c src known uid v).1.store.events u = some e := by
  by_cases h : u = uid
  · subst h
    unfold World.importOne
    rw [if_neg hk, if_neg]
    · exact hg
    · have : w.store.hasEvent u = true := Storage.hasEvent_iff.2 ⟨e, hg⟩
      simp [this]
  · rw [importOne_other w tz c src known uid v h]; exact hg

theorem importExisting_keeps (w : World) (tz : LocalTz) (c : Calendar) (src : Source) (uid : Uid) (v : VEvent)
    {u : Uid} (h : ∃ e, Dict.get? w.store.events u = some e) :
    ∃ e, Dict.get? (w.importExisting tz c src uid v).1.store.events u = some e := by
  unfold World.importExisting
  cases w.store.getEvent uid with
  | error f => exact h
  | ok e =>
    simp only []
    cases importSpec tz c src v with
    | error f => exact h
    | ok spec =>
      simp only []
      cases spec.willModify e with
      | error f => exact h
      | ok b =>
        cases b with
        | false => exact h
        | true =>
          simp only []
          have hset : ∀ e', ∃ x, Dict.get? (Dict.set w.store.events uid e') u = some x := by
            intro e'
            rw [Dict.get?_set]
            split
            · exact ⟨_, rfl⟩
            · exact h
          cases spec.setOnObject e with
          | mk e' r =>
            cases r with
            | error f => exact hset e'
            | ok _ => exact hset e'

theorem importNew_keeps (w : World) (tz : LocalTz) (c : Calendar) (src : Source) (uid : Uid) (v : VEvent)
    {u : Uid} (h : ∃ e, Dict.get? w.store.events u = some e) :
    ∃ e, Dict.get? (w.importNew tz c src uid v).1.store.events u = some e := by
  unfold World.importNew
  cases importSpec tz c src v with
  | error f => exact h
  | ok spec =>
    simp only []
    rcases w.createEvent_eq 0 (some uid) spec with ⟨f, _, h'⟩ | ⟨e, hn, hu, h'⟩
    · rw [h']; exact h
    · rw [h']
      simp only []
      rw [Dict.get?_set]
      split
      · exact ⟨_, rfl⟩
      · exact h

theorem importOne_keeps (w : World) (tz : LocalTz) (c : Calendar) (src : Source) (known : List Uid) (uid : Uid)
    (v : VEvent) {u : Uid} (h : ∃ e, Dict.get? w.store.events u = some e) :
    ∃ e, Dict.get? (w.importOne tz c src known uid v).1.store.events u = some e := by
  unfold World.importOne
  split
  · exact importExisting_keeps w tz c src uid v h
  · split
    · exact importNew_keeps w tz c src uid v h
    · exact h

/-- A successful import of an element leaves an event under its uid, if known uids are in the store. -/
theorem importOne_present (w : World) (tz : LocalTz) (c : Calendar) (src : Source) (known : List Uid) (uid : Uid)
    (v : VEvent) (h : (w.importOne tz c src known uid v).2 = .ok ()) :
    ∃ e, Dict.get? (w.importOne tz c src known uid v).1.store.events uid = some e := by
  by_cases hh : ∃ e, Dict.get? w.store.events uid = some e
  · exact importOne_keeps w tz c src known uid v hh
  · unfold World.importOne at h ⊢
    by_cases hk : uid ∈ known
    · exfalso
      rw [if_pos hk] at h
      unfold World.importExisting at h
      cases hg : w.store.getEvent uid with
      | error f => rw [hg] at h; cases h
      | ok e => exact hh ⟨e, Storage.getEvent_ok.1 hg⟩
    · rw [if_neg hk] at h ⊢
      have hno : ¬ w.store.hasEvent uid = true := fun h' => hh (Storage.hasEvent_iff.1 h')
      rw [if_pos hno] at h ⊢
      unfold World.importNew at h ⊢
      cases hs : importSpec tz c src v with
      | error f => rw [hs] at h; cases h
      | ok spec =>
        rw [hs] at h
        simp only [] at h ⊢
        rcases w.createEvent_eq 0 (some uid) spec with ⟨f, _, h'⟩ | ⟨e, hn, hu, h'⟩
        · rw [h'] at h; cases h
        · rw [h']
          simp only [Option.getD_some] at hu
          simp only [hu]
          exact ⟨e, Dict.get?_set_self ..⟩

/-! ### the loop -/

/-- Case analysis on one step of the loop. -/
theorem importLoop_step (tz : LocalTz) (c : Calendar) (src : Source) (known : List Uid) (w : World) (v : VEvent)
    (rest : List VEvent) :
    (v.uid = none ∧ World.importLoop tz c src known w (v :: rest) = (w, raise .KeyError)) ∨
    ∃ uid, v.uid = some uid ∧
      ((∃ f, (w.importOne tz c src known uid v).2 = .error f ∧
        World.importLoop tz c src known w (v :: rest) = ((w.importOne tz c src known uid v).1, .error f)) ∨
      ((w.importOne tz c src known uid v).2 = .ok () ∧
        World.importLoop tz c src known w (v :: rest) =
          ((World.importLoop tz c src known (w.importOne tz c src known uid v).1 rest).1,
            (World.importLoop tz c src known (w.importOne tz c src known uid v).1 rest).2.map (uid :: ·)))) := by
  rw [World.importLoop_cons]
  cases v.uid with
  | none => exact Or.inl ⟨rfl, rfl⟩
  | some uid =>
    refine Or.inr ⟨uid, rfl, ?_⟩
    simp only []
    rcases w.importOne tz c src known uid v with ⟨w', r⟩
    cases r with
    | error f => exact Or.inl ⟨f, rfl, rfl⟩
    | ok x =>
      refine Or.inr ⟨rfl, ?_⟩
      simp only []
      rcases World.importLoop tz c src known w' rest with ⟨w'', r'⟩
      cases r' <;> rfl

theorem importLoop_foreign (tz : LocalTz) (c : Calendar) (src : Source) (known : List Uid) (vs : List VEvent)
    (w : World) {u : Uid} {e : Event} (hk : u ∉ known) (hg : Dict.get? w.store.events u = some e) :
    Dict.get? (World.importLoop tz c src known w vs).1.store.events u = some e := by
  induction vs generalizing w with
  | nil => exact hg
  | cons v rest ih =>
    rcases importLoop_step tz c src known w v rest with ⟨_, h⟩ | ⟨uid, _, ⟨f, _, h⟩ | ⟨_, h⟩⟩
    · rw [h]; exact hg
    · rw [h]; exact importOne_foreign w tz c src known uid v hk hg
    · rw [h]; exact ih _ (importOne_foreign w tz c src known uid v hk hg)

theorem importLoop_other (tz : LocalTz) (c : Calendar) (src : Source) (known : List Uid) (vs : List VEvent)
    (w : World) {u : Uid} (hu : ∀ v ∈ vs, v.uid ≠ some u) :
    Dict.get? (World.importLoop tz c src known w vs).1.store.events u = Dict.get? w.store.events u := by
  induction vs generalizing w with
  | nil => rfl
  | cons v rest ih =>
    have hrest := fun x hx => hu x (List.mem_cons_of_mem _ hx)
    have hv := hu v (List.mem_cons_self ..)
    rcases importLoop_step tz c src known w v rest with ⟨_, h⟩ | ⟨uid, huid, ⟨f, _, h⟩ | ⟨_, h⟩⟩
    · rw [h]
    · rw [h]; exact importOne_other w tz c src known uid v (by rintro rfl; exact hv huid)
    · rw [h]
      simp only []
      rw [ih _ hrest]
      exact importOne_other w tz c src known uid v (by rintro rfl; exact hv huid)

theorem importLoop_keeps (tz : LocalTz) (c : Calendar) (src : Source) (known : List Uid) (vs : List VEvent)
    (w : World) {u : Uid} (h : ∃ e, Dict.get? w.store.events u = some e) :
    ∃ e, Dict.get? (World.importLoop tz c src known w vs).1.store.events u = some e := by
  induction vs generalizing w with
  | nil => exact h
  | cons v rest ih =>
    rcases importLoop_step tz c src known w v rest with ⟨_, h'⟩ | ⟨uid, _, ⟨f, _, h'⟩ | ⟨_, h'⟩⟩
    · rw [h']; exact h
    · rw [h']; exact importOne_keeps w tz c src known uid v h
    · rw [h']; exact ih _ (importOne_keeps w tz c src known uid v h)

/-- On success the loop returns the uids of the data, all of which are then in the store. -/
theorem importLoop_ok (tz : LocalTz) (c : Calendar) (src : Source) (known : List Uid) (vs : List VEvent)
    (w : World) {uids : List Uid} (h : (World.importLoop tz c src known w vs).2 = .ok uids) :
    uids = dataUids vs ∧ (∀ v ∈ vs, ∃ u, v.uid = some u) ∧
      ∀ u ∈ uids, ∃ e, Dict.get? (World.importLoop tz c src known w vs).1.store.events u = some e := by
  induction vs generalizing w uids with
  | nil => injection h with h; subst h; simp [dataUids]
  | cons v rest ih =>
    rcases importLoop_step tz c src known w v rest with ⟨_, h'⟩ | ⟨uid, huid, ⟨f, _, h'⟩ | ⟨hok, h'⟩⟩
    · rw [h'] at h; cases h
    · rw [h'] at h; cases h
    · rw [h'] at h ⊢
      simp only [] at h ⊢
      cases hr : (World.importLoop tz c src known (w.importOne tz c src known uid v).1 rest).2 with
      | error f => rw [hr] at h; cases h
      | ok us =>
        rw [hr] at h
        injection h with h
        obtain ⟨h1, h2, h3⟩ := ih _ hr
        subst h
        refine ⟨?_, ?_, ?_⟩
        · rw [h1]; unfold dataUids; rw [List.filterMap_cons_some huid]
        · intro x hx
          rcases List.mem_cons.1 hx with rfl | hx
          · exact ⟨uid, huid⟩
          · exact h2 x hx
        · intro u hu
          rcases List.mem_cons.1 hu with rfl | hu
          · exact importLoop_keeps tz c src known rest _ (importOne_present w tz c src known u v hok)
          · exact h3 u hu

/-! ### removal -/

/-- Removing events under different uids that are all in the store succeeds and removes exactly these. -/
theorem removeLoop_spec (l : List Uid) (w : World) (hw : w.store.WF) (hn : l.Nodup)
    (hl : ∀ u ∈ l, ∃ e, Dict.get? w.store.events u = some e) :
    (World.removeLoop w l).2 = .ok () ∧
      ∀ u, Dict.get? (World.removeLoop w l).1.store.events u =
        if u ∈ l then none else Dict.get? w.store.events u := by
  induction l generalizing w with
  | nil => exact ⟨rfl, fun u => by simp [World.removeLoop]⟩
  | cons uid rest ih =>
    obtain ⟨e, he⟩ := hl uid (List.mem_cons_self ..)
    have hu := hw.uid _ _ he
    rw [List.nodup_cons] at hn
    unfold World.removeLoop
    rw [Storage.getEvent_ok.2 he]
    simp only [hu]
    rcases w.deleteEvent_eq uid with ⟨hh, _⟩ | ⟨hh, h'⟩
    · rw [Dict.has_false_iff] at hh; rw [hh] at he; cases he
    · have hwf := (w.deleteEvent_many uid).wf hw
      rw [h'] at hwf ⊢
      simp only []
      generalize hw1 : World.mk { w.store with events := Dict.del w.store.events uid }
        (w.log ++ [.deleted uid]) = w1 at hwf ⊢
      have hev : w1.store.events = Dict.del w.store.events uid := by rw [← hw1]
      obtain ⟨h1, h2⟩ := ih w1 hwf hn.2 (fun u hu' => by
        rw [hev, Dict.get?_del, if_neg (by rintro rfl; exact hn.1 hu')]
        exact hl u (List.mem_cons_of_mem _ hu'))
      refine ⟨h1, fun u => ?_⟩
      rw [h2]
      simp only [hev, Dict.get?_del, List.mem_cons]
      by_cases hur : u ∈ rest
      · simp [hur]
      · by_cases hue : uid = u
        · subst hue; simp
        · simp [hur, hue, show ¬ u = uid from fun h => hue h.symm]

/-! ### the events of the calendar -/

theorem calendar_stored {c : Calendar} {src : Source} {s : Storage} (hs : s.WF) {b e : Option Int}
    {cr : Option Criteria} {l : List Event} (h : c.getEvents src s b e cr = .ok l) {ev : Event} (hev : ev ∈ l) :
    Stored s ev := by
  obtain ⟨_, h⟩ := calendar_getEvents_ok.1 h
  exact ((((C20_getEvents_exact s hs b e _).1 l h).2 ev).1 hev).1

theorem known_iff {c : Calendar} {src : Source} {s : Storage} (hs : s.WF) {b e : Option Int}
    {cr : Option Criteria} {l : List Event} (h : c.getEvents src s b e cr = .ok l) (u : Uid) :
    u ∈ (l.map (·.uid)).dedup ↔ ∃ ev ∈ l, ev.uid = u ∧ Dict.get? s.events u = some ev := by
  rw [List.mem_dedup, List.mem_map]
  constructor
  · rintro ⟨ev, hev, rfl⟩; exact ⟨ev, hev, rfl, calendar_stored hs h hev⟩
  · rintro ⟨ev, hev, rfl, _⟩; exact ⟨ev, hev, rfl⟩

/-- Two stores agreeing on an event agree on whether the calendar shows it. -/
theorem calendar_same {c : Calendar} {src : Source} {s s' : Storage} (hs : s.WF) (hs' : s'.WF) {b e : Option Int}
    {cr : Option Criteria} {l l' : List Event} (h : c.getEvents src s b e cr = .ok l)
    (h' : c.getEvents src s' b e cr = .ok l') {ev : Event} (h1 : Stored s ev) (h2 : Stored s' ev) :
    ev ∈ l ↔ ev ∈ l' := by
  obtain ⟨_, h⟩ := calendar_getEvents_ok.1 h
  obtain ⟨_, h'⟩ := calendar_getEvents_ok.1 h'
  rw [((C20_getEvents_exact s hs b e _).1 l h).2 ev, ((C20_getEvents_exact s' hs' b e _).1 l' h').2 ev]
  constructor
  · rintro ⟨_, h⟩; exact ⟨h2, h⟩
  · rintro ⟨_, h⟩; exact ⟨h1, h⟩

/-! ### the whole import -/

/-- Case analysis on an import. -/
theorem import_cases (w : World) (parse : List Char → Res (Option (List VEvent))) (tz : LocalTz) (c : Calendar)
    (src : Source) (text : List Char) (b e : Option Int) (cr : Option Criteria) (sync : Bool) :
    (∃ f, c.getEvents src w.store b e cr = .error f ∧
      w.import_ parse tz c src text b e cr sync = (w, .error f)) ∨
    ∃ l, c.getEvents src w.store b e cr = .ok l ∧
      ((∃ f, parse (repairText text) = .error f ∧ w.import_ parse tz c src text b e cr sync = (w, .error f)) ∨
      (parse (repairText text) = .ok none ∧ w.import_ parse tz c src text b e cr sync = (w, .ok ())) ∨
      ∃ vs, parse (repairText text) = .ok (some vs) ∧
        ((∃ f, (World.importLoop tz c src (l.map (·.uid)).dedup w vs).2 = .error f ∧
            w.import_ parse tz c src text b e cr sync =
              ((World.importLoop tz c src (l.map (·.uid)).dedup w vs).1, .error f)) ∨
        (∃ uids, (World.importLoop tz c src (l.map (·.uid)).dedup w vs).2 = .ok uids ∧
            w.import_ parse tz c src text b e cr sync =
              if sync then World.removeLoop (World.importLoop tz c src (l.map (·.uid)).dedup w vs).1
                ((l.map (·.uid)).dedup.filter (fun u => u ∉ uids))
              else ((World.importLoop tz c src (l.map (·.uid)).dedup w vs).1, .ok ())))) := by
  unfold World.import_
  simp only []
  cases c.getEvents src w.store b e cr with
  | error f => exact Or.inl ⟨f, rfl, rfl⟩
  | ok l =>
    refine Or.inr ⟨l, rfl, ?_⟩
    simp only []
    cases parse (repairText text) with
    | error f => exact Or.inl ⟨f, rfl, rfl⟩
    | ok o =>
      cases o with
      | none => exact Or.inr (Or.inl ⟨rfl, rfl⟩)
      | some vs =>
        refine Or.inr (Or.inr ⟨vs, rfl, ?_⟩)
        simp only []
        generalize hd : World.importLoop tz c src (l.map (·.uid)).dedup w vs = q
        obtain ⟨w', r⟩ := q
        cases r with
        | error f => exact Or.inl ⟨f, rfl, by simp only []⟩
        | ok uids => exact Or.inr ⟨uids, rfl, by simp only []⟩

/-- The removal at the end of a synchronizing import succeeds. -/
theorem import_removal (w : World) (hw : w.store.WF) (tz : LocalTz) (c : Calendar)
    (src : Source) (b e : Option Int) (cr : Option Criteria) {l : List Event} {vs : List VEvent}
    {uids : List Uid} (hl : c.getEvents src w.store b e cr = .ok l) :
    let w' := (World.importLoop tz c src (l.map (·.uid)).dedup w vs).1
    let gone := (l.map (·.uid)).dedup.filter (fun u => u ∉ uids)
    (World.removeLoop w' gone).2 = .ok () ∧
      ∀ u, Dict.get? (World.removeLoop w' gone).1.store.events u =
        if u ∈ gone then none else Dict.get? w'.store.events u := by
  simp only []
  refine removeLoop_spec _ _ ((World.importLoop_many ..).wf hw) ?_ ?_
  · exact List.Nodup.filter _ (List.nodup_dedup _)
  · intro u hu
    obtain ⟨ev, _, _, hg⟩ := (known_iff hw hl u).1 (List.mem_filter.1 hu).1
    exact importLoop_keeps tz c src _ vs w ⟨ev, hg⟩

end CalCore
