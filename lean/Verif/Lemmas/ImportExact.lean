import Verif.Lemmas.Import
/- What an import does to the event under one uid, as a function of that event alone. -/
namespace CalCore
open Spec

variable (tz : LocalTz) (c : Calendar) (src : Source) (known : List Uid)

/-- The effect of importing `v` on the event under its uid `u`, `old` being the event stored there. -/
def importAt (v : VEvent) (u : Uid) (old : Option Event) : Option Event × Res Unit :=
  if u ∈ known then
    match old with
    | none => (none, raise .KeyError)
    | some e =>
      match importSpec tz c src v with
      | .error f => (some e, .error f)
      | .ok spec =>
        match spec.willModify e with
        | .error f => (some e, .error f)
        | .ok false => (some e, .ok ())
        | .ok true => (some (spec.setOnObject e).1, (spec.setOnObject e).2)
  else
    match old with
    | some e => (some e, .ok ())
    | none =>
      match importSpec tz c src v with
      | .error f => (none, .error f)
      | .ok spec =>
        match newEvent u spec with
        | .error f => (none, .error f)
        | .ok e => (some e, .ok ())

theorem importOne_at (w : World) (u : Uid) (v : VEvent) :
    Dict.get? (w.importOne tz c src known u v).1.store.events u =
      (importAt tz c src known v u (Dict.get? w.store.events u)).1 ∧
    (w.importOne tz c src known u v).2 = (importAt tz c src known v u (Dict.get? w.store.events u)).2 := by
  unfold World.importOne importAt
  by_cases hk : u ∈ known
  · rw [if_pos hk, if_pos hk]
    unfold World.importExisting Storage.getEvent
    cases hg : Dict.get? w.store.events u with
    | none => exact ⟨hg, rfl⟩
    | some e =>
      simp only []
      cases importSpec tz c src v with
      | error f => exact ⟨hg, rfl⟩
      | ok spec =>
        simp only []
        cases spec.willModify e with
        | error f => exact ⟨hg, rfl⟩
        | ok b =>
          cases b with
          | false => exact ⟨hg, rfl⟩
          | true =>
            simp only []
            cases spec.setOnObject e with
            | mk e' r =>
              cases r with
              | error f => exact ⟨Dict.get?_set_self .., rfl⟩
              | ok _ => exact ⟨Dict.get?_set_self .., rfl⟩
  · rw [if_neg hk, if_neg hk]
    cases hg : Dict.get? w.store.events u with
    | some e =>
      have : w.store.hasEvent u = true := Storage.hasEvent_iff.2 ⟨e, hg⟩
      rw [if_neg (by simp [this])]
      exact ⟨hg, rfl⟩
    | none =>
      have : ¬ w.store.hasEvent u = true := fun h => by
        obtain ⟨e, he⟩ := Storage.hasEvent_iff.1 h
        rw [hg] at he; cases he
      rw [if_pos this]
      unfold World.importNew
      cases importSpec tz c src v with
      | error f => exact ⟨hg, rfl⟩
      | ok spec =>
        simp only []
        rcases w.createEvent_eq 0 (some u) spec with ⟨f, hn, h'⟩ | ⟨e, hn, hu, h'⟩
        · simp only [Option.getD_some] at hn
          rw [h', hn]
          exact ⟨hg, rfl⟩
        · simp only [Option.getD_some] at hn hu
          rw [h', hn]
          simp only [hu]
          exact ⟨Dict.get?_set_self .., trivial⟩

/-- The loop succeeds exactly if every component has a uid and can be imported on its own. -/
theorem importLoop_exact (vs : List VEvent) (hd : (dataUids vs).Nodup) (w : World) :
    ((∃ uids, (World.importLoop tz c src known w vs).2 = .ok uids) ↔
      ∀ v ∈ vs, ∃ u, v.uid = some u ∧ (importAt tz c src known v u (Dict.get? w.store.events u)).2 = .ok ()) ∧
    ((∃ uids, (World.importLoop tz c src known w vs).2 = .ok uids) → ∀ v ∈ vs, ∀ u, v.uid = some u →
      Dict.get? (World.importLoop tz c src known w vs).1.store.events u =
        (importAt tz c src known v u (Dict.get? w.store.events u)).1) := by
  induction vs generalizing w with
  | nil => exact ⟨⟨fun _ => by simp, fun _ => ⟨[], rfl⟩⟩, fun _ => by simp⟩
  | cons v rest ih =>
    rcases importLoop_step tz c src known w v rest with ⟨hno, h⟩ | ⟨uid, huid, h⟩
    · refine ⟨⟨?_, ?_⟩, ?_⟩
      · rintro ⟨us, hu⟩; rw [h] at hu; cases hu
      · intro hall
        obtain ⟨u, hu, _⟩ := hall v (List.mem_cons_self ..)
        rw [hno] at hu; cases hu
      · rintro ⟨us, hu⟩; rw [h] at hu; cases hu
    · have hone := importOne_at tz c src known w uid v
      unfold dataUids at hd
      rw [List.filterMap_cons_some huid, List.nodup_cons] at hd
      have hne : ∀ v' ∈ rest, ∀ u, v'.uid = some u → u ≠ uid := by
        rintro v' hv' u hu rfl
        exact hd.1 (List.mem_filterMap.2 ⟨v', hv', hu⟩)
      rcases h with ⟨f, hf, h⟩ | ⟨hok, h⟩
      · refine ⟨⟨?_, ?_⟩, ?_⟩
        · rintro ⟨us, hu⟩; rw [h] at hu; cases hu
        · intro hall
          obtain ⟨u, hu, hr⟩ := hall v (List.mem_cons_self ..)
          rw [huid] at hu; injection hu with hu; subst hu
          rw [← hone.2, hf] at hr; cases hr
        · rintro ⟨us, hu⟩; rw [h] at hu; cases hu
      · obtain ⟨ih1, ih2⟩ := ih hd.2 (w.importOne tz c src known uid v).1
        have hback : (∃ uids, (World.importLoop tz c src known w (v :: rest)).2 = .ok uids) ↔
            ∃ uids, (World.importLoop tz c src known (w.importOne tz c src known uid v).1 rest).2 = .ok uids := by
          rw [h]
          simp only []
          cases (World.importLoop tz c src known (w.importOne tz c src known uid v).1 rest).2 with
          | error f => simp [Except.map]
          | ok us => simp [Except.map]
        refine ⟨?_, ?_⟩
        · rw [hback, ih1]
          constructor
          · intro hall v' hv'
            rcases List.mem_cons.1 hv' with rfl | hv'
            · exact ⟨uid, huid, by rw [← hone.2]; exact hok⟩
            · obtain ⟨u, hu, hr⟩ := hall v' hv'
              rw [importOne_other w tz c src known uid v (hne v' hv' u hu)] at hr
              exact ⟨u, hu, hr⟩
          · intro hall v' hv'
            obtain ⟨u, hu, hr⟩ := hall v' (List.mem_cons_of_mem _ hv')
            refine ⟨u, hu, ?_⟩
            rw [importOne_other w tz c src known uid v (hne v' hv' u hu)]
            exact hr
        · intro hex v' hv' u hu
          rw [h]
          simp only []
          rcases List.mem_cons.1 hv' with rfl | hv'
          · rw [huid] at hu; injection hu with hu; subst hu
            rw [importLoop_other tz c src known rest _ (fun x hx hxu => hne x hx uid hxu rfl)]
            exact hone.1
          · rw [ih2 (hback.1 hex) v' hv' u hu,
              importOne_other w tz c src known uid v (hne v' hv' u hu)]

end CalCore
