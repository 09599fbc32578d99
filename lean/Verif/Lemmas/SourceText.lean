import Verif.Lemmas.SourceExport
import Verif.Spec.RepresentText
/- `CalendarBase.export` as written. -/
namespace CalCore.Lang

theorem icalCalendar_new : callPrim .icalCalendar [] [] = .ok (ofParts [] []) := rfl

theorem mut_prop (d : Dict String Val) (cs : List Val) (k : String) (v : Val) :
    callMut .add (ofParts d cs) [.str k, v] = .ok (ofParts (d ++ [(k, v)]) cs, .none) := by
  unfold ofParts
  rw [callMut]
  simp only [if_true, List.map_append, List.map_cons, List.map_nil]

theorem mut_component (d : Dict String Val) (cs : List Val) (v : Val) :
    callMut .addComponent (ofParts d cs) [v] = .ok (ofParts d (cs ++ [v]), .none) := by
  unfold ofParts
  rw [callMut]
  simp only [if_true]

theorem meth_text (d : Dict String Val) (cs : List Val) : callMeth .asString (ofParts d cs) [] [] = .ok (textOf (ofParts d cs)) := rfl

theorem method_event_export : Source.prog.method 4 "Event" "export" = some "EventBase.export" := rfl

/-- The properties of every calendar. -/
def calProps : Dict String Val := [("prodid", .str "-//CalCore //nuxeo.com//"), ("version", .str "2.0")]

theorem mut_version :
    callMut .add (ofParts [("prodid", .str "-//CalCore //nuxeo.com//")] []) [.str "version", .str "2.0"] = .ok (ofParts calProps [], .none) :=
  mut_prop _ _ _ _

theorem mut_prodid :
    callMut .add (ofParts [] []) [.str "prodid", .str "-//CalCore //nuxeo.com//"] = .ok (ofParts [("prodid", .str "-//CalCore //nuxeo.com//")] [], .none) :=
  mut_prop _ _ _ _

/-- The environment in the loop. -/
def calEnv (self p cr : Val) (vs : List VEvent) (x y : Option Val) : Env :=
  [("self", some self), ("period", some p), ("search_criteria", some cr),
   ("ical", some (ofParts calProps (vs.map (fun v => ofWritten (writtenProps v))))), ("event", x), ("e", y), ("ical_text", none)]

theorem cal_step (W n : Nat) (L : Listing) (hL : L.Faithful) (self p cr : Val) (a : Event) (acc : List VEvent) (st : State)
    (hs : ∃ x y, st = ⟨calEnv self p cr acc x y, []⟩) :
    FollowsC (fun (acc : List VEvent) st => ∃ x y, st = ⟨calEnv self p cr acc x y, []⟩)
      (do
        let here ← (do .ok [← a.export false L.cats])
        .ok (acc ++ here))
      (forBody (Source.prog.ctx W (n + 1)) W (.name "event") Source.CalendarBase_export_loop1 (ofEvent L a) st) := by
  obtain ⟨x, y, rfl⟩ := hs
  have h := export_default W n L hL a
  cases hx : a.export false L.cats with
  | error f =>
    rw [hx, toM_error] at h
    refine FollowsC.error rfl (by
      lang [forBody, Source.CalendarBase_export_loop1, calEnv, ↓eval_method, on_event, callClass_some method_event_export, h]; rfl)
  | ok v =>
    rw [hx, toM_ok] at h
    refine FollowsC.ok (c := acc ++ [v]) rfl
      (by lang [forBody, Source.CalendarBase_export_loop1, calEnv, ↓eval_method, on_event, callClass_some method_event_export, h,
            mut_component]; rfl)
      ⟨some (ofEvent L a), some (ofWritten (writtenProps v)), by simp [calEnv]⟩

theorem exports_fold (order : Finset String → List String) (l : List Event) (acc : List VEvent) :
    l.foldlM (fun acc a => do
      let here ← (do .ok [← a.export false order])
      .ok (acc ++ here)) acc = (do
      let m ← exportAll order l
      .ok (acc ++ m)) :=
  fold_concat (step := fun a => (do .ok [← a.export false order])) (F := exportAll order) rfl (fun a l => by
    rw [exportAll]
    cases a.export false order <;> rfl) l acc

theorem cal_export_prog (W n : Nat) (L : Listing) (hL : L.Faithful) (s : Storage) (src : CalCore.Source) (c : Calendar)
    (b e : Option Int) (cr : Option Criteria) :
    Source.prog.call W (n + 9) "CalendarBase.export" [ofCalendar L s src c, ofPeriod b e, ofOption (ofCriteria L) cr] []
    = toM calendarText (c.export src s b e cr L.cats) := by
  have h := cal_getEvents_prog W n L hL s src c b e cr
  rw [call_eq (d := Source.CalendarBase_export) rfl]
  unfold Calendar.export
  cases hx : c.getEvents src s b e cr with
  | error f =>
    rw [hx, toM_error] at h
    lang [Source.CalendarBase_export, icalCalendar_new, mut_prodid, mut_version, ↓eval_method, on_calendar,
      callClass_some method_cal_getEvents, h, error_bind, toM_error]
  | ok l =>
    rw [hx, toM_ok] at h
    have hl := forLoop_fold (g := ofEvent L) l
      (fun acc a _ st hs => cal_step W (n + 7) L hL (ofCalendar L s src c) (ofPeriod b e) (ofOption (ofCriteria L) cr) a acc st hs)
      [] ⟨calEnv (ofCalendar L s src c) (ofPeriod b e) (ofOption (ofCriteria L) cr) [] none none, []⟩ ⟨_, _, rfl⟩
    rw [exports_fold] at hl
    simp only [ok_bind]
    unfold calEnv at hl
    simp only [List.map_nil] at hl
    cases hy : exportAll L.cats l with
    | error f =>
      obtain ⟨st, hs⟩ := hl.2 f (by rw [hy]; rfl)
      lang [Source.CalendarBase_export, icalCalendar_new, mut_prodid, mut_version, ↓eval_method, on_calendar,
        callClass_some method_cal_getEvents, h, hs, toM_error]
    | ok vs =>
      obtain ⟨st, hs, x, y, rfl⟩ := hl.1 vs (by rw [hy]; rfl)
      lang [Source.CalendarBase_export, icalCalendar_new, mut_prodid, mut_version, ↓eval_method, on_calendar,
        callClass_some method_cal_getEvents, h, hs, toM_ok, meth_text]
      rfl

theorem cal_export_default (W n : Nat) (L : Listing) (hL : L.Faithful) (s : Storage) (src : CalCore.Source) (c : Calendar) :
    Source.prog.call W (n + 9) "CalendarBase.export" [ofCalendar L s src c] []
    = toM calendarText (c.export src s none none none L.cats) := by
  rw [← cal_export_prog W n L hL s src c none none none]
  rfl

end CalCore.Lang
