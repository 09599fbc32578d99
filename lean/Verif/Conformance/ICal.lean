import Verif.Conformance.Tests
import Verif.Model.Objects
/- Validation of the model, not proofs of properties: the tests of
/repo/src/calcore/tests/test_ical.py, evaluated on the model by the kernel.  Where a test edits the
exported text, the exported components are edited here. -/
namespace CalCore.Conformance
open CalCore

/-- `setUp` of AyeCalTestCase (test_ical.py:7-37) -/
def setUp : World := after [
  .attendeeCreate now "martijn"
    { dtstart := dt 2005 4 10 16, duration := some (minutes 60), title := "Martijn's Meeting", location := "Room 1" },
  .attendeeCreate now "martijn"
    { dtstart := dt 2005 4 11 17, duration := some (minutes 45), title := "Another meeting", location := "Room 2",
      document := some "/path/to/some/document", categories := {"Public Holiday", "Wonderful Event"} }]

/-- `calendar.export()` -/
def exported (w : World) : List VEvent :=
  match mcal.export src w.store none none none (fun _ => ["Public Holiday", "Wonderful Event"]) with
  | .ok l => l
  | .error _ => []

/-- `calendar.import_(text, synchronize=sync)` -/
def imp (w : World) (vs : List VEvent) (sync : Bool := false) : World × Res Unit :=
  w.step (.import_ (fun _ => 0) mcal src vs none none none sync)

/-- Export, edit the components, import. -/
def reimport (f : List VEvent → List VEvent) (sync : Bool := false) : World := (imp setUp (f (exported setUp)) sync).1

/-- Look at one event. -/
def look {α : Type} (w : World) (u : Uid) (f : Event → α) : Res α := (w.store.getEvent u).map f

/-- Replace the component of one event. -/
def onUid (u : Uid) (f : VEvent → VEvent) (l : List VEvent) : List VEvent := l.map (fun v => if v.uid = some u then f v else v)

/-- A new event inserted by the tests. -/
def hoi : VEvent :=
  { uid := some "hoi", dtstart := some (.naive (dt 2005 4 6 16)), duration := some (hours 1),
    location := some "Room Foo", summary := some "Inserted meeting" }

/-- `len(calendar.getOccurrences((b, e)))` -/
def occs (w : World) (b e : Int) : Res (List Int) :=
  (mcal.getOccurrences src w.store (some b) (some e) none).map (fun l => l.map (·.dtstart))

-- test_export_import1
example : (imp setUp (exported setUp)).2 = .ok () ∧
    look (reimport id) (uid 0) (fun e => (e.title, e.dtstart, e.document)) =
      .ok ("Martijn's Meeting", dt 2005 4 10 16, none) ∧
    look (reimport id) (uid 1) (fun e => (e.title, e.dtstart, e.document, e.categories)) =
      .ok ("Another meeting", dt 2005 4 11 17, some "/path/to/some/document", {"Public Holiday", "Wonderful Event"}) := by
  decide +kernel
-- test_export_import2
example : look (reimport (onUid (uid 0) (fun v => { v with summary := some "Foo's Meeting" }))) (uid 0) (·.title) =
      .ok "Foo's Meeting" ∧
    look (reimport (onUid (uid 0) (fun v => { v with summary := some "Foo's Meeting" }))) (uid 1) (·.title) =
      .ok "Another meeting" := by decide +kernel
-- test_export_import_change_datetime
example : look (reimport (onUid (uid 1) (fun v => { v with dtstart := some (.naive (dt 2005 4 12 18)) }))) (uid 1) (·.dtstart) =
    .ok (dt 2005 4 12 18) := by decide +kernel
-- test_export_import_new_event
example : look (reimport (· ++ [{ hoi with dtstart := some (.naive (dt 2005 5 1 16)), location := some "Room 3" }])) "hoi"
    (fun e => (e.title, e.location, e.dtstart, e.duration)) =
    .ok ("Inserted meeting", "Room 3", dt 2005 5 1 16, some (hours 1)) := by decide +kernel
-- test_export_import_remove_event
example : (["dag", uid 0, uid 1].map
    (fun u => (reimport (onUid (uid 0) (fun v => { v with uid := some "dag" })) (sync := true)).store.hasEvent u)) =
    [true, false, true] := by decide +kernel
-- test_export_import_duration
example : look (reimport (onUid (uid 1) (fun v => { v with dtend := none, duration := some (minutes 75) }))) (uid 1) (·.duration) =
    .ok (some (minutes 75)) := by decide +kernel
-- test_export_import_recurrence
example : count (occs (reimport (· ++ [{ hoi with rrule := some { freq := some "DAILY", interval := some [1] } }]))
    (dt 2005 4 1) (dt 2005 4 14)) = .ok 10 := by decide +kernel
/-- Make the first meeting recurrent. -/
def recur := reimport (onUid (uid 0) (fun v => { v with rrule := some { freq := some "DAILY", interval := some [1] } }))
-- test_export_import_recurrence2, test_export_import_recurrence_unrecur
example : count (occs recur (dt 2005 4 1) (dt 2005 4 14)) = .ok 5 := by decide +kernel
example : count (occs (imp recur (exported setUp)).1 (dt 2005 4 1) (dt 2005 4 14)) = .ok 2 := by decide +kernel
-- test_status
example : [uid 0, uid 1].map
    (fun u => look (reimport (fun l => l.map (fun v => { v with status := some "CONFIRMED" }))) u (·.status)) =
    [.ok "CONFIRMED", .ok "CONFIRMED"] := by decide +kernel
-- test_status_add
example : [uid 0, uid 1, "hoi"].map (fun u => look (reimport (· ++ [{ hoi with status := some "CONFIRMED" }])) u (·.status)) =
    [.ok "TENTATIVE", .ok "TENTATIVE", .ok "CONFIRMED"] := by decide +kernel
-- test_categories_new_event, test_categories_new_event_different
example : [Categories.inline ["HOLIDAY", "MISC"], .multi ["HOLIDAY", "MISC"]].map
    (fun c => look (reimport (· ++ [{ hoi with categories := c }])) "hoi" (·.categories)) =
    [.ok {"HOLIDAY", "MISC"}, .ok {"HOLIDAY", "MISC"}] := by decide +kernel
-- test_categories_existing_event, test_categories_existing_event_different
example : [Categories.inline ["HOLIDAY", "MISC"], .multi ["HOLIDAY", "MISC"]].map
    (fun c => look (reimport (onUid (uid 0) (fun v => { v with categories := c }))) (uid 0) (·.categories)) =
    [.ok {"HOLIDAY", "MISC"}, .ok {"HOLIDAY", "MISC"}] := by decide +kernel
-- test_transparent, test_transparent2, test_transparent_new
example : look (reimport (fun l => l.map (fun v => { v with transp := some "TRANSPARENT" }))) (uid 0) (·.transparent) = .ok true := by
  decide +kernel
example : look (reimport id) (uid 0) (·.transparent) = .ok false := by decide +kernel
example : look (reimport (· ++ [{ hoi with transp := some "TRANSPARENT" }])) "hoi" (·.transparent) = .ok true := by
  decide +kernel
-- test_access_new, test_access_change, test_access_change_confidential
example : look (reimport (· ++ [{ hoi with cls := some "PRIVATE" }])) "hoi" (·.access) = .ok "PRIVATE" := by decide +kernel
example : ["PRIVATE", "CONFIDENTIAL"].map
    (fun c => look (reimport (fun l => l.map (fun v => { v with cls := some c }))) (uid 0) (·.access)) =
    [.ok "PRIVATE", .ok "CONFIDENTIAL"] := by decide +kernel

/-! ### RecurrentImportExportTestCase -/

/-- Import one new event into an empty calendar. -/
def single (v : VEvent) : World := (imp (after []) [v]).1
/-- The event inserted, with a recurrence rule. -/
def test (rr : RRule) (start : Int := dt 2005 4 1 16) : VEvent :=
  { hoi with dtstart := some (.naive start), summary := some "Test meeting", rrule := some rr }

-- test_daily_recurrence_simple / until / count
example : count (occs (single (test { freq := some "DAILY", interval := some [1] })) (dt 2005 4 1) (dt 2005 4 10)) = .ok 9 := by
  decide +kernel
example : count (occs (single (test { freq := some "DAILY", interval := some [1], untl := some [.date (day 2005 4 6)] }))
    (dt 2005 4 1) (dt 2005 4 10)) = .ok 6 := by decide +kernel
example : count (occs (single (test { freq := some "DAILY", interval := some [1], count := some [4] }))
    (dt 2005 4 1) (dt 2005 4 10)) = .ok 4 := by decide +kernel
-- test_yearly_recurrence_simple
example : count (occs (single (test { freq := some "YEARLY", interval := some [1] })) (dt 2005 3 1) (dt 2010 4 10)) = .ok 6 := by
  decide +kernel
-- test_weekly_recurrence_simple, test_weekly_recurrence_multidays
example : occs (single (test { freq := some "WEEKLY", interval := some [1] })) (dt 2005 3 1) (dt 2005 4 30) =
    .ok ([1, 8, 15, 22, 29].map (fun d => dt 2005 4 d 16)) := by decide +kernel
example : occs (single (test { freq := some "WEEKLY", interval := some [1], byday := some ["MO", "FR"] }))
    (dt 2005 3 1) (dt 2005 4 30) = .ok ([1, 4, 8, 11, 15, 18, 22, 25, 29].map (fun d => dt 2005 4 d 16)) := by
  decide +kernel
-- test_monthly_recurrence_simple / weekday / lastweekday
example : count (occs (single (test { freq := some "MONTHLY", interval := some [1] })) (dt 2005 3 1) (dt 2005 12 10)) = .ok 9 := by
  decide +kernel
example : occs (single (test { freq := some "MONTHLY", interval := some [1], byday := some ["MO"] })) (dt 2005 3 1) (dt 2005 8 4) =
    .ok [dt 2005 4 1 16, dt 2005 5 6 16, dt 2005 6 3 16, dt 2005 7 1 16] := by decide +kernel
example : occs (single (test { freq := some "MONTHLY", interval := some [1], byday := some ["-MO"] } (dt 2005 4 20 16)))
    (dt 2005 3 1) (dt 2005 8 23) = .ok [dt 2005 4 20 16, dt 2005 5 18 16, dt 2005 6 22 16, dt 2005 7 20 16] := by
  decide +kernel
-- test_no_duration_no_dtend_date, test_no_duration_no_dtend_datetime, test_duration_and_dtend
example : [({ uid := some "hoi", dtstart := some (.date (day 2005 5 3)) } : VEvent),
      { uid := some "hoi", dtstart := some (.naive (dt 2005 5 3 16)) },
      { uid := some "hoi", dtstart := some (.naive (dt 2005 5 3 16)), duration := some (hours 2),
        dtend := some (.naive (dt 2005 5 3 17)) }].map
      (fun v => (mcal.getOccurrences src (single v).store (some (dt 2005 5 1)) (some (dt 2005 6 1)) none).map
        (fun l => l.map (fun o => (o.dtstart, o.duration)))) =
    [.ok [(dt 2005 5 3, days 1)], .ok [(dt 2005 5 3 16, 0)], .ok [(dt 2005 5 3 16, hours 1)]] := by decide +kernel

/-! ### AllDayImportExportTestCase -/

/-- An all-day meeting is exported, deleted and imported again. -/
def allday (duration : Option Int) : World :=
  let w := after [.attendeeCreate now "martijn"
    { dtstart := dt 2005 4 10 16, duration, title := "Martijn's Meeting", location := "Room 1", allday := true }]
  (imp (w.step (.delete (uid 0))).1 (exported w)).1

-- test_allday_export, test_allday_export_no_duration, test_allday_export_two_days
example : [some (days 1), none, some (days 2)].map
    (fun d => look (allday d) (uid 0) (fun e => (e.allday, e.duration))) =
    [.ok (true, some (days 1)), .ok (true, some (days 1)), .ok (true, some (days 2))] := by decide +kernel

/-! ### test_cal.py: test_inviteEvent -/

/-- `_invite_subscriber` (test_cal.py:7-11) -/
def inviteSubscriber (_ : Heap) (n : HNote) : Prog :=
  match n.note with
  | .participation _ a _ _ => .call (.setStatus n.ref a (some "ACCEPTED")) (fun _ r =>
      match r with
      | .ok () => .done
      | .error (.py e) => .fail e
      | .error .diverge => .done)
  | _ => .done

example :
    let notify := react inviteSubscriber 5
    let x := (freshHeap "storage" "host").call notify (.create now none
      { dtstart := dt 2005 4 10 16, duration := some (minutes 60), title := "Martijn's Meeting", organizer := some "martijn" })
    let y := x.1.call notify (.invite 0 ["room"])
    x.2 = .ok () ∧ y.2 = .ok () ∧ (y.1.obj 0).getStatus "room" = some "ACCEPTED" := by decide +kernel

end CalCore.Conformance
