import Verif.Lemmas.Store
/- Concrete data used in the examples beside the theorems. -/
namespace CalCore.Sample

/-- 2026-03-02 (a Monday), 00:00. -/
def day : Int := ymd2ord 2026 3 2 * DAY
/-- One hour. -/
def HOUR : Int := 3600000000

/-- Alice meets from 10 to 12 on the first day, Bob is invited. -/
def meeting : Spec :=
  { dtstart := day + 10 * HOUR, duration := some (2 * HOUR), title := "meeting"
    organizer := some "alice", categories := {"work"}
    attendees := [(some "bob", "OPT-PARTICIPANT", "NEEDS-ACTION")] }

/-- Bob travels from 20:00 on the first day to 06:00 on the third. -/
def trip : Spec :=
  { dtstart := day + 20 * HOUR, duration := some (34 * HOUR), title := "trip", organizer := some "bob" }

/-- A point in time on the second day. -/
def point : Spec := { dtstart := day + 33 * HOUR, duration := some 0, organizer := some "bob" }

/-- An event without a duration, from before. -/
def open_ : Spec := { dtstart := day - 100 * DAY, duration := none, organizer := some "carol" }

/-- A history with creations, an invitation and a deletion. -/
def ops : List Op :=
  [.create day (some "m") meeting, .create day (some "x") meeting, .create day (some "t") trip,
   .delete "x", .create day (some "p") point, .invite "t" ["alice", "bob"]]

/-- The world after these calls. -/
def world : World := (freshWorld "st" "host").run ops
/-- Its store. -/
def store : Storage := world.store

theorem store_wf : store.WF := run_wf "st" "host" ops

end CalCore.Sample
