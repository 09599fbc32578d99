import Verif.Model.Lang
/- Syntax trees of functions of /repo/src/calcore/events.py, written by tools/translate.py: do not edit. -/
namespace CalCore.Lang.Source

/-- `EventEvent.__init__`, events.py lines 29-30 -/
def EventEvent_init : FunDef where
  kind := .init
  params := [("self", none), ("event", none)]
  locals := []
  body := [
    -- 30: self.event = event
    .assign (.attr "self" "event") (.var "event")]

/-- `EventParticipationChangeEvent.__init__`, events.py lines 52-56 -/
def EventParticipationChangeEvent_init : FunDef where
  kind := .init
  params := [("self", none), ("event", none), ("attendee", none), ("old_status", none), ("new_status", none)]
  locals := []
  body := [
    -- 53: self.event = event
    .assign (.attr "self" "event") (.var "event"),
    -- 54: self.attendee = attendee
    .assign (.attr "self" "attendee") (.var "attendee"),
    -- 55: self.old_status = old_status
    .assign (.attr "self" "old_status") (.var "old_status"),
    -- 56: self.new_status = new_status
    .assign (.attr "self" "new_status") (.var "new_status")]

end CalCore.Lang.Source
