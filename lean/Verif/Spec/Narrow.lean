import Verif.Spec.Queries
/- The criteria that queries of attendees and calendars ask for. -/
namespace CalCore.Spec

/-- The criteria without conditions that are empty strings or lists. -/
def Stripped (c : Criteria) : Criteria :=
  { attendees := c.attendees.filter (fun l => !l.isEmpty), status := c.status.filter (fun s => s != "")
    role := c.role.filter (fun s => s != ""), categories := c.categories.filter (fun l => !l.isEmpty)
    organizer := c.organizer }

/-- The criteria, for these attendees unless they name attendees themselves. -/
def For (l : List AttId) : Option Criteria → Criteria
  | none => { attendees := some l }
  | some c => { Stripped c with attendees := some ((Stripped c).attendees.getD l) }

/-- The criteria, for this organizer unless they name an organizer themselves. -/
def ForOrganizer (a : AttId) : Option Criteria → Criteria
  | none => { organizer := some a }
  | some c => { Stripped c with organizer := some (c.organizer.getD a) }

end CalCore.Spec
