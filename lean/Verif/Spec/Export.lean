import Verif.Model.Calendar
/- Specification vocabulary for export. -/
namespace CalCore.Spec

/-- A rule that the exported properties (frequency, interval, count, until) say completely. -/
def Expressible (r : Rule) : Prop :=
  (r.kind = .daily ∨ r.kind = .yearly ∨ r.kind = .weekly [] ∨ r.kind = .monthly .monthday) ∧ r.exceptions = []

/-- An event that the exported properties say completely: if all-day, it starts at midnight and lasts whole
days; its rule, if any, is expressible; its document is not the empty text. -/
structure Exportable (e : Event) : Prop where
  allday : e.allday = true → e.dtstart % DAY = 0 ∧ ∃ k, 1 ≤ k ∧ e.duration = some (k * DAY)
  recurrence : ∀ r, e.recurrence = some r → Expressible r
  document : e.document ≠ some ""

/-- The events agree on everything but identity, organizer and participation. -/
def SameContent (e e' : Event) : Prop :=
  e.dtstart = e'.dtstart ∧ e.duration = e'.duration ∧ e.allday = e'.allday ∧ e.title = e'.title ∧
  e.description = e'.description ∧ e.location = e'.location ∧ e.status = e'.status ∧
  e.categories = e'.categories ∧ e.transparent = e'.transparent ∧ e.access = e'.access ∧
  e.document = e'.document ∧ e.recurrence = e'.recurrence

/-- The events agree on what everybody may see: times, recurrence, transparency, identity and access. -/
def SameTimes (e e' : Event) : Prop :=
  e.uid = e'.uid ∧ e.dtstart = e'.dtstart ∧ e.duration = e'.duration ∧ e.allday = e'.allday ∧
  e.recurrence = e'.recurrence ∧ e.transparent = e'.transparent ∧ e.access = e'.access

/-- Listing a set in some order. -/
def Lists (order : Finset String → List String) : Prop := ∀ s, (order s).toFinset = s

/-- What the exported properties say about a rule: no exceptions, no weekdays of a weekly rule, no kind of a
monthly rule.  They say nothing about the two classes without a frequency. -/
def copyRule (r : Rule) : Option Rule :=
  match r.kind with
  | .basic => none
  | .no => none
  | .daily => some { r with exceptions := [] }
  | .yearly => some { r with exceptions := [] }
  | .weekly _ => some { r with kind := .weekly [], exceptions := [] }
  | .monthly _ => some { r with kind := .monthly .monthday, exceptions := [] }

/-- `e'` is what becomes of `e` in an export and import into an empty store: the rule as the exported properties
say it, no empty document, and whole days when all-day (one day where the start and the end have the same
date). -/
structure Copied (e e' : Event) : Prop where
  title : e'.title = e.title
  description : e'.description = e.description
  location : e'.location = e.location
  status : e'.status = e.status
  categories : e'.categories = e.categories
  transparent : e'.transparent = e.transparent
  access : e'.access = e.access
  allday : e'.allday = e.allday
  document : e'.document = if e.document = some "" then none else e.document
  once : e.recurrence = none → e'.recurrence = none
  recurs : ∀ r, e.recurrence = some r → e'.recurrence = copyRule r ∧ copyRule r ≠ none
  timed : e.allday = false → e'.dtstart = e.dtstart ∧ e'.duration = e.duration
  days : e.allday = true → e'.dtstart = combine (dtDate e.dtstart) 0 ∧
    ∃ d, e.duration = some d ∧
      (dtDate (e.dtstart + d) = dtDate e.dtstart → e'.duration = some DAY) ∧
      (dtDate (e.dtstart + d) ≠ dtDate e.dtstart →
        e'.duration = some ((dtDate (e.dtstart + d) - dtDate e.dtstart) * DAY))

end CalCore.Spec
