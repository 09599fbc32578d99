import Verif.Model.History
/- What interfaces.py documents about the attributes of events, written down without the schemas. -/
namespace CalCore.Spec

/-- A text without line break. -/
def OneLine (s : String) : Prop := ∀ c ∈ s.toList, c ≠ '\n' ∧ c ≠ '\r'

/-- Documented values of the status of an event. -/
def FormStatus (s : String) : Prop := s = "TENTATIVE" ∨ s = "CONFIRMED" ∨ s = "CANCELED"

/-- Documented values of the access indicator. -/
def FormAccess (s : String) : Prop := s = "PUBLIC" ∨ s = "PRIVATE" ∨ s = "CONFIDENTIAL"

/-- The attributes of an event are what interfaces.py documents. -/
structure EventConforms (e : Event) : Prop where
  uid : OneLine e.uid
  title : OneLine e.title
  location : OneLine e.location
  document : ∀ d, e.document = some d → OneLine d
  status : FormStatus e.status
  access : FormAccess e.access
  duration : e.duration ≠ none

/-- The same for the attributes of a specification, apart from the duration. -/
structure SpecConforms (s : Spec) : Prop where
  title : OneLine s.title
  location : OneLine s.location
  document : ∀ d, s.document = some d → OneLine d
  status : FormStatus s.status
  access : FormAccess s.access

/-- The same for the properties of a component of an imported file. -/
structure ComponentConforms (v : VEvent) : Prop where
  uid : ∀ u, v.uid = some u → OneLine u
  summary : ∀ s, v.summary = some s → OneLine s
  location : ∀ s, v.location = some s → OneLine s
  attach : ∀ s, v.attach = some s → OneLine s
  status : ∀ s, v.status = some s → FormStatus s
  cls : ∀ s, v.cls = some s → FormAccess s

/-- The arguments of a call are what interfaces.py documents.  A duration can be missing for a new all-day event. -/
def CallConforms : Op → Prop
  | .create _ uid spec => (∀ u, uid = some u → OneLine u) ∧ SpecConforms spec ∧ (spec.duration = none → spec.allday = true)
  | .attendeeCreate _ _ spec => SpecConforms spec ∧ (spec.duration = none → spec.allday = true)
  | .edit _ spec => SpecConforms spec ∧ spec.duration ≠ none
  | .import_ _ _ _ vs _ _ _ _ => ∀ v ∈ vs, ComponentConforms v
  | _ => True

/-- The attributes of a rule are what interfaces.py documents, with the weekdays counted as a set. -/
def RuleConforms (r : Rule) : Prop :=
  1 ≤ r.interval ∧ (∀ u, r.untl = some u → ∃ d, u = .date d) ∧
    ∀ l, r.kind = .weekly l → ∀ w ∈ l, 0 ≤ w ∧ w ≤ 6

end CalCore.Spec
