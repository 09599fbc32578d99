import Verif.Model.History
/- Which call raises which exception. -/
namespace CalCore.Spec

/-- The documented roles (interfaces.py). -/
def RoleOk (role : String) : Prop :=
  role = "CHAIR" ∨ role = "REQ-PARTICIPANT" ∨ role = "OPT-PARTICIPANT" ∨ role = "NON-PARTICIPANT"

/-- The documented statuses (interfaces.py); None removes the attendee. -/
def StatusOk (st : Option String) : Prop :=
  st = none ∨ st = some "NEEDS-ACTION" ∨ st = some "ACCEPTED" ∨ st = some "DECLINED" ∨ st = some "TENTATIVE" ∨
    st = some "DELEGATED"

/-- The attendees of a specification cannot be set: the first that is wrong has a wrong role, or a documented role and
is None. -/
def AttendeesFail (l : List (Option AttId × String × String)) (e : PyErr) : Prop :=
  ∃ pre a role st post, l = pre ++ (a, role, st) :: post ∧ (∀ y ∈ pre, y.1.isSome ∧ RoleOk y.2.1) ∧
    (¬ RoleOk role ∧ e = .AssertionError ∨ RoleOk role ∧ a = none ∧ e = .AttributeError)

/-- The exceptions of the calls other than imports, given the stored events. -/
def Fails (m : Uid → Option Event) (op : Op) (e : PyErr) : Prop :=
  match op with
  | .create _ _ spec => AttendeesFail spec.attendees e
  | .attendeeCreate _ _ spec => AttendeesFail spec.attendees e
  | .delete uid => m uid = none ∧ e = .KeyError
  | .setStatus uid a st =>
    m uid = none ∧ e = .KeyError ∨
    m uid ≠ none ∧ ¬ StatusOk st ∧ e = .AssertionError ∨
    ∃ ev, m uid = some ev ∧ st = none ∧ (∃ old, Dict.get? ev.pstate a = some old) ∧ Dict.get? ev.prole a = none ∧
      e = .KeyError
  | .setRole uid _ role => m uid = none ∧ e = .KeyError ∨ m uid ≠ none ∧ ¬ RoleOk role ∧ e = .AssertionError
  | .invite uid _ => m uid = none ∧ e = .KeyError
  | .alldayAdjust uid => m uid = none ∧ e = .KeyError
  | .edit uid spec => m uid = none ∧ e = .KeyError ∨ m uid ≠ none ∧ AttendeesFail spec.attendees e
  | .import_ .. => False

end CalCore.Spec
