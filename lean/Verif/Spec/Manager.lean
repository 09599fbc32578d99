import Verif.Model.Manager
/- The history of one storage among several. -/
namespace CalCore.Spec

/-- The calls that are methods of an event object: those that are not calls of the manager, an attendee or a calendar. -/
def onObject : Op → Bool
  | .create .. => false
  | .attendeeCreate .. => false
  | .delete .. => false
  | .import_ .. => false
  | _ => true

/-- The calls of a client of a manager that concern storage `i`, where `n` storages exist and the manager uses
`cur`: the calls made while the manager uses it, and the methods of its events. -/
def callsOn (i : Nat) : Nat → Option Nat → List ManagerOp → List Op
  | _, _, [] => []
  | n, cur, .newStorage _ _ :: rest => callsOn i (n + 1) cur rest
  | n, _, .setStorage none :: rest => callsOn i n none rest
  | n, cur, .setStorage (some j) :: rest => callsOn i n (if j < n then some j else cur) rest
  | n, cur, .call op :: rest => if cur = some i then op :: callsOn i n cur rest else callsOn i n cur rest
  | n, cur, .discard uid :: rest =>
    if cur = some i then .delete uid :: callsOn i n cur rest else callsOn i n cur rest
  | n, cur, .object j op :: rest =>
    if j = i ∧ i < n ∧ onObject op = true then op :: callsOn i n cur rest else callsOn i n cur rest

/-- The storages a client makes, in order. -/
def made : List ManagerOp → List (String × String)
  | [] => []
  | .newStorage id host :: rest => (id, host) :: made rest
  | _ :: rest => made rest

/-- The storage chooses the ids: creations do not give one and read a proper clock, and nothing is imported. -/
def OwnIds : ManagerOp → Prop
  | .call (.create now uid _) => uid = none ∧ dtInRange now = true
  | .call (.attendeeCreate now _ _) => dtInRange now = true
  | .call (.import_ ..) => False
  | _ => True

end CalCore.Spec
