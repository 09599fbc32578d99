import Verif.Model.Event
/- Events in Python lists and sets: what `in`, `remove`, `sort` and sets make of `EventBase.__cmp__` and `EventBase.__hash__`
(/repo/src/calcore/cal.py).  Python compares by identity first, then by `__cmp__`. -/
namespace CalCore

/-- `EventBase.__hash__` (cal.py:487-488); Python's hash of strings is a parameter. -/
def Event.hash (h : String → Int) (e : Event) : Int := h e.uid

/-- An event object: its identity and its attributes at the moment. -/
structure EventObj where
  addr : Nat
  ev : Event
  deriving DecidableEq

/-- `y is x or y == x`; `==` is `__cmp__(y, x) == 0` (cal.py:490-496). -/
def EventObj.same (cmpStr : String → String → Int) (y x : EventObj) : Bool :=
  decide (y.addr = x.addr) || decide (y.ev.cmp x.ev cmpStr = 0)

/-- `x in l` (cal.py:490-496 through Python's list type). -/
def listHas (cmpStr : String → String → Int) (l : List EventObj) (x : EventObj) : Bool := l.any (·.same cmpStr x)

/-- `l.remove(x)` (cal.py:490-496 through Python's list type): the first element that is the same; ValueError without one. -/
def listRemove (cmpStr : String → String → Int) : List EventObj → EventObj → Res (List EventObj)
  | [], _ => raise .ValueError
  | y :: l, x => if y.same cmpStr x then .ok l else do
    let l' ← listRemove cmpStr l x
    .ok (y :: l')

/-- `x in s` for a set (cal.py:487-496 through Python's set type): an element with the same hash that is the same. -/
def setHas (h : String → Int) (cmpStr : String → String → Int) (s : List EventObj) (x : EventObj) : Bool :=
  s.any fun y => decide (y.ev.hash h = x.ev.hash h) && y.same cmpStr x

/-- `s.add(x)` (cal.py:487-496 through Python's set type). -/
def setAdd (h : String → Int) (cmpStr : String → String → Int) (s : List EventObj) (x : EventObj) : List EventObj :=
  if setHas h cmpStr s x then s else s ++ [x]

/-- `set(l)`. -/
def setOf (h : String → Int) (cmpStr : String → String → Int) (l : List EventObj) : List EventObj :=
  l.foldl (setAdd h cmpStr) []

/-- Insert before the first element that is greater. -/
def insertObj (cmpStr : String → String → Int) (x : EventObj) : List EventObj → List EventObj
  | [] => [x]
  | y :: l => if x.ev.cmp y.ev cmpStr < 0 then x :: y :: l else y :: insertObj cmpStr x l

/-- `l.sort()` (cal.py:490-496 through Python's list type, whose sort is stable): elements are inserted one after the other. -/
def listSort (cmpStr : String → String → Int) (l : List EventObj) : List EventObj :=
  l.foldl (fun acc x => insertObj cmpStr x acc) []

end CalCore
