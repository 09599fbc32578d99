import Mathlib.Data.Finset.Basic
import Verif.Model.Event
/- Specifications and events with mutable attributes as objects in a memory (cal.py:47-105, 395-400).

`categories` is a `sets.Set`, `recurrence` a rule with public attributes, `attendees` of a specification a list.  All
three are mutable objects; the code stores references to them and never copies.  `World` has values instead.  The other
attributes are immutable and left out, and so are ids, the store, and the exceptions of unknown attendees or roles. -/
namespace CalCore

-- Address of an object.
macro "Addr" : term => `(Nat)

/-- An element of `attendees`: attendee, role, status. -/
abbrev Invitation := AttId × String × String

/-- An `EventSpecification` object: the addresses of its mutable attributes. -/
structure MemSpec where
  cats : Addr
  rule : Option Addr
  atts : Addr
  deriving DecidableEq

/-- An event object.  `invited` is what was set in its participation dictionaries from lists of attendees, in order; the
tuples are copied (cal.py:102-105), the lists not kept. -/
structure MemEvent where
  cats : Addr
  rule : Option Addr
  invited : List Invitation
  deriving DecidableEq

/-- Sets, rules and lists by address; all specifications and events made so far, by number. -/
structure Memory where
  sets : List (Finset String)
  rules : List Rule
  lists : List (List Invitation)
  specs : List MemSpec
  events : List MemEvent
  deriving DecidableEq

/-- After importing the module: the list at address 0 is the default value of `attendees` (cal.py:69), made once when
`EventSpecification.__init__` is defined. -/
def startMemory : Memory := { sets := [], rules := [], lists := [[]], specs := [], events := [] }

/-- An argument: an object made for this call, or the one that an event or a specification has. -/
inductive Given (α : Type) where
  | new (v : α)
  | ofEvent (e : Nat)
  | ofSpec (s : Nat)
  deriving DecidableEq

/-- What a client can do. -/
inductive MemOp where
  /-- `EventSpecification(..., categories=, recurrence=, attendees=)`; an argument can be left out. -/
  | spec (cats : Option (Given (Finset String))) (rule : Option (Given Rule)) (atts : Option (Given (List Invitation)))
  /-- `Event(uid, spec)`, as called by `createEventFromSpecification` -/
  | create (s : Nat)
  /-- `spec.setOnObject(event)` -/
  | apply (s e : Nat)
  /-- a component is imported as a new event, or to update an event -/
  | importNew (cats : Finset String) (rule : Option Rule) (atts : Option (List Invitation))
  | importOld (e : Nat) (cats : Finset String) (rule : Option Rule) (atts : Option (List Invitation))
  /-- `event.categories = x`, `event.recurrence = x` -/
  | assignCats (e : Nat) (x : Given (Finset String))
  | assignRule (e : Nat) (x : Option (Given Rule))
  /-- changes in place: `event.categories.add(...)`, `event.recurrence.interval = ...`, `spec.attendees.append(...)` -/
  | changeCats (e : Nat) (v : Finset String)
  | changeRule (e : Nat) (v : Rule)
  | append (s : Nat) (x : Invitation)

/-- The categories argument of a call: the memory afterwards and the address.  If left out, `Set()` is made
(cal.py:80-81). -/
def Memory.giveCats (m : Memory) : Option (Given (Finset String)) → Option (Memory × Addr)
  | none => some ({ m with sets := m.sets ++ [∅] }, m.sets.length)
  | some (.new v) => some ({ m with sets := m.sets ++ [v] }, m.sets.length)
  | some (.ofEvent e) => m.events[e]?.map (fun o => (m, o.cats))
  | some (.ofSpec s) => m.specs[s]?.map (fun o => (m, o.cats))

/-- The recurrence argument; if left out, None (cal.py:64). -/
def Memory.giveRule (m : Memory) : Option (Given Rule) → Option (Memory × Option Addr)
  | none => some (m, none)
  | some (.new v) => some ({ m with rules := m.rules ++ [v] }, some m.rules.length)
  | some (.ofEvent e) => m.events[e]?.map (fun o => (m, o.rule))
  | some (.ofSpec s) => m.specs[s]?.map (fun o => (m, o.rule))

/-- The attendees argument; if left out, the default list (cal.py:69).  Events have no such list. -/
def Memory.giveAtts (m : Memory) : Option (Given (List Invitation)) → Option (Memory × Addr)
  | none => some (m, 0)
  | some (.new v) => some ({ m with lists := m.lists ++ [v] }, m.lists.length)
  | some (.ofEvent _) => none
  | some (.ofSpec s) => m.specs[s]?.map (fun o => (m, o.atts))

/-- `EventSpecification.__init__` (cal.py:57-85).  None if an argument refers to something that does not exist; no client
can write that. -/
def Memory.newSpec (m : Memory) (cats : Option (Given (Finset String))) (rule : Option (Given Rule))
    (atts : Option (Given (List Invitation))) : Option (Memory × MemSpec) :=
  (m.giveCats cats).bind (fun x =>
    (x.1.giveRule rule).bind (fun y =>
      (y.1.giveAtts atts).map (fun z => (z.1, ⟨x.2, y.2, z.2⟩))))

/-- The contents of a set. -/
def Memory.catsAt (m : Memory) (r : Addr) : Finset String := m.sets[r]?.getD ∅

/-- The rule in an attribute. -/
def Memory.ruleAt (m : Memory) (r : Option Addr) : Option Rule := r.bind (fun r => m.rules[r]?)

/-- The contents of a list. -/
def Memory.attsAt (m : Memory) (r : Addr) : List Invitation := m.lists[r]?.getD []

/-- `Event(uid, spec)`: `setOnObject` on an object without attributes stores every reference, because `_marker` differs
from every value (cal.py:90-93, 395-400). -/
def Memory.create (m : Memory) (s : MemSpec) : Memory :=
  { m with events := m.events ++ [⟨s.cats, s.rule, m.attsAt s.atts⟩] }

/-- `setOnObject` on an event (cal.py:90-105): an attribute is stored if its value differs; otherwise the event keeps the
object that it has. -/
def Memory.setOn (m : Memory) (s : MemSpec) (o : MemEvent) : MemEvent :=
  { cats := if m.catsAt o.cats ≠ m.catsAt s.cats then s.cats else o.cats
    rule := if m.ruleAt o.rule ≠ m.ruleAt s.rule then s.rule else o.rule
    invited := o.invited ++ m.attsAt s.atts }

/-- Change event `e`, if it exists. -/
def Memory.onEvent (m : Memory) (e : Nat) (f : MemEvent → MemEvent) : Option Memory :=
  m.events[e]?.map (fun o => { m with events := m.events.set e (f o) })

/-- One call; None for calls about objects that do not exist, which no client can make.
`importNew`, `importOld`: `_importEventSpecification` makes a new set, rule and list for every component; without an
ATTENDEE property the list is left out (cal.py:748-794, 773-783).  `importOld` is an import that modifies the event; if
`willModify` is false, nothing happens (cal.py:736-741). -/
def Memory.step? (m : Memory) : MemOp → Option Memory
  | .spec c r a => (m.newSpec c r a).map (fun x => { x.1 with specs := x.1.specs ++ [x.2] })
  | .create s => m.specs[s]?.map m.create
  | .apply s e => m.specs[s]?.bind (fun s => m.onEvent e (m.setOn s))
  | .importNew c r a => (m.newSpec (some (.new c)) (r.map .new) (a.map .new)).map (fun x => x.1.create x.2)
  | .importOld e c r a =>
    (m.newSpec (some (.new c)) (r.map .new) (a.map .new)).bind (fun x => x.1.onEvent e (x.1.setOn x.2))
  | .assignCats e x => (m.giveCats (some x)).bind (fun y => y.1.onEvent e (fun o => { o with cats := y.2 }))
  | .assignRule e x => (m.giveRule x).bind (fun y => y.1.onEvent e (fun o => { o with rule := y.2 }))
  | .changeCats e v => m.events[e]?.map (fun (o : MemEvent) => { m with sets := m.sets.set o.cats v })
  | .changeRule e v => (m.events[e]?.bind MemEvent.rule).map (fun r => { m with rules := m.rules.set r v })
  | .append s x => m.specs[s]?.map (fun (o : MemSpec) =>
      { m with lists := m.lists.set o.atts (m.attsAt o.atts ++ [x]) })

/-- Execute a sequence of calls about objects that exist. -/
def Memory.run? (m : Memory) : List MemOp → Option Memory
  | [] => some m
  | op :: rest => (m.step? op).bind (fun m' => Memory.run? m' rest)

/-- Execute one call. -/
def Memory.step (m : Memory) (op : MemOp) : Memory := (m.step? op).getD m

/-- Execute a sequence of calls. -/
def Memory.run (m : Memory) : List MemOp → Memory
  | [] => m
  | op :: rest => Memory.run (m.step op) rest

end CalCore
