import Verif.Model.Sharing
/- Specification for C128 and C129: specifications and events that have their attributes for themselves. -/
namespace CalCore.Spec

/-- A specification with values. -/
structure PlainSpec where
  cats : Finset String
  rule : Option Rule
  atts : List Invitation
  deriving DecidableEq

/-- An event with values. -/
structure PlainEvent where
  cats : Finset String
  rule : Option Rule
  invited : List Invitation
  deriving DecidableEq

/-- All specifications and events. -/
structure PlainMemory where
  specs : List PlainSpec
  events : List PlainEvent
  deriving DecidableEq

/-- The value of an argument. -/
def PlainMemory.cats (p : PlainMemory) : Given (Finset String) → Option (Finset String)
  | .new v => some v
  | .ofEvent e => p.events[e]?.map PlainEvent.cats
  | .ofSpec s => p.specs[s]?.map PlainSpec.cats

/-- The value of an argument. -/
def PlainMemory.rule (p : PlainMemory) : Given Rule → Option (Option Rule)
  | .new v => some (some v)
  | .ofEvent e => p.events[e]?.map PlainEvent.rule
  | .ofSpec s => p.specs[s]?.map PlainSpec.rule

/-- The value of an argument. -/
def PlainMemory.atts (p : PlainMemory) : Given (List Invitation) → Option (List Invitation)
  | .new v => some v
  | .ofEvent _ => none
  | .ofSpec s => p.specs[s]?.map PlainSpec.atts

/-- Change one event. -/
def PlainMemory.onEvent (p : PlainMemory) (e : Nat) (f : PlainEvent → PlainEvent) : Option PlainMemory :=
  p.events[e]?.map (fun o => { p with events := p.events.set e (f o) })

/-- The attributes of an event become those of a specification, the attendees are added. -/
def PlainSpec.on (s : PlainSpec) (o : PlainEvent) : PlainEvent := ⟨s.cats, s.rule, o.invited ++ s.atts⟩

/-- What each call should mean: every argument is copied, nothing is shared; arguments left out are empty. -/
def PlainMemory.step? (p : PlainMemory) : MemOp → Option PlainMemory
  | .spec c r a =>
    (c.elim (some ∅) p.cats).bind (fun c => (r.elim (some none) p.rule).bind (fun r =>
      (a.elim (some []) p.atts).map (fun a => { p with specs := p.specs ++ [⟨c, r, a⟩] })))
  | .create s => p.specs[s]?.map (fun s => { p with events := p.events ++ [⟨s.cats, s.rule, s.atts⟩] })
  | .apply s e => p.specs[s]?.bind (fun s => p.onEvent e s.on)
  | .importNew c r a => some { p with events := p.events ++ [⟨c, r, a.getD []⟩] }
  | .importOld e c r a => p.onEvent e (PlainSpec.on ⟨c, r, a.getD []⟩)
  | .assignCats e x => (p.cats x).bind (fun c => p.onEvent e (fun o => { o with cats := c }))
  | .assignRule e x => (x.elim (some none) p.rule).bind (fun r => p.onEvent e (fun o => { o with rule := r }))
  | .changeCats e v => p.onEvent e (fun o => { o with cats := v })
  | .changeRule e v => p.onEvent e (fun o => { o with rule := o.rule.map (fun _ => v) })
  | .append s x => p.specs[s]?.map (fun o => { p with specs := p.specs.set s { o with atts := o.atts ++ [x] } })

/-- What a call should do. -/
def PlainMemory.step (p : PlainMemory) (op : MemOp) : PlainMemory := (p.step? op).getD p

/-- What a sequence of calls should do. -/
def PlainMemory.run (p : PlainMemory) : List MemOp → PlainMemory
  | [] => p
  | op :: rest => PlainMemory.run (p.step op) rest

/-- Changes an object in place. -/
def InPlace : MemOp → Prop
  | .changeCats .. => True
  | .changeRule .. => True
  | .append .. => True
  | _ => False

/-- The argument, if any, is an object made for this call. -/
def IsNew {α : Type} : Option (Given α) → Prop
  | none => True
  | some (.new _) => True
  | some _ => False

/-- Every object passed is made for this call, and no list of a specification is changed. -/
def PassesNew : MemOp → Prop
  | .spec c r a => IsNew c ∧ IsNew r ∧ IsNew a
  | .assignCats _ x => IsNew (some x)
  | .assignRule _ x => IsNew x
  | .append .. => False
  | _ => True

/-- The specification that a call transfers to an event. -/
def transfers : MemOp → List Nat
  | .create s => [s]
  | .apply s _ => [s]
  | _ => []

/-- What there is to know about the default list: for each specification, whether its list of attendees is the default
one, and what was appended to the default list. -/
structure Defaults where
  flags : List Bool
  added : List Invitation

/-- One call. -/
def Defaults.step (d : Defaults) : MemOp → Defaults
  | .spec _ _ none => { d with flags := d.flags ++ [true] }
  | .spec _ _ (some (.ofSpec s)) => { d with flags := d.flags ++ [d.flags[s]?.getD false] }
  | .spec .. => { d with flags := d.flags ++ [false] }
  | .append s x => if d.flags[s]? = some true then { d with added := d.added ++ [x] } else d
  | _ => d

/-- Specification `k` was made without attendees, or with the list of one that was. -/
def madeWithout (ops : List MemOp) (k : Nat) : Prop := (ops.foldl Defaults.step ⟨[], []⟩).flags[k]? = some true

/-- What was appended, after a sequence of calls, to lists of specifications made without attendees. -/
def addedToDefault (ops : List MemOp) : List Invitation := (ops.foldl Defaults.step ⟨[], []⟩).added

end CalCore.Spec
