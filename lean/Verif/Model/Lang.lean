import Verif.Model.Util
import Verif.Model.Recurrent
import Verif.Model.Repr
/- An interpreter for the part of Python 2 that the code is written in.

The functions of /repo are given as syntax trees in `Verif/Source/`, written by `tools/translate.py` from the source text.
This file says what such a tree does.  It is part of the trusted base of the theorems on syntax trees (C130 and later), and
of no other theorem.  Simplifications:

* Lists, dictionaries, sets and objects are values: a call gets copies.  A method that changes a local variable in place
  (`append`, `pop`, `sort`, ...) changes the variable.  (Sharing is the subject of C128 and C129.)
* A generator is run to its end when it is called; the values yielded and the way it ended are then consumed one by one.
  For generators without effects this cannot be distinguished from running it step by step.
* The text of exceptions is not computed.
* The variable of a list comprehension is not left behind.  A set built from a sequence keeps repeated elements; it is only
  asked for membership and iterated over.
* A method that changes its object or its arguments (`Kind.proc`) gives back the objects as they are afterwards, and the
  caller puts them back into the variables that were given to it.  What it sends to `notify` is collected, with the objects
  as they were at that moment.  So an object that can be reached in two ways is not followed, except that a change of the
  storage manager of a calendar, or of an event got from it, is written back into the calendar and its attendee source (`shared`).
  (Its attendees have the manager as it was; nothing that is called between such a change and the end asks them.)
* A function with a parameter `**kw` has a last parameter `kw` instead, which is given the keyword arguments as a dictionary.
* The attributes of an object are listed, by `__dict__`, in the order in which they were first set.
* The objects of the icalendar library are represented by the data that they hold: a component to be exported by the
  properties added to it, in order; a component that was parsed by the decoded values of its properties; a datetime with a
  timezone by what its conversion to local time gives.
* Where the meaning of a construct is not given here, the interpreter is stuck, which is not an exception; the theorems say
  that it never is. -/
namespace CalCore.Lang

/-- Why there is no value: an exception; a case not given here; a loop or recursion that takes more steps than allowed. -/
inductive Stop where
  | py (e : PyErr)
  | stuck
  | timeout
  deriving DecidableEq, Repr

/-- A value.  `gen l fin`: a generator that yields `l` and then ends, with `fin` if not normally. -/
inductive Val where
  | none
  | bool (b : Bool)
  | int (n : Int)
  | str (s : String)
  | date (d : Int)
  | datetime (t : Int)
  | delta (t : Int)
  | time (t : Int)
  | list (l : List Val)
  | tuple (l : List Val)
  | set (l : List Val)
  | dict (l : List (Val × Val))
  | obj (cls : String) (attrs : List (String × Val))
  | gen (l : List Val) (fin : Option Stop)

/-- A value or why there is none. -/
abbrev M (α : Type) := Except Stop α

/-- An exception. -/
def err {α : Type} (e : PyErr) : M α := .error (.py e)

/-- A case not given. -/
def stuck {α : Type} : M α := .error .stuck

/-- What the library functions of `Model/DateTime.lean` return. -/
def lift {α : Type} : Res α → M α
  | .ok a => .ok a
  | .error (.py e) => .error (.py e)
  | .error .diverge => .error .timeout

/-- Library functions and classes. -/
inductive Prim where
  | date | datetime | timedelta | time | combine | monthrange | set | len | range | divmod | tuple | list
  | icalEvent | icalCalendar | vDate | vText | vRecur | localTimezone
  | cmp | hash | str | simpleTerm | simpleVocabulary | fromString
  deriving DecidableEq, Repr

/-- Classes in `isinstance`. -/
inductive Cls where
  | date | datetime | int | list | tuple | user (name : String)
  deriving DecidableEq, Repr

/-- Attributes of dates, datetimes and timedeltas. -/
inductive Field where
  | year | month | day | hour | minute | second | days | seconds | microseconds | resolution | tzinfo
  deriving DecidableEq, Repr

/-- Methods of library objects. -/
inductive Meth where
  | weekday | isoweekday | isocalendar | date | time | replace | keys | values | items | get | index | join | find | split
  | strftime | hasKey | decoded | getInline | decode | astimezone | asString | walk
  deriving DecidableEq, Repr

/-- Methods that change their object. -/
inductive Mut where
  | append | extend | pop | sort | add | setInline | addComponent
  deriving DecidableEq, Repr

/-- Operators. -/
inductive BinOp where
  | add | sub | mul | div | mod
  deriving DecidableEq, Repr

/-- Comparisons. -/
inductive CmpOp where
  | lt | le | gt | ge | eq | ne | is | isNot | isIn | notIn
  deriving DecidableEq, Repr

/-- Expressions.  `cattr`: an attribute of the object or of its class.  `className e`: `e.__class__.__name__`.
`attrItems e`: `e.__dict__.items()`.  `newKw c e`: `c(**e)`.  `typeIs e c`: `type(e) is c`. -/
inductive Expr where
  | const (v : Val)
  | var (x : String)
  | glob (x : String)
  | attr (e : Expr) (name : String)
  | field (e : Expr) (f : Field)
  | index (e i : Expr)
  | bin (op : BinOp) (a b : Expr)
  | cmp (op : CmpOp) (a b : Expr)
  | and (a b : Expr)
  | or (a b : Expr)
  | not (a : Expr)
  | tuple (l : List Expr)
  | list (l : List Expr)
  | prim (f : Prim) (args : List Expr) (kw : List (String × Expr))
  | call (f : String) (args : List Expr) (kw : List (String × Expr))
  | meth (e : Expr) (m : Meth) (args : List Expr) (kw : List (String × Expr))
  | method (e : Expr) (m : String) (args : List Expr) (kw : List (String × Expr))
  | new (cls : String) (args : List Expr) (kw : List (String × Expr))
  | newLike (e : Expr) (args : List Expr) (kw : List (String × Expr))
  | isinst (e : Expr) (cls : List Cls)
  | comp (elt : Expr) (x : String) (iter cond : Expr)
  | cattr (e : Expr) (name : String)
  | className (e : Expr)
  | attrItems (e : Expr)
  | getattr (e name default : Expr)
  | newKw (cls : String) (e : Expr)
  | typeIs (e : Expr) (c : Cls)
  | dict (l : List (String × Expr))

/-- What can be assigned to. -/
inductive Target where
  | name (x : String)
  | names (l : List String)
  | attr (x : String) (name : String)
  | item (x : String) (key : Expr)
  | attrItem (x : String) (name : String) (key : Expr)

/-- Statements.  `mutate t x m args` is `t = x.m(args)` for a method of the library that changes `x`; `proc t x a m args` is
the same for a method of the program, of the object `x` or `x.a`.  `shared x s` is the statement `s`, where the object `x`
that it changes can also be reached from `self`.  `yield` is also used for `notify`.  `abort` is
`raise NotImplementedError`. -/
inductive Stmt where
  | assign (t : Target) (e : Expr)
  | mutate (t : Option Target) (x : String) (m : Mut) (args : List Expr)
  | expr (e : Expr)
  | ite (c : Expr) (a b : List Stmt)
  | while (c : Expr) (body : List Stmt)
  | for (t : Target) (e : Expr) (body orelse : List Stmt)
  | tryExcept (body : List Stmt) (errs : List PyErr) (handler : List Stmt)
  | tryExcept2 (body : List Stmt) (errs : List PyErr) (handler : List Stmt) (errs' : List PyErr) (handler' : List Stmt)
  | proc (t : Option Target) (x : String) (a : Option String) (m : String) (args : List Expr)
  | shared (x : String) (s : Stmt)
  | delItem (x : String) (name : String) (key : Expr)
  | setattr (x : String) (name value : Expr)
  | abort
  | ret (e : Expr)
  | yield (e : Expr)
  | raise (e : PyErr)
  | assert (e : Expr)
  | pass
  | break
  | continue

/-- What calling a function gives: the value returned, a generator, (for `__init__`) the object afterwards, or everything
(`procVal`). -/
inductive Kind where
  | fn | gen | init | proc
  deriving DecidableEq, Repr

/-- A function definition; `locals` are the other local variables. -/
structure FunDef where
  kind : Kind
  params : List (String × Option Val)
  locals : List String
  body : List Stmt

/-- A program: its functions, the base classes, the global variables, the attributes of classes, and the names of the
functions that are not translated: the interpreter is stuck at them. -/
structure Prog where
  funs : List (String × FunDef)
  bases : List (String × String)
  globals : List (String × Val)
  consts : List (String × Val)
  others : List String

/-! ### values -/

/-- Truth value. -/
def Val.truthy : Val → Bool
  | .none => false
  | .bool b => b
  | .int n => decide (n ≠ 0)
  | .str s => decide (s ≠ "")
  | .delta t => decide (t ≠ 0)
  | .time t => decide (t ≠ 0)
  | .list l => !l.isEmpty
  | .tuple l => !l.isEmpty
  | .set l => !l.isEmpty
  | .dict l => !l.isEmpty
  | _ => true

/-- A number: `True` and `False` are 1 and 0. -/
def Val.num? : Val → Option Int
  | .bool b => some (if b then 1 else 0)
  | .int n => some n
  | _ => Option.none

mutual
/-- `a == b`.  A date and a datetime are different, and so are values of different kinds. -/
def Val.eq : Val → Val → M Bool
  | .none, .none => .ok true
  | .str a, .str b => .ok (decide (a = b))
  | .date a, .date b => .ok (decide (a = b))
  | .datetime a, .datetime b => .ok (decide (a = b))
  | .delta a, .delta b => .ok (decide (a = b))
  | .time a, .time b => .ok (decide (a = b))
  | .list a, .list b => Val.eqs a b
  | .tuple a, .tuple b => Val.eqs a b
  | .obj .., .obj .. => stuck
  | .set _, .set _ => stuck
  | .dict _, .dict _ => stuck
  | .gen .., .gen .. => stuck
  | a, b => match a.num?, b.num? with
    | some m, some n => .ok (decide (m = n))
    | _, _ => .ok false
/-- Elementwise. -/
def Val.eqs : List Val → List Val → M Bool
  | [], [] => .ok true
  | a :: as, b :: bs => do if ← Val.eq a b then Val.eqs as bs else .ok false
  | _, _ => .ok false
end

mutual
/-- The order of two values of the same kind; a datetime cannot be compared with a date or a
timedelta. -/
def Val.cmp : Val → Val → M Ordering
  | .str a, .str b => .ok (compare a b)
  | .date a, .date b => .ok (compare a b)
  | .datetime a, .datetime b => .ok (compare a b)
  | .delta a, .delta b => .ok (compare a b)
  | .time a, .time b => .ok (compare a b)
  | .date _, .datetime _ => err .TypeError
  | .datetime _, .date _ => err .TypeError
  | .datetime _, .delta _ => err .TypeError
  | .list a, .list b => Val.cmps a b
  | .tuple a, .tuple b => Val.cmps a b
  | a, b => match a.num?, b.num? with
    | some m, some n => .ok (compare m n)
    | _, _ => stuck
/-- Lexicographically. -/
def Val.cmps : List Val → List Val → M Ordering
  | [], [] => .ok .eq
  | [], _ => .ok .lt
  | _, [] => .ok .gt
  | a :: as, b :: bs => do match ← Val.cmp a b with
    | .eq => Val.cmps as bs
    | o => .ok o
end

/-- `a is b`, when one of them is None or both are the marker `Unchanged` (interfaces.py). -/
def Val.is : Val → Val → M Bool
  | .none, .none => .ok true
  | .obj "Unchanged" _, .obj "Unchanged" _ => .ok true
  | .none, _ => .ok false
  | _, .none => .ok false
  | .obj "Unchanged" _, _ => .ok false
  | _, .obj "Unchanged" _ => .ok false
  | _, _ => stuck

/-- `x in l` -/
def contains (x : Val) : List Val → M Bool
  | [] => .ok false
  | a :: l => do if ← Val.eq a x then .ok true else contains x l

/-- The elements of a collection, and how the iteration ends. -/
def Val.iter : Val → M (List Val × Option Stop)
  | .list l => .ok (l, Option.none)
  | .tuple l => .ok (l, Option.none)
  | .set l => .ok (l, Option.none)
  | .gen l fin => .ok (l, fin)
  | .dict l => .ok (l.map (·.1), Option.none)
  | _ => stuck

/-- All elements. -/
def Val.elems (v : Val) : M (List Val) := do
  match ← v.iter with
  | (l, Option.none) => .ok l
  | (_, some s) => .error s

/-- A timedelta has at most 999999999 days. -/
def mkDelta (t : Int) : M Val :=
  if -(999999999 * DAY) ≤ t ∧ t < 1000000000 * DAY then .ok (.delta t) else err .OverflowError

/-- A number with at least `k` digits. -/
def padInt (k : Nat) (n : Int) : M String := if n < 0 then stuck else .ok (padNat k n.toNat)

/-- What `%s` writes. -/
def showVal : Val → M String
  | .str s => .ok s
  | .int n => .ok (toString n)
  | _ => stuck

/-- What `%d` writes. -/
def showInt : Val → M String
  | .int n => .ok (toString n)
  | .str _ => err .TypeError
  | .none => err .TypeError
  | _ => stuck

mutual
/-- `repr(v)`, for some kinds of values. -/
def Val.repr : Val → M String
  | .none => .ok "None"
  | .int n => .ok (pyInt n)
  | .date d => .ok (pyDate d)
  | .datetime t => .ok (pyDateTime t)
  | .str s => if s.toList.all Char.isAlphanum then .ok ("'" ++ s ++ "'") else stuck
  | .tuple l => do .ok (pyTuple id (← Val.reprs l))
  | _ => stuck
/-- Of all elements. -/
def Val.reprs : List Val → M (List String)
  | [] => .ok []
  | a :: l => do
    let x ← Val.repr a
    .ok (x :: (← Val.reprs l))
end

/-- `f % values`, for the directives `%s`, `%r`, `%d`, `%.2d` and `%.4d`. -/
def format : List Char → List Val → M String
  | [], [] => .ok ""
  | [], _ => err .TypeError
  | '%' :: 's' :: f, v :: vs => do
    let a ← showVal v
    .ok (a ++ (← format f vs))
  | '%' :: 'r' :: f, v :: vs => do
    let a ← v.repr
    .ok (a ++ (← format f vs))
  | '%' :: 'd' :: f, v :: vs => do
    let a ← showInt v
    .ok (a ++ (← format f vs))
  | '%' :: '.' :: k :: 'd' :: f, .int n :: vs => do
    let a ← padInt (k.toNat - 48) n
    .ok (a ++ (← format f vs))
  | '%' :: _, _ => stuck
  | c :: f, vs => do .ok (String.singleton c ++ (← format f vs))

/-- The elements of one set that are not in the other. -/
def setMinus : List Val → List Val → M (List Val)
  | [], _ => .ok []
  | x :: l, b => do if ← contains x b then setMinus l b else .ok (x :: (← setMinus l b))

/-- `a op b`.  `/` of integers is rounded down. -/
def binop : BinOp → Val → Val → M Val
  | .add, .int a, .int b => .ok (.int (a + b))
  | .sub, .int a, .int b => .ok (.int (a - b))
  | .mul, .int a, .int b => .ok (.int (a * b))
  | .div, .int a, .int b => if b = 0 then err .ZeroDivisionError else .ok (.int (a.fdiv b))
  | .mod, .int a, .int b => if b = 0 then err .ZeroDivisionError else .ok (.int (a.fmod b))
  | .add, .str a, .str b => .ok (.str (a ++ b))
  | .add, .list a, .list b => .ok (.list (a ++ b))
  | .add, .date d, .delta t => (lift (dateAdd d (t / DAY))).map .date
  | .sub, .date d, .delta t => (lift (dateAdd d (-(t / DAY)))).map .date
  | .sub, .date a, .date b => .ok (.delta ((a - b) * DAY))
  | .add, .datetime a, .delta t => (lift (dtAdd a t)).map .datetime
  | .sub, .datetime a, .delta t => (lift (dtAdd a (-t))).map .datetime
  | .sub, .datetime a, .datetime b => .ok (.delta (a - b))
  | .add, .datetime _, .none => err .TypeError
  | .add, .delta a, .delta b => mkDelta (a + b)
  | .sub, .delta a, .delta b => mkDelta (a - b)
  | .sub, .set a, .set b => (setMinus a b).map .set
  | .mul, .int a, .delta b => mkDelta (a * b)
  | .mul, .delta a, .int b => mkDelta (a * b)
  | .mod, .str f, .tuple l => (format f.toList l).map .str
  | .mod, .str f, v => (format f.toList [v]).map .str
  | _, _, _ => stuck

/-- `a op b` -/
def cmpop : CmpOp → Val → Val → M Bool
  | .lt, a, b => do .ok (decide ((← a.cmp b) = .lt))
  | .le, a, b => do .ok (decide ((← a.cmp b) ≠ .gt))
  | .gt, a, b => do .ok (decide ((← a.cmp b) = .gt))
  | .ge, a, b => do .ok (decide ((← a.cmp b) ≠ .lt))
  | .eq, a, b => a.eq b
  | .ne, a, b => do .ok (!(← a.eq b))
  | .is, a, b => a.is b
  | .isNot, a, b => do .ok (!(← a.is b))
  | .isIn, a, b => do contains a (← b.elems)
  | .notIn, a, b => do .ok (!(← contains a (← b.elems)))

/-- `a == b` for sets. -/
def sameSet (a b : List Val) : M Bool := do
  if ← within a b then within b a else .ok false
where
  /-- All elements of one are in the other. -/
  within : List Val → List Val → M Bool
    | [], _ => .ok true
    | x :: l, b => do if ← contains x b then within l b else .ok false

/-- `v.f` -/
def getField : Field → Val → M Val
  | .year, .date d => .ok (.int (dyear d))
  | .month, .date d => .ok (.int (dmonth d))
  | .day, .date d => .ok (.int (dday d))
  | .resolution, .date _ => .ok (.delta DAY)
  | .year, .datetime t => .ok (.int (dyear (dtDate t)))
  | .month, .datetime t => .ok (.int (dmonth (dtDate t)))
  | .day, .datetime t => .ok (.int (dday (dtDate t)))
  | .hour, .datetime t => .ok (.int (dtTime t / 3600000000))
  | .minute, .datetime t => .ok (.int (dtTime t / 60000000 % 60))
  | .second, .datetime t => .ok (.int (dtTime t / 1000000 % 60))
  | .days, .delta t => .ok (.int (t / DAY))
  | .seconds, .delta t => .ok (.int (t % DAY / 1000000))
  | .microseconds, .delta t => .ok (.int (t % 1000000))
  | .tzinfo, .datetime _ => .ok .none
  | .tzinfo, .obj c _ => if c = "AwareDatetime" then .ok (.obj "tzinfo" []) else stuck
  | _, _ => stuck

/-- `v[i]`; negative indices count from the end; the names of the properties of a component are not case sensitive. -/
def getIndex : Val → Val → M Val
  | .list l, .int i => pick l i
  | .tuple l, .int i => pick l i
  | .str s, .int i => pick (s.toList.map (fun c => .str (String.singleton c))) i
  | .dict l, k => lookup l k
  | .obj "Component" [(_, .dict l)], .str k => lookup l (.str k.toUpper)
  | _, _ => stuck
where
  /-- The element at a position. -/
  pick (l : List Val) (i : Int) : M Val :=
    match (if 0 ≤ i then l[i.toNat]? else if 0 ≤ i + l.length then l[(i + l.length).toNat]? else Option.none) with
    | some v => .ok v
    | Option.none => err .IndexError
  /-- The value of a key. -/
  lookup : List (Val × Val) → Val → M Val
    | [], _ => err .KeyError
    | (k', v) :: l, k => do if ← k'.eq k then .ok v else lookup l k

/-- `isinstance(v, c)` for library classes: datetime is a subclass of date, bool of int. -/
def isInstance (bases : String → String → Bool) : Cls → Val → Bool
  | .date, .date _ => true
  | .date, .datetime _ => true
  | .datetime, .datetime _ => true
  | .int, .int _ => true
  | .int, .bool _ => true
  | .list, .list _ => true
  | .tuple, .tuple _ => true
  | .user c, .obj d _ => bases d c
  | _, _ => false

/-- `range(a, b)` -/
def rangeInt (a b : Int) : List Val := (List.range (b - a).toNat).map (fun (i : Nat) => .int (a + i))

/-- Is there a term with this value or this token? -/
def hasTerm (v : Val) (t : String) : List Val → M Bool
  | [] => .ok false
  | .obj "SimpleTerm" [(_, w), (_, .str u), _] :: l => do
    if (← w.eq v) || u = t then .ok true else hasTerm v t l
  | _ => stuck

/-- The terms of a vocabulary; no value and no token may appear twice.  (`seen`: the terms so far.) -/
def addTerms (seen : List Val) : List Val → M (List Val)
  | [] => .ok seen
  | .obj "SimpleTerm" [(a, v), (b, .str t), c] :: l => do
    if ← hasTerm v t seen then err .ValueError else addTerms (seen ++ [.obj "SimpleTerm" [(a, v), (b, .str t), c]]) l
  | _ => stuck

/-- What `cmp` returns. -/
def ordInt : Ordering → Int
  | .lt => -1
  | .eq => 0
  | .gt => 1

/-- What the parser gives for a text, according to a dictionary from texts to what it does with them: a value or an exception. -/
def parseWith : List (Val × Val) → Val → M Val
  | [], _ => stuck
  | (k, .gen l fin) :: rest, v => do
    if ← k.eq v then match l, fin with
      | [x], Option.none => .ok x
      | [], some e => .error e
      | _, _ => stuck
    else parseWith rest v
  | _, _ => stuck

/-- Library functions.  The hash of a value is only known to depend on the value. -/
def callPrim : Prim → List Val → List (String × Val) → M Val
  | .date, [.int y, .int m, .int d], [] => (lift (mkDate y m d)).map .date
  | .datetime, [.int y, .int m, .int d], [] => (lift (mkDateTime y m d)).map .datetime
  | .timedelta, [.int n], [] => mkDelta (n * DAY)
  | .timedelta, [], [("days", .int n)] => mkDelta (n * DAY)
  | .timedelta, [], [("minutes", .int n)] => mkDelta (n * 60000000)
  | .time, [.int h, .int m], [] =>
    if 0 ≤ h ∧ h < 24 ∧ 0 ≤ m ∧ m < 60 then .ok (.time (h * 3600000000 + m * 60000000)) else err .ValueError
  | .combine, [.date d, .time t], [] => .ok (.datetime (combine d t))
  | .monthrange, [.int y, .int m], [] =>
    if ¬ (1 ≤ m ∧ m ≤ 12) then err .ValueError else .ok (.tuple [.int (weekday (ymd2ord y m 1)), .int (daysInMonth y m)])
  | .set, [], [] => .ok (.set [])
  | .set, [v], [] => do .ok (.set (← v.elems))
  | .len, [.list l], [] => .ok (.int l.length)
  | .len, [.tuple l], [] => .ok (.int l.length)
  | .len, [.dict l], [] => .ok (.int l.length)
  | .range, [.int a, .int b], [] => .ok (.list (rangeInt a b))
  | .divmod, [.int a, .int b], [] =>
    if b = 0 then err .ZeroDivisionError else .ok (.tuple [.int (a.fdiv b), .int (a.fmod b)])
  | .tuple, [v], [] => do .ok (.tuple (← v.elems))
  | .list, [v], [] => do .ok (.list (← v.elems))
  | .icalEvent, [], [] => .ok (.obj "icalendar.Event" [("props", .list [])])
  | .icalCalendar, [], [] => .ok (.obj "icalendar.Calendar" [("props", .list []), ("components", .list [])])
  | .vDate, [.date d], [] => .ok (.obj "vDate" [("dt", .date d), ("params", .dict [])])
  | .vDate, [.datetime t], [] => .ok (.obj "vDate" [("dt", .date (dtDate t)), ("params", .dict [])])
  | .vText, [.str s], [] => .ok (.obj "vText" [("text", .str s)])
  | .vRecur, [.dict l], [] => .ok (.obj "vRecur" [("parts", .dict (l.map (fun p => (p.1, .list [p.2]))))])
  | .localTimezone, [], [] => .ok (.obj "LocalTimezone" [])
  | .cmp, [a, b], [] => do .ok (.int (ordInt (← a.cmp b)))
  | .hash, [v], [] => .ok (.obj "hash" [("of", v)])
  | .str, [.int n], [] => .ok (.str (toString n))
  | .fromString, [.dict l, v], [] => parseWith l v
  | .simpleTerm, [v, t, title], [] => do .ok (.obj "SimpleTerm" [("value", v), ("token", .str (← showVal t)), ("title", title)])
  | .simpleVocabulary, [v], [] => do .ok (.obj "SimpleVocabulary" [("terms", .list (← addTerms [] (← v.elems)))])
  | _, _, _ => stuck

/-- An integer given by keyword, or a default. -/
def kwInt (kw : List (String × Val)) (x : String) (default : Int) : M Int :=
  match kw.find? (fun p => p.1 = x) with
  | Option.none => .ok default
  | some (_, .int n) => .ok n
  | some _ => stuck

/-- Attributes of an object. -/
def getAttr (name : String) : List (String × Val) → M Val
  | [] => err .AttributeError
  | (n, v) :: l => if n = name then .ok v else getAttr name l

/-- A global variable; the variable `clock` stands for what `datetime.now()` and `datetime.today()` give, the variable `fqdn`
for what `socket.getfqdn()` gives, and the variable `parser` for what `icalendar.Calendar.from_string` gives for each text. -/
def getGlobal (name : String) : List (String × Val) → M Val
  | [] => stuck
  | (n, v) :: l => if n = name then .ok v else getGlobal name l

/-- The position of a character. -/
def findChar (c : Char) (l : List Char) : Int :=
  match l.findIdx? (· = c) with
  | some i => i
  | Option.none => -1

/-- The parts of a text between the places where a character is. -/
def splitChars (c : Char) : List Char → List (List Char)
  | [] => [[]]
  | a :: l =>
    match splitChars c l with
    | [] => [[]]                         -- does not happen
    | p :: ps => if a = c then [] :: p :: ps else (a :: p) :: ps

/-- `sep.join(l)` -/
def joinStrs (sep : String) : List Val → M String
  | [] => .ok ""
  | [.str a] => .ok a
  | .str a :: l => do .ok (a ++ sep ++ (← joinStrs sep l))
  | _ => stuck

/-- `l.index(v)` -/
def indexOf (v : Val) : List Val → Int → M Int
  | [], _ => err .ValueError
  | a :: l, i => do if ← a.eq v then .ok i else indexOf v l (i + 1)

/-- What a directive of `strftime` writes; the time of a date is midnight. -/
def strftimePart (d t : Int) : Char → M String
  | 'Y' => .ok (padNat 4 (dyear d).toNat)
  | 'm' => .ok (padNat 2 (dmonth d).toNat)
  | 'd' => .ok (padNat 2 (dday d).toNat)
  | 'H' => .ok (padNat 2 (t / 3600000000).toNat)
  | 'M' => .ok (padNat 2 (t / 60000000 % 60).toNat)
  | 'S' => .ok (padNat 2 (t / 1000000 % 60).toNat)
  | _ => stuck

/-- `strftime`, for a day and a time of the day. -/
def strftimeRest (d t : Int) : List Char → M String
  | [] => .ok ""
  | '%' :: c :: f => do
    let a ← strftimePart d t c
    .ok (a ++ (← strftimeRest d t f))
  | c :: f => do .ok (String.singleton c ++ (← strftimeRest d t f))

/-- `strftime`; Python 2 refuses years before 1900. -/
def strftime (d t : Int) (f : List Char) : M String :=
  if dyear d < 1900 then err .ValueError else strftimeRest d t f

/-- The decoded value of a property of a parsed component. -/
def decodedProp (l : List (Val × Val)) (k : String) (default : Option Val) : M Val :=
  match getIndex.lookup l (.str k.toUpper) with
  | .error (.py .KeyError) => match default with
    | some v => .ok v
    | Option.none => err .KeyError
  | r => r

/-- `get_inline` for the value of a property: one line, or several lines. -/
def inlineOf : Val → M Val
  | .obj "vInline" [(_, v)] => .ok v
  | .list _ => err .AttributeError
  | _ => stuck

/-- Methods of objects of the icalendar library and of datetimes with a timezone. -/
def callLib : Meth → String → List (String × Val) → List Val → List (String × Val) → M Val
  | .decoded, "Component", [(_, .dict l)], [.str k], [] => decodedProp l k Option.none
  | .decoded, "Component", [(_, .dict l)], [.str k, v], [] => decodedProp l k (some v)
  | .hasKey, "Component", [(_, .dict l)], [.str k], [] => do .ok (.bool (← contains (.str k.toUpper) (l.map (·.1))))
  | .getInline, "Component", [(_, .dict l)], [.str k], [] => do inlineOf (← getIndex.lookup l (.str k.toUpper))
  | .decode, "vCalAddress", attrs, [], [] => getAttr "value" attrs
  | .astimezone, "AwareDatetime", [(_, .gen l fin)], [.obj "LocalTimezone" _], [] => match l, fin with
    | [v], Option.none => .ok (.obj "LocalDatetime" [("naive", v)])
    | [], some e => .error e
    | _, _ => stuck
  | .replace, "LocalDatetime", attrs, [], [("tzinfo", .none)] => getAttr "naive" attrs
  | .walk, "ParsedCalendar", attrs, [.str k], [] => getAttr k attrs
  | .asString, "icalendar.Calendar", attrs, [], [] => .ok (.obj "iCalendar text" [("of", .obj "icalendar.Calendar" attrs)])
  | _, _, _, _, _ => stuck

/-- Methods of library objects. -/
def callMeth : Meth → Val → List Val → List (String × Val) → M Val
  | .weekday, .date d, [], [] => .ok (.int (weekday d))
  | .weekday, .datetime t, [], [] => .ok (.int (weekday (dtDate t)))
  | .isoweekday, .date d, [], [] => .ok (.int (weekday d + 1))
  | .isoweekday, .datetime t, [], [] => .ok (.int (weekday (dtDate t) + 1))
  | .isocalendar, .datetime t, [], [] =>
    let x := isocalendar (dtDate t)
    .ok (.tuple [.int x.1, .int x.2.1, .int x.2.2])
  | .date, .datetime t, [], [] => .ok (.date (dtDate t))
  | .time, .datetime t, [], [] => .ok (.time (dtTime t))
  | .replace, .date d, [], kw => do
    let y ← kwInt kw "year" (dyear d)
    let m ← kwInt kw "month" (dmonth d)
    let day ← kwInt kw "day" (dday d)
    (lift (mkDate y m day)).map .date
  | .keys, .dict l, [], [] => .ok (.list (l.map (·.1)))
  | .values, .dict l, [], [] => .ok (.list (l.map (·.2)))
  | .items, .dict l, [], [] => .ok (.list (l.map (fun p => .tuple [p.1, p.2])))
  | .get, .dict l, [k], [] => match getIndex.lookup l k with
    | .error (.py .KeyError) => .ok .none
    | r => r
  | .get, .dict l, [k, v], [] => match getIndex.lookup l k with
    | .error (.py .KeyError) => .ok v
    | r => r
  | .index, .list l, [v], [] => do .ok (.int (← indexOf v l 0))
  | .join, .str sep, [v], [] => do .ok (.str (← joinStrs sep (← v.elems)))
  | .find, .str s, [.str c], [] => match c.toList with
    | [c] => .ok (.int (findChar c s.toList))
    | _ => stuck
  | .split, .str s, [.str c], [] => match c.toList with
    | [c] => .ok (.list ((splitChars c s.toList).map (fun l => .str (String.ofList l))))
    | _ => stuck
  | .strftime, .date d, [.str f], [] => (strftime d 0 f.toList).map .str
  | .strftime, .datetime t, [.str f], [] => (strftime (dtDate t) (dtTime t) f.toList).map .str
  | m, .obj c attrs, args, kw => callLib m c attrs args kw
  | _, _, _, _ => stuck

/-- Insert into a sorted list. -/
def insertVal (a : Val) : List Val → M (List Val)
  | [] => .ok [a]
  | b :: l => do
    match ← a.cmp b with
    | .gt => .ok (b :: (← insertVal a l))
    | _ => .ok (a :: b :: l)

/-- `l.sort()` -/
def sortVals : List Val → M (List Val)
  | [] => .ok []
  | a :: l => do insertVal a (← sortVals l)

/-- Methods that change their object: the object afterwards, and what is returned. -/
def callMut : Mut → Val → List Val → M (Val × Val)
  | .append, .list l, [x] => .ok (.list (l ++ [x]), .none)
  | .extend, .list l, [x] => do .ok (.list (l ++ (← x.elems)), .none)
  | .pop, .list l, [] => match l.getLast? with
    | some x => .ok (.list l.dropLast, x)
    | Option.none => err .IndexError
  | .sort, .list l, [] => do .ok (.list (← sortVals l), .none)
  | .add, .set l, [x] => do if ← contains x l then .ok (.set l, .none) else .ok (.set (l ++ [x]), .none)
  | .add, .obj c [(p, .list l)], [k, v] =>
    if c = "icalendar.Event" then .ok (.obj c [(p, .list (l ++ [.tuple [k, v]]))], .none) else stuck
  | .add, .obj c [(p, .list l)], [k, v, _] =>
    if c = "icalendar.Event" then .ok (.obj c [(p, .list (l ++ [.tuple [k, v]]))], .none) else stuck
  | .setInline, .obj c [(p, .list l)], [k, v] =>
    if c = "icalendar.Event" then .ok (.obj c [(p, .list (l ++ [.tuple [k, .obj "vInline" [("list", v)]]]))], .none)
    else stuck
  | .add, .obj c [(p, .list l), (q, .list m)], [k, v] =>
    if c = "icalendar.Calendar" then .ok (.obj c [(p, .list (l ++ [.tuple [k, v]])), (q, .list m)], .none) else stuck
  | .addComponent, .obj c [(p, .list l), (q, .list m)], [v] =>
    if c = "icalendar.Calendar" then .ok (.obj c [(p, .list l), (q, .list (m ++ [v]))], .none) else stuck
  | _, _, _ => stuck

/-- `d[k] = v` -/
def setItem (k v : Val) : List (Val × Val) → M (List (Val × Val))
  | [] => .ok [(k, v)]
  | (k', v') :: l => do if ← k'.eq k then .ok ((k', v) :: l) else .ok ((k', v') :: (← setItem k v l))

/-- `del d[k]` -/
def delKey (k : Val) : List (Val × Val) → M (List (Val × Val))
  | [] => err .KeyError
  | (k', v') :: l => do if ← k'.eq k then .ok l else .ok ((k', v') :: (← delKey k l))

/-- `o.name = v` -/
def setAttr (name : String) (v : Val) : List (String × Val) → List (String × Val)
  | [] => [(name, v)]
  | (n, w) :: l => if n = name then (n, v) :: l else (n, w) :: setAttr name v l

/-! ### expressions and statements -/

/-- The local variables; every local variable has an entry, without a value at first. -/
abbrev Env := List (String × Option Val)

/-- The value of a local variable. -/
def Env.get (x : String) : Env → M Val
  | [] => stuck
  | (y, v) :: l => if y = x then (match v with
      | some v => .ok v
      | Option.none => err .UnboundLocalError) else Env.get x l

/-- Assign a local variable. -/
def Env.set (x : String) (v : Val) : Env → Env
  | [] => []
  | (y, w) :: l => if y = x then (y, some v) :: l else (y, w) :: Env.set x v l

/-- The rest of the program: calling a function; finding a method of a class; inheritance; global variables; attributes of
classes. -/
structure Ctx where
  call : String → List Val → List (String × Val) → M Val
  method : String → String → Option String
  isa : String → String → Bool
  globals : List (String × Val)
  const : String → String → Option Val

/-- A new object of a class. -/
def Ctx.new (G : Ctx) (cls : String) (args : List Val) (kw : List (String × Val)) : M Val :=
  match G.method cls "__init__" with
  | some f => G.call f (.obj cls [] :: args) kw
  | Option.none => stuck

/-- `x == y` or `x != y` (`m` is the name of the method that says so), when `x` is an object: its method, or that of the
other object.  A class with `__cmp__` is not handled. -/
def Ctx.compareObj (G : Ctx) (m : String) (c : String) (x y : Val) (other : Bool) : M Val :=
  match G.method c m with
  | some f => G.call f [x, y] []
  | Option.none => match G.method c "__cmp__" with
    | some _ => stuck
    | Option.none => match y with
      | .obj d _ => match G.method d m with
        | some f => G.call f [y, x] []
        | Option.none => stuck
      | _ => .ok (.bool other)

/-- `x == y` -/
def Ctx.equal (G : Ctx) (x y : Val) : M Val :=
  match x with
  | .obj c _ => G.compareObj "__eq__" c x y false
  | .set a => match y with
    | .set b => do .ok (.bool (← sameSet a b))
    | _ => .ok (.bool false)
  | _ => do .ok (.bool (← x.eq y))

/-- `x != y` -/
def Ctx.differ (G : Ctx) (x y : Val) : M Val :=
  match x with
  | .obj c _ => G.compareObj "__ne__" c x y true
  | .set a => match y with
    | .set b => do .ok (.bool (!(← sameSet a b)))
    | _ => .ok (.bool true)
  | _ => do .ok (.bool (!(← x.eq y)))

/-- `x op y` -/
def Ctx.compare (G : Ctx) : CmpOp → Val → Val → M Val
  | .eq, x, y => G.equal x y
  | .ne, x, y => G.differ x y
  | op, x, y => do .ok (.bool (← cmpop op x y))

/-- The attributes as keyword arguments. -/
def kwOf : List (Val × Val) → M (List (String × Val))
  | [] => .ok []
  | (.str k, v) :: l => do .ok ((k, v) :: (← kwOf l))
  | _ => stuck

/-- An attribute of an object or of its class. -/
def Ctx.attrOf (G : Ctx) (cls name : String) (attrs : List (String × Val)) : M Val :=
  match getAttr name attrs with
  | .error (.py .AttributeError) => match G.const cls name with
    | some v => .ok v
    | Option.none => err .AttributeError
  | r => r

/-- `type(v) is c` for library classes. -/
def isType : Cls → Val → Bool
  | .date, .date _ => true
  | .datetime, .datetime _ => true
  | .int, .int _ => true
  | .list, .list _ => true
  | .tuple, .tuple _ => true
  | _, _ => false

mutual
/-- The value of an expression. -/
def eval (G : Ctx) (env : Env) : Expr → M Val
  | .const v => .ok v
  | .var x => env.get x
  | .glob x => getGlobal x G.globals
  | .attr e name => do
    match ← eval G env e with
    | .obj _ attrs => getAttr name attrs
    | .none => err .AttributeError
    | _ => stuck
  | .field e f => do getField f (← eval G env e)
  | .index e i => do getIndex (← eval G env e) (← eval G env i)
  | .bin op a b => do
    let x ← eval G env a
    let y ← eval G env b
    binop op x y
  | .cmp op a b => do
    let x ← eval G env a
    let y ← eval G env b
    G.compare op x y
  | .and a b => do
    let x ← eval G env a
    if x.truthy then eval G env b else .ok x
  | .or a b => do
    let x ← eval G env a
    if x.truthy then .ok x else eval G env b
  | .not a => do .ok (.bool (!(← eval G env a).truthy))
  | .tuple l => do .ok (.tuple (← evals G env l))
  | .list l => do .ok (.list (← evals G env l))
  | .prim f args kw => do
    let xs ← evals G env args
    let ks ← evalKw G env kw
    callPrim f xs ks
  | .call f args kw => do
    let xs ← evals G env args
    let ks ← evalKw G env kw
    G.call f xs ks
  | .meth e m args kw => do
    let v ← eval G env e
    let xs ← evals G env args
    let ks ← evalKw G env kw
    callMeth m v xs ks
  | .method e m args kw => do
    match ← eval G env e with
    | .obj cls attrs => do
      let xs ← evals G env args
      let ks ← evalKw G env kw
      match G.method cls m with
      | some f => G.call f (.obj cls attrs :: xs) ks
      | Option.none => err .AttributeError
    | .none => err .AttributeError
    | _ => stuck
  | .new cls args kw => do
    let xs ← evals G env args
    let ks ← evalKw G env kw
    G.new cls xs ks
  | .newLike e args kw => do
    match ← eval G env e with
    | .obj cls _ => do
      let xs ← evals G env args
      let ks ← evalKw G env kw
      G.new cls xs ks
    | _ => stuck
  | .isinst e cls => do
    let v ← eval G env e
    .ok (.bool (cls.any (fun c => isInstance G.isa c v)))
  | .comp elt x iter cond => do
    let l ← (← eval G env iter).elems
    .ok (.list (← collect (fun v => eval G (Env.set x v env) cond) (fun v => eval G (Env.set x v env) elt) l))
  | .cattr e name => do
    match ← eval G env e with
    | .obj cls attrs => G.attrOf cls name attrs
    | .none => err .AttributeError
    | _ => stuck
  | .className e => do
    match ← eval G env e with
    | .obj cls _ => .ok (.str cls)
    | _ => stuck
  | .attrItems e => do
    match ← eval G env e with
    | .obj _ attrs => .ok (.list (attrs.map (fun p => .tuple [.str p.1, p.2])))
    | _ => stuck
  | .getattr e name default => do
    let o ← eval G env e
    let n ← eval G env name
    let d ← eval G env default
    match o, n with
    | .obj cls attrs, .str n => match G.attrOf cls n attrs with
      | .error (.py .AttributeError) => .ok d
      | r => r
    | _, _ => stuck
  | .newKw cls e => do
    match ← eval G env e with
    | .dict l => do G.new cls [] (← kwOf l)
    | _ => stuck
  | .typeIs e c => do .ok (.bool (isType c (← eval G env e)))
  | .dict l => do .ok (.dict ((← evalKw G env l).map (fun p => (.str p.1, p.2))))
/-- The values of some expressions, from left to right. -/
def evals (G : Ctx) (env : Env) : List Expr → M (List Val)
  | [] => .ok []
  | e :: l => do
    let v ← eval G env e
    .ok (v :: (← evals G env l))
/-- The values of keyword arguments. -/
def evalKw (G : Ctx) (env : Env) : List (String × Expr) → M (List (String × Val))
  | [] => .ok []
  | (x, e) :: l => do
    let v ← eval G env e
    .ok ((x, v) :: (← evalKw G env l))
/-- A list comprehension. -/
def collect (cond elt : Val → M Val) : List Val → M (List Val)
  | [] => .ok []
  | v :: l => do
    if (← cond v).truthy then
      let x ← elt v
      .ok (x :: (← collect cond elt l))
    else collect cond elt l
end

/-- The local variables, and what was yielded. -/
structure State where
  env : Env
  out : List Val

/-- How a statement ends. -/
inductive Ctl where
  | next
  | brk
  | cont
  | ret (v : Val)
  | stop (s : Stop)

/-- Assign names one by one. -/
def Env.setAll : List String → List Val → Env → M Env
  | [], [], env => .ok env
  | x :: xs, v :: vs, env => Env.setAll xs vs (env.set x v)
  | _, _, _ => err .ValueError

/-- Assign. -/
def assign (G : Ctx) (v : Val) (env : Env) : Target → M Env
  | .name x => .ok (env.set x v)
  | .names xs => do env.setAll xs (← v.elems)
  | .attr x name => do
    match ← env.get x with
    | .obj cls attrs => .ok (env.set x (.obj cls (setAttr name v attrs)))
    | _ => stuck
  | .item x key => do
    let k ← eval G env key
    match ← env.get x with
    | .dict l => .ok (env.set x (.dict (← setItem k v l)))
    | _ => stuck
  | .attrItem x name key => do
    match ← env.get x with
    | .obj cls attrs => do
      match ← getAttr name attrs with
      | .dict l => do
        let k ← eval G env key
        .ok (env.set x (.obj cls (setAttr name (.dict (← setItem k v l)) attrs)))
      | _ => stuck
    | _ => stuck

/-- `del x.name[key]` -/
def delete (G : Ctx) (env : Env) (x name : String) (key : Expr) : M Env := do
  match ← env.get x with
  | .obj cls attrs => do
    match ← getAttr name attrs with
    | .dict l => do
      let k ← eval G env key
      .ok (env.set x (.obj cls (setAttr name (.dict (← delKey k l)) attrs)))
    | _ => stuck
  | _ => stuck

/-- `setattr(x, name, v)` -/
def putAttr (env : Env) (x : String) (name v : Val) : M Env := do
  match name, ← env.get x with
  | .str name, .obj cls attrs => .ok (env.set x (.obj cls (setAttr name v attrs)))
  | _, _ => stuck

/-- What a call of kind `proc` gives: the parameters afterwards, what was sent to `notify`, how it ended if not normally,
and the value returned. -/
def procVal (params out : List Val) (fin : Option Stop) (v : Val) : Val := .tuple [.gen params Option.none, .gen out fin, v]

/-- The object `x` or `x.a`. -/
def Env.object (env : Env) (x : String) : Option String → M Val
  | Option.none => env.get x
  | some a => do
    match ← env.get x with
    | .obj _ attrs => getAttr a attrs
    | .none => err .AttributeError
    | _ => stuck

/-- Put the object back. -/
def Env.putObject (env : Env) (x : String) (v : Val) : Option String → M Env
  | Option.none => .ok (env.set x v)
  | some a => do
    match ← env.get x with
    | .obj cls attrs => .ok (env.set x (.obj cls (setAttr a v attrs)))
    | _ => stuck

/-- Put the arguments back that are objects held by variables. -/
def Env.putArgs : List Expr → List Val → Env → Env
  | .var y :: es, .obj c attrs :: vs, env => Env.putArgs es vs (env.set y (.obj c attrs))
  | _ :: es, _ :: vs, env => Env.putArgs es vs env
  | _, _, env => env

/-- Call a method of kind `proc` of an object. -/
def Ctx.invoke (G : Ctx) (o : Val) (m : String) (args : M (List Val)) : M Val :=
  match o with
  | .obj cls _ => do
    let xs ← args
    match G.method cls m with
    | some f => G.call f (o :: xs) []
    | Option.none => err .AttributeError
  | .none => err .AttributeError
  | _ => stuck

/-- Continue with the environment, if there is one. -/
def State.into (s : State) : M Env → State × Ctl
  | .ok env => ({ s with env := env }, .next)
  | .error e => (s, .stop e)

/-- Go on after a call of kind `proc`. -/
def State.after (s : State) (G : Ctx) (t : Option Target) (x : String) (a : Option String) (args : List Expr) : Val → State × Ctl
  | .tuple [.gen (o :: params) Option.none, .gen out fin, v] =>
    match Env.putObject (Env.putArgs args params s.env) x o a with
    | .error e => (s, .stop e)
    | .ok env => match fin with
      | some e => (⟨env, s.out ++ out⟩, .stop e)
      | Option.none => match t with
        | Option.none => (⟨env, s.out ++ out⟩, .next)
        | some t => State.into ⟨env, s.out ++ out⟩ (assign G v env t)
  | _ => (s, .stop .stuck)

/-- A calendar or an attendee, by its attributes, after its storage manager was changed; the attendee source of a calendar has the
same one, and an attendee has none. -/
def shareManager (m : Val) (attrs : List (String × Val)) : M (List (String × Val)) :=
  match getAttr "_attendee_source" attrs with
  | .error _ => .ok (setAttr "_storage_manager" m attrs)
  | .ok (.obj c sa) => .ok (setAttr "_attendee_source" (.obj c (setAttr "_storage_manager" m sa)) (setAttr "_storage_manager" m attrs))
  | _ => stuck

/-- A storage manager, after an event in its storage was changed. -/
def shareEvent (v : Val) (uid : Val) : Val → M Val
  | .obj c ma => do
    match ← getAttr "_storage" ma with
    | .obj d sa => do
      match ← getAttr "_events" sa with
      | .dict l => do
        let l' ← setItem uid v l
        .ok (.obj c (setAttr "_storage" (.obj d (setAttr "_events" (.dict l') sa)) ma))
      | _ => stuck
    | _ => stuck
  | _ => stuck

/-- An object held by `self` was changed: the calendar, by its attributes, afterwards. -/
def shareIn (v : Val) (attrs : List (String × Val)) : M (List (String × Val)) :=
  match v with
  | .obj c va =>
    if c = "StorageManager" then shareManager v attrs
    else if c = "Event" then do
      let uid ← getAttr "unique_id" va
      let m ← getAttr "_storage_manager" attrs
      shareManager (← shareEvent v uid m) attrs
    else stuck
  | _ => stuck

/-- Put the object `x` back to where it can be reached from `self`. -/
def Env.share (x : String) (env : Env) : M Env := do
  let v ← env.get x
  match ← env.get "self" with
  | .obj c attrs => do .ok (env.set "self" (.obj c (← shareIn v attrs)))
  | _ => stuck

/-- The same, after a statement, also if it raised. -/
def State.share (x : String) (r : State × Ctl) : State × Ctl :=
  match r.1.env.share x with
  | .ok env => ({ r.1 with env := env }, r.2)
  | .error e => (r.1, .stop e)

/-- `while`, at most so many times. -/
def whileLoop (cond : State → M Val) (body : State → State × Ctl) : Nat → State → State × Ctl
  | 0, s => (s, .stop .timeout)
  | n + 1, s =>
    match cond s with
    | .error e => (s, .stop e)
    | .ok v =>
      if v.truthy then
        match body s with
        | (s', .next) => whileLoop cond body n s'
        | (s', .cont) => whileLoop cond body n s'
        | (s', .brk) => (s', .next)
        | r => r
      else (s, .next)

/-- `for`, over the given values; `brk` if it was left by `break`. -/
def forLoop (body : Val → State → State × Ctl) : List Val → State → State × Ctl
  | [], s => (s, .next)
  | v :: vs, s =>
    match body v s with
    | (s', .next) => forLoop body vs s'
    | (s', .cont) => forLoop body vs s'
    | r => r

/-- Go on after a statement that ends normally. -/
def andThen : State × Ctl → (State → State × Ctl) → State × Ctl
  | (s, .next), k => k s
  | r, _ => r

/-- Leave a loop at a `break`. -/
def endLoop : State × Ctl → (State → State × Ctl) → State × Ctl
  | (s, .brk), _ => (s, .next)
  | (s, .next), k => k s
  | r, _ => r

/-- Go on with a value, if there is one. -/
def withVal (s : State) : M Val → (Val → State × Ctl) → State × Ctl
  | .error e, _ => (s, .stop e)
  | .ok v, k => k v

/-- How the iteration of a `for` ends. -/
def endIter (fin : Option Stop) (s : State) (orelse : State → State × Ctl) : State × Ctl :=
  match fin with
  | Option.none => orelse s
  | some e => (s, .stop e)

/-- Handle exceptions. -/
def catching (errs : List PyErr) : State × Ctl → (State → State × Ctl) → State × Ctl
  | (s, .stop (.py e)), k => if e ∈ errs then k s else (s, .stop (.py e))
  | r, _ => r

/-- Handle exceptions in two ways. -/
def catching2 (errs errs' : List PyErr) : State × Ctl → (State → State × Ctl) → (State → State × Ctl) → State × Ctl
  | (s, .stop (.py e)), k, k' => if e ∈ errs then k s else if e ∈ errs' then k' s else (s, .stop (.py e))
  | r, _, _ => r

mutual
/-- Execute a statement; loops are executed at most `W` times. -/
def exec (G : Ctx) (W : Nat) : Stmt → State → State × Ctl
  | .assign t e, s => s.into (do assign G (← eval G s.env e) s.env t)
  | .mutate t x m args, s => s.into (do
      let v ← s.env.get x
      let xs ← evals G s.env args
      let r ← callMut m v xs
      let env := s.env.set x r.1
      match t with
      | Option.none => .ok env
      | some t => assign G r.2 env t)
  | .expr e, s => s.into (do
      let _ ← eval G s.env e
      .ok s.env)
  | .ite c a b, s => withVal s (eval G s.env c) (fun v => if v.truthy then execs G W a s else execs G W b s)
  | .while c body, s => whileLoop (fun s => eval G s.env c) (fun s => execs G W body s) W s
  | .for t e body orelse, s =>
    match (do (← eval G s.env e).iter) with
    | .error e => (s, .stop e)
    | .ok (items, fin) =>
      endLoop (forLoop (fun v s => andThen (s.into (assign G v s.env t)) (fun s => execs G W body s)) items s)
        (fun s => endIter fin s (fun s => execs G W orelse s))
  | .tryExcept body errs handler, s => catching errs (execs G W body s) (fun s => execs G W handler s)
  | .tryExcept2 body errs handler errs' handler', s =>
    catching2 errs errs' (execs G W body s) (fun s => execs G W handler s) (fun s => execs G W handler' s)
  | .proc t x a m args, s =>
    withVal s (do G.invoke (← s.env.object x a) m (evals G s.env args)) (fun v => s.after G t x a args v)
  | .shared x a, s => State.share x (exec G W a s)
  | .delItem x name key, s => s.into (delete G s.env x name key)
  | .setattr x name value, s => s.into (do
      let n ← eval G s.env name
      putAttr s.env x n (← eval G s.env value))
  | .abort, s => (s, .stop .stuck)
  | .ret e, s => withVal s (eval G s.env e) (fun v => (s, .ret v))
  | .yield e, s => withVal s (eval G s.env e) (fun v => ({ s with out := s.out ++ [v] }, .next))
  | .raise e, s => (s, .stop (.py e))
  | .assert e, s =>
    withVal s (eval G s.env e) (fun v => if v.truthy then (s, .next) else (s, .stop (.py .AssertionError)))
  | .pass, s => (s, .next)
  | .break, s => (s, .brk)
  | .continue, s => (s, .cont)
/-- Execute statements in order. -/
def execs (G : Ctx) (W : Nat) : List Stmt → State → State × Ctl
  | [], s => (s, .next)
  | a :: l, s => andThen (exec G W a s) (fun s => execs G W l s)
end

/-! ### functions -/

/-- Bind the parameters: positional arguments, then keyword arguments, then defaults. -/
def bindParams : List (String × Option Val) → List Val → List (String × Val) → M Env
  | [], [], [] => .ok []
  | [], _, _ => err .TypeError
  | (x, _) :: ps, v :: vs, kw => do .ok ((x, some v) :: (← bindParams ps vs kw))
  | (x, d) :: ps, [], kw =>
    match kw.find? (fun p => p.1 = x), d with
    | some (_, v), _ => do .ok ((x, some v) :: (← bindParams ps [] (kw.filter (fun p => p.1 ≠ x))))
    | Option.none, some v => do .ok ((x, some v) :: (← bindParams ps [] kw))
    | Option.none, Option.none => err .TypeError

/-- The parameters afterwards. -/
def Env.gets : List (String × Option Val) → Env → M (List Val)
  | [], _ => .ok []
  | (x, _) :: ps, env => do
    let v ← env.get x
    .ok (v :: (← Env.gets ps env))

/-- What a call gives after the body. -/
def FunDef.result (f : FunDef) (r : State × Ctl) : M Val :=
  match f.kind, r.2 with
  | .gen, .next => .ok (.gen r.1.out Option.none)
  | .gen, .ret _ => .ok (.gen r.1.out Option.none)
  | .gen, .stop e => .ok (.gen r.1.out (some e))
  | .fn, .next => .ok .none
  | .fn, .ret v => .ok v
  | .fn, .stop e => .error e
  | .init, .next => if r.1.out.isEmpty then r.1.env.get "self" else stuck
  | .init, .stop e => .error e
  | .proc, .next => do .ok (procVal (← Env.gets f.params r.1.env) r.1.out Option.none .none)
  | .proc, .ret v => do .ok (procVal (← Env.gets f.params r.1.env) r.1.out Option.none v)
  | .proc, .stop e => do .ok (procVal (← Env.gets f.params r.1.env) r.1.out (some e) .none)
  | _, _ => stuck

/-- The function with a name. -/
def Prog.find (P : Prog) (f : String) : Option FunDef := (P.funs.find? (fun p => p.1 = f)).map (·.2)

/-- Look for a method in a class and its base classes; `n` is the number of steps allowed. -/
def Prog.method (P : Prog) : Nat → String → String → Option String
  | 0, _, _ => Option.none
  | n + 1, cls, m =>
    if (P.find (cls ++ "." ++ m)).isSome || P.others.contains (cls ++ "." ++ m) then some (cls ++ "." ++ m)
    else match P.bases.find? (fun p => p.1 = cls) with
      | some (_, b) => P.method n b m
      | Option.none => Option.none

/-- The same for attributes. -/
def Prog.const (P : Prog) : Nat → String → String → Option Val
  | 0, _, _ => Option.none
  | n + 1, cls, m =>
    match P.consts.find? (fun p => p.1 = cls ++ "." ++ m) with
    | some (_, v) => some v
    | Option.none => match P.bases.find? (fun p => p.1 = cls) with
      | some (_, b) => P.const n b m
      | Option.none => Option.none

/-- `c` is `d` or inherits from it. -/
def Prog.isa (P : Prog) : Nat → String → String → Bool
  | 0, _, _ => false
  | n + 1, c, d => c = d || (match P.bases.find? (fun p => p.1 = c) with
      | some (_, b) => P.isa n b d
      | Option.none => false)

/-- Execute the body of a function in an environment. -/
def FunDef.run (f : FunDef) (G : Ctx) (W : Nat) (args : List Val) (kw : List (String × Val)) : M (State × Ctl) := do
  let env ← bindParams f.params args kw
  .ok (execs G W f.body ⟨env ++ f.locals.map (fun x => (x, Option.none)), []⟩)

/-- Call a function. -/
def FunDef.call (f : FunDef) (G : Ctx) (W : Nat) (args : List Val) (kw : List (String × Val)) : M Val := do
  f.result (← f.run G W args kw)

/-- Call a function by its name, with a depth of at most `n` calls. -/
def Prog.call (P : Prog) (W : Nat) : Nat → String → List Val → List (String × Val) → M Val
  | 0, _, _, _ => .error .timeout
  | n + 1, f, args, kw =>
    match P.find f with
    | Option.none => stuck
    | some d => d.call ⟨P.call W n, P.method 4, P.isa 4, P.globals, P.const 4⟩ W args kw

/-- The rest of the program for a function called at depth `n + 1`. -/
def Prog.ctx (P : Prog) (W n : Nat) : Ctx := ⟨P.call W n, P.method 4, P.isa 4, P.globals, P.const 4⟩

/-- A new object of a class. -/
def Prog.new (P : Prog) (W n : Nat) (cls : String) (args : List Val) (kw : List (String × Val)) : M Val :=
  (P.ctx W n).new cls args kw

/-- Call a method of an object. -/
def Prog.invoke (P : Prog) (W n : Nat) (o : Val) (m : String) (args : List Val) (kw : List (String × Val)) : M Val :=
  match o with
  | .obj cls _ => match P.method 4 cls m with
    | some f => P.call W n f (o :: args) kw
    | Option.none => err .AttributeError
  | _ => stuck

end CalCore.Lang
