import Verif.Model.Lang
import Verif.Model.Recurrent
/- How dates, rules and other data of the model are represented as values of the interpreter. -/
namespace CalCore.Lang

/-- An optional value. -/
def ofOption {α : Type} (f : α → Val) : Option α → Val
  | Option.none => .none
  | some a => f a

/-- The result of a library function or of the model as a result of the interpreter. -/
def toM {α : Type} (f : α → Val) (r : Res α) : M Val := (lift r).map f

/-- Why there is no result. -/
def ofFault : Fault → Stop
  | .py e => .py e
  | .diverge => .timeout

/-- The pairs of datetimes in a list of tuples. -/
def dtPair (p : Int × Int) : Val := .tuple [.datetime p.1, .datetime p.2]

/-- The name of a way to repeat monthly. -/
def monthlyName : MonthlyKind → String
  | .monthday => "monthday"
  | .weekday => "weekday"
  | .lastweekday => "lastweekday"

/-- A date or a datetime. -/
def ofUntil : Until → Val
  | .date d => .date d
  | .datetime t => .datetime t

/-- The attributes of the weekly and the monthly class. -/
def kindAttrs : RuleKind → List (String × Val)
  | .weekly w => [("weekdays", .tuple (w.map .int))]
  | .monthly m => [("monthly", .str (monthlyName m))]
  | _ => []

/-- A rule object, with its attributes in the order in which `__init__` sets them. -/
def ofRule (r : Rule) : Val :=
  .obj r.kind.className (("interval", .int r.interval) :: ("count", ofOption .int r.count)
    :: ("until", ofOption ofUntil r.untl) :: ("exceptions", .tuple (r.exceptions.map .date)) :: kindAttrs r.kind)

/-- `x` is a sequence of these dates. -/
def Seq (x : Val) (l : List Val) : Prop := x = .tuple l ∨ x = .list l

/-- An argument of `replace`: the marker `Unchanged` if it is left out. -/
def ofArg {α : Type} (f : α → Val) : Option α → Val
  | Option.none => .obj "Unchanged" []
  | some a => f a

/-- A sequence of dates or numbers as an argument of `replace`. -/
def ofDates (l : List Int) : Val := .tuple (l.map .date)
@[inherit_doc ofDates] def ofInts (l : List Int) : Val := .tuple (l.map .int)

/-- What a consumer of the generator sees. -/
def ofApply (x : List Int × Res Unit) : Val :=
  .gen (x.1.map .date) (match x.2 with
    | .ok () => none
    | .error e => some (ofFault e))

end CalCore.Lang
