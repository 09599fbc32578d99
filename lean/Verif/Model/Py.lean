/-
Python runtime conventions used by the model (not part of /repo; the semantics assumed for the
Python 2 runtime is part of the trusted base, see DESIGN.md).
-/
namespace CalCore

/-- The Python exception classes that the modelled code can raise. -/
inductive PyErr where
  | ValueError | KeyError | AssertionError | OverflowError | TypeError
  | AttributeError | UnboundLocalError | IndexError | ZeroDivisionError
  deriving DecidableEq, Repr

/-- How a call can fail to return: it raises a Python exception, or it never ends. -/
inductive Fault where
  | py (e : PyErr)
  | diverge
  deriving DecidableEq, Repr

/-- Result of a call: a value, or a fault.  Exceptions are values. -/
abbrev Res (α : Type) := Except Fault α

deriving instance DecidableEq for Except

/-- `raise E` -/
def raise {α : Type} (e : PyErr) : Res α := .error (.py e)

/-- A Python dictionary: an association list.  Python 2 leaves the iteration order unspecified; the
list order stands for one possible order and properties are stated up to order or are proved
independent of it. -/
abbrev Dict (κ ν : Type) := List (κ × ν)

namespace Dict
variable {κ ν : Type} [DecidableEq κ]

/-- `d.get(k)` -/
def get? (d : Dict κ ν) (k : κ) : Option ν := (d.find? (fun p => p.1 = k)).map (·.2)

/-- `k in d` -/
def has (d : Dict κ ν) (k : κ) : Bool := d.any (fun p => p.1 = k)

/-- `d[k] = v` -/
def set : Dict κ ν → κ → ν → Dict κ ν
  | [], k, v => [(k, v)]
  | (k', v') :: d, k, v => if k' = k then (k, v) :: d else (k', v') :: set d k v

/-- `del d[k]` when `k` is present (the callers model the `KeyError`). -/
def del (d : Dict κ ν) (k : κ) : Dict κ ν := d.filter (fun p => p.1 ≠ k)

/-- `d.keys()` -/
def keys (d : Dict κ ν) : List κ := d.map (·.1)

/-- `d.values()` -/
def values (d : Dict κ ν) : List ν := d.map (·.2)

end Dict
end CalCore
