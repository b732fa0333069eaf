/-!
# Python primitives used by the model

Exceptions are values of `Err`; dictionaries are insertion-ordered association lists (`Dict`).
-/

namespace Verif

/-- The Python exceptions that the modelled code can raise. -/
inductive Err where
  /-- `raise Exception(...)` in the library code (message dropped). -/
  | userError
  /-- `UnimplError` (`unimpl_error.py`). -/
  | unimpl
  /-- `NotImplementedError`. -/
  | notImplemented
  | attributeError
  | keyError
  | indexError
  | typeError
  | valueError
  | zeroDivision
  | stopIteration
  | unboundLocal
  deriving Repr, DecidableEq, BEq

/-- Insertion ordered Python `dict` with string keys. -/
abbrev Dict (α : Type) := List (String × α)

namespace Dict
variable {α : Type}

/-- `d.get(k)` -/
def get? : Dict α → String → Option α
  | [], _ => none
  | (k', v) :: t, k => if k' = k then some v else get? t k

/-- `k in d.keys()` -/
def contains (d : Dict α) (k : String) : Bool := (d.get? k).isSome

/-- `d[k] = v`: replaces in place, otherwise appends at the end. -/
def set : Dict α → String → α → Dict α
  | [], k, v => [(k, v)]
  | (k', v') :: t, k, v => if k' = k then (k, v) :: t else (k', v') :: set t k v

/-- `list(d.keys())` -/
def keys (d : Dict α) : List String := d.map (·.1)

/-- `d[k]`, raising `KeyError`. -/
def getE (d : Dict α) (k : String) : Except Err α :=
  match d.get? k with
  | some v => .ok v
  | none => .error .keyError

end Dict

/-- `l[i]` for a non-negative index, raising `IndexError`. -/
def listGetE {α : Type} (l : List α) (i : Nat) : Except Err α :=
  match l[i]? with
  | some a => .ok a
  | none => .error .indexError

/-- `(a & b) != 0` on type and kind words. -/
def maskHit (a b : Nat) : Bool := (a &&& b) != 0

end Verif
