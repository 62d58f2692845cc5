import Mathlib.Data.Rat.Defs
import Mathlib.Algebra.Order.Ring.Unbundled.Rat

/-!
# Python values, dictionaries and exceptions

The configuration code works on nested dictionaries (YAML).  A Python dictionary is an association list in
insertion order; real dictionaries have pairwise different keys (`Py.WF`).

Simplifications: dictionary keys are strings or integers; floats are rationals plus `inf`, `-inf`, `nan`
(no rounding); object identity and aliasing are not modelled – a function that mutates a dictionary returns
the new dictionary.
-/

namespace Mimosa

/-- Python exceptions. [raised e.g. in parsers.py:60-384, parseconfig.py:65-97] -/
inductive Err
  | keyError | typeError | valueError | attributeError | indexError | runtimeError
  | notImplemented | zeroDivision | overflowError | runtimeWarning | solverException | exception
  deriving DecidableEq, Repr

deriving instance DecidableEq for Except

/-- Dictionary keys. [nested_dict.py:1-33] -/
inductive Key
  | str (s : String)
  | int (i : ℤ)
  deriving DecidableEq, Repr

/-- Python floats (idealised: no rounding). [parsers.py:192-204] -/
inductive PyFloat
  | fin (q : ℚ)
  | inf
  | ninf
  | nan
  deriving DecidableEq, Repr

/-- Leaf values of a configuration. [parseconfig.py:136-141 (`yaml.safe_load`)] -/
inductive Scalar
  /-- Python's `None` -/
  | null
  | bool (b : Bool)
  | int (i : ℤ)
  | float (f : PyFloat)
  | str (s : String)
  deriving DecidableEq, Repr

/-- Python values whose leaves are `α` (configuration values: `α = Scalar`; the "parser tree":
`α = Parser`). [parseconfig.py:13-49] -/
inductive Py (α : Type)
  | atom (a : α)
  | list (l : List (Py α))
  | dict (d : List (Key × Py α))

/-- Configuration values. [parseconfig.py:28-49] -/
abbrev Val := Py Scalar

namespace Dict
variable {β : Type}

/-- `d[key]` / `key in d` for a dictionary. [nested_dict.py:1-6] -/
def lookup (k : Key) : List (Key × β) → Option β
  | [] => none
  | (k', v) :: d => if k' = k then some v else lookup k d

/-- `d[key] = v`: replaces the value in place, or appends a new entry. [nested_dict.py:9-11] -/
def insert (k : Key) (v : β) : List (Key × β) → List (Key × β)
  | [] => [(k, v)]
  | (k', v') :: d => if k' = k then (k', v) :: d else (k', v') :: insert k v d

/-- `d.keys()`, in insertion order. [parsers.py:333-365, nested_dict.py:14-33] -/
def keys (d : List (Key × β)) : List Key := d.map (·.1)

end Dict

namespace Py

mutual
/-- Every dictionary inside the value has pairwise different keys (true of every real Python value).
[a fact about Python dictionaries, parseconfig.py:28-49] -/
def WF {α : Type} : Py α → Prop
  | .atom _ => True
  | .list l => WFList l
  | .dict d => (Dict.keys d).Nodup ∧ WFDict d
/-- The same for every element of a list.
[a fact about Python dictionaries, parseconfig.py:28-49] -/
def WFList {α : Type} : List (Py α) → Prop
  | [] => True
  | v :: l => v.WF ∧ WFList l
/-- The same for every value of a dictionary.
[a fact about Python dictionaries, parseconfig.py:28-49] -/
def WFDict {α : Type} : List (Key × Py α) → Prop
  | [] => True
  | (_, v) :: d => v.WF ∧ WFDict d
end

/-- `isinstance(x, dict)` [nested_dict.py:14-33, parseconfig.py:13-25] -/
def isDict {α : Type} : Py α → Bool
  | .dict _ => true
  | _ => false

end Py

/-! ## Python comparison of scalars

`==`, `<`, `>` on numbers treat `bool` as `int` and compare ints with floats by value; `nan` compares false. -/

/-- The numeric value of a scalar, if it is a number (Python: `bool` is a subclass of `int`).
[parsers.py:156-219] -/
def Scalar.num? : Scalar → Option PyFloat
  | .bool b => some (.fin (if b then 1 else 0))
  | .int i => some (.fin i)
  | .float f => some f
  | _ => none

/-- `x == y` on floats. [parsers.py:222-244] -/
def PyFloat.eq : PyFloat → PyFloat → Bool
  | .fin a, .fin b => a = b
  | .inf, .inf => true
  | .ninf, .ninf => true
  | _, _ => false

/-- `x < y` on floats. [parsers.py:156-180] -/
def PyFloat.lt : PyFloat → PyFloat → Bool
  | .fin a, .fin b => a < b
  | .fin _, .inf => true
  | .ninf, .fin _ => true
  | .ninf, .inf => true
  | _, _ => false

/-- `x == y` on scalars: numbers by value, otherwise same type and value.
[parsers.py:91-97, 222-244] -/
def Scalar.eq (x y : Scalar) : Bool :=
  match x.num?, y.num? with
  | some a, some b => a.eq b
  | some _, none => false
  | none, some _ => false
  | none, none => x = y

end Mimosa
