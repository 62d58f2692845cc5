import Verif.Config.NestedDict

/-!
# The parameter file: `json.dump(params, fh)` of `mimosa/export/save.py:41-42`, and reading it again

The text of the file is represented by the value it denotes (Python's `json` prints strings and numbers such that they
are read again unchanged, also `NaN` and `Infinity`).
-/

namespace Mimosa

/-- A JSON value; the entries of an object are in the order of the text, names may occur twice. [save.py:41-42] -/
inductive Json
  | null
  | bool (b : Bool)
  | int (i : ℤ)
  | float (f : PyFloat)
  | str (s : String)
  | arr (l : List Json)
  | obj (d : List (String × Json))

/-- The name printed for a dictionary key: `json` prints integer keys as text. [save.py:41-42] -/
def Key.text : Key → String
  | .str s => s
  | .int i => toString i

mutual
/-- `json.dump(params, fh)`. [save.py:41-42] -/
def jsonDump : Val → Json
  | .atom .null => .null
  | .atom (.bool b) => .bool b
  | .atom (.int i) => .int i
  | .atom (.float f) => .float f
  | .atom (.str s) => .str s
  | .list l => .arr (jsonDumpList l)
  | .dict d => .obj (jsonDumpDict d)
/-- The elements of a list. [save.py:41-42] -/
def jsonDumpList : List Val → List Json
  | [] => []
  | v :: l => jsonDump v :: jsonDumpList l
/-- The entries of a dictionary. [save.py:41-42] -/
def jsonDumpDict : List (Key × Val) → List (String × Json)
  | [] => []
  | (k, v) :: d => (k.text, jsonDump v) :: jsonDumpDict d
end

mutual
/-- `json.load(fh)`: what a user does with the file written by save.py:41-42.  A later entry with the same name
replaces an earlier one. -/
def jsonLoad : Json → Val
  | .null => .atom .null
  | .bool b => .atom (.bool b)
  | .int i => .atom (.int i)
  | .float f => .atom (.float f)
  | .str s => .atom (.str s)
  | .arr l => .list (jsonLoadList l)
  | .obj d => .dict (jsonLoadDict [] d)
/-- The elements of an array. [save.py:41-42] -/
def jsonLoadList : List Json → List Val
  | [] => []
  | v :: l => jsonLoad v :: jsonLoadList l
/-- The entries of an object, added to `acc`. [save.py:41-42] -/
def jsonLoadDict (acc : List (Key × Val)) : List (String × Json) → List (Key × Val)
  | [] => acc
  | (k, v) :: d => jsonLoadDict (Dict.insert (.str k) (jsonLoad v) acc) d
end

end Mimosa
