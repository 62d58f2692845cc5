import Verif.Config.Py

/-! # `mimosa/common/config/utils/nested_dict.py` and `recursive_traverse` of `parseconfig.py:13-25` -/

namespace Mimosa
variable {α : Type}

/-- nested_dict.py:1-6 `get_nested(dictionary, keys)` (with `create=False`).  A missing key is a
`KeyError`; subscripting a value that is not a dictionary is a `TypeError` (simplification: also for a list or
string subscripted with an integer, which the callers never do). -/
def getNested : List Key → Py α → Except Err (Py α)
  | [], v => .ok v
  | k :: ks, .dict d =>
    match Dict.lookup k d with
    | some v => getNested ks v
    | none => .error .keyError
  | _ :: _, _ => .error .typeError

/-- nested_dict.py:9-11 `set_nested(dictionary, keys, value)`: walks along `keys[:-1]`, creating missing
dictionaries, then assigns the last key.  `keys = []` is an `IndexError`. -/
def setNested : List Key → Py α → Py α → Except Err (Py α)
  | [], _, _ => .error .indexError
  | [k], v, .dict d => .ok (.dict (Dict.insert k v d))
  | k :: k' :: ks, v, .dict d =>
    match setNested (k' :: ks) v ((Dict.lookup k d).getD (.dict [])) with
    | .ok sub => .ok (.dict (Dict.insert k sub d))
    | .error e => .error e
  | _ :: _, _, _ => .error .typeError

mutual
/-- parseconfig.py:17-23 / nested_dict.py:23-29: the traversal loop over `subset.items()`, collecting the
(path, node) pairs on which `leaf_function` is called, in order. -/
def leavesDict (crit : List Key → Py α → Bool) (curr : List Key) :
    List (Key × Py α) → List (List Key × Py α)
  | [] => []
  | (k, node) :: rest => leavesNode crit (curr ++ [k]) node ++ leavesDict crit curr rest
/-- One node: a leaf if the criterion says so (values that are not dictionaries are leaves under every
criterion used in the code). [parseconfig.py:13-25, nested_dict.py:14-33] -/
def leavesNode (crit : List Key → Py α → Bool) (keys : List Key) : Py α → List (List Key × Py α)
  | .dict d => if crit keys (.dict d) then [(keys, .dict d)] else leavesDict crit keys d
  | .atom a => [(keys, .atom a)]
  | .list l => [(keys, .list l)]
end

/-- The leaves of a whole dictionary, parseconfig.py:13-25 `recursive_traverse` and nested_dict.py:14-33
`flatten` (before the keys are joined).  Calling it on something that is not a dictionary raises
`AttributeError` (`.items()`). -/
def leaves (crit : List Key → Py α → Bool) : Py α → Except Err (List (List Key × Py α))
  | .dict d => .ok (leavesDict crit [] d)
  | _ => .error .attributeError

/-- `" - ".join(keys)`, nested_dict.py:27; a non-string key is a `TypeError`. -/
def joinKeys : List Key → Except Err String
  | [] => .ok ""
  | [.str s] => .ok s
  | .str s :: ks =>
    match joinKeys ks with
    | .ok rest => .ok (s ++ " - " ++ rest)
    | .error e => .error e
  | .int _ :: _ => .error .typeError

/-- nested_dict.py:26-27: `flattened_dict[" - ".join(keys)] = node` for each leaf in turn (a later leaf with
the same joined name overwrites). -/
def flattenCollect : List (List Key × Py α) → List (Key × Py α) → Except Err (List (Key × Py α))
  | [], acc => .ok acc
  | (ks, w) :: rest, acc => match joinKeys ks with
    | .error e => .error e
    | .ok n => flattenCollect rest (Dict.insert (.str n) w acc)

/-- nested_dict.py:14-33 `flatten(joined_dict)` with the default criterion (everything that is not a
dictionary is a leaf). -/
def flatten (v : Py α) : Except Err (List (Key × Py α)) :=
  match leaves (fun _ w => !w.isDict) v with
  | .error e => .error e
  | .ok L => flattenCollect L []

end Mimosa
