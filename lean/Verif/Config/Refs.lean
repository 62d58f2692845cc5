import Verif.Config.ParseConfig

/-!
# `mimosa/common/config/parseconfig.py:100-133` `parse_param_values`: references between parameters

Strings are handled as lists of characters.
-/

namespace Mimosa

/-- `\w` of Python's `re` on `str`: ASCII letters, digits, underscore, and the non-ASCII characters that
Unicode calls alphanumeric (an oracle). [parseconfig.py:123] -/
def isWordChar (uni : Char → Bool) (c : Char) : Bool :=
  c.isAlphanum || c == '_' || (decide (128 ≤ c.toNat) && uni c)

/-- The character class `[\w -]`, parseconfig.py:123. -/
def refChar (uni : Char → Bool) (c : Char) : Bool := isWordChar uni c || c == ' ' || c == '-'

/-- parseconfig.py:123 `re.findall(r"\{([\w -]+)\}", node)`: the groups of all non-overlapping matches from left
to right.  `none`: outside braces; `some acc`: after an opening brace, having read `acc` (reversed).  Since the
class does not contain braces, a match starts at the last opening brace before a closing one. -/
def findRefs (uni : Char → Bool) : Option (List Char) → List Char → List (List Char)
  | _, [] => []
  | none, c :: s => if c = '{' then findRefs uni (some []) s else findRefs uni none s
  | some acc, c :: s =>
    if c = '{' then findRefs uni (some []) s
    else if c = '}' then
      if acc = [] then findRefs uni none s else acc.reverse :: findRefs uni none s
    else if refChar uni c then findRefs uni (some (c :: acc)) s
    else findRefs uni none s

/-- `match.split(" - ")`; `acc` is the current piece, reversed. [parseconfig.py:125-127] -/
def splitDash (acc : List Char) : List Char → List (List Char)
  | ' ' :: '-' :: ' ' :: s => acc.reverse :: splitDash [] s
  | c :: s => splitDash (c :: acc) s
  | [] => [acc.reverse]

/-- The key path a reference names. [parseconfig.py:125-127] -/
def refPath (m : List Char) : List Key := (splitDash [] m).map fun k => .str (String.ofList k)

/-- `s.replace(old, new)` (for a non-empty `old`): all non-overlapping occurrences from left to right.  The
counter is the number of characters of a matched occurrence still to be skipped.
[parseconfig.py:125-127] -/
def replaceAll (old new : List Char) : ℕ → List Char → List Char
  | _, [] => []
  | 0, c :: s =>
    if old.isPrefixOf (c :: s) then new ++ replaceAll old new (old.length - 1) s
    else c :: replaceAll old new 0 s
  | n + 1, _ :: s => replaceAll old new n s

/-- parseconfig.py:126 `node.replace(f"{{{match}}}", other_value)`. -/
def substRef (node m other : List Char) : List Char := replaceAll ('{' :: (m ++ ['}'])) other 0 node

/-- parseconfig.py:123-129: the loop over the matches of one leaf.  `node` stays the original string, so each
successful substitution overwrites the previous one.  A referenced value that is not a string is a `TypeError`
of `str.replace`. -/
def refLoop (keys : List Key) (node : String) : List (List Char) → Val → Except Err Val
  | [], params => .ok params
  | m :: ms, params => match getNested (refPath m) params with
    | .error .keyError => refLoop keys node ms params
    | .error e => .error e
    | .ok (.atom (.str other)) =>
      match setNested keys (.atom (.str (String.ofList (substRef node.toList m other.toList)))) params with
      | .error e => .error e
      | .ok params' => refLoop keys node ms params'
    | .ok _ => .error .typeError

/-- parseconfig.py:120-129 `leaf_function`. -/
def refLeaf (uni : Char → Bool) (params : Val) (leaf : List Key × Val) : Except Err Val :=
  match leaf.2 with
  | .atom (.str s) => refLoop leaf.1 s (findRefs uni none s.toList) params
  | _ => .ok params

/-- The traversal.  (The dictionary is changed while it is traversed, but each leaf function only assigns the
leaf's own path, which has been visited, so the traversal sees the original leaves.)
[parseconfig.py:100-133] -/
def refLeaves (uni : Char → Bool) : List (List Key × Val) → Val → Except Err Val
  | [], params => .ok params
  | leaf :: rest, params => match refLeaf uni params leaf with
    | .error e => .error e
    | .ok params' => refLeaves uni rest params'

/-- parseconfig.py:100-133 `parse_param_values(params)`. -/
def parseParamValues (uni : Char → Bool) (params : Val) : Except Err Val :=
  match leaves (fun _ v => !v.isDict) params with
  | .error e => .error e
  | .ok L => refLeaves uni L params

/-- mimosa.py, `MIMOSA.__init__`: `check_params`, then `parse_param_values`. -/
def mimosaParams (B : Builtins) (uni : Char → Bool) (default : List (Key × Val)) (user : Val) :
    Except Err (Val × Py Parser) :=
  match checkParams B default user with
  | .error e => .error e
  | .ok (parsed, tree) => match parseParamValues uni parsed with
    | .error e => .error e
    | .ok params => .ok (params, tree)

end Mimosa
