import Verif.Config.Parsers

/-! # `mimosa/common/config/parseconfig.py`: `parse_params`, `check_obsolete_params`, `check_params` -/

namespace Mimosa

/-- parseconfig.py:32-33 `leaf_criterium`: `not isinstance(node, dict) or "type" in node`. -/
def isParamNode : Val → Bool
  | .dict d => (Dict.lookup (.str "type") d).isSome
  | _ => true

/-- The parameter definitions of a default configuration: path and node, in file order
(parseconfig.py:47 `recursive_traverse(default_yaml, …)`). -/
def paramDefs : List (Key × Val) → List (List Key × Val) := leavesDict (fun _ v => isParamNode v) []

/-- parseconfig.py:35-45 `leaf_function`: create the parser, store it, parse the value, store it. -/
def parseStep (B : Builtins) (user : Val) (st : Val × Py Parser) (leaf : List Key × Val) :
    Except Err (Val × Py Parser) :=
  match Parser.create leaf.2 with
  | .error e => .error e
  | .ok p => match setNested leaf.1 (.atom p) st.2 with
    | .error e => .error e
    | .ok tree => match p.get B user leaf.1 with
      | .error e => .error e
      | .ok v => match setNested leaf.1 v st.1 with
        | .error e => .error e
        | .ok parsed => .ok (parsed, tree)

/-- The loop over the leaves. [parseconfig.py:28-49] -/
def parseSteps (B : Builtins) (user : Val) :
    List (List Key × Val) → Val × Py Parser → Except Err (Val × Py Parser)
  | [], st => .ok st
  | leaf :: rest, st => match parseStep B user st leaf with
    | .error e => .error e
    | .ok st' => parseSteps B user rest st'

/-- parseconfig.py:28-49 `parse_params(default_yaml, user_yaml, return_parser_tree=True)`; the default
configuration is given by its top-level entries. -/
def parseParams (B : Builtins) (default : List (Key × Val)) (user : Val) : Except Err (Val × Py Parser) :=
  parseSteps B user (paramDefs default) (.dict [], .dict [])

/-- parseconfig.py:54-57: the type of the parser stored at `keys`; no parser there (`KeyError`, or a
sub-dictionary, which has no attribute `type`) is `None`.  Walking *through* a parser object
(`key not in dictionary`) is a `TypeError` that is not caught. -/
def parserType (tree : Py Parser) (keys : List Key) : Except Err (Option String) :=
  match getNested keys tree with
  | .ok (.atom p) => .ok (some p.base.type)
  | .ok _ => .ok none
  | .error .keyError => .ok none
  | .error e => .error e

mutual
/-- nested_dict.py:23-29 (loop) with the criterion of parseconfig.py:52-62; yields the joined names in
order. -/
def flattenDict (tree : Py Parser) (curr : List Key) : List (Key × Val) → Except Err (List String)
  | [] => .ok []
  | (k, node) :: rest => match flattenNode tree (curr ++ [k]) node with
    | .error e => .error e
    | .ok a => match flattenDict tree curr rest with
      | .error e => .error e
      | .ok b => .ok (a ++ b)
/-- One node: a dictionary is descended into unless its parser is of type `dict` or `datasource`.
[nested_dict.py:14-33, parseconfig.py:52-62] -/
def flattenNode (tree : Py Parser) (keys : List Key) : Val → Except Err (List String)
  | .dict d => match parserType tree keys with
    | .error e => .error e
    | .ok ty =>
      if ty = some "dict" ∨ ty = some "datasource" then
        match joinKeys keys with
        | .error e => .error e
        | .ok s => .ok [s]
      else flattenDict tree keys d
  | .atom _ => match parserType tree keys with
    | .error e => .error e
    | .ok _ => match joinKeys keys with
      | .error e => .error e
      | .ok s => .ok [s]
  | .list _ => match parserType tree keys with
    | .error e => .error e
    | .ok _ => match joinKeys keys with
      | .error e => .error e
      | .ok s => .ok [s]
end

/-- nested_dict.py:14-33 `flatten` (keys only); not a dictionary: `AttributeError`. -/
def flattenNames (tree : Py Parser) : Val → Except Err (List String)
  | .dict d => flattenDict tree [] d
  | _ => .error .attributeError

/-- parseconfig.py:65-79 `check_obsolete_params`. -/
def checkObsolete (user parsed : Val) (tree : Py Parser) : Except Err Unit :=
  match flattenNames tree user with
  | .error e => .error e
  | .ok names => match flattenNames tree parsed with
    | .error e => .error e
    | .ok known => if names.all fun n => known.contains n then .ok () else .error .runtimeWarning

/-- parseconfig.py:86-97 `check_params(input_params, return_parser_tree=True)`, with the default
configuration as argument. -/
def checkParams (B : Builtins) (default : List (Key × Val)) (user : Val) : Except Err (Val × Py Parser) :=
  match parseParams B default user with
  | .error e => .error e
  | .ok (parsed, tree) => match checkObsolete user parsed tree with
    | .error e => .error e
    | .ok () => .ok (parsed, tree)

end Mimosa
