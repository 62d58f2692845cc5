import Verif.Config.NestedDict

/-!
# `mimosa/common/config/utils/parsers.py`

The parsers of the configuration file.  Built-in Python functions that are not part of MIMOSA (`str` of a
float or container, `float`/`int` of a string, and the Pint unit library) are oracles (`Builtins`): every
theorem holds for every behaviour of them.
-/

namespace Mimosa

/-- Python / Pint functions the parsers call. [used in parsers.py:100-384] -/
structure Builtins where
  /-- `str(x)` for a float, list or dictionary. -/
  strOf : Val → String
  /-- `str` of something that is not a string never spells one of the words for "false". -/
  strOf_not_word : ∀ v, strOf v ∉ ["False", "false", "no"]
  /-- `float(s)` for a string; `none` is `ValueError`. -/
  floatOfStr : String → Option PyFloat
  /-- `int(s)` for a string; `none` is `ValueError`. -/
  intOfStr : String → Option ℤ
  /-- `quant(value, unit, can_be_false=False)`: a number, or `none` for one of the four Pint errors that
  parsers.py:281-286 catches. -/
  quant : Val → Val → Option PyFloat

/-- `bool(x)` [parsers.py:91-97] -/
def Val.truthy : Val → Bool
  | .atom .null => false
  | .atom (.bool b) => b
  | .atom (.int i) => i ≠ 0
  | .atom (.float f) => f ≠ .fin 0
  | .atom (.str s) => s ≠ ""
  | .list l => !l.isEmpty
  | .dict d => !d.isEmpty

mutual
/-- `x == y` on configuration values (dictionaries are compared without regard to order).
[parsers.py:68-71, 91-97, 222-244] -/
def Val.eq : Val → Val → Bool
  | .atom a, .atom b => a.eq b
  | .list l, .list l' => Val.eqList l l'
  | .dict d, .dict d' => d.length = d'.length && Val.eqDict d d'
  | _, _ => false
/-- `==` on lists: elementwise. [parsers.py:91-97, 222-244] -/
def Val.eqList : List Val → List Val → Bool
  | [], [] => true
  | a :: l, b :: l' => Val.eq a b && Val.eqList l l'
  | _, _ => false
/-- `==` on dictionaries of equal size: every entry of the first is in the second.
[parsers.py:91-97, 222-244] -/
def Val.eqDict : List (Key × Val) → List (Key × Val) → Bool
  | [], _ => true
  | (k, v) :: d, d' =>
    (match Dict.lookup k d' with
      | some w => Val.eq v w
      | none => false) && Val.eqDict d d'
end

/-- `value in values` [parsers.py:222-244] -/
def Val.isIn (v : Val) (values : List Val) : Bool := values.any fun w => Val.eq w v

/-- parsers.py:91-93 `is_truthy`: `value in [1, True, "True", "true", "yes"]`. -/
def isTruthy (v : Val) : Bool :=
  v.isIn [.atom (.int 1), .atom (.bool true), .atom (.str "True"), .atom (.str "true"), .atom (.str "yes")]

/-- parsers.py:95-97 `is_falsy`: `value in [0, False, "False", "false", "no"]`. -/
def isFalsy (v : Val) : Bool :=
  v.isIn [.atom (.int 0), .atom (.bool false), .atom (.str "False"), .atom (.str "false"), .atom (.str "no")]

/-- Python's `False`, the "switched off" value. [parsers.py:68-71] -/
def Val.false : Val := .atom (.bool Bool.false)

/-- `str(value)` [parsers.py:100-108] -/
def pyStr (B : Builtins) : Val → String
  | .atom (.str s) => s
  | .atom .null => "None"
  | .atom (.bool b) => if b then "True" else "False"
  | .atom (.int i) => toString i
  | v => B.strOf v

/-- `float(value)` [parsers.py:192-204] -/
def pyFloat (B : Builtins) : Val → Except Err PyFloat
  | .atom (.str s) => match B.floatOfStr s with
    | some f => .ok f
    | none => .error .valueError
  | .atom (.bool b) => .ok (.fin (if b then 1 else 0))
  | .atom (.int i) => .ok (.fin i)
  | .atom (.float f) => .ok f
  | _ => .error .typeError

/-- Truncation towards zero, as `int` of a float does. [parsers.py:207-219] -/
def truncRat (q : ℚ) : ℤ := if 0 ≤ q then q.floor else q.ceil

/-- `int(value)` [parsers.py:207-219] -/
def pyInt (B : Builtins) : Val → Except Err ℤ
  | .atom (.str s) => match B.intOfStr s with
    | some i => .ok i
    | none => .error .valueError
  | .atom (.bool b) => .ok (if b then 1 else 0)
  | .atom (.int i) => .ok i
  | .atom (.float (.fin q)) => .ok (truncRat q)
  | .atom (.float .nan) => .error .valueError
  | .atom (.float _) => .error .overflowError
  | _ => .error .typeError

/-- parsers.py:35-43: the attributes common to all parsers.  (`descr` is only used in messages.) -/
structure ParserBase where
  /-- `self.type` -/
  type : String
  /-- `self.default`, `None` if absent -/
  default : Val
  /-- `self.can_be_false` (used as a condition, parsers.py:69) -/
  canBeFalse : Bool

/-- The parser objects.  `ident` stands for a missing (`None`) element parser, see
`ListParser.parse_if_not_none` (parsers.py:314-317). -/
inductive Parser
  | ident
  /-- `StringParser` and `FilepathParser` (identical code, parsers.py:100-108, 126-135) -/
  | str (b : ParserBase)
  /-- `StringOrPlainDictParser`, parsers.py:111-123 -/
  | strOrPlainDict (b : ParserBase)
  /-- `BoolParser`, parsers.py:138-153 -/
  | bool (b : ParserBase)
  /-- `FloatParser`, parsers.py:156-204 -/
  | float (b : ParserBase) (min max : PyFloat)
  /-- `IntParser`, parsers.py:156-180, 207-219 -/
  | int (b : ParserBase) (min max : PyFloat)
  /-- `EnumParser`, parsers.py:222-244 -/
  | enum (b : ParserBase) (allowed : List Val)
  /-- `QuantityParser`, parsers.py:256-288 -/
  | quantity (b : ParserBase) (unit : Val)
  /-- `ListParser`, parsers.py:297-330 -/
  | list (b : ParserBase) (values : Parser)
  /-- `DictParser`, parsers.py:333-365 -/
  | dict (b : ParserBase) (keys values : Parser)
  /-- `DatasourceParser`, parsers.py:368-384 -/
  | datasource (b : ParserBase) (keys values : Parser)

namespace Parser

/-- parsers.py:35-43: the `descr`, `default` and `can_be_false` every parser node carries. -/
def base : Parser → ParserBase
  | .ident => ⟨"", .atom .null, Bool.false⟩
  | .str b | .strOrPlainDict b | .bool b | .float b _ _ | .int b _ _ | .enum b _ | .quantity b _
  | .list b _ | .dict b _ _ | .datasource b _ _ => b

/-- parsers.py:68-71 `check_false` -/
def checkFalse (b : ParserBase) (v : Val) : Bool := b.canBeFalse && isFalsy v

/-- parsers.py:176 the bounds check of numbers: `parsed_value < self.min or parsed_value > self.max`. -/
def outOfBounds (f min max : PyFloat) : Bool := f.lt min || max.lt f

/-- Iterating over a dictionary yields its keys as values.
[parsers.py:297-330 (a `list` parser given a dictionary)] -/
def keyVal : Key → Val
  | .str s => .atom (.str s)
  | .int i => .atom (.int i)

/-- Using a value as dictionary key.  Simplification: `bool` keys are identified with the integers they are
equal to in Python; other keys (float, `None`: hashable but never produced by the key parsers of the
configuration; list, dict: unhashable) are a `TypeError`. [parsers.py:333-365] -/
def valKey : Val → Except Err Key
  | .atom (.str s) => .ok (.str s)
  | .atom (.int i) => .ok (.int i)
  | .atom (.bool b) => .ok (.int (if b then 1 else 0))
  | _ => .error .typeError

/-- The five required keys of a data source, parsers.py:379. -/
def datasourceKeys : List String := ["variable", "unit", "scenario", "model", "file"]

/-- parsers.py:323-326: a list comprehension. -/
def parseList (f : Val → Except Err Val) : List Val → Except Err (List Val)
  | [] => .ok []
  | v :: l => match f v with
    | .error e => .error e
    | .ok w => match parseList f l with
      | .error e => .error e
      | .ok ws => .ok (w :: ws)

/-- parsers.py:356-361: a dictionary comprehension, entries in order (a later equal key overwrites). -/
def parseDict (fk fv : Val → Except Err Val) (acc : List (Key × Val)) :
    List (Key × Val) → Except Err (List (Key × Val))
  | [] => .ok acc
  | (k, v) :: d => match fk (keyVal k) with
    | .error e => .error e
    | .ok kv => match fv v with
      | .error e => .error e
      | .ok w => match valKey kv with
        | .error e => .error e
        | .ok k' => parseDict fk fv (Dict.insert k' w acc) d

/-- `parser.parse(value)` for each parser class. [parsers.py:60-384] -/
def parse (B : Builtins) : Parser → Val → Except Err Val
  | .ident, v => .ok v
  | .str b, v => if checkFalse b v then .ok .false else .ok (.atom (.str (pyStr B v)))
  | .strOrPlainDict b, v =>
    if checkFalse b v then .ok .false
    else if v.isDict then .ok v
    else .ok (.atom (.str (pyStr B v)))
  | .bool b, v =>
    if checkFalse b v then .ok .false
    else if isTruthy v then .ok (.atom (.bool Bool.true))
    else if isFalsy v then .ok (.atom (.bool Bool.false))
    else .error .valueError
  | .float b min max, v =>
    if checkFalse b v then .ok .false
    else match pyFloat B v with
      | .error e => .error e
      | .ok f => if outOfBounds f min max then .error .valueError else .ok (.atom (.float f))
  | .int b min max, v =>
    if checkFalse b v then .ok .false
    else match pyInt B v with
      | .error e => .error e
      | .ok i => if outOfBounds (.fin i) min max then .error .valueError else .ok (.atom (.int i))
  | .enum b allowed, v =>
    if checkFalse b v then .ok .false
    else if v.isIn allowed then .ok v
    else .error .valueError
  | .quantity b unit, v =>
    if checkFalse b v then .ok .false
    else match B.quant v unit with
      | some _ => .ok v
      | none => .error .valueError
  | .list b values, v =>
    if checkFalse b v then .ok .false
    else match v with
      | .list l => match parseList (values.parse B) l with
        | .error e => .error e
        | .ok l' => .ok (.list l')
      | .atom .null => .ok (.list [])
      | _ => .error .valueError
  | .dict b keys values, v =>
    if checkFalse b v then .ok .false
    else match v with
      | .dict d => match parseDict (keys.parse B) (values.parse B) [] d with
        | .error e => .error e
        | .ok d' => .ok (.dict d')
      | .atom .null => .ok (.dict [])
      | _ => .error .valueError
  | .datasource b keys values, v =>
    if checkFalse b v then .ok .false
    else match v with
      | .dict d => match parseDict (keys.parse B) (values.parse B) [] d with
        | .error e => .error e
        | .ok d' =>
          if datasourceKeys.all fun k => (Dict.lookup (.str k) d').isSome then .ok (.dict d')
          else .error .valueError
      | _ => .error .valueError

/-- parsers.py:60-66 `get(user_config, keys)`: the user's value, or the default if a key is missing. -/
def get (B : Builtins) (p : Parser) (user : Val) (keys : List Key) : Except Err Val :=
  match getNested keys user with
  | .ok v => p.parse B v
  | .error .keyError => p.parse B p.base.default
  | .error e => .error e

/-! ## Creating parsers -/

/-- `node.get(key, default)` [parsers.py:387-415 and the constructors] -/
def getKey (k : String) (d : List (Key × Val)) (default : Val) : Val := (Dict.lookup (.str k) d).getD default

/-- A bound of a numeric parser.  Simplification: a bound that is not a number is a `TypeError` when the
parser is created (in Python when the first value is parsed). [parsers.py:156-180] -/
def bound (k : String) (d : List (Key × Val)) (default : PyFloat) : Except Err PyFloat :=
  match Dict.lookup (.str k) d with
  | none => .ok default
  | some (.atom a) => match a.num? with
    | some f => .ok f
    | none => .error .typeError
  | some _ => .error .typeError

/-- parsers.py:35-43 -/
def mkBase (type : String) (d : List (Key × Val)) : ParserBase :=
  ⟨type, getKey "default" d (.atom .null), (getKey "can_be_false" d .false).truthy⟩

/-- An element parser: created if the key is present (parsers.py:308-312, 346-350). -/
def sub (k : String) (subs : List (Key × Except Err Parser)) : Except Err Parser :=
  match Dict.lookup (.str k) subs with
  | none => .ok .ident
  | some r => r

/-- parsers.py:387-416 `ParserFactory.create_parser` and the constructors, given the node's entries and the
parsers of its sub-nodes. -/
def mk (d : List (Key × Val)) (subs : List (Key × Except Err Parser)) : Except Err Parser :=
  match Dict.lookup (.str "type") d with
  | none => .error .keyError
  | some (.atom (.str t)) =>
    let b := mkBase t d
    if t = "str" ∨ t = "filepath" then .ok (.str b)
    else if t = "str_or_plain_dict" then .ok (.strOrPlainDict b)
    else if t = "bool" then .ok (.bool b)
    else if t = "float" then match bound "min" d .ninf, bound "max" d .inf with
      | .ok lo, .ok hi => .ok (.float b lo hi)
      | .error e, _ => .error e
      | _, .error e => .error e
    else if t = "int" then match bound "min" d .ninf, bound "max" d .inf with
      | .ok lo, .ok hi => .ok (.int b lo hi)
      | .error e, _ => .error e
      | _, .error e => .error e
    else if t = "enum" then match Dict.lookup (.str "values") d with
      | some (.list l) => if b.default.isIn l then .ok (.enum b l) else .error .valueError
      | some _ => .error .typeError
      | none => .error .keyError
    else if t = "quantity" then match Dict.lookup (.str "unit") d with
      | some u => .ok (.quantity b u)
      | none => .error .keyError
    else if t = "list" then match sub "values" subs with
      | .ok v => .ok (.list b v)
      | .error e => .error e
    else if t = "dict" then match sub "values" subs, sub "keys" subs with
      | .ok v, .ok k => .ok (.dict b k v)
      | .error e, _ => .error e
      | _, .error e => .error e
    else if t = "datasource" then match sub "values" subs, sub "keys" subs with
      | .ok v, .ok k => .ok (.datasource b k v)
      | .error e, _ => .error e
      | _, .error e => .error e
    else .error .keyError
  | some (.atom _) => .error .keyError
  | some _ => .error .typeError

mutual
/-- parsers.py:395-401 `create_parser(node, quant)`. -/
def create : Val → Except Err Parser
  | .dict d => mk d (createAll d)
  | _ => .error .typeError
/-- The parsers of all entries of a node (only `values` and `keys` are used).
[parsers.py:297-365] -/
def createAll : List (Key × Val) → List (Key × Except Err Parser)
  | [] => []
  | (k, v) :: d => (k, create v) :: createAll d
end

end Parser
end Mimosa
