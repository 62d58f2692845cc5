import Verif.Config.Refs

/-!
# `mimosa/common/units.py` and `get_unit` of `mimosa/common/pyomo_utils.py`

Strings are handled as lists of characters.  The Pint library is an oracle (`Pint`).
-/

namespace Mimosa

/-- `inputdata/config/default_units.yaml:1-5`, read by units.py:16. -/
def defaultUnits : List (List Char × List Char) :=
  [("currency_unit".toList, "trillion USD2005/yr".toList),
   ("emissionsrate_unit".toList, "emissions_unit/yr".toList),
   ("emissions_unit".toList, "GtCO2".toList),
   ("temperature_unit".toList, "delta_degC".toList),
   ("population_unit".toList, "billion".toList)]

/-- units.py:93-95: the loop over the default units, `units.replace(key, f"({value})")`. -/
def replaceUnits : List (List Char × List Char) → List Char → List Char
  | [], units => units
  | (key, val) :: rest, units => replaceUnits rest (replaceAll key ('(' :: (val ++ [')'])) 0 units)

/-- units.py:92-98 `_parse_default_units`. -/
def parseDefaultUnits (units : List Char) : List Char :=
  replaceAll "year".toList "yr".toList 0 (replaceUnits defaultUnits units)

/-- units.py:100-102 `_custom_replace`: `units.replace("US$", "USD").replace("t CO2", "tCO2")`. -/
def customReplace (units : List Char) : List Char :=
  replaceAll "t CO2".toList "tCO2".toList 0 (replaceAll "US$".toList "USD".toList 0 units)

/-- The Pint registry, as far as `Quantity.__call__` uses it.  `conv s u` is
`registry.Quantity(s).to(u).magnitude`, `convNum x s u` is `registry.Quantity(x, s).to(u).magnitude`; the errors
are whatever Pint raises. [units.py:33-61] -/
structure Pint where
  conv : List Char → List Char → Except Err PyFloat
  convNum : ℚ → List Char → List Char → Except Err ℚ

/-- units.py:47: the target unit handed to Pint. -/
def targetUnit (unit : List Char) : List Char := parseDefaultUnits (customReplace unit)

/-- units.py:33-61 `quant(value, unit)` (two arguments, `only_magnitude=True`).  `False` is passed through when
`can_be_false`. -/
def quant2 (B : Builtins) (P : Pint) (canBeFalse : Bool) (v : Val) (unit : List Char) : Except Err Val :=
  if canBeFalse && (match v with | .atom (.bool Bool.false) => true | _ => Bool.false) then .ok .false
  else match P.conv (customReplace (pyStr B v).toList) (targetUnit unit) with
    | .error e => .error e
    | .ok x => .ok (.atom (.float x))

/-- units.py:33-61 `quant(value, unit, to_unit)` (three arguments) on a number. -/
def quant3 (P : Pint) (x : ℚ) (unit toUnit : List Char) : Except Err ℚ :=
  P.convNum x (customReplace unit) (targetUnit toUnit)

/-- units.py:66-88 `quant.unit(unit_str)`: the string handed to Pyomo or Pint (`_custom_replace` is not applied
here). -/
def unitString (unit : List Char) : List Char := parseDefaultUnits unit

/-- `[a-zA-Z]` [units.py:101-102] -/
def isLetter (c : Char) : Bool := ('a' ≤ c && c ≤ 'z') || ('A' ≤ c && c ≤ 'Z')

/-- The negative lookahead `(?![a-zA-Z])` at the start of the remaining text.
[units.py:101-102] -/
def noLetterNext : List Char → Bool
  | [] => true
  | c :: _ => !isLetter c

/-- pyomo_utils.py:272 `re.sub("/a(?![a-zA-Z])", "/yr", s)`. -/
def subAnnum : List Char → List Char
  | '/' :: 'a' :: s =>
    if noLetterNext s then '/' :: 'y' :: 'r' :: subAnnum s else '/' :: 'a' :: subAnnum s
  | c :: s => c :: subAnnum s
  | [] => []

/-- pyomo_utils.py:266-272 `get_unit(var)`; the argument is `str(units.get_units(var))`, `none` when there is no
unit. -/
def getUnit (pyomoUnit : Option (List Char)) : List Char := subAnnum (pyomoUnit.getD [])

end Mimosa
