import Verif.Config.Units
import Verif.Data.TimeGrid
import Verif.Data.Extrapolate

/-!
# `mimosa/common/data/datastore.py`

The class-level dictionaries `databases` and `cached_data` are an explicit state that survives an exception.

Simplifications: numbers are rationals (no rounding, no NaN); a data file is a table with the five text columns
and the year columns from `2010` on; `scipy`'s cubic spline and Pint are oracles.
-/

namespace Mimosa

/-- One row of a data file. [datastore.py:38-62] -/
structure DataRow where
  model : String
  scenario : String
  region : String
  var : String
  unit : String
  values : List ℚ
  deriving DecidableEq

/-- A data file as read by `pd.read_csv` with lower-case column names, datastore.py:46-47.  `years` are the columns
from `"2010"` on. -/
structure DataTable where
  years : List ℚ
  rows : List DataRow

/-- `params["input"]["variables"][name]` [datastore.py:38-62] -/
structure VarInfo where
  file : String
  model : String
  scenario : String
  var : String
  unit : Option String

/-- datastore.py:69 `key = (model, scenario, region, variablename)` -/
structure DataKey where
  model : String
  scenario : String
  region : String
  var : String
  deriving DecidableEq

/-- The cached selection, datastore.py:86-90. -/
structure Selected where
  years : List ℚ
  values : List ℚ
  unit : String
  deriving DecidableEq

/-- The class attributes `DataStore.databases`, `DataStore.cached_data`, datastore.py:25-26. -/
structure DataCache where
  databases : String → Option DataTable
  cached : String → Option (DataKey → Option Selected)

/-- A fresh process. [datastore.py:25-26] -/
def DataCache.empty : DataCache := ⟨fun _ => none, fun _ => none⟩

/-- What the store reads from outside: the files, the spline of `scipy.interpolate.interp1d(…, kind="cubic")`
(which raises outside the range of its points) and Pint. [datastore.py:57-118] -/
structure DataWorld where
  files : String → Option DataTable
  cubic : List (ℚ × ℚ) → ℚ → Except Err ℚ
  pint : Pint

/-- The parts of `params` that the store uses. [datastore.py:28-55] -/
structure StoreParams where
  time : TimeParams
  regions : List String
  vars : List (String × VarInfo)

/-- datastore.py:75 `region[:-1] if region[-1] == "#" else region` (`IndexError` for the empty name). -/
def dataRegion (region : String) : Except Err String :=
  match region.toList.reverse with
  | [] => .error .indexError
  | c :: cs => .ok (if c = '#' then String.ofList cs.reverse else region)

/-- datastore.py:71-90: the row selection (without the cache). -/
def selectRow (T : DataTable) (k : DataKey) : Except Err Selected :=
  match dataRegion k.region with
  | .error e => .error e
  | .ok region =>
    match T.rows.filter fun row => decide (row.model = k.model) && decide (row.scenario = k.scenario) &&
        decide (row.region = region) && decide (row.var = k.var) with
    | [row] => .ok ⟨T.years, row.values, row.unit⟩
    | _ => .error .exception

variable (W : DataWorld)

/-- datastore.py:38-49 `_select_database`.  A missing file is an exception (`FileNotFoundError`). -/
def selectDatabase (file : String) (c : DataCache) : DataCache × Except Err Unit :=
  match c.databases file with
  | some _ => (c, .ok ())
  | none => match W.files file with
    | none => (c, .error .exception)
    | some T => (⟨Function.update c.databases file (some T),
        Function.update c.cached file (some fun _ => none)⟩, .ok ())

/-- datastore.py:64-91 `_get_cached_data_from_database`. -/
def getCached (info : VarInfo) (region : String) (c : DataCache) : DataCache × Except Err Selected :=
  let key : DataKey := ⟨info.model, info.scenario, region, info.var⟩
  match c.cached info.file with
  | none => (c, .error .keyError)
  | some cache => match cache key with
    | some s => (c, .ok s)
    | none => match c.databases info.file with
      | none => (c, .error .keyError)
      | some T => match selectRow T key with
        | .error e => (c, .error e)
        | .ok s => (⟨c.databases, Function.update c.cached info.file
            (some (Function.update cache key (some s)))⟩, .ok s)

/-- datastore.py:101-103: unit conversion of all values. -/
def convertAll (unit toUnit : String) : List ℚ → Except Err (List ℚ)
  | [] => .ok []
  | x :: xs => match quant3 W.pint x unit.toList toUnit.toList with
    | .error e => .error e
    | .ok y => match convertAll unit toUnit xs with
      | .error e => .error e
      | .ok ys => .ok (y :: ys)

/-- datastore.py:100-103 `if "unit" in var_info: …`. -/
def convertUnit (info : VarInfo) (s : Selected) : Except Err (List ℚ) :=
  match info.unit with
  | none => .ok s.values
  | some u => convertAll W s.unit u s.values

/-- datastore.py:106 `np.arange(2110, 2260, 10)` -/
def extraYears : List ℚ :=
  [2110, 2120, 2130, 2140, 2150, 2160, 2170, 2180, 2190, 2200, 2210, 2220, 2230, 2240, 2250]

/-- datastore.py:114 `interp_fct(output_years)` -/
def evalAll (f : ℚ → Except Err ℚ) : List ℚ → Except Err (List ℚ)
  | [] => .ok []
  | x :: xs => match f x with
    | .error e => .error e
    | .ok y => match evalAll f xs with
      | .error e => .error e
      | .ok ys => .ok (y :: ys)

/-- datastore.py:100-114: what `_get_data` computes from the selected row. -/
def processData (info : VarInfo) (outputYears : List ℚ) (s : Selected) : Except Err (List (ℚ × ℚ)) :=
  match convertUnit W info s with
  | .error e => .error e
  | .ok values => match extrapolate values s.years extraYears with
    | .error e => .error e
    | .ok ext => match evalAll (W.cubic ((s.years ++ extraYears).zip ext)) outputYears with
      | .error e => .error e
      | .ok ys => .ok (outputYears.zip ys)

/-- datastore.py:93-114 `_get_data`. -/
def getData (info : VarInfo) (outputYears : List ℚ) (region : String) (c : DataCache) :
    DataCache × Except Err (List (ℚ × ℚ)) :=
  match getCached info region c with
  | (c', .error e) => (c', .error e)
  | (c', .ok s) => (c', processData W info outputYears s)

/-- The values of one variable: region ↦ points. [datastore.py:57-91] -/
abbrev RegionSeries := List (String × List (ℚ × ℚ))

/-- datastore.py:57-62 `_create_data_values`: a dictionary comprehension over the regions. -/
def createDataValues (info : VarInfo) (outputYears : List ℚ) :
    List String → DataCache → DataCache × Except Err RegionSeries
  | [], c => (c, .ok [])
  | region :: rest, c => match getData W info outputYears region c with
    | (c', .error e) => (c', .error e)
    | (c', .ok pts) => match createDataValues info outputYears rest c' with
      | (c'', .error e) => (c'', .error e)
      | (c'', .ok m) => (c'', .ok ((region, pts) :: m))

/-- datastore.py:34-36: the loop of `__init__`. -/
def createAll (outputYears : List ℚ) (regions : List String) :
    List (String × VarInfo) → DataCache → DataCache × Except Err (List (String × RegionSeries))
  | [], c => (c, .ok [])
  | (name, info) :: rest, c => match selectDatabase W info.file c with
    | (c', .error e) => (c', .error e)
    | (c', .ok _) => match createDataValues W info outputYears regions c' with
      | (c'', .error e) => (c'', .error e)
      | (c'', .ok m) => match createAll outputYears regions rest c'' with
        | (c''', .error e) => (c''', .error e)
        | (c''', .ok ms) => (c''', .ok ((name, m) :: ms))

/-- A constructed `DataStore`: `self._data_values`. [datastore.py:28-36] -/
structure DataStore where
  values : List (String × RegionSeries)
  deriving DecidableEq

/-- datastore.py:28-36 `DataStore(params)`. -/
def newDataStore (sp : StoreParams) (c : DataCache) : DataCache × Except Err DataStore :=
  match createAll W sp.time.dataYears sp.regions sp.vars c with
  | (c', .error e) => (c', .error e)
  | (c', .ok m) => (c', .ok ⟨m⟩)

/-- `d[key]` on a dictionary with string keys. [datastore.py:38-91] -/
def strLookup {β : Type} (k : String) : List (String × β) → Except Err β
  | [] => .error .keyError
  | (k', v) :: d => if k' = k then .ok v else strLookup k d

/-- datastore.py:116-118 `interp_data(year, region, variable)`. -/
def DataStore.interpData (d : DataStore) (year : ℚ) (region name : String) : Except Err ℚ :=
  match strLookup name d.values with
  | .error e => .error e
  | .ok m => match strLookup region m with
    | .error e => .error e
    | .ok pts => npInterp year pts

end Mimosa
