import Verif.Config.ParseConfig
import Mathlib.Data.List.Dedup

/-!
# `mimosa/common/regional_params/`: regional parameter files

Simplifications: numbers are rationals; a column of a file is numeric exactly if none of its cells is a text
(`pd.read_csv` and `is_numeric_dtype`); empty cells are NaN.
-/

namespace Mimosa

/-- A cell of a CSV file. [regional_param_container.py:8-37 (`pd.read_csv`)] -/
inductive Cell
  | num (q : ℚ)
  | text (s : String)
  /-- NaN -/
  | empty
  deriving DecidableEq

/-- A regional parameter file: the columns other than `region`, and one entry per row: region and cells.
[regional_param_container.py:8-37] -/
structure ParamTable where
  columns : List String
  rows : List (String × (String → Cell))

/-- A conversion table (`pd.read_csv`): column names and rows. [region_mappers.py:16-34] -/
structure ConvTable where
  columns : List String
  rows : List (String → Option String)

/-! ## region_mappers.py -/

/-- `pd.api.types.is_numeric_dtype(column)` [region_mappers.py:49-59] -/
def ParamTable.numeric (T : ParamTable) (col : String) : Bool :=
  T.rows.all fun row => match row.2 col with
    | .text _ => false
    | _ => true

/-- A row of the merged table: the join key, the output region and the cells (all NaN when there is no data row).
[region_mappers.py:40-45] -/
structure MergedRow where
  key : Option String
  target : Option String
  cells : String → Cell

/-- region_mappers.py:42-47: the outer join of the data with the conversion table on the input region.  A data row
without match keeps an empty output region, a conversion row without match gets empty cells.  pandas sorts the
rows of an outer join by the join key (NaN last), keeping the order of rows with equal keys. -/
def mergeRegions (T : ParamTable) (M : List (Option String × Option String)) : List MergedRow :=
  let left := T.rows.flatMap fun row =>
    match M.filter fun m => decide (m.1 = some row.1) with
    | [] => [⟨some row.1, none, row.2⟩]
    | ms => ms.map fun m => (⟨some row.1, m.2, row.2⟩ : MergedRow)
  let right := (M.filter fun m => T.rows.all fun row => decide (m.1 ≠ some row.1)).map
    fun m => (⟨m.1, m.2, fun _ => .empty⟩ : MergedRow)
  (left ++ right).mergeSort fun a b => match a.key, b.key with
    | some x, some y => decide (x ≤ y)
    | none, some _ => false
    | _, none => true

/-- The numbers among the cells. [region_mappers.py:49-59] -/
def cellNums (cells : List Cell) : List ℚ :=
  cells.filterMap fun c => match c with
    | .num q => some q
    | _ => none

/-- `groupby(…).agg("mean")`: NaN cells are ignored; NaN if there is no number.
[region_mappers.py:49-59] -/
def cellMean (cells : List Cell) : Cell :=
  if cellNums cells = [] then .empty else .num ((cellNums cells).sum / (cellNums cells).length)

/-- `groupby(…).agg("first")`: the first cell that is not NaN. [region_mappers.py:49-59] -/
def cellFirst (cells : List Cell) : Cell := (cells.find? fun c => decide (c ≠ .empty)).getD .empty

/-- The different output regions (rows without one are dropped by `groupby`).  pandas sorts them; the order does
not matter since the result is only read by label. [region_mappers.py:49-59] -/
def targets (rows : List MergedRow) : List String := (rows.filterMap (·.target)).dedup

/-- region_mappers.py:36-61 `map_regions`, on the two relevant columns of the conversion table. -/
def mapRegions (T : ParamTable) (M : List (Option String × Option String)) : ParamTable :=
  let merged := mergeRegions T M
  { columns := T.columns
    rows := (targets merged).map fun region => (region, fun col =>
      let cells := (merged.filter fun row => decide (row.target = some region)).map fun row => row.cells col
      if T.numeric col then cellMean cells else cellFirst cells) }

/-- region_mappers.py:16-34 `RegionMapper(regiontype1, regiontype2, mapping_file)`. -/
def newMapper (type1 type2 : String) (C : ConvTable) : Except Err ConvTable :=
  if type1 ∈ C.columns ∧ type2 ∈ C.columns then .ok C else .error .keyError

/-- The two columns of a conversion table, region_mappers.py:43 `self.mapping[[regiontype_from, regiontype_to]]`. -/
def ConvTable.pairs (C : ConvTable) (typeFrom typeTo : String) : List (Option String × Option String) :=
  C.rows.map fun row => (row typeFrom, row typeTo)

/-! ## regional_param_container.py -/

/-- main.py:86-94: `region_mappers`, a dictionary on pairs of region types (later entries overwrite). -/
abbrev Mappers := List ((String × String) × ConvTable)

/-- regional_param_container.py:21: looking up `region_mappers[(a, b)]`; the last entry written counts. -/
def Mappers.find (ms : Mappers) (a b : String) : Option ConvTable :=
  match ms.reverse.find? fun m => decide (m.1 = (a, b)) with
  | some m => some m.2
  | none => none

/-- regional_param_container.py:8-29 `RegionalParamContainer(filename, regiontype_input, regiontype_output,
region_mappers)`; the argument `T` is the file. -/
def newContainer (T : ParamTable) (typeIn typeOut : String) (ms : Mappers) : Except Err ParamTable :=
  if typeIn = typeOut then .ok T
  else match ms.find typeIn typeOut with
    | none => .error .keyError
    | some C => .ok (mapRegions T (C.pairs typeIn typeOut))

/-- `float(value)`, or the value itself if that is a `ValueError` (regional_param_container.py:33-37). -/
def cellVal (B : Builtins) : Cell → Val
  | .num q => .atom (.float (.fin q))
  | .empty => .atom (.float .nan)
  | .text s => match B.floatOfStr s with
    | some f => .atom (.float f)
    | none => .atom (.str s)

/-- regional_param_container.py:31-37 `get(paramname, region)`.  Several rows with the same label make
`float(value)` a `TypeError`. -/
def containerGet (B : Builtins) (T : ParamTable) (param region : String) : Except Err Val :=
  if param ∈ T.columns then
    match T.rows.filter fun row => decide (row.1 = region) with
    | [] => .error .keyError
    | [row] => .ok (cellVal B (row.2 param))
    | _ => .error .typeError
  else .error .keyError

/-! ## main.py -/

/-- The files of the regional parameters. [regional_params/main.py:52-68] -/
structure RegionalFiles where
  params : String → Option ParamTable
  conversions : String → Option ConvTable

/-- `RegionalParamStore` [regional_params/main.py:52-96] -/
structure RegionalStore where
  params : Val
  categories : List (Key × ParamTable)

/-- `params[key]` as a string (the region types and file names are strings).
[regional_params/main.py:52-96] -/
def strItem (key : String) (v : Val) : Except Err String :=
  match getNested [.str key] v with
  | .error e => .error e
  | .ok (.atom (.str s)) => .ok s
  | .ok _ => .error .typeError

/-- main.py:85-96 `_create_region_mappers`. -/
def createMappers (F : RegionalFiles) : List Val → Except Err Mappers
  | [] => .ok []
  | conf :: rest => match strItem "regionstype1" conf, strItem "regionstype2" conf, strItem "conversiontable" conf with
    | .error e, _, _ => .error e
    | .ok _, .error e, _ => .error e
    | .ok _, .ok _, .error e => .error e
    | .ok t1, .ok t2, .ok file => match F.conversions file with
      | none => .error .exception
      | some C => match newMapper t1 t2 C with
        | .error e => .error e
        | .ok C => match createMappers F rest with
          | .error e => .error e
          | .ok ms => .ok (((t1, t2), C) :: ((t2, t1), C) :: ms)

/-- main.py:61-68: the loop over `params["regional_parameter_files"].items()`. -/
def createCategories (F : RegionalFiles) (typeOut : String) (ms : Mappers) :
    List (Key × Val) → Except Err (List (Key × ParamTable))
  | [] => .ok []
  | (category, info) :: rest => match strItem "filename" info, strItem "regionstype" info with
    | .error e, _ => .error e
    | .ok _, .error e => .error e
    | .ok file, .ok typeIn => match F.params file with
      | none => .error .exception
      | some T => match newContainer T typeIn typeOut ms with
        | .error e => .error e
        | .ok T' => match createCategories F typeOut ms rest with
          | .error e => .error e
          | .ok cs => .ok ((category, T') :: cs)

/-- main.py:52-68 `RegionalParamStore(params, param_parser_tree)`. -/
def newRegionalStore (F : RegionalFiles) (params : Val) : Except Err RegionalStore :=
  match strItem "regionstype" params, getNested [.str "regionsmappings"] params,
      getNested [.str "regional_parameter_files"] params with
  | .ok typeOut, .ok (.list confs), .ok (.dict files) => match createMappers F confs with
    | .error e => .error e
    | .ok ms => match createCategories F typeOut ms files with
      | .error e => .error e
      | .ok cs => .ok ⟨params, cs⟩
  | .error e, _, _ => .error e
  | _, .error e, _ => .error e
  | _, _, .error e => .error e
  | _, _, _ => .error .typeError

/-- main.py:76-83 `getregional(category, paramname, region)`. -/
def RegionalStore.getRegional (B : Builtins) (s : RegionalStore) (category param region : String) : Except Err Val :=
  match getNested [.str "regions", .str region, .str category, .str param] s.params with
  | .ok v => .ok v
  | .error .keyError | .error .typeError => match Dict.lookup (.str category) s.categories with
    | none => .error .keyError
    | some T => containerGet B T param region
  | .error e => .error e

/-- The keys of `params["regions"]` (strings: the configuration parser converts them).
[datastore.py:57-91, instantiate_params.py:60-127] -/
def regionNames (params : Val) : Except Err (List String) :=
  match getNested [.str "regions"] params with
  | .error e => .error e
  | .ok (.dict d) => .ok (d.filterMap fun e => match e.1 with
    | .str s => some s
    | .int _ => none)
  | .ok _ => .error .typeError

/-- A dictionary comprehension `{region: f(region) for region in regions}`.
[instantiate_params.py:94-111] -/
def forRegions {β : Type} (f : String → Except Err β) : List String → Except Err (List (String × β))
  | [] => .ok []
  | r :: rs => match f r with
    | .error e => .error e
    | .ok v => match forRegions f rs with
      | .error e => .error e
      | .ok l => .ok ((r, v) :: l)

/-- main.py:70-74 `get(category, paramname)`. -/
def RegionalStore.get (B : Builtins) (s : RegionalStore) (category param : String) :
    Except Err (List (String × Val)) :=
  match regionNames s.params with
  | .error e => .error e
  | .ok regions => forRegions (s.getRegional B category param) regions

end Mimosa
