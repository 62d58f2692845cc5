import Verif.Export.Save
import Verif.Data.TimeGrid
import Verif.Data.Extrapolate

/-!
# Simulation mode, `mimosa/concrete_model/simulation_mode/*.py`
-/

namespace Mimosa

/-- A data frame with years as columns and regions (or "Global") as rows.
[simulation_mode/utils.py:28-39] -/
structure SimTable where
  years : List ℚ
  rows : List (String × List ℚ)

/-- A value of `constraint_variables`: a path, or a dictionary (`str_or_plain_dict`).
[set_constraints.py:30-49] -/
inductive SimSource
  | path (s : String)
  | data (d : Val)

/-- The outside world: files (utils.py:15-25), Pandas' `DataFrame(dict)` and scipy's
`InterpolatedUnivariateSpline` (utils.py:49; a function of the year, or an exception if the points are not
acceptable). -/
structure SimWorld where
  csv : String → Option SavedFile
  frame : Val → Except Err SimTable
  spline : List (ℚ × ℚ) → Except Err (ℝ → ℝ)

/-- set_constraints.py:43-47: the rows of one variable. -/
def selectVariable (name : String) (f : SavedFile) : SimTable :=
  ⟨f.years, (f.rows.filter fun r => decide (r.variableName = name)).map fun r => (r.region, r.cells)⟩

/-- utils.py:45 `np.arange(years[-1] + 5, 2151, 5)` -/
def simExtraYears (last : ℚ) : List ℚ := TimeParams.arange (last + 5) 2151 5

/-- utils.py:41-49 `InterpolatingData.interp(row)`. -/
def interpRow (spline : List (ℚ × ℚ) → Except Err (ℝ → ℝ)) (years values : List ℚ) : Except Err (ℝ → ℝ) :=
  match years.getLast? with
  | none => .error .indexError
  | some last => match extrapolate values years (simExtraYears last) with
    | .error e => .error e
    | .ok new => spline ((years ++ simExtraYears last).zip new)

/-- utils.py:37-39: a function for each row. -/
def interpRows (spline : List (ℚ × ℚ) → Except Err (ℝ → ℝ)) (years : List ℚ) :
    List (String × List ℚ) → Except Err (List (String × (ℝ → ℝ)))
  | [] => .ok []
  | (r, values) :: rest => match interpRow spline years values with
    | .error e => .error e
    | .ok f => match interpRows spline years rest with
      | .error e => .error e
      | .ok l => .ok ((r, f) :: l)

/-- utils.py:34-39 `InterpolatingData(data)`; a frame without columns is an `IndexError` (line 36). -/
def interpolatingData (spline : List (ℚ × ℚ) → Except Err (ℝ → ℝ)) (T : SimTable) :
    Except Err (List (String × (ℝ → ℝ))) :=
  if T.years = [] then .error .indexError else interpRows spline T.years T.rows

/-- utils.py:51-55 `get(region, year)`: the last row of that name (a dictionary comprehension), else `KeyError`. -/
def simGet (I : List (String × (ℝ → ℝ))) (region : String) : Except Err (ℝ → ℝ) :=
  match I.reverse.find? fun e => decide (e.1 = region) with
  | some e => .ok e.2
  | none => .error .keyError

/-- set_constraints.py:30-49 `_get_interp_data` (the cache only avoids reading a file twice). -/
def getInterpData (X : SimWorld) (name : String) : SimSource → Except Err (List (String × (ℝ → ℝ)))
  | .data d => match X.frame d with
    | .error e => .error e
    | .ok T => interpolatingData X.spline T
  | .path s => match X.csv s with
    | none => .error .exception
    | some f => interpolatingData X.spline (selectVariable name f)

/-- set_constraints.py:54 -/
noncomputable def simEps : ℝ := 1 / 1000

/-- The rule of one of the four constraints: the variable minus the imposed value, compared with `± eps`.
[set_constraints.py:71-106] -/
noncomputable def simRule (I : List (String × (ℝ → ℝ))) (region : String) (year : ℝ) (x : Expr) (upper : Bool) : RuleOut :=
  match simGet I region with
  | .error e => .raise e
  | .ok f => .rel (if upper then (x - num (f year)) ≤ₚ num simEps else (x - num (f year)) ≥ₚ num (-simEps))

/-- set_constraints.py:71-87 `_extra_regional_constraint`. -/
noncomputable def extraRegional (v : RVar) (I : List (String × (ℝ → ℝ))) : List GeneralConstraint :=
  [.regional (fun p t r => simRule I r (p.year t) (rv v t r) true) none,
   .regional (fun p t r => simRule I r (p.year t) (rv v t r) false) none]

/-- set_constraints.py:90-106 `_extra_global_constraint`. -/
noncomputable def extraGlobal (v : GVar) (I : List (String × (ℝ → ℝ))) : List GeneralConstraint :=
  [.global (fun p t => simRule I "Global" (p.year t) (gv v t) true) none,
   .global (fun p t => simRule I "Global" (p.year t) (gv v t) false) none]

/-- set_constraints.py:52-61 `_fixed_data_constraint`.  A name that is not an attribute of the model is an
`AttributeError`; names of other attributes (parameters, sets) fail with other exceptions, which are not
distinguished here. -/
noncomputable def fixedDataConstraint (m : AbstractModel) (name : String) (I : List (String × (ℝ → ℝ))) :
    Except Err (List GeneralConstraint) :=
  match m.vars.find? fun d => decide (d.name = name) with
  | none => .error .attributeError
  | some (.regional v _ _) => .ok (extraRegional v I)
  | some (.global v _ _) => .ok (extraGlobal v I)

/-- set_constraints.py:15-23: all extra constraints. -/
noncomputable def extraConstraints (X : SimWorld) (m : AbstractModel) :
    List (String × SimSource) → Except Err (List GeneralConstraint)
  | [] => .ok []
  | (name, s) :: rest => match getInterpData X name s with
    | .error e => .error e
    | .ok I => match fixedDataConstraint m name I with
      | .error e => .error e
      | .ok cs => match extraConstraints X m rest with
        | .error e => .error e
        | .ok cs' => .ok (cs ++ cs')

/-- set_constraints.py:25-27: adding them to the concrete model; the rules are evaluated at once.  `count` is as in
`constraintNames`. -/
noncomputable def addExtra (count : ℕ → ℕ) (m : AbstractModel) (inst : AbstractModel.Instance)
    (cs : List GeneralConstraint) : Except Err AbstractModel.Instance :=
  let pcs := cs.flatMap GeneralConstraint.toPyomo
  let names := constraintNames count pcs
  if (inst.active.map (·.1) ++ names).Nodup then
    match m.collectAll inst.params (names.zip (pcs.map (·.2))) with
    | .error e => .error e
    | .ok new => .ok { inst with active := inst.active ++ new }
  else .error .runtimeError

/-- deactivate_constraints.py:7-12: `getattr` fails for a name that no constraint has; the named constraints no longer
count. -/
def deactivate (disabled : List String) (inst : AbstractModel.Instance) : Except Err AbstractModel.Instance :=
  if disabled.all fun n => decide ("constraint_" ++ n ∈ inst.active.map (·.1)) then
    .ok { inst with active := inst.active.filter fun nr => decide (∀ n ∈ disabled, nr.1 ≠ "constraint_" ++ n) }
  else .error .attributeError

/-- What `params["simulation"]` says. [set_constraints.py:19-21, mimosa.py:110-115] -/
structure SimSettings where
  on : Bool
  fixed : List (String × SimSource)
  disabled : List String

/-- main.py:21-26 `set_simulation_mode`, called in mimosa.py:110-115 if `simulationmode` is on. -/
noncomputable def simulationMode (X : SimWorld) (count : ℕ → ℕ) (m : AbstractModel) (s : SimSettings)
    (inst : AbstractModel.Instance) : Except Err AbstractModel.Instance :=
  if s.on then
    match extraConstraints X m s.fixed with
    | .error e => .error e
    | .ok cs => match addExtra count m inst cs with
      | .error e => .error e
      | .ok inst' => deactivate s.disabled inst'
  else .ok inst

/-! ## Reading the settings (parsed by parsers.py: a dictionary of strings or dictionaries, a list of strings) -/

/-- The items of `constraint_variables`. [set_constraints.py:19-21] -/
def readSources : List (Key × Val) → Except Err (List (String × SimSource))
  | [] => .ok []
  | (k, v) :: rest => match readSources rest with
    | .error e => .error e
    | .ok l => match k, v with
      | .str n, .atom (.str s) => .ok ((n, .path s) :: l)
      | .str n, .dict d => .ok ((n, .data (.dict d)) :: l)
      | _, _ => .error .typeError

/-- deactivate_constraints.py:8-9: the list `simulation - deactivated_constraints`. -/
def readNames : List Val → Except Err (List String)
  | [] => .ok []
  | .atom (.str s) :: rest => match readNames rest with
    | .error e => .error e
    | .ok l => .ok (s :: l)
  | _ :: _ => .error .typeError

/-- mimosa.py:111-114, set_constraints.py:19-21, deactivate_constraints.py:8-9. -/
def readSimulation (params : Val) : Except Err SimSettings :=
  match getNested [.str "simulation", .str "simulationmode"] params with
  | .ok (.atom (.bool true)) =>
    match getNested [.str "simulation", .str "constraint_variables"] params,
        getNested [.str "simulation", .str "deactivated_constraints"] params with
    | .ok (.dict d), .ok (.list l) => match readSources d, readNames l with
      | .ok fixed, .ok disabled => .ok ⟨true, fixed, disabled⟩
      | .error e, _ => .error e
      | _, .error e => .error e
    | .error e, _ => .error e
    | _, .error e => .error e
    | _, _ => .error .attributeError
  | .ok (.atom (.bool false)) => .ok ⟨false, [], []⟩
  | .ok _ => .error .typeError
  | .error e => .error e

end Mimosa
