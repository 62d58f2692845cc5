import Verif.AbstractModel
import Verif.Config.Units
import Mathlib.Data.Int.Log

/-!
# Saving the results, `mimosa/export/save.py` (with `get_all_variables`, `mimosa/common/pyomo_utils.py:225-272`)

Numbers in the CSV file are decimal, hence rational.
-/

namespace Mimosa

/-- Rounding to the nearest integer, ties to even (as C's `printf` does).
[save.py:37 (`"%.6g"`)] -/
noncomputable def roundHalfEven (x : ℝ) : ℤ :=
  if x - ⌊x⌋ < 1 / 2 then ⌊x⌋
  else if 1 / 2 < x - ⌊x⌋ then ⌊x⌋ + 1
  else if Even ⌊x⌋ then ⌊x⌋ else ⌊x⌋ + 1

/-- The exponent of the last of the six significant digits of `x`: `10^e ≤ |x| < 10^(e+1)` gives `e - 5`.
[save.py:37 (`"%.6g"`)] -/
noncomputable def lastDigit (x : ℝ) : ℤ := Int.log 10 |x| - 5

/-- The number that `"%.6g" % x` (save.py:37) and `"{:g}".format(x)` (save.py:62) print: six significant digits. -/
noncomputable def print6g (x : ℝ) : ℚ :=
  if x = 0 then 0 else roundHalfEven (x / (10 : ℝ) ^ lastDigit x) * (10 : ℚ) ^ lastDigit x

/-- A row of the CSV file: variable, region (or `"Global"`), unit, one number for each year column.
[save.py:45-58] -/
structure SavedRow where
  variableName : String
  region : String
  unit : List Char
  cells : List ℚ

/-- The CSV file: the year columns and the rows. [save.py:61-64] -/
structure SavedFile where
  years : List ℚ
  rows : List SavedRow

/-- The time steps `m.t`. [save.py:56-58] -/
def Params.steps (p : Params) : List ℕ := List.range (p.tf + 1)

/-- `m.x[t, r]` for the `Param`s over time and regions (values as initialised by the components; the `Param`s of
notrade.py:28-33 and notransfer.py:22-23 are `0`). -/
noncomputable def trParam (p : Params) (name : String) (t : ℕ) (r : String) : ℝ :=
  if name = "population" then p.population t r
  else if name = "baseline_GDP" then p.baseline_GDP t r
  else if name = "baseline_emissions" then p.baseline_emissions t r
  else if name = "cumulative_baseline_emissions" then p.cumulative_baseline_emissions t r
  else if name = "baseline_carbon_intensity" then p.baseline_carbon_intensity t r
  else if name = "percapconv_share_pop" then p.percapconv_share_pop t r
  else if name = "percapconv_share" then p.percapconv_share t r
  else if name = "TFP" then get_TFP_value p t r
  else 0

/-- save.py:54-58 for a variable of the model, `u` being its Pyomo unit: one row per region, or a row "Global". -/
noncomputable def varToRows (p : Params) (σ : Env) (u : Option (List Char)) : VarDecl → List SavedRow
  | .regional v _ _ => p.regions.map fun r =>
      ⟨v.name, r, getUnit u, p.steps.map fun t : ℕ => print6g (σ.r v t r)⟩
  | .global v _ _ => [⟨v.name, "Global", getUnit u, p.steps.map fun t : ℕ => print6g (σ.g v t)⟩]

/-- save.py:54-56 for a `Param` over time and regions. -/
noncomputable def paramToRows (p : Params) (u : Option (List Char)) (d : ParamDecl) : List SavedRow :=
  p.regions.map fun r => ⟨d.name, r, getUnit u, p.steps.map fun t : ℕ => print6g (trParam p d.name t r)⟩

/-- pyomo_utils.py:255-259 `has_time_and_region_dim` for a `Param`. -/
def Dims.isTR : Dims → Bool
  | .overTR => true
  | _ => false

/-- save.py:22-28, 61-64 (with pyomo_utils.py:238-252; no variable or parameter of MIMOSA has a name starting with an
underscore): the content of the CSV file after a run with variable values `σ`.  `units` gives the Pyomo unit of each
variable and parameter. -/
noncomputable def saveOutput (m : AbstractModel) (p : Params) (units : String → Option (List Char)) (σ : Env) :
    SavedFile where
  years := p.steps.map fun t : ℕ => print6g (p.year t)
  rows := (m.vars.flatMap fun d => varToRows p σ (units d.name) d) ++
    (m.params.filter fun d => d.dims.isTR).flatMap fun d => paramToRows p (units d.name) d

end Mimosa
