import Verif.Export.Save
import Mathlib.Analysis.SpecialFunctions.Exp

/-!
# The calibration script `run_calibration.py`: mitigation costs as a share of GDP, from a saved file

Python's `nan` (from a division of zero by zero) is not modelled: the theorems only use files with a positive GDP.
-/

namespace Mimosa

/-- `np.trapz(y, x)`. [run_calibration.py:32] -/
noncomputable def trapz : List ℝ → List ℝ → ℝ
  | y₀ :: y₁ :: ys, x₀ :: x₁ :: xs => (x₁ - x₀) * (y₁ + y₀) / 2 + trapz (y₁ :: ys) (x₁ :: xs)
  | _, _ => 0

/-- run_calibration.py:28-32 `npv(values, discount_rate)`; the index of `values` are the years. -/
noncomputable def npv (years values : List ℚ) (rate : ℝ) : ℝ :=
  let t := years.map fun y => ((y - years.headD 0 : ℚ) : ℝ)
  trapz (List.zipWith (fun (v : ℚ) (t : ℝ) => (v : ℝ) * Real.exp (-rate * t)) values t) t

/-- run_calibration.py:37-40: `outp.loc[outp["Variable"] == name, "2020":].sum(axis=0)`, the columns from the `i`-th on
(`n` of them). -/
def columnSums (f : SavedFile) (name : String) (i n : ℕ) : List ℚ :=
  (List.range n).map fun j =>
    ((f.rows.filter fun row => decide (row.variableName = name)).map fun row => row.cells.getD (i + j) 0).sum

/-- run_calibration.py:35-42: the share of the mitigation costs in GDP, for a saved file; `"2020":` (lines 37, 40) needs a
column for 2020. -/
noncomputable def calibrationShare (f : SavedFile) (rate : ℝ) : Except Err ℝ :=
  match f.years.findIdx? fun y => decide (y = 2020) with
  | none => .error .keyError
  | some i =>
    let years := f.years.drop i
    .ok (npv years (columnSums f "mitigation_costs" i years.length) rate /
      npv years (columnSums f "GDP_gross" i years.length) rate)

end Mimosa
