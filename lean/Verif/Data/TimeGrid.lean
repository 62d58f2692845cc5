import Mathlib.Data.Rat.Floor
import Mathlib.Tactic.Common

/-!
# The time grid, `mimosa/concrete_model/instantiate_params.py:60-67`

`time.start` and `time.end` are integers, `time.dt` is a float (config_default.yaml:1-21), here a rational.
-/

namespace Mimosa

/-- `params["time"]` [datastore.py:51-55] -/
structure TimeParams where
  start : ℤ
  stop : ℤ
  dt : ℚ
  deriving Repr

namespace TimeParams
variable (τ : TimeParams)

/-- instantiate_params.py:65 `num_years = int(np.ceil((t_end - t_start) / dt)) + 1`. -/
def numYears : ℤ := ⌈((τ.stop : ℚ) - τ.start) / τ.dt⌉ + 1

/-- instantiate_params.py:116 `"tf": V(num_years - 1)`. -/
def tf : ℤ := τ.numYears - 1

/-- instantiate_params.py:117 `"t": V(range(num_years))` (empty when `num_years ≤ 0`). -/
def steps : List ℕ := List.range τ.numYears.toNat

/-- instantiate_params.py:66 `year = lambda t: t_start + t * dt`. -/
def year (t : ℤ) : ℚ := τ.start + t * τ.dt

/-- instantiate_params.py:67 `int((2100 - t_start) / dt)`: truncation towards zero. -/
def year2100 : ℤ :=
  if 0 ≤ ((2100 : ℚ) - τ.start) / τ.dt then ⌊((2100 : ℚ) - τ.start) / τ.dt⌋
  else ⌈((2100 : ℚ) - τ.start) / τ.dt⌉

/-- `np.arange(start, stop, step)` for `step > 0`: `ceil((stop - start) / step)` values `start + i * step`.
[datastore.py:55] -/
def arange (start stop step : ℚ) : List ℚ :=
  (List.range ⌈(stop - start) / step⌉.toNat).map fun i : ℕ => start + i * step

/-- datastore.py:51-55 `_create_data_years`. -/
def dataYears : List ℚ := arange τ.start (τ.stop + 50) τ.dt

end TimeParams
end Mimosa
