import Verif.Config.Py
import Mathlib.Algebra.Order.Ring.Rat

/-!
# `extrapolate`, `mimosa/common/data/utils.py:14-54`, and `np.interp`
-/

namespace Mimosa

/-- The last two elements of a list, `x[-2]` and `x[-1]`. [common/data/utils.py:14-54] -/
def lastTwo {α : Type} : List α → Option (α × α)
  | [a, b] => some (a, b)
  | _ :: b :: c :: l => lastTwo (b :: c :: l)
  | _ => none

/-- data/utils.py:23, 31-33: `minmax(0.0, change_rate - change_rate * (t_prev - 2100.0) / stabilising_years)` with
`minmax = np.maximum if change_rate > 0 else np.minimum`. -/
def extrapChange (rate stab tPrev : ℚ) : ℚ :=
  if rate > 0 then max 0 (rate - rate * (tPrev - 2100) / stab)
  else min 0 (rate - rate * (tPrev - 2100) / stab)

/-- data/utils.py:30-49: the loop over the extra years. -/
def extrapLoop (rate stab : ℚ) : ℚ → ℚ → List ℚ → List ℚ
  | _, _, [] => []
  | tPrev, vPrev, t :: ts =>
    let val := vPrev + extrapChange rate stab tPrev * (t - tPrev)
    val :: extrapLoop rate stab t val ts

/-- data/utils.py:14-54 `extrapolate`.  Series with fewer than two points are an `IndexError`.  (Two equal last
years give a division by zero: `inf`/`nan` with a NumPy warning; here the rate is then `0`.) -/
def extrapolate (values years extra : List ℚ) (stab : ℚ := 50) : Except Err (List ℚ) :=
  match lastTwo values, lastTwo years with
  | some (v1, v2), some (t1, t2) =>
    .ok (values ++ extrapLoop ((v2 - v1) / (t2 - t1)) stab t2 v2 extra)
  | _, _ => .error .indexError

/-- `np.interp` for `x` not before the first point. [datastore.py:118] -/
def interpFrom (x : ℚ) : List (ℚ × ℚ) → ℚ
  | [] => 0
  | [a] => a.2
  | a :: b :: l => if x < b.1 then a.2 + (b.2 - a.2) / (b.1 - a.1) * (x - a.1) else interpFrom x (b :: l)

/-- `np.interp(x, xp, fp)`: piecewise linear, constant outside the range of `xp`; `ValueError` without points.
[datastore.py:118] -/
def npInterp (x : ℚ) (pts : List (ℚ × ℚ)) : Except Err ℚ :=
  match pts with
  | [] => .error .valueError
  | a :: l => .ok (if x ≤ a.1 then a.2 else interpFrom x (a :: l))

end Mimosa
