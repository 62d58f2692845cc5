import Verif.Core.Expr

/-! # Soft switch, minimum and maximum: `mimosa/common/pyomo_utils.py:41-77` -/

namespace Mimosa
variable {α : Type} [PyNum α]
open PyNum

/-- pyomo_utils.py:41-42 `scale_to_a`: `return 25.0 / scale` -/
noncomputable def scale_to_a (scale : ℝ) : ℝ := 25 / scale

/-- pyomo_utils.py:45-53 `soft_switch`: `atan(a * x) / np.pi + 0.5` -/
noncomputable def soft_switch (x : α) (scale : ℝ := 1) : α :=
  atan (lit (scale_to_a scale) * x) / lit Real.pi + lit (1 / 2)

/-- pyomo_utils.py:56-68 `soft_min`: `soft_switch(x, scale) * x + 1 / (a * np.pi)` -/
noncomputable def soft_min (x : α) (scale : ℝ := 1) : α :=
  soft_switch x scale * x + lit (1 / (scale_to_a scale * Real.pi))

/-- pyomo_utils.py:76-77 `soft_max`: `-soft_min(maxval - x, scale) + maxval` -/
noncomputable def soft_max (x : α) (maxval : ℝ) (scale : ℝ := 1) : α :=
  -(soft_min (lit maxval - x) scale) + lit maxval

section real
theorem soft_switch_real (x s : ℝ) :
    soft_switch x s = Real.arctan (25 / s * x) / Real.pi + 1 / 2 := rfl
theorem soft_min_real (x s : ℝ) :
    soft_min x s = (Real.arctan (25 / s * x) / Real.pi + 1 / 2) * x + 1 / (25 / s * Real.pi) := rfl
theorem soft_max_real (x M s : ℝ) : soft_max x M s = -(soft_min (M - x) s) + M := rfl
end real

section expr
open Expr
variable (σ : Env) (e : Expr) (M s : ℝ)
@[simp] theorem eval_soft_switch : (soft_switch e s).eval σ = soft_switch (e.eval σ) s := rfl
@[simp] theorem eval_soft_min : (soft_min e s).eval σ = soft_min (e.eval σ) s := rfl
@[simp] theorem eval_soft_max : (soft_max e M s).eval σ = soft_max (e.eval σ) M s := rfl
@[simp] theorem defined_soft_min : (soft_min e s).Defined σ ↔ e.Defined σ := by
  simp [soft_min, soft_switch, Real.pi_ne_zero]
@[simp] theorem defined_soft_max : (soft_max e M s).Defined σ ↔ e.Defined σ := by
  simp [soft_max]
@[simp] theorem mem_gvars_soft_min (p : GVar × ℤ) : p ∈ (soft_min e s).gvars ↔ p ∈ e.gvars := by
  simp [soft_min, soft_switch]
@[simp] theorem mem_gvars_soft_max (p : GVar × ℤ) : p ∈ (soft_max e M s).gvars ↔ p ∈ e.gvars := by
  simp [soft_max]
@[simp] theorem mem_rvars_soft_min (p : RVar × ℤ × String) :
    p ∈ (soft_min e s).rvars ↔ p ∈ e.rvars := by
  simp [soft_min, soft_switch]
@[simp] theorem mem_rvars_soft_max (p : RVar × ℤ × String) :
    p ∈ (soft_max e M s).rvars ↔ p ∈ e.rvars := by
  simp [soft_max]
end expr

end Mimosa
