import Verif.Lib.SoftFacts
import Mathlib.Analysis.Real.Pi.Bounds

/-! # C22: soft switch, soft minimum, soft maximum

These are the functions `soft_switch`, `soft_min`, `soft_max` of `pyomo_utils.py`, here on real numbers
(the same polymorphic definitions build the Pyomo expressions; `eval_soft_min` etc. link the two).
Note on the names: the code's `soft_min(x)` approximates `max(x, 0)` and `soft_max(x, M)` approximates
`min(x, M)`. -/

namespace Mimosa
open Real

/-- The switch is a number strictly between 0 and 1. -/
theorem C22_switch_range (x s : ℝ) : 0 < soft_switch x s ∧ soft_switch x s < 1 := by
  have h1 := neg_pi_div_two_lt_arctan (25 / s * x)
  have h2 := arctan_lt_pi_div_two (25 / s * x)
  have hpi := pi_pos
  rw [soft_switch_real]
  have e : arctan (25 / s * x) / π + 1 / 2 = (arctan (25 / s * x) + π / 2) / π := by field_simp
  rw [e]
  exact ⟨div_pos (by linarith) hpi, (div_lt_one hpi).2 (by linarith)⟩

/-- The switch is strictly increasing. -/
theorem C22_switch_strictMono {s : ℝ} (hs : 0 < s) : StrictMono fun x : ℝ => soft_switch x s := by
  intro x y hxy
  simp only [soft_switch_real]
  have h : arctan (25 / s * x) < arctan (25 / s * y) :=
    arctan_strictMono (mul_lt_mul_of_pos_left hxy (by positivity))
  have := div_lt_div_of_pos_right h pi_pos
  linarith

/-- The switch and its mirror image add up to 1; it is one half at 0. -/
theorem C22_switch_mirror (x s : ℝ) : soft_switch x s + soft_switch (-x) s = 1 := by
  have e : 25 / s * -x = -(25 / s * x) := by ring
  rw [soft_switch_real, soft_switch_real, e, arctan_neg]; ring

/-- The switch tends to 0 and 1: it is a switch. -/
theorem C22_switch_limits {s : ℝ} (hs : 0 < s) :
    Filter.Tendsto (fun x : ℝ => soft_switch x s) Filter.atTop (nhds 1) ∧
    Filter.Tendsto (fun x : ℝ => soft_switch x s) Filter.atBot (nhds 0) := by
  have hpi := pi_pos.ne'
  have ha : 0 < 25 / s := by positivity
  constructor
  · have h1 : Filter.Tendsto (fun x : ℝ => 25 / s * x) Filter.atTop Filter.atTop :=
      Filter.Tendsto.const_mul_atTop ha Filter.tendsto_id
    have h2 := (tendsto_arctan_atTop.mono_right nhdsWithin_le_nhds).comp h1
    have h3 := (h2.div_const π).add_const (1 / 2)
    have e : π / 2 / π + 1 / 2 = (1 : ℝ) := by field_simp; norm_num
    rw [e] at h3; exact h3
  · have h1 : Filter.Tendsto (fun x : ℝ => 25 / s * x) Filter.atBot Filter.atBot :=
      Filter.Tendsto.const_mul_atBot ha Filter.tendsto_id
    have h2 := (tendsto_arctan_atBot.mono_right nhdsWithin_le_nhds).comp h1
    have h3 := (h2.div_const π).add_const (1 / 2)
    have e : -(π / 2) / π + 1 / 2 = (0 : ℝ) := by field_simp; norm_num
    rw [e] at h3; exact h3

/-- `soft_min x` lies strictly above `max(x, 0)`, by at most `scale / (25 π)`. -/
theorem C22_soft_min_tight (x : ℝ) {s : ℝ} (hs : 0 < s) :
    max x 0 < soft_min x s ∧ soft_min x s ≤ max x 0 + s / (25 * π) :=
  ⟨soft_min_gt_max x hs, soft_min_le x hs⟩

/-- The largest error occurs at 0 and is exactly `scale / (25 π)`, so the bound cannot be improved. -/
theorem C22_soft_min_sharp {s : ℝ} : soft_min (0 : ℝ) s = s / (25 * π) := by
  rw [soft_min_real]; simp only [mul_zero, arctan_zero, zero_div, zero_add]
  field_simp

/-- `soft_min` is strictly increasing and positive (so powers and quotients of it are defined). -/
theorem C22_soft_min_strictMono {s : ℝ} (hs : 0 < s) :
    StrictMono (fun x : ℝ => soft_min x s) ∧ ∀ x : ℝ, 0 < soft_min x s :=
  ⟨soft_min_strictMono hs, fun x => soft_min_pos x hs⟩

/-- `soft_max x M` lies strictly below `min(x, M)`, by at most `scale / (25 π)`. -/
theorem C22_soft_max_tight (x M : ℝ) {s : ℝ} (hs : 0 < s) :
    soft_max x M s < min x M ∧ min x M - s / (25 * π) ≤ soft_max x M s := by
  have h := C22_soft_min_tight (M - x) hs
  rw [soft_max_real]
  have e : max (M - x) 0 = M - min x M := by
    rcases le_total x M with h | h
    · rw [min_eq_left h, max_eq_left (by linarith)]
    · rw [min_eq_right h, max_eq_right (by linarith)]; ring
  rw [e] at h
  constructor <;> linarith [h.1, h.2]

/-- `soft_max` is strictly increasing too. -/
theorem C22_soft_max_strictMono (M : ℝ) {s : ℝ} (hs : 0 < s) :
    StrictMono fun x : ℝ => soft_max x M s := by
  intro x y hxy
  have h := soft_min_strictMono hs (show M - y < M - x by linarith)
  simp only at h
  simp only [soft_max_real]
  linarith

/-- With the scales used in the model (1 for welfare and costs, 10 for capital) the error is below
0.013 and 0.13. -/
theorem C22_default_scales (x : ℝ) :
    soft_min x 1 ≤ max x 0 + 0.013 ∧ soft_min x 10 ≤ max x 0 + 0.13 := by
  have h1 := soft_min_le x (s := 1) one_pos
  have h2 := soft_min_le x (s := 10) (by norm_num)
  have hpi := pi_gt_d2
  have e1 : (1 : ℝ) / (25 * π) ≤ 0.013 := by
    rw [div_le_iff₀ (by positivity)]; linarith
  have e2 : (10 : ℝ) / (25 * π) ≤ 0.13 := by
    rw [div_le_iff₀ (by positivity)]; linarith
  exact ⟨by linarith, by linarith⟩

end Mimosa
