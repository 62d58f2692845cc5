import Verif.Core.Soft
import Mathlib.Analysis.SpecialFunctions.Trigonometric.ArctanDeriv
import Mathlib.Analysis.SpecialFunctions.Trigonometric.Bounds
import Mathlib.Analysis.Calculus.Deriv.MeanValue

/-! # Real-analytic facts about the soft functions -/

namespace Mimosa
open Real

theorem arctan_lt_self {u : ℝ} (hu : 0 < u) : arctan u < u := by
  have h := Real.lt_tan (arctan_pos.2 hu) (arctan_lt_pi_div_two u)
  rwa [tan_arctan] at h

theorem softmin_expr_neg (a x : ℝ) :
    (arctan (a * -x) / π + 1 / 2) * -x = (arctan (a * x) / π + 1 / 2) * x - x := by
  have : a * -x = -(a * x) := by ring
  rw [this, arctan_neg]; ring

/-- `x * switch(x) + 1/(aπ)` exceeds `max x 0` by at most `1/(aπ)`. -/
theorem softmin_gap (a x : ℝ) (ha : 0 < a) :
    0 < (arctan (a * x) / π + 1 / 2) * x + 1 / (a * π) - max x 0 ∧
      (arctan (a * x) / π + 1 / 2) * x + 1 / (a * π) - max x 0 ≤ 1 / (a * π) := by
  have hpi := pi_pos
  -- reduce to x ≥ 0
  have key : ∀ y : ℝ, 0 ≤ y →
      0 < (arctan (a * y) / π + 1 / 2) * y + 1 / (a * π) - y ∧
      (arctan (a * y) / π + 1 / 2) * y + 1 / (a * π) - y ≤ 1 / (a * π) := by
    intro y hy
    rcases hy.eq_or_lt with rfl | hy
    · simp only [mul_zero, zero_add, sub_zero, le_refl, and_true]; positivity
    · have hay : 0 < a * y := mul_pos ha hy
      have h1 : arctan (a * y)⁻¹ = π / 2 - arctan (a * y) := arctan_inv_of_pos hay
      have h2 : arctan (a * y)⁻¹ < (a * y)⁻¹ := arctan_lt_self (inv_pos.2 hay)
      have h3 : 0 < arctan (a * y)⁻¹ := arctan_pos.2 (inv_pos.2 hay)
      have e : (arctan (a * y) / π + 1 / 2) * y + 1 / (a * π) - y
          = 1 / (a * π) - arctan (a * y)⁻¹ * y / π := by
        rw [h1]; field_simp; ring
      rw [e]
      have h4 : arctan (a * y)⁻¹ * y / π < 1 / (a * π) := by
        have : arctan (a * y)⁻¹ * y < 1 / a := by
          calc _ < (a * y)⁻¹ * y := mul_lt_mul_of_pos_right h2 hy
            _ = 1 / a := by field_simp
        calc _ < 1 / a / π := div_lt_div_of_pos_right this hpi
          _ = _ := by field_simp
      have h5 : 0 ≤ arctan (a * y)⁻¹ * y / π := by positivity
      constructor <;> linarith
  rcases le_total 0 x with hx | hx
  · rw [max_eq_left hx]; exact key x hx
  · rw [max_eq_right hx, sub_zero]
    have h := key (-x) (by linarith)
    have e := softmin_expr_neg a (-x)
    rw [neg_neg] at e
    constructor <;> linarith [h.1, h.2]

theorem hasDerivAt_softmin (a x : ℝ) : HasDerivAt
    (fun x => (arctan (a * x) / π + 1 / 2) * x + 1 / (a * π))
    (a / (1 + (a * x) ^ 2) / π * x + (arctan (a * x) / π + 1 / 2)) x := by
  have h1 : HasDerivAt (fun x : ℝ => a * x) a x := by simpa using (hasDerivAt_id x).const_mul a
  have h2 : HasDerivAt (fun x => arctan (a * x)) (1 / (1 + (a * x) ^ 2) * a) x := h1.arctan
  have h3 := ((h2.div_const π).add_const (1 / 2)).mul (hasDerivAt_id x)
  have h4 := h3.add_const (1 / (a * π))
  refine h4.congr_deriv ?_
  simp only [id]; ring

theorem arctan_gt_aux {u : ℝ} (hu : 0 < u) : u / (1 + u ^ 2) < arctan u := by
  -- u/(1+u²) = sin(arctan u) cos(arctan u) < arctan u
  have hs : sin (arctan u) = u / √(1 + u ^ 2) := sin_arctan u
  have hc : cos (arctan u) = 1 / √(1 + u ^ 2) := cos_arctan u
  have hpos : 0 < 1 + u ^ 2 := by positivity
  have e : u / (1 + u ^ 2) = sin (arctan u) * cos (arctan u) := by
    rw [hs, hc, div_mul_div_comm, mul_one, mul_self_sqrt hpos.le]
  have hlt : sin (arctan u) < arctan u := sin_lt (arctan_pos.2 hu)
  have hc1 : cos (arctan u) ≤ 1 := cos_le_one _
  have hs0 : 0 < sin (arctan u) := by rw [hs]; positivity
  rw [e]
  calc sin (arctan u) * cos (arctan u) ≤ sin (arctan u) * 1 :=
        mul_le_mul_of_nonneg_left hc1 hs0.le
    _ < arctan u := by linarith

theorem softmin_deriv_pos (a x : ℝ) (ha : 0 < a) :
    0 < a / (1 + (a * x) ^ 2) / π * x + (arctan (a * x) / π + 1 / 2) := by
  have hpi := pi_pos
  rcases le_or_gt 0 x with hx | hx
  · have h1 : 0 ≤ arctan (a * x) := arctan_nonneg.2 (by positivity)
    have : 0 ≤ a / (1 + (a * x) ^ 2) / π * x := by positivity
    have : 0 ≤ arctan (a * x) / π := by positivity
    linarith
  · set v := a * x with hv
    have hv0 : v < 0 := mul_neg_of_pos_of_neg ha hx
    have h1 : arctan v⁻¹ = -(π / 2) - arctan v := arctan_inv_of_neg hv0
    have hu : 0 < -v⁻¹ := by have := inv_lt_zero.2 hv0; linarith
    have h2 := arctan_gt_aux hu
    rw [arctan_neg, h1] at h2
    have hvn : v ≠ 0 := hv0.ne
    have e2 : (-v⁻¹) / (1 + (-v⁻¹) ^ 2) = -v / (1 + v ^ 2) := by
      field_simp; ring
    rw [e2] at h2
    have e3 : a / (1 + v ^ 2) / π * x = v / (1 + v ^ 2) / π := by rw [hv]; ring
    rw [e3]
    have h3 : 0 < (v / (1 + v ^ 2) + (arctan v + π / 2)) / π := by
      apply div_pos _ hpi
      have : -v / (1 + v ^ 2) = -(v / (1 + v ^ 2)) := by ring
      linarith
    have e4 : (v / (1 + v ^ 2) + (arctan v + π / 2)) / π = v / (1 + v ^ 2) / π + (arctan v / π + 1 / 2) := by
      field_simp
    linarith

theorem softmin_strictMono (a : ℝ) (ha : 0 < a) :
    StrictMono fun x => (arctan (a * x) / π + 1 / 2) * x + 1 / (a * π) := by
  apply strictMono_of_deriv_pos
  intro x
  rw [(hasDerivAt_softmin a x).deriv]
  exact softmin_deriv_pos a x ha

/-! ## For the model's functions -/

theorem soft_min_strictMono {s : ℝ} (hs : 0 < s) : StrictMono fun x : ℝ => soft_min x s :=
  softmin_strictMono (25 / s) (by positivity)

theorem soft_min_gt_max (x : ℝ) {s : ℝ} (hs : 0 < s) : max x 0 < soft_min x s := by
  have := (softmin_gap (25 / s) x (by positivity)).1
  rw [soft_min_real]; linarith

theorem soft_min_le (x : ℝ) {s : ℝ} (hs : 0 < s) : soft_min x s ≤ max x 0 + s / (25 * π) := by
  have h := (softmin_gap (25 / s) x (by positivity)).2
  have e : 1 / (25 / s * π) = s / (25 * π) := by have := pi_pos; field_simp
  rw [soft_min_real]; rw [e] at h ⊢; linarith

theorem soft_min_pos (x : ℝ) {s : ℝ} (hs : 0 < s) : 0 < soft_min x s :=
  lt_of_le_of_lt (le_max_right x 0) (soft_min_gt_max x hs)

theorem soft_min_gt_self (x : ℝ) {s : ℝ} (hs : 0 < s) : x < soft_min x s :=
  lt_of_le_of_lt (le_max_left x 0) (soft_min_gt_max x hs)

theorem soft_min_pos_one (x : ℝ) : 0 < soft_min x 1 := soft_min_pos x one_pos
theorem soft_min_pos_ten (x : ℝ) : 0 < soft_min x 10 := soft_min_pos x (by norm_num)

theorem continuous_soft_min {s : ℝ} : Continuous fun x : ℝ => soft_min x s := by
  simp only [soft_min_real]
  fun_prop

end Mimosa
