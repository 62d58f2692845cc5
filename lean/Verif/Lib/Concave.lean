import Verif.Lib.SoftFacts
import Mathlib.Analysis.Convex.Deriv
import Mathlib.Analysis.Convex.SpecificFunctions.Basic
import Mathlib.Analysis.SpecialFunctions.Pow.Deriv
import Mathlib.Analysis.SpecialFunctions.Pow.Continuity
import Mathlib.Analysis.Real.Pi.Bounds

/-! # Concavity of the utility of soft-limited consumption -/

namespace Mimosa
open Real

/-- `soft_min` with scale 1 and its first two derivatives. -/
theorem softmin_hasDeriv (x : ℝ) : HasDerivAt (fun x : ℝ => soft_min x 1)
    (25 / (1 + (25 * x) ^ 2) / π * x + (arctan (25 * x) / π + 1 / 2)) x := by
  have h := hasDerivAt_softmin 25 x
  have e : (fun x : ℝ => soft_min x 1) = fun x => (arctan (25 * x) / π + 1 / 2) * x + 1 / (25 * π) := by
    funext x; rw [soft_min_real]; norm_num
  rw [e]; exact h

theorem softmin_hasDeriv2 (x : ℝ) : HasDerivAt
    (fun x : ℝ => 25 / (1 + (25 * x) ^ 2) / π * x + (arctan (25 * x) / π + 1 / 2))
    (2 * 25 / (π * (1 + (25 * x) ^ 2) ^ 2)) x := by
  have hpi := pi_pos.ne'
  have hq : (1 + (25 * x) ^ 2) ≠ 0 := by positivity
  have h1 : HasDerivAt (fun x : ℝ => 25 * x) 25 x := by simpa using (hasDerivAt_id x).const_mul 25
  have h2 : HasDerivAt (fun x : ℝ => 1 + (25 * x) ^ 2) (2 * (25 * x) * 25) x := by
    have := (h1.pow 2).const_add 1
    refine this.congr_deriv ?_
    simp
  have h3 : HasDerivAt (fun x : ℝ => 25 / (1 + (25 * x) ^ 2)) (-(25 * (2 * (25 * x) * 25)) /
      (1 + (25 * x) ^ 2) ^ 2) x := by
    have := (hasDerivAt_const x (25 : ℝ)).div h2 hq
    refine this.congr_deriv ?_
    simp
  have h4 : HasDerivAt (fun x => arctan (25 * x)) (1 / (1 + (25 * x) ^ 2) * 25) x := h1.arctan
  have h5 := ((h3.div_const π).mul (hasDerivAt_id x)).add ((h4.div_const π).add_const (1 / 2))
  refine h5.congr_deriv ?_
  simp only [id]
  field_simp
  ring

theorem softmin_concavity_key {x e : ℝ} (hx : 0 ≤ x) (he : 8 / π ^ 2 ≤ e) :
    soft_min x 1 * (2 * 25 / (π * (1 + (25 * x) ^ 2) ^ 2)) ≤
      e * (25 / (1 + (25 * x) ^ 2) / π * x + (arctan (25 * x) / π + 1 / 2)) ^ 2 := by
  have hpi := pi_pos
  have hpi3 := pi_gt_three
  have hpi4 : π < 3.15 := by linarith [pi_lt_d2]
  set v := 25 * x with hv
  have hv0 : 0 ≤ v := by positivity
  set q := 1 + v ^ 2 with hq
  have hq1 : 1 ≤ q := by nlinarith [sq_nonneg v]
  have hqpos : 0 < q := by linarith
  set w := arctan v + π / 2 with hw
  have hw1 : v / q + π / 2 ≤ w := by
    rcases hv0.eq_or_lt with h | h
    · rw [hw, ← h]; simp
    · have := arctan_gt_aux h
      rw [hw, hq]; linarith
  have es : arctan v / π + 1 / 2 = w / π := by rw [hw]; field_simp
  have e1 : soft_min x 1 = (v * w + 1) / (25 * π) := by
    rw [soft_min_real]
    have : (25 : ℝ) / 1 * x = v := by rw [hv]; ring
    rw [this, es, hv]; field_simp
  have e2 : 25 / q / π * x = v / (π * q) := by rw [hv]; field_simp
  rw [e1, e2, es]
  have e3 : (v * w + 1) / (25 * π) * (2 * 25 / (π * q ^ 2)) = (2 * v * w + 2) / (π * q) ^ 2 := by
    field_simp
  have e4 : (v / (π * q) + w / π) ^ 2 = (v + w * q) ^ 2 / (π * q) ^ 2 := by
    rw [← div_pow]; congr 1; field_simp
  rw [e3, e4, ← mul_div_assoc, div_le_div_iff_of_pos_right (by positivity)]
  -- reduce to the smallest elasticity
  have h8 : 8 / π ^ 2 * (v + w * q) ^ 2 ≤ e * (v + w * q) ^ 2 :=
    mul_le_mul_of_nonneg_right he (sq_nonneg _)
  refine le_trans ?_ h8
  rw [div_mul_eq_mul_div, le_div_iff₀ (by positivity)]
  -- and to the smallest `w`
  have hvq : 0 ≤ v / q := by positivity
  have hw2 : π / 2 ≤ w := by linarith
  have hwq : v + π / 2 * q ≤ w * q := by
    have := mul_le_mul_of_nonneg_right hw1 hqpos.le
    have e : (v / q + π / 2) * q = v + π / 2 * q := by field_simp
    linarith
  have hpi2 : π ^ 2 ≤ 10 := by nlinarith
  have c : (v * w + 1) * π ^ 2 ≤ 4 * (v + w * q) ^ 2 := by
    have h2 : w ≤ w * q := le_mul_of_one_le_right (by linarith) hq1
    set W := w * q with hW
    have hWv : π / 2 + v ≤ W := by
      have : π / 2 ≤ π / 2 * q := le_mul_of_one_le_right (by positivity) hq1
      linarith
    have hW0 : 0 ≤ W := by linarith
    have h1 : (v + W) ^ 2 = v ^ 2 + 2 * (v * W) + W * W := by ring
    have h4 : v * w ≤ v * W := mul_le_mul_of_nonneg_left h2 hv0
    have h5 : v * w * π ^ 2 ≤ v * w * 10 := mul_le_mul_of_nonneg_left hpi2 (by positivity)
    have h6 : (π / 2 + v) * W ≤ W * W := mul_le_mul_of_nonneg_right hWv hW0
    have h7 : (π / 2) * (π / 2) ≤ (π / 2) * W := mul_le_mul_of_nonneg_left (by linarith) (by positivity)
    have h8 := sq_nonneg v
    have h9 : 0 ≤ v * W := by positivity
    have e5 : (v * w + 1) * π ^ 2 = v * w * π ^ 2 + 4 * ((π / 2) * (π / 2)) := by ring
    have e6 : (π / 2 + v) * W = π / 2 * W + v * W := by ring
    rw [e5, h1]
    linarith
  linarith

/-- `x ↦ (soft_min x ^ (1-e) - 1) / (1-e)` is concave on the non-negative reals for
`e ≥ 8/π² ≈ 0.81` (other than 1). -/
theorem utility_concaveOn {e : ℝ} (he : 8 / π ^ 2 ≤ e) (he1 : e ≠ 1) :
    ConcaveOn ℝ (Set.Ici 0) fun x : ℝ => (soft_min x 1 ^ (1 - e) - 1) / (1 - e) := by
  have hne : 1 - e ≠ 0 := fun h => he1 (by linarith)
  apply concaveOn_of_hasDerivWithinAt2_nonpos (convex_Ici 0)
    (f' := fun x => soft_min x 1 ^ (-e) *
      (25 / (1 + (25 * x) ^ 2) / π * x + (arctan (25 * x) / π + 1 / 2)))
    (f'' := fun x => -e * soft_min x 1 ^ (-e - 1) *
      (25 / (1 + (25 * x) ^ 2) / π * x + (arctan (25 * x) / π + 1 / 2)) ^ 2 +
      soft_min x 1 ^ (-e) * (2 * 25 / (π * (1 + (25 * x) ^ 2) ^ 2)))
  · apply Continuous.continuousOn
    apply Continuous.div_const
    apply Continuous.sub _ continuous_const
    exact continuous_soft_min.rpow_const fun x => Or.inl (soft_min_pos_one x).ne'
  · intro x _
    apply HasDerivAt.hasDerivWithinAt
    have h := (softmin_hasDeriv x).rpow_const (p := 1 - e) (Or.inl (soft_min_pos_one x).ne')
    have h2 := (h.sub_const 1).div_const (1 - e)
    refine h2.congr_deriv ?_
    have : 1 - e - 1 = -e := by ring
    rw [this]; field_simp
  · intro x _
    apply HasDerivAt.hasDerivWithinAt
    have h := (softmin_hasDeriv x).rpow_const (p := -e) (Or.inl (soft_min_pos_one x).ne')
    have h2 := h.mul (softmin_hasDeriv2 x)
    refine h2.congr_deriv ?_
    ring
  · intro x hx
    rw [interior_Ici] at hx
    have hx0 : 0 ≤ x := le_of_lt hx
    have hf := soft_min_pos_one x
    have key := softmin_concavity_key hx0 he
    have hp := rpow_pos_of_pos hf (-e - 1)
    have e1 : soft_min x 1 ^ (-e) = soft_min x 1 ^ (-e - 1) * soft_min x 1 := by
      rw [← rpow_add_one hf.ne']; congr 1; ring
    rw [e1]
    set D := 25 / (1 + (25 * x) ^ 2) / π * x + (arctan (25 * x) / π + 1 / 2)
    set D2 := 2 * 25 / (π * (1 + (25 * x) ^ 2) ^ 2)
    have : -e * soft_min x 1 ^ (-e - 1) * D ^ 2 + soft_min x 1 ^ (-e - 1) * soft_min x 1 * D2 =
        soft_min x 1 ^ (-e - 1) * (soft_min x 1 * D2 - e * D ^ 2) := by ring
    rw [this]
    apply mul_nonpos_of_nonneg_of_nonpos hp.le
    linarith

/-- … and not concave for smaller elasticities: the second derivative at 0 is positive. -/
theorem utility_not_concaveOn {e : ℝ} (he : e < 8 / π ^ 2) :
    ¬ ConcaveOn ℝ (Set.Ici 0) fun x : ℝ => (soft_min x 1 ^ (1 - e) - 1) / (1 - e) := by
  intro hc
  have hpi := pi_pos
  have he1 : e < 1 := by
    refine he.trans ?_
    rw [div_lt_one (by positivity)]; nlinarith [pi_gt_three]
  have hne : 1 - e ≠ 0 := by linarith
  set f' : ℝ → ℝ := fun x => soft_min x 1 ^ (-e) *
      (25 / (1 + (25 * x) ^ 2) / π * x + (arctan (25 * x) / π + 1 / 2)) with hf'
  have hd : ∀ x : ℝ, HasDerivAt (fun x : ℝ => (soft_min x 1 ^ (1 - e) - 1) / (1 - e)) (f' x) x := by
    intro x
    have h := (softmin_hasDeriv x).rpow_const (p := 1 - e) (Or.inl (soft_min_pos_one x).ne')
    have h2 := (h.sub_const 1).div_const (1 - e)
    refine h2.congr_deriv ?_
    have : 1 - e - 1 = -e := by ring
    rw [this, hf']; field_simp
  have hd2 : HasDerivAt f' (soft_min 0 1 ^ (-e - 1) * (soft_min 0 1 * (50 / π) - e * (1 / 4))) 0 := by
    have h := (softmin_hasDeriv 0).rpow_const (p := -e) (Or.inl (soft_min_pos_one 0).ne')
    have h2 := h.mul (softmin_hasDeriv2 0)
    refine h2.congr_deriv ?_
    have e1 : soft_min (0 : ℝ) 1 ^ (-e) = soft_min 0 1 ^ (-e - 1) * soft_min 0 1 := by
      rw [← rpow_add_one (soft_min_pos_one 0).ne']; congr 1; ring
    rw [e1]; simp; ring
  have f0 : soft_min (0 : ℝ) 1 = 1 / (25 * π) := by rw [soft_min_real]; simp
  have hpos : 0 < soft_min (0 : ℝ) 1 ^ (-e - 1) * (soft_min 0 1 * (50 / π) - e * (1 / 4)) := by
    apply mul_pos (rpow_pos_of_pos (soft_min_pos_one 0) _)
    rw [f0]
    have : 1 / (25 * π) * (50 / π) = 8 / π ^ 2 * (1 / 4) := by field_simp; norm_num
    rw [this]; linarith
  -- `f'` is larger just to the right of 0
  obtain ⟨x, hx0, hx⟩ : ∃ x, 0 < x ∧ f' 0 < f' x := by
    have h1 := hd2.tendsto_slope
    have h2 := h1.eventually (lt_mem_nhds hpos)
    have h3 : ∀ᶠ y in nhdsWithin (0 : ℝ) (Set.Ioi 0), 0 < slope f' 0 y :=
      h2.filter_mono (nhdsWithin_mono _ fun y hy => ne_of_gt hy)
    obtain ⟨x, hx, hx0⟩ := (h3.and self_mem_nhdsWithin).exists
    refine ⟨x, hx0, ?_⟩
    rw [slope_def_field, sub_zero] at hx
    have := (div_pos_iff_of_pos_right (show (0:ℝ) < x from hx0)).1 hx
    linarith
  have h1 := hc.slope_le_of_hasDerivAt (x := 0) (y := x) (by simp) (by simpa using hx0.le) hx0 (hd 0)
  have h2 := hc.le_slope_of_hasDerivAt (x := 0) (y := x) (by simp) (by simpa using hx0.le) hx0 (hd x)
  linarith

end Mimosa
