import Verif.Lib.Example
import Mathlib.Analysis.SpecialFunctions.Integrals.Basic
import Mathlib.Analysis.Convex.SpecificFunctions.Basic

/-!
# Mitigation: C30 (cost curves), C31 (learning), C33 (cost accounting)
-/

namespace Mimosa
open Mitigation
variable {md : Modules} {p : Params} {σ : Env}

/-! ## C30 -/

/-- No abatement costs nothing. -/
theorem C30_zero (l s g : ℝ) {b : ℝ} (hb : -1 < b) : AC (0 : ℝ) l s g b = 0 := by
  rw [AC_real, Real.zero_rpow (by linarith)]; simp

theorem C30_marginal_zero (l s g : ℝ) {b : ℝ} (hb : 0 < b) : MAC (0 : ℝ) l s g b = 0 := by
  rw [MAC_real, Real.zero_rpow hb.ne']; simp

/-- The abatement cost is the area under the marginal abatement cost curve. -/
theorem C30_area_under_curve (l s g : ℝ) {b : ℝ} (hb : -1 < b) (a : ℝ) :
    AC a l s g b = ∫ x in (0 : ℝ)..a, MAC x l s g b := by
  simp only [MAC_real, AC_real]
  rw [intervalIntegral.integral_const_mul, integral_rpow (Or.inl hb),
    Real.zero_rpow (by linarith), sub_zero]
  ring
example := C30_area_under_curve 1 1 (1 / 10) (b := 3) (by norm_num) (1 / 2)

/-- … and the marginal cost is its derivative. -/
theorem C30_derivative (l s g : ℝ) {a b : ℝ} (h : 0 < a ∨ 0 ≤ b) (hb : b + 1 ≠ 0) :
    HasDerivAt (fun x : ℝ => AC x l s g b) (MAC a l s g b) a := by
  simp only [MAC_real, AC_real]
  have h1 : HasDerivAt (fun x : ℝ => x ^ (b + 1)) ((b + 1) * a ^ (b + 1 - 1)) a := by
    apply Real.hasDerivAt_rpow_const
    rcases h with h | h
    · exact Or.inl h.ne'
    · right; linarith
  have h2 := (h1.const_mul (l * s * g)).div_const (b + 1)
  have e : b + 1 - 1 = b := by ring
  rw [e] at h2
  have e2 : l * s * g * ((b + 1) * a ^ b) / (b + 1) = l * s * g * a ^ b := by
    rw [div_eq_iff hb]; ring
  rw [e2] at h2
  exact h2
example := C30_derivative 1 1 (1 / 10) (a := 1 / 2) (b := 3) (.inl (by norm_num)) (by norm_num)

/-- The cost strictly increases with abatement. -/
theorem C30_strictMono {l s g b : ℝ} (hl : 0 < l) (hs : 0 < s) (hg : 0 < g) (hb : -1 < b) :
    StrictMonoOn (fun a : ℝ => AC a l s g b) (Set.Ici 0) := by
  intro x hx y hy hxy
  simp only [AC_real]
  have hx0 : 0 ≤ x := hx
  have h1 : 0 < b + 1 := by linarith
  have := Real.rpow_lt_rpow hx0 hxy h1
  gcongr
example := C30_strictMono (l := 1) (s := 1) (g := 1 / 10) (b := 3) (by norm_num) (by norm_num) (by norm_num) (by norm_num)

/-- … and is convex: each further unit is at least as expensive (strictly more for `β > 0`). -/
theorem C30_convex {l s g b : ℝ} (hl : 0 ≤ l) (hs : 0 ≤ s) (hg : 0 ≤ g) (hb : 0 ≤ b) :
    ConvexOn ℝ (Set.Ici 0) (fun a : ℝ => AC a l s g b) := by
  have h1 := (convexOn_rpow (p := b + 1) (by linarith)).smul
    (show (0 : ℝ) ≤ l * s * g / (b + 1) by positivity)
  refine h1.congr fun x _ => ?_
  simp only [AC_real, smul_eq_mul]
  ring

theorem C30_strictConvex {l s g b : ℝ} (hl : 0 < l) (hs : 0 < s) (hg : 0 < g) (hb : 0 < b) :
    StrictConvexOn ℝ (Set.Ici 0) (fun a : ℝ => AC a l s g b) := by
  have h1 := strictConvexOn_rpow (p := b + 1) (by linarith)
  refine ⟨convex_Ici 0, fun x hx y hy hxy u v hu hv huv => ?_⟩
  have h2 := h1.2 hx hy hxy hu hv huv
  simp only [AC_real, smul_eq_mul] at h2 ⊢
  have hk : 0 < l * s * g / (b + 1) := by positivity
  have := mul_lt_mul_of_pos_left h2 hk
  calc _ = l * s * g / (b + 1) * (u * x + v * y) ^ (b + 1) := by ring
    _ < _ := this
    _ = _ := by ring
example := C30_strictConvex (l := 1) (s := 1) (g := 1 / 10) (b := 3) (by norm_num) (by norm_num) (by norm_num) (by norm_num)

theorem C30_marginal_strictMono {l s g b : ℝ} (hl : 0 < l) (hs : 0 < s) (hg : 0 < g) (hb : 0 < b) :
    StrictMonoOn (fun a : ℝ => MAC a l s g b) (Set.Ici 0) := by
  intro x hx y hy hxy
  simp only [MAC_real]
  have hx0 : 0 ≤ x := hx
  have := Real.rpow_lt_rpow hx0 hxy hb
  gcongr
example := C30_marginal_strictMono (l := 1) (s := 1) (g := 1 / 10) (b := 3) (by norm_num) (by norm_num) (by norm_num)
  (by norm_num)

/-- The carbon price of a solution is the marginal abatement cost, and its area under the MAC the integral
of the marginal costs up to its abatement level (times baseline emissions). -/
theorem C30_solution (h : Solution md p σ) (hb : -1 < p.MAC_beta) {t : ℕ} (ht : t ≤ p.tf) {r : String}
    (hr : r ∈ p.regions) :
    σ.R .carbonprice t r = MAC (σ.R .relative_abatement t r) (σ.G .learning_factor t)
      (p.MAC_scaling_factor r) p.MAC_gamma p.MAC_beta ∧
    σ.R .area_under_MAC t r = σ.R .baseline t r * ∫ x in (0 : ℝ)..σ.R .relative_abatement t r,
      MAC x (σ.G .learning_factor t) (p.MAC_scaling_factor r) p.MAC_gamma p.MAC_beta := by
  refine ⟨(h.eqs.mitigation.carbonprice t ht r hr).2, ?_⟩
  rw [← C30_area_under_curve _ _ _ hb, (h.eqs.mitigation.area t ht r hr).2, mul_comm]
  rfl
example := C30_solution Ex.sol0 (by norm_num [Ex.ex]) (t := 1) (by simp [Ex.ex]) (r := "A") (by simp [Ex.ex])

/-- The carbon price determines abatement. -/
theorem C30_price_determines_abatement (h : Solution md p σ) (hb : 0 < p.MAC_beta)
    (hg : 0 < p.MAC_gamma) {t : ℕ} (ht : t ≤ p.tf) {r : String} (hr : r ∈ p.regions)
    (hs : 0 < p.MAC_scaling_factor r) (hl : 0 < σ.G .learning_factor t) :
    σ.R .relative_abatement t r =
      (σ.R .carbonprice t r / (σ.G .learning_factor t * p.MAC_scaling_factor r * p.MAC_gamma)) ^
        (1 / p.MAC_beta) := by
  rw [(h.eqs.mitigation.carbonprice t ht r hr).2, macVal]
  have h0 := (h.abatement_bounds ht hr).1
  have hk : σ.G .learning_factor t * p.MAC_scaling_factor r * p.MAC_gamma ≠ 0 := by positivity
  rw [mul_div_cancel_left₀ _ hk, ← Real.rpow_mul h0, mul_one_div_cancel hb.ne', Real.rpow_one]

/-- Within one solution and time step: of two regions with the same scaling factor the one with the higher
carbon price abates (relatively) more. -/
theorem C30_price_order (h : Solution md p σ) (hb : 0 < p.MAC_beta)
    (hg : 0 < p.MAC_gamma) {t : ℕ} (ht : t ≤ p.tf) {r s : String} (hr : r ∈ p.regions)
    (hs : s ∈ p.regions) (hpos : 0 < p.MAC_scaling_factor r)
    (heq : p.MAC_scaling_factor r = p.MAC_scaling_factor s) (hl : 0 < σ.G .learning_factor t) :
    σ.R .carbonprice t r < σ.R .carbonprice t s ↔
      σ.R .relative_abatement t r < σ.R .relative_abatement t s := by
  have h1 := (C30_solution h (by linarith) ht hr).1
  have h2 := (C30_solution h (by linarith) ht hs).1
  rw [h1, h2, ← heq]
  exact (C30_marginal_strictMono hl hpos hg hb).lt_iff_lt (h.abatement_bounds ht hr).1
    (h.abatement_bounds ht hs).1

example := C30_price_determines_abatement Ex.sol0 (by norm_num [Ex.p0, Ex.ex])
  (by norm_num [Ex.p0, Ex.ex]) (t := 1) (by simp [Ex.p0, Ex.ex]) (r := "A") (by simp [Ex.p0, Ex.ex])
  (by norm_num [Ex.p0, Ex.ex]) (Ex.learn_range _ ⟨rfl, rfl⟩ 1 (by norm_num)).1
example : ∃ md p σ t r, Solution md p σ ∧ r ∈ p.regions ∧ t ≤ p.tf ∧ 0 < σ.R .relative_abatement t r :=
  ⟨_, _, _, 1, "A", Ex.sol0, by simp [Ex.p0, Ex.ex], by simp [Ex.p0, Ex.ex], by
    show (0 : ℝ) < Ex.aPath 1; norm_num [Ex.aPath]⟩

/-! ## C31 -/

theorem C31_learning_is_product (h : Solution md p σ) {t : ℕ} (ht : t ≤ p.tf) :
    σ.G .learning_factor t = σ.G .LBD_factor t * σ.G .LOT_factor t := h.eqs.mitigation.learning t ht
example := C31_learning_is_product Ex.sol0 (t := 1) (by simp [Ex.ex])

theorem C31_positive (h : Solution md p σ) (hr : -1 < p.LOT_rate) {t : ℕ} (ht : t ≤ p.tf) :
    0 < σ.G .LBD_factor t ∧ 0 < σ.G .LOT_factor t ∧ 0 < σ.G .learning_factor t := by
  have h1 : 0 < σ.G .LBD_factor t := by
    rw [(h.eqs.mitigation.lbd t ht).2]; exact Real.rpow_pos_of_pos (soft_min_pos_one _) _
  have h2 : 0 < σ.G .LOT_factor t := by
    rw [(h.eqs.mitigation.lot t ht).2.2]
    have : 0 < (1 + p.LOT_rate) ^ (t : ℝ) := Real.rpow_pos_of_pos (by linarith) _
    positivity
  exact ⟨h1, h2, by rw [C31_learning_is_product h ht]; positivity⟩

/-- Learning over time: `1 / (1 + rate)^t` with the number of time steps. -/
theorem C31_over_time (h : Solution md p σ) {t : ℕ} (ht : t ≤ p.tf) :
    σ.G .LOT_factor t = 1 / (1 + p.LOT_rate) ^ t := by
  rw [(h.eqs.mitigation.lot t ht).2.2, Real.rpow_natCast]
example := C31_over_time Ex.sol0 (t := 1) (by simp [Ex.ex])

/-- Hence it starts at 1 and never increases for a non-negative rate. -/
theorem C31_over_time_antitone (h : Solution md p σ) (hr : 0 ≤ p.LOT_rate) {s t : ℕ} (hst : s ≤ t)
    (ht : t ≤ p.tf) : σ.G .LOT_factor 0 = 1 ∧ σ.G .LOT_factor t ≤ σ.G .LOT_factor s ∧
      σ.G .LOT_factor t ≤ 1 := by
  have key : ∀ s t : ℕ, s ≤ t → t ≤ p.tf → σ.G .LOT_factor t ≤ σ.G .LOT_factor s := by
    intro s t hst ht
    rw [C31_over_time h ht, C31_over_time h (hst.trans ht)]
    have h1 : (1 : ℝ) ≤ 1 + p.LOT_rate := by linarith
    have h2 : (1 + p.LOT_rate) ^ s ≤ (1 + p.LOT_rate) ^ t := pow_le_pow_right₀ h1 hst
    have h3 : 0 < (1 + p.LOT_rate) ^ s := by positivity
    exact one_div_le_one_div_of_le h3 h2
  have h0 : σ.G .LOT_factor 0 = 1 := by rw [C31_over_time h (Nat.zero_le _)]; simp
  exact ⟨h0, key s t hst ht, h0 ▸ key 0 t (Nat.zero_le _) ht⟩

theorem log_LBD_nonpos (h0 : 0 < p.LBD_rate) (h1 : p.LBD_rate ≤ 1) : p.log_LBD_rate ≤ 0 := by
  unfold Params.log_LBD_rate
  exact div_nonpos_of_nonpos_of_nonneg (Real.log_nonpos h0.le h1) (Real.log_nonneg (by norm_num))

theorem log_LBD_neg (h0 : 0 < p.LBD_rate) (h1 : p.LBD_rate < 1) : p.log_LBD_rate < 0 := by
  unfold Params.log_LBD_rate
  exact div_neg_of_neg_of_pos (Real.log_neg h0 h1) (Real.log_pos (by norm_num))

/-- Learning by doing: the more has been mitigated (the lower cumulative emissions) the lower the factor,
between any two solutions for the same data. -/
theorem C31_by_doing_mono {σ₁ σ₂ : Env} {md₁ md₂ : Modules} (h₁ : Solution md₁ p σ₁)
    (h₂ : Solution md₂ p σ₂) (hs : 0 < p.LBD_scaling) (hr : p.LBD_rate ≤ 1) {t : ℕ} (ht : t ≤ p.tf)
    (hc : σ₁.G .cumulative_emissions t ≤ σ₂.G .cumulative_emissions t) :
    σ₁.G .LBD_factor t ≤ σ₂.G .LBD_factor t := by
  rw [(h₁.eqs.mitigation.lbd t ht).2, (h₂.eqs.mitigation.lbd t ht).2]
  apply Real.rpow_le_rpow_of_nonpos (soft_min_pos_one _) _
    (log_LBD_nonpos h₁.initOk.lbd_pos hr)
  apply (soft_min_strictMono one_pos).monotone
  gcongr

/-- … strictly, if the learning rate is below 1. -/
theorem C31_by_doing_strictMono {σ₁ σ₂ : Env} {md₁ md₂ : Modules} (h₁ : Solution md₁ p σ₁)
    (h₂ : Solution md₂ p σ₂) (hs : 0 < p.LBD_scaling) (hr : p.LBD_rate < 1) {t : ℕ} (ht : t ≤ p.tf)
    (hc : σ₁.G .cumulative_emissions t < σ₂.G .cumulative_emissions t) :
    σ₁.G .LBD_factor t < σ₂.G .LBD_factor t := by
  rw [(h₁.eqs.mitigation.lbd t ht).2, (h₂.eqs.mitigation.lbd t ht).2]
  apply Real.rpow_lt_rpow_of_neg (soft_min_pos_one _) _ (log_LBD_neg h₁.initOk.lbd_pos hr)
  apply soft_min_strictMono one_pos
  gcongr

/-- As long as cumulative emissions do not exceed the baseline, the learning factors are at most 1. -/
theorem C31_at_most_one (h : Solution md p σ) (hs : 0 < p.LBD_scaling) (hr : p.LBD_rate ≤ 1)
    (hl : 0 ≤ p.LOT_rate) {t : ℕ} (ht : t ≤ p.tf)
    (hc : σ.G .cumulative_emissions t ≤ p.cumulative_global_baseline_emissions t) :
    σ.G .LBD_factor t ≤ 1 ∧ σ.G .learning_factor t ≤ 1 := by
  have h1 : σ.G .LBD_factor t ≤ 1 := by
    rw [(h.eqs.mitigation.lbd t ht).2]
    apply Real.rpow_le_one_of_one_le_of_nonpos _ (log_LBD_nonpos h.initOk.lbd_pos hr)
    have h2 : 0 ≤ (p.cumulative_global_baseline_emissions t - σ.G .cumulative_emissions t) /
      p.LBD_scaling := div_nonneg (by linarith) hs.le
    have h3 := soft_min_gt_self ((p.cumulative_global_baseline_emissions t -
      σ.G .cumulative_emissions t) / p.LBD_scaling + 1) one_pos
    linarith
  refine ⟨h1, ?_⟩
  rw [C31_learning_is_product h ht]
  have h2 := (C31_positive h (by linarith) ht)
  have h3 := (C31_over_time_antitone h hl (le_refl t) ht).2.2
  nlinarith [h2.1, h2.2.1]

/-- The rate is the factor per doubling of (smoothed) experience. -/
theorem C31_doubling {σ₁ σ₂ : Env} {md₁ md₂ : Modules} (h₁ : Solution md₁ p σ₁)
    (h₂ : Solution md₂ p σ₂) {t : ℕ} (ht : t ≤ p.tf)
    (hd : soft_min ((p.cumulative_global_baseline_emissions t - σ₁.G .cumulative_emissions t) /
        p.LBD_scaling + 1) 1 =
      2 * soft_min ((p.cumulative_global_baseline_emissions t - σ₂.G .cumulative_emissions t) /
        p.LBD_scaling + 1) 1) :
    σ₁.G .LBD_factor t = p.LBD_rate * σ₂.G .LBD_factor t := by
  rw [(h₁.eqs.mitigation.lbd t ht).2, (h₂.eqs.mitigation.lbd t ht).2, hd,
    Real.mul_rpow (by norm_num) (soft_min_pos_one _).le]
  congr 1
  unfold Params.log_LBD_rate
  rw [Real.rpow_def_of_pos (by norm_num : (0 : ℝ) < 2), mul_div_cancel₀ _ (Real.log_pos (by norm_num)).ne']
  exact Real.exp_log h₁.initOk.lbd_pos

/-- Without learning (`LBD_rate = 1`, `LOT_rate = 0`) the factor is 1. -/
theorem C31_no_learning (h : Solution md p σ) (h1 : p.LBD_rate = 1) (h2 : p.LOT_rate = 0) {t : ℕ}
    (ht : t ≤ p.tf) : σ.G .learning_factor t = 1 := by
  rw [C31_learning_is_product h ht, C31_over_time h ht, (h.eqs.mitigation.lbd t ht).2]
  simp [Params.log_LBD_rate, h1, h2]

example := C31_positive Ex.sol0 (by norm_num [Ex.p0, Ex.ex]) (t := 3) (by simp [Ex.p0, Ex.ex])
example := C31_over_time_antitone Ex.sol0 (by norm_num [Ex.p0, Ex.ex]) (s := 1) (t := 3)
  (by norm_num) (by simp [Ex.p0, Ex.ex])

example := C31_at_most_one Ex.sol0 (by norm_num [Ex.p0, Ex.ex]) (by norm_num [Ex.p0, Ex.ex])
  (by norm_num [Ex.p0, Ex.ex]) (t := 2) (by simp [Ex.p0, Ex.ex]) (by
    rw [Ex.baseline_cum 2 (by norm_num)]
    have : Ex.σ0.G .cumulative_emissions 2 = 1600 := (Ex.cum_val _ ⟨rfl, rfl⟩).2.2.1
    rw [this]; norm_num)

/-! ## C33 -/

/-- Mitigation costs are the area under the MAC plus the region's trade balance. -/
theorem C33_costs (h : Solution md p σ) (htr : md.trade = .emissiontrade) {t : ℕ} (ht : t ≤ p.tf)
    {r : String} (hr : r ∈ p.regions) : σ.R .mitigation_costs t r =
      σ.R .area_under_MAC t r + σ.R .import_export_mitigation_cost_balance t r := by
  rw [(h.eqs.mitigation.mitigation_costs t ht r hr).2, (h.eqs.mitigation.area t ht r hr).2, htr]
  rfl

/-- Without trade they are the area under the MAC. -/
theorem C33_costs_notrade (h : Solution md p σ) (htr : md.trade = .notrade) {t : ℕ} (ht : t ≤ p.tf)
    {r : String} (hr : r ∈ p.regions) : σ.R .mitigation_costs t r = σ.R .area_under_MAC t r := by
  rw [(h.eqs.mitigation.mitigation_costs t ht r hr).2, (h.eqs.mitigation.area t ht r hr).2, htr]
  simp [costBalanceVal]

/-- The area under the MAC is never negative (for non-negative parameters and baseline). -/
theorem C33_area_nonneg (h : Solution md p σ) (hl : -1 < p.LOT_rate) (hb : -1 < p.MAC_beta)
    (hg : 0 ≤ p.MAC_gamma) {t : ℕ} (ht : t ≤ p.tf) {r : String} (hr : r ∈ p.regions)
    (hs : 0 ≤ p.MAC_scaling_factor r) (hbl : 0 ≤ σ.R .baseline t r) : 0 ≤ σ.R .area_under_MAC t r := by
  rw [(h.eqs.mitigation.area t ht r hr).2, acVal]
  have h1 := (C31_positive h hl ht).2.2.le
  have h2 := Real.rpow_nonneg (h.abatement_bounds ht hr).1 (p.MAC_beta + 1)
  have h3 : 0 ≤ p.MAC_beta + 1 := by linarith
  positivity

/-- Relative costs are costs over gross GDP and respect the configured minimum. -/
theorem C33_relative (h : Solution md p σ) {t : ℕ} (ht : t ≤ p.tf) {r : String} (hr : r ∈ p.regions) :
    σ.R .GDP_gross t r ≠ 0 ∧
    σ.R .rel_mitigation_costs t r = σ.R .mitigation_costs t r / σ.R .GDP_gross t r ∧
    (0 < t → p.rel_mitigation_costs_min_level ≤ σ.R .rel_mitigation_costs t r) ∧
    (t = 0 → 0 ≤ σ.R .rel_mitigation_costs t r) := by
  have h1 := h.eqs.mitigation.rel_costs t ht r hr
  have h2 := h.eqs.mitigation.rel_costs_min t ht r hr
  refine ⟨h1.1, h1.2, fun h0 => ?_, fun h0 => ?_⟩
  · simpa [h0] using h2
  · subst h0; simpa using h2

/-- A weighted average lies between the smallest and the largest value. -/
theorem weighted_average {p : Params} (hne : p.regions ≠ []) (x w : String → ℝ)
    (hw : ∀ r ∈ p.regions, 0 < w r) :
    (∃ r ∈ p.regions, x r ≤ p.sumR (fun r => x r * w r) / p.sumR w) ∧
    (∃ r ∈ p.regions, p.sumR (fun r => x r * w r) / p.sumR w ≤ x r) := by
  have hW : 0 < p.sumR w := sumR_pos hne hw
  constructor
  · by_contra hc
    push Not at hc
    have h1 : ∀ r ∈ p.regions, (p.sumR (fun r => x r * w r) / p.sumR w) * w r < x r * w r :=
      fun r hr => mul_lt_mul_of_pos_right (hc r hr) (hw r hr)
    have h2 := sumR_lt (fun r hr => (h1 r hr).le) (let ⟨r, hr⟩ := List.exists_mem_of_ne_nil _ hne; ⟨r, hr, h1 r hr⟩)
    rw [sumR_mul_left, div_mul_cancel₀ _ hW.ne'] at h2
    exact lt_irrefl _ h2
  · by_contra hc
    push Not at hc
    have h1 : ∀ r ∈ p.regions, x r * w r < (p.sumR (fun r => x r * w r) / p.sumR w) * w r :=
      fun r hr => mul_lt_mul_of_pos_right (hc r hr) (hw r hr)
    have h2 := sumR_lt (fun r hr => (h1 r hr).le) (let ⟨r, hr⟩ := List.exists_mem_of_ne_nil _ hne; ⟨r, hr, h1 r hr⟩)
    rw [sumR_mul_left, div_mul_cancel₀ _ hW.ne'] at h2
    exact lt_irrefl _ h2

/-- Global relative costs are total costs over total GDP … -/
theorem C33_global (h : Solution md p σ) {t : ℕ} (ht : t ≤ p.tf) :
    σ.G .global_rel_mitigation_costs t =
      (p.regions.map fun r => σ.R .mitigation_costs t r).sum /
        (p.regions.map fun r => σ.R .GDP_gross t r).sum := (h.eqs.mitigation.global_rel t ht).2
example := C33_global Ex.sol0 (t := 1) (by simp [Ex.ex])

/-- … and lie between the smallest and largest regional relative costs. -/
theorem C33_global_between (h : Solution md p σ) {t : ℕ} (ht : t ≤ p.tf)
    (hg : ∀ r ∈ p.regions, 0 < σ.R .GDP_gross t r) :
    (∃ r ∈ p.regions, σ.R .rel_mitigation_costs t r ≤ σ.G .global_rel_mitigation_costs t) ∧
    (∃ r ∈ p.regions, σ.G .global_rel_mitigation_costs t ≤ σ.R .rel_mitigation_costs t r) := by
  have := weighted_average h.regions_ne (fun r => σ.R .rel_mitigation_costs t r)
    (fun r => σ.R .GDP_gross t r) hg
  have e : p.sumR (fun r => σ.R .rel_mitigation_costs t r * σ.R .GDP_gross t r) =
      p.sumR (fun r => σ.R .mitigation_costs t r) := by
    apply sumR_congr
    intro r hr
    rw [(h.eqs.mitigation.rel_costs t ht r hr).2, div_mul_cancel₀ _ (hg r hr).ne']
  rw [e] at this
  rw [(h.eqs.mitigation.global_rel t ht).2]
  exact this

example := C33_costs_notrade Ex.sol0 rfl (t := 2) (by simp [Ex.p0, Ex.ex]) (r := "B")
  (by simp [Ex.p0, Ex.ex])
example := C33_area_nonneg Ex.sol0 (by norm_num [Ex.p0, Ex.ex]) (by norm_num [Ex.p0, Ex.ex])
  (by norm_num [Ex.p0, Ex.ex]) (t := 2) (by simp [Ex.p0, Ex.ex]) (r := "B") (by simp [Ex.p0, Ex.ex])
  (by norm_num [Ex.p0, Ex.ex]) (by show (0 : ℝ) ≤ 20; norm_num)
example := C33_relative Ex.sol0 (t := 2) (by simp [Ex.p0, Ex.ex]) (r := "B") (by simp [Ex.p0, Ex.ex])

end Mimosa
