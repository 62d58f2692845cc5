import Verif.Props.Trade
import Verif.Props.Emissions
import Verif.Props.Mitigation

/-!
# C64: reported world averages of abatement agree with the regional results
-/

set_option linter.unusedVariables false

namespace Mimosa
open AbstractModel Real

variable {md : Modules} {p : Params} {σ : Env}

/-- Total mitigation costs of a time step. -/
noncomputable def Spec.worldCosts (p : Params) (σ : Env) (t : ℕ) : ℝ :=
  (p.regions.map fun r => σ.R .mitigation_costs t r).sum

/-- Total emission reduction of a time step. -/
noncomputable def Spec.worldReduction (p : Params) (σ : Env) (t : ℕ) : ℝ :=
  (p.regions.map fun r => σ.R .regional_emission_reduction t r).sum

theorem Solution.reduction_val (h : Solution md p σ) {t : ℕ} (h0 : 0 < t) (ht : t ≤ p.tf) {r : String}
    (hr : r ∈ p.regions) : σ.R .regional_emission_reduction t r =
      σ.R .relative_abatement t r * σ.R .baseline t r := by
  obtain ⟨s, rfl⟩ := Nat.exists_eq_succ_of_ne_zero h0.ne'
  have h1 := h.eqs.emissions.reduction _ ht r hr
  have h2 := h.eqs.emissions.regional_emissions s ht r hr
  have h3 := h.eqs.emissions.baseline _ ht r hr
  rw [h1]
  simp only [Nat.succ_eq_add_one] at *
  rw [h2]
  split at h2 <;> split <;> simp_all <;> ring

/-- After the first time step, the area under a region's cost curve times `beta + 1` is what its reductions
would cost at its carbon price. -/
theorem C64_area_price (h : Solution md p σ) (hb : -1 < p.MAC_beta) {t : ℕ} (h0 : 0 < t) (ht : t ≤ p.tf)
    {r : String} (hr : r ∈ p.regions) : (p.MAC_beta + 1) * σ.R .area_under_MAC t r =
      σ.R .carbonprice t r * σ.R .regional_emission_reduction t r := by
  have hb1 : p.MAC_beta + 1 ≠ 0 := by linarith
  rw [h.reduction_val h0 ht hr, (h.eqs.mitigation.area t ht r hr).2,
    (h.eqs.mitigation.carbonprice t ht r hr).2, acVal, macVal,
    Real.rpow_add_one' (h.abatement_bounds ht hr).1 hb1]
  field_simp

/-- Total costs times `beta + 1` are the value of all reductions at the regional prices, with or without
emission trade. -/
theorem C64_total_costs (h : Solution md p σ) (hb : -1 < p.MAC_beta) {t : ℕ} (h0 : 0 < t) (ht : t ≤ p.tf) :
    (p.MAC_beta + 1) * Spec.worldCosts p σ t =
      (p.regions.map fun r => σ.R .carbonprice t r * σ.R .regional_emission_reduction t r).sum := by
  have e : Spec.worldCosts p σ t = p.sumR fun r => σ.R .area_under_MAC t r := by
    cases htr : md.trade
    · exact sumR_congr fun r hr => C33_costs_notrade h htr ht hr
    · exact absurd htr (solution_char.1 h).1
    · exact C34_costs_sum h htr ht
  rw [e, ← sumR_mul_left]
  exact sumR_congr fun r hr => C64_area_price h hb h0 ht hr
example := C64_total_costs Ex.sol0 (by norm_num [Ex.ex]) (t := 1) one_pos (by simp [Ex.ex])

theorem Solution.costPer (h : Solution md p σ) {t : ℕ} (h0 : 0 < t) (ht : t ≤ p.tf) :
    σ.G .global_cost_per_emission_reduction_unit t =
      Spec.worldCosts p σ t / soft_min (Spec.worldReduction p σ t) 1 := by
  obtain ⟨s, rfl⟩ := Nat.exists_eq_succ_of_ne_zero h0.ne'
  exact h.eqs.mitigation.cost_per_reduction s ht

theorem Solution.reductionPer (h : Solution md p σ) {t : ℕ} (h0 : 0 < t) (ht : t ≤ p.tf) :
    σ.G .global_emission_reduction_per_cost_unit t =
      Spec.worldReduction p σ t / soft_min (Spec.worldCosts p σ t) 1 := by
  obtain ⟨s, rfl⟩ := Nat.exists_eq_succ_of_ne_zero h0.ne'
  exact h.eqs.mitigation.reduction_per_cost s ht

theorem soft_ratio_bounds {c x : ℝ} (hc : 0 ≤ c) (hx : 0 < x) :
    c / (x + 1 / (25 * π)) ≤ c / soft_min x 1 ∧ c / soft_min x 1 ≤ c / x := by
  have h1 := soft_min_gt_self x (s := 1) one_pos
  have h2 := soft_min_le x (s := 1) one_pos
  rw [max_eq_left hx.le] at h2
  exact ⟨div_le_div_of_nonneg_left hc (soft_min_pos_one x) h2, div_le_div_of_nonneg_left hc hx h1.le⟩

/-- The reported cost per unit of reduction is at most the true average `costs / reduction`, and at least
`costs / (reduction + 1/(25π))` (the smoothing adds at most 0.0128 to the reduction). -/
theorem C64_cost_per_reduction (h : Solution md p σ) {t : ℕ} (h0 : 0 < t) (ht : t ≤ p.tf)
    (hc : 0 ≤ Spec.worldCosts p σ t) (hx : 0 < Spec.worldReduction p σ t) :
    Spec.worldCosts p σ t / (Spec.worldReduction p σ t + 1 / (25 * π)) ≤
        σ.G .global_cost_per_emission_reduction_unit t ∧
      σ.G .global_cost_per_emission_reduction_unit t ≤
        Spec.worldCosts p σ t / Spec.worldReduction p σ t := by
  rw [h.costPer h0 ht]; exact soft_ratio_bounds hc hx

/-- The same for the reduction per unit of cost. -/
theorem C64_reduction_per_cost (h : Solution md p σ) {t : ℕ} (h0 : 0 < t) (ht : t ≤ p.tf)
    (hc : 0 < Spec.worldCosts p σ t) (hx : 0 ≤ Spec.worldReduction p σ t) :
    Spec.worldReduction p σ t / (Spec.worldCosts p σ t + 1 / (25 * π)) ≤
        σ.G .global_emission_reduction_per_cost_unit t ∧
      σ.G .global_emission_reduction_per_cost_unit t ≤
        Spec.worldReduction p σ t / Spec.worldCosts p σ t := by
  rw [h.reductionPer h0 ht]; exact soft_ratio_bounds hx hc

/-- Whatever the reductions, the reported average cost has the sign of the total costs; in particular it is
zero when they are. -/
theorem C64_cost_sign (h : Solution md p σ) {t : ℕ} (h0 : 0 < t) (ht : t ≤ p.tf) :
    SignType.sign (σ.G .global_cost_per_emission_reduction_unit t) =
      SignType.sign (Spec.worldCosts p σ t) := by
  rw [h.costPer h0 ht, div_eq_mul_inv, sign_mul,
    sign_pos (inv_pos.2 (soft_min_pos_one _)), mul_one]
example := C64_cost_sign Ex.sol0 (t := 1) one_pos (by simp [Ex.ex])

/-- The reported reduction per cost unit has the sign of the total reductions. -/
theorem C64_reduction_sign (h : Solution md p σ) {t : ℕ} (h0 : 0 < t) (ht : t ≤ p.tf) :
    SignType.sign (σ.G .global_emission_reduction_per_cost_unit t) =
      SignType.sign (Spec.worldReduction p σ t) := by
  rw [h.reductionPer h0 ht, div_eq_mul_inv, sign_mul,
    sign_pos (inv_pos.2 (soft_min_pos_one _)), mul_one]
example := C64_reduction_sign Ex.sol0 (t := 1) one_pos (by simp [Ex.ex])

/-- The average cost is below the highest carbon price divided by `beta + 1`: average costs never exceed
marginal costs. -/
theorem C64_average_below_marginal (h : Solution md p σ) (hb : -1 < p.MAC_beta) {t : ℕ} (h0 : 0 < t)
    (ht : t ≤ p.tf) (hx : ∀ r ∈ p.regions, 0 ≤ σ.R .regional_emission_reduction t r) {P : ℝ} (hP : 0 < P)
    (hp : ∀ r ∈ p.regions, σ.R .carbonprice t r ≤ P) :
    σ.G .global_cost_per_emission_reduction_unit t < P / (p.MAC_beta + 1) := by
  have hb1 : 0 < p.MAC_beta + 1 := by linarith
  have e := C64_total_costs h hb h0 ht
  have hle : (p.MAC_beta + 1) * Spec.worldCosts p σ t ≤ P * Spec.worldReduction p σ t := by
    rw [e]
    show p.sumR (fun r => σ.R .carbonprice t r * σ.R .regional_emission_reduction t r) ≤
      P * p.sumR fun r => σ.R .regional_emission_reduction t r
    rw [← sumR_mul_left]
    exact sumR_le fun r hr => mul_le_mul_of_nonneg_right (hp r hr) (hx r hr)
  have hg := soft_min_gt_self (Spec.worldReduction p σ t) (s := 1) one_pos
  rw [h.costPer h0 ht, div_lt_div_iff₀ (soft_min_pos_one _) hb1]
  calc Spec.worldCosts p σ t * (p.MAC_beta + 1) = (p.MAC_beta + 1) * Spec.worldCosts p σ t := by ring
    _ ≤ _ := hle
    _ < P * soft_min (Spec.worldReduction p σ t) 1 := mul_lt_mul_of_pos_left hg hP

/-- With trade, where all regions face one price `P`, the average cost is `P / (beta + 1)` up to the
smoothing. -/
theorem C64_average_uniform_price (h : Solution md p σ) (hb : -1 < p.MAC_beta) {t : ℕ} (h0 : 0 < t)
    (ht : t ≤ p.tf) {P : ℝ} (hp : ∀ r ∈ p.regions, σ.R .carbonprice t r = P) :
    σ.G .global_cost_per_emission_reduction_unit t * soft_min (Spec.worldReduction p σ t) 1 =
      P / (p.MAC_beta + 1) * Spec.worldReduction p σ t := by
  have hb1 : p.MAC_beta + 1 ≠ 0 := by linarith
  have e := C64_total_costs h hb h0 ht
  have e2 : (p.regions.map fun r => σ.R .carbonprice t r * σ.R .regional_emission_reduction t r).sum =
      P * Spec.worldReduction p σ t := by
    show p.sumR (fun r => σ.R .carbonprice t r * σ.R .regional_emission_reduction t r) =
      P * p.sumR fun r => σ.R .regional_emission_reduction t r
    rw [← sumR_mul_left]
    exact sumR_congr fun r hr => by rw [hp r hr]
  rw [e2] at e
  rw [h.costPer h0 ht, div_mul_cancel₀ _ (soft_min_pos_one _).ne']
  field_simp
  linarith

/-- The two reported ratios are reciprocal up to the smoothing: their product lies below 1 and above
`(C/(C+ε)) * (R/(R+ε))` with `ε = 1/(25π)`. -/
theorem C64_reciprocal (h : Solution md p σ) {t : ℕ} (h0 : 0 < t) (ht : t ≤ p.tf)
    (hc : 0 < Spec.worldCosts p σ t) (hx : 0 < Spec.worldReduction p σ t) :
    (Spec.worldCosts p σ t / (Spec.worldCosts p σ t + 1 / (25 * π))) *
        (Spec.worldReduction p σ t / (Spec.worldReduction p σ t + 1 / (25 * π))) ≤
      σ.G .global_cost_per_emission_reduction_unit t * σ.G .global_emission_reduction_per_cost_unit t ∧
    σ.G .global_cost_per_emission_reduction_unit t * σ.G .global_emission_reduction_per_cost_unit t < 1 := by
  have e : σ.G .global_cost_per_emission_reduction_unit t * σ.G .global_emission_reduction_per_cost_unit t =
      (Spec.worldCosts p σ t / soft_min (Spec.worldCosts p σ t) 1) *
        (Spec.worldReduction p σ t / soft_min (Spec.worldReduction p σ t) 1) := by
    rw [h.costPer h0 ht, h.reductionPer h0 ht]; ring
  rw [e]
  have a1 := (soft_ratio_bounds hc.le hc).1
  have a2 := (soft_ratio_bounds hx.le hx).1
  have b1 : Spec.worldCosts p σ t / soft_min (Spec.worldCosts p σ t) 1 < 1 :=
    (div_lt_one (soft_min_pos_one _)).2 (soft_min_gt_self _ one_pos)
  have b2 : Spec.worldReduction p σ t / soft_min (Spec.worldReduction p σ t) 1 < 1 :=
    (div_lt_one (soft_min_pos_one _)).2 (soft_min_gt_self _ one_pos)
  have c2 : 0 < Spec.worldReduction p σ t / soft_min (Spec.worldReduction p σ t) 1 :=
    div_pos hx (soft_min_pos_one _)
  have c1 : 0 < Spec.worldCosts p σ t / soft_min (Spec.worldCosts p σ t) 1 :=
    div_pos hc (soft_min_pos_one _)
  have hπ := Real.pi_pos
  refine ⟨mul_le_mul a1 a2 (by positivity) c1.le, mul_lt_one_of_nonneg_of_lt_one_left c1.le b1 b2.le⟩

/-! ## Cumulative emissions relative to the baseline -/

/-- The reported relative cumulative emissions are cumulative emissions over cumulative baseline emissions
(1 at the start). -/
theorem C64_relative_cumulative (h : Solution md p σ) {t : ℕ} (ht : t ≤ p.tf) :
    (t = 0 → σ.G .emission_relative_cumulative t = 1) ∧
    (0 < t → p.cumulative_global_baseline_emissions t ≠ 0 ∧
      σ.G .emission_relative_cumulative t * p.cumulative_global_baseline_emissions t =
        σ.G .cumulative_emissions t) := by
  refine ⟨?_, fun h0 => ?_⟩
  · rintro rfl; exact h.eqs.emissions.rel_cumulative_init
  · obtain ⟨s, rfl⟩ := Nat.exists_eq_succ_of_ne_zero h0.ne'
    have := h.eqs.emissions.rel_cumulative s ht
    refine ⟨this.1, ?_⟩
    show σ.G .emission_relative_cumulative (s + 1) * _ = _
    rw [this.2, div_mul_cancel₀ _ this.1]
example := (C64_relative_cumulative Ex.sol0 (t := 1) (by simp [Ex.ex])).2 one_pos

theorem sumR_sum (p : Params) (f : ℕ → String → ℝ) (t : ℕ) :
    p.sumR (fun r => ∑ s ∈ Finset.range t, f s r) = ∑ s ∈ Finset.range t, p.sumR (f s) := by
  induction t with
  | zero => simp [sumR_zero]
  | succ t ih => simp only [Finset.sum_range_succ]; rw [sumR_add, ih]

theorem Solution.global_val (h : Solution md p σ) (hci : p.use_carbon_intensity_for_baseline = false) {t : ℕ}
    (ht : t ≤ p.tf) : σ.G .global_emissions t = p.sumR fun r =>
      (if t = 0 then 1 else 1 - σ.R .relative_abatement t r) * p.baseline_emissions t r := by
  rcases t with _ | t
  · rw [h.eqs.emissions.global_emissions_init]; simp
  · rw [h.eqs.emissions.global_emissions t ht]
    refine sumR_congr fun r hr => ?_
    rw [h.eqs.emissions.regional_emissions t ht r hr, hci]; simp

/-- With the given baseline path, trapezoidal accumulation and non-negative baseline emissions, the reported
share lies between 0 and 1 … -/
theorem C64_relative_cumulative_range (h : Solution md p σ)
    (hci : p.use_carbon_intensity_for_baseline = false) (hz : p.cumulative_emissions_trapz = true)
    (hdt : 0 ≤ p.dt) {t : ℕ} (ht : t ≤ p.tf)
    (hB : ∀ s ≤ t, ∀ r ∈ p.regions, 0 ≤ p.baseline_emissions s r) :
    0 ≤ σ.G .emission_relative_cumulative t ∧ σ.G .emission_relative_cumulative t ≤ 1 := by
  rcases Nat.eq_zero_or_pos t with rfl | h0
  · rw [(C64_relative_cumulative h ht).1 rfl]; norm_num
  obtain ⟨hne, e⟩ := (C64_relative_cumulative h ht).2 h0
  have hc := (C24_nonneg h ht).2
  have e1 := C24_baseline_cumulative p t
  have e2 : p.cumulative_global_baseline_emissions t = ∑ s ∈ Finset.range t, p.dt *
      (p.sumR (p.baseline_emissions (s + 1)) + p.sumR (p.baseline_emissions s)) / 2 := by
    rw [e1]
    refine (sumR_sum p (fun s r => p.dt * (p.baseline_emissions (s + 1) r + p.baseline_emissions s r) / 2)
      t).trans ?_
    refine Finset.sum_congr rfl fun s _ => ?_
    rw [sumR_div, sumR_mul_left, sumR_add]
  have hG : ∀ s ≤ t, σ.G .global_emissions s ≤ p.sumR (p.baseline_emissions s) := by
    intro s hs
    rw [h.global_val hci (hs.trans ht)]
    refine sumR_le fun r hr => ?_
    have h1 := hB s hs r hr
    have h2 := (h.abatement_bounds (hs.trans ht) hr).1
    split
    · simp
    · nlinarith
  have hle : σ.G .cumulative_emissions t ≤ p.cumulative_global_baseline_emissions t := by
    rw [C24_trapezoidal h hz ht, e2]
    refine Finset.sum_le_sum fun s hs => ?_
    have hs := Finset.mem_range.1 hs
    have h1 := hG (s + 1) hs
    have h2 := hG s hs.le
    have := mul_le_mul_of_nonneg_left (add_le_add h1 h2) hdt
    linarith
  have hpos : 0 < p.cumulative_global_baseline_emissions t := lt_of_le_of_ne (hc.trans hle) hne.symm
  constructor
  · by_contra hn
    push Not at hn
    have := mul_neg_of_neg_of_pos hn hpos
    linarith
  · by_contra hn
    push Not at hn
    have := mul_lt_mul_of_pos_right hn hpos
    linarith

/-- … and without abatement it is exactly 1. -/
theorem C64_relative_cumulative_no_policy (h : Solution md p σ)
    (hci : p.use_carbon_intensity_for_baseline = false) (hz : p.cumulative_emissions_trapz = true)
    {t : ℕ} (ht : t ≤ p.tf) (ha : ∀ s ≤ t, ∀ r ∈ p.regions, σ.R .relative_abatement s r = 0) :
    σ.G .emission_relative_cumulative t = 1 := by
  rcases Nat.eq_zero_or_pos t with rfl | h0
  · exact (C64_relative_cumulative h ht).1 rfl
  obtain ⟨hne, e⟩ := (C64_relative_cumulative h ht).2 h0
  have hG : ∀ s ≤ t, σ.G .global_emissions s = p.sumR (p.baseline_emissions s) := by
    intro s hs
    rw [h.global_val hci (hs.trans ht)]
    refine sumR_congr fun r hr => ?_
    rw [ha s hs r hr]; simp
  have e2 : p.cumulative_global_baseline_emissions t = σ.G .cumulative_emissions t := by
    rw [C24_trapezoidal h hz ht, C24_baseline_cumulative p t]
    refine (sumR_sum p (fun s r => p.dt * (p.baseline_emissions (s + 1) r + p.baseline_emissions s r) / 2)
      t).trans ?_
    refine Finset.sum_congr rfl fun s hs => ?_
    have hs := Finset.mem_range.1 hs
    rw [sumR_div, sumR_mul_left, sumR_add, hG (s + 1) hs, hG s hs.le]
  rw [← e2] at e
  exact mul_right_cancel₀ hne (by rw [e, one_mul])

/-! ## A concrete solution meets the hypotheses -/

example := C64_area_price Ex.sol0 (by norm_num [Ex.p0, Ex.ex]) (t := 2) (by norm_num)
  (by simp [Ex.p0, Ex.ex]) (r := "B") (by simp [Ex.p0, Ex.ex])

theorem Ex.reduction2 {r : String} (hr : r ∈ Ex.p0.regions) : Ex.σ0.R .regional_emission_reduction 2 r = 20 := by
  rw [Ex.sol0.reduction_val (t := 2) (by norm_num) (by simp [Ex.p0, Ex.ex]) hr]
  show Ex.aPath 2 * 20 = 20
  norm_num [Ex.aPath]

theorem Ex.totals2 : Spec.worldReduction Ex.p0 Ex.σ0 2 = 40 ∧ 0 < Spec.worldCosts Ex.p0 Ex.σ0 2 := by
  constructor
  · have : Spec.worldReduction Ex.p0 Ex.σ0 2 = Ex.p0.sumR fun _ => 20 := sumR_congr fun r hr => Ex.reduction2 hr
    rw [this]; norm_num [Params.sumR, Ex.p0, Ex.ex]
  · have e := C64_total_costs Ex.sol0 (by norm_num [Ex.p0, Ex.ex]) (t := 2) (by norm_num)
      (by simp [Ex.p0, Ex.ex])
    have hp : 0 < (Ex.p0.regions.map fun r =>
        Ex.σ0.R .carbonprice 2 r * Ex.σ0.R .regional_emission_reduction 2 r).sum := by
      refine sumR_pos (p := Ex.p0) (by simp [Ex.p0, Ex.ex]) fun r hr => ?_
      rw [Ex.reduction2 hr]
      have hc := (Ex.sol0.eqs.mitigation.carbonprice 2 (by simp [Ex.p0, Ex.ex]) r hr).2
      rw [hc, macVal]
      have ha : Ex.σ0.R .relative_abatement 2 r = 1 := by show Ex.aPath 2 = 1; norm_num [Ex.aPath]
      have hl := (C31_positive Ex.sol0 (by norm_num [Ex.p0, Ex.ex]) (t := 2) (by simp [Ex.p0, Ex.ex])).2.2
      have hs : 0 < Ex.p0.MAC_scaling_factor r ∧ 0 < Ex.p0.MAC_gamma := by norm_num [Ex.p0, Ex.ex]
      rw [ha, Real.one_rpow]
      have := hs.1
      have := hs.2
      positivity
    rw [← e] at hp
    exact pos_of_mul_pos_right hp (by norm_num [Ex.p0, Ex.ex])

example := C64_cost_per_reduction Ex.sol0 (t := 2) (by norm_num) (by simp [Ex.p0, Ex.ex]) Ex.totals2.2.le
  (by rw [Ex.totals2.1]; norm_num)
example := C64_reduction_per_cost Ex.sol0 (t := 2) (by norm_num) (by simp [Ex.p0, Ex.ex]) Ex.totals2.2
  (by rw [Ex.totals2.1]; norm_num)
example := C64_reciprocal Ex.sol0 (t := 2) (by norm_num) (by simp [Ex.p0, Ex.ex]) Ex.totals2.2
  (by rw [Ex.totals2.1]; norm_num)
example := C64_average_below_marginal Ex.sol0 (by norm_num [Ex.p0, Ex.ex]) (t := 2) (by norm_num)
  (by simp [Ex.p0, Ex.ex]) (fun r hr => by rw [Ex.reduction2 hr]; norm_num) (P := 2 * Ex.p0.MAC_gamma)
  (by norm_num [Ex.p0, Ex.ex]) (fun r hr => (Ex.sol0.price_bounds (by simp [Ex.p0, Ex.ex]) hr).2)
example := C64_relative_cumulative_range Ex.sol0 rfl rfl (by norm_num [Ex.p0, Ex.ex]) (t := 3) le_rfl
  (fun s _ r _ => by norm_num [Ex.p0, Ex.ex])

end Mimosa
