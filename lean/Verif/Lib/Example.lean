import Verif.Lib.Slr
import Mathlib.Tactic.IntervalCases

/-!
# A concrete solution with all policy constraints switched on

Two regions, four time steps (2020, 2060, 2100, 2140), a carbon budget, a temperature target, inertia limits,
minimum levels, the post-2100 switches, learning and COACCH damages.  Used in the examples beside the theorems
to show that their hypotheses are satisfiable.
-/

set_option linter.unusedSimpArgs false

namespace Mimosa.Ex
open Mimosa

/-- The parameter values of the example; the effort-sharing regime, the capital elasticity and the
convergence year are left open. -/
noncomputable def ex (regime : String) (al : ℝ) (conv : Option ℝ) : Params where
  regions := ["A", "B"]
  tf := 3
  beginyear := 2020
  dt := 40
  population _ _ := 1
  baseline_GDP _ _ := 10
  baseline_emissions _ _ := 20
  use_carbon_intensity_for_baseline := false
  cumulative_emissions_trapz := true
  T0 := 1
  TCRE := 0.0006
  temperature_target := some 2
  perc_reversible_damages := 1
  budget := some 1600
  inertia_global := some (-0.05)
  inertia_regional := some (-0.05)
  global_min_level := some (-20)
  regional_min_level := some (-10)
  non_increasing_emissions_after_2100 := true
  no_pos_emissions_after_budget_year := true
  damage_scale_factor := 1
  noslr := ⟨fun r => if r = "A" then "Robust-Linear" else "Robust-Quadratic", fun _ => 1, fun _ => 1,
    fun _ => 1, fun _ => 1⟩
  slr := ⟨fun r => if r = "A" then "Robust-Linear" else "Robust-Logistic", fun _ => 1, fun _ => 1,
    fun _ => 1, fun _ => 1⟩
  mortality_oldest := ⟨fun _ => 1, fun _ => 1, fun _ => 1⟩
  mortality_older := ⟨fun _ => 1, fun _ => 1, fun _ => 1⟩
  mortality_young := ⟨fun _ => 1, fun _ => 1, fun _ => 1⟩
  MAC_gamma := 1 / 10
  MAC_beta := 3
  MAC_scaling_factor _ := 1
  rel_mitigation_costs_min_level := 0
  LBD_rate := 1 / 2
  LBD_scaling := 1000
  LOT_rate := 1 / 100
  effort_sharing_regime := regime
  percapconv_year := conv
  init_capitalstock_factor _ := 3
  alpha := al
  dk := 1 / 20
  sr := 1 / 5
  ignore_damages := false
  elasmu := 3 / 2
  inequal_aversion := 1 / 2
  PRTP := 1 / 100

/-- Abatement path: none, half, full, full. -/
noncomputable def aPath (t : ℕ) : ℝ := if t = 0 then 0 else if t = 1 then 1 / 2 else 1

/-- Drivers without trade and transfers. -/
noncomputable def x0 (lvl : ℕ → ℝ) : Drivers := ⟨fun t _ => aPath t, fun _ _ => 0, fun _ _ => 0, lvl, none⟩

variable {regime : String} {al : ℝ} {conv : Option ℝ}

theorem baseline_cum (t : ℕ) (ht : t ≤ 3) :
    (ex regime al conv).cumulative_global_baseline_emissions t = 1600 * t := by
  interval_cases t <;>
  simp [Params.cumulative_global_baseline_emissions, Params.cumulative_baseline_emissions, ex,
    List.range_succ, Params.trapz] <;> norm_num

theorem admissible (h0 : 0 ≤ al) (h1 : al < 1) : (ex regime al conv).Admissible where
  regions_ne := by simp [ex]
  dt_pos := by simp [ex]
  pop_pos := by simp [ex]
  gdp_pos := by simp [ex]
  sum_emissions_pos := by simp [ex]
  cum_ne := by
    intro t ht
    rw [baseline_cum _ ht]
    push_cast
    positivity
  lbd_pos := by simp [ex]
  lbd_scaling := by simp [ex]
  lot := by simp only [ex]; norm_num
  beta_pos := by simp [ex]
  alpha_nonneg := h0
  alpha_lt := h1
  dk_nonneg := by simp [ex]
  dk_lt := by simp [ex]; norm_num
  sr_nonneg := by simp [ex]
  capital_pos := by simp [ex]
  elasmu := by simp [ex]; norm_num
  inequal := by simp only [ex]; norm_num

section
variable (y : Drivers) (hy : (y.a = fun t _ => aPath t) ∧ y.base = none)
include hy

theorem em_val (t : ℕ) (r : String) : y.em (ex regime al conv) t r = (1 - aPath t) * 20 := by
  simp [Drivers.em, Drivers.eb, ex, hy.1, hy.2]
theorem gE_val (t : ℕ) : y.gE (ex regime al conv) t = (1 - aPath t) * 40 := by
  simp only [Drivers.gE, Params.sumR]
  show (["A", "B"].map (y.em (ex regime al conv) t)).sum = _
  simp [em_val y hy]; ring

theorem cum_val : y.cum (ex regime al conv) 0 = 0 ∧ y.cum (ex regime al conv) 1 = 1200 ∧
    y.cum (ex regime al conv) 2 = 1600 ∧ y.cum (ex regime al conv) 3 = 1600 := by
  have e : ∀ t, y.cum (ex regime al conv) (t + 1) = y.cum (ex regime al conv) t +
      40 * (y.gE (ex regime al conv) (t + 1) + y.gE (ex regime al conv) t) / 2 := fun t => by
    simp [Drivers.cum, ex]
  have h0 : y.cum (ex regime al conv) 0 = 0 := rfl
  have h1 : y.cum (ex regime al conv) 1 = 1200 := by
    rw [e 0, h0, gE_val y hy, gE_val y hy]; simp [aPath]; norm_num
  have h2 : y.cum (ex regime al conv) 2 = 1600 := by
    rw [e 1, h1, gE_val y hy, gE_val y hy]; simp [aPath]; norm_num
  have h3 : y.cum (ex regime al conv) 3 = 1600 := by
    rw [e 2, h2, gE_val y hy, gE_val y hy]; simp [aPath]
  exact ⟨h0, h1, h2, h3⟩

theorem temp_range (t : ℕ) (ht : t ≤ 3) :
    1 ≤ y.temp (ex regime al conv) t ∧ y.temp (ex regime al conv) t ≤ 1.96 := by
  obtain ⟨h0, h1, h2, h3⟩ := cum_val (regime := regime) (al := al) (conv := conv) y hy
  have e : ∀ t, y.temp (ex regime al conv) t = 1 + 0.0006 * y.cum (ex regime al conv) t := fun t => rfl
  rw [e]
  interval_cases t <;> simp only [h0, h1, h2, h3] <;> norm_num

theorem lbd_range (t : ℕ) (ht : t ≤ 3) :
    0 < y.lbd (ex regime al conv) t ∧ y.lbd (ex regime al conv) t ≤ 1 := by
  have e : y.lbd (ex regime al conv) t =
      soft_min ((1600 * t - y.cum (ex regime al conv) t) / 1000 + 1) 1 ^
        (ex regime al conv).log_LBD_rate := by
    simp only [Drivers.lbd, baseline_cum t ht]; rfl
  have hl : (ex regime al conv).log_LBD_rate ≤ 0 := by
    unfold Params.log_LBD_rate
    apply div_nonpos_of_nonpos_of_nonneg
    · exact Real.log_nonpos (by simp [ex]) (by simp [ex]; norm_num)
    · exact Real.log_nonneg (by norm_num)
  have h1 : 1 ≤ soft_min (((1600 : ℝ) * t - y.cum (ex regime al conv) t) / 1000 + 1) 1 := by
    have h2 := soft_min_gt_self (((1600 : ℝ) * t - y.cum (ex regime al conv) t) / 1000 + 1) one_pos
    have h3 : y.cum (ex regime al conv) t ≤ 1600 * t := by
      obtain ⟨c0, c1, c2, c3⟩ := cum_val (regime := regime) (al := al) (conv := conv) y hy
      clear h2 e
      interval_cases t
      · rw [c0]; norm_num
      · rw [c1]; norm_num
      · rw [c2]; norm_num
      · rw [c3]; norm_num
    have h4 : 0 ≤ ((1600 : ℝ) * t - y.cum (ex regime al conv) t) / 1000 :=
      div_nonneg (by linarith) (by norm_num)
    linarith
  rw [e]
  exact ⟨Real.rpow_pos_of_pos (by linarith) _, Real.rpow_le_one_of_one_le_of_nonpos h1 hl⟩

omit hy in
theorem lot_range (t : ℕ) :
    0 < Drivers.lot (ex regime al conv) t ∧ Drivers.lot (ex regime al conv) t ≤ 1 := by
  have e : Drivers.lot (ex regime al conv) t = 1 / (1 + 1 / 100) ^ (t : ℝ) := rfl
  have h : (1 : ℝ) ≤ (1 + 1 / 100) ^ (t : ℝ) := Real.one_le_rpow (by norm_num) (Nat.cast_nonneg t)
  rw [e]
  exact ⟨by positivity, (div_le_one (by linarith)).2 h⟩

theorem learn_range (t : ℕ) (ht : t ≤ 3) :
    0 < y.learn (ex regime al conv) t ∧ y.learn (ex regime al conv) t ≤ 1 := by
  obtain ⟨h1, h2⟩ := lbd_range (regime := regime) (al := al) (conv := conv) y hy t ht
  obtain ⟨h3, h4⟩ := lot_range (regime := regime) (al := al) (conv := conv) t
  exact ⟨mul_pos h1 h3, mul_le_one₀ h2 h3.le h4⟩

omit hy in
theorem aPath_range (t : ℕ) : 0 ≤ aPath t ∧ aPath t ≤ 1 := by
  unfold aPath; split_ifs <;> norm_num

theorem area_nonneg (t : ℕ) (ht : t ≤ 3) (r : String) : 0 ≤ y.area (ex regime al conv) t r := by
  have h1 := (learn_range (regime := regime) (al := al) (conv := conv) y hy t ht).1
  have h2 := (aPath_range t).1
  have e : y.area (ex regime al conv) t r = y.learn (ex regime al conv) t * 1 * (1 / 10) *
    aPath t ^ ((3 : ℝ) + 1) / (3 + 1) * 20 := by simp [Drivers.area, Drivers.bl, ex, hy.1, hy.2]
  have h3 : 0 ≤ aPath t ^ ((3 : ℝ) + 1) := Real.rpow_nonneg h2 _
  rw [e]; positivity

theorem slr_facts (t : ℕ) (ht : t ≤ 3) : 0 ≤ y.th (ex regime al conv) t ∧
    (0.015 ≤ y.gs (ex regime al conv) t ∧ y.gs (ex regime al conv) t ≤ 0.26) ∧
      (0.006 ≤ y.gi (ex regime al conv) t ∧ y.gi (ex regime al conv) t ≤ 7.3) := by
  apply Drivers.slr_ranges (p := ex regime al conv) (x := y) (by simp [ex]) (by simp [ex])
  · intro t ht; linarith [(temp_range (regime := regime) (al := al) (conv := conv) y hy t ht).1]
  · intro t ht
    have := (temp_range (regime := regime) (al := al) (conv := conv) y hy t ht).2
    show 0.0008 * 40 * (_ + 1) ≤ (0.26 : ℝ)
    linarith
  · intro t ht
    have := (temp_range (regime := regime) (al := al) (conv := conv) y hy t ht).2
    show 40 * (_ + 0.6) ≤ (7300 : ℝ)
    linarith
  · exact ht

theorem th_step (t : ℕ) (ht : t < 3) :
    y.th (ex regime al conv) (t + 1) ≤ y.th (ex regime al conv) t + 0.2 := by
  have h0 := (slr_facts (regime := regime) (al := al) (conv := conv) y hy t ht.le).1
  have hT := (temp_range (regime := regime) (al := al) (conv := conv) y hy t ht.le).2
  have e : y.th (ex regime al conv) (t + 1) = (1 - 0.024076141150722) ^ ((40 : ℝ) / 10) *
      y.th (ex regime al conv) t +
      0.024076141150722 * (40 / 10) * (y.temp (ex regime al conv) t * 0.5) := thermal_step _ _ _
  have hp : (1 - 0.024076141150722 : ℝ) ^ ((40 : ℝ) / 10) ≤ 1 :=
    Real.rpow_le_one (by norm_num) (by norm_num) (by norm_num)
  rw [e]; nlinarith

theorem slr_le (t : ℕ) (ht : t ≤ 3) : y.slr (ex regime al conv) t ≤ 10 := by
  have hT := fun t ht => th_step (regime := regime) (al := al) (conv := conv) y hy t ht
  have h0 : y.th (ex regime al conv) 0 ≤ 1 := by
    show SeaLevelRise.slr_thermal_expansion_init 1 ≤ 1
    unfold SeaLevelRise.slr_thermal_expansion_init SeaLevelRise.thermal_init
      SeaLevelRise.thermal_adjust_rate SeaLevelRise.thermal_equil
    norm_num
  have h1 := hT 0 (by norm_num)
  have h2 := hT 1 (by norm_num)
  have h3 := hT 2 (by norm_num)
  have hth : y.th (ex regime al conv) t ≤ 2 := by interval_cases t <;> simp at h1 h2 h3 <;> linarith
  have hf := slr_facts (regime := regime) (al := al) (conv := conv) y hy t ht
  unfold Drivers.slr
  linarith [hf.2.1.2, hf.2.2.2]

theorem slr_nonneg (t : ℕ) (ht : t ≤ 3) : 0 ≤ y.slr (ex regime al conv) t := by
  have hf := slr_facts (regime := regime) (al := al) (conv := conv) y hy t ht
  unfold Drivers.slr
  linarith [hf.2.1.1, hf.2.2.1, hf.1]

omit hy in
theorem formN_A (z : ℝ) : formVal z (ex regime al conv).noslr "A" = z / 100 := by
  have h : Damages.strContains "Linear" "Robust-Linear" = true := by decide
  simp [formVal, ex, h]
omit hy in
theorem formN_B (z : ℝ) : formVal z (ex regime al conv).noslr "B" = (z + z ^ 2) / 100 := by
  have h : Damages.strContains "Linear" "Robust-Quadratic" = false := by decide
  have h2 : Damages.strContains "Quadratic" "Robust-Quadratic" = true := by decide
  simp [formVal, ex, h, h2]
omit hy in
theorem formS_A (z : ℝ) : formVal z (ex regime al conv).slr "A" = z / 100 := by
  have h : Damages.strContains "Linear" "Robust-Linear" = true := by decide
  simp [formVal, ex, h]
omit hy in
theorem formS_B (z : ℝ) : formVal z (ex regime al conv).slr "B" =
    (1 / (1 + Real.exp (soft_max (-z) 10 (1 / 10))) - 1 / 2) / 100 := by
  have h : Damages.strContains "Linear" "Robust-Logistic" = false := by decide
  have h2 : Damages.strContains "Quadratic" "Robust-Logistic" = false := by decide
  have h3 : Damages.strContains "Logistic" "Robust-Logistic" = true := by decide
  simp [formVal, ex, h, h2, h3]; norm_num

omit hy in
theorem formsOk (z : ℝ) (r : String) (hr : r ∈ ["A", "B"]) :
    FormOk z (ex regime al conv).noslr r ∧ FormOk z (ex regime al conv).slr r := by
  have h1 : Damages.strContains "Linear" "Robust-Linear" = true := by decide
  have h2 : Damages.strContains "Quadratic" "Robust-Quadratic" = true := by decide
  have h3 : Damages.strContains "Logistic" "Robust-Logistic" = true := by decide
  simp only [List.mem_cons, List.not_mem_nil, or_false] at hr
  rcases hr with rfl | rfl
  · exact ⟨Or.inl (by simp [ex, h1]), Or.inl (by simp [ex, h1])⟩
  · refine ⟨Or.inr (Or.inl (by simp [ex, h2])), Or.inr (Or.inr ⟨by simp [ex, h3], ?_, ?_⟩)⟩
    · simp only [ex]; positivity
    · simp only [ex]; norm_num

omit hy in
theorem formS_B_range (z : ℝ) : -0.005 ≤ formVal z (ex regime al conv).slr "B" ∧
    formVal z (ex regime al conv).slr "B" ≤ 0.005 := by
  rw [formS_B]
  have hp := Real.exp_pos (soft_max (-z) 10 (1 / 10))
  have h1 : 0 < 1 / (1 + Real.exp (soft_max (-z) 10 (1 / 10))) := by positivity
  have h2 : 1 / (1 + Real.exp (soft_max (-z) 10 (1 / 10))) ≤ 1 :=
    (div_le_one (by positivity)).2 (by linarith)
  constructor <;> linarith

/-- Everything except trade, transfers and effort sharing is in order. -/
theorem ok_of {md : Modules} (h0 : 0 ≤ al) (h1 : al < 1) (htr : md.trade ≠ .globalcostpool)
    (bal_sum : md.trade = .emissiontrade → ∀ t ≤ 3, (ex regime al conv).sumR (y.bal t) = 0)
    (tr_init : md.transfer = .globaldamagepool → ∀ r ∈ ["A", "B"], y.tr 0 r = 0)
    (tr_sum : md.transfer = .globaldamagepool → ∀ t ≤ 3, (ex regime al conv).sumR (y.tr t) = 0)
    (tr_max : md.transfer = .globaldamagepool → ∀ t ≤ 3, ∀ r ∈ ["A", "B"],
      -(y.dam md (ex regime al conv) t r) * y.gross md (ex regime al conv) t r ≤ y.tr t r)
    (hcost : ∀ t ≤ 3, ∀ r ∈ ["A", "B"], 0 ≤ y.cost md (ex regime al conv) t r)
    (effort : EffortEqs (ex regime al conv) (y.env md (ex regime al conv)) md.transfer)
    (effort_scope : regime = "per_cap_convergence" → md.trade = .emissiontrade) :
    y.Ok md (ex regime al conv) := by
  have hadm := admissible (regime := regime) (conv := conv) h0 h1
  obtain ⟨c0, c1, c2, c3⟩ := cum_val (regime := regime) (al := al) (conv := conv) y hy
  have hT := fun t ht => temp_range (regime := regime) (al := al) (conv := conv) y hy t ht
  constructor
  case a_init => intro r hr; simp [hy.1, aPath]
  case a_nonneg => intro t ht r hr; rw [hy.1]; exact (aPath_range t).1
  case a_le => intro t ht r hr; rw [hy.1]; linarith [(aPath_range t).2]
  case exogenous => exact fun _ => hy.2
  case endogenous => intro h; cases h
  case trade => exact htr
  case bal_sum => exact bal_sum
  case tr_init => exact tr_init
  case tr_sum => exact tr_sum
  case tr_max => exact tr_max
  case target =>
    intro t ht T hT' hy'
    have : T = 2 := by simpa [ex] using hT'.symm
    rw [this]; linarith [(hT t ht).2]
  case reversible => intro _; simp [ex]
  case budget =>
    intro t ht b hb hy'
    have : b = 1600 := by simpa [ex] using hb.symm
    rw [this]
    change t ≤ 3 at ht
    interval_cases t <;> simp only [c0, c1, c2, c3] <;> norm_num
  case cum_nonneg =>
    intro t ht
    change t ≤ 3 at ht
    interval_cases t <;> simp only [c0, c1, c2, c3] <;> norm_num
  case global_inertia =>
    intro t ht i hi
    have : i = -0.05 := by simpa [ex] using hi.symm
    rw [this, gE_val y hy, gE_val y hy]
    change t < 3 at ht
    have e : (ex regime al conv).sumR (fun r => (ex regime al conv).baseline_emissions 0 r) = 40 := by
      simp [Params.sumR, ex]; norm_num
    rw [e]
    show 40 * (-0.05) * 40 ≤ _
    interval_cases t <;> simp [aPath] <;> norm_num
  case regional_inertia =>
    intro t ht r hr i hi
    have : i = -0.05 := by simpa [ex] using hi.symm
    rw [this, em_val y hy, em_val y hy]
    change t < 3 at ht
    show 40 * (-0.05) * 20 ≤ _
    interval_cases t <;> simp [aPath] <;> norm_num
  case global_min =>
    intro t ht l hl
    have : l = -20 := by simpa [ex] using hl.symm
    rw [this, gE_val y hy]; linarith [(aPath_range t).2]
  case regional_min =>
    intro t ht r hr l hl
    have : l = -10 := by simpa [ex] using hl.symm
    rw [this, em_val y hy]; linarith [(aPath_range t).2]
  case start => simp [ex]; norm_num
  case non_increasing =>
    intro t ht r hr _ _
    rw [em_val y hy, em_val y hy]
    change t < 3 at ht
    interval_cases t <;> simp [aPath]
    norm_num
  case net_zero =>
    intro t ht hy' _ _
    rw [gE_val y hy]
    change t ≤ 3 at ht
    have e : ∀ s : ℕ, (ex regime al conv).year s = 2020 + s * 40 := fun s => by simp [Params.year, ex]
    rw [e] at hy'
    interval_cases t <;> simp [aPath] at hy' ⊢ <;> norm_num at hy'
  case slr_nonneg =>
    intro t ht
    have := slr_facts (regime := regime) (al := al) (conv := conv) y hy t ht
    exact ⟨this.1, by linarith [this.2.1.1], by linarith [this.2.2.1]⟩
  case forms =>
    intro _ t ht r hr
    exact ⟨(formsOk _ r hr).1, (formsOk _ r hr).1, (formsOk _ r hr).2, (formsOk _ r hr).2⟩
  case damS_bounds =>
    intro _ t ht r hr
    have e : y.damS (ex regime al conv) t r = 1 * (formVal (y.slr (ex regime al conv) t)
      (ex regime al conv).slr r - formVal (y.slr (ex regime al conv) 0) (ex regime al conv).slr r) := rfl
    rw [e]
    have hr' : r ∈ ["A", "B"] := hr
    simp only [List.mem_cons, List.not_mem_nil, or_false] at hr'
    have a1 := slr_le (regime := regime) (al := al) (conv := conv) y hy t ht
    have a2 := slr_le (regime := regime) (al := al) (conv := conv) y hy 0 (by norm_num)
    have a3 := slr_nonneg (regime := regime) (al := al) (conv := conv) y hy t ht
    have a4 := slr_nonneg (regime := regime) (al := al) (conv := conv) y hy 0 (by norm_num)
    rcases hr' with rfl | rfl
    · rw [formS_A, formS_A]; constructor <;> linarith
    · have b1 := formS_B_range (regime := regime) (al := al) (conv := conv)
        (y.slr (ex regime al conv) t)
      have b2 := formS_B_range (regime := regime) (al := al) (conv := conv)
        (y.slr (ex regime al conv) 0)
      constructor <;> linarith [b1.1, b1.2, b2.1, b2.2]
  case price_nonneg =>
    intro t ht r hr
    have h1 := (learn_range (regime := regime) (al := al) (conv := conv) y hy t ht).1
    have e : y.price (ex regime al conv) t r = y.learn (ex regime al conv) t * 1 * (1 / 10) *
      aPath t ^ (3 : ℝ) := by simp [Drivers.price, ex, hy.1]
    have h3 : 0 ≤ aPath t ^ (3 : ℝ) := Real.rpow_nonneg (aPath_range t).1 _
    rw [e]; positivity
  case price_le =>
    intro t ht r hr
    obtain ⟨h1, h2⟩ := learn_range (regime := regime) (al := al) (conv := conv) y hy t ht
    have e : y.price (ex regime al conv) t r = y.learn (ex regime al conv) t * 1 * (1 / 10) *
      aPath t ^ (3 : ℝ) := by simp [Drivers.price, ex, hy.1]
    have h3 : aPath t ^ (3 : ℝ) ≤ 1 := Real.rpow_le_one (aPath_range t).1 (aPath_range t).2 (by norm_num)
    have h4 : 0 ≤ aPath t ^ (3 : ℝ) := Real.rpow_nonneg (aPath_range t).1 _
    rw [e]
    show _ ≤ 2 * (1 / 10 : ℝ)
    nlinarith [mul_le_one₀ h2 h4 h3]
  case rel_costs_min =>
    intro t ht r hr
    have hg := y.gross_pos md (ex regime al conv) hadm ht hr
    have : (if t > 0 then (ex regime al conv).rel_mitigation_costs_min_level else 0) = 0 := by
      simp [ex]
    rw [this]
    exact div_nonneg (hcost t ht r hr) hg.le
  case effort => exact effort
  case effort_scope => exact effort_scope
end

/-- Modules without trade and transfers. -/
def md0 (d : DamageModule) (w : WelfareModule) (o : ObjectiveModule) : Modules :=
  ⟨d, .notrade, .notransfer, w, o⟩

theorem effort_none {tm : TransferModule} {σ : Env} :
    EffortEqs (ex "noregime" al conv) σ tm := by
  constructor
  · intro t ht r hr h; exact absurd (show "noregime" = "equal_mitigation_costs" from h) (by decide)
  · intro t ht r hr h; exact absurd (show "noregime" = "equal_total_costs" from h) (by decide)
  · intro t ht r hr h; exact absurd (show "noregime" = "per_cap_convergence" from h) (by decide)

/-- The example is a solution, for every damage, welfare and objective module. -/
theorem solution0 (d : DamageModule) (w : WelfareModule) (o : ObjectiveModule) (h0 : 0 ≤ al)
    (h1 : al < 1) : Solution (md0 d w o) (ex "noregime" al conv)
      ((x0 fun _ => 0).env (md0 d w o) (ex "noregime" al conv)) := by
  apply Drivers.build_solution (admissible h0 h1)
  apply ok_of _ ⟨rfl, rfl⟩ h0 h1
  · simp [md0]
  · simp [md0]
  · simp [md0]
  · simp [md0]
  · simp [md0]
  · intro t ht r hr
    show 0 ≤ Drivers.area _ _ t r + 0
    have := area_nonneg (regime := "noregime") (al := al) (conv := conv) (x0 fun _ => 0) ⟨rfl, rfl⟩ t ht r
    linarith
  · exact effort_none
  · intro h; exact absurd h (by decide)

/-- The standard example: COACCH damages, welfare-loss minimisation, utility objective, `alpha = 0.3`. -/
noncomputable abbrev p0 : Params := ex "noregime" (3 / 10) none
abbrev m0 : Modules := md0 .COACCH .welfare_loss_minimising .utility
noncomputable abbrev σ0 : Env := (x0 fun _ => 0).env m0 p0
theorem sol0 : Solution m0 p0 σ0 := solution0 _ _ _ (by norm_num) (by norm_num)

end Mimosa.Ex
