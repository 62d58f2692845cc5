import Verif.Props.CostEffective
import Verif.Props.BindingExamples

/-!
# Concrete cases for C77

Two regions, one with half the abatement costs of the other, and a carbon budget that cannot be met without abatement.
An optimum exists; it respects the budget at the least cost and has one carbon price in 2060.
-/

namespace Mimosa
namespace Ex
variable {w : WelfareModule} {md : Modules} {σ : Env}

/-- Abatement costs half as much in region "A". -/
noncomputable def tqLevel (r : String) : ℝ := if r = "A" then 1 / 2 else 1

/-- A world with a carbon budget and no regional limits. -/
noncomputable def tq : Params :=
  (Spec.withCosts (bq none (some 1600) false) (1 / 20) tqLevel (1 / 100) 1).withLimits
    { bq none (some 1600) false with inertia_regional := none, regional_min_level := none,
                                     non_increasing_emissions_after_2100 := false }

theorem tqLevel_range (r : String) : 0 < tqLevel r ∧ 1 / 2 ≤ tqLevel r ∧ tqLevel r ≤ 1 := by
  unfold tqLevel; split <;> norm_num

theorem tq_milder : Spec.Milder (bq none (some 1600) false) (1 / 20) tqLevel (1 / 100) 1 :=
  ⟨by norm_num [ex], fun r _ => ⟨(tqLevel_range r).1.le, (tqLevel_range r).2.2⟩, by norm_num [ex], by norm_num [ex]⟩

theorem tq_admissible : tq.Admissible := { Milder.admissible (k := (bq none (some 1600) false).TCRE) bq_admissible tq_milder with }

theorem tq_mac : Spec.MacData tq :=
  ⟨by norm_num [tq, ex, Params.withLimits], by norm_num [tq, ex, Params.withLimits], fun r _ => (tqLevel_range r).1, by norm_num [tq, ex, Params.withLimits]⟩

theorem tq_sol (w : WelfareModule) (o : ObjectiveModule) : ∃ σ, Solution (md0 .nodamage w o) tq σ := by
  obtain ⟨σ, h, -⟩ := C68_policy_possible bq_admissible tq_milder
    ⟨⟨rfl, rfl, le_rfl, le_rfl, by norm_num [ex], by simp [ex]⟩, rfl⟩ rfl
    (bq_sol (w := w) (o := o) (nz := false) (.inl rfl) (.inr rfl))
  refine ⟨σ, C59_still_feasible h ?_ (by norm_num [ex]) (by simp [ex])⟩
  exact
    { target := fun b h => by cases h
      budget := fun b h => ⟨b, h, le_rfl⟩
      inertia_global := fun b h => ⟨b, h, le_rfl⟩
      inertia_regional := fun b h => by cases h
      global_min := fun b h => ⟨b, h, le_rfl⟩
      regional_min := fun b h => by cases h
      non_increasing := fun h => by cases h
      net_zero := id
      costs_min := le_rfl
      regime := .inl rfl }

/-- Without damages or transfers, with any trade module. -/
abbrev tqMd (tr : TradeModule) (w : WelfareModule) (o : ObjectiveModule) : Modules := ⟨.nodamage, tr, .notransfer, w, o⟩

theorem tq_optimum (w : WelfareModule) (o : ObjectiveModule) {tr : TradeModule} (htr : tr ≠ .globalcostpool) :
    ∃ σ, Optimal (tqMd tr w o) tq σ := by
  refine C65_optimum_exists_exogenous tq_admissible (fun h => by cases h) rfl ?_
  obtain ⟨σ, h⟩ := tq_sol w o
  cases tr with
  | notrade => exact ⟨σ, h⟩
  | globalcostpool => exact absurd rfl htr
  | emissiontrade =>
    obtain ⟨σ', h', -⟩ := C62_trade_allowed h rfl
    exact ⟨σ', h'⟩

theorem tq_shared {tr : TradeModule} {o : ObjectiveModule} (ho : o = .utility → tr = .emissiontrade) :
    Spec.SharedEffort (tqMd tr w o) tq := by
  refine ⟨?_, rfl, rfl, le_rfl, le_rfl, by norm_num [tq, ex, Params.withLimits], rfl, fun t _ r _ => by norm_num [tq, ex, Params.withLimits]⟩
  cases o with
  | utility => exact .inl ⟨rfl, ho rfl⟩
  | globalcosts => exact .inr ⟨rfl, rfl⟩

section
variable {o : ObjectiveModule} {tr : TradeModule} (h : Solution (tqMd tr w o) tq σ)
include h

theorem tq_area {t : ℕ} (ht : t ≤ 3) {r : String} (hr : r ∈ tq.regions) :
    0 ≤ σ.R .area_under_MAC t r ∧ σ.R .area_under_MAC t r ≤ 5 / 4 := by
  have h1 := (h.eqs.mitigation.area t ht r hr).2
  have h2 := (h.eqs.mitigation.carbonprice t ht r hr).2
  have h3 : σ.R .baseline t r = 20 := h.eqs.emissions.baseline t ht r hr
  have ha := h.abatement_bounds (t := t) ht hr
  have hp := h.price_bounds (t := t) ht hr
  have hp2 : σ.R .carbonprice t r ≤ 2 * (1 / 20) := hp.2
  have e : σ.R .area_under_MAC t r = 5 * (σ.R .carbonprice t r * σ.R .relative_abatement t r) := by
    rw [h1, h2, h3]
    show σ.G .learning_factor t * tqLevel r * (1 / 20) * σ.R .relative_abatement t r ^ ((3 : ℝ) + 1) / (3 + 1) * 20 =
      5 * (σ.G .learning_factor t * tqLevel r * (1 / 20) * σ.R .relative_abatement t r ^ (3 : ℝ) * σ.R .relative_abatement t r)
    rw [Real.rpow_add_one' ha.1 (by norm_num)]
    ring
  rw [e]
  constructor
  · have := mul_nonneg hp.1 ha.1; linarith
  · have := mul_le_mul hp2 ha.2 ha.1 (by norm_num); linarith

end

section
variable {o : ObjectiveModule} (h : Solution (tqMd .emissiontrade w o) tq σ)
include h

theorem tq_costs {t : ℕ} (ht : t ≤ 3) {r : String} (hr : r ∈ tq.regions) : σ.R .mitigation_costs t r ≤ 5 / 2 := by
  have hs := Shift.sum_costs (fun h => by cases h) h (t := t) ht
  have hs : (List.map (fun r => σ.R .mitigation_costs t r) ["A", "B"]).sum =
    (List.map (fun r => σ.R .area_under_MAC t r) ["A", "B"]).sum := hs
  simp only [List.map_cons, List.map_nil, List.sum_cons, List.sum_nil] at hs
  have hA := (tq_area h ht (r := "A") (by simp [tq, ex, Params.withLimits])).2
  have hB := (tq_area h ht (r := "B") (by simp [tq, ex, Params.withLimits])).2
  have nn : ∀ q ∈ tq.regions, 0 ≤ σ.R .mitigation_costs t q := fun q hq => NoAbate.mitig_nonneg tq_admissible le_rfl h ht hq
  have nA := nn "A" (by simp [tq, ex, Params.withLimits])
  have nB := nn "B" (by simp [tq, ex, Params.withLimits])
  have hr : r = "A" ∨ r = "B" := by simpa [tq, ex, Params.withLimits] using hr
  rcases hr with rfl | rfl <;> linarith

theorem tq_capital {r : String} (hr : r ∈ tq.regions) {t : ℕ} (ht : t ≤ 3) : 30 ≤ σ.R .capital_stock t r := by
  induction t with
  | zero => rw [C37_initial h hr]; norm_num [tq, ex, Params.withLimits]
  | succ t ih =>
    have ih := ih (by omega)
    have g : σ.R .GDP_gross (t + 1) r = 10 := by
      rw [(h.eqs.economy.gross t ht r hr).2]
      simp [get_TFP_value, calc_GDP_real, tq, ex, Params.withLimits]
    have n := NoAbate.net_eq (.inl rfl) h (t := t + 1) ht hr
    have hi : σ.R .investments (t + 1) r = 1 / 5 * σ.R .GDP_net (t + 1) r := h.eqs.economy.investments (t + 1) ht r hr
    have hd := decay_range tq_admissible.econData
    rw [C37_explicit h tq_admissible.econData ht hr, le_div_iff₀ (by linarith [hd.2]), hi, n, g]
    have e2 : tq.dt = 40 := rfl
    have := tq_costs h (t := t + 1) ht hr
    rw [e2] at hd ⊢
    linarith [hd.1]

theorem tq_affordable : Spec.Affordable tq σ where
  damages t ht r hr := by
    have hz : ∀ t ≤ tq.tf, ∀ r ∈ tq.regions, σ.R .damage_costs t r = 0 := h.eqs.damages
    rw [hz t ht r hr]; norm_num
  costs t ht r hr := by
    have h1 := tq_costs h (t := t + 1) ht hr
    have h2 := tq_capital h hr (t := t) (Nat.le_of_lt ht)
    show (40 : ℝ) * (1 / 5 * _) < _
    linarith

end

/-- In 2060 nobody has learned enough for the upper bound on abatement to matter. -/
theorem tq_abatement {o : ObjectiveModule} {tr : TradeModule} (h : Solution (tqMd tr w o) tq σ) {r : String} (hr : r ∈ tq.regions) : σ.R .relative_abatement 1 r < 5 / 2 := by
  have ht : 1 ≤ tq.tf := by show 1 ≤ 3; norm_num
  have e := h.eqs.emissions
  have g0 : σ.G .global_emissions 0 = 40 := by
    have := e.global_emissions_init
    rw [this]
    show (List.map (fun _ => (20 : ℝ)) ["A", "B"]).sum = 40
    norm_num
  have g1 : -20 ≤ σ.G .global_emissions 1 := e.global_min_level 1 ht (-20) rfl
  have c1 : σ.G .cumulative_emissions 1 = 40 * (σ.G .global_emissions 1 + σ.G .global_emissions 0) / 2 := by
    have := e.cumulative 0 ht
    rw [e.cumulative_init] at this
    have h2 : σ.G .cumulative_emissions (0 + 1 : ℕ) = 0 + 40 * (σ.G .global_emissions (0 + 1 : ℕ) + σ.G .global_emissions 0) / 2 := this
    simpa using h2
  have cb : tq.cumulative_global_baseline_emissions 1 = 1600 :=
    (baseline_cum (regime := "noregime") (al := 0) (conv := none) 1 (by norm_num)).trans (by norm_num)
  have hp := (h.price_bounds ht hr).2
  have hp2 : σ.R .carbonprice 1 r ≤ 2 * (1 / 20) := hp
  have h2 : σ.R .carbonprice 1 r = σ.G .learning_factor 1 * tqLevel r * (1 / 20) * σ.R .relative_abatement 1 r ^ (3 : ℝ) :=
    (h.eqs.mitigation.carbonprice 1 ht r hr).2
  have ha := (h.abatement_bounds ht hr).1
  have hl : 2 / 5 ≤ σ.G .learning_factor 1 := by
    have m := h.eqs.mitigation
    have lb := (m.lbd 1 ht).2
    have lt := (m.lot 1 ht).2.2
    have ll : tq.log_LBD_rate = -1 := by
      show Real.log (1 / 2) / Real.log 2 = -1
      have : 0 < Real.log 2 := Real.log_pos (by norm_num)
      rw [one_div, Real.log_inv, neg_div, div_self this.ne']
    rw [m.learning 1 ht, lb, lt, ll, cb]
    show 2 / 5 ≤ soft_min ((1600 - σ.G .cumulative_emissions 1) / 1000 + 1) 1 ^ (-1 : ℝ) * (1 / (1 + 1 / 100) ^ ((1 : ℕ) : ℝ))
    have s0 := soft_min_pos_one ((1600 - σ.G .cumulative_emissions 1) / 1000 + 1)
    have s1 : soft_min ((1600 - σ.G .cumulative_emissions 1) / 1000 + 1) 1 ≤ 23 / 10 := by
      have := soft_min_le ((1600 - σ.G .cumulative_emissions 1) / 1000 + 1) (s := 1) (by norm_num)
      have hpi : (1 : ℝ) / (25 * Real.pi) ≤ 1 / 75 := by
        apply one_div_le_one_div_of_le (by norm_num)
        linarith [Real.pi_gt_three]
      have hm : max ((1600 - σ.G .cumulative_emissions 1) / 1000 + 1) 0 ≤ 22 / 10 := by
        apply max_le _ (by norm_num)
        rw [c1, g0]; linarith
      linarith
    rw [Real.rpow_neg_one, Nat.cast_one, Real.rpow_one]
    have : (23 / 10 : ℝ)⁻¹ ≤ (soft_min ((1600 - σ.G .cumulative_emissions 1) / 1000 + 1) 1)⁻¹ := inv_anti₀ s0 s1
    linarith
  by_contra hno
  push Not at hno
  have q : (5 / 2 : ℝ) ^ (3 : ℝ) ≤ σ.R .relative_abatement 1 r ^ (3 : ℝ) :=
    Real.rpow_le_rpow (by norm_num) hno (by norm_num)
  rw [show (3 : ℝ) = ((3 : ℕ) : ℝ) by norm_num, Real.rpow_natCast, Real.rpow_natCast] at q
  rw [show (3 : ℝ) = ((3 : ℕ) : ℝ) by norm_num, Real.rpow_natCast] at h2
  have l1 := (tqLevel_range r).2.1
  have k1 : 2 / 5 * (1 / 2) ≤ σ.G .learning_factor 1 * tqLevel r := mul_le_mul hl l1 (by norm_num) (by linarith)
  have k2 : 2 / 5 * (1 / 2) * (1 / 20) * (5 / 2 : ℝ) ^ 3 ≤ σ.G .learning_factor 1 * tqLevel r * (1 / 20) * σ.R .relative_abatement 1 r ^ 3 :=
    mul_le_mul (by linarith) q (by norm_num) (by linarith)
  rw [← h2] at k2
  norm_num at k2
  linarith

/-- C77 applies to a real optimum: one carbon price in 2060, and each year's world emissions at the least cost. -/
example (w : WelfareModule) : ∃ σ, Optimal (tqMd .emissiontrade w .utility) tq σ ∧
    (∀ r ∈ tq.regions, σ.R .carbonprice 1 r = σ.G .global_carbonprice 1) ∧
    (∀ τ, Solution (tqMd .emissiontrade w .utility) tq τ →
      τ.G .global_emissions 2 = σ.G .global_emissions 2 →
      (∀ r ∈ tq.regions, Mitigation.MAC (τ.R .relative_abatement 2 r) (σ.G .learning_factor 2) (tqLevel r) (1 / 20) 3 ≤ 1 / 10) →
      σ.R .area_under_MAC 2 "A" + σ.R .area_under_MAC 2 "B" ≤
        Spec.totalCost tq σ 2 fun r => τ.R .relative_abatement 2 r) := by
  obtain ⟨σ, h⟩ := tq_optimum w .utility (tr := .emissiontrade) (by decide)
  have hs := tq_shared (w := w) (tr := .emissiontrade) (o := .utility) fun _ => rfl
  have hsr : tq.sr < 1 := by norm_num [tq, ex, Params.withLimits]
  refine ⟨σ, h, fun r hr => ?_, fun τ hτ hw hpr => ?_⟩
  · exact (C77_one_price tq_admissible tq_mac hs hsr h (fun _ => tq_affordable h.1) (by simp [tq, ex, Params.withLimits]) rfl rfl rfl rfl
      (by show 1 ≤ 3; norm_num) one_pos (fun _ _ => by norm_num [tq, ex, Params.withLimits]) (fun r hr => tq_abatement h.1 hr) hr).1
  · have ht : 2 ≤ tq.tf := by show 2 ≤ 3; norm_num
    have := C77_each_year tq_admissible tq_mac hs hsr h (fun _ => tq_affordable h.1) rfl rfl ht (by norm_num)
      (a := fun r => τ.R .relative_abatement 2 r) ?_ (fun r hr => hτ.abatement_bounds ht hr) ?_ (fun l hl => by cases hl)
    · have e : (List.map (fun r => σ.R .area_under_MAC 2 r) ["A", "B"]).sum ≤ _ := this
      simpa using e
    · have := C23_global_is_sum hτ ht
      rw [← hw, this]
      exact sumR_congr (p := tq) fun r hr => by
        rw [C23_abated_baseline hτ ht (by norm_num) hr, (C23_baseline hτ ht hr).1 rfl]
    · intro r hr
      have e : (2 : ℝ) * (1 / 20) = 1 / 10 := by norm_num
      show _ ≤ (2 : ℝ) * (1 / 20)
      rw [e]; exact hpr r hr

/-- The same for the objective "global costs" without trade: prices are equal there too. -/
example (w : WelfareModule) : ∃ σ, Optimal (tqMd .notrade w .globalcosts) tq σ ∧
    σ.R .carbonprice 1 "A" = σ.R .carbonprice 1 "B" ∧
    ∀ τ, Solution (tqMd .notrade w .globalcosts) tq τ → Spec.SamePolicy tq σ τ →
      ∀ t ≤ tq.tf, (tq.regions.map fun r => τ.R .area_under_MAC t r).sum =
        (tq.regions.map fun r => σ.R .area_under_MAC t r).sum := by
  obtain ⟨σ, h⟩ := tq_optimum w .globalcosts (tr := .notrade) (by decide)
  have hs := tq_shared (w := w) (tr := .notrade) (o := .globalcosts) fun h => by cases h
  have hsr : tq.sr < 1 := by norm_num [tq, ex, Params.withLimits]
  have hab := fun {r} (hr : r ∈ tq.regions) => tq_abatement h.1 hr
  refine ⟨σ, h, ?_, fun τ hτ hsame => ?_⟩
  · exact C77_equal_prices tq_admissible tq_mac hs hsr h (fun hh => by cases hh) (by simp [tq, ex, Params.withLimits]) rfl rfl rfl
      (by show 1 ≤ 3; norm_num) one_pos (by simp [tq, ex, Params.withLimits]) (by simp [tq, ex, Params.withLimits]) (by norm_num [tq, ex, Params.withLimits])
      (by norm_num [tq, ex, Params.withLimits]) (hab (by simp [tq, ex, Params.withLimits])) (hab (by simp [tq, ex, Params.withLimits]))
  · have hw := fun t (ht : t ≤ tq.tf) => (Milder.emissions (γ := tq.MAC_gamma) (sc := tq.MAC_scaling_factor)
      (lot := tq.LOT_rate) (s := tq.damage_scale_factor) (k := tq.TCRE) h.1 hτ hsame rfl ht).2
    refine C77_least_cost tq_admissible tq_mac hs hsr h (fun hh => by cases hh) hτ hw fun t ht => le_of_eq ?_
    refine sumR_congr (p := tq) fun r hr => ?_
    rw [(h.1.eqs.mitigation.area t ht r hr).2, (hτ.eqs.mitigation.area t ht r hr).2,
      (C23_baseline h.1 ht hr).1 rfl, (C23_baseline hτ ht hr).1 rfl]
    rcases Nat.eq_zero_or_pos t with rfl | h0
    · have z1 := (C32_no_abatement h.1 tq_mac hr).1
      have z2 := (C32_no_abatement hτ tq_mac hr).1
      unfold acVal
      rw [z1, z2, Real.zero_rpow (by show (3 : ℝ) + 1 ≠ 0; norm_num)]; ring
    · have hl := (Milder.learning (γ := tq.MAC_gamma) (sc := tq.MAC_scaling_factor)
        (lot := tq.LOT_rate) (s := tq.damage_scale_factor) (k := tq.TCRE) h.1 hτ hsame rfl tq_admissible
        ⟨⟨tq_mac.gamma_pos.le, le_rfl⟩, fun r hr => ⟨(tq_mac.scaling_pos r hr).le, le_rfl⟩, le_rfl,
          by norm_num [tq, ex, Params.withLimits]⟩ ht).2
      have hl' := (Milder.learning (γ := tq.MAC_gamma) (sc := tq.MAC_scaling_factor)
        (lot := tq.LOT_rate) (s := tq.damage_scale_factor) (k := tq.TCRE) hτ h.1
        (fun t h0 ht r hr => (hsame t h0 ht r hr).symm) rfl tq_admissible
        ⟨⟨tq_mac.gamma_pos.le, le_rfl⟩, fun r hr => ⟨(tq_mac.scaling_pos r hr).le, le_rfl⟩, le_rfl,
          by norm_num [tq, ex, Params.withLimits]⟩ ht).2
      unfold acVal
      rw [hsame t h0 ht r hr, le_antisymm hl hl']

/-! ### C75 with emission trade -/

theorem tq_zero_cum {t : ℕ} : Spec.pathCumulative tq (fun _ _ => 0) t = 1600 * t := by
  induction t with
  | zero => simp [Spec.pathCumulative]
  | succ t ih =>
    rw [Spec.pathCumulative, ih, Spec.pathWorld_zero, Spec.pathWorld_zero]
    show 1600 * (t : ℝ) + (if true = true then (40 : ℝ) * (([20, 20] : List ℝ).sum + ([20, 20] : List ℝ).sum) / 2 else _) = _
    push_cast
    norm_num
    ring

theorem tq_setting {tr : TradeModule} {o : ObjectiveModule} : Spec.CostEffectiveness (tqMd tr w o) tq where
  policy := ⟨rfl, rfl, le_rfl, le_rfl, by norm_num [tq, ex, Params.withLimits], by simp [tq, ex, Params.withLimits]⟩
  no_damages := rfl
  exogenous := rfl
  mac := tq_mac
  learning := by
    refine ⟨by norm_num [tq, ex, Params.withLimits], ?_, rfl⟩
    show (2 : ℝ) ^ (-3 : ℝ) ≤ 1 / 2
    rw [Real.rpow_neg (by norm_num), show (3 : ℝ) = ((3 : ℕ) : ℝ) by norm_num, Real.rpow_natCast]
    norm_num
  baseline := by
    constructor
    · intro i hi t _
      have hi : some (-0.05 : ℝ) = some i := hi
      cases hi
      show (40 : ℝ) * (-0.05) * ([20, 20] : List ℝ).sum ≤ ([20, 20] : List ℝ).sum - ([20, 20] : List ℝ).sum
      norm_num
    · intro i hi; cases hi
    · intro i hi t _
      have hi : some (-20 : ℝ) = some i := hi
      cases hi
      show (-20 : ℝ) ≤ ([20, 20] : List ℝ).sum
      norm_num
    · intro i hi; cases hi
    · intro hi; cases hi
    · intro t ht
      have ht : t ≤ 3 := ht
      have h3 : (t : ℝ) ≤ 3 := by exact_mod_cast ht
      have e : Spec.pathTemperature tq (fun _ _ => 0) t = 1 + 0.0006 * (1600 * t) := by
        rw [← tq_zero_cum (t := t)]; rfl
      rw [e]
      show 0.0008 * (40 : ℝ) * _ ≤ _ ∧ (40 : ℝ) * _ ≤ _
      constructor <;> linarith
  T0_nonneg := by norm_num [tq, ex, Params.withLimits]
  TCRE_nonneg := by norm_num [tq, ex, Params.withLimits]

/-- The budget cannot be met without costs for the world. -/
theorem tq_must_pay {tr : TradeModule} {o : ObjectiveModule} (htr : tr ≠ .globalcostpool) (h : Solution (tqMd tr w o) tq σ) :
    ∃ t ≤ tq.tf, 0 < t ∧ 0 < (tq.regions.map fun r => σ.R .mitigation_costs t r).sum := by
  by_contra hall
  push Not at hall
  have ha : ∀ t ≤ 3, ∀ r ∈ tq.regions, σ.R .relative_abatement t r = 0 := by
    intro t ht r hr
    rcases Nat.eq_zero_or_pos t with rfl | h0
    · exact (C32_no_abatement h tq_mac hr).1
    · by_contra hne
      have hpos := lt_of_le_of_ne (h.abatement_bounds (t := t) ht hr).1 (Ne.symm hne)
      have hl := (C31_positive h tq_mac.lot (t := t) ht).2.2
      have hs := Shift.sum_costs htr h (t := t) ht
      have h4 : σ.R .area_under_MAC t r ≤ 0 :=
        (le_sumR (p := tq) (fun q hq => (tq_area h ht hq).1) hr).trans (hs.symm.le.trans (hall t ht h0))
      have h3 : σ.R .baseline t r = 20 := h.eqs.emissions.baseline t ht r hr
      have e : σ.R .area_under_MAC t r =
          σ.G .learning_factor t * tqLevel r * (1 / 20) * σ.R .relative_abatement t r ^ ((3 : ℝ) + 1) / (3 + 1) * 20 := by
        rw [(h.eqs.mitigation.area t ht r hr).2, h3]; rfl
      have h5 := Real.rpow_pos_of_pos hpos ((3 : ℝ) + 1)
      have h6 := (tqLevel_range r).1
      have : 0 < σ.R .area_under_MAC t r := by rw [e]; positivity
      linarith
  have he : ∀ t ≤ 3, σ.G .global_emissions t = 40 := by
    intro t ht
    have hr : ∀ r ∈ tq.regions, σ.R .regional_emissions t r = 20 := by
      intro r hr
      rcases Nat.eq_zero_or_pos t with rfl | h0
      · exact (C32_emissions h).1 r hr
      · rw [C23_abated_baseline h ht h0 hr, (C23_baseline h ht hr).1 rfl, ha t ht r hr]
        show (1 - 0) * (20 : ℝ) = 20
        norm_num
    rw [C23_global_is_sum h ht]
    show (List.map (fun r => σ.R .regional_emissions t r) ["A", "B"]).sum = 40
    simp only [List.map_cons, List.map_nil, List.sum_cons, List.sum_nil]
    rw [hr "A" (by simp [tq, ex, Params.withLimits]), hr "B" (by simp [tq, ex, Params.withLimits])]
    norm_num
  have c : ∀ t ≤ 3, σ.G .cumulative_emissions t = 1600 * t := by
    intro t
    induction t with
    | zero => intro _; rw [h.eqs.emissions.cumulative_init]; norm_num
    | succ t ih =>
      intro ht
      rw [h.eqs.emissions.cumulative t ht, he _ ht, he t (by omega), ih (by omega)]
      show 1600 * (t : ℝ) + (if true = true then (40 : ℝ) * (40 + 40) / 2 else _) = _
      push_cast
      norm_num
      ring
  have hb := h.eqs.emissions.budget 2 (by show 2 ≤ 3; norm_num) 1600 rfl (by show (2100 : ℝ) ≤ 2020 + _ * 40; norm_num)
  rw [c 2 (by norm_num), if_neg (by norm_num [tq, ex, Params.withLimits])] at hb
  norm_num at hb

/-- With emission trade, too, an optimum spends the carbon budget exactly. -/
example (w : WelfareModule) (o : ObjectiveModule) : ∃ σ, Optimal (tqMd .emissiontrade w o) tq σ ∧
    ∃ t : ℕ, t ≤ 3 ∧ 2100 ≤ tq.year t ∧ σ.G .cumulative_emissions t = 1600 := by
  have ht : TradeModule.emissiontrade ≠ .globalcostpool := by decide
  obtain ⟨σ, h⟩ := tq_optimum w o ht
  exact ⟨σ, h, C75_budget_spent tq_admissible tq_setting (by norm_num [tq, ex, Params.withLimits]) h
    (tq_affordable h.1).costs (tq_must_pay ht h.1) rfl rfl rfl⟩

end Ex
end Mimosa
