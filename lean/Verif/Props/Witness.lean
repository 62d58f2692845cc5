import Verif.Props.ExamplesLone
import Verif.Props.Optimum
import Verif.Props.Averages
import Verif.Props.Effort
import Verif.Props.Climate
import Verif.Props.Reporting
import Verif.Props.Soft
import Verif.Props.Export

/-!
# Witnesses: concrete cases that meet the hypotheses of the theorems

For the theorems whose hypotheses need an example that is only built in a later file than the theorem.
-/

set_option linter.unusedVariables false

namespace Mimosa.Ex
open Mimosa

/-! ## Emissions after 2100 (a horizon from 2050 to 2170) -/

noncomputable def late : Params := { free with beginyear := 2050 }

theorem late_admissible : late.Admissible :=
  { free_admissible with
    cum_ne := by
      have h : ∀ t ≤ 3, late.cumulative_global_baseline_emissions t = 1600 * t := by
        intro t ht
        interval_cases t <;>
        simp [Params.cumulative_global_baseline_emissions, Params.cumulative_baseline_emissions, late, free, ex,
          List.range_succ, Params.trapz] <;> norm_num
      intro t ht
      rw [h _ ht]
      push_cast
      positivity }

theorem late_temp (a : ℕ → String → ℝ) (t : ℕ) : Spec.pathTemperature late a t = Spec.pathTemperature free a t := by
  have h : Spec.pathCumulative late a t = Spec.pathCumulative free a t := by
    induction t with
    | zero => rfl
    | succ t ih =>
      have e : Spec.pathCumulative late a (t + 1) = Spec.pathCumulative late a t +
        40 * (Spec.pathWorld free a (t + 1) + Spec.pathWorld free a t) / 2 := rfl
      rw [e, ih]; rfl
  show 1 + 0.0006 * Spec.pathCumulative late a t = 1 + 0.0006 * Spec.pathCumulative free a t
  rw [h]

theorem late_sea (a : ℕ → String → ℝ) (t : ℕ) : Spec.pathSea late a t = Spec.pathSea free a t := by
  induction t with
  | zero => rfl
  | succ t ih =>
    simp only [Spec.pathSea, ih, late_temp]
    rfl

theorem late_sol (d : DamageModule) (w : WelfareModule) (o : ObjectiveModule) :
    ∃ σ, Solution (md0 d w o) late σ ∧ ∀ t r, σ.R .relative_abatement t r = half t r :=
  have h := mild_limits mild_half
  C49_path_feasible_exogenous late_admissible { free_ordinary with start := by norm_num [late] }
    { h with
      target := fun T hT => by cases hT
      budget := fun b hb => by cases hb
      melt := fun t ht => by rw [late_temp]; exact h.melt t ht
      sea_damages := fun t ht r hr => by
        have e : ∀ t, Spec.pathSeaLevel late half t = Spec.pathSeaLevel free half t := fun t => by
          simp only [Spec.pathSeaLevel, late_sea]
        rw [e, e]; exact h.sea_damages t ht r hr
      non_increasing := fun _ t ht _ r hr => by
        show (1 - half (t + 1) r) * 20 ≤ (1 - half t r) * 20
        linarith [mild_half.2.2 t r] } rfl (by simp [md0]) (fun h => by cases h) (Or.inl rfl)

example : ∃ σ, Solution m0 late σ ∧ ∀ r ∈ late.regions, σ.R .regional_emissions 3 r ≤ σ.R .regional_emissions 2 r :=
  let ⟨σ, h, _⟩ := late_sol .COACCH .welfare_loss_minimising .utility
  ⟨σ, h, fun r hr => C29_non_increasing h rfl (by norm_num [late, free, ex]) (s := 2) (t := 3) (by norm_num) le_rfl
    (by norm_num [late, free, ex, Params.year]) hr⟩
example : ∃ σ, Solution m0 late σ ∧ σ.G .global_emissions 3 ≤ σ.G .global_emissions 2 :=
  let ⟨σ, h, _⟩ := late_sol .COACCH .welfare_loss_minimising .utility
  ⟨σ, h, C29_non_increasing_global h rfl (by norm_num [late, free, ex]) (s := 2) (t := 3) (by norm_num) le_rfl
    (by norm_num [late, free, ex, Params.year])⟩
example := C29_net_zero_needs_budget (md := m0) (p := late) (σ := σ0) rfl false

/-! ## The one-region world: rectangular rule, no learning, ignored damages, no sea-level damages -/

example : ∃ σ, Solution m0 lone σ ∧ σ.G .cumulative_emissions 2 = 100 := by
  obtain ⟨σ, h, ha⟩ := lone_sol .COACCH .welfare_loss_minimising .utility
  refine ⟨σ, h, ?_⟩
  rw [C24_rectangular h rfl (t := 2) le_rfl]
  have e : ∀ t ≤ 2, σ.G .global_emissions t = 5 := fun t ht => by
    rw [C23_global_is_sum h ht]
    simp [lone, solo, (ha t ht "A" (by simp [lone, solo])).2.1]
  simp [Finset.sum_range_succ, e, lone]; norm_num
example : ∃ σ, Solution m0 lone σ ∧ ∀ t ≤ 2, σ.G .learning_factor t = 1 :=
  let ⟨σ, h, _⟩ := lone_sol .COACCH .welfare_loss_minimising .utility
  ⟨σ, h, fun t ht => C31_no_learning h rfl rfl ht⟩
example : ∃ σ, Solution m0 lone σ ∧ ∀ t ≤ 2, σ.R .GDP_net t "A" = σ.R .GDP_gross t "A" - σ.R .mitigation_costs t "A" :=
  let ⟨σ, h, _⟩ := lone_sol .COACCH .welfare_loss_minimising .utility
  ⟨σ, h, fun t ht => C36_net_ignoring_damages h ht (by simp [lone, solo]) rfl rfl⟩
example : ∃ σ, Solution m0 lone σ ∧ ∀ t ≤ 2, σ.R .damage_costs t "A" = σ.R .damage_costs_non_slr t "A" :=
  let ⟨σ, h, _⟩ := lone_sol .COACCH .welfare_loss_minimising .utility
  ⟨σ, h, fun t ht => (C40_combined h rfl (fun r _ => ⟨rfl, rfl⟩) ht (by simp [lone, solo])).2⟩
example : ∃ σ τ, Solution (md0 .nodamage .cost_minimising .utility) solo σ ∧
    Solution (md0 .nodamage .welfare_loss_minimising .utility) solo τ ∧ ∀ t ≤ 3,
      σ.R .consumption t "A" = τ.R .consumption t "A" ∧ σ.G .yearly_welfare t = τ.G .yearly_welfare t := by
  obtain ⟨σ, h, ha⟩ := C49_no_policy_feasible_exogenous (md := md0 .nodamage .cost_minimising .utility) solo_admissible
    solo_ordinary solo_baseline rfl (by simp [md0]) (fun h => by cases h) (.inl rfl)
  obtain ⟨τ, h', ha'⟩ := C49_no_policy_feasible_exogenous (md := md0 .nodamage .welfare_loss_minimising .utility)
    solo_admissible solo_ordinary solo_baseline rfl (by simp [md0]) (fun h => by cases h) (.inl rfl)
  have hc : ∀ {w : WelfareModule} {σ : Env}, Solution (md0 .nodamage w .utility) solo σ →
      (∀ t ≤ 3, σ.R .area_under_MAC t "A" = 0) → ∀ t ≤ 3, σ.R .consumption t "A" = 8 := by
    intro w σ h ha t ht
    have hr : "A" ∈ solo.regions := by simp [solo]
    have hg : σ.R .GDP_gross t "A" = 10 := by
      cases t with
      | zero => exact h.eqs.economy.gross_init "A" hr
      | succ t =>
        have := C38_gross_over_baseline h solo_admissible.econData (t := t) (Nat.lt_of_succ_le ht) hr
        have e2 : solo.alpha = 0 := rfl
        rw [e2, Real.rpow_zero] at this
        simp only [solo, free, ex] at this
        linarith
    have h1 := C36_uses h (t := t) ht hr
    have h2 := (C36_net h ht hr rfl).1 rfl
    have h3 := C40_nodamage h rfl ht hr
    have h4 := C33_costs_notrade h rfl ht hr
    have e4 : solo.sr = 1 / 5 := rfl
    rw [h4, ha t ht, h3, hg] at h2
    rw [h1.2.2, h2, e4]; norm_num
  refine ⟨σ, τ, h, h', fun t ht => ?_⟩
  have e := (hc h (fun t ht => (ha t ht "A" (by simp [solo])).2.2) t ht).trans
    (hc h' (fun t ht => (ha' t ht "A" (by simp [solo])).2.2) t ht).symm
  exact ⟨e, C44_single_region rfl h rfl h' rfl ht e⟩

/-! ## Two solutions of the same model, compared: no abatement (`σZero`) against one half (`σHalf`) -/

section
variable (w : WelfareModule) (o : ObjectiveModule)

theorem half_em {t : ℕ} (ht : t ≤ 3) (h0 : 0 < t) {r : String} (hr : r ∈ free.regions) :
    (σHalf w o).R .regional_emissions t r = 10 ∧ (σZero w o).R .regional_emissions t r = 20 := by
  have e1 : (σHalf w o).R .relative_abatement t r = 1 / 2 := by
    show half t r = 1 / 2
    unfold half; rw [if_neg (by omega)]
  have e0 : (σZero w o).R .relative_abatement t r = 0 := rfl
  constructor
  · rw [C23_abated_baseline (free_sol .nodamage w o mild_half) ht h0 hr, e1,
      (C23_baseline (free_sol .nodamage w o mild_half) ht hr).1 rfl]
    simp [free, ex]; norm_num
  · rw [C23_abated_baseline (free_sol .nodamage w o mild_zero) ht h0 hr, e0,
      (C23_baseline (free_sol .nodamage w o mild_zero) ht hr).1 rfl]
    simp [free, ex]

theorem half_cum : (σHalf w o).G .cumulative_emissions 1 < (σZero w o).G .cumulative_emissions 1 := by
  have h1 := C24_trapezoidal (free_sol .nodamage w o mild_half) rfl (t := 1) (by simp [free, ex])
  have h2 := C24_trapezoidal (free_sol .nodamage w o mild_zero) rfl (t := 1) (by simp [free, ex])
  have hreg : free.regions = ["A", "B"] := rfl
  have g : ∀ {σ : Env}, Solution (md0 .nodamage w o) free σ → σ.G .global_emissions 0 = 40 := fun h => by
    rw [h.eqs.emissions.global_emissions_init]
    simp only [Params.sumR, hreg, List.map_cons, List.map_nil, List.sum_cons, List.sum_nil]
    show (20 : ℝ) + (20 + 0) = 40
    norm_num
  have g1 : (σHalf w o).G .global_emissions 1 = 20 ∧ (σZero w o).G .global_emissions 1 = 40 := by
    rw [C23_global_is_sum (free_sol .nodamage w o mild_half) (t := 1) (by simp [free, ex]),
      C23_global_is_sum (free_sol .nodamage w o mild_zero) (t := 1) (by simp [free, ex])]
    have ea := half_em w o (t := 1) (by simp) one_pos (r := "A") (by simp [free, ex])
    have eb := half_em w o (t := 1) (by simp) one_pos (r := "B") (by simp [free, ex])
    simp only [hreg, List.map_cons, List.map_nil, List.sum_cons, List.sum_nil]
    rw [ea.1, eb.1, ea.2, eb.2]; norm_num
  rw [h1, h2, Finset.sum_range_one, Finset.sum_range_one]
  simp only [zero_add]
  rw [g1.1, g1.2, g (free_sol .nodamage w o mild_half), g (free_sol .nodamage w o mild_zero)]
  show (40 : ℝ) * (20 + 40) / 2 < 40 * (40 + 40) / 2
  norm_num

example := C31_by_doing_strictMono (free_sol .nodamage w o mild_half) (free_sol .nodamage w o mild_zero)
  (by norm_num [free, ex]) (by norm_num [free, ex]) (t := 1) (by simp [free, ex]) (half_cum w o)
example := C31_by_doing_mono (free_sol .nodamage w o mild_half) (free_sol .nodamage w o mild_zero)
  (by norm_num [free, ex]) (by norm_num [free, ex]) (t := 1) (by simp [free, ex]) (half_cum w o).le
example : ∃ τ, Optimal (md0 .nodamage w o) free τ ∧ ∀ t ≤ 3, 0 < t → ∀ r ∈ free.regions,
    τ.R .relative_abatement t r = 0 ∧ τ.R .mitigation_costs t r = 0 := by
  have hn : Spec.NoReasonToAbate (md0 .nodamage w o) free := ⟨fun _ => .inl rfl, fun _ => rfl, by simp [free, ex]⟩
  have h0 : ∀ t ≤ free.tf, 0 < t → ∀ r ∈ free.regions, (σZero w o).R .mitigation_costs t r = 0 :=
    fun t _ _ r _ => free_cost_zero w o t r
  obtain ⟨τ, hτ⟩ := C65_optimum_exists_exogenous (md := md0 .nodamage w o) free_admissible free_ordinary.forms
    rfl ⟨_, free_sol _ w o mild_half⟩
  exact ⟨τ, hτ, fun t ht h1 r hr =>
    ⟨(C66_optimum_no_abatement free_admissible hn (by norm_num [free, ex]) (by simp [free, ex]) (by norm_num [free, ex])
      (by simp [free, ex]) (.inl rfl) (free_sol _ w o mild_zero) h0 hτ t ht h1 r hr).1,
    C66_optimum_no_costs free_admissible hn (by norm_num [free, ex]) (free_sol _ w o mild_zero) h0 hτ t ht h1 r hr⟩⟩
example := C66_nobody_richer free_admissible (by simp [free, ex]) (by norm_num [free, ex]) (.inl rfl)
  (free_sol .nodamage w o mild_zero) (fun t _ _ r _ => free_cost_zero w o t r) (free_sol .nodamage w o mild_half)
  (t := 1) (by simp [free, ex]) one_pos (r := "B") (by simp [free, ex])
end

/-! ## Economy -/

theorem zero_capital : ∀ t ≤ 3, 0 < (σZero .cost_minimising .utility).R .capital_stock t "A" :=
  fun t ht => C37_positive (free_sol .nodamage .cost_minimising .utility mild_zero) free_admissible.econData
    (by simp [free, ex]) (fun t ht => by
      have h1 := (free_cons (free_sol .nodamage .cost_minimising .utility mild_zero) ht (r := "A") (by simp [free, ex])).1
      rw [free_cost_zero, (C36_uses (free_sol .nodamage .cost_minimising .utility mild_zero) ht (r := "A")
        (by simp [free, ex])).2.2] at h1
      have e : free.sr = 1 / 5 := rfl
      rw [e] at h1
      have : ((Path.x fun _ _ => 0).env (md0 .nodamage .cost_minimising .utility) free).R .GDP_net t "A" = 10 := by
        linarith
      rw [this]; norm_num) ht
example := C37_production (free_sol .nodamage .cost_minimising .utility mild_zero) free_admissible.econData
  (by simp [free, ex]) (t := 1) (by simp [free, ex]) (r := "A") (by simp [free, ex]) (zero_capital 2 (by norm_num)).le
example := C37_unique sol0 sol0 (admissible (by norm_num) (by norm_num)).econData (r := "A") (by simp [ex]) (fun _ _ => rfl)
  (t := 2) (by simp [ex])
example := C37_explicit sol0 (admissible (by norm_num) (by norm_num)).econData (t := 2) (by simp [ex]) (r := "A") (by simp [ex])
example := C38_gross_over_baseline sol0 (admissible (by norm_num) (by norm_num)).econData (t := 2) (by simp [ex]) (r := "A")
  (by simp [ex])
example : ∃ A, calc_GDP A (p0.population 2 "A") (calibCapital p0 "A" 2) p0.alpha = p0.baseline_GDP 2 "A" :=
  ⟨_, (C38_reproduces_baseline (admissible (by norm_num) (by norm_num)).econData (t := 2) (by simp [ex]) (r := "A")
    (by simp [ex])).2⟩
example := C38_baseline_capital (p := p0) (by norm_num [ex]) "A"

/-! ## Trade and transfers -/

example := C34_reduction_balances_sum_zero (solTrade (conv := none) .COACCH .cost_minimising .utility) rfl (t := 1)
  (by simp [ex]) one_pos
example := C34_allowances (solTrade (conv := none) .COACCH .cost_minimising .utility) rfl (t := 1)
  (by simp [ex]) one_pos (r := "A") (by simp [ex])
example := C34_costs_sum (solTrade (conv := none) .COACCH .cost_minimising .utility) rfl (t := 1) (by simp [ex])
example := C34_global_price (solTrade (conv := none) .COACCH .cost_minimising .utility) rfl (t := 1) (by simp [ex])
  (by simp [ex])
example := C34_payment (solTrade (conv := none) .COACCH .cost_minimising .utility) rfl (t := 1) (by simp [ex]) one_pos
  (r := "A") (by simp [ex])
example := C33_costs (solTrade (conv := none) .COACCH .cost_minimising .utility) rfl (t := 1) (by simp [ex])
  (r := "A") (by simp [ex])
example := C35_none_in_first_year solPool rfl (r := "A") (by simp [ex])
example := C35_received_at_most_damages solPool rfl (t := 2) (by simp [ex]) (r := "A") (by simp [ex])
example := C35_paid_at_most_others_damages solPool rfl (t := 2) (by simp [ex]) (r := "A") (by simp [ex])
example := C35_relative solPool rfl (t := 2) (by simp [ex]) (r := "A") (by simp [ex])
example : ∃ σ, Solution ⟨.nodamage, .notrade, .globaldamagepool, .cost_minimising, .utility⟩ solo σ ∧
    σ.R .financial_transfer 1 "A" = 0 :=
  let ⟨σ, h⟩ := solo_sol .cost_minimising .utility (tr := .notrade) (by simp) (tm := .globaldamagepool)
  ⟨σ, h, C35_no_damages h rfl rfl (by simp [solo, free, ex]) (by simp [solo])⟩

/-- Prices are uniform in the trading example: both regions have the same abatement and the same cost curve. -/
theorem trade_price (w : WelfareModule) (t : ℕ) (r : String) :
    ((xTrade "noregime" none).env (mdTrade .nodamage w .utility) (ex "noregime" 0 none)).R .carbonprice t r =
      ((xTrade "noregime" none).env (mdTrade .nodamage w .utility) (ex "noregime" 0 none)).R .carbonprice t "A" := rfl
example (w : WelfareModule) := C34_uniform_price (solTrade (conv := none) .nodamage w .utility) rfl (t := 1) (by simp [ex])
  fun r _ => trade_price w 1 r
example (w : WelfareModule) := C64_average_uniform_price (solTrade (conv := none) .nodamage w .utility) (by norm_num [ex])
  (t := 1) one_pos (by simp [ex]) fun r _ => trade_price w 1 r
example (w : WelfareModule) := C33_global_between (solTrade (conv := none) .nodamage w .utility) (t := 1) (by simp [ex])
  fun r hr => Solution.gross_pos (admissible le_rfl one_pos) (solTrade (conv := none) .nodamage w .utility) (by simp [ex]) hr
example := C64_relative_cumulative_no_policy (free_sol .nodamage .cost_minimising .utility mild_zero) rfl rfl (t := 2)
  (by simp [free, ex]) fun _ _ _ _ => rfl

/-- A real redistribution.  With A paying for all abatement (`solTrade`) consumption is unequal; in the run without trade
each region pays for itself: the same total, equally shared, and at least the same welfare. -/
example : ∃ σ τ, Solution (mdTrade .nodamage .welfare_loss_minimising .utility) (ex "noregime" 0 none) σ ∧
    Solution (mdTrade .nodamage .welfare_loss_minimising .utility) (ex "noregime" 0 none) τ ∧
    σ.R .consumption 1 "A" < τ.R .consumption 1 "A" ∧ σ.G .yearly_welfare 1 ≤ τ.G .yearly_welfare 1 := by
  have hσ := solTrade (conv := none) .nodamage .welfare_loss_minimising .utility
  have hν := solution0 .nodamage .welfare_loss_minimising .utility (al := 0) (conv := none) le_rfl one_pos
  obtain ⟨τ, hτ, hG, hR, hB⟩ := C62_trade_allowed hν rfl
  set c := (x0 fun _ => 0).area (ex "noregime" 0 none) 1 "B" with hc
  have ha : "A" ∈ (ex "noregime" 0 none).regions := by simp [ex]
  have hb : "B" ∈ (ex "noregime" 0 none).regions := by simp [ex]
  have h1 : 1 ≤ (ex "noregime" 0 none).tf := by simp [ex]
  have hpos : 0 < c := area_pos _ ⟨rfl, rfl⟩ "B" (by norm_num) one_pos
  have hle : c ≤ 1 := by
    have l := learn_range (regime := "noregime") (al := 0) (conv := none) (x0 fun _ => 0) ⟨rfl, rfl⟩ 1 (by norm_num)
    have q : aPath 1 ^ (4 : ℝ) ≤ 1 := Real.rpow_le_one (aPath_range 1).1 (aPath_range 1).2 (by norm_num)
    have q0 : 0 ≤ aPath 1 ^ (4 : ℝ) := Real.rpow_nonneg (aPath_range 1).1 _
    rw [hc, area_val _ ⟨rfl, rfl⟩]
    nlinarith [mul_le_one₀ l.2 q0 q]
  have cons : ∀ {τ : Env}, Solution (mdTrade .nodamage .welfare_loss_minimising .utility) (ex "noregime" 0 none) τ →
      ∀ r ∈ (ex "noregime" 0 none).regions, τ.R .consumption 1 r = 4 / 5 * (τ.R .GDP_gross 1 r -
        (τ.R .area_under_MAC 1 r + τ.R .import_export_mitigation_cost_balance 1 r)) := fun h r hr => by
    have e1 := (C36_uses h h1 hr).2.2
    have e2 := (C36_net h h1 hr rfl).1 rfl
    rw [C40_nodamage h rfl h1 hr, C33_costs h rfl h1 hr] at e2
    rw [e1, e2]
    show (1 - 1 / 5) * _ = _
    norm_num
  have gross : ∀ {τ : Env}, Solution (mdTrade .nodamage .welfare_loss_minimising .utility) (ex "noregime" 0 none) τ →
      ∀ r ∈ (ex "noregime" 0 none).regions, τ.R .GDP_gross 1 r = 10 := fun h r hr => by
    have := C38_gross_over_baseline h (admissible le_rfl one_pos).econData (t := 0) (by simp [ex]) hr
    have e2 : (ex "noregime" 0 none).alpha = 0 := rfl
    rw [e2, Real.rpow_zero] at this
    simp only [ex] at this
    linarith
  have areaν : ∀ r, τ.R .area_under_MAC 1 r = c := fun r => by
    rw [hR _ _ _ (by simp)]
    show (x0 fun _ => 0).area (ex "noregime" 0 none) 1 r = c
    rw [hc, area_val _ ⟨rfl, rfl⟩, area_val _ ⟨rfl, rfl⟩]
  have cum : ∀ t, (xTrade "noregime" none).cum (ex "noregime" 0 none) t = (x0 fun _ => 0).cum (ex "noregime" 0 none) t := by
    intro t
    induction t with
    | zero => rfl
    | succ t ih =>
      simp only [Drivers.cum, ih]
      rw [gE_val _ ⟨rfl, rfl⟩, gE_val _ ⟨rfl, rfl⟩, gE_val _ ⟨rfl, rfl⟩, gE_val _ ⟨rfl, rfl⟩]
  have areaσ : ∀ r, (xTrade "noregime" none).area (ex "noregime" 0 none) 1 r = c := by
    intro r
    rw [hc, area_val _ ⟨rfl, rfl⟩, area_val _ ⟨rfl, rfl⟩]
    unfold Drivers.learn Drivers.lbd
    rw [cum]
  set σ := (xTrade "noregime" none).env (mdTrade .nodamage .welfare_loss_minimising .utility) (ex "noregime" 0 none) with eσ
  have balA : σ.R .import_export_mitigation_cost_balance 1 "A" = c := rfl
  have balB : σ.R .import_export_mitigation_cost_balance 1 "B" = -c := rfl
  have cA : σ.R .consumption 1 "A" = 4 / 5 * (10 - 2 * c) := by
    rw [cons hσ _ ha, gross hσ _ ha, balA, show σ.R .area_under_MAC 1 "A" = c from areaσ "A"]; ring
  have cB : σ.R .consumption 1 "B" = 8 := by
    rw [cons hσ _ hb, gross hσ _ hb, balB, show σ.R .area_under_MAC 1 "B" = c from areaσ "B"]; ring
  have cτ : ∀ r ∈ (ex "noregime" 0 none).regions, τ.R .consumption 1 r = 4 / 5 * (10 - c) := fun r hr => by
    rw [cons hτ _ hr, gross hτ _ hr, (hB 1 r).1, areaν]; ring
  refine ⟨σ, τ, hσ, hτ, ?_, ?_⟩
  · rw [cA, cτ _ ha]; linarith
  · refine C44_redistribution hσ hτ rfl ?_ h1 (by simp [ex]) (a := "B") (b := "A") (by decide) (by simp [ex]) hb ha
      (δ := 4 / 5 * c) (by linarith) ?_ ?_ ?_ ?_ ?_
    · show 8 / Real.pi ^ 2 ≤ 3 / 2
      rw [div_le_iff₀ (by positivity)]
      nlinarith [Real.pi_gt_three]
    · rw [cB, cτ _ hb]; ring
    · rw [cA, cτ _ ha]; ring
    · intro r hr h1 h2
      simp only [ex, List.mem_cons, List.not_mem_nil, or_false] at hr
      tauto
    · rw [cA]; linarith
    · rw [cτ _ ha, cτ _ hb]; exact le_of_eq rfl

/-! ## Climate -/

section
variable (w : WelfareModule) (o : ObjectiveModule)

theorem mild_meltOk {a : ℕ → String → ℝ} (ha : Mild a) : Spec.MeltOk free.dt free.tf fun t =>
    ((Path.x a).env (md0 .COACCH w o) free).G .temperature t := by
  have e : ∀ t, ((Path.x a).env (md0 .COACCH w o) free).G .temperature t = Spec.pathTemperature free a t := fun t => by
    rw [← Path.temp_eq]; rfl
  have b : ∀ t < 3, 1 ≤ Spec.pathTemperature free a t ∧ Spec.pathTemperature free a t ≤ 3.88 := fun t ht =>
    mild_temp ha (Nat.le_of_lt ht)
  have edt : free.dt = 40 := rfl
  constructor
  · norm_num [edt]
  · intro t ht; rw [e]; linarith [(b t ht).1]
  · intro t ht; rw [e, edt]; linarith [(b t ht).2]
  · intro t ht; rw [e, edt]; linarith [(b t ht).2]

theorem warmer {t : ℕ} (ht : t ≤ 3) : ((Path.x half).env (md0 .COACCH w o) free).G .temperature t ≤
    ((Path.x fun _ _ => 0).env (md0 .COACCH w o) free).G .temperature t := by
  have e : ∀ a t, ((Path.x a).env (md0 .COACCH w o) free).G .temperature t = Spec.pathTemperature free a t := fun a t => by
    rw [← Path.temp_eq]; rfl
  rw [e, e]
  have em : ∀ t r, Spec.pathEmissions free half t r ≤ Spec.pathEmissions free (fun _ _ => 0) t r := fun t r => by
    show (1 - half t r) * 20 ≤ (1 - 0) * 20
    linarith [(mild_half.2.1 t r).1]
  have wo : ∀ t, Spec.pathWorld free half t ≤ Spec.pathWorld free (fun _ _ => 0) t := fun t => by
    have e : ∀ a, Spec.pathWorld free a t = Spec.pathEmissions free a t "A" + Spec.pathEmissions free a t "B" := fun a => by
      simp [Spec.pathWorld, free, ex]
    rw [e, e]; linarith [em t "A", em t "B"]
  have cu : Spec.pathCumulative free half t ≤ Spec.pathCumulative free (fun _ _ => 0) t := by
    clear ht
    induction t with
    | zero => exact le_rfl
    | succ t ih =>
      have e : ∀ a, Spec.pathCumulative free a (t + 1) = Spec.pathCumulative free a t +
        40 * (Spec.pathWorld free a (t + 1) + Spec.pathWorld free a t) / 2 := fun _ => rfl
      rw [e, e]; linarith [wo t, wo (t + 1)]
  show 1 + 0.0006 * Spec.pathCumulative free half t ≤ 1 + 0.0006 * Spec.pathCumulative free (fun _ _ => 0) t
  linarith

example := C39_warmer (free_sol .COACCH w o mild_half) (free_sol .COACCH w o mild_zero) rfl rfl le_rfl
  (mild_meltOk w o mild_half) (mild_meltOk w o mild_zero) (fun t ht => warmer w o (Nat.le_of_lt ht)) (t := 2) (by simp [free, ex])
example := C41_warmer_more_damage (free_sol .COACCH w o mild_half) (free_sol .COACCH w o mild_zero) rfl rfl ⟨rfl, rfl, rfl⟩
  (by simp [free, ex]) (r := "A") (by simp [free, ex]) (by simp [free, ex]) (t := 2) (by simp [free, ex]) (by simp [free, ex])
  (by constructor <;> norm_num [free, ex])
  (C25_at_least_initial (free_sol .COACCH w o mild_half) (by norm_num [free, ex]) (by simp [free, ex]))
  (warmer w o (by norm_num))
end

/-! ## Price order, welfare of equal totals, reporting -/




example := C44_cost_minimising_total (free_sol .nodamage .cost_minimising .utility mild_zero)
  (free_sol .nodamage .cost_minimising .utility mild_zero) rfl (t := 1) (by simp [free, ex]) rfl
example := C53_determined sol0 sol0 ⟨fun _ _ _ => rfl, fun _ _ _ _ => rfl⟩ (t := 2) (by simp [ex])
example : ∃ (count : ℕ → ℕ) (m : AbstractModel) (inst : AbstractModel.Instance), buildModel count m0 = .ok m ∧
    m.createInstance p0 = .ok inst ∧ ∃ σ', Spec.AgreeOffReports σ' σ0 ∧ inst.Feasible σ' := by
  obtain ⟨count, _, m, inst, hm, hi, hf⟩ := sol0
  have hadm : p0.Admissible := admissible (by norm_num) (by norm_num)
  exact ⟨count, m, inst, hm, hi, C53_completable (by simp [md0]) hm hi hadm.econData hadm.regions_ne hadm.cum_ne hf.1
    fun nr h1 ρ h2 _ => hf.2 nr h1 ρ h2⟩
example := C40_unknown_form_no_instance (md := m0) (p := { p0 with slr := { p0.slr with form := fun _ => "Cubic" } })
  (r := "A") (by simp [ex]) rfl (.inr ⟨by decide, by decide, by decide⟩)
example := C30_price_order sol0 (by norm_num [ex]) (by norm_num [ex]) (t := 1) (by simp [ex]) (r := "A") (s := "B")
  (by simp [ex]) (by simp [ex]) (by norm_num [ex]) rfl
  (learn_range (regime := "noregime") (al := 3 / 10) (conv := none) (x0 fun _ => 0) ⟨rfl, rfl⟩ 1 (by norm_num)).1

/-! ## A doubling of experience -/

noncomputable def freeS (s : ℝ) : Params := { free with LBD_scaling := s }

theorem freeS_temp (s : ℝ) (a : ℕ → String → ℝ) (t : ℕ) :
    Spec.pathTemperature (freeS s) a t = Spec.pathTemperature free a t := by
  have h : Spec.pathCumulative (freeS s) a t = Spec.pathCumulative free a t := by
    induction t with
    | zero => rfl
    | succ t ih =>
      have e : Spec.pathCumulative (freeS s) a (t + 1) = Spec.pathCumulative (freeS s) a t +
        40 * (Spec.pathWorld free a (t + 1) + Spec.pathWorld free a t) / 2 := rfl
      rw [e, ih]; rfl
  show 1 + 0.0006 * Spec.pathCumulative (freeS s) a t = 1 + 0.0006 * Spec.pathCumulative free a t
  rw [h]

theorem freeS_sea (s : ℝ) (a : ℕ → String → ℝ) (t : ℕ) : Spec.pathSea (freeS s) a t = Spec.pathSea free a t := by
  induction t with
  | zero => rfl
  | succ t ih =>
    simp only [Spec.pathSea, ih, freeS_temp]
    rfl

theorem freeS_sol (s : ℝ) (hs : 0 < s) (w : WelfareModule) (o : ObjectiveModule) {a : ℕ → String → ℝ} (ha : Mild a) :
    ∃ σ, Solution (md0 .nodamage w o) (freeS s) σ ∧ ∀ t r, σ.R .relative_abatement t r = a t r :=
  have h := mild_limits ha
  C49_path_feasible_exogenous
    { free_admissible with
      lbd_scaling := hs
      cum_ne := free_admissible.cum_ne } { free_ordinary with }
    { h with
      target := fun T hT => by cases hT
      budget := fun b hb => by cases hb
      melt := fun t ht => by rw [freeS_temp]; exact h.melt t ht
      sea_damages := fun t ht r hr => by
        have e : ∀ t, Spec.pathSeaLevel (freeS s) a t = Spec.pathSeaLevel free a t := fun t => by
          simp only [Spec.pathSeaLevel, freeS_sea]
        rw [e, e]; exact h.sea_damages t ht r hr } rfl (by simp [md0]) (fun h => by cases h) (Or.inl rfl)

theorem freeS_cum {s : ℝ} {w : WelfareModule} {o : ObjectiveModule} {σ : Env}
    (h : Solution (md0 .nodamage w o) (freeS s) σ) {b : ℝ} (hb : ∀ r, σ.R .relative_abatement 1 r = b) :
    σ.G .cumulative_emissions 1 = 1600 - 800 * b := by
  have hreg : (freeS s).regions = ["A", "B"] := rfl
  have g0 : σ.G .global_emissions 0 = 40 := by
    rw [h.eqs.emissions.global_emissions_init]
    simp only [Params.sumR, hreg, List.map_cons, List.map_nil, List.sum_cons, List.sum_nil]
    show (20 : ℝ) + (20 + 0) = 40
    norm_num
  have e : ∀ r ∈ (freeS s).regions, σ.R .regional_emissions 1 r = (1 - b) * 20 := fun r hr => by
    rw [C23_abated_baseline h (t := 1) (by simp [freeS, free, ex]) one_pos hr, hb,
      (C23_baseline h (t := 1) (by simp [freeS, free, ex]) hr).1 rfl]
    rfl
  have g1 : σ.G .global_emissions 1 = (1 - b) * 40 := by
    rw [C23_global_is_sum h (t := 1) (by simp [freeS, free, ex])]
    simp only [hreg, List.map_cons, List.map_nil, List.sum_cons, List.sum_nil]
    rw [e "A" (by simp [hreg]), e "B" (by simp [hreg])]; ring
  rw [C24_trapezoidal h rfl (t := 1) (by simp [freeS, free, ex]), Finset.sum_range_one]
  simp only [zero_add]
  rw [g0, g1]
  show 40 * _ / 2 = _
  ring

/-- For some learning scale, abating one half doubles the experience of the first step: costs fall by the learning rate. -/
example : ∃ s σ₁ σ₂, 0 < s ∧ Solution (md0 .nodamage .cost_minimising .utility) (freeS s) σ₁ ∧
    Solution (md0 .nodamage .cost_minimising .utility) (freeS s) σ₂ ∧
    σ₁.G .LBD_factor 1 = 1 / 2 * σ₂.G .LBD_factor 1 := by
  have hs1 := C22_soft_min_tight 1 (s := 1) one_pos
  have hs3 := C22_soft_min_tight 3 (s := 1) one_pos
  have hpi : 1 / (25 * Real.pi) ≤ 1 / 75 := by
    apply one_div_le_one_div_of_le (by norm_num)
    linarith [Real.pi_gt_three]
  have hiv : ∃ x ∈ Set.Icc (1 : ℝ) 3, soft_min x 1 = 2 * soft_min (1 : ℝ) 1 := by
    have hcont : ContinuousOn (fun x : ℝ => soft_min x 1) (Set.Icc 1 3) := continuous_soft_min.continuousOn
    have := intermediate_value_Icc (by norm_num : (1 : ℝ) ≤ 3) hcont
    obtain ⟨x, hx, hx'⟩ := this (show 2 * soft_min (1 : ℝ) 1 ∈ _ from
      ⟨by have := hs1.1; norm_num at *; linarith, by
        have := hs1.2; have := hs3.1; norm_num at *; linarith⟩)
    exact ⟨x, hx, hx'⟩
  obtain ⟨x, ⟨hx1, hx3⟩, hx⟩ := hiv
  have hx1' : 1 < x := by
    rcases hx1.lt_or_eq with h | h
    · exact h
    · rw [← h] at hx; have := hs1.1; norm_num at this; linarith
  have hs : 0 < 400 / (x - 1) := div_pos (by norm_num) (by linarith)
  obtain ⟨σ₁, h₁, a₁⟩ := freeS_sol (400 / (x - 1)) hs .cost_minimising .utility mild_half
  obtain ⟨σ₂, h₂, a₂⟩ := freeS_sol (400 / (x - 1)) hs .cost_minimising .utility mild_zero
  refine ⟨_, σ₁, σ₂, hs, h₁, h₂, C31_doubling h₁ h₂ (t := 1) (by simp [freeS, free, ex]) ?_⟩
  have c : (freeS (400 / (x - 1))).cumulative_global_baseline_emissions 1 = 1600 := by
    have := baseline_cum (regime := "noregime") (al := 0) (conv := none) 1 (by norm_num)
    have e : (freeS (400 / (x - 1))).cumulative_global_baseline_emissions 1 =
      (ex "noregime" 0 none).cumulative_global_baseline_emissions 1 := rfl
    rw [e, this]; norm_num
  rw [freeS_cum h₁ (b := 1 / 2) (fun r => by rw [a₁]; simp [half]), freeS_cum h₂ (b := 0) (fun r => by rw [a₂]), c]
  show soft_min ((1600 - (1600 - 800 * (1 / 2))) / (400 / (x - 1)) + 1) 1 =
    2 * soft_min ((1600 - (1600 - 800 * 0)) / (400 / (x - 1)) + 1) 1
  have e1 : (1600 - (1600 - 800 * (1 / 2))) / (400 / (x - 1)) + 1 = x := by field_simp; ring
  have e2 : ((1600 : ℝ) - (1600 - 800 * 0)) / (400 / (x - 1)) + 1 = 1 := by norm_num
  rw [e1, e2, hx]

/-! ## Saved rows -/

example (units : String → Option (List Char)) : ∃ count m, buildModel count m0 = .ok m ∧
    Spec.HasRow p0 (saveOutput m p0 units σ0).rows "percapconv_share_pop" "A"
      (fun t => p0.population t "A" / (p0.regions.map fun s => p0.population t s).sum) := by
  obtain ⟨count, -, m, inst, hm, -⟩ := sol0
  exact ⟨count, m, hm, (C47_computed_rows hm (r := "A") (by simp [ex])).2.2.1⟩

end Mimosa.Ex
