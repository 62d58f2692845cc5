import Verif.Props.CompareExamples

/-!
# A one-region world with every optional feature turned the other way

The main example (`Ex.p0`) has two regions, the trapezoidal rule, learning, damages that count and sea-level damages.
`Ex.lone` has one region, the rectangular rule, no learning, ignored damages and no sea-level damages; it is the witness
for the theorems about these settings.
-/

set_option linter.unusedVariables false

namespace Mimosa.Ex
open Mimosa

noncomputable def lone : Params :=
  { solo with
    tf := 2, dt := 10, alpha := 3 / 10
    baseline_emissions := fun _ _ => 5
    damage_scale_factor := 1
    non_increasing_emissions_after_2100 := false
    cumulative_emissions_trapz := false
    LBD_rate := 1, LOT_rate := 0
    ignore_damages := true
    slr := ⟨fun _ => "Robust-Linear", fun _ => 1, fun _ => 1, fun _ => 1, fun _ => 0⟩ }

theorem lone_baseline_cum (t : ℕ) (ht : t ≤ 2) : lone.cumulative_global_baseline_emissions t = 50 * t := by
  interval_cases t <;>
    simp [Params.cumulative_global_baseline_emissions, Params.cumulative_baseline_emissions, lone, solo, free, ex,
      List.range_succ, Params.trapz] <;> norm_num

theorem lone_admissible : lone.Admissible where
  regions_ne := by simp [lone, solo]
  dt_pos := by norm_num [lone]
  pop_pos := by simp [lone, solo, free, ex]
  gdp_pos := by simp [lone, solo, free, ex]
  sum_emissions_pos := by simp [lone, solo, free, ex]
  cum_ne := by
    intro t ht
    rw [lone_baseline_cum _ ht]
    push_cast
    positivity
  lbd_pos := by norm_num [lone]
  lbd_scaling := free_admissible.lbd_scaling
  lot := by norm_num [lone]
  beta_pos := free_admissible.beta_pos
  alpha_nonneg := by norm_num [lone]
  alpha_lt := by norm_num [lone]
  dk_nonneg := free_admissible.dk_nonneg
  dk_lt := free_admissible.dk_lt
  sr_nonneg := free_admissible.sr_nonneg
  capital_pos := by simp [lone, solo, free, ex]
  elasmu := free_admissible.elasmu
  inequal := free_admissible.inequal

theorem lone_ordinary {md : Modules} : Spec.OrdinaryData md lone where
  baseline_nonneg := by simp [lone]
  T0_nonneg := (free_ordinary (md := md)).T0_nonneg
  TCRE_nonneg := (free_ordinary (md := md)).TCRE_nonneg
  lbd_le := by norm_num [lone]
  lot_nonneg := by norm_num [lone]
  gamma_nonneg := (free_ordinary (md := md)).gamma_nonneg
  scaling_nonneg := by simp [lone, solo, free, ex]
  reversible := (free_ordinary (md := md)).reversible
  start := (free_ordinary (md := md)).start
  forms := fun hm r hr x => ⟨((solo_ordinary (md := md)).forms hm r hr x).1, Or.inl (by simp [lone, show Damages.strContains "Linear" "Robust-Linear" = true by decide])⟩

theorem lone_temp (t : ℕ) : Spec.pathTemperature lone (fun _ _ => 0) t = 1 + 0.0006 * (50 * t) := by
  have hw : ∀ t, Spec.pathWorld lone (fun _ _ => 0) t = 5 := fun t => by
    rw [Spec.pathWorld_zero]; simp [lone, solo]
  have h : Spec.pathCumulative lone (fun _ _ => 0) t = 50 * t := by
    induction t with
    | zero => simp [Spec.pathCumulative]
    | succ t ih =>
      have e : Spec.pathCumulative lone (fun _ _ => 0) (t + 1) = Spec.pathCumulative lone (fun _ _ => 0) t +
        10 * Spec.pathWorld lone (fun _ _ => 0) (t + 1) := rfl
      rw [e, ih, hw]; push_cast; ring
  show 1 + 0.0006 * Spec.pathCumulative lone (fun _ _ => 0) t = _
  rw [h]

theorem lone_baseline : Spec.BaselineWithinLimits lone where
  no_target := rfl
  no_budget := rfl
  inertia_global := by intro i h; cases h
  inertia_regional := by intro i h; cases h
  min_global := by intro i h; cases h
  min_regional := by intro i h; cases h
  non_increasing := fun _ _ _ _ _ _ => le_rfl
  cost_floor := le_of_eq rfl
  melt := by
    intro t ht
    have h3 : (t : ℝ) ≤ 2 := by exact_mod_cast ht
    rw [lone_temp]
    constructor
    · show 0.0008 * 10 * (_ + 1) ≤ (0.26 : ℝ); linarith
    · show 10 * (_ + 0.6) ≤ (7300 : ℝ); linarith
  sea_damages := by
    intro t ht r hr
    have hf : ∀ z, formVal z lone.slr r = 0 := fun z => by
      simp [formVal, lone, show Damages.strContains "Linear" "Robust-Linear" = true by decide]
    rw [hf, hf]; norm_num

theorem lone_sol (d : DamageModule) (w : WelfareModule) (o : ObjectiveModule) :
    ∃ σ, Solution (md0 d w o) lone σ ∧ ∀ t ≤ 2, ∀ r ∈ lone.regions, σ.R .relative_abatement t r = 0 ∧
      σ.R .regional_emissions t r = 5 ∧ σ.R .area_under_MAC t r = 0 :=
  C49_no_policy_feasible_exogenous (md := md0 d w o) lone_admissible lone_ordinary lone_baseline rfl (by simp [md0])
    (fun h => by cases h) (Or.inl rfl)

end Mimosa.Ex
