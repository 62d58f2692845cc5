import Verif.Props.Existence

/-!
# A model without policy targets: examples with two different solutions, and an optimal one

The data of `Lib/Example.lean` with capital elasticity 0, without temperature target and carbon budget.
-/

namespace Mimosa.Ex
open Mimosa

/-- No target, no budget. -/
noncomputable def free : Params :=
  { ex "noregime" 0 none with temperature_target := none, budget := none }

theorem free_admissible : free.Admissible :=
  { admissible (regime := "noregime") (al := 0) (conv := none) le_rfl one_pos with }

theorem free_ordinary {md : Modules} : Spec.OrdinaryData md free where
  baseline_nonneg := by simp [free, ex]
  T0_nonneg := by simp [free, ex]
  TCRE_nonneg := by norm_num [free, ex]
  lbd_le := by norm_num [free, ex]
  lot_nonneg := by norm_num [free, ex]
  gamma_nonneg := by norm_num [free, ex]
  scaling_nonneg := by simp [free, ex]
  reversible := by simp [free, ex]
  start := by norm_num [free, ex]
  forms := fun _ r hr x => formsOk (regime := "noregime") (al := 0) (conv := none) x r hr

/-- An abatement path between 0 and 1/2 that does not fall in any region. -/
def Mild (a : ℕ → String → ℝ) : Prop :=
  (∀ r, a 0 r = 0) ∧ (∀ t r, 0 ≤ a t r ∧ a t r ≤ 1 / 2) ∧ ∀ t r, a t r ≤ a (t + 1) r

section
variable {a : ℕ → String → ℝ} (ha : Mild a)
include ha

theorem mild_em (t : ℕ) (r : String) : 10 ≤ Spec.pathEmissions free a t r ∧
    Spec.pathEmissions free a t r ≤ 20 := by
  obtain ⟨_, h2, _⟩ := ha
  have : Spec.pathEmissions free a t r = (1 - a t r) * 20 := rfl
  rw [this]
  constructor <;> linarith [(h2 t r).1, (h2 t r).2]

theorem mild_world (t : ℕ) : 20 ≤ Spec.pathWorld free a t ∧ Spec.pathWorld free a t ≤ 40 := by
  have e : Spec.pathWorld free a t = Spec.pathEmissions free a t "A" + Spec.pathEmissions free a t "B" := by
    simp [Spec.pathWorld, free, ex]
  have h1 := mild_em ha t "A"
  have h2 := mild_em ha t "B"
  rw [e]; constructor <;> linarith [h1.1, h1.2, h2.1, h2.2]

theorem mild_cum (t : ℕ) : 0 ≤ Spec.pathCumulative free a t ∧ Spec.pathCumulative free a t ≤ 1600 * t := by
  induction t with
  | zero => simp [Spec.pathCumulative]
  | succ t ih =>
    have e : Spec.pathCumulative free a (t + 1) = Spec.pathCumulative free a t +
      40 * (Spec.pathWorld free a (t + 1) + Spec.pathWorld free a t) / 2 := rfl
    have h1 := mild_world ha t
    have h2 := mild_world ha (t + 1)
    rw [e]; push_cast
    constructor <;> linarith [ih.1, ih.2, h1.1, h1.2, h2.1, h2.2]

theorem mild_temp {t : ℕ} (ht : t ≤ 3) : 1 ≤ Spec.pathTemperature free a t ∧
    Spec.pathTemperature free a t ≤ 3.88 := by
  have e : Spec.pathTemperature free a t = 1 + 0.0006 * Spec.pathCumulative free a t := rfl
  have h := mild_cum ha t
  have h3 : (t : ℝ) ≤ 3 := by exact_mod_cast ht
  rw [e]; constructor <;> linarith [h.1, h.2]

theorem mild_sea {t : ℕ} (ht : t ≤ 3) : 0 ≤ (Spec.pathSea free a t).1 ∧
    (Spec.pathSea free a t).1 ≤ 0.2 + 0.2 * t ∧
    0.015 ≤ (Spec.pathSea free a t).2.1 ∧ (Spec.pathSea free a t).2.1 ≤ 0.26 ∧
    0.006 ≤ (Spec.pathSea free a t).2.2 ∧ (Spec.pathSea free a t).2.2 ≤ 7.3 := by
  have hr := Drivers.slr_ranges (p := free) (x := Path.x a) (by norm_num [free, ex]) (by norm_num [free, ex])
    (fun t ht => by rw [Path.temp_eq]; linarith [(mild_temp ha ht).1])
    (fun t ht => by
      rw [Path.temp_eq]; have := (mild_temp ha ht).2
      show 0.0008 * 40 * (_ + 1) ≤ (0.26 : ℝ); linarith)
    (fun t ht => by
      rw [Path.temp_eq]; have := (mild_temp ha ht).2
      show 40 * (_ + 0.6) ≤ (7300 : ℝ); linarith)
  rw [Path.sea_eq]
  obtain ⟨h1, ⟨h2, h3⟩, h4, h5⟩ := hr t ht
  refine ⟨h1, ?_, h2, h3, h4, h5⟩
  simp only
  clear h1 h2 h3 h4 h5
  induction t with
  | zero =>
    show SeaLevelRise.slr_thermal_expansion_init 1 ≤ _
    unfold SeaLevelRise.slr_thermal_expansion_init SeaLevelRise.thermal_init
      SeaLevelRise.thermal_adjust_rate SeaLevelRise.thermal_equil
    norm_num
  | succ t ih =>
    have ih := ih (by omega)
    have h0 := (hr t (by show t ≤ 3; omega)).1
    have hT := (mild_temp ha (t := t) (by omega)).2
    have e : (Path.x a).th free (t + 1) = (1 - 0.024076141150722) ^ ((40 : ℝ) / 10) * (Path.x a).th free t +
      0.024076141150722 * (40 / 10) * ((Path.x a).temp free t * 0.5) := thermal_step _ _ _
    have hp : (1 - 0.024076141150722 : ℝ) ^ ((40 : ℝ) / 10) ≤ 1 :=
      Real.rpow_le_one (by norm_num) (by norm_num) (by norm_num)
    rw [← Path.temp_eq] at hT
    rw [e]; push_cast; nlinarith

theorem mild_limits : Spec.PathWithinLimits free a := by
  have ha' := ha
  obtain ⟨h0, h2, h3⟩ := ha'
  have hem : ∀ t r, Spec.pathEmissions free a t r = (1 - a t r) * 20 := fun _ _ => rfl
  have hw : ∀ t, Spec.pathWorld free a t = (1 - a t "A") * 20 + (1 - a t "B") * 20 := fun t => by
    have e : Spec.pathWorld free a t = Spec.pathEmissions free a t "A" + Spec.pathEmissions free a t "B" := by
      simp [Spec.pathWorld, free, ex]
    rw [e, hem, hem]
  constructor
  case starts_at_zero => intro r _; exact h0 r
  case range => intro t _ r _; exact ⟨(h2 t r).1, by linarith [(h2 t r).2]⟩
  case target => intro T hT; cases hT
  case budget => intro b hb; cases hb
  case inertia_global =>
    intro i hi t ht
    have : i = -0.05 := by simpa [free, ex] using hi.symm
    have e : (free.regions.map fun r => free.baseline_emissions 0 r).sum = 40 := by
      simp [free, ex]; norm_num
    rw [this, e, hw, hw]
    show 40 * (-0.05) * 40 ≤ _
    linarith [(h2 t "A").1, (h2 (t + 1) "A").2, (h2 t "B").1, (h2 (t + 1) "B").2]
  case inertia_regional =>
    intro i hi t ht r hr
    have : i = -0.05 := by simpa [free, ex] using hi.symm
    rw [this, hem, hem]
    show 40 * (-0.05) * 20 ≤ _
    linarith [(h2 t r).1, (h2 (t + 1) r).2]
  case min_global =>
    intro l hl t ht
    have : l = -20 := by simpa [free, ex] using hl.symm
    linarith [(mild_world ha t).1]
  case min_regional =>
    intro l hl t ht r hr
    have : l = -10 := by simpa [free, ex] using hl.symm
    linarith [(mild_em ha t r).1]
  case non_increasing =>
    intro _ t ht _ r hr
    rw [hem, hem]; linarith [h3 t r]
  case cost_floor => exact le_of_eq rfl
  case price =>
    intro t ht r hr
    refine Or.inr ⟨rfl, ?_⟩
    show 1 * a t r ^ (3 : ℝ) ≤ 2
    have := Real.rpow_le_one (x := a t r) (z := 3) (h2 t r).1
      (by linarith [(h2 t r).2]) (by norm_num)
    linarith
  case melt =>
    intro t ht
    have := (mild_temp ha ht).2
    constructor
    · show 0.0008 * 40 * (_ + 1) ≤ (0.26 : ℝ); linarith
    · show 40 * (_ + 0.6) ≤ (7300 : ℝ); linarith
  case sea_damages =>
    intro t ht r hr
    have ht3 : t ≤ 3 := ht
    have b1 := mild_sea ha ht3
    have b2 := mild_sea ha (t := 0) (by norm_num)
    have h3' : (t : ℝ) ≤ 3 := by exact_mod_cast ht3
    have r1 : 0 ≤ Spec.pathSeaLevel free a t ∧ Spec.pathSeaLevel free a t ≤ 10 := by
      unfold Spec.pathSeaLevel; constructor <;> linarith [b1.1, b1.2.1, b1.2.2.1, b1.2.2.2.1, b1.2.2.2.2.1, b1.2.2.2.2.2]
    have r2 : 0 ≤ Spec.pathSeaLevel free a 0 ∧ Spec.pathSeaLevel free a 0 ≤ 10 := by
      have : ((0 : ℕ) : ℝ) = 0 := by norm_num
      rw [this] at b2
      unfold Spec.pathSeaLevel; constructor <;> linarith [b2.1, b2.2.1, b2.2.2.1, b2.2.2.2.1, b2.2.2.2.2.1, b2.2.2.2.2.2]
    have hr' : r ∈ ["A", "B"] := hr
    simp only [List.mem_cons, List.not_mem_nil, or_false] at hr'
    have hslr : free.slr = (ex "noregime" 0 none).slr := rfl
    have hsc : free.damage_scale_factor = 1 := rfl
    rw [hslr, hsc]
    rcases hr' with rfl | rfl
    · rw [formS_A, formS_A]; constructor <;> linarith [r1.1, r1.2, r2.1, r2.2]
    · have b1 := formS_B_range (regime := "noregime") (al := 0) (conv := none) (Spec.pathSeaLevel free a t)
      have b2 := formS_B_range (regime := "noregime") (al := 0) (conv := none) (Spec.pathSeaLevel free a 0)
      constructor <;> linarith [b1.1, b1.2, b2.1, b2.2]
end

theorem mild_zero : Mild fun _ _ => 0 := ⟨fun _ => rfl, fun _ _ => by norm_num, fun _ _ => le_rfl⟩
/-- abatement of one half after the first year -/
noncomputable def half (t : ℕ) (_ : String) : ℝ := if t = 0 then 0 else 1 / 2
theorem mild_half : Mild half :=
  ⟨fun _ => rfl, fun t _ => by unfold half; split <;> norm_num, fun t _ => by unfold half; split <;> norm_num⟩

/-- C49 applies: any damage, welfare and objective module, no policy. -/
example (d : DamageModule) (w : WelfareModule) (o : ObjectiveModule) :
    ∃ σ, Solution (md0 d w o) free σ ∧ ∀ t r, σ.R .relative_abatement t r = half t r :=
  C49_path_feasible_exogenous free_admissible free_ordinary (mild_limits mild_half) rfl (by simp [md0])
    (fun h => by cases h) (Or.inl rfl)

theorem free_baseline : Spec.BaselineWithinLimits free := by
  have h := mild_limits mild_zero
  exact
    { no_target := rfl
      no_budget := rfl
      inertia_global := by simpa only [Spec.pathWorld_zero] using h.inertia_global
      inertia_regional := by simpa only [Spec.pathEmissions_zero] using h.inertia_regional
      min_global := by simpa only [Spec.pathWorld_zero] using h.min_global
      min_regional := by simpa only [Spec.pathEmissions_zero] using h.min_regional
      non_increasing := by simpa only [Spec.pathEmissions_zero] using h.non_increasing
      cost_floor := h.cost_floor
      melt := h.melt
      sea_damages := h.sea_damages }

example (d : DamageModule) (w : WelfareModule) (o : ObjectiveModule) :=
  C49_no_policy_feasible_exogenous (md := md0 d w o) free_admissible free_ordinary free_baseline rfl (by simp [md0])
    (fun h => by cases h) (Or.inl rfl)

/-! ## Consumption of the solutions without damages -/

theorem free_sol (d : DamageModule) (w : WelfareModule) (o : ObjectiveModule) {a : ℕ → String → ℝ} (ha : Mild a) :
    Solution (md0 d w o) free ((Path.x a).env (md0 d w o) free) :=
  Drivers.build_solution free_admissible (Path.ok free_admissible free_ordinary (mild_limits ha) rfl
    (by simp [md0]) (fun h => by cases h) (Or.inl rfl))

/-- In every solution gross GDP is 10 (capital elasticity 0). -/
theorem free_gross {md : Modules} {τ : Env} (h : Solution md free τ) {t : ℕ} (ht : t ≤ 3) {r : String}
    (hr : r ∈ free.regions) : τ.R .GDP_gross t r = 10 := by
  cases t with
  | zero => exact h.eqs.economy.gross_init r hr
  | succ t =>
    rw [(h.eqs.economy.gross t ht r hr).2]
    simp [get_TFP_value, calc_GDP_real, free, ex]

/-- Without damages, trade and transfers, consumption is 8 minus 0.8 times the abatement cost. -/
theorem free_cons {w : WelfareModule} {o : ObjectiveModule} {τ : Env} (h : Solution (md0 .nodamage w o) free τ)
    {t : ℕ} (ht : t ≤ 3) {r : String} (hr : r ∈ free.regions) :
    τ.R .consumption t r = 4 / 5 * (10 - τ.R .mitigation_costs t r) ∧ 0 ≤ τ.R .mitigation_costs t r := by
  have h1 := h.eqs.economy.consumption t ht r hr
  have h2 := h.eqs.economy.net t ht r hr
  have h3 : τ.R .damage_costs t r = 0 := h.eqs.damages t ht r hr
  have hg := free_gross h ht hr
  have h4 := C33_relative h ht hr
  have h5 : 0 ≤ τ.R .rel_mitigation_costs t r := by
    rcases Nat.eq_zero_or_pos t with h0 | h0
    · exact h4.2.2.2 h0
    · exact h4.2.2.1 h0
  rw [h4.2.1, hg] at h5
  rw [h3, hg] at h2
  constructor
  · rw [h1, h2]
    show (1 - 1 / 5) * (10 * (1 - if false = true then 0 else 0) - _ - 0) = _
    norm_num
  · by_contra hneg
    push Not at hneg
    have : τ.R .mitigation_costs t r / 10 < 0 := by linarith
    linarith

theorem free_cost_zero (w : WelfareModule) (o : ObjectiveModule) (t : ℕ) (r : String) :
    ((Path.x fun _ _ => 0).env (md0 .nodamage w o) free).R .mitigation_costs t r = 0 := by
  show (Path.x fun _ _ => 0).learn free t * 1 * (1 / 10) * (0 : ℝ) ^ ((3 : ℝ) + 1) / (3 + 1) * 20 + 0 = 0
  rw [Real.zero_rpow (by norm_num)]; simp

theorem free_cost_half (w : WelfareModule) (o : ObjectiveModule) (t : ℕ) (r : String) (ht : 0 < t) :
    0 < ((Path.x half).env (md0 .nodamage w o) free).R .mitigation_costs t r := by
  show 0 < (Path.x half).learn free t * 1 * (1 / 10) * (half t r) ^ ((3 : ℝ) + 1) / (3 + 1) * 20 + 0
  have h1 := Path.learn_pos free_admissible (free_ordinary (md := md0 .nodamage w o)) (mild_limits mild_half) t
  have h2 : half t r = 1 / 2 := by unfold half; rw [if_neg (by omega)]
  have h3 : (0 : ℝ) < (1 / 2) ^ ((3 : ℝ) + 1) := Real.rpow_pos_of_pos (by norm_num) _
  rw [h2]; positivity

noncomputable abbrev σZero (w : WelfareModule) (o : ObjectiveModule) : Env :=
  (Path.x fun _ _ => 0).env (md0 .nodamage w o) free
noncomputable abbrev σHalf (w : WelfareModule) (o : ObjectiveModule) : Env :=
  (Path.x half).env (md0 .nodamage w o) free

theorem free_less {w : WelfareModule} {o : ObjectiveModule} {τ : Env} (h : Solution (md0 .nodamage w o) free τ)
    {t : ℕ} (ht : t ≤ 3) {r : String} (hr : r ∈ free.regions) :
    τ.R .consumption t r ≤ (σZero w o).R .consumption t r := by
  have h1 := free_cons h ht hr
  have h2 := free_cons (free_sol .nodamage w o mild_zero) ht hr
  rw [h1.1, h2.1, free_cost_zero]; linarith [h1.2]

theorem free_lt (w : WelfareModule) (o : ObjectiveModule) {t : ℕ} (ht : t ≤ 3) (h0 : 0 < t) {r : String}
    (hr : r ∈ free.regions) : (σHalf w o).R .consumption t r < (σZero w o).R .consumption t r := by
  have h1 := free_cons (free_sol .nodamage w o mild_half) ht hr
  have h2 := free_cons (free_sol .nodamage w o mild_zero) ht hr
  rw [h1.1, h2.1, free_cost_zero]
  linarith [free_cost_half w o t r h0]

theorem free_pop : ∀ t ≤ free.tf, ∀ r ∈ free.regions, 0 < free.population t r := free_admissible.pop_pos

/-- Without damages the path without abatement is optimal, in every welfare module. -/
theorem free_optimal (w : WelfareModule) : Optimal (md0 .nodamage w .utility) free (σZero w .utility) := by
  refine ⟨free_sol .nodamage w .utility mild_zero, fun τ hτ => ?_⟩
  show τ.G .NPV free.tf ≤ (σZero w .utility).G .NPV free.tf
  have hz := free_sol .nodamage w .utility mild_zero
  have hw : ∀ t ≤ free.tf, τ.G .yearly_welfare t ≤ (σZero w .utility).G .yearly_welfare t := by
    intro t ht
    by_cases hall : ∃ r ∈ free.regions, τ.R .consumption t r < (σZero w .utility).R .consumption t r
    · exact (C44_more_consumption_more_welfare hτ hz ht (free_pop t ht) (fun r hr => free_less hτ ht hr) hall).le
    · push Not at hall
      exact (C44_only_consumption_matters rfl hτ hz ht fun r hr =>
        le_antisymm (free_less hτ ht hr) (hall r hr)).1.le
  by_cases hlt : ∃ t ≤ free.tf, 0 < t ∧ τ.G .yearly_welfare t < (σZero w .utility).G .yearly_welfare t
  · exact (C45_more_welfare_better hτ hz rfl (by norm_num [free, ex]) (fun t ht _ => hw t ht) hlt).le
  · push Not at hlt
    rw [C45_utility hτ rfl le_rfl, C45_utility hz rfl le_rfl]
    unfold Spec.discountedSum
    apply le_of_eq
    refine Finset.sum_congr rfl fun t ht => ?_
    have ht' : t + 1 ≤ free.tf := by simpa using ht
    dsimp only
    rw [le_antisymm (hw (t + 1) ht') (hlt (t + 1) ht' (by omega))]

/-! ## Examples beside C44 and C45 -/

example := C44_more_consumption_more_welfare (free_sol .nodamage .inequal_aversion_general .utility mild_half)
  (free_sol .nodamage .inequal_aversion_general .utility mild_zero) (t := 2) (by norm_num [free, ex])
  (free_pop 2 (by norm_num [free, ex]))
  (fun r hr => free_less (free_sol _ _ _ mild_half) (by norm_num) hr)
  ⟨"A", by simp [free, ex], free_lt _ _ (by norm_num) (by norm_num) (by simp [free, ex])⟩
example := C44_only_consumption_matters rfl (free_sol .COACCH .cost_minimising .utility mild_half)
  (free_sol .COACCH .cost_minimising .utility mild_half) (t := 2) (by norm_num [free, ex]) (fun _ _ => rfl)
example := C44_welfare_loss_formula sol0 rfl (t := 3) (by norm_num [p0, ex])
example := C44_cost_minimising_formula (free_sol .COACCH .cost_minimising .utility mild_half) rfl (t := 3)
  (by norm_num [free, ex])
example := C44_inequality_lowers_welfare (free_sol .nodamage .welfare_loss_minimising .utility mild_zero) rfl
  (by
    have h1 : (3 : ℝ) < Real.pi := Real.pi_gt_three
    have h2 : (8 : ℝ) / Real.pi ^ 2 ≤ 8 / 9 := by gcongr; nlinarith
    show 8 / Real.pi ^ 2 ≤ (3 / 2 : ℝ); linarith) (t := 3) (by norm_num [free, ex])
  (free_pop 3 (by norm_num [free, ex]))
  (fun r hr => by
    rw [(free_cons (free_sol .nodamage .welfare_loss_minimising .utility mild_zero) (t := 3) (by norm_num) hr).1,
      free_cost_zero]; norm_num)
example := C45_utility sol0 rfl (n := 3) (by norm_num [p0, ex])
example := C45_globalcosts (free_sol .COACCH .cost_minimising .globalcosts mild_half) rfl (n := 3)
  (by norm_num [free, ex])
example := C45_optimum (free_optimal .cost_minimising) (free_sol .nodamage .cost_minimising .utility mild_half)
example := C45_more_welfare_better (free_sol .nodamage .cost_minimising .utility mild_half)
  (free_sol .nodamage .cost_minimising .utility mild_zero) rfl (by norm_num [free, ex])
  (fun t ht h0 => (C44_more_consumption_more_welfare (free_sol .nodamage .cost_minimising .utility mild_half)
    (free_sol .nodamage .cost_minimising .utility mild_zero) ht (free_pop t ht)
    (fun r hr => free_less (free_sol _ _ _ mild_half) ht hr)
    ⟨"A", by simp [free, ex], free_lt _ _ ht h0 (by simp [free, ex])⟩).le)
  ⟨1, by norm_num [free, ex], one_pos, C44_more_consumption_more_welfare
    (free_sol .nodamage .cost_minimising .utility mild_half)
    (free_sol .nodamage .cost_minimising .utility mild_zero) (by norm_num [free, ex]) (free_pop 1 (by norm_num [free, ex]))
    (fun r hr => free_less (free_sol _ _ _ mild_half) (by norm_num) hr)
    ⟨"A", by simp [free, ex], free_lt _ _ (by norm_num) one_pos (by simp [free, ex])⟩⟩
example := C45_pareto (free_optimal .welfare_loss_minimising) rfl (by norm_num [free, ex]) free_pop

end Mimosa.Ex
