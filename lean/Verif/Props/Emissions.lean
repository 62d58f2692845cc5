import Verif.Lib.Example

/-! # C23–C29: emissions, temperature, budget, inertia, minimum levels, post-2100 rules

All statements are about an arbitrary solution `σ` that MIMOSA can return for modules `md` and parameter values
`p` (`Solution md p σ`: the abstract model can be built, the instance can be created and `σ` satisfies all variable
bounds and all active constraints).  `σ.G v t`, `σ.R v t r` are the values of Pyomo variables at time index `t`
(and region `r`). -/

namespace Mimosa
variable {md : Modules} {p : Params} {σ : Env}

/-! ## C23 -/

/-- At every time step, including the first, global emissions are the sum over regions. -/
theorem C23_global_is_sum (h : Solution md p σ) {t : ℕ} (ht : t ≤ p.tf) :
    σ.G .global_emissions t = (p.regions.map fun r => σ.R .regional_emissions t r).sum := by
  cases t with
  | zero =>
    rw [h.eqs.emissions.global_emissions_init]
    exact sumR_congr fun r hr => (h.eqs.emissions.regional_emissions_init r hr).symm
  | succ t => exact h.eqs.emissions.global_emissions t ht

/-- After the first year, regional emissions are `(1 - abatement)` times the baseline reported in the same
solution. -/
theorem C23_abated_baseline (h : Solution md p σ) {t : ℕ} (ht : t ≤ p.tf) (h0 : 0 < t) {r : String}
    (hr : r ∈ p.regions) :
    σ.R .regional_emissions t r = (1 - σ.R .relative_abatement t r) * σ.R .baseline t r := by
  obtain ⟨s, rfl⟩ := Nat.exists_eq_succ_of_ne_zero h0.ne'
  have h1 := h.eqs.emissions.regional_emissions s ht r hr
  have h2 := h.eqs.emissions.baseline (s + 1) ht r hr
  simp only [Nat.succ_eq_add_one]
  cases hc : p.use_carbon_intensity_for_baseline
  · simp only [hc, Bool.false_eq_true, if_false] at h1 h2
    rw [h1, h2]
  · simp only [hc, if_true] at h1
    exact h1
example := C23_abated_baseline Ex.sol0 (t := 1) (by simp [Ex.ex]) one_pos (r := "A") (by simp [Ex.ex])

/-- The baseline is the given baseline emissions, or the baseline carbon intensity times net GDP when that
option is on. -/
theorem C23_baseline (h : Solution md p σ) {t : ℕ} (ht : t ≤ p.tf) {r : String} (hr : r ∈ p.regions) :
    (p.use_carbon_intensity_for_baseline = false → σ.R .baseline t r = p.baseline_emissions t r) ∧
    (p.use_carbon_intensity_for_baseline = true →
      σ.R .baseline t r = p.baseline_emissions t r / p.baseline_GDP t r * σ.R .GDP_net t r) := by
  have h2 := h.eqs.emissions.baseline t ht r hr
  constructor <;> intro hc <;> simp only [hc, if_true, Bool.false_eq_true, if_false] at h2 <;> exact h2
example := (C23_baseline Ex.sol0 (t := 1) (by simp [Ex.ex]) (r := "A") (by simp [Ex.ex])).1 rfl

/-- Reported reductions are baseline minus emissions, so global reductions are total baseline minus global
emissions. -/
theorem C23_reductions (h : Solution md p σ) {t : ℕ} (ht : t ≤ p.tf) :
    (∀ r ∈ p.regions, σ.R .regional_emission_reduction t r =
      σ.R .baseline t r - σ.R .regional_emissions t r) ∧
    (p.regions.map fun r => σ.R .regional_emission_reduction t r).sum =
      (p.regions.map fun r => σ.R .baseline t r).sum - σ.G .global_emissions t := by
  refine ⟨h.eqs.emissions.reduction t ht, ?_⟩
  rw [C23_global_is_sum h ht]
  have := sumR_congr (p := p) (h.eqs.emissions.reduction t ht)
  exact this.trans sumR_sub
example := C23_reductions Ex.sol0 (t := 1) (by simp [Ex.ex])

example : Ex.σ0.G .global_emissions 1 = 20 ∧ Ex.σ0.R .regional_emissions 1 "A" = 10 := by
  constructor
  · show (Ex.x0 fun _ => 0).gE Ex.p0 1 = 20
    rw [Ex.gE_val _ ⟨rfl, rfl⟩]; norm_num [Ex.aPath]
  · show (Ex.x0 fun _ => 0).em Ex.p0 1 "A" = 10
    rw [Ex.em_val _ ⟨rfl, rfl⟩]; norm_num [Ex.aPath]
example := C23_global_is_sum Ex.sol0 (t := 1) (by simp [Ex.ex])

/-! ## C24 -/

/-- Cumulative emissions are the trapezoidal integral of global emissions. -/
theorem C24_trapezoidal (h : Solution md p σ) (hz : p.cumulative_emissions_trapz = true) {t : ℕ}
    (ht : t ≤ p.tf) : σ.G .cumulative_emissions t =
      ∑ s ∈ Finset.range t, p.dt * (σ.G .global_emissions (s + 1) + σ.G .global_emissions s) / 2 := by
  induction t with
  | zero => simpa using h.eqs.emissions.cumulative_init
  | succ t ih =>
    rw [Finset.sum_range_succ, ← ih (by omega), h.eqs.emissions.cumulative t ht, hz]
    simp

/-- With trapezoidal integration off they are `dt` times the sum of the later emissions. -/
theorem C24_rectangular (h : Solution md p σ) (hz : p.cumulative_emissions_trapz = false) {t : ℕ}
    (ht : t ≤ p.tf) : σ.G .cumulative_emissions t =
      p.dt * ∑ s ∈ Finset.range t, σ.G .global_emissions (s + 1) := by
  induction t with
  | zero => simpa using h.eqs.emissions.cumulative_init
  | succ t ih =>
    rw [Finset.sum_range_succ, mul_add, ← ih (by omega), h.eqs.emissions.cumulative t ht, hz]
    simp

/-- They start at zero and never become negative. -/
theorem C24_nonneg (h : Solution md p σ) {t : ℕ} (ht : t ≤ p.tf) :
    σ.G .cumulative_emissions 0 = 0 ∧ 0 ≤ σ.G .cumulative_emissions t :=
  ⟨h.eqs.emissions.cumulative_init, h.eqs.emissions.cumulative_nonneg t ht⟩
example := C24_nonneg Ex.sol0 (t := 2) (by simp [Ex.ex])

/-- Cumulative baseline emissions of a region. -/
theorem cumulative_baseline_eq (p : Params) (t : ℕ) (r : String) : p.cumulative_baseline_emissions t r =
    ∑ s ∈ Finset.range t, p.dt * (p.baseline_emissions (s + 1) r + p.baseline_emissions s r) / 2 := by
  have key : ∀ (f g : ℕ → ℝ) (n k : ℕ), Params.trapz ((List.range' k (n + 1)).map f)
      ((List.range' k (n + 1)).map g) =
      ∑ s ∈ Finset.range n, (g (k + s + 1) - g (k + s)) * (f (k + s + 1) + f (k + s)) / 2 := by
    intro f g n
    induction n with
    | zero => intro k; simp [List.range', Params.trapz]
    | succ n ih =>
      intro k
      have e : List.range' k (n + 1 + 1) = k :: (k + 1) :: List.range' (k + 2) n := by
        simp [List.range'_succ]
      have e2 : List.range' (k + 1) (n + 1) = (k + 1) :: List.range' (k + 2) n := by
        simp [List.range'_succ]
      rw [e]
      simp only [List.map_cons, Params.trapz]
      have := ih (k + 1)
      rw [e2] at this
      simp only [List.map_cons] at this
      rw [this, Finset.sum_range_succ' _ n]
      rw [add_comm]
      congr 1
      apply Finset.sum_congr rfl
      intro s _
      have : k + 1 + s = k + (s + 1) := by ring
      rw [this]
  unfold Params.cumulative_baseline_emissions
  have := key (fun s => p.baseline_emissions s r) (fun s => p.beginyear + (s : ℝ) * p.dt) t 0
  rw [List.range_eq_range']
  rw [this]
  apply Finset.sum_congr rfl
  intro s _
  push_cast
  simp only [Nat.zero_add]
  ring

/-- The baseline counterpart used for learning: the same trapezoidal integral of baseline emissions
(always trapezoidal, also if the switch is off). -/
theorem C24_baseline_cumulative (p : Params) (t : ℕ) : p.cumulative_global_baseline_emissions t =
    (p.regions.map fun r => ∑ s ∈ Finset.range t,
      p.dt * (p.baseline_emissions (s + 1) r + p.baseline_emissions s r) / 2).sum := by
  unfold Params.cumulative_global_baseline_emissions
  congr 1
  exact List.map_congr_left fun r _ => cumulative_baseline_eq p t r

example : Ex.σ0.G .cumulative_emissions 2 = 1600 := (Ex.cum_val _ ⟨rfl, rfl⟩).2.2.1
example := C24_trapezoidal Ex.sol0 rfl (t := 3) le_rfl
example : ∃ md p σ, Solution md p σ ∧ p.cumulative_emissions_trapz = true ∧ 0 < p.tf :=
  ⟨_, _, _, Ex.sol0, rfl, by simp [Ex.ex]⟩

/-! ## C25 -/

/-- Temperature is linear in cumulative emissions. -/
theorem C25_linear (h : Solution md p σ) {t : ℕ} (ht : t ≤ p.tf) :
    σ.G .temperature t = p.T0 + p.TCRE * σ.G .cumulative_emissions t :=
  h.eqs.emissions.temperature t ht
example := C25_linear Ex.sol0 (t := 2) (by simp [Ex.ex])

/-- With `TCRE ≥ 0` it never falls below the initial temperature. -/
theorem C25_at_least_initial (h : Solution md p σ) (hT : 0 ≤ p.TCRE) {t : ℕ} (ht : t ≤ p.tf) :
    p.T0 ≤ σ.G .temperature t := by
  rw [C25_linear h ht]
  have := mul_nonneg hT (C24_nonneg h ht).2
  linarith
example := C25_at_least_initial Ex.sol0 (by norm_num [Ex.ex]) (t := 2) (by simp [Ex.ex])

/-- A temperature target is respected at every model year from 2100 on. -/
theorem C25_target (h : Solution md p σ) {T : ℝ} (hT : p.temperature_target = some T) {t : ℕ}
    (ht : t ≤ p.tf) (hy : 2100 ≤ p.beginyear + t * p.dt) : σ.G .temperature t ≤ T :=
  h.eqs.emissions.temperature_target t ht T hT (by simpa [Params.year] using hy)

/-- A target thus bounds cumulative emissions: a temperature target is a carbon budget. -/
theorem C25_target_is_budget (h : Solution md p σ) {T : ℝ} (hT : p.temperature_target = some T)
    (hc : 0 < p.TCRE) {t : ℕ} (ht : t ≤ p.tf) (hy : 2100 ≤ p.beginyear + t * p.dt) :
    σ.G .cumulative_emissions t ≤ (T - p.T0) / p.TCRE := by
  have h1 := C25_target h hT ht hy
  rw [C25_linear h ht] at h1
  rw [le_div_iff₀ hc]; linarith

example := C25_target Ex.sol0 (T := 2) rfl (t := 2) (by simp [Ex.ex]) (by norm_num [Ex.ex])
example := C25_target_is_budget Ex.sol0 (T := 2) rfl (by norm_num [Ex.ex]) (t := 3) (by simp [Ex.ex])
  (by norm_num [Ex.ex])

/-! ## C26 -/

/-- A carbon budget holds at every model year from 2100 on – for every value of the reversibility parameter
for which the model can be instantiated at all. -/
theorem C26_budget (h : Solution md p σ) {b : ℝ} (hb : p.budget = some b) {t : ℕ} (ht : t ≤ p.tf)
    (hy : 2100 ≤ p.beginyear + t * p.dt) : σ.G .cumulative_emissions t ≤ b := by
  have hy' : p.year t ≥ 2100 := by simpa [Params.year] using hy
  have h1 := h.eqs.emissions.budget t ht b hb hy'
  have h2 : ¬ p.perc_reversible_damages < 1 := by
    intro hp
    exact absurd (h.instOk.overshoot (by simp [hb]) hp t ht) (not_lt.2 hy')
  simp only [h2, if_false, add_zero] at h1
  linarith

/-- Hence temperature stays below the level of the budget. -/
theorem C26_budget_temperature (h : Solution md p σ) {b : ℝ} (hb : p.budget = some b)
    (hT : 0 ≤ p.TCRE) {t : ℕ} (ht : t ≤ p.tf) (hy : 2100 ≤ p.beginyear + t * p.dt) :
    σ.G .temperature t ≤ p.T0 + p.TCRE * b := by
  rw [C25_linear h ht]
  have := mul_le_mul_of_nonneg_left (C26_budget h hb ht hy) hT
  linarith
example := C26_budget_temperature Ex.sol0 (b := 1600) rfl (by norm_num [Ex.ex]) (t := 2) (by simp [Ex.ex]) (by norm_num [Ex.ex])

example := C26_budget Ex.sol0 (b := 1600) rfl (t := 2) (by simp [Ex.ex]) (by norm_num [Ex.ex])
/-- The budget of the example is binding. -/
example : Ex.σ0.G .cumulative_emissions 3 = 1600 := (Ex.cum_val _ ⟨rfl, rfl⟩).2.2.2

/-! ## C27 -/

/-- A step-wise lower bound on changes telescopes. -/
theorem telescope {f : ℕ → ℝ} {tf : ℕ} {c : ℝ} (h : ∀ t < tf, c ≤ f (t + 1) - f t) {s t : ℕ}
    (hst : s ≤ t) (ht : t ≤ tf) : c * ((t : ℝ) - s) ≤ f t - f s := by
  induction t with
  | zero => obtain rfl : s = 0 := by omega
            simp
  | succ t ih =>
    rcases Nat.lt_or_ge t s with hlt | hge
    · obtain rfl : s = t + 1 := by omega
      simp
    · have h1 := ih hge (by omega)
      have h2 := h t (by omega)
      push_cast
      linarith

/-- Regional inertia: between any two model years regional emissions fall by at most
`|i| · (elapsed years) · initial baseline emissions`. -/
theorem C27_regional_inertia (h : Solution md p σ) {i : ℝ} (hi : p.inertia_regional = some i)
    (hi0 : i ≤ 0) {r : String} (hr : r ∈ p.regions) {s t : ℕ} (hst : s ≤ t) (ht : t ≤ p.tf) :
    σ.R .regional_emissions s r - σ.R .regional_emissions t r ≤
      |i| * (p.year t - p.year s) * p.baseline_emissions 0 r := by
  have := telescope (f := fun t => σ.R .regional_emissions t r)
    (fun t ht => h.eqs.emissions.regional_inertia t ht r hr i hi) hst ht
  rw [abs_of_nonpos hi0]
  simp only [Params.year, Int.cast_natCast]
  linarith

/-- Global inertia, likewise. -/
theorem C27_global_inertia (h : Solution md p σ) {i : ℝ} (hi : p.inertia_global = some i)
    (hi0 : i ≤ 0) {s t : ℕ} (hst : s ≤ t) (ht : t ≤ p.tf) :
    σ.G .global_emissions s - σ.G .global_emissions t ≤
      |i| * (p.year t - p.year s) * (p.regions.map fun r => p.baseline_emissions 0 r).sum := by
  have := telescope (f := fun t => σ.G .global_emissions t)
    (fun t ht => h.eqs.emissions.global_inertia t ht i hi) hst ht
  rw [abs_of_nonpos hi0]
  simp only [Params.year, Int.cast_natCast]
  have e : p.sumR (fun r => p.baseline_emissions 0 r) =
    (p.regions.map fun r => p.baseline_emissions 0 r).sum := rfl
  rw [← e]
  linarith

example := C27_regional_inertia Ex.sol0 (i := -0.05) rfl (by norm_num) (r := "A") (by simp [Ex.ex])
  (s := 0) (t := 2) (by norm_num) (by simp [Ex.ex])
example := C27_global_inertia Ex.sol0 (i := -0.05) rfl (by norm_num) (s := 1) (t := 3) (by norm_num)
  (by simp [Ex.ex])

/-! ## C28 -/

theorem C28_global_min (h : Solution md p σ) {l : ℝ} (hl : p.global_min_level = some l) {t : ℕ}
    (ht : t ≤ p.tf) : l ≤ σ.G .global_emissions t := h.eqs.emissions.global_min_level t ht l hl

theorem C28_regional_min (h : Solution md p σ) {l : ℝ} (hl : p.regional_min_level = some l) {t : ℕ}
    (ht : t ≤ p.tf) {r : String} (hr : r ∈ p.regions) : l ≤ σ.R .regional_emissions t r :=
  h.eqs.emissions.regional_min_level t ht r hr l hl

/-- Regional minimum levels add up: global emissions are at least the number of regions times the level. -/
theorem C28_regional_min_global (h : Solution md p σ) {l : ℝ} (hl : p.regional_min_level = some l) {t : ℕ}
    (ht : t ≤ p.tf) : (p.regions.length : ℝ) * l ≤ σ.G .global_emissions t := by
  rw [C23_global_is_sum h ht]
  have := sumR_le (p := p) (f := fun _ => l) fun r hr => C28_regional_min h hl ht hr
  have e : p.sumR (fun _ => l) = (p.regions.length : ℝ) * l := by simp [Params.sumR]
  rw [e] at this; exact this
example := C28_regional_min_global Ex.sol0 (l := -10) rfl (t := 2) (by simp [Ex.ex])

/-- Relative abatement stays within `[0, 2.5]`. -/
theorem C28_abatement_bounds (h : Solution md p σ) {t : ℕ} (ht : t ≤ p.tf) {r : String}
    (hr : r ∈ p.regions) : 0 ≤ σ.R .relative_abatement t r ∧ σ.R .relative_abatement t r ≤ 2.5 := by
  have := h.abatement_bounds ht hr
  exact ⟨this.1, by linarith [this.2]⟩
example := C28_abatement_bounds Ex.sol0 (t := 2) (by simp [Ex.ex]) (r := "A") (by simp [Ex.ex])

/-- Hence, with non-negative baseline, emissions lie between `-1.5` and `1` times the baseline. -/
theorem C28_emission_range (h : Solution md p σ) {t : ℕ} (ht : t ≤ p.tf) (h0 : 0 < t) {r : String}
    (hr : r ∈ p.regions) (hb : 0 ≤ σ.R .baseline t r) :
    -1.5 * σ.R .baseline t r ≤ σ.R .regional_emissions t r ∧
      σ.R .regional_emissions t r ≤ σ.R .baseline t r := by
  have h1 := h.abatement_bounds ht hr
  rw [C23_abated_baseline h ht h0 hr]
  constructor <;> nlinarith [h1.1, h1.2]

example := C28_global_min Ex.sol0 (l := -20) rfl (t := 0) (by simp [Ex.ex])
example := C28_regional_min Ex.sol0 (l := -10) rfl (t := 3) (by simp [Ex.ex]) (r := "B") (by simp [Ex.ex])
example := C28_emission_range Ex.sol0 (t := 1) (by simp [Ex.ex]) one_pos (r := "A") (by simp [Ex.ex])
  (by show (0 : ℝ) ≤ 20; norm_num)

/-! ## C29 -/

/-- With the switch on, regional emissions never increase over model years after 2100. -/
theorem C29_non_increasing (h : Solution md p σ) (hn : p.non_increasing_emissions_after_2100 = true)
    (hdt : 0 ≤ p.dt) {s t : ℕ} (hst : s ≤ t) (ht : t ≤ p.tf) (hy : 2100 < p.year s) {r : String}
    (hr : r ∈ p.regions) : σ.R .regional_emissions t r ≤ σ.R .regional_emissions s r := by
  induction t with
  | zero => obtain rfl : s = 0 := by omega
            exact le_rfl
  | succ t ih =>
    rcases Nat.lt_or_ge t s with hlt | hge
    · obtain rfl : s = t + 1 := by omega
      exact le_rfl
    · have h1 := ih hge (by omega)
      have hy2 : p.year (((t + 1 : ℕ) : ℤ) - 1) > 2100 := by
        rw [cast_succ_sub_one]
        have : (s : ℝ) ≤ t := by exact_mod_cast hge
        have : (s : ℝ) * p.dt ≤ t * p.dt := by gcongr
        simp only [Params.year, Int.cast_natCast] at hy ⊢
        linarith
      have h2 := h.eqs.emissions.non_increasing (t + 1) ht r hr hy2 hn
      rw [cast_succ_sub_one] at h2
      linarith
example := C29_non_increasing Ex.sol0 rfl (by norm_num [Ex.ex]) (s := 3) (t := 3) le_rfl le_rfl (by norm_num [Ex.ex, Params.year]) (r := "A") (by simp [Ex.ex])

/-- … hence neither do global emissions. -/
theorem C29_non_increasing_global (h : Solution md p σ)
    (hn : p.non_increasing_emissions_after_2100 = true) (hdt : 0 ≤ p.dt) {s t : ℕ} (hst : s ≤ t)
    (ht : t ≤ p.tf) (hy : 2100 < p.year s) : σ.G .global_emissions t ≤ σ.G .global_emissions s := by
  rw [C23_global_is_sum h ht, C23_global_is_sum h (hst.trans ht)]
  exact sumR_le fun r hr => C29_non_increasing h hn hdt hst ht hy hr
example := C29_non_increasing_global Ex.sol0 rfl (by norm_num [Ex.ex]) (s := 3) (t := 3) le_rfl le_rfl
  (by norm_num [Ex.ex, Params.year])

/-- With a budget and the net-zero switch on, global emissions are at most zero from 2100 on. -/
theorem C29_net_zero (h : Solution md p σ) (hn : p.no_pos_emissions_after_budget_year = true)
    (hb : p.budget ≠ none) {t : ℕ} (ht : t ≤ p.tf) (hy : 2100 ≤ p.year t) :
    σ.G .global_emissions t ≤ 0 := h.eqs.emissions.net_zero t ht hy hn hb
example := C29_net_zero Ex.sol0 rfl (by simp [Ex.ex]) (t := 2) (by simp [Ex.ex]) (by norm_num [Ex.ex, Params.year])

/-- … and cumulative emissions (hence, with `TCRE ≥ 0`, temperature) do not increase any more. -/
theorem C29_net_zero_cumulative (h : Solution md p σ)
    (hn : p.no_pos_emissions_after_budget_year = true) (hb : p.budget ≠ none) (hdt : 0 ≤ p.dt)
    {s t : ℕ} (hst : s ≤ t) (ht : t ≤ p.tf) (hy : 2100 ≤ p.year s) :
    σ.G .cumulative_emissions t ≤ σ.G .cumulative_emissions s ∧
      (0 ≤ p.TCRE → σ.G .temperature t ≤ σ.G .temperature s) := by
  have key : σ.G .cumulative_emissions t ≤ σ.G .cumulative_emissions s := by
    induction t with
    | zero => obtain rfl : s = 0 := by omega
              exact le_rfl
    | succ t ih =>
      rcases Nat.lt_or_ge t s with hlt | hge
      · obtain rfl : s = t + 1 := by omega
        exact le_rfl
      · have h1 := ih hge (by omega)
        have hyt : ∀ u : ℕ, s ≤ u → 2100 ≤ p.year u := by
          intro u hu
          have : (s : ℝ) ≤ u := by exact_mod_cast hu
          have : (s : ℝ) * p.dt ≤ u * p.dt := by gcongr
          simp only [Params.year, Int.cast_natCast] at hy ⊢
          linarith
        have e1 := C29_net_zero h hn hb (t := t) (by omega) (hyt t hge)
        have e2 := C29_net_zero h hn hb (t := t + 1) ht (hyt (t + 1) (by omega))
        have e3 := h.eqs.emissions.cumulative t ht
        have e4 : (if p.cumulative_emissions_trapz then
            p.dt * (σ.G .global_emissions (t + 1) + σ.G .global_emissions t) / 2
          else p.dt * σ.G .global_emissions (t + 1)) ≤ 0 := by
          split
          · nlinarith
          · nlinarith
        linarith
  refine ⟨key, fun hT => ?_⟩
  rw [C25_linear h ht, C25_linear h (hst.trans ht)]
  nlinarith
example := C29_net_zero_cumulative Ex.sol0 rfl (by simp [Ex.ex]) (by norm_num [Ex.ex]) (s := 2) (t := 3) (by norm_num) le_rfl
  (by norm_num [Ex.ex, Params.year])

/-- Changing the net-zero switch. -/
def Params.setNetZero (p : Params) (b : Bool) : Params := { p with no_pos_emissions_after_budget_year := b }

theorem calibCapital_setNetZero (q : Params) (c : Bool) (r : String) (t : ℕ) :
    calibCapital (q.setNetZero c) r t = calibCapital q r t := by
  induction t with
  | zero => rfl
  | succ t ih => simp only [calibCapital, ih]; rfl

theorem tfp_setNetZero (q : Params) (c : Bool) (r : String) (t : ℕ) :
    get_TFP_value (q.setNetZero c) t r = get_TFP_value q t r := by
  simp only [get_TFP_value, calibCapital_setNetZero]; rfl

/-- Without a budget the net-zero switch has no effect: the set of solutions is the same. -/
theorem C29_net_zero_needs_budget (hb : p.budget = none) (b : Bool) :
    Solution md (p.setNetZero b) σ ↔ Solution md p σ := by
  have key : ∀ {q : Params} (c : Bool), q.budget = none → Solution md q σ →
      Solution md (q.setNetZero c) σ := by
    intro q c hq h
    obtain ⟨h1, h2, h3, h4, h5⟩ := solution_char.1 h
    refine solution_char.2 ⟨h1, h2, ?_, ?_, ?_⟩
    · obtain ⟨⟨a1, a2, a3, a4, a5, a6, a7, a8, a9⟩, b2, b3, b4, b5⟩ := h3
      refine ⟨⟨a1, a2, a3, a4, a5, a6, a7, ?_, ?_⟩, b2, b3, b4, b5⟩
      · intro t ht r hr
        rw [calibCapital_setNetZero]; exact a8 t ht r hr
      · intro t ht r hr
        rw [calibCapital_setNetZero]; exact a9 t ht r hr
    · refine Drivers.bounds_of h1 ?_ ?_ ?_ ?_
      · exact fun t ht r hr => h.abatement_bounds ht hr
      · exact fun t ht r hr => h.price_bounds ht hr
      · exact fun t ht => h.slr_nonneg ht
      · exact fun hd t ht r hr => h.slr_damage_bounds hd ht hr
    · obtain ⟨e, es, ed, em, et, etr, ee, ec, ew, eo⟩ := h5
      obtain ⟨c1, c2, c3, c4, c5, c6, c7⟩ := ec
      obtain ⟨d, tr, tf, w, o⟩ := md
      refine ⟨{ e with net_zero := fun t ht _ _ hbn => absurd hq hbn }, { es with }, ?_, { em with },
        ?_, ?_, { ee with }, ⟨?_, c2, c3, c4, c5, c6, c7⟩, ?_, ?_⟩
      · cases d
        · exact { (show CoacchEqs q σ from ed) with }
        · exact ed
      · cases tr
        · trivial
        · exact absurd rfl h1
        · exact { (show TradeEqs q σ from et) with }
      · cases tf
        · trivial
        · exact { (show PoolEqs q σ from etr) with }
      rotate_left
      · cases w <;> exact ew
      · cases o <;> exact eo
      intro t ht r hr
      rw [tfp_setNetZero]; exact c1 t ht r hr
  refine ⟨fun h => ?_, key b hb⟩
  have := key p.no_pos_emissions_after_budget_year (q := p.setNetZero b) hb h
  exact this

end Mimosa
