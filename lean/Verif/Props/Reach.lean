import Verif.Props.Ambition

/-!
# C92: the limits on reductions bound what can be reached

From the data alone one can compute emissions, cumulative emissions and temperatures below which no pathway gets.  Targets
below them have no solution at all.
-/

namespace Mimosa
variable {md : Modules} {p : Params} {σ : Env}

/-- At least `m`, if a limit `m` is set. -/
noncomputable def Spec.atLeast : Option ℝ → ℝ → ℝ
  | some m, x => max m x
  | none, x => x

/-- The lowest emissions of a region the limits allow in time step `t`: its minimum level, the inertia from the first year on,
and abatement of at most 2.5 times the baseline. -/
noncomputable def Spec.regionalFloor (p : Params) (t : ℕ) (r : String) : ℝ :=
  if t = 0 then p.baseline_emissions 0 r
  else Spec.atLeast p.regional_min_level
    (Spec.atLeast (p.inertia_regional.map fun i => p.baseline_emissions 0 r * (1 + t * p.dt * i))
      (-1.5 * p.baseline_emissions t r))

/-- The lowest world emissions the limits allow in time step `t`. -/
noncomputable def Spec.worldFloor (p : Params) (t : ℕ) : ℝ :=
  Spec.atLeast p.global_min_level
    (Spec.atLeast (p.inertia_global.map fun i => (p.regions.map fun r => p.baseline_emissions 0 r).sum * (1 + t * p.dt * i))
      (p.regions.map fun r => Spec.regionalFloor p t r).sum)

/-- The lowest cumulative emissions: the integral of the lowest emissions, but not below zero. -/
noncomputable def Spec.cumulativeFloor (p : Params) : ℕ → ℝ
  | 0 => 0
  | t + 1 => max 0 (Spec.cumulativeFloor p t + (if p.cumulative_emissions_trapz then
      p.dt * (Spec.worldFloor p (t + 1) + Spec.worldFloor p t) / 2 else p.dt * Spec.worldFloor p (t + 1)))

/-- Exogenous, non-negative baseline emissions, and time runs forward. -/
structure Spec.PlainBaseline (p : Params) : Prop where
  exogenous : p.use_carbon_intensity_for_baseline = false
  baseline : ∀ t ≤ p.tf, ∀ r ∈ p.regions, 0 ≤ p.baseline_emissions t r
  dt_nonneg : 0 ≤ p.dt

theorem atLeast_le {o : Option ℝ} {x y : ℝ} (h : ∀ m, o = some m → m ≤ y) (hx : x ≤ y) : Spec.atLeast o x ≤ y := by
  cases o with
  | none => exact hx
  | some m => exact max_le (h m rfl) hx

/-- **C92.** In every solution, regional and world emissions are at least what the limits allow … -/
theorem C92_emissions (h : Solution md p σ) (hb : Spec.PlainBaseline p) {t : ℕ} (ht : t ≤ p.tf) :
    (∀ r ∈ p.regions, Spec.regionalFloor p t r ≤ σ.R .regional_emissions t r) ∧
    Spec.worldFloor p t ≤ σ.G .global_emissions t := by
  have h0 := C32_emissions h
  have reg : ∀ r ∈ p.regions, Spec.regionalFloor p t r ≤ σ.R .regional_emissions t r := by
    intro r hr
    unfold Spec.regionalFloor
    split
    · rename_i k; subst k; exact (h0.1 r hr).ge
    · rename_i k
      refine atLeast_le (fun m hm => h.eqs.emissions.regional_min_level t ht r hr m hm) (atLeast_le (fun m hm => ?_) ?_)
      · obtain ⟨i, hi, rfl⟩ := Option.map_eq_some_iff.1 hm
        clear k hm
        induction t with
        | zero => rw [h0.1 r hr]; simp
        | succ t ih =>
          have := h.eqs.emissions.regional_inertia t ht r hr i hi
          have := ih (by omega)
          push_cast
          linarith
      · have e := (C23_baseline h ht hr).1 hb.exogenous
        have := (C28_emission_range h ht (by omega) hr (by rw [e]; exact hb.baseline t ht r hr)).1
        rwa [e] at this
  refine ⟨reg, ?_⟩
  unfold Spec.worldFloor
  refine atLeast_le (fun m hm => h.eqs.emissions.global_min_level t ht m hm) (atLeast_le (fun m hm => ?_) ?_)
  · obtain ⟨i, hi, rfl⟩ := Option.map_eq_some_iff.1 hm
    clear reg hm
    induction t with
    | zero =>
      rw [C23_global_is_sum h ht]
      have : (p.regions.map fun r => σ.R .regional_emissions 0 r).sum = (p.regions.map fun r => p.baseline_emissions 0 r).sum :=
        sumR_congr (p := p) fun r hr => h0.1 r hr
      rw [this]; simp
    | succ t ih =>
      have i1 := h.eqs.emissions.global_inertia t ht i hi
      have i2 := ih (by omega)
      have e : p.sumR (fun r => p.baseline_emissions 0 r) = (p.regions.map fun r => p.baseline_emissions 0 r).sum := rfl
      rw [e] at i1
      push_cast
      linarith
  · rw [C23_global_is_sum h ht]
    exact sumR_le (p := p) reg

/-- **C92.** … so are cumulative emissions and temperature. -/
theorem C92_cumulative (h : Solution md p σ) (hb : Spec.PlainBaseline p) {t : ℕ} (ht : t ≤ p.tf) :
    Spec.cumulativeFloor p t ≤ σ.G .cumulative_emissions t ∧
    (0 ≤ p.TCRE → p.T0 + p.TCRE * Spec.cumulativeFloor p t ≤ σ.G .temperature t) := by
  have key : Spec.cumulativeFloor p t ≤ σ.G .cumulative_emissions t := by
    induction t with
    | zero => rw [h.eqs.emissions.cumulative_init]; exact le_rfl
    | succ t ih =>
      have i1 := ih (by omega)
      refine max_le (h.eqs.emissions.cumulative_nonneg _ ht) ?_
      rw [h.eqs.emissions.cumulative t ht]
      have w1 := (C92_emissions h hb ht).2
      have w0 := (C92_emissions h hb (t := t) (by omega)).2
      split
      · have := mul_le_mul_of_nonneg_left (add_le_add w1 w0) hb.dt_nonneg
        linarith
      · exact add_le_add i1 (mul_le_mul_of_nonneg_left w1 hb.dt_nonneg)
  refine ⟨key, fun hT => ?_⟩
  rw [h.eqs.emissions.temperature t ht]
  linarith [mul_le_mul_of_nonneg_left key hT]

/-- **C92.** A carbon budget below the lowest cumulative emissions in 2100 or later cannot be met. -/
theorem C92_budget_out_of_reach (hb : Spec.PlainBaseline p) {b : ℝ} (hbud : p.budget = some b) {t : ℕ}
    (ht : t ≤ p.tf) (hy : 2100 ≤ p.year t) (hlow : b < Spec.cumulativeFloor p t) : ¬ ∃ σ, Solution md p σ := by
  rintro ⟨σ, h⟩
  have hy' : 2100 ≤ p.beginyear + t * p.dt := by simpa [Params.year] using hy
  linarith [C26_budget h hbud ht hy', (C92_cumulative h hb ht).1]

/-- **C92.** A temperature target below the temperature that follows from them cannot be met. -/
theorem C92_target_out_of_reach (hb : Spec.PlainBaseline p) (hk : 0 ≤ p.TCRE) {T : ℝ}
    (hT : p.temperature_target = some T) {t : ℕ} (ht : t ≤ p.tf) (hy : 2100 ≤ p.year t)
    (hlow : T < p.T0 + p.TCRE * Spec.cumulativeFloor p t) : ¬ ∃ σ, Solution md p σ := by
  rintro ⟨σ, h⟩
  have hy' : 2100 ≤ p.beginyear + t * p.dt := by simpa [Params.year] using hy
  linarith [C25_target h hT ht hy', (C92_cumulative h hb ht).2 hk]

/-- **C92.** World emissions cannot be brought to zero in fewer than `1 / |i|` years, where `i` is the inertia … -/
theorem C92_earliest_zero (h : Solution md p σ) (hb : Spec.PlainBaseline p) {i : ℝ} (hi : p.inertia_global = some i)
    (hi0 : i < 0) (hE : 0 < (p.regions.map fun r => p.baseline_emissions 0 r).sum) {t : ℕ} (ht : t ≤ p.tf)
    (hz : σ.G .global_emissions t ≤ 0) : 1 / |i| ≤ p.year t - p.year 0 := by
  have h1 : (p.regions.map fun r => p.baseline_emissions 0 r).sum * (1 + t * p.dt * i) ≤ σ.G .global_emissions t := by
    refine le_trans ?_ (C92_emissions h hb ht).2
    unfold Spec.worldFloor
    rw [hi]
    cases p.global_min_level with
    | none => exact le_max_left _ _
    | some m => exact (le_max_left _ _).trans (le_max_right _ _)
  have h2 : 1 + t * p.dt * i ≤ 0 := by
    by_contra hc
    linarith [mul_pos hE (not_le.1 hc)]
  rw [abs_of_neg hi0, div_le_iff₀ (by linarith)]
  have e : p.year t - p.year 0 = t * p.dt := by simp [Params.year]
  rw [e]
  linarith

/-- **C92.** … and if zero is required from 2100 on and this leaves too little time, there is no solution. -/
theorem C92_net_zero_out_of_reach (hb : Spec.PlainBaseline p) {i : ℝ} (hi : p.inertia_global = some i) (hi0 : i < 0)
    (hE : 0 < (p.regions.map fun r => p.baseline_emissions 0 r).sum) (hn : p.no_pos_emissions_after_budget_year = true)
    (hbud : p.budget ≠ none) {t : ℕ} (ht : t ≤ p.tf) (hy : 2100 ≤ p.year t) (hshort : p.year t - p.year 0 < 1 / |i|) :
    ¬ ∃ σ, Solution md p σ := by
  rintro ⟨σ, h⟩
  linarith [C92_earliest_zero h hb hi hi0 hE ht (C29_net_zero h hn hbud ht hy)]

/-! ## Witnesses -/

namespace Ex

/-- The world of `ex` without temperature target, where world emissions fall by at most 1/80 of their initial level per
year. -/
noncomputable abbrev slow (b : Option ℝ) : Params :=
  { ex "noregime" 0 none with temperature_target := none, budget := b, inertia_global := some (-1 / 80) }

theorem slow_plain {b : Option ℝ} : Spec.PlainBaseline (slow b) := ⟨rfl, by norm_num [ex], by norm_num [ex]⟩

theorem slow_floor {b : Option ℝ} : Spec.cumulativeFloor (slow b) 2 = 1600 := by
  have w0 : Spec.worldFloor (slow b) 0 = 40 := by
    simp [Spec.worldFloor, Spec.atLeast, Spec.regionalFloor, ex]; norm_num
  have w1 : Spec.worldFloor (slow b) 1 = 20 := by
    simp [Spec.worldFloor, Spec.atLeast, Spec.regionalFloor, ex]; norm_num
  have w2 : Spec.worldFloor (slow b) 2 = 0 := by
    simp [Spec.worldFloor, Spec.atLeast, Spec.regionalFloor, ex]; norm_num
  simp only [Spec.cumulativeFloor, w0, w1, w2]
  norm_num [ex]

theorem slow_sol {d : DamageModule} {w : WelfareModule} {o : ObjectiveModule} {b : ℝ} (hb : 1600 ≤ b) :
    Solution (md0 d w o) (slow (some b)) ((x0 fun _ => 0).env (md0 d w o) (ex "noregime" 0 none)) := by
  have h := solution0 (conv := none) d w o le_rfl one_pos
  have e := h.eqs
  have hg : ∀ t, ((x0 fun _ => 0).env (md0 d w o) (ex "noregime" 0 none)).G .global_emissions t = (1 - aPath t) * 40 := fun t =>
    gE_val (regime := "noregime") (al := 0) (conv := none) (x0 _) ⟨rfl, rfl⟩ t
  refine C59_other_limits (p := ex "noregime" 0 none) (q := slow (some b)) h le_rfl (by norm_num [ex]) (by norm_num [ex])
    (.inl rfl) ?_
  exact
    { target := fun T hT t ht hy => by cases hT
      budget := fun b' hb' t ht hy => by
        cases hb'
        have := e.emissions.budget t ht 1600 rfl hy
        rw [if_neg (by norm_num [ex])] at this
        linarith
      net_zero := fun hn hb t ht hy => e.emissions.net_zero t ht hy rfl (by simp [ex])
      inertia_global := fun i hi t ht => by
        cases hi
        have ht' : t < 3 := ht
        rw [hg, hg]
        show 40 * (-1 / 80) * _ ≤ _
        interval_cases t <;> norm_num [aPath, ex]
      inertia_regional := fun i hi t ht r hr => e.emissions.regional_inertia t ht r hr i hi
      global_min := fun l hl t ht => e.emissions.global_min_level t ht l hl
      regional_min := fun l hl t ht r hr => e.emissions.regional_min_level t ht r hr l hl
      non_increasing := fun hn t ht hy r hr => by
        have i1 := e.emissions.non_increasing (t + 1) ht r hr (by rw [cast_succ_sub_one]; exact hy) hn
        rw [cast_succ_sub_one] at i1
        exact sub_nonpos.1 i1
      costs_min := fun t ht h0 r hr => by
        have := e.mitigation.rel_costs_min t ht r hr
        rwa [if_pos h0] at this }

/-- Here the computed bound is exact: a budget can be met if and only if it is at least 1600. -/
example (d : DamageModule) (w : WelfareModule) (o : ObjectiveModule) (b : ℝ) :
    (∃ σ, Solution (md0 d w o) (slow (some b)) σ) ↔ 1600 ≤ b := by
  refine ⟨fun hs => ?_, fun hb => ⟨_, slow_sol hb⟩⟩
  by_contra hc
  exact C92_budget_out_of_reach slow_plain rfl (t := 2) (by norm_num [ex]) (by simp [Params.year, ex]; norm_num)
    (by rw [slow_floor]; exact not_le.1 hc) hs

/-- A temperature target of 1.9 degrees is out of reach (the bound is 1.96). -/
example (md : Modules) : ¬ ∃ σ, Solution md { slow none with temperature_target := some 1.9 } σ := by
  refine C92_target_out_of_reach ⟨rfl, by norm_num [ex], by norm_num [ex]⟩ (by norm_num [ex]) (T := 1.9) rfl (t := 2)
    (by norm_num [ex]) (by simp [Params.year, ex]; norm_num) ?_
  have : Spec.cumulativeFloor { slow none with temperature_target := some 1.9 } 2 = Spec.cumulativeFloor (slow none) 2 := rfl
  rw [this, slow_floor]
  norm_num [ex]

/-- World emissions need 80 years to reach zero. -/
example : let σ := (x0 fun _ => 0).env (md0 .COACCH .cost_minimising .globalcosts) (ex "noregime" 0 none)
    σ.G .global_emissions 2 ≤ 0 ∧ 1 / |(-1 / 80 : ℝ)| ≤ (slow (some 1600)).year 2 - (slow (some 1600)).year 0 := by
  intro σ
  have hz : σ.G .global_emissions 2 ≤ 0 := by
    have : σ.G .global_emissions 2 = (1 - aPath 2) * 40 := gE_val (regime := "noregime") (al := 0) (conv := none) (x0 _) ⟨rfl, rfl⟩ 2
    rw [this]; norm_num [aPath]
  exact ⟨hz, C92_earliest_zero (slow_sol le_rfl) slow_plain rfl (by norm_num) (by norm_num [ex]) (t := 2) (by norm_num [ex]) hz⟩

/-- With half that speed net zero in 2100 is impossible. -/
example (md : Modules) : ¬ ∃ σ, Solution md { slow (some 5000) with inertia_global := some (-1 / 160) } σ :=
  C92_net_zero_out_of_reach ⟨rfl, by norm_num [ex], by norm_num [ex]⟩ (i := -1 / 160) rfl (by norm_num) (by norm_num [ex])
    rfl (by simp) (t := 2) (by norm_num [ex]) (by simp [Params.year, ex]; norm_num)
    (by simp [Params.year, ex, abs_div]; norm_num)

end Ex
end Mimosa
