import Verif.Props.Economy

/-!
# Sea-level rise and damages: C39, C40, C41, C52
-/

namespace Mimosa
open SeaLevelRise Damages
variable {md : Modules} {p : Params} {σ : Env}

/-! ## C39: sea-level rise -/

/-- Physical conditions on a path of temperatures `T` over the time steps `0 … n-1`: in no step does more ice
melt than there is at all, and the Greenland ice sheet does not grow. -/
structure Spec.MeltOk (dt : ℝ) (n : ℕ) (T : ℕ → ℝ) : Prop where
  dt_nonneg : 0 ≤ dt
  /-- Greenland melts (this is `T ≥ -0.536…`) -/
  melts : ∀ t < n, 0 ≤ 1.11860082 * T t + 0.6
  /-- glaciers: melt of one step `0.0008 (T+1) dt` stays below the total of 0.26 m -/
  glacier : ∀ t < n, 0.0008 * (T t + 1) * dt < 0.26
  /-- Greenland: melt of one step, `0.001 (1.1186 T + 0.6) dt`, stays below the total of 7.3 m -/
  greenland : ∀ t < n, 0.001 * (1.11860082 * T t + 0.6) * dt < 7.3

/-- The physical conditions hold for every temperature path between 0 and 10 degrees and steps of up to 25
years. -/
theorem Spec.MeltOk.of_range {dt : ℝ} {n : ℕ} {T : ℕ → ℝ} (h0 : 0 ≤ dt) (h1 : dt ≤ 25)
    (hT : ∀ t < n, 0 ≤ T t ∧ T t ≤ 10) : Spec.MeltOk dt n T where
  dt_nonneg := h0
  melts t ht := by have := (hT t ht).1; positivity
  glacier t ht := by
    have := hT t ht
    have : 0.0008 * (T t + 1) * dt ≤ 0.0008 * (10 + 1) * 25 := by
      have : 0 ≤ T t := (hT t ht).1
      gcongr; exact (hT t ht).2
    norm_num at this ⊢; linarith
  greenland t ht := by
    have := hT t ht
    have : 0.001 * (1.11860082 * T t + 0.6) * dt ≤ 0.001 * (1.11860082 * 10 + 0.6) * 25 := by
      have : 0 ≤ T t := (hT t ht).1
      gcongr; exact (hT t ht).2
    norm_num at this ⊢; linarith

private theorem gsic_eq (e : SlrEqs p σ) {t : ℕ} (ht : t < p.tf) :
    σ.G .slr_cumgsic (t + 1) = slr_gsic (σ.G .slr_cumgsic t) (σ.G .temperature t) p.dt := e.gsic t ht
private theorem gis_eq (e : SlrEqs p σ) {t : ℕ} (ht : t < p.tf) :
    σ.G .slr_cumgis (t + 1) = slr_gis (σ.G .slr_cumgis t) (σ.G .temperature t) p.dt := e.gis t ht
private theorem thermal_eq (e : SlrEqs p σ) {t : ℕ} (ht : t < p.tf) :
    σ.G .slr_thermal (t + 1) = slr_thermal_expansion (σ.G .slr_thermal t) (σ.G .temperature t) p.dt :=
  e.thermal t ht

/-- Glaciers contribute less than 0.26 m and Greenland less than 7.3 m. -/
theorem C39_below_total_ice (h : Solution md p σ)
    (hm : Spec.MeltOk p.dt p.tf fun t => σ.G .temperature t) {t : ℕ} (ht : t ≤ p.tf) :
    σ.G .slr_cumgsic t < 0.26 ∧ σ.G .slr_cumgis t < 7.3 := by
  have e := h.eqs.slr
  induction t with
  | zero =>
    have h1 : σ.g .slr_cumgsic 0 = 0.015 := e.gsic_init
    have h2 : σ.g .slr_cumgis 0 = 0.006 := e.gis_init
    show σ.g .slr_cumgsic 0 < 0.26 ∧ σ.g .slr_cumgis 0 < 7.3
    rw [h1, h2]; norm_num
  | succ t ih =>
    obtain ⟨h1, h2⟩ := ih (by omega)
    rw [gsic_eq e ht, gis_eq e ht]
    have a := gsic_gap (σ.G .slr_cumgsic t) (σ.G .temperature t) p.dt
    have b := gis_gap (σ.G .slr_cumgis t) (σ.G .temperature t) p.dt
    have m1 := hm.glacier t ht
    have m2 := hm.greenland t ht
    have k1 : 0 < 1 - 0.0008 / 0.26 * p.dt * (σ.G .temperature t + 1) := by
      have : 0.0008 / 0.26 * p.dt * (σ.G .temperature t + 1) =
        (0.0008 * (σ.G .temperature t + 1) * p.dt) / 0.26 := by ring
      rw [this, sub_pos, div_lt_one (by norm_num)]; exact m1
    have k2 : 0 < 1 - p.dt / 10 * (1 / 100) * (1.11860082 * σ.G .temperature t + 0.6) / 7.3 := by
      rw [sub_pos, div_lt_one (by norm_num)]; linarith
    have p1 := mul_pos (sub_pos.2 h1) k1
    have p2 := mul_pos (sub_pos.2 h2) k2
    constructor <;> linarith

/-- Both ice contributions never decrease in time. -/
theorem C39_ice_monotone (h : Solution md p σ)
    (hm : Spec.MeltOk p.dt p.tf fun t => σ.G .temperature t) {s t : ℕ} (hst : s ≤ t) (ht : t ≤ p.tf) :
    σ.G .slr_cumgsic s ≤ σ.G .slr_cumgsic t ∧ σ.G .slr_cumgis s ≤ σ.G .slr_cumgis t := by
  have e := h.eqs.slr
  induction t, hst using Nat.le_induction with
  | base => exact ⟨le_refl _, le_refl _⟩
  | succ t hs ih =>
    obtain ⟨h1, h2⟩ := ih (by omega)
    obtain ⟨b1, b2⟩ := C39_below_total_ice h hm (t := t) (by omega)
    have m0 := hm.melts t ht
    have m1 := hm.glacier t ht
    have m2 := hm.greenland t ht
    have a := gsic_range b1.le hm.dt_nonneg (T := σ.G .temperature t) (by linarith) (by linarith)
    have b := gis_range b2.le hm.dt_nonneg (T := σ.G .temperature t) m0 (by linarith)
    rw [gsic_eq e ht, gis_eq e ht]
    exact ⟨h1.trans a.1, h2.trans b.1⟩

/-- Total sea-level rise is the sum of the three contributions, none of which is negative. -/
theorem C39_total (h : Solution md p σ) {t : ℕ} (ht : t ≤ p.tf) :
    σ.G .total_SLR t = σ.G .slr_thermal t + σ.G .slr_cumgsic t + σ.G .slr_cumgis t ∧
    0 ≤ σ.G .slr_thermal t ∧ 0 ≤ σ.G .slr_cumgsic t ∧ 0 ≤ σ.G .slr_cumgis t ∧
    0 ≤ σ.G .total_SLR t :=
  ⟨h.eqs.slr.total t ht, h.slr_nonneg ht⟩
example := C39_total Ex.sol0 (t := 2) (by simp [Ex.ex])

/-- Sea-level rise in the first year is fixed by the initial temperature. -/
theorem C39_initial (h : Solution md p σ) :
    σ.G .slr_cumgsic 0 = 0.015 ∧ σ.G .slr_cumgis 0 = 0.006 ∧
    σ.G .slr_thermal 0 =
      0.0920666936642 + 0.024076141150722 * (0.5 * p.T0 - 0.0920666936642) := by
  refine ⟨h.eqs.slr.gsic_init, h.eqs.slr.gis_init, ?_⟩
  rw [h.eqs.slr.thermal_init]
  unfold slr_thermal_expansion_init SeaLevelRise.thermal_init thermal_adjust_rate thermal_equil; ring
example := C39_initial Ex.sol0

/-- Without non-negative temperatures the variable bounds would bind; with them the thermal contribution is
non-negative by its own recursion (so the lower bounds on sea-level rise never cut off a path). -/
theorem thermal_bound_not_binding {p : Params} {σ : Env} (e : SlrEqs p σ) (hdt : 0 ≤ p.dt)
    (hT0 : 0 ≤ p.T0) (hT : ∀ t < p.tf, 0 ≤ σ.G .temperature t) {t : ℕ} (ht : t ≤ p.tf) :
    0 ≤ σ.G .slr_thermal t := by
  induction t with
  | zero =>
    have : σ.g .slr_thermal 0 = _ := e.thermal_init
    show 0 ≤ σ.g .slr_thermal 0
    rw [this]; exact thermal_init_nonneg hT0
  | succ t ih =>
    rw [thermal_eq e ht]
    exact thermal_nonneg (ih (by omega)) (hT t ht) hdt

/-- A path that is at least as warm in every year has at least as much sea-level rise, in each contribution and
in total. -/
theorem C39_warmer {md' : Modules} {p' : Params} {σ' : Env} (h : Solution md p σ)
    (h' : Solution md' p' σ') (htf : p.tf = p'.tf) (hdt : p.dt = p'.dt) (hT0 : p.T0 ≤ p'.T0)
    (hm : Spec.MeltOk p.dt p.tf fun t => σ.G .temperature t)
    (hm' : Spec.MeltOk p'.dt p'.tf fun t => σ'.G .temperature t)
    (hT : ∀ t < p.tf, σ.G .temperature t ≤ σ'.G .temperature t) {t : ℕ} (ht : t ≤ p.tf) :
    σ.G .slr_thermal t ≤ σ'.G .slr_thermal t ∧ σ.G .slr_cumgsic t ≤ σ'.G .slr_cumgsic t ∧
    σ.G .slr_cumgis t ≤ σ'.G .slr_cumgis t ∧ σ.G .total_SLR t ≤ σ'.G .total_SLR t := by
  have e := h.eqs.slr
  have e' := h'.eqs.slr
  have key : σ.G .slr_thermal t ≤ σ'.G .slr_thermal t ∧ σ.G .slr_cumgsic t ≤ σ'.G .slr_cumgsic t ∧
    σ.G .slr_cumgis t ≤ σ'.G .slr_cumgis t := by
    induction t with
    | zero =>
      obtain ⟨a1, a2, a3⟩ := C39_initial h
      obtain ⟨b1, b2, b3⟩ := C39_initial h'
      refine ⟨?_, ?_, ?_⟩
      · exact a3.le.trans (le_trans (by linarith) b3.ge)
      · exact a1.le.trans b1.ge
      · exact a2.le.trans b2.ge
    | succ t ih =>
      obtain ⟨i1, i2, i3⟩ := ih (by omega)
      have hTt := hT t ht
      have b' := C39_below_total_ice h' hm' (t := t) (by omega)
      have m0 := hm.melts t ht
      have m1 := hm.glacier t ht
      have m2 := hm.greenland t ht
      rw [thermal_eq e ht, thermal_eq e' (by omega), gsic_eq e ht, gsic_eq e' (by omega), gis_eq e ht,
        gis_eq e' (by omega), ← hdt]
      exact ⟨thermal_mono i1 hm.dt_nonneg hTt,
        gsic_mono i2 b'.1.le hm.dt_nonneg (by linarith) hTt (by linarith),
        gis_mono i3 b'.2.le hm.dt_nonneg hTt (by linarith)⟩
  refine ⟨key.1, key.2.1, key.2.2, ?_⟩
  rw [(C39_total h ht).1, (C39_total h' (by omega)).1]
  linarith [key.1, key.2.1, key.2.2]

/-- **C39.** Glaciers: each step melts the share `0.0008 / 0.26 · dt · (T + 1)` of the remaining ice, so the ice left
after `t` steps is a product over the steps before. -/
theorem C39_glacier_ice_left (h : Solution md p σ) {t : ℕ} (ht : t ≤ p.tf) :
    0.26 - σ.G .slr_cumgsic t =
      (0.26 - 0.015) * ∏ s ∈ Finset.range t, (1 - 0.0008 / 0.26 * p.dt * (σ.G .temperature s + 1)) := by
  induction t with
  | zero =>
    have h0 : σ.G .slr_cumgsic (0 : ℕ) = 0.015 := h.eqs.slr.gsic_init
    rw [h0]; simp
  | succ t ih =>
    have e := h.eqs.slr.gsic t ht
    simp only [gsic_melt_rate, gsic_total_ice, gsic_equil_temp] at e
    rw [Finset.prod_range_succ, ← mul_assoc, ← ih (by omega), e]; ring

/-- **C39.** Greenland: each step melts the share `dt · (1.1186 T + 0.6) / 1000 / 7.3` of the remaining ice. -/
theorem C39_greenland_ice_left (h : Solution md p σ) {t : ℕ} (ht : t ≤ p.tf) :
    7.3 - σ.G .slr_cumgis t = (7.3 - 0.006) *
      ∏ s ∈ Finset.range t, (1 - p.dt / 1000 * (1.11860082 * σ.G .temperature s + 0.6) / 7.3) := by
  induction t with
  | zero =>
    have h0 : σ.G .slr_cumgis (0 : ℕ) = 0.006 := h.eqs.slr.gis_init
    rw [h0]; simp
  | succ t ih =>
    have e := h.eqs.slr.gis t ht
    simp only [gis_melt_rate_above_thresh, gis_init_melt_rate, gis_init_ice_vol] at e
    rw [Finset.prod_range_succ, ← mul_assoc, ← ih (by omega), e]; ring

/-- **C39.** Thermal expansion: what was there decays at 2.4 % per decade, and each step adds 2.4 % per decade of the
expansion of 0.5 m per degree that would be reached in the end. -/
theorem C39_thermal_sum (h : Solution md p σ) {t : ℕ} (ht : t ≤ p.tf) :
    σ.G .slr_thermal t = ((1 - 0.024076141150722) ^ (p.dt / 10)) ^ t * σ.G .slr_thermal 0 +
      ∑ s ∈ Finset.range t, ((1 - 0.024076141150722) ^ (p.dt / 10)) ^ (t - 1 - s) *
        (0.024076141150722 * (p.dt / 10) * (0.5 * σ.G .temperature s)) := by
  induction t with
  | zero => simp
  | succ t ih =>
    have e := h.eqs.slr.thermal t ht
    simp only [thermal_adjust_rate, thermal_equil] at e
    rw [e, ih (by omega), Finset.sum_range_succ, mul_add, Finset.mul_sum, pow_succ']
    have : ∀ s ∈ Finset.range t, ((1 - 0.024076141150722 : ℝ) ^ (p.dt / 10)) ^ (t + 1 - 1 - s) *
          (0.024076141150722 * (p.dt / 10) * (0.5 * σ.G .temperature s)) =
        (1 - 0.024076141150722) ^ (p.dt / 10) * (((1 - 0.024076141150722) ^ (p.dt / 10)) ^ (t - 1 - s) *
          (0.024076141150722 * (p.dt / 10) * (0.5 * σ.G .temperature s))) := by
      intro s hs
      have hs' : s < t := Finset.mem_range.1 hs
      have : t + 1 - 1 - s = (t - 1 - s) + 1 := by omega
      rw [this, pow_succ']; ring
    rw [Finset.sum_congr rfl this]
    simp only [Nat.add_sub_cancel, Nat.sub_self, pow_zero]
    ring

example := C39_glacier_ice_left Ex.sol0 (t := 3) (by simp [Ex.ex])
example := C39_greenland_ice_left Ex.sol0 (t := 3) (by simp [Ex.ex])
example := C39_thermal_sum Ex.sol0 (t := 3) (by simp [Ex.ex])

/-- The hypotheses are met by the example solution (steps of 40 years). -/
theorem Ex.meltOk : Spec.MeltOk Ex.p0.dt Ex.p0.tf fun t => Ex.σ0.G .temperature t := by
  have hT : ∀ t ≤ 3, 1 ≤ Ex.σ0.G .temperature t ∧ Ex.σ0.G .temperature t ≤ 1.96 := fun t ht =>
    Ex.temp_range (regime := "noregime") (Ex.x0 _) ⟨rfl, rfl⟩ t ht
  have hdt : Ex.p0.dt = 40 := rfl
  constructor
  · rw [hdt]; norm_num
  all_goals
    intro t ht
    have := hT t (le_of_lt ht)
    rw [hdt] at *
    first
      | linarith [this.1, this.2]

example : Ex.σ0.G .slr_cumgsic 3 < 0.26 ∧ Ex.σ0.G .slr_cumgis 1 ≤ Ex.σ0.G .slr_cumgis 3 :=
  ⟨(C39_below_total_ice Ex.sol0 Ex.meltOk (by decide)).1,
   (C39_ice_monotone Ex.sol0 Ex.meltOk (by norm_num) (by decide)).2⟩

/-! ## C40: damages -/

/-- With COACCH damages, total damages are the sum of temperature damages and sea-level damages. -/
theorem C40_additive (h : Solution md p σ) (hd : md.damage = .COACCH) {t : ℕ} (ht : t ≤ p.tf)
    {r : String} (hr : r ∈ p.regions) :
    σ.R .damage_costs t r = σ.R .damage_costs_non_slr t r + σ.R .damage_costs_slr t r := by
  have e := h.eqs.damages
  rw [hd] at e
  exact e.total t ht r hr
example := C40_additive Ex.sol0 rfl (t := 2) (by simp [Ex.ex]) (r := "A") (by simp [Ex.ex])

/-- In the first year there are no damages. -/
theorem C40_zero_at_start (h : Solution md p σ) {r : String} (hr : r ∈ p.regions) :
    (md.damage = .COACCH → σ.R .damage_costs_non_slr 0 r = 0 ∧ σ.R .damage_costs_slr 0 r = 0) ∧
    σ.R .damage_costs 0 r = 0 := by
  have e := h.eqs.damages
  have key : md.damage = .COACCH →
      σ.R .damage_costs_non_slr 0 r = 0 ∧ σ.R .damage_costs_slr 0 r = 0 := by
    intro hd
    rw [hd] at e
    have hT : σ.g .temperature 0 = p.T0 := h.eqs.emissions.temperature_init
    have a := (e.noslr 0 (Nat.zero_le _) r hr).2.2
    have b := (e.slr 0 (Nat.zero_le _) r hr).2.2
    constructor
    · rw [a]; simp [Env.G, hT]
    · rw [b]; simp
  refine ⟨key, ?_⟩
  cases hd : md.damage with
  | COACCH =>
    have := C40_additive h hd (Nat.zero_le _) hr
    rw [this, (key hd).1, (key hd).2, add_zero]
  | nodamage =>
    rw [hd] at e
    exact e 0 (Nat.zero_le _) r hr

/-- With the no-damage module there are no damages in any year. -/
theorem C40_nodamage (h : Solution md p σ) (hd : md.damage = .nodamage) {t : ℕ} (ht : t ≤ p.tf)
    {r : String} (hr : r ∈ p.regions) : σ.R .damage_costs t r = 0 := by
  have e := h.eqs.damages
  rw [hd] at e
  exact e t ht r hr
example := C40_nodamage (Ex.solution0 .nodamage .cost_minimising .utility (al := 0) (conv := none) le_rfl one_pos) rfl (t := 2) (by simp [Ex.ex]) (r := "A") (by simp [Ex.ex])

/-- The damage function written out, as documented: quantile factor times the functional form, in percent,
relative to its value in the first year (temperature is counted from 0.6 degrees). -/
theorem C40_temperature_damages (h : Solution md p σ) (hd : md.damage = .COACCH) {t : ℕ} (ht : t ≤ p.tf)
    {r : String} (hr : r ∈ p.regions) :
    (p.noslr.form r = "Robust-Linear" → σ.R .damage_costs_non_slr t r =
      p.damage_scale_factor * p.noslr.a r / 100 *
        (p.noslr.b1 r * (σ.G .temperature t - 0.6) - p.noslr.b1 r * (p.T0 - 0.6))) ∧
    (p.noslr.form r = "Robust-Quadratic" → σ.R .damage_costs_non_slr t r =
      p.damage_scale_factor * p.noslr.a r / 100 *
        (p.noslr.b1 r * (σ.G .temperature t - 0.6) + p.noslr.b2 r * (σ.G .temperature t - 0.6) ^ 2
          - (p.noslr.b1 r * (p.T0 - 0.6) + p.noslr.b2 r * (p.T0 - 0.6) ^ 2))) := by
  have e := h.eqs.damages
  rw [hd] at e
  have a := (e.noslr t ht r hr).2.2
  have n1 : strContains "Linear" "Robust-Linear" = true := by decide
  have n2 : strContains "Linear" "Robust-Quadratic" = false := by decide
  have n3 : strContains "Quadratic" "Robust-Quadratic" = true := by decide
  constructor <;> intro hf
  · rw [a, formVal, formVal, hf, n1]; simp; ring
  · rw [a, formVal, formVal, hf, n2, n3]; simp; ring
example := (C40_temperature_damages Ex.sol0 rfl (t := 2) (by simp [Ex.ex]) (r := "A") (by simp [Ex.ex])).1 rfl

/-- With the coefficients that the combined mode prescribes for sea-level rise (a linear form with factor 0),
sea-level damages vanish and total damages are the temperature damages. -/
theorem C40_combined (h : Solution md p σ) (hd : md.damage = .COACCH)
    (hf : ∀ r ∈ p.regions, p.slr.form r = "Robust-Linear" ∧ p.slr.a r = 0) {t : ℕ} (ht : t ≤ p.tf)
    {r : String} (hr : r ∈ p.regions) :
    σ.R .damage_costs_slr t r = 0 ∧ σ.R .damage_costs t r = σ.R .damage_costs_non_slr t r := by
  have e := h.eqs.damages
  rw [hd] at e
  have a := (e.slr t ht r hr).2.2
  have n1 : strContains "Linear" "Robust-Linear" = true := by decide
  have z : σ.R .damage_costs_slr t r = 0 := by
    rw [a, formVal, formVal, (hf r hr).1, n1, (hf r hr).2]; simp
  exact ⟨z, by rw [C40_additive h hd ht hr, z, add_zero]⟩

/-- A functional form whose name contains none of the three known names raises `NotImplementedError` as soon
as it is evaluated, and creating the instance then fails. -/
theorem C40_unknown_form (x : ℝ) (d : DamageCoeffs) (r : String)
    (h1 : ¬ "Linear".toList <:+: (d.form r).toList) (h2 : ¬ "Quadratic".toList <:+: (d.form r).toList)
    (h3 : ¬ "Logistic".toList <:+: (d.form r).toList) :
    functional_form x d r = .error .notImplemented := by
  rw [functional_form_real]
  exact if_neg fun h => h.elim (fun h => h1 (of_decide_eq_true h))
    fun h => h.elim (fun h => h2 (of_decide_eq_true h)) fun h => h3 (of_decide_eq_true h)

theorem C40_unknown_form_no_instance {r : String} (hr : r ∈ p.regions) (hd : md.damage = .COACCH)
    (hf : (¬ "Linear".toList <:+: (p.noslr.form r).toList ∧
        ¬ "Quadratic".toList <:+: (p.noslr.form r).toList ∧
        ¬ "Logistic".toList <:+: (p.noslr.form r).toList) ∨
      (¬ "Linear".toList <:+: (p.slr.form r).toList ∧
        ¬ "Quadratic".toList <:+: (p.slr.form r).toList ∧
        ¬ "Logistic".toList <:+: (p.slr.form r).toList)) :
    ¬ ∃ σ, Solution md p σ := by
  rintro ⟨σ, h⟩
  have := h.instOk.forms hd r hr
  have k : ∀ d : DamageCoeffs, KnownForm d r → "Linear".toList <:+: (d.form r).toList ∨
      "Quadratic".toList <:+: (d.form r).toList ∨ "Logistic".toList <:+: (d.form r).toList := by
    rintro d (h | h | h)
    · exact Or.inl (of_decide_eq_true h)
    · exact Or.inr (Or.inl (of_decide_eq_true h))
    · exact Or.inr (Or.inr (of_decide_eq_true h))
  have k1 := k _ this.1
  have k2 := k _ this.2
  rcases hf with ⟨a, b, c⟩ | ⟨a, b, c⟩
  · exact k1.elim a fun k => k.elim b c
  · exact k2.elim a fun k => k.elim b c

example : Ex.σ0.R .damage_costs 0 "B" = 0 :=
  (C40_zero_at_start Ex.sol0 (List.mem_cons_of_mem _ (List.mem_singleton.2 rfl))).2
example : functional_form (2 : ℝ) ⟨fun _ => "Cubic", fun _ => 1, fun _ => 1, fun _ => 1, fun _ => 1⟩ "A"
    = .error .notImplemented := C40_unknown_form _ _ _ (by decide) (by decide) (by decide)

/-! ## C41: monotonicity of the damage functions -/

/-- The exponent in the logistic form: `-b3 x`, smoothly capped at 10. -/
theorem C41_logistic_exponent (x b3 : ℝ) :
    soft_max (-b3 * x) 10 (1 / 10) < 10 ∧ soft_max (-b3 * x) 10 (1 / 10) < -b3 * x := by
  have h1 := soft_min_pos (10 - (-b3 * x)) (s := 1 / 10) (by norm_num)
  have h2 := soft_min_gt_self (10 - (-b3 * x)) (s := 1 / 10) (by norm_num)
  rw [soft_max_real]
  constructor <;> linarith

theorem logistic_real (x b1 b2 b3 : ℝ) : logistic x b1 b2 b3 =
    b1 / (1 + b2 * Real.exp (soft_max (-b3 * x) 10 (1 / 10))) - b1 / (1 + b2) := rfl

theorem soft_max_mono {M s : ℝ} (hs : 0 < s) : StrictMono fun x : ℝ => soft_max x M s := by
  intro x y hxy
  have := soft_min_strictMono hs (show M - y < M - x by linarith)
  simp only [soft_max_real] at *
  linarith

/-- The logistic form is non-decreasing in its argument when its coefficients are non-negative. -/
theorem C41_logistic_monotone {b1 b2 b3 : ℝ} (h1 : 0 ≤ b1) (h2 : 0 ≤ b2) (h3 : 0 ≤ b3) :
    Monotone fun x : ℝ => (logistic x b1 b2 b3 : ℝ) := by
  intro x y hxy
  have hm : soft_max (-b3 * y) 10 (1 / 10) ≤ soft_max (-b3 * x) 10 (1 / 10) :=
    (soft_max_mono (by norm_num)).monotone (by nlinarith)
  have he := Real.exp_le_exp.2 hm
  have hp := Real.exp_pos (soft_max (-b3 * y) 10 (1 / 10))
  simp only [logistic_real]
  have : b1 / (1 + b2 * Real.exp (soft_max (-b3 * x) 10 (1 / 10))) ≤
      b1 / (1 + b2 * Real.exp (soft_max (-b3 * y) 10 (1 / 10))) := by
    apply div_le_div_of_nonneg_left h1 (by positivity)
    gcongr
  linarith
example := C41_logistic_monotone (b1 := 1) (b2 := 2) (b3 := 3) (by norm_num) (by norm_num) (by norm_num)

/-- The logistic form stays between `-b1/(1+b2)` and `b1 - b1/(1+b2)`. -/
theorem C41_logistic_bounded {b1 b2 : ℝ} (b3 x : ℝ) (h1 : 0 ≤ b1) (h2 : 0 ≤ b2) :
    -(b1 / (1 + b2)) ≤ (logistic x b1 b2 b3 : ℝ) ∧ (logistic x b1 b2 b3 : ℝ) ≤ b1 - b1 / (1 + b2) := by
  rw [logistic_real]
  have hp := Real.exp_pos (soft_max (-b3 * x) 10 (1 / 10))
  have a : 0 ≤ b1 / (1 + b2 * Real.exp (soft_max (-b3 * x) 10 (1 / 10))) := by positivity
  have b : b1 / (1 + b2 * Real.exp (soft_max (-b3 * x) 10 (1 / 10))) ≤ b1 :=
    div_le_self h1 (by nlinarith [mul_nonneg h2 hp.le])
  constructor <;> linarith
example := C41_logistic_bounded (b1 := 1) (b2 := 2) 3 (1 / 2) (by norm_num) (by norm_num)

/-- However cold, the logistic form cannot fall below `b1/(1 + b2 e^10) - b1/(1+b2)`: the exponent is capped. -/
theorem C41_logistic_capped {b1 b2 : ℝ} (b3 x : ℝ) (h1 : 0 ≤ b1) (h2 : 0 ≤ b2) :
    b1 / (1 + b2 * Real.exp 10) - b1 / (1 + b2) ≤ (logistic x b1 b2 b3 : ℝ) := by
  rw [logistic_real]
  have hp := Real.exp_pos (soft_max (-b3 * x) 10 (1 / 10))
  have := Real.exp_le_exp.2 (C41_logistic_exponent x b3).1.le
  have : b1 / (1 + b2 * Real.exp 10) ≤ b1 / (1 + b2 * Real.exp (soft_max (-b3 * x) 10 (1 / 10))) := by
    apply div_le_div_of_nonneg_left h1 (by positivity)
    gcongr
  linarith
example := C41_logistic_capped (b1 := 1) (b2 := 2) 3 (1 / 2) (by norm_num) (by norm_num)

/-- What makes a region's damage function non-decreasing from `x₀` on: non-negative coefficients; for the
quadratic form on negative arguments also that the parabola is on its rising branch. -/
structure Spec.CoeffsOk (d : DamageCoeffs) (r : String) (x₀ : ℝ) : Prop where
  a : 0 ≤ d.a r
  b1 : 0 ≤ d.b1 r
  b2 : 0 ≤ d.b2 r
  b3 : 0 ≤ d.b3 r
  rising : 0 ≤ d.b1 r + 2 * d.b2 r * x₀

/-- Each of the three functional forms is non-decreasing when its coefficients are non-negative. -/
theorem C41_form_monotone {d : DamageCoeffs} {r : String} {x₀ x y vx vy : ℝ} (h : Spec.CoeffsOk d r x₀)
    (hx : x₀ ≤ x) (hxy : x ≤ y) (ex : functional_form x d r = .ok vx)
    (ey : functional_form y d r = .ok vy) : vx ≤ vy := by
  rw [functional_form_real] at ex ey
  split at ex
  case isFalse => simp at ex
  case isTrue hk =>
    rw [if_pos hk] at ey
    obtain rfl := (Except.ok.inj ex).symm
    obtain rfl := (Except.ok.inj ey).symm
    obtain ⟨ha, h1, h2, h3, hr⟩ := h
    unfold formVal
    by_cases k1 : strContains "Linear" (d.form r) = true
    · simp only [k1, if_true]
      gcongr
    · by_cases k2 : strContains "Quadratic" (d.form r) = true
      · simp only [k1, k2, if_true]
        have : d.b1 r * x + d.b2 r * x ^ 2 ≤ d.b1 r * y + d.b2 r * y ^ 2 := by
          have : d.b1 r * y + d.b2 r * y ^ 2 - (d.b1 r * x + d.b2 r * x ^ 2) =
            (y - x) * (d.b1 r + 2 * d.b2 r * x₀ + d.b2 r * ((x - x₀) + (y - x₀))) := by ring
          have : 0 ≤ (y - x) * (d.b1 r + 2 * d.b2 r * x₀ + d.b2 r * ((x - x₀) + (y - x₀))) := by
            apply mul_nonneg (by linarith)
            have : 0 ≤ d.b2 r * ((x - x₀) + (y - x₀)) := mul_nonneg h2 (by linarith)
            linarith
          linarith
        simp only [Bool.false_eq_true, if_false]
        gcongr
      · by_cases k3 : strContains "Logistic" (d.form r) = true
        · simp only [k1, k2, k3, if_true, Bool.false_eq_true, if_false]
          have := C41_logistic_monotone h1 h2 h3 hxy
          simp only [logistic_real] at this
          gcongr
        · simp [k1, k2, k3]

theorem formVal_mono {d : DamageCoeffs} {r : String} {x₀ x y : ℝ} (h : Spec.CoeffsOk d r x₀)
    (hk : KnownForm d r) (hx : x₀ ≤ x) (hxy : x ≤ y) : formVal x d r ≤ formVal y d r := by
  apply C41_form_monotone h hx hxy
  · rw [functional_form_real]; exact if_pos hk
  · rw [functional_form_real]; exact if_pos hk

/-- In any solution: if temperature (sea-level rise) is at least that of the first year and of another year,
then temperature (sea-level) damages are non-negative and at least those of that other year. -/
theorem C41_damages_monotone (h : Solution md p σ) (hd : md.damage = .COACCH)
    (hs : 0 ≤ p.damage_scale_factor) {r : String} (hr : r ∈ p.regions) {s t : ℕ} (hs' : s ≤ p.tf)
    (ht : t ≤ p.tf) :
    (Spec.CoeffsOk p.noslr r (p.T0 - 0.6) → p.T0 ≤ σ.G .temperature s →
      σ.G .temperature s ≤ σ.G .temperature t →
      0 ≤ σ.R .damage_costs_non_slr s r ∧
      σ.R .damage_costs_non_slr s r ≤ σ.R .damage_costs_non_slr t r) ∧
    (Spec.CoeffsOk p.slr r 0 → σ.G .total_SLR 0 ≤ σ.G .total_SLR s →
      σ.G .total_SLR s ≤ σ.G .total_SLR t →
      0 ≤ σ.R .damage_costs_slr s r ∧ σ.R .damage_costs_slr s r ≤ σ.R .damage_costs_slr t r) := by
  have e := h.eqs.damages
  rw [hd] at e
  have hk := h.instOk.forms hd r hr
  constructor
  · intro hc h0 hst
    rw [(e.noslr s hs' r hr).2.2, (e.noslr t ht r hr).2.2]
    have a := formVal_mono hc hk.1 (le_refl _)
      (show p.T0 - 0.6 ≤ σ.G .temperature s - 0.6 by linarith)
    have b := formVal_mono hc hk.1 (show p.T0 - 0.6 ≤ σ.G .temperature s - 0.6 by linarith)
      (show σ.G .temperature s - 0.6 ≤ σ.G .temperature t - 0.6 by linarith)
    exact ⟨mul_nonneg hs (by linarith), mul_le_mul_of_nonneg_left (by linarith) hs⟩
  · intro hc h0 hst
    rw [(e.slr s hs' r hr).2.2, (e.slr t ht r hr).2.2]
    have n0 := (h.slr_nonneg (Nat.zero_le p.tf)).2.2.2
    have ns := (h.slr_nonneg hs').2.2.2
    have a := formVal_mono hc hk.2 n0 h0
    have b := formVal_mono hc hk.2 ns hst
    exact ⟨mul_nonneg hs (by linarith), mul_le_mul_of_nonneg_left (by linarith) hs⟩

/-- A warmer solution (of a model with the same damage coefficients and initial temperature) has at least the
temperature damages of a cooler one. -/
theorem C41_warmer_more_damage {md' : Modules} {p' : Params} {σ' : Env} (h : Solution md p σ)
    (h' : Solution md' p' σ') (hd : md.damage = .COACCH) (hd' : md'.damage = .COACCH)
    (hp : p'.noslr = p.noslr ∧ p'.T0 = p.T0 ∧ p'.damage_scale_factor = p.damage_scale_factor)
    (hs : 0 ≤ p.damage_scale_factor) {r : String} (hr : r ∈ p.regions) (hr' : r ∈ p'.regions) {t : ℕ}
    (ht : t ≤ p.tf) (ht' : t ≤ p'.tf) (hc : Spec.CoeffsOk p.noslr r (p.T0 - 0.6))
    (hT0 : p.T0 ≤ σ.G .temperature t) (hT : σ.G .temperature t ≤ σ'.G .temperature t) :
    σ.R .damage_costs_non_slr t r ≤ σ'.R .damage_costs_non_slr t r := by
  have e := h.eqs.damages
  have e' := h'.eqs.damages
  rw [hd] at e
  rw [hd'] at e'
  rw [(e.noslr t ht r hr).2.2, (e'.noslr t ht' r hr').2.2, hp.1, hp.2.1, hp.2.2]
  have b := formVal_mono hc (h.instOk.forms hd r hr).1
    (show p.T0 - 0.6 ≤ σ.G .temperature t - 0.6 by linarith)
    (show σ.G .temperature t - 0.6 ≤ σ'.G .temperature t - 0.6 by linarith)
  exact mul_le_mul_of_nonneg_left (by linarith) hs

/-- The linear form ignores `b2` and `b3`, the quadratic one ignores `b3`. -/
theorem C41_unused_coefficients (x : ℝ) (d : DamageCoeffs) (r : String) (b2' b3' : String → ℝ) :
    ("Linear".toList <:+: (d.form r).toList →
      functional_form x { d with b2 := b2', b3 := b3' } r = functional_form x d r) ∧
    (¬ "Linear".toList <:+: (d.form r).toList → "Quadratic".toList <:+: (d.form r).toList →
      functional_form x { d with b3 := b3' } r = functional_form x d r) := by
  constructor
  · intro h
    have h1 : strContains "Linear" (d.form r) = true := decide_eq_true h
    unfold functional_form
    rw [if_pos h1, if_pos h1]
  · intro h h'
    have h1 : ¬ strContains "Linear" (d.form r) = true := fun k => h (of_decide_eq_true k)
    have h2 : strContains "Quadratic" (d.form r) = true := decide_eq_true h'
    unfold functional_form
    rw [if_neg h1, if_pos h2, if_neg h1, if_pos h2]

example : Spec.CoeffsOk Ex.p0.noslr "B" (Ex.p0.T0 - 0.6) ∧ Spec.CoeffsOk Ex.p0.slr "B" 0 := by
  constructor <;> constructor <;> simp [Ex.p0, Ex.ex] <;> norm_num

/-! ## C52: heat mortality -/

/-- Mortality is the quadratic response to temperature with the region's coefficients; its cost is 1.3 million
per death (population in billions, mortality per 100 000). -/
theorem C52_mortality (h : Solution md p σ) (hd : md.damage = .COACCH) {t : ℕ} (ht : t ≤ p.tf)
    {r : String} (hr : r ∈ p.regions) :
    (σ.R .mortality_oldest t r = p.mortality_oldest.a r + p.mortality_oldest.b r * σ.G .temperature t +
      p.mortality_oldest.c r * σ.G .temperature t ^ 2) ∧
    (σ.R .mortality_older t r = p.mortality_older.a r + p.mortality_older.b r * σ.G .temperature t +
      p.mortality_older.c r * σ.G .temperature t ^ 2) ∧
    (σ.R .mortality_young t r = p.mortality_young.a r + p.mortality_young.b r * σ.G .temperature t +
      p.mortality_young.c r * σ.G .temperature t ^ 2) ∧
    σ.R .mortality_cost_oldest t r = 13000 * p.population t r * σ.R .mortality_oldest t r := by
  have e := h.eqs.damages
  rw [hd] at e
  refine ⟨e.mort_oldest t ht r hr, e.mort_older t ht r hr, e.mort_young t ht r hr, ?_⟩
  rw [e.mort_cost t ht r hr]
  unfold statistical_value_life_oldest; ring
example := C52_mortality Ex.sol0 rfl (t := 2) (by simp [Ex.ex]) (r := "A") (by simp [Ex.ex])

/-- Mortality coefficients never decide whether the model has a solution: changing them arbitrarily only
changes the four reported mortality variables. -/
theorem C52_never_restricts (h : Solution md p σ) (c₁ c₂ c₃ : MortalityCoeffs) :
    ∃ σ', Solution md { p with mortality_oldest := c₁, mortality_older := c₂, mortality_young := c₃ } σ' ∧
      (∀ v t, σ'.g v t = σ.g v t) ∧
      (∀ v t r, v ≠ .mortality_oldest → v ≠ .mortality_older → v ≠ .mortality_young →
        v ≠ .mortality_cost_oldest → σ'.r v t r = σ.r v t r) := by
  obtain ⟨htr, hr, hi, hb, he⟩ := solution_char.1 h
  let q : MortalityCoeffs → ℤ → String → ℝ := fun c t r =>
    c.a r + c.b r * σ.g .temperature t + c.c r * σ.g .temperature t ^ 2
  set p' : Params := { p with mortality_oldest := c₁, mortality_older := c₂, mortality_young := c₃ } with hp'
  have hc : ∀ r t, calibCapital p' r t = calibCapital p r t := by
    intro r t
    induction t with
    | zero => rfl
    | succ t ih => simp only [calibCapital, ih]; rfl
  have hg : ∀ t r, get_TFP_value p' t r = get_TFP_value p t r := by
    intro t r; simp only [get_TFP_value, hc]; rfl
  let σ' : Env := ⟨σ.g, fun v t r => match v with
    | .mortality_oldest => q c₁ t r
    | .mortality_older => q c₂ t r
    | .mortality_young => q c₃ t r
    | .mortality_cost_oldest => q c₁ t r * p.population t.toNat r * 10000 * statistical_value_life_oldest
    | v => σ.r v t r⟩
  have hrest : ∀ v t r, v ≠ .mortality_oldest → v ≠ .mortality_older → v ≠ .mortality_young →
        v ≠ .mortality_cost_oldest → σ'.r v t r = σ.r v t r := by
    intro v t r h1 h2 h3 h4
    cases v <;> first | rfl | contradiction
  refine ⟨σ', solution_char.2 ⟨htr, hr, ?_, ?_, ?_⟩, fun _ _ => rfl, hrest⟩
  · obtain ⟨i, a, b, c, d⟩ := hi
    refine ⟨?_, a, b, c, d⟩
    exact { i with
      cap_pow := fun t ht r hr => by rw [hc]; exact i.cap_pow t ht r hr
      tfp_ne := fun t ht r hr => by rw [hc]; exact i.tfp_ne t ht r hr }
  · exact Drivers.bounds_of htr (fun t ht r hr => h.abatement_bounds ht hr) (fun t ht r hr => h.price_bounds ht hr)
      (fun t ht => h.slr_nonneg ht) (fun hd t ht r hr => h.slr_damage_bounds hd ht hr)
  · refine ⟨{ he.emissions with }, { he.slr with }, ?_, { he.mitigation with }, ?_, ?_, { he.effort with },
      { he.economy with gross := fun t ht r hr => by rw [hg]; exact he.economy.gross t ht r hr }, ?_, ?_⟩
    · have hd := he.damages
      obtain ⟨d, _⟩ := md
      cases d
      · exact { hd with
          mort_oldest := fun _ _ _ _ => rfl
          mort_older := fun _ _ _ _ => rfl
          mort_young := fun _ _ _ _ => rfl
          mort_cost := fun _ _ _ _ => rfl }
      · exact hd
    · have hd := he.trade
      obtain ⟨_, tr, _, _, _⟩ := md
      cases tr
      · trivial
      · exact absurd rfl htr
      · exact { hd with }
    · have hd := he.transfer
      obtain ⟨_, _, tr, _, _⟩ := md
      cases tr
      · trivial
      · exact { hd with }
    · have hd := he.welfare
      obtain ⟨_, _, _, w, _⟩ := md
      cases w <;> exact hd
    · have hd := he.objective
      obtain ⟨_, _, _, _, w⟩ := md
      cases w <;> exact hd
example := C52_never_restricts Ex.sol0

end Mimosa
