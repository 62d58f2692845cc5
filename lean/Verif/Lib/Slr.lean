import Verif.Lib.Char

/-! # Facts about the sea-level-rise recursions -/

namespace Mimosa
open SeaLevelRise

/-- Melt fraction of one step of the glacier equation. -/
theorem gsic_step (c T dt : ℝ) : (slr_gsic c T dt : ℝ) =
    c + 0.0008 / 0.26 * dt * (0.26 - c) * (T + 1) := by
  show c + gsic_melt_rate / gsic_total_ice * dt * (gsic_total_ice - c) * (T - gsic_equil_temp) = _
  unfold gsic_melt_rate gsic_total_ice gsic_equil_temp; ring

theorem gsic_gap (c T dt : ℝ) :
    0.26 - (slr_gsic c T dt : ℝ) = (0.26 - c) * (1 - 0.0008 / 0.26 * dt * (T + 1)) := by
  rw [gsic_step]; ring

theorem gis_step (c T dt : ℝ) : (slr_gis c T dt : ℝ) =
    c + dt / 10 * (1 / 100) * (1.11860082 * T + 0.6) * (1 - c / 7.3) := by
  show c + dt / 10 * (1 / 100) * (gis_melt_rate_above_thresh * T + gis_init_melt_rate) *
    (1 - c / gis_init_ice_vol) = _
  unfold gis_melt_rate_above_thresh gis_init_melt_rate gis_init_ice_vol; rfl

theorem gis_gap (c T dt : ℝ) :
    7.3 - (slr_gis c T dt : ℝ) =
      (7.3 - c) * (1 - dt / 10 * (1 / 100) * (1.11860082 * T + 0.6) / 7.3) := by
  rw [gis_step]; ring

theorem thermal_step (c T dt : ℝ) : (slr_thermal_expansion c T dt : ℝ) =
    (1 - 0.024076141150722) ^ (dt / 10) * c + 0.024076141150722 * (dt / 10) * (T * 0.5) := by
  show (1 - thermal_adjust_rate) ^ (dt / 10) * c +
    thermal_adjust_rate * (dt / 10) * (T * thermal_equil) = _
  unfold thermal_adjust_rate thermal_equil; rfl

theorem thermal_init_nonneg {T0 : ℝ} (h : 0 ≤ T0) : 0 ≤ slr_thermal_expansion_init T0 := by
  unfold slr_thermal_expansion_init SeaLevelRise.thermal_init thermal_adjust_rate thermal_equil
  nlinarith

theorem thermal_nonneg {c T dt : ℝ} (hc : 0 ≤ c) (hT : 0 ≤ T) (hdt : 0 ≤ dt) :
    0 ≤ (slr_thermal_expansion c T dt : ℝ) := by
  rw [thermal_step]
  have : (0 : ℝ) ≤ (1 - 0.024076141150722) ^ (dt / 10) := Real.rpow_nonneg (by norm_num) _
  positivity

/-- The glacier state stays in `[c₀, 0.26]` for one step. -/
theorem gsic_range {c T dt : ℝ} (h1 : c ≤ 0.26) (hdt : 0 ≤ dt) (hT : -1 ≤ T)
    (hs : 0.0008 * dt * (T + 1) ≤ 0.26) :
    c ≤ (slr_gsic c T dt : ℝ) ∧ (slr_gsic c T dt : ℝ) ≤ 0.26 := by
  have hk : 0 ≤ 0.0008 / 0.26 * dt * (T + 1) := by
    have : 0 ≤ T + 1 := by linarith
    positivity
  have hk1 : 0.0008 / 0.26 * dt * (T + 1) ≤ 1 := by
    have e : 0.0008 / 0.26 * dt * (T + 1) = (0.0008 * dt * (T + 1)) / 0.26 := by ring
    rw [e]; exact (div_le_one (by norm_num)).2 hs
  constructor
  · have e : (slr_gsic c T dt : ℝ) = c + (0.26 - c) * (0.0008 / 0.26 * dt * (T + 1)) := by
      rw [gsic_step]; ring
    rw [e]; nlinarith
  · have := gsic_gap c T dt
    nlinarith

/-- The Greenland state stays in `[c₀, 7.3]` for one step. -/
theorem gis_range {c T dt : ℝ} (h1 : c ≤ 7.3) (hdt : 0 ≤ dt) (hT : 0 ≤ 1.11860082 * T + 0.6)
    (hs : dt * (1.11860082 * T + 0.6) ≤ 7300) :
    c ≤ (slr_gis c T dt : ℝ) ∧ (slr_gis c T dt : ℝ) ≤ 7.3 := by
  set k := dt / 10 * (1 / 100) * (1.11860082 * T + 0.6) / 7.3 with hkdef
  have hk : 0 ≤ k := by positivity
  have hk1 : k ≤ 1 := by
    rw [hkdef, div_le_one (by norm_num)]; nlinarith
  have hg := gis_gap c T dt
  rw [← hkdef] at hg
  constructor <;> nlinarith

/-- One step is monotone in state and temperature. -/
theorem gsic_mono {c c' T T' dt : ℝ} (hc : c ≤ c') (hc' : c' ≤ 0.26) (hdt : 0 ≤ dt) (hT : -1 ≤ T)
    (hTT : T ≤ T') (hs : 0.0008 * dt * (T + 1) ≤ 0.26) :
    (slr_gsic c T dt : ℝ) ≤ (slr_gsic c' T' dt : ℝ) := by
  have h1 : (slr_gsic c T dt : ℝ) ≤ (slr_gsic c' T dt : ℝ) := by
    have a := gsic_gap c T dt
    have b := gsic_gap c' T dt
    have hk1 : 0.0008 / 0.26 * dt * (T + 1) ≤ 1 := by
      have e : 0.0008 / 0.26 * dt * (T + 1) = (0.0008 * dt * (T + 1)) / 0.26 := by ring
      rw [e]; exact (div_le_one (by norm_num)).2 hs
    nlinarith
  have h2 : (slr_gsic c' T dt : ℝ) ≤ (slr_gsic c' T' dt : ℝ) := by
    rw [gsic_step, gsic_step]
    have : 0 ≤ 0.0008 / 0.26 * dt * (0.26 - c') := by
      have : 0 ≤ 0.26 - c' := by linarith
      positivity
    nlinarith
  exact h1.trans h2

theorem gis_mono {c c' T T' dt : ℝ} (hc : c ≤ c') (hc' : c' ≤ 7.3) (hdt : 0 ≤ dt) (hTT : T ≤ T')
    (hs : dt * (1.11860082 * T + 0.6) ≤ 7300) :
    (slr_gis c T dt : ℝ) ≤ (slr_gis c' T' dt : ℝ) := by
  have h1 : (slr_gis c T dt : ℝ) ≤ (slr_gis c' T dt : ℝ) := by
    have a := gis_gap c T dt
    have b := gis_gap c' T dt
    set k := dt / 10 * (1 / 100) * (1.11860082 * T + 0.6) / 7.3 with hkdef
    have hk1 : k ≤ 1 := by
      rw [hkdef, div_le_one (by norm_num)]; nlinarith
    nlinarith
  have h2 : (slr_gis c' T dt : ℝ) ≤ (slr_gis c' T' dt : ℝ) := by
    rw [gis_step, gis_step]
    have h3 : 0 ≤ 1 - c' / 7.3 := by
      have : c' / 7.3 ≤ 1 := (div_le_one (by norm_num)).2 hc'
      linarith
    have : 0 ≤ dt / 10 * (1 / 100) * (1 - c' / 7.3) := by positivity
    nlinarith
  exact h1.trans h2

theorem thermal_mono {c c' T T' dt : ℝ} (hc : c ≤ c') (hdt : 0 ≤ dt) (hTT : T ≤ T') :
    (slr_thermal_expansion c T dt : ℝ) ≤ (slr_thermal_expansion c' T' dt : ℝ) := by
  rw [thermal_step, thermal_step]
  have : (0 : ℝ) ≤ (1 - 0.024076141150722) ^ (dt / 10) := Real.rpow_nonneg (by norm_num) _
  gcongr

/-! ## The forward construction -/

namespace Drivers
variable {x : Drivers} {p : Params}

/-- With temperatures between 0 and a level at which the melt per step cannot exceed the ice, all parts of the
sea-level rise are non-negative. -/
theorem slr_ranges (hdt : 0 ≤ p.dt) (hT0 : 0 ≤ p.T0) (hT : ∀ t ≤ p.tf, 0 ≤ x.temp p t)
    (hs : ∀ t ≤ p.tf, 0.0008 * p.dt * (x.temp p t + 1) ≤ 0.26)
    (hg : ∀ t ≤ p.tf, p.dt * (1.11860082 * x.temp p t + 0.6) ≤ 7300) :
    ∀ t ≤ p.tf, 0 ≤ x.th p t ∧ (0.015 ≤ x.gs p t ∧ x.gs p t ≤ 0.26) ∧
      (0.006 ≤ x.gi p t ∧ x.gi p t ≤ 7.3) := by
  intro t
  induction t with
  | zero =>
    intro _
    refine ⟨thermal_init_nonneg hT0, ?_, ?_⟩ <;> simp only [gs, gi] <;> norm_num
  | succ t ih =>
    intro ht
    obtain ⟨h1, ⟨h2, h3⟩, h4, h5⟩ := ih (by omega)
    have hTt := hT t (by omega)
    refine ⟨thermal_nonneg h1 hTt hdt, ?_, ?_⟩
    · have := gsic_range h3 hdt (by linarith) (hs t (by omega))
      exact ⟨h2.trans this.1, this.2⟩
    · have := gis_range h5 hdt (by positivity) (hg t (by omega))
      exact ⟨h4.trans this.1, this.2⟩

theorem slr_mono (hdt : 0 ≤ p.dt) (hT0 : 0 ≤ p.T0) (hT : ∀ t ≤ p.tf, 0 ≤ x.temp p t)
    (hs : ∀ t ≤ p.tf, 0.0008 * p.dt * (x.temp p t + 1) ≤ 0.26)
    (hg : ∀ t ≤ p.tf, p.dt * (1.11860082 * x.temp p t + 0.6) ≤ 7300) :
    ∀ t < p.tf, x.gs p t ≤ x.gs p (t + 1) ∧ x.gi p t ≤ x.gi p (t + 1) := by
  intro t ht
  obtain ⟨_, ⟨_, h3⟩, _, h5⟩ := slr_ranges hdt hT0 hT hs hg t ht.le
  have hTt := hT t ht.le
  exact ⟨(gsic_range h3 hdt (by linarith) (hs t ht.le)).1,
    (gis_range h5 hdt (by positivity) (hg t ht.le)).1⟩
end Drivers

end Mimosa
