import Verif.Core.Component

/-! # `mimosa/components/sealevelrise.py` -/

namespace Mimosa.SeaLevelRise
open Mimosa RuleOut GeneralConstraint PyNum

/-- sealevelrise.py:104 -/
noncomputable def thermal_equil : ℝ := 0.5
/-- sealevelrise.py:105-107 -/
noncomputable def thermal_init : ℝ := 0.0920666936642
/-- sealevelrise.py:108 -/
noncomputable def thermal_adjust_rate : ℝ := 0.024076141150722
/-- sealevelrise.py:111 -/
noncomputable def gsic_melt_rate : ℝ := 0.0008
/-- sealevelrise.py:112 -/
noncomputable def gsic_total_ice : ℝ := 0.26
/-- sealevelrise.py:113 -/
noncomputable def gsic_equil_temp : ℝ := -1
/-- sealevelrise.py:116-118 -/
noncomputable def gis_melt_rate_above_thresh : ℝ := 1.11860082
/-- sealevelrise.py:119 -/
noncomputable def gis_init_melt_rate : ℝ := 0.6
/-- sealevelrise.py:120 -/
noncomputable def gis_init_ice_vol : ℝ := 7.3

/-- sealevelrise.py:171-179 `slr_thermal_expansion_init`. -/
noncomputable def slr_thermal_expansion_init (T0 : ℝ) : ℝ :=
  thermal_init + thermal_adjust_rate * (T0 * thermal_equil - thermal_init)

variable {α : Type} [PyNum α]

/-- sealevelrise.py:182-196 `slr_thermal_expansion`. -/
noncomputable def slr_thermal_expansion (slr_thermal temperature : α) (dt : ℝ) : α :=
  pow (lit 1 - lit thermal_adjust_rate) (lit (dt / 10)) * slr_thermal +
    lit thermal_adjust_rate * lit (dt / 10) * (temperature * lit thermal_equil)

/-- sealevelrise.py:199-217 `slr_gsic`. -/
noncomputable def slr_gsic (cumgsic temperature : α) (dt : ℝ) : α :=
  cumgsic + lit (gsic_melt_rate / gsic_total_ice) * lit dt * (lit gsic_total_ice - cumgsic) *
    (temperature - lit gsic_equil_temp)

/-- sealevelrise.py:220-241 `slr_gis`. -/
noncomputable def slr_gis (cumgis temperature : α) (dt : ℝ) : α :=
  cumgis + lit (dt / 10) * lit (1 / 100) *
    (lit gis_melt_rate_above_thresh * temperature + lit gis_init_melt_rate) *
    (lit 1 - cumgis / lit gis_init_ice_vol)

/-- sealevelrise.py:127-135, constraint `SLR_thermal`. -/
noncomputable def rThermal (p : Params) (t : ℕ) : RuleOut :=
  .onlyIf (t > 0)
    (gv .slr_thermal t =ₚ
      slr_thermal_expansion (gv .slr_thermal (t - 1)) (gv .temperature (t - 1)) p.dt)

/-- sealevelrise.py:136-138 (unnamed). -/
noncomputable def rThermalInit (p : Params) : RuleOut :=
  .rel (gv .slr_thermal 0 =ₚ num (slr_thermal_expansion_init p.T0))

/-- sealevelrise.py:140-148, constraint `SLR_GSIC`. -/
noncomputable def rGsic (p : Params) (t : ℕ) : RuleOut :=
  .onlyIf (t > 0)
    (gv .slr_cumgsic t =ₚ slr_gsic (gv .slr_cumgsic (t - 1)) (gv .temperature (t - 1)) p.dt)

/-- sealevelrise.py:149 (unnamed). -/
noncomputable def rGsicInit (_ : Params) : RuleOut :=
  .rel (gv .slr_cumgsic 0 =ₚ num 0.015)

/-- sealevelrise.py:151-158, constraint `SLR_GIS`. -/
noncomputable def rGis (p : Params) (t : ℕ) : RuleOut :=
  .onlyIf (t > 0)
    (gv .slr_cumgis t =ₚ slr_gis (gv .slr_cumgis (t - 1)) (gv .temperature (t - 1)) p.dt)

/-- sealevelrise.py:159 (unnamed). -/
noncomputable def rGisInit (_ : Params) : RuleOut :=
  .rel (gv .slr_cumgis 0 =ₚ num 0.006)

/-- sealevelrise.py:161-165, constraint `total_SLR`. -/
def rTotal (_ : Params) (t : ℕ) : RuleOut :=
  .rel (gv .total_SLR t =ₚ gv .slr_thermal t + gv .slr_cumgsic t + gv .slr_cumgis t)

/-- sealevelrise.py:102-168 `get_constraints`. -/
noncomputable def component : Component where
  vars :=
    [ .global .slr_thermal (fun _ => some 0) noBound,
      .global .slr_cumgsic (fun _ => some 0) noBound,
      .global .slr_cumgis (fun _ => some 0) noBound,
      .global .total_SLR (fun _ => some 0) noBound ]
  params :=
    [ ⟨"slr_thermal_equil", .scalar, .none⟩, ⟨"slr_thermal_init", .scalar, .none⟩,
      ⟨"slr_thermal_adjust_rate", .scalar, .none⟩, ⟨"slr_gsic_melt_rate", .scalar, .none⟩,
      ⟨"slr_gsic_total_ice", .scalar, .none⟩, ⟨"slr_gsic_equil_temp", .scalar, .none⟩,
      ⟨"slr_gis_melt_rate_above_thresh", .scalar, .none⟩,
      ⟨"slr_gis_init_melt_rate", .scalar, .none⟩, ⟨"slr_gis_init_ice_vol", .scalar, .none⟩ ]
  constraints :=
    [ .global rThermal (some "SLR_thermal"),
      .globalInit rThermalInit none,
      .global rGsic (some "SLR_GSIC"),
      .globalInit rGsicInit none,
      .global rGis (some "SLR_GIS"),
      .globalInit rGisInit none,
      .global rTotal (some "total_SLR") ]

end Mimosa.SeaLevelRise
