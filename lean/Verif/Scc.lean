import Verif.Components.SeaLevelRise
import Verif.Components.Damages
import Verif.Eqs

/-!
# `mimosa/socialcostofcarbon/scc.py`: damages of a given emission pathway, computed without the optimisation model

Modelled: `SCC.calculate_damages` (scc.py:65-145), step by step.  Tables are lists of rows (one per region) of values (one
per year); the data functions `baseline_emissions` and `GDP` are the exogenous series of the run.  Not modelled: `__init__`
and `dict_to_object` (scc.py:14-44, 152-156): the constructor calls `RegionalParamStore` without its second argument and
so always fails (see DESIGN.md, section 5); reading a file with given emissions (scc.py:46-63) is the interpolation of
`Sim/Simulation.lean`, here its result is an argument.  Years are floats, so the slice `[:year]` of scc.py:91-92 selects by
label.
-/

namespace Mimosa.Scc
open Mimosa Damages PyNum

/-- One row per region. [scc.py:72-84] -/
abbrev Table := List (String × List ℝ)

/-- `self.output` [scc.py:66, 145] -/
structure Output where
  /-- scc.py:72-79 -/
  regional_emissions : Table
  /-- scc.py:81-84 -/
  gdp : Table
  /-- scc.py:87 -/
  global_emissions : List ℝ
  /-- scc.py:99-101 -/
  temperature : List ℝ
  /-- scc.py:120-132 -/
  damages_temperature : Table
  /-- scc.py:134-140 -/
  damages_slr : Table
  /-- scc.py:142 -/
  damages_total : Table
  /-- scc.py:143 -/
  damages_absolute : Table

variable (p : Params)

/-- `self.years_i` [scc.py:37] -/
def steps : List ℕ := List.range (p.tf + 1)

/-- A data frame built from a function of year and region. [scc.py:76-84] -/
def tableOf (f : ℕ → String → ℝ) : Table := p.regions.map fun r => (r, (steps p).map fun t => f t r)

/-- scc.py:87 `out["regional_emissions"].sum()`: the sum over the rows, per year. -/
def worldOf (E : ℕ → String → ℝ) (t : ℕ) : ℝ := (p.regions.map fun r => E t r).sum

open Classical in
/-- scc.py:88-96: `np.trapz` of the world emissions up to and including the year, by the labels of the index. -/
noncomputable def cumulativeOf (W : ℕ → ℝ) (k : ℕ) : ℝ :=
  let upTo := (steps p).filter fun s : ℕ => decide (p.year s ≤ p.year k)
  Params.trapz (upTo.map W) (upTo.map fun s : ℕ => p.year s)

/-- scc.py:99-101 -/
noncomputable def temperatureOf (W : ℕ → ℝ) (k : ℕ) : ℝ := p.T0 + p.TCRE * cumulativeOf p W k

/-- scc.py:104-117: the three contributions to sea-level rise, year by year (`prev_temp` is the temperature of the year
before). -/
noncomputable def seaOf (T : ℕ → ℝ) : ℕ → ℝ × ℝ × ℝ
  | 0 => (SeaLevelRise.slr_thermal_expansion_init p.T0, 0.015, 0.006)
  | t + 1 =>
    let s := seaOf T t
    (SeaLevelRise.slr_thermal_expansion s.1 (T t) p.dt, SeaLevelRise.slr_gsic s.2.1 (T t) p.dt,
      SeaLevelRise.slr_gis s.2.2 (T t) p.dt)

/-- scc.py:104, 117 `total_slr` -/
noncomputable def slrOf (T : ℕ → ℝ) (t : ℕ) : ℝ := (seaOf p T t).1 + (seaOf p T t).2.1 + (seaOf p T t).2.2

/-- scc.py:120-140: `damage_scale_factor * damage_fct(x, x.iloc[0], data, r, is_slr)` for all regions and years. -/
noncomputable def damageTable (x : ℕ → ℝ) (d : DamageCoeffs) : Except Err Table :=
  p.regions.mapM fun r => ((steps p).mapM fun t =>
    (damage_fct (x t) (x 0) d r).map fun v => p.damage_scale_factor * v).map fun row => (r, row)

/-- Two data frames with the same labels, cell by cell. [scc.py:142-143] -/
def cellwise (f : ℝ → ℝ → ℝ) (A B : Table) : Table :=
  List.zipWith (fun a b => (a.1, List.zipWith f a.2 b.2)) A B

/-- scc.py:65-145 `calculate_damages`; `given` are the emissions of scc.py:72-73 if there are any. -/
noncomputable def calculateDamages (given : Option (ℕ → String → ℝ)) : Except Err Output :=
  let E := given.getD p.baseline_emissions
  let W := worldOf p E
  let T := temperatureOf p W
  let S := slrOf p T
  (damageTable p (fun t => T t - 0.6) p.noslr).bind fun dT =>
    (damageTable p S p.slr).bind fun dS =>
      let total := cellwise (· + ·) dT dS
      let gdp := tableOf p p.baseline_GDP
      .ok { regional_emissions := tableOf p E
            gdp := gdp
            global_emissions := (steps p).map W
            temperature := (steps p).map T
            damages_temperature := dT
            damages_slr := dS
            damages_total := total
            damages_absolute := cellwise (· * ·) total gdp }

end Mimosa.Scc
