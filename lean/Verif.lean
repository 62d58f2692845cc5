import Verif.AbstractModel
import Verif.Eqs
import Verif.Lib.SoftFacts
import Verif.Lib.Names
import Verif.Lib.Scope
import Verif.Lib.Scope2
import Verif.Lib.Build
import Verif.Lib.Char
import Verif.Props.Soft
import Verif.Lib.Slr
import Verif.Lib.Example
import Verif.Props.Emissions
import Verif.Props.Structure
import Verif.Props.Mitigation
import Verif.Props.Trade
import Verif.Props.Economy
import Verif.Props.Climate
import Verif.Lib.Example2
import Verif.Props.Effort
import Verif.Lib.Concave
import Verif.Props.Welfare
import Verif.Props.Reporting
import Verif.Props.Initial
import Verif.Props.Existence
import Verif.Props.ExamplesFree
import Verif.Config.DefaultYaml
import Verif.Lib.ConfigFacts
import Verif.Props.Nested
import Verif.Props.ConfigParams
import Verif.Props.ConfigValues
import Verif.Props.ConfigStable
import Verif.Props.ConfigOrder
import Verif.Props.References
import Verif.Lib.Replace
import Verif.Config.Units
import Verif.Data.TimeGrid
import Verif.Data.Extrapolate
import Verif.Data.DataStore
import Verif.Props.Units
import Verif.Props.Extrapolation
import Verif.Props.TimeGrid
import Verif.Props.DataStore
import Verif.Data.Regional
import Verif.Props.Regional
import Verif.Data.Instantiate
import Verif.Props.Instantiate
import Verif.Data.Run
import Verif.Lib.RunFacts
import Verif.Props.EndToEnd
import Verif.Props.Settings
import Verif.Props.Scenario
import Verif.Sim.Simulation
import Verif.Props.Simulation
import Verif.Export.Save
import Verif.Props.Export
import Verif.Props.RoundTrip
import Verif.Session
import Verif.Props.Session
import Verif.Props.Averages
import Verif.Props.Compare
import Verif.Props.CompareExamples
import Verif.Props.History
import Verif.Lib.CarbonIntensity
import Verif.Props.ExistenceCI
import Verif.Props.ExamplesCI
import Verif.Lib.Closed
import Verif.Lib.Clip
import Verif.Lib.Bounded
import Verif.Lib.BoundedCI
import Verif.Props.Optimum
import Verif.Props.Milder
import Verif.Props.RegionalSettings
import Verif.Props.RegionalEquations
import Verif.Props.ExamplesLone
import Verif.Props.Witness
import Verif.Props.ConfigModules
import Verif.Props.NoDamage
import Verif.Props.Ranking
import Verif.Props.MilderClimate
import Verif.Presolve
import Verif.Props.Presolve
import Verif.Start
import Verif.Scc
import Verif.Props.Evaluable
import Verif.Props.Start
import Verif.Props.Consistent
import Verif.Props.Separable
import Verif.Props.SeparableCI
import Verif.Props.Binding
import Verif.Props.BindingTargets
import Verif.Props.BindingExamples
import Verif.Props.Determined
import Verif.Props.Names
import Verif.Props.NamesExamples
import Verif.Props.CostEffective
import Verif.Props.CostEffectiveExamples
import Verif.Props.MilderTrade
import Verif.Props.SimulationConfig
import Verif.Props.Baseline
import Verif.Props.Rerun
import Verif.Props.Calibration
import Verif.Props.SavedChecks
import Verif.Props.NearBaseline
import Verif.Props.Mixture
import Verif.Props.TargetCosts
import Verif.Props.Defaults
import Verif.Props.DefaultsExample
import Verif.Props.Splice
import Verif.Props.Patience
import Verif.Props.Ambition
import Verif.Props.SccAgrees
import Verif.Props.Burden
import Verif.Props.Reach
import Verif.Props.Others
