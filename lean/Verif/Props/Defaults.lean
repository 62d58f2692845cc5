import Verif.Props.Scenario
import Verif.Props.ConfigModules
import Verif.Props.Mixture
import Verif.Props.Export
import Verif.Props.SimulationConfig
import Verif.Props.RegionalSettings
import Verif.Props.NearBaseline

/-!
# C86: settings that the user leaves alone have their documented values in the model
-/

namespace Mimosa

variable {B : Builtins} {uni : Char → Bool} {F : RegionalFiles} {W : DataWorld} {user params : Val} {c : DataCache}
  {tree : Py Parser} {md : Modules} {entries : List (String × IData)} {σ τ : Env}

/-- The user's configuration does not mention the setting, and no custom mapping replaces the model parameter. -/
structure Spec.Untouched (user : Val) (path : List String) (name : String) : Prop where
  unset : getNested (path.map Key.str) user = .error .keyError
  custom : NoCustom user [name]

/-- The documented numbers (`docs/parameters.md`, generated from `config_default.yaml`). -/
structure Spec.DefaultNumbers (user : Val) (md : Modules) (p : Params) : Prop where
  time_preference : Spec.Untouched user ["economics", "PRTP"] "PRTP" → p.PRTP = 0.015
  elasmu : Spec.Untouched user ["economics", "elasmu"] "elasmu" → p.elasmu = 1.001
  inequality : md.welfare = .inequal_aversion_general →
    Spec.Untouched user ["economics", "inequal_aversion"] "inequal_aversion" → p.inequal_aversion = 0.5
  capital_share : Spec.Untouched user ["economics", "GDP", "alpha"] "alpha" → p.alpha = 0.3
  depreciation : Spec.Untouched user ["economics", "GDP", "depreciation of capital"] "dk" → p.dk = 0.05
  savings : Spec.Untouched user ["economics", "GDP", "savings rate"] "sr" → p.sr = 0.21
  exponent : Spec.Untouched user ["economics", "MAC", "beta"] "MAC_beta" → p.MAC_beta = 3
  learning_by_doing : Spec.Untouched user ["economics", "MAC", "LBD_rate"] "LBD_rate" → p.LBD_rate = 0.82
  learning_over_time : Spec.Untouched user ["economics", "MAC", "LOT_rate"] "LOT_rate" → p.LOT_rate = 0
  cost_floor : Spec.Untouched user ["economics", "MAC", "rel_mitigation_costs_min_level"]
    "rel_mitigation_costs_min_level" → p.rel_mitigation_costs_min_level = 0
  reversible : Spec.Untouched user ["economics", "damages", "percentage reversible"] "perc_reversible_damages" →
    p.perc_reversible_damages = 1
  scale_factor : md.damage = .COACCH →
    Spec.Untouched user ["economics", "damages", "scale factor"] "damage_scale_factor" → p.damage_scale_factor = 1

/-- The documented switches. -/
structure Spec.DefaultSwitches (user : Val) (p : Params) : Prop where
  carbon_intensity : Spec.Untouched user ["emissions", "baseline carbon intensity"] "use_carbon_intensity_for_baseline" →
    p.use_carbon_intensity_for_baseline = true
  trapezoids : Spec.Untouched user ["emissions", "cumulative_emissions_trapz"] "cumulative_emissions_trapz" →
    p.cumulative_emissions_trapz = true
  no_increase : Spec.Untouched user ["emissions", "non increasing emissions after 2100"]
    "non_increasing_emissions_after_2100" → p.non_increasing_emissions_after_2100 = true
  net_zero : Spec.Untouched user ["emissions", "not positive after budget year"] "no_pos_emissions_after_budget_year" →
    p.no_pos_emissions_after_budget_year = true
  count_damages : Spec.Untouched user ["economics", "damages", "ignore damages"] "ignore_damages" → p.ignore_damages = false

/-- The documented limits and regime: no carbon budget, no temperature target, no limit on the speed of the global
reduction, at most 5 % of the initial emissions per year in each region; no effort sharing. -/
structure Spec.DefaultLimits (user : Val) (p : Params) : Prop where
  budget : Spec.Untouched user ["emissions", "carbonbudget"] "budget" → p.budget = none
  target : Spec.Untouched user ["temperature", "target"] "temperature_target" → p.temperature_target = none
  inertia_global : Spec.Untouched user ["emissions", "inertia", "global"] "inertia_global" → p.inertia_global = none
  inertia_regional : Spec.Untouched user ["emissions", "inertia", "regional"] "inertia_regional" →
    p.inertia_regional = some (-0.05)
  regime : Spec.Untouched user ["effort sharing", "regime"] "effort_sharing_regime" → p.effort_sharing_regime = "noregime"
  convergence : Spec.Untouched user ["effort sharing", "percapconv_year"] "percapconv_year" →
    p.percapconv_year = some 2050

namespace Defaults

/-- The value is this number, as an integer or a float. -/
def isNum (q : ℚ) : Val → Bool
  | .atom (.float (.fin q')) => decide (q' = q)
  | .atom (.int i) => decide ((i : ℚ) = q)
  | _ => false

theorem isNum_float {q : ℚ} {u : Val} (h : isNum q u = true) : pyFloat B u = .ok (.fin q) := by
  unfold isNum at h
  split at h
  · simp only [decide_eq_true_eq] at h; subst h; rfl
  · simp only [decide_eq_true_eq] at h; subst h; rfl
  · cases h

theorem float (hu : user.WF) (S : Setup B uni F W user c params tree md entries) {s : FloatSetting}
    (hs : s ∈ floatSettings) (q : ℚ) (ht : defTest (s.path.map Key.str) (isNum q) = true)
    (h1 : s.name = "damage_scale_factor" → md.damage = .COACCH)
    (h2 : s.name = "inequal_aversion" → md.welfare = .inequal_aversion_general)
    (h : Spec.Untouched user s.path s.name) : s.field (paramsOf entries) = q := by
  obtain ⟨u, he, hq⟩ := effective_default (user := user) (isNum q) ht h.unset
  obtain ⟨f, hf, hx⟩ := C56_float_setting hu S hs (floatSettings_declared hs h1 h2) h.custom he
  rw [isNum_float hq] at hf
  cases hf
  exact (hx q rfl).1

/-- The value is this truth value. -/
def isBoolV (b : Bool) : Val → Bool
  | .atom (.bool b') => decide (b' = b)
  | _ => false

theorem isBoolV_eq {b : Bool} {u : Val} (h : isBoolV b u = true) : u = .atom (.bool b) := by
  unfold isBoolV at h
  split at h
  · simp only [decide_eq_true_eq] at h; subst h; rfl
  · cases h

theorem switch (hu : user.WF) (S : Setup B uni F W user c params tree md entries) {s : Switch}
    (hs : s ∈ switches) (b : Bool) (ht : defTest (s.path.map Key.str) (isBoolV b) = true)
    (h : Spec.Untouched user s.path s.name) : s.field (paramsOf entries) = b := by
  obtain ⟨u, he, hq⟩ := effective_default (user := user) (isBoolV b) ht h.unset
  obtain rfl := isBoolV_eq hq
  rcases C56_switch hu S hs h.custom he with ⟨hw, hx⟩ | ⟨hw, hx⟩
  · rw [hx]
    simp only [WrittenTrue, Py.atom.injEq, reduceCtorEq, Scalar.bool.injEq, false_or, or_false] at hw
    exact hw.symm
  · rw [hx]
    simp only [WrittenFalse, Py.atom.injEq, reduceCtorEq, Scalar.bool.injEq, false_or, or_false] at hw
    exact hw.symm

end Defaults

open Defaults in
/-- **C86.** Every number that the user does not set has its documented value in the model. -/
theorem C86_numbers (hu : user.WF) (S : Setup B uni F W user c params tree md entries) :
    Spec.DefaultNumbers user md (paramsOf entries) := by
  constructor
  · intro h
    have := float hu S (s := ⟨"PRTP", ["economics", "PRTP"], "::economics.PRTP", .fin 0, .fin (1 / 5), (·.PRTP)⟩)
      (by simp [floatSettings]) (15 / 1000) (by decide +kernel) (fun h => absurd h (by decide)) (fun h => absurd h (by decide)) h
    exact this.trans (by norm_num)
  · intro h
    have := float hu S (s := ⟨"elasmu", ["economics", "elasmu"], "::economics.elasmu", .fin (1 / 10), .fin 10, (·.elasmu)⟩)
      (by simp [floatSettings]) (1001 / 1000) (by decide +kernel) (fun h => absurd h (by decide)) (fun h => absurd h (by decide)) h
    exact this.trans (by norm_num)
  · intro hm h
    have := float hu S (s := ⟨"inequal_aversion", ["economics", "inequal_aversion"], "::economics.inequal_aversion", .fin 0,
      .fin 3, (·.inequal_aversion)⟩) (by simp [floatSettings]) (1 / 2) (by decide +kernel) (fun h => absurd h (by decide)) (fun _ => hm) h
    exact this.trans (by norm_num)
  · intro h
    have := float hu S (s := ⟨"alpha", ["economics", "GDP", "alpha"], "::economics.GDP.alpha", .fin 0, .fin 1, (·.alpha)⟩)
      (by simp [floatSettings]) (3 / 10) (by decide +kernel) (fun h => absurd h (by decide)) (fun h => absurd h (by decide)) h
    exact this.trans (by norm_num)
  · intro h
    have := float hu S (s := ⟨"dk", ["economics", "GDP", "depreciation of capital"],
      "::economics.GDP.depreciation of capital", .fin 0, .inf, (·.dk)⟩)
      (by simp [floatSettings]) (5 / 100) (by decide +kernel) (fun h => absurd h (by decide)) (fun h => absurd h (by decide)) h
    exact this.trans (by norm_num)
  · intro h
    have := float hu S (s := ⟨"sr", ["economics", "GDP", "savings rate"], "::economics.GDP.savings rate", .fin 0, .fin 1,
      (·.sr)⟩) (by simp [floatSettings]) (21 / 100) (by decide +kernel) (fun h => absurd h (by decide)) (fun h => absurd h (by decide)) h
    exact this.trans (by norm_num)
  · intro h
    have := float hu S (s := ⟨"MAC_beta", ["economics", "MAC", "beta"], "::economics.MAC.beta", .fin (1 / 100), .fin 10,
      (·.MAC_beta)⟩) (by simp [floatSettings]) 3 (by decide +kernel) (fun h => absurd h (by decide)) (fun h => absurd h (by decide)) h
    exact this.trans (by norm_num)
  · intro h
    have := float hu S (s := ⟨"LBD_rate", ["economics", "MAC", "LBD_rate"], "::economics.MAC.LBD_rate", .fin (1 / 10), .fin 1,
      (·.LBD_rate)⟩) (by simp [floatSettings]) (82 / 100) (by decide +kernel) (fun h => absurd h (by decide)) (fun h => absurd h (by decide)) h
    exact this.trans (by norm_num)
  · intro h
    have := float hu S (s := ⟨"LOT_rate", ["economics", "MAC", "LOT_rate"], "::economics.MAC.LOT_rate", .fin 0, .inf,
      (·.LOT_rate)⟩) (by simp [floatSettings]) 0 (by decide +kernel) (fun h => absurd h (by decide)) (fun h => absurd h (by decide)) h
    exact this.trans (by norm_num)
  · intro h
    have := float hu S (s := ⟨"rel_mitigation_costs_min_level", ["economics", "MAC", "rel_mitigation_costs_min_level"],
      "::economics.MAC.rel_mitigation_costs_min_level", .fin (-2), .fin 0, (·.rel_mitigation_costs_min_level)⟩)
      (by simp [floatSettings]) 0 (by decide +kernel) (fun h => absurd h (by decide)) (fun h => absurd h (by decide)) h
    exact this.trans (by norm_num)
  · intro h
    have := float hu S (s := ⟨"perc_reversible_damages", ["economics", "damages", "percentage reversible"],
      "::economics.damages.percentage reversible", .fin 0, .fin 1, (·.perc_reversible_damages)⟩)
      (by simp [floatSettings]) 1 (by decide +kernel) (fun h => absurd h (by decide)) (fun h => absurd h (by decide)) h
    exact this.trans (by norm_num)
  · intro hm h
    have := float hu S (s := ⟨"damage_scale_factor", ["economics", "damages", "scale factor"],
      "::economics.damages.scale factor", .ninf, .inf, (·.damage_scale_factor)⟩)
      (by simp [floatSettings]) 1 (by decide +kernel) (fun _ => hm) (fun h => absurd h (by decide)) h
    exact this.trans (by norm_num)

open Defaults in
/-- **C86.** … and every switch. -/
theorem C86_switches (hu : user.WF) (S : Setup B uni F W user c params tree md entries) :
    Spec.DefaultSwitches user (paramsOf entries) := by
  constructor
  · exact switch hu S (s := ⟨"use_carbon_intensity_for_baseline", ["emissions", "baseline carbon intensity"],
      "::emissions.baseline carbon intensity", (·.use_carbon_intensity_for_baseline)⟩) (by simp [switches]) true
      (by decide +kernel)
  · exact switch hu S (s := ⟨"cumulative_emissions_trapz", ["emissions", "cumulative_emissions_trapz"],
      "::emissions.cumulative_emissions_trapz", (·.cumulative_emissions_trapz)⟩) (by simp [switches]) true
      (by decide +kernel)
  · exact switch hu S (s := ⟨"non_increasing_emissions_after_2100", ["emissions", "non increasing emissions after 2100"],
      "::emissions.non increasing emissions after 2100", (·.non_increasing_emissions_after_2100)⟩) (by simp [switches]) true
      (by decide +kernel)
  · exact switch hu S (s := ⟨"no_pos_emissions_after_budget_year", ["emissions", "not positive after budget year"],
      "::emissions.not positive after budget year", (·.no_pos_emissions_after_budget_year)⟩) (by simp [switches]) true
      (by decide +kernel)
  · exact switch hu S (s := ⟨"ignore_damages", ["economics", "damages", "ignore damages"],
      "::economics.damages.ignore damages", (·.ignore_damages)⟩) (by simp [switches]) false (by decide +kernel)

namespace Defaults

theorem false_off {u : Val} (h : isBoolV false u = true) : WrittenFalse u ∧ NoRefs u := by
  obtain rfl := isBoolV_eq h
  exact ⟨by simp [WrittenFalse], rfl, by simp⟩

/-- An optional quantity that is off by default. -/
theorem quantity_off (hu : user.WF) (S : Setup B uni F W user c params tree md entries) {ks : List String}
    (hne : ks ≠ []) (hpl : ∀ k ∈ ks, PlainKey k) {unit : String}
    (ht : parserTest (ks.map Key.str) (isQuantity unit) = true) {d : ParamDecl} (hd : d ∈ allParams md)
    (hdoc : DocIs B params d ("::".toList ++ dotted ks)) (hgrid : d.name ∉ gridNames) (hcomb : d.name ∉ combinedNames)
    (hdef : defTest (ks.map Key.str) (isBoolV false) = true) (h : Spec.Untouched user ks d.name) :
    optOf entries d.name = none := by
  obtain ⟨u, he, hq⟩ := effective_default (user := user) _ hdef h.unset
  have hs := (optional_quantity hu S hne hpl ht hd hdoc hgrid hcomb h.custom he (false_off hq).2).2 (false_off hq).1
  simp only [optOf, hs]

def isText (s : String) : Val → Bool
  | .atom (.str s') => decide (s' = s)
  | _ => false

theorem isText_eq {s : String} {u : Val} (h : isText s u = true) : u = .atom (.str s) := by
  unfold isText at h
  split at h
  · simp only [decide_eq_true_eq] at h; subst h; rfl
  · cases h

def isEnum : Parser → Bool
  | .enum b _ => !b.canBeFalse
  | _ => false

def isOptFloat : Parser → Bool
  | .float b _ _ => b.canBeFalse
  | _ => false

end Defaults

theorem effort_mem {d : ParamDecl} (h : d ∈ (EffortSharing.component md.transfer).params) : d ∈ allParams md :=
  List.mem_append_right _ (List.mem_flatMap.2 ⟨EffortSharing.component md.transfer, by simp [components], h⟩)

open Defaults in
/-- **C86.** The effort-sharing regime named in the configuration (or `noregime`) is the one that the model uses. -/
theorem C86_regime (hu : user.WF) (S : Setup B uni F W user c params tree md entries)
    (hcm : NoCustom user ["effort_sharing_regime"]) {s : String}
    (he : Effective user [.str "effort sharing", .str "regime"] (.atom (.str s))) (hb : '{' ∉ s.toList) :
    (paramsOf entries).effort_sharing_regime = s := by
  obtain ⟨p, hp, hq⟩ := parserTest_spec (ks := [.str "effort sharing", .str "regime"]) (q := isEnum) (by decide +kernel)
  unfold isEnum at hq
  split at hq
  swap
  · cases hq
  rename_i b l
  obtain ⟨v, hv, hsc⟩ := plain_scalar (ks := ["effort sharing", "regime"]) hu S (by simp)
    (by unfold PlainKey; decide) hp (by simp)
    (d := ⟨"effort_sharing_regime", .scalar, .str "::effort sharing.regime"⟩)
    (effort_mem (by simp [EffortSharing.component]))
    (by simp only [DocIs]; decide) (by decide) (by decide) hcm he
  have hcf : Parser.checkFalse b (.atom (.str s)) = false := by
    rw [← Bool.not_eq_true, checkFalse_iff]; simpa using fun h => by simp [h] at hq
  simp only [Parser.parse, hcf, Bool.false_eq_true, if_false] at hv
  split at hv
  · cases hv
    have := hsc ⟨rfl, by simpa using hb⟩
    simp only [paramsOf, textOf, this]
  · cases hv

open Defaults in
/-- **C86.** … and every limit. -/
theorem C86_limits (hu : user.WF) (S : Setup B uni F W user c params tree md entries) :
    Spec.DefaultLimits user (paramsOf entries) := by
  constructor
  · intro h
    exact quantity_off (ks := ["emissions", "carbonbudget"]) hu S (by simp)
      (by unfold PlainKey; decide) (unit := "emissions_unit") (by decide +kernel) budget_mem
      (by simp only [DocIs]; decide) (by decide) (by decide) (by decide +kernel) h
  · intro h
    exact quantity_off (ks := ["temperature", "target"]) hu S (by simp)
      (by unfold PlainKey; decide) (unit := "temperature_unit") (by decide +kernel)
      (d := ⟨"temperature_target", .scalar, .str "::temperature.target"⟩)
      (emissions_mem (by simp [Emissions.component]))
      (by simp only [DocIs]; decide) (by decide) (by decide) (by decide +kernel) h
  · intro h
    obtain ⟨u, he, hq⟩ := effective_default (user := user) (isBoolV false)
      (ks := ["emissions", "inertia", "global"].map Key.str) (by decide +kernel) h.unset
    exact (inertia_value (ks := ["emissions", "inertia", "global"]) hu S (by simp)
      (by unfold PlainKey; decide) (by decide +kernel)
      (d := ⟨"inertia_global", .scalar, .str "::emissions.inertia.global"⟩)
      (emissions_mem (by simp [Emissions.component]))
      (by simp only [DocIs]; decide) (by decide) (by decide) h.custom he).1 (false_off hq).1
  · intro h
    obtain ⟨u, he, hq⟩ := effective_default (user := user) (isNum (-5 / 100))
      (ks := ["emissions", "inertia", "regional"].map Key.str) (by decide +kernel) h.unset
    obtain ⟨f, hf, hx⟩ := (inertia_value (ks := ["emissions", "inertia", "regional"]) hu S (by simp)
      (by unfold PlainKey; decide) (by decide +kernel)
      (d := ⟨"inertia_regional", .scalar, .str "::emissions.inertia.regional"⟩)
      (emissions_mem (by simp [Emissions.component]))
      (by simp only [DocIs]; decide) (by decide) (by decide) h.custom he).2 (by
        rintro (rfl | rfl | rfl | rfl | rfl | rfl) <;> revert hq <;> decide +kernel)
    rw [isNum_float hq] at hf
    cases hf
    have := (hx _ rfl).2
    refine this.trans ?_
    norm_num
  · intro h
    obtain ⟨u, he, hq⟩ := effective_default (user := user) (isText "noregime")
      (ks := ["effort sharing", "regime"].map Key.str) (by decide +kernel) h.unset
    obtain rfl := isText_eq hq
    exact C86_regime hu S h.custom he (by decide)
  · intro h
    obtain ⟨u, he, hq⟩ := effective_default (user := user) (isNum 2050)
      (ks := ["effort sharing", "percapconv_year"].map Key.str) (by decide +kernel) h.unset
    obtain ⟨p, hp, hb⟩ := parserTest_spec (ks := [.str "effort sharing", .str "percapconv_year"]) (q := isOptFloat)
      (by decide +kernel)
    unfold isOptFloat at hb
    split at hb
    swap
    · cases hb
    rename_i b lo hi
    obtain ⟨v, hv, hsc⟩ := plain_scalar (ks := ["effort sharing", "percapconv_year"]) hu S (by simp)
      (by unfold PlainKey; decide) hp (by simp)
      (d := ⟨"percapconv_year", .scalar, .str "::effort sharing.percapconv_year"⟩)
      (effort_mem (by simp [EffortSharing.component]))
      (by simp only [DocIs]; decide) (by decide) (by decide) h.custom he
    have hcf : Parser.checkFalse b u = false := by
      rw [← Bool.not_eq_true, checkFalse_iff]
      rintro ⟨-, rfl | rfl | rfl | rfl | rfl | rfl⟩ <;> revert hq <;> decide +kernel
    simp only [Parser.parse, hcf, Bool.false_eq_true, if_false, isNum_float hq] at hv
    split at hv
    · cases hv
    · cases hv
      have := hsc ⟨rfl, by simp⟩
      simp [paramsOf, optOf, this, Val.num]

/-! ## Time and regions -/

namespace Defaults

def isIntParser : Parser → Bool
  | .int b _ _ => !b.canBeFalse
  | _ => false

def isFloatParser : Parser → Bool
  | .float b _ _ => !b.canBeFalse
  | _ => false

def isInt (i : ℤ) : Val → Bool
  | .atom (.int j) => decide (j = i)
  | _ => false

theorem isInt_eq {i : ℤ} {u : Val} (h : isInt i u = true) : u = .atom (.int i) := by
  unfold isInt at h
  split at h
  · simp only [decide_eq_true_eq] at h; subst h; rfl
  · cases h

/-- A whole number of the configuration. -/
theorem int_final (hu : user.WF) (h : mimosaParams B uni DefaultYaml.entries user = .ok (params, tree)) {ks : List Key}
    (ht : parserTest ks isIntParser = true) {i : ℤ} (he : Effective user ks (.atom (.int i))) :
    getNested ks params = .ok (.atom (.int i)) := by
  obtain ⟨p, hp, hq⟩ := parserTest_spec ht
  unfold isIntParser at hq
  split at hq
  swap
  · cases hq
  rename_i b lo hi
  obtain ⟨v, hv, hfin, -⟩ := final_value hu h hp he
  have hcf : Parser.checkFalse b (.atom (.int i)) = false := by
    rw [← Bool.not_eq_true, checkFalse_iff]; simpa using fun h => by simp [h] at hq
  simp only [Parser.parse, hcf, Bool.false_eq_true, if_false, pyInt] at hv
  split at hv
  · cases hv
  · cases hv
    exact hfin ⟨rfl, by simp⟩

/-- A number of the configuration. -/
theorem float_final (hu : user.WF) (h : mimosaParams B uni DefaultYaml.entries user = .ok (params, tree)) {ks : List Key}
    (ht : parserTest ks isFloatParser = true) {u : Val} {q : ℚ} (hu' : pyFloat B u = .ok (.fin q))
    (he : Effective user ks u) : getNested ks params = .ok (.atom (.float (.fin q))) := by
  obtain ⟨p, hp, hq⟩ := parserTest_spec ht
  unfold isFloatParser at hq
  split at hq
  swap
  · cases hq
  rename_i b lo hi
  obtain ⟨v, hv, hfin, -⟩ := final_value hu h hp he
  have hcf : Parser.checkFalse b u = false := by
    rw [← Bool.not_eq_true, checkFalse_iff]; rintro ⟨h, -⟩; simp [h] at hq
  simp only [Parser.parse, hcf, Bool.false_eq_true, if_false, hu'] at hv
  split at hv
  · cases hv
  · cases hv
    exact hfin ⟨rfl, by simp⟩

end Defaults

open Defaults in
/-- **C86.** The years of the configuration: with `time: start: a`, `end: b` and `dt: u` (the user's, or the defaults) the
first model year is `a`, a step takes `u` years, and the last model year is the first one not before `b` (for `a ≤ b`). -/
theorem C86_years (hu : user.WF) (S : Setup B uni F W user c params tree md entries) (hcm : NoCustom user gridNames)
    {a b : ℤ} {u : Val} {q : ℚ} (hs : Effective user [.str "time", .str "start"] (.atom (.int a)))
    (he : Effective user [.str "time", .str "end"] (.atom (.int b))) (hd : Effective user [.str "time", .str "dt"] u)
    (hq : pyFloat B u = .ok (.fin q)) :
    (paramsOf entries).beginyear = a ∧ (paramsOf entries).dt = q ∧
    (a ≤ b → (b : ℝ) ≤ (paramsOf entries).year (paramsOf entries).tf ∧
      ((paramsOf entries).tf ≠ 0 → (paramsOf entries).year ((paramsOf entries).tf - 1) < b)) := by
  obtain ⟨θ, regions, h1, -, h3, h4, h5, -⟩ := grid_params hu S hcm
  have hθ : θ = ⟨a, b, q⟩ := by
    have g1 := int_final hu S.config (by decide +kernel) hs
    have g2 := int_final hu S.config (by decide +kernel) he
    have g3 := float_final hu S.config (by decide +kernel) hq hd
    simp only [readTime, g1, g2, g3, Except.ok.injEq] at h1
    exact h1.symm
  have hr := dt_range hu S.config h1
  subst hθ
  refine ⟨by simpa using h3, h4, fun hab => ?_⟩
  have hpos : (0 : ℚ) < q := by have := hr.1; simp only at this; linarith
  have h6 := tf_eq (τ := ⟨a, b, q⟩)
  have h0 : 0 ≤ (TimeParams.tf ⟨a, b, q⟩) := by
    rw [h6]
    refine Int.ceil_nonneg (div_nonneg ?_ hpos.le)
    have : (a : ℚ) ≤ b := by exact_mod_cast hab
    simpa using this
  obtain ⟨n, hn⟩ := Int.eq_ofNat_of_zero_le h0
  have h5' : (paramsOf entries).tf = n := by rw [h5, hn]; rfl
  have hc : ⌈((b : ℚ) - a) / q⌉ = (n : ℤ) := by rw [← hn, h6]
  rw [Int.ceil_eq_iff] at hc
  constructor
  · have := hc.2
    rw [div_le_iff₀ hpos] at this
    rw [Params.year, h3, h4, h5']
    have : (b : ℝ) - a ≤ n * q := by exact_mod_cast this
    push_cast
    linarith
  · intro hn0
    have := hc.1
    rw [lt_div_iff₀ hpos] at this
    rw [Params.year, h3, h4, h5']
    rw [h5'] at hn0
    obtain ⟨m, rfl⟩ := Nat.exists_eq_succ_of_ne_zero hn0
    have : ((m + 1 : ℕ) - 1 : ℝ) * q < b - a := by exact_mod_cast this
    push_cast at this ⊢
    linarith

open Defaults in
/-- **C86.** Untouched, these are the years 2020, 2025, …, 2150. -/
theorem C86_default_years (hu : user.WF) (S : Setup B uni F W user c params tree md entries)
    (hcm : NoCustom user gridNames)
    (h : ∀ k ∈ ["start", "end", "dt"], getNested [.str "time", .str k] user = .error .keyError) :
    (paramsOf entries).beginyear = 2020 ∧ (paramsOf entries).dt = 5 ∧ (paramsOf entries).tf = 26 := by
  obtain ⟨u1, e1, q1⟩ := effective_default (user := user) (isInt 2020) (by decide +kernel) (h "start" (by simp))
  obtain ⟨u2, e2, q2⟩ := effective_default (user := user) (isInt 2150) (by decide +kernel) (h "end" (by simp))
  obtain ⟨u3, e3, q3⟩ := effective_default (user := user) (isNum 5) (by decide +kernel) (h "dt" (by simp))
  obtain rfl := isInt_eq q1
  obtain rfl := isInt_eq q2
  obtain ⟨h1, h2, h3⟩ := C86_years hu S hcm e1 e2 e3 (isNum_float q3)
  refine ⟨by rw [h1]; norm_num, by rw [h2]; norm_num, ?_⟩
  obtain ⟨h4, h5⟩ := h3 (by norm_num)
  rw [Params.year, h1, h2] at h4 h5
  push_cast at h4 h5
  have h6 : (26 : ℝ) ≤ (paramsOf entries).tf := by linarith
  have h7 : 26 ≤ (paramsOf entries).tf := by exact_mod_cast h6
  have h8 := h5 (by omega)
  have h9 : ((paramsOf entries).tf : ℝ) < 27 := by linarith
  have h10 : (paramsOf entries).tf < 27 := by exact_mod_cast h9
  omega

namespace Defaults

/-- `{name1: null, name2: null, …}` -/
def bare (names : List String) : Val := .dict (names.map fun n => (.str n, .atom .null))

def isRegionsParser : Parser → Bool
  | .dict b (.str bk) (.dict bv _ _) => !b.canBeFalse && !bk.canBeFalse && !bv.canBeFalse
  | _ => false

theorem parse_bare {fk fv : Val → Except Err Val} (hk : ∀ n, fk (.atom (.str n)) = .ok (.atom (.str n)))
    (hv : fv (.atom .null) = .ok (.dict [])) : (names : List String) → (acc : List (Key × Val)) →
    (Dict.keys acc ++ names.map Key.str).Nodup →
    Parser.parseDict fk fv acc (names.map fun n => (Key.str n, (.atom .null : Val))) =
      .ok (acc ++ names.map fun n => (Key.str n, .dict []))
  | [], acc, _ => by simp [Parser.parseDict]
  | n :: names, acc, h => by
    have hn : Key.str n ∉ Dict.keys acc := fun hm => by
      rw [List.nodup_append] at h
      exact h.2.2 _ hm _ (by simp) rfl
    simp only [List.map_cons, Parser.parseDict, Parser.keyVal, hk, hv, Parser.valKey]
    rw [Dict.insert_of_notMem hn, parse_bare hk hv names _ (by simpa [Dict.keys] using h)]
    simp

def isBare (names : List String) : Val → Bool
  | .dict d => decide (d.map (·.1) = names.map Key.str) && d.all fun e => match e.2 with
    | .atom .null => true
    | _ => false
  | _ => false

theorem isBare_eq {names : List String} {u : Val} (h : isBare names u = true) : u = bare names := by
  unfold isBare at h
  split at h
  · rename_i d
    simp only [Bool.and_eq_true, decide_eq_true_eq, List.all_eq_true] at h
    obtain ⟨h1, h2⟩ := h
    rw [bare]
    congr 1
    induction d generalizing names with
    | nil => cases names with
      | nil => rfl
      | cons n l => simp at h1
    | cons e d ih => cases names with
      | nil => simp at h1
      | cons n l =>
        simp only [List.map_cons, List.cons.injEq] at h1 ⊢
        refine ⟨?_, ih h1.2 fun e he => h2 e (by simp [he])⟩
        have := h2 e (by simp)
        obtain ⟨k, v⟩ := e
        simp only at h1 this ⊢
        rw [h1.1]
        split at this
        · rfl
        · cases this
  · cases h

end Defaults

/-- The 26 regions of the IMAGE model. -/
def Spec.imageRegions : List String :=
  ["CAN", "USA", "MEX", "RCAM", "BRA", "RSAM", "NAF", "WAF", "EAF", "SAF", "WEU", "CEU", "TUR", "UKR", "STAN", "RUS", "ME",
   "INDIA", "KOR", "CHN", "SEAS", "INDO", "JAP", "OCE", "RSAS", "RSAF"]

open Defaults in
/-- **C86.** The regions named in the configuration are the regions of the model, in the same order. -/
theorem C86_regions (hu : user.WF) (S : Setup B uni F W user c params tree md entries) (hcm : NoCustom user gridNames)
    {names : List String} (hn : names.Nodup)
    (he : Effective user [.str "regions"] (.dict (names.map fun n => (.str n, .atom .null)))) :
    (paramsOf entries).regions = names := by
  obtain ⟨θ, regions, -, h2, -, -, -, h6⟩ := grid_params hu S hcm
  obtain ⟨p, hp, hq⟩ := parserTest_spec (ks := [.str "regions"]) (q := isRegionsParser) (by decide +kernel)
  unfold isRegionsParser at hq
  split at hq
  swap
  · cases hq
  rename_i b bk bv k v
  simp only [Bool.and_eq_true, Bool.not_eq_true'] at hq
  have cf : ∀ {b : ParserBase} {u : Val}, b.canBeFalse = false → Parser.checkFalse b u = false := fun hb => by
    rw [← Bool.not_eq_true, checkFalse_iff]; simp [hb]
  obtain ⟨w, hw, hfin⟩ := final_section hu S.config hp he
  simp only [Parser.parse, cf hq.1.1, Bool.false_eq_true, if_false] at hw
  rw [parse_bare (fun n => by simp [cf hq.1.2, pyStr]) (by simp [cf hq.2]) names []
    (by simpa [Dict.keys] using hn.map fun a b h => by simpa using h)] at hw
  simp only [List.nil_append, Except.ok.injEq] at hw
  subst hw
  have := hfin (noBraces_dict fun e hm => by
    obtain ⟨n, -, rfl⟩ := List.mem_map.1 hm
    exact noBraces_dict fun e he => by cases he)
  simp only [regionNames, this, Except.ok.injEq] at h2
  rw [h6, ← h2, List.filterMap_map]
  clear * -
  induction names with
  | nil => rfl
  | cons n l ih => simp only [List.filterMap_cons, Function.comp]; rw [← ih]; simp

open Defaults in
/-- **C86.** Untouched, they are the 26 regions of IMAGE. -/
theorem C86_default_regions (hu : user.WF) (S : Setup B uni F W user c params tree md entries)
    (hcm : NoCustom user gridNames) (h : getNested [.str "regions"] user = .error .keyError) :
    (paramsOf entries).regions = Spec.imageRegions := by
  obtain ⟨u, he, hq⟩ := effective_default (user := user) (isBare Spec.imageRegions) (by decide +kernel) h
  obtain rfl := isBare_eq hq
  exact C86_regions hu S hcm (by decide +kernel) he

/-! ## Quantities with units -/

/-- Pint reads the text as this number of the unit. -/
def Spec.PintReads (P : Pint) (text unit : String) (q : ℚ) : Prop := P.conv text.toList unit.toList = .ok (.fin q)

/-- The documented quantities, as Pint reads them. -/
structure Spec.DefaultQuantities (user : Val) (P : Pint) (p : Params) : Prop where
  initial_temperature : ∀ q, Spec.Untouched user ["temperature", "initial"] "T0" →
    Spec.PintReads P "1.16 delta_degC" "(delta_degC)" q → p.T0 = q
  TCRE : ∀ q, Spec.Untouched user ["temperature", "TCRE"] "TCRE" →
    Spec.PintReads P "0.62 delta_degC/(TtCO2)" "((delta_degC))/((GtCO2))" q → p.TCRE = q
  global_min : ∀ q, Spec.Untouched user ["emissions", "global min level"] "global_min_level" →
    Spec.PintReads P "-20 GtCO2/yr" "((GtCO2)/yr)" q → p.global_min_level = some (q : ℝ)
  regional_min : ∀ q, Spec.Untouched user ["emissions", "regional min level"] "regional_min_level" →
    Spec.PintReads P "-10 GtCO2/yr" "((GtCO2)/yr)" q → p.regional_min_level = some (q : ℝ)
  cost_level : ∀ q, Spec.Untouched user ["economics", "MAC", "gamma"] "MAC_gamma" →
    Spec.PintReads P "2601 USD2005/tCO2" "(trillion USD2005/yr)/((GtCO2)/yr)" q → p.MAC_gamma = q
  learning_scale : ∀ q, Spec.Untouched user ["economics", "MAC", "LBD_scaling"] "LBD_scaling" →
    Spec.PintReads P "40 GtCO2" "(GtCO2)" q → p.LBD_scaling = q

namespace Defaults

theorem mitigation_mem {d : ParamDecl} (h : d ∈ (Mitigation.component md.trade).params) : d ∈ allParams md :=
  List.mem_append_right _ (List.mem_flatMap.2 ⟨Mitigation.component md.trade, by simp [components], h⟩)

theorem quantity (hu : user.WF) (S : Setup B uni F W user c params tree md entries) {ks : List String}
    (hne : ks ≠ []) (hpl : ∀ k ∈ ks, PlainKey k) {unit text target : String}
    (ht : parserTest (ks.map Key.str) (isQuantity' unit) = true) {d : ParamDecl} (hd : d ∈ allParams md)
    (hdoc : DocIs B params d ("::".toList ++ dotted ks)) (hgrid : d.name ∉ gridNames) (hcomb : d.name ∉ combinedNames)
    (hdef : defTest (ks.map Key.str) (isText text) = true) (hoff : text ≠ "False" ∧ text ≠ "false" ∧ text ≠ "no")
    (hb : '{' ∉ text.toList) (hr : customReplace text.toList = text.toList)
    (hunit : targetUnit unit.toList = target.toList) (h : Spec.Untouched user ks d.name) {q : ℚ}
    (hp : Spec.PintReads W.pint text target q) : scalarOf entries d.name = some (.atom (.float (.fin q))) := by
  obtain ⟨u, he, hq⟩ := effective_default (user := user) _ hdef h.unset
  obtain rfl := isText_eq hq
  obtain ⟨x, hx, hs⟩ := quantity_value hu S hne hpl ht hd hdoc hgrid hcomb h.custom he ⟨rfl, by simpa using hb⟩
    (by simp [WrittenFalse, hoff])
  rw [show (pyStr B (.atom (.str text))) = text from rfl, hr, hunit] at hx
  rw [hp.symm.trans hx |> Except.ok.inj]
  exact hs

end Defaults

open Defaults in
/-- **C86.** … and every quantity, converted by Pint to the model's units. -/
theorem C86_quantities (hu : user.WF) (S : Setup B uni F W user c params tree md entries) :
    Spec.DefaultQuantities user W.pint (paramsOf entries) := by
  constructor
  · intro q h hp
    have := quantity (ks := ["temperature", "initial"]) hu S (by simp) (by unfold PlainKey; decide)
      (unit := "temperature_unit") (by decide +kernel) (d := ⟨"T0", .scalar, .str "::temperature.initial"⟩)
      (emissions_mem (by simp [Emissions.component])) (by simp only [DocIs]; decide) (by decide) (by decide)
      (by decide +kernel) (by decide) (by decide) (by decide +kernel) (by decide +kernel) h hp
    simp [paramsOf, numOf, this, Val.num]
  · intro q h hp
    have := quantity (ks := ["temperature", "TCRE"]) hu S (by simp) (by unfold PlainKey; decide)
      (unit := "(temperature_unit)/(emissions_unit)") (by decide +kernel)
      (d := ⟨"TCRE", .scalar, .str "::temperature.TCRE"⟩)
      (emissions_mem (by simp [Emissions.component])) (by simp only [DocIs]; decide) (by decide) (by decide)
      (by decide +kernel) (by decide) (by decide) (by decide +kernel) (by decide +kernel) h hp
    simp [paramsOf, numOf, this, Val.num]
  · intro q h hp
    have := quantity (ks := ["emissions", "global min level"]) hu S (by simp) (by unfold PlainKey; decide)
      (unit := "emissionsrate_unit") (by decide +kernel)
      (d := ⟨"global_min_level", .scalar, .str "::emissions.global min level"⟩)
      (emissions_mem (by simp [Emissions.component])) (by simp only [DocIs]; decide) (by decide) (by decide)
      (by decide +kernel) (by decide) (by decide) (by decide +kernel) (by decide +kernel) h hp
    simp [paramsOf, optOf, this, Val.num]
  · intro q h hp
    have := quantity (ks := ["emissions", "regional min level"]) hu S (by simp) (by unfold PlainKey; decide)
      (unit := "emissionsrate_unit") (by decide +kernel)
      (d := ⟨"regional_min_level", .scalar, .str "::emissions.regional min level"⟩)
      (emissions_mem (by simp [Emissions.component])) (by simp only [DocIs]; decide) (by decide) (by decide)
      (by decide +kernel) (by decide) (by decide) (by decide +kernel) (by decide +kernel) h hp
    simp [paramsOf, optOf, this, Val.num]
  · intro q h hp
    have := quantity (ks := ["economics", "MAC", "gamma"]) hu S (by simp) (by unfold PlainKey; decide)
      (unit := "currency_unit/emissionsrate_unit") (by decide +kernel)
      (d := ⟨"MAC_gamma", .scalar, .str "::economics.MAC.gamma"⟩)
      (mitigation_mem (by simp [Mitigation.component])) (by simp only [DocIs]; decide) (by decide) (by decide)
      (by decide +kernel) (by decide) (by decide) (by decide +kernel) (by decide +kernel) h hp
    simp [paramsOf, numOf, this, Val.num]
  · intro q h hp
    have := quantity (ks := ["economics", "MAC", "LBD_scaling"]) hu S (by simp) (by unfold PlainKey; decide)
      (unit := "emissions_unit") (by decide +kernel)
      (d := ⟨"LBD_scaling", .scalar, .str "::economics.MAC.LBD_scaling"⟩)
      (mitigation_mem (by simp [Mitigation.component])) (by simp only [DocIs]; decide) (by decide) (by decide)
      (by decide +kernel) (by decide) (by decide) (by decide +kernel) (by decide +kernel) h hp
    simp [paramsOf, numOf, this, Val.num]

/-! ## What follows for a run -/

/-- The user leaves the economy alone: preferences, production, abatement costs and learning. -/
structure Spec.EconomyUntouched (user : Val) : Prop where
  elasmu : Spec.Untouched user ["economics", "elasmu"] "elasmu"
  inequality : Spec.Untouched user ["economics", "inequal_aversion"] "inequal_aversion"
  capital_share : Spec.Untouched user ["economics", "GDP", "alpha"] "alpha"
  depreciation : Spec.Untouched user ["economics", "GDP", "depreciation of capital"] "dk"
  savings : Spec.Untouched user ["economics", "GDP", "savings rate"] "sr"
  exponent : Spec.Untouched user ["economics", "MAC", "beta"] "MAC_beta"
  cost_level : Spec.Untouched user ["economics", "MAC", "gamma"] "MAC_gamma"
  learning_by_doing : Spec.Untouched user ["economics", "MAC", "LBD_rate"] "LBD_rate"
  learning_scale : Spec.Untouched user ["economics", "MAC", "LBD_scaling"] "LBD_scaling"
  learning_over_time : Spec.Untouched user ["economics", "MAC", "LOT_rate"] "LOT_rate"

/-- Data with people, production and emissions in every region. -/
structure Spec.PositiveData (p : Params) : Prop where
  regions : p.regions ≠ []
  population : ∀ t ≤ p.tf, ∀ r ∈ p.regions, 0 < p.population t r
  gdp : ∀ t ≤ p.tf, ∀ r ∈ p.regions, 0 < p.baseline_GDP t r
  emissions : 0 < (p.regions.map fun s => p.baseline_emissions 0 s).sum
  cumulative : ∀ t < p.tf, p.cumulative_global_baseline_emissions (t + 1) ≠ 0
  capital : ∀ r ∈ p.regions, 0 < p.init_capitalstock_factor r

/-- Pint knows the units of the default configuration. -/
structure Spec.PintKnowsDefaults (P : Pint) : Prop where
  initial_temperature : Spec.PintReads P "1.16 delta_degC" "(delta_degC)" 1.16
  TCRE : Spec.PintReads P "0.62 delta_degC/(TtCO2)" "((delta_degC))/((GtCO2))" 0.00062
  cost_level : Spec.PintReads P "2601 USD2005/tCO2" "(trillion USD2005/yr)/((GtCO2)/yr)" 2.601
  learning_scale : Spec.PintReads P "40 GtCO2" "(GtCO2)" 40

namespace Defaults

theorem inequal_undeclared (hw : md.welfare ≠ .inequal_aversion_general) :
    "inequal_aversion" ∉ (allParams md).map (·.name) := by
  obtain ⟨d, t, f, w, o⟩ := md
  cases w
  case inequal_aversion_general => exact absurd rfl hw
  all_goals cases d <;> cases t <;> cases f <;> cases o <;> decide +kernel

theorem inequal_zero (hu : user.WF) (S : Setup B uni F W user c params tree md entries)
    (hcm : NoCustom user ["inequal_aversion"]) (hw : md.welfare ≠ .inequal_aversion_general) :
    (paramsOf entries).inequal_aversion = 0 := by
  have hi : instanceValue "inequal_aversion" entries = none := by
    unfold instanceValue
    split
    swap
    · rfl
    · rename_i e he
      exfalso
      have h1 := List.find?_some he
      have h2 := List.mem_reverse.1 (List.mem_of_find?_eq_some he)
      simp only [decide_eq_true_eq] at h1
      rcases C18_nothing_undeclared hu S (name := e.1) (v := e.2) h2 with h | h | h | ⟨w, h⟩ <;> rw [h1] at h
      · exact inequal_undeclared hw h
      · exact absurd h (by decide)
      · exact absurd h (by decide)
      · exact hcm.key hu S.config (by simp) w h
  simp [paramsOf, numOf, scalarOf, hi]

end Defaults

open Defaults in
/-- **C86.** With the economy of the default configuration, every run on data with people, production and emissions is one
of those that the other properties speak of. -/
theorem C86_admissible (hu : user.WF) (S : Setup B uni F W user c params tree md entries)
    (hd : Spec.EconomyUntouched user) (hP : Spec.PintKnowsDefaults W.pint) (hcm : NoCustom user gridNames)
    (hdata : Spec.PositiveData (paramsOf entries)) : (paramsOf entries).Admissible := by
  have N := C86_numbers hu S
  have Q := C86_quantities hu S
  obtain ⟨θ, regions, h1, -, -, h4, -, -⟩ := grid_params hu S hcm
  have hdt := dt_range hu S.config h1
  refine ⟨hdata.regions, ?_, hdata.population, hdata.gdp, hdata.emissions, hdata.cumulative, ?_, ?_, ?_, ?_, ?_, ?_, ?_,
    ?_, ?_, hdata.capital, ?_, ?_⟩
  · rw [h4]; have : (0 : ℚ) < θ.dt := by linarith [hdt.1]
    exact_mod_cast this
  · rw [N.learning_by_doing hd.learning_by_doing]; norm_num
  · rw [Q.learning_scale _ hd.learning_scale hP.learning_scale]; norm_num
  · rw [N.learning_over_time hd.learning_over_time]; norm_num
  · rw [N.exponent hd.exponent]; norm_num
  · rw [N.capital_share hd.capital_share]; norm_num
  · rw [N.capital_share hd.capital_share]; norm_num
  · rw [N.depreciation hd.depreciation]; norm_num
  · rw [N.depreciation hd.depreciation]; norm_num
  · rw [N.savings hd.savings]; norm_num
  · rw [N.elasmu hd.elasmu]; norm_num
  · by_cases hw : md.welfare = .inequal_aversion_general
    · rw [N.inequality hw hd.inequality]; norm_num
    · rw [inequal_zero hu S hd.inequality.custom hw]; norm_num

/-- A configured cost-effectiveness run: the user switches damages and the carbon intensity off, leaves the economy, the
climate, effort sharing and the modules for trade, transfers and welfare alone, starts before 2100, and may set anything
else (targets, budgets, inertia, minimum levels, scenario, regions, objective, …). -/
structure Spec.CostEffectivenessRun (user : Val) : Prop where
  economy : Spec.EconomyUntouched user
  damages : getNested [.str "model", .str "damage module"] user = .ok (.atom (.str "nodamage"))
  trade : getNested [.str "model", .str "emissiontrade module"] user = .error .keyError
  transfer : getNested [.str "model", .str "financialtransfer module"] user = .error .keyError
  carbon_intensity : getNested [.str "emissions", .str "baseline carbon intensity"] user = .ok (.atom (.bool false))
  carbon_intensity_plain : NoCustom user ["use_carbon_intensity_for_baseline"]
  trapezoids : Spec.Untouched user ["emissions", "cumulative_emissions_trapz"] "cumulative_emissions_trapz"
  regime : Spec.Untouched user ["effort sharing", "regime"] "effort_sharing_regime"
  cost_floor : Spec.Untouched user ["economics", "MAC", "rel_mitigation_costs_min_level"] "rel_mitigation_costs_min_level"
  reversible : Spec.Untouched user ["economics", "damages", "percentage reversible"] "perc_reversible_damages"
  initial_temperature : Spec.Untouched user ["temperature", "initial"] "T0"
  TCRE : Spec.Untouched user ["temperature", "TCRE"] "TCRE"
  grid : NoCustom user gridNames

/-- **C86.** Such a run is a cost-effectiveness setting in the sense of C84, if the data have baseline emissions that are
not negative and positive cost factors, and the warming of the baseline stays below 10 degrees. -/
theorem C86_setting (hu : user.WF) (S : Setup B uni F W user c params tree md entries)
    (hr : Spec.CostEffectivenessRun user) (hP : Spec.PintKnowsDefaults W.pint)
    (hb : ∀ t ≤ (paramsOf entries).tf, ∀ r ∈ (paramsOf entries).regions, 0 ≤ (paramsOf entries).baseline_emissions t r)
    (hk : ∀ r ∈ (paramsOf entries).regions, 0 < (paramsOf entries).MAC_scaling_factor r)
    (hw : ∀ t ≤ (paramsOf entries).tf, Spec.pathTemperature (paramsOf entries) (fun _ _ => 0) t ≤ 10) :
    Spec.ConvexSetting md (paramsOf entries) := by
  have N := C86_numbers hu S
  have Q := C86_quantities hu S
  have L := C86_limits hu S
  have D := C67_defaults hu S
  obtain ⟨θ, regions, h1, -, h3, h4, -, -⟩ := grid_params hu S hr.grid
  have hdt := dt_range hu S.config h1
  have hdt' : 0 < (paramsOf entries).dt ∧ (paramsOf entries).dt ≤ 20 := by
    rw [h4]
    have : (0 : ℚ) < θ.dt := by linarith [hdt.1]
    exact ⟨by exact_mod_cast this, by exact_mod_cast hdt.2⟩
  have hs : (1900 ≤ θ.start ∧ θ.start ≤ 2100) := by
    unfold readTime at h1
    split at h1
    · rename_i a b q g1 g2 g3
      cases h1
      exact int_range (lo := 1900) (up := 2100) hu S.config (by decide +kernel) g1
    all_goals cases h1
  have hbeta := N.exponent hr.economy.exponent
  have hrate := N.learning_by_doing hr.economy.learning_by_doing
  refine ⟨⟨⟨D.2.2.1 hr.transfer, L.regime hr.regime, (N.cost_floor hr.cost_floor).le, (N.reversible hr.reversible).ge, ?_,
    hb⟩, D.2.1 hr.trade⟩, ?_, ?_, ⟨?_, ?_, hk, ?_⟩, ?_, ?_, ?_, (C86_switches hu S).trapezoids hr.trapezoids, ?_, ?_, ?_⟩
  · rw [h3]; exact_mod_cast hs.2
  · have := (C67_written hu S (v := .atom (.str "nodamage"))).1 hr.damages
    revert this
    cases md.damage <;> simp [Spec.damageName]
  · rcases C56_switch hu S (s := ⟨"use_carbon_intensity_for_baseline", ["emissions", "baseline carbon intensity"],
      "::emissions.baseline carbon intensity", (·.use_carbon_intensity_for_baseline)⟩) (by simp [switches])
      hr.carbon_intensity_plain (.inl hr.carbon_intensity) with ⟨h, -⟩ | ⟨-, h⟩
    · simp [WrittenTrue] at h
    · exact h
  · rw [Q.cost_level _ hr.economy.cost_level hP.cost_level]; norm_num
  · rw [hbeta]; norm_num
  · rw [N.learning_over_time hr.economy.learning_over_time]; norm_num
  · rw [hbeta]; norm_num
  · rw [hrate]; norm_num
  · rw [hbeta, hrate, show (-((3 - 1) / 2) : ℝ) = -1 by norm_num, Real.rpow_neg_one]; norm_num
  · rw [Q.initial_temperature _ hr.initial_temperature hP.initial_temperature]; norm_num
  · rw [Q.TCRE _ hr.TCRE hP.TCRE]; norm_num
  · intro t ht
    have := hw t ht
    constructor <;> nlinarith [hdt'.1, hdt'.2]

/-- **C86.** Hence the run has at most one optimal policy: whatever the targets, two optima abate the same everywhere.
(`Spec.Prosperous`: no region is very poor.) -/
theorem C86_one_optimum (hu : user.WF) (S : Setup B uni F W user c params tree md entries)
    (hr : Spec.CostEffectivenessRun user) (hP : Spec.PintKnowsDefaults W.pint)
    (hdata : Spec.PositiveData (paramsOf entries))
    (hb : ∀ t ≤ (paramsOf entries).tf, ∀ r ∈ (paramsOf entries).regions, 0 < (paramsOf entries).baseline_emissions t r)
    (hk : ∀ r ∈ (paramsOf entries).regions, 0 < (paramsOf entries).MAC_scaling_factor r)
    (hw : ∀ t ≤ (paramsOf entries).tf, Spec.pathTemperature (paramsOf entries) (fun _ _ => 0) t ≤ 10)
    (h : Optimal md (paramsOf entries) σ) (h' : Optimal md (paramsOf entries) τ)
    (hp : Spec.Prosperous (paramsOf entries) σ) (hp' : Spec.Prosperous (paramsOf entries) τ)
    {t : ℕ} (ht : t ≤ (paramsOf entries).tf) {r : String} (hrr : r ∈ (paramsOf entries).regions) :
    σ.R .relative_abatement t r = τ.R .relative_abatement t r := by
  have N := C86_numbers hu S
  have hd := hr.economy
  have cw : Spec.ConcaveWelfare md (paramsOf entries) := by
    refine ⟨?_, ?_, fun hw => ⟨?_, ?_, ?_⟩⟩
    · rw [N.capital_share hd.capital_share]; norm_num
    · rw [N.elasmu hd.elasmu]; norm_num
    · rw [N.inequality hw hd.inequality]; norm_num
    · rw [N.inequality hw hd.inequality]; norm_num
    · rw [N.elasmu hd.elasmu]; norm_num
  exact C84_unique (C86_admissible hu S hd hP hr.grid hdata)
    (C86_setting hu S hr hP (fun t ht r hr => (hb t ht r hr).le) hk hw)
    (by rw [N.savings hd.savings]; norm_num) h h' (fun _ => ⟨cw, hp⟩) (fun _ => ⟨cw, hp'⟩) ht hrr (hb t ht r hrr)

/-! ## A concrete case: a budget of 600 GtCO2 without damages, everything else untouched -/

namespace Ex

/-- One region; no damages, exogenous baseline, a budget; time and economy are untouched. -/
def quietUser : Val := exDict
  [("model", exDict [("damage module", exStr "nodamage")]),
   ("emissions", exDict [("baseline carbon intensity", .atom (.bool false)), ("carbonbudget", exStr "600 GtCO2")]),
   ("regions", exDict [("USA", .atom .null)]),
   ("regionsmappings", .list []),
   ("regional_parameter_files", exDict
     [("economics", exDict [("filename", exStr "eco.csv"), ("regionstype", exStr "IMAGE26")]),
      ("MAC", exDict [("filename", exStr "mac.csv"), ("regionstype", exStr "IMAGE26")]),
      ("COACCH", exDict [("filename", exStr "coacch.csv"), ("regionstype", exStr "IMAGE26")]),
      ("mortality", exDict [("filename", exStr "mort.csv"), ("regionstype", exStr "IMAGE26")])])]

/-- Pint, on the texts of this run. -/
def quietPint : Pint where
  conv s _ := .ok (.fin (if s = "600 GtCO2".toList then 600 else if s = "1.16 delta_degC".toList then 1.16
    else if s = "0.62 delta_degC/(TtCO2)".toList then 0.00062 else if s = "2601 USD2005/tCO2".toList then 2.601
    else if s = "40 GtCO2".toList then 40 else -10))
  convNum x _ _ := .ok x

def quietFiles : RegionalFiles where
  params _ := some ⟨exampleColumns, [("USA", fun col => if col = "NoSLR_form" ∨ col = "SLR-Ad_form" then .text "Linear"
    else if col = "kappa_rel_abatement_0.75_2050" then .num (1 / 1000) else .num 4)]⟩
  conversions _ := none

def quietRow (var : String) : DataRow := ⟨"IMAGE", "SSP2-Ref-SPA0-V17", "USA", var, "unit", [10, 10]⟩

def quietWorld : DataWorld where
  files _ := some ⟨[2020, 2100], ["GDP|PPP", "Emissions|CO2", "Population"].map quietRow⟩
  cubic _ _ := .ok 10
  pint := quietPint

/-- The series is constant. -/
def quietSeries (I : List (String × IData)) (name : String) : Bool :=
  match instanceValue name I with
  | some (.timeRegional l) => (List.range 27).all fun t => match l.find? fun e => decide (e.1 = (t, "USA")) with
    | some e => decide (e.2 = 10)
    | none => false
  | _ => false

def quietRegional (I : List (String × IData)) (name : String) (x : ℚ) : Bool :=
  match regionItem I name "USA" with
  | some (.atom (.float (.fin q))) => decide (q = x)
  | some (.atom (.int i)) => decide ((i : ℚ) = x)
  | _ => false

theorem quietSeries_spec {I : List (String × IData)} {name : String} (h : quietSeries I name = true) {t : ℕ} (ht : t ≤ 26) :
    seriesNum I name t "USA" = 10 := by
  unfold quietSeries at h
  unfold seriesNum
  split at h
  · rename_i l hl
    rw [hl]
    have := List.all_eq_true.1 h t (List.mem_range.2 (by omega))
    dsimp only at this ⊢
    split at this
    · rename_i e he
      rw [he]
      simp only [decide_eq_true_eq] at this
      show ((e.2 : ℚ) : ℝ) = 10
      rw [this]; norm_num
    · cases this
  · cases h

theorem quietRegional_spec {I : List (String × IData)} {name : String} {x : ℚ} (h : quietRegional I name x = true) :
    regionNum I name "USA" = x := by
  unfold quietRegional at h
  unfold regionNum
  split at h
  · rename_i q hq
    rw [hq]
    simp only [decide_eq_true_eq] at h
    simp [Val.num, h]
  · rename_i q hq
    rw [hq]
    simp only [decide_eq_true_eq] at h
    simp [Val.num, ← h]
  · cases h

theorem quietSetup : ∃ params tree md entries, Setup exampleBuiltins (fun _ => false) quietFiles quietWorld
    quietUser (afterHistory quietWorld []) params tree md entries ∧
    (∀ n ∈ ["population", "baseline_GDP", "baseline_emissions"], quietSeries entries n = true) ∧
    quietRegional entries "MAC_scaling_factor" (1 / 1000) = true ∧
    quietRegional entries "init_capitalstock_factor" 4 = true ∧
    instanceValue "damage_scale_factor" entries = none := by
  have key : (match mimosaParams exampleBuiltins (fun _ => false) DefaultYaml.entries quietUser with
      | .error _ => false
      | .ok (params, tree) => match readModules params with
        | .error _ => false
        | .ok md => match instantiate exampleBuiltins quietFiles quietWorld (allParams md) params tree
            (afterHistory quietWorld []) with
          | .error _ => false
          | .ok entries => (["population", "baseline_GDP", "baseline_emissions"].all fun n => quietSeries entries n) &&
              quietRegional entries "MAC_scaling_factor" (1 / 1000) &&
              quietRegional entries "init_capitalstock_factor" 4 &&
              (instanceValue "damage_scale_factor" entries).isNone) = true := by
    decide +kernel
  split at key
  · cases key
  rename_i params tree h1
  split at key
  · cases key
  rename_i md h2
  split at key
  · cases key
  rename_i entries h3
  simp only [Bool.and_eq_true, List.all_eq_true] at key
  exact ⟨params, tree, md, entries, ⟨h1, h2, h3⟩, key.1.1.1, key.1.1.2, key.1.2, Option.isNone_iff_eq_none.1 key.2⟩

theorem quietUser_wf : quietUser.WF := by
  simp [quietUser, exDict, exStr, Py.WF, Py.WFDict, Py.WFList, Dict.keys]

theorem quiet_noCustom (names : List String) : NoCustom quietUser names := by
  intro n _ v h
  have : getNested [.str "simulation", .str "custom_mapping", .str n] quietUser = .error .keyError := rfl
  rw [this] at h
  cases h

theorem quiet_run : Spec.CostEffectivenessRun quietUser :=
  ⟨⟨⟨rfl, quiet_noCustom _⟩, ⟨rfl, quiet_noCustom _⟩, ⟨rfl, quiet_noCustom _⟩, ⟨rfl, quiet_noCustom _⟩,
    ⟨rfl, quiet_noCustom _⟩, ⟨rfl, quiet_noCustom _⟩, ⟨rfl, quiet_noCustom _⟩, ⟨rfl, quiet_noCustom _⟩,
    ⟨rfl, quiet_noCustom _⟩, ⟨rfl, quiet_noCustom _⟩⟩, rfl, rfl, rfl, rfl, quiet_noCustom _, ⟨rfl, quiet_noCustom _⟩,
    ⟨rfl, quiet_noCustom _⟩, ⟨rfl, quiet_noCustom _⟩, ⟨rfl, quiet_noCustom _⟩, ⟨rfl, quiet_noCustom _⟩,
    ⟨rfl, quiet_noCustom _⟩, quiet_noCustom _⟩

theorem quiet_pint : Spec.PintKnowsDefaults quietWorld.pint := by
  constructor <;> (unfold Spec.PintReads quietWorld quietPint; dsimp only; decide +kernel)

end Ex

end Mimosa
