import Verif.Props.EndToEnd

/-!
# C55, C56: the settings of the configuration are the ones the model uses
-/

namespace Mimosa

variable {B : Builtins} {uni : Char → Bool} {F : RegionalFiles} {W : DataWorld} {user params : Val} {c : DataCache}
  {tree : Py Parser} {md : Modules} {entries : List (String × IData)} {σ : Env}

/-- A numerical setting: its name in the model, its path in the configuration (also in the form of the doc string),
its range and the model parameter. -/
structure FloatSetting where
  name : String
  path : List String
  doc : String
  lo : PyFloat
  hi : PyFloat
  field : Params → ℝ

/-- The numerical settings of MIMOSA. -/
noncomputable def floatSettings : List FloatSetting :=
  [⟨"PRTP", ["economics", "PRTP"], "::economics.PRTP", .fin 0, .fin (1 / 5), (·.PRTP)⟩,
   ⟨"elasmu", ["economics", "elasmu"], "::economics.elasmu", .fin (1 / 10), .fin 10, (·.elasmu)⟩,
   ⟨"inequal_aversion", ["economics", "inequal_aversion"], "::economics.inequal_aversion", .fin 0, .fin 3,
    (·.inequal_aversion)⟩,
   ⟨"alpha", ["economics", "GDP", "alpha"], "::economics.GDP.alpha", .fin 0, .fin 1, (·.alpha)⟩,
   ⟨"dk", ["economics", "GDP", "depreciation of capital"], "::economics.GDP.depreciation of capital", .fin 0, .inf, (·.dk)⟩,
   ⟨"sr", ["economics", "GDP", "savings rate"], "::economics.GDP.savings rate", .fin 0, .fin 1, (·.sr)⟩,
   ⟨"MAC_beta", ["economics", "MAC", "beta"], "::economics.MAC.beta", .fin (1 / 100), .fin 10, (·.MAC_beta)⟩,
   ⟨"LBD_rate", ["economics", "MAC", "LBD_rate"], "::economics.MAC.LBD_rate", .fin (1 / 10), .fin 1, (·.LBD_rate)⟩,
   ⟨"LOT_rate", ["economics", "MAC", "LOT_rate"], "::economics.MAC.LOT_rate", .fin 0, .inf, (·.LOT_rate)⟩,
   ⟨"rel_mitigation_costs_min_level", ["economics", "MAC", "rel_mitigation_costs_min_level"],
    "::economics.MAC.rel_mitigation_costs_min_level", .fin (-2), .fin 0, (·.rel_mitigation_costs_min_level)⟩,
   ⟨"perc_reversible_damages", ["economics", "damages", "percentage reversible"],
    "::economics.damages.percentage reversible", .fin 0, .fin 1, (·.perc_reversible_damages)⟩,
   ⟨"damage_scale_factor", ["economics", "damages", "scale factor"], "::economics.damages.scale factor", .ninf, .inf,
    (·.damage_scale_factor)⟩]

def FloatSetting.decl (s : FloatSetting) : ParamDecl := ⟨s.name, .scalar, .str s.doc⟩

def isFloat (lo hi : PyFloat) : Parser → Bool
  | .float b lo' hi' => !b.canBeFalse && decide (lo' = lo) && decide (hi' = hi)
  | _ => false

def settingOk (s : FloatSetting) : Bool :=
  decide (s.doc.toList = "::".toList ++ dotted s.path) && decide (s.path ≠ []) &&
  decide (∀ k ∈ s.path, '.' ∉ k.toList ∧ ':' ∉ k.toList) && decide (s.name ∉ gridNames) &&
  decide (s.name ∉ combinedNames) && parserTest (s.path.map Key.str) (isFloat s.lo s.hi)

theorem floatSettings_ok : floatSettings.all settingOk = true := by decide +kernel

/-- The table is right about which parameter is which. -/
theorem floatSettings_field {s : FloatSetting} (hs : s ∈ floatSettings) (I : List (String × IData)) :
    s.field (paramsOf I) = numOf I s.name := by
  simp only [floatSettings, List.mem_cons, List.not_mem_nil, or_false] at hs
  rcases hs with rfl | rfl | rfl | rfl | rfl | rfl | rfl | rfl | rfl | rfl | rfl | rfl <;> rfl

/-- All of them are parameters of every model, except the scale factor (COACCH damages only) and the inequality
aversion (only with that welfare module). -/
theorem floatSettings_declared {s : FloatSetting} (hs : s ∈ floatSettings)
    (h1 : s.name = "damage_scale_factor" → md.damage = .COACCH)
    (h2 : s.name = "inequal_aversion" → md.welfare = .inequal_aversion_general) : s.decl ∈ allParams md := by
  have hm : ∀ comp ∈ components md, s.decl ∈ comp.params → s.decl ∈ allParams md := fun comp hc hp =>
    List.mem_append_right _ (List.mem_flatMap.2 ⟨comp, hc, hp⟩)
  obtain ⟨d, t, f, w, o⟩ := md
  simp only [floatSettings, List.mem_cons, List.not_mem_nil, or_false] at hs
  rcases hs with rfl | rfl | rfl | rfl | rfl | rfl | rfl | rfl | rfl | rfl | rfl | rfl
  · refine hm (Objective.component o) (by simp [components]) ?_
    cases o <;> simp [Objective.component, FloatSetting.decl]
  · refine hm (Welfare.component w) (by simp [components]) ?_
    cases w <;> simp [Welfare.component, FloatSetting.decl]
  · obtain rfl := h2 rfl
    refine hm (Welfare.component .inequal_aversion_general) (by simp [components]) ?_
    simp [Welfare.component, FloatSetting.decl]
  · exact hm (CobbDouglas.component f) (by simp [components]) (by simp [CobbDouglas.component, FloatSetting.decl])
  · exact hm (CobbDouglas.component f) (by simp [components]) (by simp [CobbDouglas.component, FloatSetting.decl])
  · exact hm (CobbDouglas.component f) (by simp [components]) (by simp [CobbDouglas.component, FloatSetting.decl])
  · exact hm (Mitigation.component t) (by simp [components]) (by simp [Mitigation.component, FloatSetting.decl])
  · exact hm (Mitigation.component t) (by simp [components]) (by simp [Mitigation.component, FloatSetting.decl])
  · exact hm (Mitigation.component t) (by simp [components]) (by simp [Mitigation.component, FloatSetting.decl])
  · exact hm (Mitigation.component t) (by simp [components]) (by simp [Mitigation.component, FloatSetting.decl])
  · exact hm Emissions.component (by simp [components]) (by simp [Emissions.component, FloatSetting.decl])
  · obtain rfl := h1 rfl
    exact hm Damages.coacch (by simp [components, damageComponent]) (by simp [Damages.coacch, FloatSetting.decl])

theorem plain_scalar (hu : user.WF) (S : Setup B uni F W user c params tree md entries) {ks : List String}
    (hne : ks ≠ []) (hpl : ∀ k ∈ ks, PlainKey k) {p : Parser}
    (hp : HasParser DefaultYaml.entries (ks.map Key.str) p) (hq : ∀ b unit, p ≠ .quantity b unit)
    {d : ParamDecl} (hd : d ∈ allParams md)
    (hdoc : DocIs B params d ("::".toList ++ dotted ks)) (hgrid : d.name ∉ gridNames)
    (hcomb : d.name ∉ combinedNames) (hcm : NoCustom user [d.name]) {u : Val}
    (he : Effective user (ks.map Key.str) u) :
    ∃ v, p.parse B u = .ok v ∧ (NoRefs v → scalarOf entries d.name = some v) := by
  obtain ⟨dd, hc, -, -, hwf⟩ := mimosaParams_spec hu S.config
  obtain ⟨v, hv, hfin, htree⟩ := final_value hu S.config hp he
  have hno : NotOverridden params d.name :=
    ⟨hgrid, fun v => hcm.key hu S.config (by simp) v, fun _ => hcomb⟩
  obtain ⟨v1, parser, hv1, hp1, hq1, -⟩ := C18_scalar hwf S.inst (declared_of_mem hd) hno hne hpl hdoc
  rw [htree] at hp1
  simp only [Except.ok.injEq, Py.atom.injEq] at hp1
  subst hp1
  refine ⟨v, hv, fun hr => ?_⟩
  rw [hfin hr, Except.ok.injEq] at hv1
  subst hv1
  simp only [scalarOf, hq1 hq]

/-- **C56.** Each numerical setting of the configuration (the user's value, or the default) is the number that the
model uses: `float(u)`, in the range given in the configuration's definition. -/
theorem C56_float_setting (hu : user.WF) (S : Setup B uni F W user c params tree md entries)
    {s : FloatSetting} (hs : s ∈ floatSettings) (hd : s.decl ∈ allParams md) (hcm : NoCustom user [s.name]) {u : Val}
    (he : Effective user (s.path.map Key.str) u) :
    ∃ f, pyFloat B u = .ok f ∧ ∀ q, f = .fin q → s.field (paramsOf entries) = q ∧
      (∀ lo, s.lo = .fin lo → (lo : ℝ) ≤ s.field (paramsOf entries)) ∧
      (∀ hi, s.hi = .fin hi → s.field (paramsOf entries) ≤ (hi : ℝ)) := by
  have hok := List.all_eq_true.1 floatSettings_ok s hs
  simp only [settingOk, Bool.and_eq_true, decide_eq_true_eq] at hok
  obtain ⟨⟨⟨⟨⟨h1, h2⟩, h3⟩, h4⟩, h5⟩, h6⟩ := hok
  obtain ⟨p, hp, hq⟩ := parserTest_spec h6
  unfold isFloat at hq
  split at hq
  · rename_i b lo hi
    simp only [Bool.and_eq_true, decide_eq_true_eq, Bool.not_eq_true'] at hq
    obtain ⟨⟨hb, rfl⟩, rfl⟩ := hq
    obtain ⟨v, hv, hsc⟩ := plain_scalar hu S h2 h3 hp (by simp) hd (by simp only [FloatSetting.decl, DocIs]; exact h1.symm)
      h4 h5 hcm he
    have hcf : Parser.checkFalse b u = false := by
      rw [← Bool.not_eq_true, checkFalse_iff]; simp [hb]
    simp only [Parser.parse, hcf, Bool.false_eq_true, if_false] at hv
    split at hv
    · cases hv
    · rename_i f hf
      split at hv
      · cases hv
      · rename_i hbound
        cases hv
        refine ⟨f, hf, ?_⟩
        rintro q rfl
        have hsc := hsc ⟨rfl, by simp⟩
        have hfield : s.field (paramsOf entries) = q := by
          rw [floatSettings_field hs]
          have : scalarOf entries s.name = some (.atom (.float (.fin q))) := hsc
          simp [numOf, this, Val.num]
        refine ⟨hfield, fun lo hlo => ?_, fun hi hhi => ?_⟩
        · rw [hfield]
          rw [hlo] at hbound
          simp only [Parser.outOfBounds, PyFloat.lt, Bool.or_eq_true, decide_eq_true_eq, not_or, not_lt] at hbound
          exact_mod_cast hbound.1
        · rw [hfield]
          rw [hhi] at hbound
          simp only [Parser.outOfBounds, PyFloat.lt, Bool.or_eq_true, decide_eq_true_eq, not_or, not_lt] at hbound
          exact_mod_cast hbound.2
  · cases hq

/-! ## C55: quantities with units -/

def isQuantity' (unit : String) : Parser → Bool
  | .quantity _ (.atom (.str u)) => decide (u = unit)
  | _ => false

/-- What a quantity of the configuration (optional or not) becomes in the model. -/
theorem quantity_value (hu : user.WF) (S : Setup B uni F W user c params tree md entries) {ks : List String}
    (hne : ks ≠ []) (hpl : ∀ k ∈ ks, PlainKey k) {unit : String}
    (ht : parserTest (ks.map Key.str) (isQuantity' unit) = true) {d : ParamDecl} (hd : d ∈ allParams md)
    (hdoc : DocIs B params d ("::".toList ++ dotted ks)) (hgrid : d.name ∉ gridNames)
    (hcomb : d.name ∉ combinedNames) (hcm : NoCustom user [d.name]) {u : Val}
    (he : Effective user (ks.map Key.str) u) (hr : NoRefs u) (hoff : ¬ WrittenFalse u) :
    ∃ x, W.pint.conv (customReplace (pyStr B u).toList) (targetUnit unit.toList) = .ok x ∧
      scalarOf entries d.name = some (.atom (.float x)) := by
  obtain ⟨p, hp, hq⟩ := parserTest_spec ht
  unfold isQuantity' at hq
  split at hq
  swap
  · cases hq
  rename_i b u'
  simp only [decide_eq_true_eq] at hq
  subst hq
  obtain ⟨dd, hc, -, -, hwf⟩ := mimosaParams_spec hu S.config
  obtain ⟨v, hv, hfin, htree⟩ := final_value hu S.config hp he
  have hno : NotOverridden params d.name :=
    ⟨hgrid, fun v => hcm.key hu S.config (by simp) v, fun _ => hcomb⟩
  obtain ⟨v1, parser, hv1, hp1, -, hq⟩ := C18_scalar hwf S.inst (declared_of_mem hd) hno hne hpl hdoc
  rw [htree] at hp1
  simp only [Except.ok.injEq, Py.atom.injEq] at hp1
  obtain ⟨w, hw, hi⟩ := hq b _ hp1.symm
  have hcf : Parser.checkFalse b u = false := by
    rw [← Bool.not_eq_true, checkFalse_iff]; exact fun h => hoff h.2
  simp only [Parser.parse, hcf, Bool.false_eq_true, if_false] at hv
  obtain rfl : v = u := by
    split at hv
    · cases hv; rfl
    · cases hv
  rw [hfin hr, Except.ok.injEq] at hv1
  subst hv1
  unfold quant2 at hw
  rw [if_neg (by
    simp only [Bool.true_and]
    split
    · exact absurd (by simp [WrittenFalse]) hoff
    · simp)] at hw
  split at hw
  · cases hw
  · rename_i x hx
    cases hw
    exact ⟨x, hx, by simp only [scalarOf, hi]⟩

theorem emissions_mem {d : ParamDecl} (h : d ∈ Emissions.component.params) : d ∈ allParams md :=
  List.mem_append_right _ (List.mem_flatMap.2 ⟨Emissions.component, by simp [components], h⟩)

/-- **C55.** If the configuration has `temperature: target: u` (not "off", no reference), then Pint converts `u` to
some number of degrees, and every solution keeps the temperature below it at every model year from 2100 on. -/
theorem C55_target (hu : user.WF) (S : Setup B uni F W user c params tree md entries)
    (hsol : Solution md (paramsOf entries) σ) (hcm : NoCustom user ("temperature_target" :: gridNames)) {u : Val}
    (he : Effective user [.str "temperature", .str "target"] u) (hoff : ¬ WrittenFalse u) (hr : NoRefs u) :
    ∃ x τ, W.pint.conv (customReplace (pyStr B u).toList) "(delta_degC)".toList = .ok x ∧ readTime params = .ok τ ∧
      ∀ q, x = .fin q → ∀ t : ℕ, t ≤ τ.tf → (2100 : ℚ) ≤ τ.start + t * τ.dt → σ.G .temperature t ≤ q := by
  obtain ⟨x, hx, hs⟩ := quantity_value (ks := ["temperature", "target"]) hu S (by simp)
    (by unfold PlainKey; decide) (unit := "temperature_unit") (by decide +kernel)
    (d := ⟨"temperature_target", .scalar, .str "::temperature.target"⟩)
    (emissions_mem (by simp [Emissions.component]))
    (by simp only [DocIs]; decide) (by decide) (by decide) (fun n hn => hcm n (by simp at hn; simp [hn])) he hr hoff
  obtain ⟨τ, regions, h1, -, h3, h4, h5, -⟩ := grid_params hu S fun n hn => hcm n (by simp [hn])
  have htu : targetUnit "temperature_unit".toList = "(delta_degC)".toList := by decide +kernel
  rw [htu] at hx
  refine ⟨x, τ, hx, h1, ?_⟩
  rintro q rfl t ht hy
  refine C25_target hsol (T := q) ?_ (t := t) ?_ ?_
  · simp only [paramsOf, optOf, hs, Val.num]
  · rw [h5]; omega
  · rw [h3, h4]; exact_mod_cast hy

/-- **C55.** Likewise for the lower limits on emissions, globally and per region. -/
theorem C55_min_levels (hu : user.WF) (S : Setup B uni F W user c params tree md entries)
    (hsol : Solution md (paramsOf entries) σ)
    (hcm : NoCustom user ("global_min_level" :: "regional_min_level" :: gridNames)) {u : Val}
    (hoff : ¬ WrittenFalse u) (hr : NoRefs u) :
    (Effective user [.str "emissions", .str "global min level"] u →
      ∃ x τ, W.pint.conv (customReplace (pyStr B u).toList) "((GtCO2)/yr)".toList = .ok x ∧ readTime params = .ok τ ∧
        ∀ q, x = .fin q → ∀ t : ℕ, t ≤ τ.tf → (q : ℝ) ≤ σ.G .global_emissions t) ∧
    (Effective user [.str "emissions", .str "regional min level"] u →
      ∃ x τ regions, W.pint.conv (customReplace (pyStr B u).toList) "((GtCO2)/yr)".toList = .ok x ∧
        readTime params = .ok τ ∧ regionNames params = .ok regions ∧
        ∀ q, x = .fin q → ∀ t : ℕ, t ≤ τ.tf → ∀ r ∈ regions, (q : ℝ) ≤ σ.R .regional_emissions t r) := by
  have htu : targetUnit "emissionsrate_unit".toList = "((GtCO2)/yr)".toList := by decide +kernel
  obtain ⟨τ, regions, h1, h2, h3, h4, h5, h6⟩ := grid_params hu S fun n hn => hcm n (by simp [hn])
  constructor
  · intro he
    obtain ⟨x, hx, hs⟩ := quantity_value (ks := ["emissions", "global min level"]) hu S (by simp)
      (by unfold PlainKey; decide) (unit := "emissionsrate_unit") (by decide +kernel)
      (d := ⟨"global_min_level", .scalar, .str "::emissions.global min level"⟩)
      (emissions_mem (by simp [Emissions.component]))
      (by simp only [DocIs]; decide) (by decide) (by decide) (fun n hn => hcm n (by simp at hn; simp [hn])) he hr hoff
    rw [htu] at hx
    refine ⟨x, τ, hx, h1, ?_⟩
    rintro q rfl t ht
    refine C28_global_min hsol (l := q) ?_ (t := t) ?_
    · simp only [paramsOf, optOf, hs, Val.num]
    · rw [h5]; omega
  · intro he
    obtain ⟨x, hx, hs⟩ := quantity_value (ks := ["emissions", "regional min level"]) hu S (by simp)
      (by unfold PlainKey; decide) (unit := "emissionsrate_unit") (by decide +kernel)
      (d := ⟨"regional_min_level", .scalar, .str "::emissions.regional min level"⟩)
      (emissions_mem (by simp [Emissions.component]))
      (by simp only [DocIs]; decide) (by decide) (by decide) (fun n hn => hcm n (by simp at hn; simp [hn])) he hr hoff
    rw [htu] at hx
    refine ⟨x, τ, regions, hx, h1, h2, ?_⟩
    rintro q rfl t ht r hrr
    refine C28_regional_min hsol (l := q) ?_ (t := t) ?_ (by rw [h6]; exact hrr)
    · simp only [paramsOf, optOf, hs, Val.num]
    · rw [h5]; omega

/-- **C55.** The climate: warming is linear in cumulative emissions, with the configured initial temperature and TCRE
(converted to °C and to °C per GtCO2). -/
theorem C55_climate (hu : user.WF) (S : Setup B uni F W user c params tree md entries)
    (hsol : Solution md (paramsOf entries) σ) (hcm : NoCustom user ("T0" :: "TCRE" :: gridNames)) {u v : Val}
    (he : Effective user [.str "temperature", .str "initial"] u) (hoff : ¬ WrittenFalse u) (hr : NoRefs u)
    (he' : Effective user [.str "temperature", .str "TCRE"] v) (hoff' : ¬ WrittenFalse v) (hr' : NoRefs v) :
    ∃ x y τ, W.pint.conv (customReplace (pyStr B u).toList) "(delta_degC)".toList = .ok x ∧
      W.pint.conv (customReplace (pyStr B v).toList) "((delta_degC))/((GtCO2))".toList = .ok y ∧
      readTime params = .ok τ ∧ ∀ T0 TCRE, x = .fin T0 → y = .fin TCRE → ∀ t : ℕ, t ≤ τ.tf →
        σ.G .temperature t = T0 + TCRE * σ.G .cumulative_emissions t := by
  obtain ⟨x, hx, hs⟩ := quantity_value (ks := ["temperature", "initial"]) hu S (by simp)
    (by unfold PlainKey; decide) (unit := "temperature_unit") (by decide +kernel)
    (d := ⟨"T0", .scalar, .str "::temperature.initial"⟩) (emissions_mem (by simp [Emissions.component]))
    (by simp only [DocIs]; decide) (by decide) (by decide) (fun n hn => hcm n (by simp at hn; simp [hn])) he hr hoff
  obtain ⟨y, hy, hs'⟩ := quantity_value (ks := ["temperature", "TCRE"]) hu S (by simp)
    (by unfold PlainKey; decide) (unit := "(temperature_unit)/(emissions_unit)") (by decide +kernel)
    (d := ⟨"TCRE", .scalar, .str "::temperature.TCRE"⟩) (emissions_mem (by simp [Emissions.component]))
    (by simp only [DocIs]; decide) (by decide) (by decide) (fun n hn => hcm n (by simp at hn; simp [hn])) he' hr' hoff'
  obtain ⟨τ, regions, h1, -, h3, h4, h5, -⟩ := grid_params hu S fun n hn => hcm n (by simp [hn])
  have htu : targetUnit "temperature_unit".toList = "(delta_degC)".toList := by decide +kernel
  have htu' : targetUnit "(temperature_unit)/(emissions_unit)".toList = "((delta_degC))/((GtCO2))".toList := by
    decide +kernel
  rw [htu] at hx
  rw [htu'] at hy
  refine ⟨x, y, τ, hx, hy, h1, ?_⟩
  rintro T0 TCRE rfl rfl t ht
  rw [C25_linear hsol (by rw [h5]; omega)]
  have e1 : (paramsOf entries).T0 = T0 := by simp [paramsOf, numOf, hs, Val.num]
  have e2 : (paramsOf entries).TCRE = TCRE := by simp [paramsOf, numOf, hs', Val.num]
  rw [e1, e2]

/-! ## C56: switches and the optional inertia limits -/

/-- An on/off setting. -/
structure Switch where
  name : String
  path : List String
  doc : String
  field : Params → Bool

/-- The switches of MIMOSA. -/
def switches : List Switch :=
  [⟨"use_carbon_intensity_for_baseline", ["emissions", "baseline carbon intensity"],
    "::emissions.baseline carbon intensity", (·.use_carbon_intensity_for_baseline)⟩,
   ⟨"cumulative_emissions_trapz", ["emissions", "cumulative_emissions_trapz"],
    "::emissions.cumulative_emissions_trapz", (·.cumulative_emissions_trapz)⟩,
   ⟨"non_increasing_emissions_after_2100", ["emissions", "non increasing emissions after 2100"],
    "::emissions.non increasing emissions after 2100", (·.non_increasing_emissions_after_2100)⟩,
   ⟨"no_pos_emissions_after_budget_year", ["emissions", "not positive after budget year"],
    "::emissions.not positive after budget year", (·.no_pos_emissions_after_budget_year)⟩,
   ⟨"ignore_damages", ["economics", "damages", "ignore damages"], "::economics.damages.ignore damages",
    (·.ignore_damages)⟩]

def Switch.decl (s : Switch) : ParamDecl := ⟨s.name, .scalar, .str s.doc⟩

def isBool : Parser → Bool
  | .bool _ => true
  | _ => false

def switchOk (s : Switch) : Bool :=
  decide (s.doc.toList = "::".toList ++ dotted s.path) && decide (s.path ≠ []) &&
  decide (∀ k ∈ s.path, '.' ∉ k.toList ∧ ':' ∉ k.toList) && decide (s.name ∉ gridNames) &&
  decide (s.name ∉ combinedNames) && parserTest (s.path.map Key.str) isBool

theorem switches_ok : switches.all switchOk = true := by decide +kernel

theorem switches_field {s : Switch} (hs : s ∈ switches) (I : List (String × IData)) :
    s.field (paramsOf I) = boolOf I s.name := by
  simp only [switches, List.mem_cons, List.not_mem_nil, or_false] at hs
  rcases hs with rfl | rfl | rfl | rfl | rfl <;> rfl

theorem switches_declared {s : Switch} (hs : s ∈ switches) : s.decl ∈ allParams md := by
  simp only [switches, List.mem_cons, List.not_mem_nil, or_false] at hs
  rcases hs with rfl | rfl | rfl | rfl | rfl
  · exact emissions_mem (by simp [Emissions.component, Switch.decl])
  · exact emissions_mem (by simp [Emissions.component, Switch.decl])
  · exact emissions_mem (by simp [Emissions.component, Switch.decl])
  · exact emissions_mem (by simp [Emissions.component, Switch.decl])
  · exact List.mem_append_right _ (List.mem_flatMap.2
      ⟨CobbDouglas.component md.transfer, by simp [components], by simp [CobbDouglas.component, Switch.decl]⟩)

/-- **C56.** Each switch of the configuration is on in the model if it is written as "on" and off if it is written as
"off"; anything else is rejected. -/
theorem C56_switch (hu : user.WF) (S : Setup B uni F W user c params tree md entries)
    {s : Switch} (hs : s ∈ switches) (hcm : NoCustom user [s.name]) {u : Val}
    (he : Effective user (s.path.map Key.str) u) :
    (WrittenTrue u ∧ s.field (paramsOf entries) = true) ∨ (WrittenFalse u ∧ s.field (paramsOf entries) = false) := by
  have hok := List.all_eq_true.1 switches_ok s hs
  simp only [switchOk, Bool.and_eq_true, decide_eq_true_eq] at hok
  obtain ⟨⟨⟨⟨⟨h1, h2⟩, h3⟩, h4⟩, h5⟩, h6⟩ := hok
  obtain ⟨p, hp, hq⟩ := parserTest_spec h6
  unfold isBool at hq
  split at hq
  · rename_i b
    obtain ⟨v, hv, hsc⟩ := plain_scalar hu S h2 h3 hp (by simp) (switches_declared hs)
      (by simp only [Switch.decl, DocIs]; exact h1.symm) h4 h5 hcm he
    rw [switches_field hs]
    have key : ∀ w, v = .atom (.bool w) → boolOf entries s.name = w := by
      rintro w rfl
      have : scalarOf entries s.name = some (.atom (.bool w)) := hsc ⟨rfl, by simp⟩
      simp [boolOf, this, Val.truthy]
    simp only [Parser.parse] at hv
    split at hv
    · rename_i hf
      cases hv
      exact .inr ⟨((checkFalse_iff b u).1 hf).2, key _ rfl⟩
    · split at hv
      · rename_i ht
        cases hv
        exact .inl ⟨(isTruthy_iff u).1 ht, key _ rfl⟩
      · split at hv
        · rename_i hf
          cases hv
          exact .inr ⟨(isFalsy_iff u).1 hf, key _ rfl⟩
        · cases hv
  · cases hq

def isInertia : Parser → Bool
  | .float b _ hi => b.canBeFalse && decide (hi = .fin 0)
  | _ => false

/-- What an inertia setting becomes in the model. -/
theorem inertia_value (hu : user.WF) (S : Setup B uni F W user c params tree md entries) {ks : List String}
    (hne : ks ≠ []) (hpl : ∀ k ∈ ks, PlainKey k) (ht : parserTest (ks.map Key.str) isInertia = true)
    {d : ParamDecl} (hd : d ∈ allParams md) (hdoc : DocIs B params d ("::".toList ++ dotted ks))
    (hgrid : d.name ∉ gridNames) (hcomb : d.name ∉ combinedNames) (hcm : NoCustom user [d.name]) {u : Val}
    (he : Effective user (ks.map Key.str) u) :
    (WrittenFalse u → optOf entries d.name = none) ∧
    (¬ WrittenFalse u → ∃ f, pyFloat B u = .ok f ∧ ∀ q, f = .fin q → q ≤ 0 ∧ optOf entries d.name = some (q : ℝ)) := by
  obtain ⟨p, hp, hq⟩ := parserTest_spec ht
  unfold isInertia at hq
  split at hq
  swap
  · cases hq
  rename_i b lo hi
  simp only [Bool.and_eq_true, decide_eq_true_eq] at hq
  obtain ⟨hb, rfl⟩ := hq
  obtain ⟨v, hv, hsc⟩ := plain_scalar hu S hne hpl hp (by simp) hd hdoc hgrid hcomb hcm he
  constructor
  · intro hoff
    have hcf : Parser.checkFalse b u = true := (checkFalse_iff b u).2 ⟨hb, hoff⟩
    simp only [Parser.parse, hcf, if_true, Val.false] at hv
    cases hv
    simp [optOf, hsc ⟨rfl, by simp⟩]
  · intro hoff
    have hcf : Parser.checkFalse b u = false := by
      rw [← Bool.not_eq_true, checkFalse_iff]; exact fun h => hoff h.2
    simp only [Parser.parse, hcf, Bool.false_eq_true, if_false] at hv
    split at hv
    · cases hv
    · rename_i f hf
      split at hv
      · cases hv
      · rename_i hbound
        cases hv
        refine ⟨f, hf, ?_⟩
        rintro q rfl
        simp only [Parser.outOfBounds, PyFloat.lt, Bool.or_eq_true, decide_eq_true_eq, not_or, not_lt] at hbound
        exact ⟨hbound.2, by simp [optOf, hsc ⟨rfl, by simp⟩, Val.num]⟩

/-- **C56.** With `emissions: inertia: regional: u`, regional emissions fall by at most `|u|` times the initial
baseline emissions per year; written as "off", no such limit is imposed. -/
theorem C56_regional_inertia (hu : user.WF) (S : Setup B uni F W user c params tree md entries)
    (hsol : Solution md (paramsOf entries) σ) (hcm : NoCustom user ("inertia_regional" :: gridNames)) {u : Val}
    (he : Effective user [.str "emissions", .str "inertia", .str "regional"] u) :
    (WrittenFalse u → (paramsOf entries).inertia_regional = none) ∧
    (¬ WrittenFalse u → ∃ f τ regions, pyFloat B u = .ok f ∧ readTime params = .ok τ ∧ regionNames params = .ok regions ∧
      ∀ q, f = .fin q → ∀ r ∈ regions, ∀ s t : ℕ, s ≤ t → t ≤ τ.tf →
        σ.R .regional_emissions s r - σ.R .regional_emissions t r ≤
          |(q : ℝ)| * ((τ.year t : ℝ) - τ.year s) * (paramsOf entries).baseline_emissions 0 r) := by
  obtain ⟨h1, h2⟩ := inertia_value (ks := ["emissions", "inertia", "regional"]) hu S (by simp)
    (by unfold PlainKey; decide) (by decide +kernel)
    (d := ⟨"inertia_regional", .scalar, .str "::emissions.inertia.regional"⟩)
    (emissions_mem (by simp [Emissions.component]))
    (by simp only [DocIs]; decide) (by decide) (by decide) (fun n hn => hcm n (by simp at hn; simp [hn])) he
  refine ⟨h1, fun hoff => ?_⟩
  obtain ⟨f, hf, hq⟩ := h2 hoff
  obtain ⟨τ, regions, g1, g2, g3, g4, g5, g6⟩ := grid_params hu S fun n hn => hcm n (by simp [hn])
  refine ⟨f, τ, regions, hf, g1, g2, ?_⟩
  rintro q rfl r hr s t hst ht
  obtain ⟨hq0, hopt⟩ := hq q rfl
  have := C27_regional_inertia hsol hopt (by exact_mod_cast hq0) (by rw [g6]; exact hr) hst (by rw [g5]; omega)
  simpa only [Params.year, g3, g4, TimeParams.year, Rat.cast_add, Rat.cast_mul, Rat.cast_intCast, Int.cast_natCast,
    Rat.cast_natCast] using this

/-- **C56.** The same for global emissions. -/
theorem C56_global_inertia (hu : user.WF) (S : Setup B uni F W user c params tree md entries)
    (hsol : Solution md (paramsOf entries) σ) (hcm : NoCustom user ("inertia_global" :: gridNames)) {u : Val}
    (he : Effective user [.str "emissions", .str "inertia", .str "global"] u) :
    (WrittenFalse u → (paramsOf entries).inertia_global = none) ∧
    (¬ WrittenFalse u → ∃ f τ regions, pyFloat B u = .ok f ∧ readTime params = .ok τ ∧ regionNames params = .ok regions ∧
      ∀ q, f = .fin q → ∀ s t : ℕ, s ≤ t → t ≤ τ.tf →
        σ.G .global_emissions s - σ.G .global_emissions t ≤ |(q : ℝ)| * ((τ.year t : ℝ) - τ.year s) *
          (regions.map fun r => (paramsOf entries).baseline_emissions 0 r).sum) := by
  obtain ⟨h1, h2⟩ := inertia_value (ks := ["emissions", "inertia", "global"]) hu S (by simp)
    (by unfold PlainKey; decide) (by decide +kernel)
    (d := ⟨"inertia_global", .scalar, .str "::emissions.inertia.global"⟩)
    (emissions_mem (by simp [Emissions.component]))
    (by simp only [DocIs]; decide) (by decide) (by decide) (fun n hn => hcm n (by simp at hn; simp [hn])) he
  refine ⟨h1, fun hoff => ?_⟩
  obtain ⟨f, hf, hq⟩ := h2 hoff
  obtain ⟨τ, regions, g1, g2, g3, g4, g5, g6⟩ := grid_params hu S fun n hn => hcm n (by simp [hn])
  refine ⟨f, τ, regions, hf, g1, g2, ?_⟩
  rintro q rfl s t hst ht
  obtain ⟨hq0, hopt⟩ := hq q rfl
  have := C27_global_inertia hsol hopt (by exact_mod_cast hq0) hst (by rw [g5]; omega)
  simpa only [Params.year, g3, g4, g6, TimeParams.year, Rat.cast_add, Rat.cast_mul, Rat.cast_intCast, Int.cast_natCast,
    Rat.cast_natCast] using this

/-! ## The hypotheses in the concrete case of `exampleSetup` -/

theorem exampleUser_noCustom (names : List String) : NoCustom exampleUser names := by
  intro n _ v h
  have : getNested [.str "simulation", .str "custom_mapping", .str n] exampleUser = .error .keyError := rfl
  rw [this] at h
  cases h

/-- A value that the user did not set is the default. -/
theorem effective_default {ks : List Key} (q : Val → Bool) (hd : defTest ks q = true)
    (hk : getNested ks user = .error .keyError) : ∃ u, Effective user ks u ∧ q u = true := by
  have h := hd
  unfold defTest at h
  split at h
  · rename_i l hl
    unfold defAt at hl
    have h1 := List.find?_some hl
    have h2 := List.mem_of_find?_eq_some hl
    simp only [decide_eq_true_eq] at h1
    subst h1
    exact ⟨_, .inr ⟨hk, l.2, (isParam_iff default_ok).2 h2, rfl⟩, h⟩
  · cases h

def valIsFloat (q : ℚ) : Val → Bool
  | .atom (.float (.fin q')) => decide (q' = q)
  | _ => false

def valIsStr (s : String) : Val → Bool
  | .atom (.str s') => decide (s' = s)
  | _ => false

def valIsBool (b : Bool) : Val → Bool
  | .atom (.bool b') => decide (b' = b)
  | _ => false

/-- The default elasticity of marginal utility, 1.001, is used by the model of `exampleSetup`. -/
example : ∃ params tree md entries, Setup exampleBuiltins (fun _ => false) exampleFiles2 exampleWorld2
    exampleUser (afterHistory exampleWorld2 []) params tree md entries ∧ (paramsOf entries).elasmu = 1001 / 1000 := by
  obtain ⟨params, tree, md, entries, S, -⟩ := exampleSetup
  obtain ⟨u, he, hu⟩ := effective_default (user := exampleUser) (ks := [.str "economics", .str "elasmu"])
    (valIsFloat (1001 / 1000)) (by decide +kernel) rfl
  obtain rfl : u = .atom (.float (.fin (1001 / 1000))) := by
    unfold valIsFloat at hu
    split at hu
    · simp only [decide_eq_true_eq] at hu
      subst hu
      rfl
    · cases hu
  have hdecl := floatSettings_declared (md := md) (s := ⟨"elasmu", ["economics", "elasmu"], "::economics.elasmu",
    .fin (1 / 10), .fin 10, (·.elasmu)⟩) (by simp [floatSettings]) (by simp) (by simp)
  obtain ⟨f, hf, hq⟩ := C56_float_setting (by simp [exampleUser, exDict, exStr, Py.WF, Py.WFDict, Py.WFList, Dict.keys])
    S (s := ⟨"elasmu", ["economics", "elasmu"], "::economics.elasmu",
    .fin (1 / 10), .fin 10, (·.elasmu)⟩) (by simp [floatSettings]) hdecl (exampleUser_noCustom _) he
  have : f = .fin (1001 / 1000) := by
    simp only [pyFloat, Except.ok.injEq] at hf
    exact hf.symm
  refine ⟨params, tree, md, entries, S, ?_⟩
  have := (hq _ this).1
  simpa using this

/-- The quantities are written with units, the regional inertia is a number and the switches are on by default. -/
example : defTest [.str "temperature", .str "initial"] (valIsStr "1.16 delta_degC") = true ∧
    defTest [.str "temperature", .str "TCRE"] (valIsStr "0.62 delta_degC/(TtCO2)") = true ∧
    defTest [.str "emissions", .str "global min level"] (valIsStr "-20 GtCO2/yr") = true ∧
    defTest [.str "emissions", .str "inertia", .str "regional"] (valIsFloat (-1 / 20)) = true ∧
    defTest [.str "emissions", .str "inertia", .str "global"] (valIsBool false) = true ∧
    defTest [.str "emissions", .str "cumulative_emissions_trapz"] (valIsBool true) = true := by decide +kernel

end Mimosa
