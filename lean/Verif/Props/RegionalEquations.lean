import Verif.Props.RegionalSettings

/-!
# C69: the equations of a region use the coefficients of that region

`RegionalSettings` says that each regional parameter holds the configured value. Here the equations of a solution are
written out with the values read from the regional files.
-/

namespace Mimosa
open Damages

variable {B : Builtins} {uni : Char → Bool} {F : RegionalFiles} {W : DataWorld} {user params : Val} {c : DataCache}
  {tree : Py Parser} {md : Modules} {entries : List (String × IData)} {σ : Env}

/-! ## Specification -/

/-- The number `x` stands in column `col` of the file of category `cat` for region `r`. -/
def Spec.FileNumber (B : Builtins) (rs : RegionalStore) (cat col r : String) (x : ℝ) : Prop :=
  ∃ v, rs.getRegional B cat col r = .ok v ∧ Val.num v = some x

/-- The text `s` stands in column `col` of the file of category `cat` for region `r`. -/
def Spec.FileText (B : Builtins) (rs : RegionalStore) (cat col r s : String) : Prop :=
  rs.getRegional B cat col r = .ok (.atom (.str s))

/-- The coefficients of a damage function of region `r` in the columns that start with `stem`: functional form, level
for the chosen quantile, and `b1`, `b2`, `b3`. -/
structure Spec.FileCoefficients (B : Builtins) (rs : RegionalStore) (C : Spec.Choices) (stem r : String) (form : String)
    (a b1 b2 b3 : ℝ) : Prop where
  form : Spec.FileText B rs "COACCH" (stem ++ "_form") r form
  a : Spec.FileNumber B rs "COACCH" (stem ++ "_a (q=" ++ C.quantile ++ ")") r a
  b1 : Spec.FileNumber B rs "COACCH" (stem ++ "_b1") r b1
  b2 : Spec.FileNumber B rs "COACCH" (stem ++ "_b2") r b2
  b3 : Spec.FileNumber B rs "COACCH" (stem ++ "_b3") r b3

/-- The damage function, in percent: `y` is its value at `x`. The logistic function stops growing smoothly when the
exponent comes near 10. -/
def Spec.Curve (form : String) (b1 b2 b3 x y : ℝ) : Prop :=
  ("Linear".toList <:+: form.toList → y = b1 * x) ∧
  (¬ "Linear".toList <:+: form.toList → "Quadratic".toList <:+: form.toList → y = b1 * x + b2 * x ^ 2) ∧
  (¬ "Linear".toList <:+: form.toList → ¬ "Quadratic".toList <:+: form.toList → "Logistic".toList <:+: form.toList →
    y = b1 / (1 + b2 * Real.exp (10 - ((Real.arctan (250 * (10 + b3 * x)) / Real.pi + 1 / 2) * (10 + b3 * x)
      + 1 / (250 * Real.pi)))) - b1 / (1 + b2))

/-- The names of the parameters with the coefficients of a damage function. -/
def Spec.damageParameters (kind : String) : List String :=
  ["damage_" ++ kind ++ "_form", "damage_" ++ kind ++ "_a", "damage_" ++ kind ++ "_b1", "damage_" ++ kind ++ "_b2",
   "damage_" ++ kind ++ "_b3"]

/-! ## Proofs -/

theorem NoCustom.mono {names names' : List String} (h : NoCustom user names) (hs : ∀ n ∈ names', n ∈ names) :
    NoCustom user names' := fun n hn => h n (hs n hn)

/-- A number of a regional file, in the equations. -/
theorem fileNumber (hu : user.WF) (S : Setup B uni F W user c params tree md entries) {C : Spec.Choices}
    (hC : Spec.Chosen B user C) (hoff : Spec.CombinedOff user) {rs : RegionalStore}
    (hrs : newRegionalStore F params = .ok rs) {name cat col : String} {f : Params → String → ℝ}
    (hrow : (name, cat, col, f) ∈ Spec.regionalNumbers C) (hd : md.damage = .COACCH ∨ cat = "economics" ∨ cat = "MAC")
    (hcm : Spec.Unmapped user [name]) {r : String} (hr : r ∈ (paramsOf entries).regions) {x : ℝ}
    (hx : Spec.FileNumber B rs cat col r x) : f (paramsOf entries) r = x := by
  obtain ⟨rs', hrs', h⟩ := C69_numbers hu S hC hoff hrow hd hcm
  rw [hrs] at hrs'
  cases hrs'
  obtain ⟨v, hv, hf⟩ := h r hr
  obtain ⟨v', hv', hx⟩ := hx
  rw [hv] at hv'
  cases hv'
  exact hf x hx

/-- A text of a regional file, in the equations. -/
theorem fileText (hu : user.WF) (S : Setup B uni F W user c params tree md entries) {C : Spec.Choices}
    (hC : Spec.Chosen B user C) (hoff : Spec.CombinedOff user) {rs : RegionalStore}
    (hrs : newRegionalStore F params = .ok rs) {name cat col : String} {f : Params → String → String}
    (hrow : (name, cat, col, f) ∈ Spec.regionalTexts C) (hd : md.damage = .COACCH)
    (hcm : Spec.Unmapped user [name]) {r : String} (hr : r ∈ (paramsOf entries).regions) {s : String}
    (hs : Spec.FileText B rs cat col r s) : f (paramsOf entries) r = s := by
  obtain ⟨rs', hrs', h⟩ := C69_forms hu S hC hoff hrow hd hcm
  rw [hrs] at hrs'
  cases hrs'
  obtain ⟨v, hv, hf⟩ := h r hr
  rw [hs] at hv
  cases hv
  exact hf s rfl

theorem formVal_curve {d : DamageCoeffs} {r : String} {x y : ℝ} {form : String} {a b1 b2 b3 : ℝ} (hf : d.form r = form)
    (ha : d.a r = a) (h1 : d.b1 r = b1) (h2 : d.b2 r = b2) (h3 : d.b3 r = b3) (hk : KnownForm d r)
    (hc : Spec.Curve form b1 b2 b3 x y) : formVal x d r = a * y / 100 := by
  obtain ⟨c1, c2, c3⟩ := hc
  subst hf ha h1 h2 h3
  unfold formVal
  by_cases hl : strContains "Linear" (d.form r) = true
  · rw [if_pos hl, c1 (of_decide_eq_true hl)]; ring
  have hl' : ¬ "Linear".toList <:+: (d.form r).toList := fun h => hl (decide_eq_true h)
  rw [if_neg hl]
  by_cases hq : strContains "Quadratic" (d.form r) = true
  · rw [if_pos hq, c2 hl' (of_decide_eq_true hq)]
  have hq' : ¬ "Quadratic".toList <:+: (d.form r).toList := fun h => hq (decide_eq_true h)
  have hg : strContains "Logistic" (d.form r) = true := by
    rcases hk with h | h | h
    · exact absurd h hl
    · exact absurd h hq
    · exact h
  rw [if_neg hq, if_pos hg, c3 hl' hq' (of_decide_eq_true hg)]
  have e : soft_max (-d.b3 r * x) 10 (1 / 10) = 10 - ((Real.arctan (250 * (10 + d.b3 r * x)) / Real.pi + 1 / 2) *
      (10 + d.b3 r * x) + 1 / (250 * Real.pi)) := by
    rw [soft_max_real, soft_min_real]
    have e1 : (10 : ℝ) - -d.b3 r * x = 10 + d.b3 r * x := by ring
    have e2 : (25 : ℝ) / (1 / 10) = 250 := by norm_num
    rw [e1, e2]
    ring
  rw [e]

/-- **C69.** Damages in the equations of a region: the temperature damages are scale factor times level times the
damage function with the coefficients that the regional file gives for that region, relative to the first year (in
percent, temperature counted from 0.6 degrees). -/
theorem C69_temperature_damages (hu : user.WF) (S : Setup B uni F W user c params tree md entries) {C : Spec.Choices}
    (hC : Spec.Chosen B user C) (hoff : Spec.CombinedOff user) (hd : md.damage = .COACCH)
    (hcm : Spec.Unmapped user (Spec.damageParameters "noslr")) : ∃ rs, newRegionalStore F params = .ok rs ∧
      ∀ σ, Solution md (paramsOf entries) σ → ∀ t ≤ (paramsOf entries).tf, ∀ r ∈ (paramsOf entries).regions,
        ∀ form a b1 b2 b3, Spec.FileCoefficients B rs C "NoSLR" r form a b1 b2 b3 →
        ∀ y y₀, Spec.Curve form b1 b2 b3 (σ.G .temperature t - 0.6) y →
          Spec.Curve form b1 b2 b3 ((paramsOf entries).T0 - 0.6) y₀ →
          σ.R .damage_costs_non_slr t r = (paramsOf entries).damage_scale_factor * (a * (y - y₀) / 100) := by
  obtain ⟨rs, hrs, -⟩ := C69_forms hu S hC hoff (name := "damage_noslr_form") (cat := "COACCH") (col := "NoSLR_form")
    (f := fun p r => p.noslr.form r) (by simp [Spec.regionalTexts]) hd (hcm.mono (by simp [Spec.damageParameters]; tauto))
  refine ⟨rs, hrs, fun σ h t ht r hr form a b1 b2 b3 hF y y₀ hy hy₀ => ?_⟩
  have hform := fileText hu S hC hoff hrs (name := "damage_noslr_form") (f := fun p r => p.noslr.form r)
    (by simp [Spec.regionalTexts]) hd (hcm.mono (by simp [Spec.damageParameters]; tauto)) hr hF.form
  have ha := fileNumber hu S hC hoff hrs (name := "damage_noslr_a") (f := fun p r => p.noslr.a r)
    (by simp [Spec.regionalNumbers]) (.inl hd) (hcm.mono (by simp [Spec.damageParameters]; tauto)) hr hF.a
  have h1 := fileNumber hu S hC hoff hrs (name := "damage_noslr_b1") (f := fun p r => p.noslr.b1 r)
    (by simp [Spec.regionalNumbers]) (.inl hd) (hcm.mono (by simp [Spec.damageParameters]; tauto)) hr hF.b1
  have h2 := fileNumber hu S hC hoff hrs (name := "damage_noslr_b2") (f := fun p r => p.noslr.b2 r)
    (by simp [Spec.regionalNumbers]) (.inl hd) (hcm.mono (by simp [Spec.damageParameters]; tauto)) hr hF.b2
  have h3 := fileNumber hu S hC hoff hrs (name := "damage_noslr_b3") (f := fun p r => p.noslr.b3 r)
    (by simp [Spec.regionalNumbers]) (.inl hd) (hcm.mono (by simp [Spec.damageParameters]; tauto)) hr hF.b3
  have e := h.eqs.damages
  rw [hd] at e
  have hk := (h.instOk.forms hd r hr).1
  rw [(e.noslr t ht r hr).2.2, formVal_curve hform ha h1 h2 h3 hk hy, formVal_curve hform ha h1 h2 h3 hk hy₀]
  ring

/-- **C69.** The damages of sea-level rise, with the coefficients for the chosen kind of adaptation, relative to the
sea-level rise of the first year. -/
theorem C69_sea_level_damages (hu : user.WF) (S : Setup B uni F W user c params tree md entries) {C : Spec.Choices}
    (hC : Spec.Chosen B user C) (hoff : Spec.CombinedOff user) (hd : md.damage = .COACCH)
    (hcm : Spec.Unmapped user (Spec.damageParameters "slr")) : ∃ rs, newRegionalStore F params = .ok rs ∧
      ∀ σ, Solution md (paramsOf entries) σ → ∀ t ≤ (paramsOf entries).tf, ∀ r ∈ (paramsOf entries).regions,
        ∀ form a b1 b2 b3, Spec.FileCoefficients B rs C ("SLR-" ++ C.adapt) r form a b1 b2 b3 →
        ∀ y y₀, Spec.Curve form b1 b2 b3 (σ.G .total_SLR t) y → Spec.Curve form b1 b2 b3 (σ.G .total_SLR 0) y₀ →
          σ.R .damage_costs_slr t r = (paramsOf entries).damage_scale_factor * (a * (y - y₀) / 100) := by
  obtain ⟨rs, hrs, -⟩ := C69_forms hu S hC hoff (name := "damage_slr_form") (cat := "COACCH")
    (col := "SLR-" ++ C.adapt ++ "_form") (f := fun p r => p.slr.form r) (by simp [Spec.regionalTexts]) hd
    (hcm.mono (by simp [Spec.damageParameters]; tauto))
  refine ⟨rs, hrs, fun σ h t ht r hr form a b1 b2 b3 hF y y₀ hy hy₀ => ?_⟩
  have hform := fileText hu S hC hoff hrs (name := "damage_slr_form") (f := fun p r => p.slr.form r)
    (by simp [Spec.regionalTexts]) hd (hcm.mono (by simp [Spec.damageParameters]; tauto)) hr hF.form
  have ha := fileNumber hu S hC hoff hrs (name := "damage_slr_a") (f := fun p r => p.slr.a r)
    (by simp [Spec.regionalNumbers]) (.inl hd) (hcm.mono (by simp [Spec.damageParameters]; tauto)) hr hF.a
  have h1 := fileNumber hu S hC hoff hrs (name := "damage_slr_b1") (f := fun p r => p.slr.b1 r)
    (by simp [Spec.regionalNumbers]) (.inl hd) (hcm.mono (by simp [Spec.damageParameters]; tauto)) hr hF.b1
  have h2 := fileNumber hu S hC hoff hrs (name := "damage_slr_b2") (f := fun p r => p.slr.b2 r)
    (by simp [Spec.regionalNumbers]) (.inl hd) (hcm.mono (by simp [Spec.damageParameters]; tauto)) hr hF.b2
  have h3 := fileNumber hu S hC hoff hrs (name := "damage_slr_b3") (f := fun p r => p.slr.b3 r)
    (by simp [Spec.regionalNumbers]) (.inl hd) (hcm.mono (by simp [Spec.damageParameters]; tauto)) hr hF.b3
  have e := h.eqs.damages
  rw [hd] at e
  have hk := (h.instOk.forms hd r hr).2
  rw [(e.slr t ht r hr).2.2, formVal_curve hform ha h1 h2 h3 hk hy, formVal_curve hform ha h1 h2 h3 hk hy₀]
  ring

/-- **C69.** The carbon price and the area under the MAC curve of a region, with the level that the regional file
gives for that region in the column chosen as calibration factor. -/
theorem C69_abatement_costs (hu : user.WF) (S : Setup B uni F W user c params tree md entries) {C : Spec.Choices}
    (hC : Spec.Chosen B user C) (hoff : Spec.CombinedOff user) (hcm : Spec.Unmapped user ["MAC_scaling_factor"]) :
    ∃ rs, newRegionalStore F params = .ok rs ∧
      ∀ σ, Solution md (paramsOf entries) σ → ∀ t ≤ (paramsOf entries).tf, ∀ r ∈ (paramsOf entries).regions,
        ∀ κ, Spec.FileNumber B rs "MAC" C.calibration r κ →
          σ.R .carbonprice t r = σ.G .learning_factor t * κ * (paramsOf entries).MAC_gamma *
            σ.R .relative_abatement t r ^ (paramsOf entries).MAC_beta ∧
          σ.R .area_under_MAC t r = σ.G .learning_factor t * κ * (paramsOf entries).MAC_gamma *
            σ.R .relative_abatement t r ^ ((paramsOf entries).MAC_beta + 1) / ((paramsOf entries).MAC_beta + 1) *
            σ.R .baseline t r := by
  obtain ⟨rs, hrs, -⟩ := C69_numbers hu S hC hoff (name := "MAC_scaling_factor") (cat := "MAC")
    (col := C.calibration) (f := fun p r => p.MAC_scaling_factor r) (by simp [Spec.regionalNumbers]) (by simp) hcm
  refine ⟨rs, hrs, fun σ h t ht r hr κ hκ => ?_⟩
  have e := fileNumber hu S hC hoff hrs (name := "MAC_scaling_factor") (f := fun p r => p.MAC_scaling_factor r)
    (by simp [Spec.regionalNumbers]) (by simp) hcm hr hκ
  rw [(h.eqs.mitigation.carbonprice t ht r hr).2, (h.eqs.mitigation.area t ht r hr).2, macVal, acVal, e]
  exact ⟨rfl, rfl⟩

/-- **C69.** The initial capital of a region, with the factor that the regional file gives for that region. -/
theorem C69_initial_capital (hu : user.WF) (S : Setup B uni F W user c params tree md entries) {C : Spec.Choices}
    (hC : Spec.Chosen B user C) (hoff : Spec.CombinedOff user) (hcm : Spec.Unmapped user ["init_capitalstock_factor"]) :
    ∃ rs, newRegionalStore F params = .ok rs ∧
      ∀ σ, Solution md (paramsOf entries) σ → ∀ r ∈ (paramsOf entries).regions,
        ∀ k, Spec.FileNumber B rs "economics" "init_capital_factor" r k →
          σ.R .capital_stock 0 r = k * (paramsOf entries).baseline_GDP 0 r := by
  obtain ⟨rs, hrs, -⟩ := C69_numbers hu S hC hoff (name := "init_capitalstock_factor") (cat := "economics")
    (col := "init_capital_factor") (f := fun p r => p.init_capitalstock_factor r) (by simp [Spec.regionalNumbers])
    (by simp) hcm
  refine ⟨rs, hrs, fun σ h r hr k hk => ?_⟩
  have e := fileNumber hu S hC hoff hrs (name := "init_capitalstock_factor")
    (f := fun p r => p.init_capitalstock_factor r) (by simp [Spec.regionalNumbers]) (by simp) hcm hr hk
  have := h.eqs.economy.capital_init r hr
  rw [e] at this
  exact this

/-- **C69.** The mortality rates of a region: quadratic functions of temperature with the coefficients that the regional
file gives for that region and age group. -/
theorem C69_mortality (hu : user.WF) (S : Setup B uni F W user c params tree md entries) {C : Spec.Choices}
    (hC : Spec.Chosen B user C) (hoff : Spec.CombinedOff user) (hd : md.damage = .COACCH) {age : String} {v : RVar}
    (hage : (age, v) ∈ [("oldest", RVar.mortality_oldest), ("older", .mortality_older), ("young", .mortality_young)])
    (hcm : Spec.Unmapped user
      ["mortality_param_" ++ age ++ "_a", "mortality_param_" ++ age ++ "_b", "mortality_param_" ++ age ++ "_c"]) :
    ∃ rs, newRegionalStore F params = .ok rs ∧
      ∀ σ, Solution md (paramsOf entries) σ → ∀ t ≤ (paramsOf entries).tf, ∀ r ∈ (paramsOf entries).regions,
        ∀ x y z, Spec.FileNumber B rs "mortality" (age ++ "_a") r x → Spec.FileNumber B rs "mortality" (age ++ "_b") r y →
          Spec.FileNumber B rs "mortality" (age ++ "_c") r z →
          σ.R v t r = x + y * σ.G .temperature t + z * σ.G .temperature t ^ 2 := by
  obtain ⟨rs, hrs, -⟩ := C69_numbers hu S hC hoff (name := "mortality_param_" ++ age ++ "_a") (cat := "mortality")
    (col := age ++ "_a") (f := fun p r => if age = "oldest" then p.mortality_oldest.a r else
      if age = "older" then p.mortality_older.a r else p.mortality_young.a r)
    (by
      simp only [List.mem_cons, Prod.mk.injEq, List.not_mem_nil, or_false] at hage
      rcases hage with ⟨rfl, rfl⟩ | ⟨rfl, rfl⟩ | ⟨rfl, rfl⟩ <;> simp [Spec.regionalNumbers]) (.inl hd)
    (hcm.mono (by simp; tauto))
  refine ⟨rs, hrs, fun σ h t ht r hr x y z hx hy hz => ?_⟩
  have e := h.eqs.damages
  rw [hd] at e
  simp only [List.mem_cons, Prod.mk.injEq, List.not_mem_nil, or_false] at hage
  rcases hage with ⟨rfl, rfl⟩ | ⟨rfl, rfl⟩ | ⟨rfl, rfl⟩
  · have ex := fileNumber hu S hC hoff hrs (name := "mortality_param_oldest_a") (f := fun p r => p.mortality_oldest.a r)
      (by simp [Spec.regionalNumbers]) (.inl hd) (hcm.mono (by simp; tauto)) hr hx
    have ey := fileNumber hu S hC hoff hrs (name := "mortality_param_oldest_b") (f := fun p r => p.mortality_oldest.b r)
      (by simp [Spec.regionalNumbers]) (.inl hd) (hcm.mono (by simp; tauto)) hr hy
    have ez := fileNumber hu S hC hoff hrs (name := "mortality_param_oldest_c") (f := fun p r => p.mortality_oldest.c r)
      (by simp [Spec.regionalNumbers]) (.inl hd) (hcm.mono (by simp; tauto)) hr hz
    rw [e.mort_oldest t ht r hr, ex, ey, ez]
  · have ex := fileNumber hu S hC hoff hrs (name := "mortality_param_older_a") (f := fun p r => p.mortality_older.a r)
      (by simp [Spec.regionalNumbers]) (.inl hd) (hcm.mono (by simp; tauto)) hr hx
    have ey := fileNumber hu S hC hoff hrs (name := "mortality_param_older_b") (f := fun p r => p.mortality_older.b r)
      (by simp [Spec.regionalNumbers]) (.inl hd) (hcm.mono (by simp; tauto)) hr hy
    have ez := fileNumber hu S hC hoff hrs (name := "mortality_param_older_c") (f := fun p r => p.mortality_older.c r)
      (by simp [Spec.regionalNumbers]) (.inl hd) (hcm.mono (by simp; tauto)) hr hz
    rw [e.mort_older t ht r hr, ex, ey, ez]
  · have ex := fileNumber hu S hC hoff hrs (name := "mortality_param_young_a") (f := fun p r => p.mortality_young.a r)
      (by simp [Spec.regionalNumbers]) (.inl hd) (hcm.mono (by simp; tauto)) hr hx
    have ey := fileNumber hu S hC hoff hrs (name := "mortality_param_young_b") (f := fun p r => p.mortality_young.b r)
      (by simp [Spec.regionalNumbers]) (.inl hd) (hcm.mono (by simp; tauto)) hr hy
    have ez := fileNumber hu S hC hoff hrs (name := "mortality_param_young_c") (f := fun p r => p.mortality_young.c r)
      (by simp [Spec.regionalNumbers]) (.inl hd) (hcm.mono (by simp; tauto)) hr hz
    rw [e.mort_young t ht r hr, ex, ey, ez]

/-! ## A concrete case: in Canada all coefficients are 2 and the functional forms are linear -/

/-- The columns read below. -/
def choicesColumns : List (String × String) :=
  [("economics", "init_capital_factor"), ("MAC", "kappa_rel_abatement_0.5_2050"),
   ("COACCH", "NoSLR_a (q=1.5)"), ("COACCH", "NoSLR_b1"), ("COACCH", "NoSLR_b2"), ("COACCH", "NoSLR_b3"),
   ("COACCH", "SLR-NoAd_a (q=1.5)"), ("COACCH", "SLR-NoAd_b1"), ("COACCH", "SLR-NoAd_b2"), ("COACCH", "SLR-NoAd_b3"),
   ("mortality", "older_a"), ("mortality", "older_b"), ("mortality", "older_c")]

theorem choices_cells {params tree md entries rs} (S : Setup choicesBuiltins (fun _ => false) choicesFiles choicesWorld
      (choicesUser false) (afterHistory choicesWorld []) params tree md entries)
    (hrs : newRegionalStore choicesFiles params = .ok rs) :
    (∀ cc ∈ choicesColumns, Spec.FileNumber choicesBuiltins rs cc.1 cc.2 "CAN" 2) ∧
    Spec.FileText choicesBuiltins rs "COACCH" "NoSLR_form" "CAN" "Robust-Linear" ∧
    Spec.FileText choicesBuiltins rs "COACCH" "SLR-NoAd_form" "CAN" "Robust-Linear" := by
  have key : (match mimosaParams choicesBuiltins (fun _ => false) DefaultYaml.entries (choicesUser false) with
      | .error _ => true
      | .ok (params, _) => match newRegionalStore choicesFiles params with
        | .error _ => true
        | .ok rs => choicesColumns.all (fun cc => cellIs 2 (rs.getRegional choicesBuiltins cc.1 cc.2 "CAN")) &&
          textIs "Robust-Linear" (rs.getRegional choicesBuiltins "COACCH" "NoSLR_form" "CAN") &&
          textIs "Robust-Linear" (rs.getRegional choicesBuiltins "COACCH" "SLR-NoAd_form" "CAN")) = true := by
    decide +kernel
  rw [S.config] at key
  simp only at key
  rw [hrs] at key
  simp only [Bool.and_eq_true, List.all_eq_true] at key
  obtain ⟨⟨k1, k2⟩, k3⟩ := key
  exact ⟨fun cc hcc => ⟨_, cellIs_spec (k1 cc hcc), by simp [Val.num]⟩, textIs_spec k2, textIs_spec k3⟩

theorem linear_curve (b1 b2 b3 x : ℝ) : Spec.Curve "Robust-Linear" b1 b2 b3 x (b1 * x) :=
  ⟨fun _ => rfl, fun h => absurd (by decide) h, fun h => absurd (by decide) h⟩

example : ∃ params tree md entries, Setup choicesBuiltins (fun _ => false) choicesFiles choicesWorld (choicesUser false)
    (afterHistory choicesWorld []) params tree md entries ∧ ∀ σ, Solution md (paramsOf entries) σ →
      σ.R .capital_stock 0 "CAN" = 2 * (paramsOf entries).baseline_GDP 0 "CAN" ∧
      ∀ t ≤ (paramsOf entries).tf,
        σ.R .damage_costs_non_slr t "CAN" = (paramsOf entries).damage_scale_factor *
          (2 * (2 * (σ.G .temperature t - 0.6) - 2 * ((paramsOf entries).T0 - 0.6)) / 100) ∧
        σ.R .damage_costs_slr t "CAN" = (paramsOf entries).damage_scale_factor *
          (2 * (2 * σ.G .total_SLR t - 2 * σ.G .total_SLR 0) / 100) ∧
        σ.R .carbonprice t "CAN" = σ.G .learning_factor t * 2 * (paramsOf entries).MAC_gamma *
          σ.R .relative_abatement t "CAN" ^ (paramsOf entries).MAC_beta ∧
        σ.R .mortality_older t "CAN" = 2 + 2 * σ.G .temperature t + 2 * σ.G .temperature t ^ 2 := by
  obtain ⟨params, tree, md, entries, rs, S, hr, hrs, -⟩ := choicesSetup false
  have hu := choicesUser_wf false
  have hd : md.damage = .COACCH := (C67_defaults hu S).1 rfl
  have hoff : Spec.CombinedOff (choicesUser false) := ⟨_, .inl rfl, by simp [WrittenFalse]⟩
  obtain ⟨cell, hf1, hf2⟩ := choices_cells S hrs
  have hC := choices_chosen false
  obtain ⟨rs₁, hrs₁, h₁⟩ := C69_temperature_damages hu S hC hoff hd (choices_unmapped _ _)
  obtain ⟨rs₂, hrs₂, h₂⟩ := C69_sea_level_damages hu S hC hoff hd (choices_unmapped _ _)
  obtain ⟨rs₃, hrs₃, h₃⟩ := C69_abatement_costs hu S hC hoff (choices_unmapped _ _)
  obtain ⟨rs₄, hrs₄, h₄⟩ := C69_initial_capital hu S hC hoff (choices_unmapped _ _)
  obtain ⟨rs₅, hrs₅, h₅⟩ := C69_mortality hu S hC hoff hd (age := "older") (v := .mortality_older) (by simp)
    (choices_unmapped _ _)
  rw [hrs] at hrs₁ hrs₂ hrs₃ hrs₄ hrs₅
  cases hrs₁; cases hrs₂; cases hrs₃; cases hrs₄; cases hrs₅
  have hm : "CAN" ∈ (paramsOf entries).regions := by simp [hr]
  refine ⟨params, tree, md, entries, S, fun σ h => ⟨h₄ σ h "CAN" hm 2 (cell ("economics", "init_capital_factor")
    (by simp [choicesColumns])), fun t ht => ⟨?_, ?_, ?_, ?_⟩⟩⟩
  · exact h₁ σ h t ht "CAN" hm "Robust-Linear" 2 2 2 2
      ⟨hf1, cell ("COACCH", "NoSLR_a (q=1.5)") (by simp [choicesColumns]), cell ("COACCH", "NoSLR_b1") (by simp [choicesColumns]),
        cell ("COACCH", "NoSLR_b2") (by simp [choicesColumns]), cell ("COACCH", "NoSLR_b3") (by simp [choicesColumns])⟩
      _ _ (linear_curve 2 2 2 _) (linear_curve 2 2 2 _)
  · exact h₂ σ h t ht "CAN" hm "Robust-Linear" 2 2 2 2
      ⟨hf2, cell ("COACCH", "SLR-NoAd_a (q=1.5)") (by simp [choicesColumns]), cell ("COACCH", "SLR-NoAd_b1") (by simp [choicesColumns]),
        cell ("COACCH", "SLR-NoAd_b2") (by simp [choicesColumns]), cell ("COACCH", "SLR-NoAd_b3") (by simp [choicesColumns])⟩
      _ _ (linear_curve 2 2 2 _) (linear_curve 2 2 2 _)
  · exact (h₃ σ h t ht "CAN" hm 2 (cell ("MAC", "kappa_rel_abatement_0.5_2050") (by simp [choicesColumns]))).1
  · exact h₅ σ h t ht "CAN" hm 2 2 2 (cell ("mortality", "older_a") (by simp [choicesColumns]))
      (cell ("mortality", "older_b") (by simp [choicesColumns])) (cell ("mortality", "older_c") (by simp [choicesColumns]))

end Mimosa
