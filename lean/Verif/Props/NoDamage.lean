import Verif.Props.Compare
import Verif.Props.Climate
import Verif.Props.ExamplesFree
import Verif.Props.Optimum

/-!
# C70: three ways to switch damages off
-/

set_option linter.unusedVariables false

namespace Mimosa
open Damages

variable {md : Modules} {p : Params} {σ : Env}

/-- The variables about damages and heat mortality. -/
def Spec.damageVars : List RVar :=
  [.damage_costs, .damage_costs_non_slr, .damage_costs_slr, .mortality_oldest, .mortality_older, .mortality_young,
   .mortality_cost_oldest]

/-- The functional forms in the data: linear, quadratic, or logistic with a nonnegative `b2`, estimated robustly or by
ordinary least squares. -/
def Spec.DataForm (d : DamageCoeffs) (r : String) : Prop :=
  d.form r ∈ ["Robust-Linear", "OLS-Linear"] ∨ d.form r ∈ ["Robust-Quadratic", "OLS-Quadratic"] ∨
    (d.form r ∈ ["Robust-Logistic", "OLS-Logistic"] ∧ 0 ≤ d.b2 r)

/-- All regions have such functional forms. -/
def Spec.DataForms (p : Params) : Prop := ∀ r ∈ p.regions, Spec.DataForm p.noslr r ∧ Spec.DataForm p.slr r

theorem Spec.DataForm.ok {d : DamageCoeffs} {r : String} (h : Spec.DataForm d r) (x : ℝ) : FormOk x d r := by
  simp only [Spec.DataForm, List.mem_cons, List.not_mem_nil, or_false] at h
  rcases h with h | h | ⟨h, h'⟩
  · exact .inl (by rcases h with h | h <;> rw [h] <;> decide)
  · exact .inr (.inl (by rcases h with h | h <;> rw [h] <;> decide))
  · refine .inr (.inr ⟨by rcases h with h | h <;> rw [h] <;> decide, ?_, by positivity⟩)
    have := Real.exp_pos (soft_max (-(d.b3 r) * x) 10 (1 / 10))
    positivity

/-- The parameters `p` with the damage functions, mortality functions and damage scale factor of `q`. -/
abbrev Params.withDamages (p q : Params) : Params := { p with
    damage_scale_factor := q.damage_scale_factor
    noslr := q.noslr
    slr := q.slr
    mortality_oldest := q.mortality_oldest
    mortality_older := q.mortality_older
    mortality_young := q.mortality_young
    ignore_damages := q.ignore_damages }

/-- **C70.** With `damage module: nodamage` the damage settings have no effect at all. -/
theorem C70_settings_unused (q : Params) (h : Solution md p σ) (hd : md.damage = .nodamage) :
    Solution md (p.withDamages q) σ := by
  obtain ⟨htr, hr, c, hb, e⟩ := solution_char.1 h
  have htfp : ∀ t r, get_TFP_value (p.withDamages q) t r = get_TFP_value p t r := fun t r =>
    TFP_congr (p := p) (p' := p.withDamages q) rfl (fun _ => rfl) rfl rfl rfl (fun _ => rfl) rfl t
  have hcal : ∀ t r, calibCapital (p.withDamages q) r t = calibCapital p r t := fun t r =>
    calibCapital_congr (p := p) (p' := p.withDamages q) rfl (fun _ => rfl) rfl rfl rfl t
  have hz : ∀ t ≤ p.tf, ∀ r ∈ p.regions, σ.R .damage_costs t r = 0 := by
    have := e.damages; rw [hd] at this; exact this
  refine solution_char.2 ⟨htr, hr, ⟨?_, c.overshoot, c.index, ?_, c.allowances⟩, ?_,
    ⟨{ e.emissions with }, { e.slr with }, ?_, ?_, ?_, ?_, ?_, ?_, ?_, ?_⟩⟩
  · exact { c.init with
      cap_pow := fun t ht r hr => by rw [hcal]; exact c.init.cap_pow t ht r hr
      tfp_ne := fun t ht r hr => by rw [hcal]; exact c.init.tfp_ne t ht r hr }
  · intro h1; rw [hd] at h1; cases h1
  · intro d hd
    have := sameBounds (p := p) (p' := p.withDamages q) rfl d hd
    have hbd := hb d hd
    cases d <;> simp only [VarDecl.SameBounds] at this <;> simp only [VarDecl.BoundsOk, this] <;> exact hbd
  · rw [hd]; exact hz
  · exact { e.mitigation with }
  · have := e.trade
    revert this htr
    cases md.trade
    · exact fun _ => id
    · intro h; exact absurd rfl h
    · intro _ this; exact { (this : TradeEqs p σ) with }
  · have := e.transfer
    revert this
    cases md.transfer
    · exact id
    · intro this; exact { (this : PoolEqs p σ) with }
  · exact { e.effort with }
  · exact { e.economy with
      gross := fun t ht r hr => by rw [htfp]; exact e.economy.gross t ht r hr
      net := fun t ht r hr => by
        have := e.economy.net t ht r hr
        rw [hz t ht r hr] at this ⊢
        rw [this]
        simp }
  · have := e.welfare
    revert this
    cases md.welfare <;> exact id
  · have := e.objective
    revert this
    cases md.objective <;> exact id

/-- **C70.** With damage scale factor 0, a solution with the COACCH module is a solution without damages. -/
theorem C70_scale_zero (h : Solution md p σ) (hd : md.damage = .COACCH) (hs : p.damage_scale_factor = 0) :
    Solution { md with damage := .nodamage } p σ := by
  obtain ⟨d, tr, tm, w, o⟩ := md
  cases hd
  obtain ⟨htr, hr, c, hb, e⟩ := solution_char.1 h
  have ed : CoacchEqs p σ := e.damages
  refine solution_char.2 ⟨htr, hr, ⟨c.init, c.overshoot, c.index, fun h => (by cases h), c.allowances⟩, ?_,
    ⟨e.emissions, e.slr, ?_, e.mitigation, e.trade, e.transfer, e.effort, e.economy, e.welfare, e.objective⟩⟩
  · intro d' hd'
    simp only [allVars, components, List.flatMap_cons, List.flatMap_nil, List.append_nil, List.mem_append] at hd' hb
    rcases hd' with h | h | h | h | h | h | h | h | h | h
    on_goal 3 =>
      simp only [damageComponent, Damages.nodamage, List.mem_cons, List.not_mem_nil, or_false] at h
      subst h
      simp [VarDecl.BoundsOk, noBound]
    all_goals exact hb _ (by simp only [h, true_or, or_true])
  · intro t ht r hr
    rw [ed.total t ht r hr, (ed.noslr t ht r hr).2.2, (ed.slr t ht r hr).2.2, hs]
    ring


/-- The values of `σ`, completed with the mortality of its temperatures and the damages of its temperatures and
sea-level rise. -/
noncomputable def fillDamages (p : Params) (σ : Env) : Env where
  g := σ.g
  r v t r := match v with
    | .damage_costs =>
        p.damage_scale_factor * (formVal (σ.g .temperature t - 0.6) p.noslr r - formVal (p.T0 - 0.6) p.noslr r) +
        p.damage_scale_factor * (formVal (σ.g .total_SLR t) p.slr r - formVal (σ.g .total_SLR 0) p.slr r)
    | .damage_costs_non_slr =>
        p.damage_scale_factor * (formVal (σ.g .temperature t - 0.6) p.noslr r - formVal (p.T0 - 0.6) p.noslr r)
    | .damage_costs_slr =>
        p.damage_scale_factor * (formVal (σ.g .total_SLR t) p.slr r - formVal (σ.g .total_SLR 0) p.slr r)
    | .mortality_oldest => p.mortality_oldest.a r + p.mortality_oldest.b r * σ.g .temperature t +
        p.mortality_oldest.c r * σ.g .temperature t ^ 2
    | .mortality_older => p.mortality_older.a r + p.mortality_older.b r * σ.g .temperature t +
        p.mortality_older.c r * σ.g .temperature t ^ 2
    | .mortality_young => p.mortality_young.a r + p.mortality_young.b r * σ.g .temperature t +
        p.mortality_young.c r * σ.g .temperature t ^ 2
    | .mortality_cost_oldest => (p.mortality_oldest.a r + p.mortality_oldest.b r * σ.g .temperature t +
        p.mortality_oldest.c r * σ.g .temperature t ^ 2) * p.population t.toNat r * 10000 *
          statistical_value_life_oldest
    | v => σ.r v t r

/-- The values of `σ` with damages of zero. -/
noncomputable def dropDamages (σ : Env) : Env where
  g := σ.g
  r v t r := match v with
    | .damage_costs => 0
    | v => σ.r v t r

theorem fillDamages_r {v : RVar} (t r) (h : v ∉ Spec.damageVars) : (fillDamages p σ).r v t r = σ.r v t r := by
  cases v <;> first | rfl | exact absurd (by decide) h

theorem dropDamages_r {v : RVar} (t r) (h : v ≠ .damage_costs) : (dropDamages σ).r v t r = σ.r v t r := by
  cases v <;> first | rfl | exact absurd rfl h

/-- Not about damages. -/
private def NoDam (d : VarDecl) : Prop := ∀ v lb ub, d = .regional v lb ub → v ∉ Spec.damageVars

/-- A declared variable is declared by the damage module, or declared whichever damage module is used, and then it is
not about damages. -/
private theorem other_vars {d : DamageModule} (d' : VarDecl) (hd' : d' ∈ allVars { md with damage := d }) :
    d' ∈ (damageComponent d).vars ∨ (d' ∈ allVars md ∧ NoDam d') := by
  obtain ⟨d0, tr, tm, w, o⟩ := md
  have h1 : ∀ d ∈ Emissions.component.vars, NoDam d := by simp [Emissions.component, NoDam, Spec.damageVars]
  have h2 : ∀ d ∈ SeaLevelRise.component.vars, NoDam d := by simp [SeaLevelRise.component, NoDam, Spec.damageVars]
  have h4 : ∀ d ∈ (Mitigation.component tr).vars, NoDam d := by
    simp [Mitigation.component, NoDam, Spec.damageVars]
  have h5 : ∀ d ∈ (EmissionTrade.component tr).vars, NoDam d := by
    cases tr <;> simp [EmissionTrade.component, EmissionTrade.notrade, EmissionTrade.globalcostpool,
      EmissionTrade.emissiontrade, NoDam, Spec.damageVars]
  have h6 : ∀ d ∈ (FinTransfer.component tm).vars, NoDam d := by
    cases tm <;> simp [FinTransfer.component, FinTransfer.notransfer, FinTransfer.globaldamagepool,
      NoDam, Spec.damageVars]
  have h7 : ∀ d ∈ (EffortSharing.component tm).vars, NoDam d := by
    simp [EffortSharing.component, NoDam, Spec.damageVars]
  have h8 : ∀ d ∈ (CobbDouglas.component tm).vars, NoDam d := by
    simp [CobbDouglas.component, NoDam, Spec.damageVars]
  have h9 : ∀ d ∈ (Welfare.component w).vars, NoDam d := by
    cases w <;> simp [Welfare.component, NoDam, Spec.damageVars]
  have h10 : ∀ d ∈ (Objective.component o).vars, NoDam d := by
    cases o <;> simp [Objective.component, NoDam, Spec.damageVars]
  simp only [allVars, components, List.flatMap_cons, List.flatMap_nil, List.append_nil, List.mem_append] at hd' ⊢
  rcases hd' with h | h | h | h | h | h | h | h | h | h
  · exact .inr ⟨by simp only [h, true_or, or_true], h1 _ h⟩
  · exact .inr ⟨by simp only [h, true_or, or_true], h2 _ h⟩
  · exact .inl h
  · exact .inr ⟨by simp only [h, true_or, or_true], h4 _ h⟩
  · exact .inr ⟨by simp only [h, true_or, or_true], h5 _ h⟩
  · exact .inr ⟨by simp only [h, true_or, or_true], h6 _ h⟩
  · exact .inr ⟨by simp only [h, true_or, or_true], h7 _ h⟩
  · exact .inr ⟨by simp only [h, true_or, or_true], h8 _ h⟩
  · exact .inr ⟨by simp only [h, true_or, or_true], h9 _ h⟩
  · exact .inr ⟨by simp only [h, true_or, or_true], h10 _ h⟩

/-- The situations in which a wrong damage level is not seen by the rest of the model: damages are ignored, no transfers,
no equal total costs, and welfare is what is maximised. -/
structure Spec.DamagesUnseen (md : Modules) (p : Params) : Prop where
  ignored : p.ignore_damages = true
  transfer : md.transfer = .notransfer
  regime : p.effort_sharing_regime ≠ "equal_total_costs"
  objective : md.objective = .utility

/-- `σ` with the damages and mortality of `f`. -/
private def mixDamages (σ : Env) (f : RVar → ℤ → String → ℝ) : Env where
  g := σ.g
  r v t r := match v with
    | .damage_costs => f .damage_costs t r
    | .damage_costs_non_slr => f .damage_costs_non_slr t r
    | .damage_costs_slr => f .damage_costs_slr t r
    | .mortality_oldest => f .mortality_oldest t r
    | .mortality_older => f .mortality_older t r
    | .mortality_young => f .mortality_young t r
    | .mortality_cost_oldest => f .mortality_cost_oldest t r
    | v => σ.r v t r

private theorem mix_eq {σ' : Env} (hg : σ'.g = σ.g) (hr : ∀ v ∉ Spec.damageVars, ∀ t r, σ'.r v t r = σ.r v t r) :
    σ' = mixDamages σ σ'.r := by
  obtain ⟨g', r'⟩ := σ'
  cases hg
  unfold mixDamages
  congr 1
  funext v t r
  by_cases h : v ∈ Spec.damageVars
  · simp only [Spec.damageVars, List.mem_cons, List.not_mem_nil, or_false] at h
    rcases h with rfl | rfl | rfl | rfl | rfl | rfl | rfl <;> rfl
  · have := hr v h t r
    cases v <;> first | exact this | exact absurd (by decide) h

/-- All equations outside the damage module hold for values that differ only in damages and mortality, when the damage
level is the same or unseen. -/
private theorem other_eqs {σ' : Env} {d : DamageModule} (h : AllEqs p σ md) (hg : σ'.g = σ.g)
    (hr : ∀ v ∉ Spec.damageVars, ∀ t r, σ'.r v t r = σ.r v t r)
    (hu : (∀ t ≤ p.tf, ∀ r ∈ p.regions, σ'.R .damage_costs t r = σ.R .damage_costs t r) ∨ Spec.DamagesUnseen md p)
    (htr : md.trade ≠ .globalcostpool)
    (hdam : DamageEqs p σ' d) :
    AllEqs p σ' { md with damage := d } := by
  have hm := mix_eq hg hr
  rw [hm] at hu hdam ⊢
  obtain ⟨d0, tr, tm, w, o⟩ := md
  refine ⟨{ h.emissions with }, { h.slr with }, hdam, { h.mitigation with }, ?_, ?_, ?_, ?_, ?_, ?_⟩
  · have := h.trade
    revert this htr
    cases tr
    · exact fun _ => id
    · exact fun h => absurd rfl h
    · intro _ this; exact { (this : TradeEqs p σ) with }
  · have := h.transfer
    revert this hu
    cases tm
    · exact fun _ => id
    · intro hu this
      rcases hu with hu | ⟨-, hu, -, -⟩
      · exact { (this : PoolEqs p σ) with
          max_own := fun t ht r hr => by rw [hu t ht r hr]; exact (this : PoolEqs p σ).max_own t ht r hr }
      · cases hu
  · cases tm
    all_goals exact
      { mitigation := h.effort.mitigation
        percap := h.effort.percap
        total := fun t ht r hr hreg hy => by
          rcases hu with hu | hu
          · rw [hu t ht r hr]; exact h.effort.total t ht r hr hreg hy
          · exact absurd hreg hu.regime }
  · cases tm
    all_goals exact
      { h.economy with
        net := fun t ht r hr => by
          have := h.economy.net t ht r hr
          rcases hu with hu | hu
          · rw [hu t ht r hr]; exact this
          · rw [hu.ignored, if_pos rfl] at this ⊢; exact this }
  · have := h.welfare
    revert this
    cases w <;> exact id
  · have := h.objective
    revert this hu
    cases o
    · exact fun _ => id
    · rintro hu ⟨h1, h2⟩
      rcases hu with hu | ⟨-, -, -, hu⟩
      · refine ⟨fun t ht => ?_, h2⟩
        have h3 := h1 t ht
        have h4 : p.sumR (fun r => (mixDamages σ σ'.r).R .damage_costs (t + 1) r * (mixDamages σ σ'.r).R .GDP_gross (t + 1) r) =
            p.sumR (fun r => σ.R .damage_costs (t + 1) r * σ.R .GDP_gross (t + 1) r) :=
          sumR_congr fun r hr => by
            have := hu (t + 1) ht r hr
            rw [this]; rfl
        rw [h4]; exact h3
      · cases hu

/-- Bounds hold for values that differ only in damages and mortality. -/
private theorem other_bounds {σ' : Env} {d : DamageModule} (hb : ∀ d ∈ allVars md, d.BoundsOk p σ) (hg : σ'.g = σ.g)
    (hr : ∀ v ∉ Spec.damageVars, ∀ t r, σ'.r v t r = σ.r v t r)
    (hd : ∀ d' ∈ (damageComponent d).vars, d'.BoundsOk p σ') :
    ∀ d' ∈ allVars { md with damage := d }, d'.BoundsOk p σ' := by
  intro d' h
  rcases other_vars d' h with h | ⟨h, h'⟩
  · exact hd d' h
  · have := hb d' h
    cases d' with
    | global v lb ub => simpa only [VarDecl.BoundsOk, hg] using this
    | regional v lb ub => simpa only [VarDecl.BoundsOk, hr v (h' v lb ub rfl)] using this

/-- **C70.** Conversely, with damage scale factor 0 a solution without damages is a solution with the COACCH module,
whose damages are then zero; no other value changes. -/
theorem C70_nodamage_is_scale_zero (h : Solution md p σ) (hd : md.damage = .nodamage) (hs : p.damage_scale_factor = 0)
    (hf : Spec.DataForms p) :
    ∃ σ', Solution { md with damage := .COACCH } p σ' ∧ (∀ v t, σ'.G v t = σ.G v t) ∧
      (∀ v ∉ Spec.damageVars, ∀ t r, σ'.R v t r = σ.R v t r) ∧
      ∀ t r, σ'.R .damage_costs t r = 0 ∧ σ'.R .damage_costs_non_slr t r = 0 ∧ σ'.R .damage_costs_slr t r = 0 := by
  obtain ⟨htr, hr, c, hb, e⟩ := solution_char.1 h
  have hz : ∀ t ≤ p.tf, ∀ r ∈ p.regions, σ.R .damage_costs t r = 0 := by
    have := e.damages; rw [hd] at this; exact this
  have z1 : ∀ t r, (fillDamages p σ).r .damage_costs t r = 0 := fun t r => by simp [fillDamages, hs]
  have z2 : ∀ t r, (fillDamages p σ).r .damage_costs_non_slr t r = 0 := fun t r => by simp [fillDamages, hs]
  have z3 : ∀ t r, (fillDamages p σ).r .damage_costs_slr t r = 0 := fun t r => by simp [fillDamages, hs]
  refine ⟨fillDamages p σ, solution_char.2 ⟨htr, hr, ⟨c.init, c.overshoot, c.index, ?_, c.allowances⟩, ?_, ?_⟩,
    fun _ _ => rfl, fun v hv t r => fillDamages_r _ r hv, fun t r => ⟨z1 t r, z2 t r, z3 t r⟩⟩
  · exact fun _ r hr => ⟨Drivers.formOk_known ((hf r hr).1.ok 0), Drivers.formOk_known ((hf r hr).2.ok 0)⟩
  · refine other_bounds hb rfl (fun v hv t r => fillDamages_r t r hv) ?_
    intro d' h'
    simp only [damageComponent, Damages.coacch, List.mem_cons, List.not_mem_nil, or_false] at h'
    rcases h' with rfl | rfl | rfl | rfl | rfl | rfl | rfl <;> simp [VarDecl.BoundsOk, noBound]
    intro t ht r hr
    rw [z3]; norm_num
  · refine other_eqs e rfl (fun v hv t r => fillDamages_r t r hv) (.inl fun t ht r hr => ?_) htr ?_
    · rw [hz t ht r hr]; exact z1 t r
    · exact
        { total := fun _ _ _ _ => rfl
          noslr := fun t ht r hr => ⟨(hf r hr).1.ok _, (hf r hr).1.ok _, rfl⟩
          slr := fun t ht r hr => ⟨(hf r hr).2.ok _, (hf r hr).2.ok _, rfl⟩
          mort_oldest := fun _ _ _ _ => rfl
          mort_older := fun _ _ _ _ => rfl
          mort_young := fun _ _ _ _ => rfl
          mort_cost := fun t _ r _ => rfl }

/-- **C70.** When damages are ignored, unseen by transfers, equal total costs and the objective, a solution with the
COACCH module is a solution without damages once its damages are dropped. -/
theorem C70_ignored (h : Solution md p σ) (hu : Spec.DamagesUnseen md p) :
    ∃ σ', Solution { md with damage := .nodamage } p σ' ∧ (∀ v t, σ'.G v t = σ.G v t) ∧
      ∀ v, v ≠ .damage_costs → ∀ t r, σ'.R v t r = σ.R v t r := by
  obtain ⟨htr, hr, c, hb, e⟩ := solution_char.1 h
  have hv : ∀ v ∉ Spec.damageVars, ∀ t r, (dropDamages σ).r v t r = σ.r v t r := fun v hv t r =>
    dropDamages_r t r (by rintro rfl; exact hv (by decide))
  refine ⟨dropDamages σ, solution_char.2 ⟨htr, hr, ⟨c.init, c.overshoot, c.index, fun h => (by cases h), c.allowances⟩,
    ?_, ?_⟩, fun _ _ => rfl, fun v hv t r => dropDamages_r _ r hv⟩
  · refine other_bounds hb rfl hv ?_
    intro d' h'
    simp only [damageComponent, Damages.nodamage, List.mem_cons, List.not_mem_nil, or_false] at h'
    subst h'
    simp [VarDecl.BoundsOk, noBound]
  · exact other_eqs e rfl hv (.inr hu) htr (fun _ _ _ _ => rfl)

/-- The sea-level damages that belong to the sea-level rise in `σ`. -/
noncomputable def Spec.slrDamages (p : Params) (σ : Env) (t : ℕ) (r : String) : ℝ :=
  p.damage_scale_factor * (formVal (σ.G .total_SLR t) p.slr r - formVal (σ.G .total_SLR 0) p.slr r)

/-- **C70.** Conversely a solution without damages is one with ignored damages, provided that the ignored sea-level
damages stay within their bounds of −50% and 70% of GDP. -/
theorem C70_ignored_conversely (h : Solution md p σ) (hu : Spec.DamagesUnseen md p) (hf : Spec.DataForms p)
    (hb' : ∀ t ≤ p.tf, ∀ r ∈ p.regions, -(1 / 2) ≤ Spec.slrDamages p σ t r ∧ Spec.slrDamages p σ t r ≤ 7 / 10) :
    ∃ σ', Solution { md with damage := .COACCH } p σ' ∧ (∀ v t, σ'.G v t = σ.G v t) ∧
      ∀ v ∉ Spec.damageVars, ∀ t r, σ'.R v t r = σ.R v t r := by
  obtain ⟨htr, hr, c, hb, e⟩ := solution_char.1 h
  refine ⟨fillDamages p σ, solution_char.2 ⟨htr, hr, ⟨c.init, c.overshoot, c.index, ?_, c.allowances⟩, ?_, ?_⟩,
    fun _ _ => rfl, fun v hv t r => fillDamages_r _ r hv⟩
  · exact fun _ r hr => ⟨Drivers.formOk_known ((hf r hr).1.ok 0), Drivers.formOk_known ((hf r hr).2.ok 0)⟩
  · refine other_bounds hb rfl (fun v hv t r => fillDamages_r t r hv) ?_
    intro d' h'
    simp only [damageComponent, Damages.coacch, List.mem_cons, List.not_mem_nil, or_false] at h'
    rcases h' with rfl | rfl | rfl | rfl | rfl | rfl | rfl <;> simp [VarDecl.BoundsOk, noBound]
    intro t ht r hr
    have h1 := hb' t ht r hr
    refine ⟨?_, h1.2⟩
    have := h1.1
    rw [neg_div]
    exact this
  · refine other_eqs e rfl (fun v hv t r => fillDamages_r t r hv) (.inr hu) htr ?_
    exact
        { total := fun _ _ _ _ => rfl
          noslr := fun t ht r hr => ⟨(hf r hr).1.ok _, (hf r hr).1.ok _, rfl⟩
          slr := fun t ht r hr => ⟨(hf r hr).2.ok _, (hf r hr).2.ok _, rfl⟩
          mort_oldest := fun _ _ _ _ => rfl
          mort_older := fun _ _ _ _ => rfl
          mort_young := fun _ _ _ _ => rfl
          mort_cost := fun t _ r _ => rfl }

/-- **C70.** So the optimum with damages scaled to zero is exactly as good as the optimum without damages. -/
theorem C70_optimum {τ : Env} (h : Optimal md p σ) (hd : md.damage = .nodamage) (hs : p.damage_scale_factor = 0)
    (hf : Spec.DataForms p) (h' : Optimal { md with damage := .COACCH } p τ) :
    Spec.objectiveValue md p σ = Spec.objectiveValue md p τ := by
  obtain ⟨σ', h1, h2, -, -⟩ := C70_nodamage_is_scale_zero h.1 hd hs hf
  have h3 := h'.best h1
  have h4 : Spec.objectiveValue { md with damage := .COACCH } p σ' = Spec.objectiveValue md p σ := by
    unfold Spec.objectiveValue
    rw [h2 .NPV p.tf]
  rw [h4] at h3
  have h5 := C70_scale_zero h'.1 rfl hs
  have h6 : ({ { md with damage := .COACCH } with damage := .nodamage } : Modules) = md := by
    rw [← hd]
  rw [h6] at h5
  exact le_antisymm h3 (h.best h5)

/-- **C70.** And the optimum with ignored damages is never better than the optimum without damages. -/
theorem C70_ignored_optimum {τ : Env} (h : Optimal md p σ) (hd : md.damage = .nodamage) (hu : Spec.DamagesUnseen md p)
    (h' : Optimal { md with damage := .COACCH } p τ) :
    Spec.objectiveValue md p τ ≤ Spec.objectiveValue md p σ := by
  obtain ⟨τ', h1, h2, -⟩ := C70_ignored h'.1 ⟨hu.ignored, hu.transfer, hu.regime, hu.objective⟩
  have h6 : ({ { md with damage := .COACCH } with damage := .nodamage } : Modules) = md := by
    rw [← hd]
  rw [h6] at h1
  have h3 := h.best h1
  have h4 : Spec.objectiveValue md p τ' = Spec.objectiveValue md p τ := by
    unfold Spec.objectiveValue
    rw [h2 .NPV p.tf]
  rwa [h4] at h3

namespace Ex

/-- The data without policy target, with the damages scaled to zero. -/
noncomputable def free0 : Params := free.withDamages { free with damage_scale_factor := 0 }
/-- The data without policy target, with the damages ignored. -/
noncomputable def freeI : Params := free.withDamages { free with ignore_damages := true }

theorem free_dataForms : Spec.DataForms free := by
  intro r hr
  have : r = "A" ∨ r = "B" := by simpa [free, ex] using hr
  rcases this with rfl | rfl <;> simp [Spec.DataForm, free, ex]

theorem free0_sol (w : WelfareModule) (o : ObjectiveModule) : Solution (md0 .nodamage w o) free0
    ((Path.x half).env (md0 .nodamage w o) free) := C70_settings_unused _ (free_sol .nodamage w o mild_half) rfl

theorem freeI_unseen (d : DamageModule) (w : WelfareModule) : Spec.DamagesUnseen (md0 d w .utility) freeI :=
  ⟨rfl, rfl, by simp [freeI, free, ex], rfl⟩

theorem freeI_sol (w : WelfareModule) (o : ObjectiveModule) : Solution (md0 .nodamage w o) freeI
    ((Path.x half).env (md0 .nodamage w o) free) := C70_settings_unused _ (free_sol .nodamage w o mild_half) rfl

theorem freeI_bounds (w : WelfareModule) : ∀ t ≤ freeI.tf, ∀ r ∈ freeI.regions,
    -(1 / 2) ≤ Spec.slrDamages freeI ((Path.x half).env (md0 .nodamage w .utility) free) t r ∧
    Spec.slrDamages freeI ((Path.x half).env (md0 .nodamage w .utility) free) t r ≤ 7 / 10 := by
  intro t ht r hr
  have h1 := free_sol .COACCH w .utility mild_half
  have h2 := h1.slr_damage_bounds rfl ht hr
  have h3 := (h1.eqs.damages.slr t ht r hr).2.2
  rw [h3] at h2
  refine ⟨?_, h2.2⟩
  have h4 := h2.1
  rw [neg_div] at h4
  exact h4

theorem free0_admissible : free0.Admissible := { free_admissible with }
theorem freeI_admissible : freeI.Admissible := { free_admissible with }

end Ex

open Ex

example (w : WelfareModule) (o : ObjectiveModule) :=
  C70_nodamage_is_scale_zero (free0_sol w o) rfl rfl free_dataForms
/-- Solutions of the COACCH module with scale factor 0 exist. -/
example (w : WelfareModule) (o : ObjectiveModule) : ∃ σ, Solution (md0 .nodamage w o) free0 σ := by
  obtain ⟨σ', h, -⟩ := C70_nodamage_is_scale_zero (free0_sol w o) rfl rfl free_dataForms
  exact ⟨σ', C70_scale_zero (md := md0 .COACCH w o) h rfl rfl⟩
example (w : WelfareModule) := C70_ignored_conversely (freeI_sol w .utility) (freeI_unseen _ w) free_dataForms (freeI_bounds w)
example (w : WelfareModule) : ∃ σ, Solution (md0 .nodamage w .utility) freeI σ := by
  obtain ⟨σ', h, -⟩ := C70_ignored_conversely (freeI_sol w .utility) (freeI_unseen _ w) free_dataForms (freeI_bounds w)
  obtain ⟨σ'', h', -⟩ := C70_ignored h (freeI_unseen .COACCH w)
  exact ⟨σ'', h'⟩
/-- Both optima exist. -/
example (w : WelfareModule) : ∃ σ τ, Optimal (md0 .nodamage w .utility) free0 σ ∧ Optimal (md0 .COACCH w .utility) free0 τ ∧
    Spec.objectiveValue (md0 .nodamage w .utility) free0 σ = Spec.objectiveValue (md0 .nodamage w .utility) free0 τ := by
  obtain ⟨σ', h', -⟩ := C70_nodamage_is_scale_zero (free0_sol w .utility) rfl rfl free_dataForms
  obtain ⟨σ, h1⟩ := C65_optimum_exists_exogenous (md := md0 .nodamage w .utility) free0_admissible (fun h => by cases h) rfl
    ⟨_, free0_sol w .utility⟩
  obtain ⟨τ, h2⟩ := C65_optimum_exists_exogenous (md := md0 .COACCH w .utility) free0_admissible
    (fun _ r hr x => ⟨(free_dataForms r hr).1.ok x, (free_dataForms r hr).2.ok x⟩) rfl ⟨σ', h'⟩
  exact ⟨σ, τ, h1, h2, C70_optimum h1 rfl rfl free_dataForms h2⟩
example (w : WelfareModule) : ∃ σ τ, Optimal (md0 .nodamage w .utility) freeI σ ∧ Optimal (md0 .COACCH w .utility) freeI τ ∧
    Spec.objectiveValue (md0 .nodamage w .utility) freeI τ ≤ Spec.objectiveValue (md0 .nodamage w .utility) freeI σ := by
  obtain ⟨σ', h', -⟩ := C70_ignored_conversely (freeI_sol w .utility) (freeI_unseen _ w) free_dataForms (freeI_bounds w)
  obtain ⟨σ, h1⟩ := C65_optimum_exists_exogenous (md := md0 .nodamage w .utility) freeI_admissible (fun h => by cases h) rfl
    ⟨_, freeI_sol w .utility⟩
  obtain ⟨τ, h2⟩ := C65_optimum_exists_exogenous (md := md0 .COACCH w .utility) freeI_admissible
    (fun _ r hr x => ⟨(free_dataForms r hr).1.ok x, (free_dataForms r hr).2.ok x⟩) rfl ⟨σ', h'⟩
  exact ⟨σ, τ, h1, h2, C70_ignored_optimum h1 rfl (freeI_unseen _ w) h2⟩

end Mimosa
