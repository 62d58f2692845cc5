import Verif.Props.Start
import Verif.Props.Compare
import Verif.Props.ExistenceCI
import Verif.Props.Optimum

/-!
# C73: the equations do not contradict the bounds
-/

set_option linter.unusedSimpArgs false

namespace Mimosa
open AbstractModel

variable {md : Modules} {p : Params} {σ : Env} {inst : AbstractModel.Instance}

/-- The parameters without targets, limits on emissions, cost floor and effort-sharing regime. -/
def Params.untargeted (p : Params) : Params := { p with
  temperature_target := none
  budget := none
  inertia_global := none
  inertia_regional := none
  global_min_level := none
  regional_min_level := none
  non_increasing_emissions_after_2100 := false
  no_pos_emissions_after_budget_year := false
  rel_mitigation_costs_min_level := 0
  effort_sharing_regime := "noregime" }

/-- Equations hold. -/
def EqOut (σ : Env) : RuleOut → Prop
  | .rel c => c.op = .eq → c.Holds σ
  | _ => True

/-- No equation. -/
def NoEq : RuleOut → Prop
  | .rel c => c.op ≠ .eq
  | _ => True

@[simp] theorem noEq_onlyIf (q : Prop) (c : Rel) (h : c.op ≠ .eq) : NoEq (.onlyIf q c) := by
  unfold RuleOut.onlyIf; split
  · exact h
  · trivial

theorem eqOut_of {o o' : RuleOut} (h : o = o' ∨ NoEq o) (hs : o'.Sat σ) : EqOut σ o := by
  rcases h with rfl | h
  · cases o with
    | rel c => exact fun _ => hs
    | skip => trivial
    | raise e => trivial
  · cases o with
    | rel c => exact fun he => absurd he h
    | skip => trivial
    | raise e => trivial

/-- The equations of the constraint are those without targets. -/
def Untouched (p : Params) (k : GeneralConstraint) : Prop := ∀ σ, k.Sat p.untargeted σ → AllOut (EqOut σ) p [k]

theorem untouched_regional {rule : Params → ℕ → String → RuleOut} {n : Option String}
    (h : ∀ t r, rule p t r = rule p.untargeted t r ∨ NoEq (rule p t r)) : Untouched p (.regional rule n) := by
  intro σ hs
  rw [sat_regional] at hs
  rw [allOut_regional]
  exact fun t ht r hr => eqOut_of (h t r) (hs t ht r hr)
theorem untouched_global {rule : Params → ℕ → RuleOut} {n : Option String}
    (h : ∀ t, rule p t = rule p.untargeted t ∨ NoEq (rule p t)) : Untouched p (.global rule n) := by
  intro σ hs
  rw [sat_global] at hs
  rw [allOut_global]
  exact fun t ht => eqOut_of (h t) (hs t ht)
theorem untouched_regionalInit {rule : Params → String → RuleOut} {n : Option String}
    (h : ∀ r, rule p r = rule p.untargeted r ∨ NoEq (rule p r)) : Untouched p (.regionalInit rule n) := by
  intro σ hs
  rw [sat_regionalInit] at hs
  rw [allOut_regionalInit]
  exact fun r hr => eqOut_of (h r) (hs r hr)
theorem untouched_globalInit {rule : Params → RuleOut} {n : Option String}
    (h : rule p = rule p.untargeted ∨ NoEq (rule p)) : Untouched p (.globalInit rule n) := by
  intro σ hs
  rw [sat_globalInit] at hs
  rw [allOut_globalInit]
  exact eqOut_of h hs
theorem untouched_soft {lhs rhs : Params → ℕ → String → Expr} {n : String} {e ae : Option ℝ}
    {ign : Params → ℕ → String → Prop} : Untouched p (.regionalSoft lhs rhs n e ae ign) := by
  intro σ hs
  rw [allOut_regionalSoft]
  have h : ∀ {q : Prop} {c : Rel}, c.op ≠ .eq → EqOut σ (.onlyIf q c) := fun {q c} h => by
    unfold RuleOut.onlyIf; split
    · exact fun he => absurd he h
    · trivial
  exact ⟨fun _ _ _ _ => h (by simp [Expr.ple]), fun _ _ _ _ => h (by simp [Expr.pge])⟩

/-- closes the goal if the rule does not use the changed settings -/
local macro "same" : tactic => `(tactic| first
  | exact untouched_global fun t => .inl rfl
  | exact untouched_globalInit (.inl rfl)
  | exact untouched_regional fun t r => .inl rfl
  | exact untouched_regionalInit fun r => .inl rfl
  | exact untouched_regional fun t r => .inr (noEq_onlyIf _ _ (by simp [Expr.ple, Expr.pge]))
  | exact untouched_regional fun t r => .inr (by simp [NoEq, Mitigation.rRelCostsMin, Expr.ple, Expr.pge]))

theorem untouched_all (k : GeneralConstraint) (hk : k ∈ allConstraints md) : Untouched p k := by
  have htfp : ∀ t r, get_TFP_value p.untargeted t r = get_TFP_value p t r := fun t r =>
    TFP_congr (p := p) (p' := p.untargeted) rfl (fun _ => rfl) rfl rfl rfl (fun _ => rfl) rfl t
  have key : ∀ k ∈ allConstraints md, Untouched p k := by
    unfold allConstraints components
    simp only [List.flatMap_cons, List.flatMap_nil, List.append_nil, List.forall_mem_append]
    refine ⟨?_, ?_, ?_, ?_, ?_, ?_, ?_, ?_, ?_, ?_⟩
    · simp only [Emissions.component, Emissions.emissionsConstraints, Emissions.temperatureConstraints,
        Emissions.inertiaBudgetConstraints, List.forall_mem_append, List.forall_mem_cons]
      refine ⟨⟨⟨?_, ?_, ?_, ?_, ?_, ?_, ?_, ?_, ?_, ?_, by simp⟩, ?_, ?_, ?_, by simp⟩, ?_, ?_, ?_, ?_, ?_, ?_, ?_, ?_, by simp⟩
      · exact untouched_regional fun t r => .inl rfl
      · exact untouched_regional fun t r => .inl rfl
      · exact untouched_regionalInit fun r => .inl rfl
      · exact untouched_regional fun t r => .inl rfl
      · exact untouched_global fun t => .inl rfl
      · exact untouched_globalInit (.inl rfl)
      · exact untouched_global fun t => .inl rfl
      · exact untouched_globalInit (.inl rfl)
      · exact untouched_global fun t => .inl rfl
      · exact untouched_globalInit (.inl rfl)
      · exact untouched_global fun t => .inl rfl
      · exact untouched_globalInit (.inl rfl)
      · refine untouched_global fun t => .inr ?_
        unfold Emissions.rTemperatureTarget
        split
        · exact noEq_onlyIf _ _ (by simp [Expr.ple])
        · trivial
      · refine untouched_global fun t => .inr ?_
        unfold Emissions.rCarbonBudget
        split
        · exact noEq_onlyIf _ _ (by simp [Expr.ple])
        · trivial
      · exact untouched_global fun t => .inl rfl
      · refine untouched_global fun t => .inr ?_
        unfold Emissions.rGlobalInertia
        split
        · exact noEq_onlyIf _ _ (by simp [Expr.pge])
        · trivial
      · refine untouched_regional fun t r => .inr ?_
        unfold Emissions.rRegionalInertia
        split
        · exact noEq_onlyIf _ _ (by simp [Expr.pge])
        · trivial
      · refine untouched_global fun t => .inr ?_
        unfold Emissions.rGlobalMinLevel
        split <;> simp [NoEq, Expr.pge]
      · refine untouched_regional fun t r => .inr ?_
        unfold Emissions.rRegionalMinLevel
        split <;> simp [NoEq, Expr.pge]
      · exact untouched_regional fun t r => .inr (noEq_onlyIf _ _ (by simp [Expr.ple]))
      · exact untouched_global fun t => .inr (noEq_onlyIf _ _ (by simp [Expr.ple]))
    · simp only [SeaLevelRise.component, List.forall_mem_cons]
      refine ⟨?_, ?_, ?_, ?_, ?_, ?_, ?_, by simp⟩ <;> same
    · cases md.damage
      · simp only [damageComponent, Damages.coacch, List.forall_mem_cons]
        refine ⟨?_, ?_, ?_, ?_, ?_, ?_, ?_, by simp⟩ <;> same
      · simp [damageComponent, Damages.nodamage]
        same
    · simp only [Mitigation.component, Mitigation.macConstraints, Mitigation.learningConstraints, List.cons_append,
        List.nil_append, List.forall_mem_append, List.forall_mem_cons]
      refine ⟨?_, ?_, ?_, ?_, ?_, ?_, ?_, ?_, ?_, ?_, ?_, ?_, by simp⟩ <;> same
    · cases md.trade
      · simp [EmissionTrade.component, EmissionTrade.notrade]
      · simp only [EmissionTrade.component, EmissionTrade.globalcostpool, List.forall_mem_cons]
        refine ⟨?_, ?_, ?_, ?_, ?_, by simp⟩ <;> same
      · simp only [EmissionTrade.component, EmissionTrade.emissiontrade, List.forall_mem_cons]
        refine ⟨?_, ?_, ?_, ?_, ?_, by simp⟩ <;> same
    · cases md.transfer
      · simp [FinTransfer.component, FinTransfer.notransfer]
      · simp only [FinTransfer.component, FinTransfer.globaldamagepool, List.forall_mem_cons]
        refine ⟨?_, ?_, ?_, ?_, by simp⟩ <;> same
    · simp only [EffortSharing.component, List.forall_mem_cons]
      exact ⟨untouched_soft, untouched_soft, untouched_soft, by simp⟩
    · simp only [CobbDouglas.component, List.forall_mem_cons]
      refine ⟨untouched_regional fun t r => .inl ?_, ?_, ?_, ?_, ?_, ?_, ?_, by simp⟩
      · unfold CobbDouglas.rGDPgross
        rw [htfp]
        rfl
      all_goals same
    · cases md.welfare
      all_goals
        simp only [Welfare.component, List.forall_mem_cons]
        refine ⟨?_, ?_, by simp⟩ <;> same
    · cases md.objective
      all_goals
        simp only [Objective.component, List.forall_mem_cons]
        refine ⟨?_, ?_, by simp⟩ <;> same
  exact key k hk

theorem bounds_all (d : VarDecl) (hd : d ∈ allVars md) : d.BoundsOk p.untargeted σ → d.BoundsOk p σ := by
  have key : ∀ d ∈ allVars md, d.BoundsOk p.untargeted σ → d.BoundsOk p σ := by
    unfold allVars components
    simp only [List.flatMap_cons, List.flatMap_nil, List.append_nil, List.forall_mem_append]
    refine ⟨?_, ?_, ?_, ?_, ?_, ?_, ?_, ?_, ?_, ?_⟩
    · simp only [Emissions.component, List.forall_mem_cons]
      refine ⟨?_, ?_, ?_, ?_, ?_, ?_, ?_, ?_, by simp⟩ <;> exact fun h => h
    · simp only [SeaLevelRise.component, List.forall_mem_cons]
      refine ⟨?_, ?_, ?_, ?_, by simp⟩ <;> exact fun h => h
    · cases md.damage <;> simp only [damageComponent, Damages.coacch, Damages.nodamage, List.forall_mem_cons] <;>
        repeat' first | exact fun h => h | exact List.forall_mem_nil _ | constructor
    · simp only [Mitigation.component, List.forall_mem_cons]
      repeat' first | exact fun h => h | exact List.forall_mem_nil _ | constructor
    · cases md.trade <;> simp only [EmissionTrade.component, EmissionTrade.notrade, EmissionTrade.globalcostpool,
          EmissionTrade.emissiontrade, List.forall_mem_cons] <;> repeat' first | exact fun h => h | exact List.forall_mem_nil _ | constructor
    · cases md.transfer <;> simp only [FinTransfer.component, FinTransfer.notransfer, FinTransfer.globaldamagepool,
          List.forall_mem_cons] <;> repeat' first | exact fun h => h | exact List.forall_mem_nil _ | constructor
    · simp only [EffortSharing.component, List.forall_mem_cons]
      repeat' first | exact fun h => h | exact List.forall_mem_nil _ | constructor
    · simp only [CobbDouglas.component, List.forall_mem_cons]
      repeat' first | exact fun h => h | exact List.forall_mem_nil _ | constructor
    · cases md.welfare <;> simp only [Welfare.component, List.forall_mem_cons] <;>
        repeat' first | exact fun h => h | exact List.forall_mem_nil _ | constructor
    · cases md.objective <;> simp only [Objective.component, List.forall_mem_cons] <;>
        repeat' first | exact fun h => h | exact List.forall_mem_nil _ | constructor
  exact key d hd

/-- **C73.** Targets do not matter for whether the equations contradict the bounds: if the model without targets has any
solution, they do not. -/
theorem C73_consistent (h : Spec.Created md p inst) (hσ : Solution md p.untargeted σ) : Spec.Consistent inst := by
  obtain ⟨hp, hv⟩ := created_fields h
  obtain ⟨_, _, _, _, _, hb, hs⟩ := solution_iff.1 hσ
  refine ⟨σ, fun d hd => ?_, fun nc hn c hc he => ?_⟩
  · rw [hp]
    exact bounds_all d (by rw [← hv]; exact hd) (hb d (by rw [← hv]; exact hd))
  · obtain ⟨k, hk, nc', hn', ho⟩ := (mem_rels h c).1 (List.mem_flatMap.2 ⟨nc, hn, hc⟩)
    exact untouched_all k hk σ (hs k hk) k List.mem_cons_self nc' hn' _ ho he

theorem untargeted_admissible (h : p.Admissible) : p.untargeted.Admissible := { h with }

theorem untargeted_ordinary (h : Spec.OrdinaryData md p) : Spec.OrdinaryData md p.untargeted := { h with }

section
variable (p) (a : ℕ → String → ℝ)
theorem untargeted_cumulative (t : ℕ) : Spec.pathCumulative p.untargeted a t = Spec.pathCumulative p a t := by
  induction t with
  | zero => rfl
  | succ t ih =>
    rw [Spec.pathCumulative, Spec.pathCumulative, ih]
    rfl
theorem untargeted_temperature (t : ℕ) : Spec.pathTemperature p.untargeted a t = Spec.pathTemperature p a t := by
  simp only [Spec.pathTemperature, untargeted_cumulative]
  rfl
theorem untargeted_sea (t : ℕ) : Spec.pathSea p.untargeted a t = Spec.pathSea p a t := by
  induction t with
  | zero => rfl
  | succ t ih =>
    simp only [Spec.pathSea, ih, untargeted_temperature]
    rfl
theorem untargeted_seaLevel (t : ℕ) : Spec.pathSeaLevel p.untargeted a t = Spec.pathSeaLevel p a t := by
  simp only [Spec.pathSeaLevel, untargeted_sea]
theorem untargeted_damage (t : ℕ) (r : String) : Spec.pathDamage p.untargeted a t r = Spec.pathDamage p a t r := by
  simp only [Spec.pathDamage, untargeted_temperature, untargeted_seaLevel]
  rfl
end

/-- **C73.** In particular if, without abatement, no more ice melts than there is, sea-level damages stay within the
range that the model allows for them, and (with the damage pool) there are no benefits of climate change. -/
theorem C73_consistent_exogenous (h : Spec.Created md p inst) (hadm : p.Admissible) (hd : Spec.OrdinaryData md p)
    (hex : p.use_carbon_intensity_for_baseline = false)
    (melt : ∀ t ≤ p.tf, 0.0008 * p.dt * (Spec.pathTemperature p (fun _ _ => 0) t + 1) ≤ 0.26 ∧
      p.dt * (1.11860082 * Spec.pathTemperature p (fun _ _ => 0) t + 0.6) ≤ 7300)
    (sea : ∀ t ≤ p.tf, ∀ r ∈ p.regions,
      p.damage_scale_factor * (formVal (Spec.pathSeaLevel p (fun _ _ => 0) t) p.slr r -
        formVal (Spec.pathSeaLevel p (fun _ _ => 0) 0) p.slr r) ∈ Set.Icc (-1 / 2 : ℝ) (7 / 10))
    (pool : md.transfer = .globaldamagepool → md.damage = .COACCH →
      ∀ t ≤ p.tf, ∀ r ∈ p.regions, 0 ≤ Spec.pathDamage p (fun _ _ => 0) t r) : Spec.Consistent inst := by
  obtain ⟨σ, hσ, -⟩ := C49_no_policy_feasible_exogenous (md := md) (p := p.untargeted) (untargeted_admissible hadm)
    (untargeted_ordinary hd)
    { no_target := rfl, no_budget := rfl, inertia_global := nofun, inertia_regional := nofun, min_global := nofun,
      min_regional := nofun, non_increasing := nofun, cost_floor := le_rfl
      melt := by simp only [untargeted_temperature]; exact melt
      sea_damages := by simp only [untargeted_seaLevel]; exact sea } hex (created_rels_mem h)
    (by simp only [untargeted_damage]; exact pool) (.inl rfl)
  exact C73_consistent h hσ

/-! ## A concrete case: an unreachable budget -/

theorem created_of_instOk (htr : md.trade ≠ .globalcostpool) (hr : p.regions ≠ []) (h : InstanceOk md p) :
    ∃ inst, Spec.Created md p inst := by
  have hcount : StrictMono (fun n : ℕ => n) := fun _ _ h => h
  obtain ⟨m, hm⟩ := (buildModel_isOk hcount md).2 htr
  obtain ⟨h1, h2, h3, h4, h5⟩ := h
  obtain ⟨inst, hi⟩ := (createInstance_isOk_iff p hm).2 ⟨h1, (scope_all hr htr).2 ⟨h2, h3, h4, h5⟩⟩
  exact ⟨inst, _, hcount, m, hm, hi⟩

/-- The example economy, with a budget that cannot be met: no solution exists, but the equations do not contradict the
bounds, so that preprocessing does not fail and loses nothing. -/
example (w : WelfareModule) : ∃ inst, Spec.Created (Ex.md0 .nodamage w .utility) { Ex.free with budget := some (-1) } inst ∧
    Spec.Consistent inst ∧ (∃ s, preprocessing inst = .ok s) ∧
    ∀ σ, ¬ Solution (Ex.md0 .nodamage w .utility) { Ex.free with budget := some (-1) } σ := by
  have h0 := (Ex.free_optimal w).1
  have hi := h0.instOk
  have hadm : Params.Admissible { Ex.free with budget := some (-1) } := { Ex.free_admissible with }
  obtain ⟨inst, hc⟩ := created_of_instOk (p := { Ex.free with budget := some (-1) }) h0.trade_ne h0.regions_ne
    ⟨hadm.initOk, fun _ h => absurd h (by norm_num [Ex.free, Ex.ex]), hi.index, hi.forms, hi.allowances⟩
  have hu : Solution (Ex.md0 .nodamage w .utility) Ex.free.untargeted (Ex.σZero w .utility) :=
    C59_still_feasible (p := Ex.free) (q := Ex.free.untargeted) h0
      ⟨nofun, nofun, nofun, nofun, nofun, nofun, nofun, nofun, le_rfl, .inl rfl⟩ (by norm_num [Ex.free, Ex.ex])
      (by norm_num [Ex.free, Ex.ex])
  have hcon : Spec.Consistent inst := C73_consistent hc hu
  refine ⟨inst, hc, hcon, C73_accepted hcon, fun σ hσ => ?_⟩
  have h1 := hσ.eqs.emissions.budget 3 le_rfl (-1) rfl (by norm_num [Params.year, Ex.free, Ex.ex])
  have h2 := hσ.eqs.emissions.cumulative_nonneg 3 le_rfl
  rw [if_neg (by norm_num [Ex.free, Ex.ex])] at h1
  linarith

/-- The example economy meets the hypotheses of `C73_consistent_exogenous`. -/
example (d : DamageModule) (w : WelfareModule) (o : ObjectiveModule) {inst : AbstractModel.Instance}
    (h : Spec.Created (Ex.md0 d w o) Ex.free inst) : Spec.Consistent inst :=
  C73_consistent_exogenous h Ex.free_admissible Ex.free_ordinary rfl Ex.free_baseline.melt Ex.free_baseline.sea_damages nofun

end Mimosa
