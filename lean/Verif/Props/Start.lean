import Verif.Start
import Verif.Props.Evaluable
import Verif.Props.Economy

/-!
# C81: the point at which the solver starts
-/

set_option linter.unusedSimpArgs false

namespace Mimosa
open AbstractModel

variable {md : Modules} {p : Params} {σ : Env} {inst : AbstractModel.Instance}

/-! ## The instance -/

theorem created_fields (h : Spec.Created md p inst) : inst.params = p ∧ inst.vars = allVars md := by
  obtain ⟨count, hm, m, h1, h2⟩ := h
  unfold buildModel at h1
  simp only at h1
  split at h1
  · unfold AbstractModel.createInstance at h2
    split at h2
    · split at h2
      · cases h2
      · obtain rfl := Except.ok.inj h2
        obtain rfl := Except.ok.inj h1
        exact ⟨rfl, rfl⟩
    · cases h2
  · cases h1

/-- The declaration admits its starting values. -/
def AdmitsStart (md : Modules) (p : Params) (d : VarDecl) : Prop :=
  ∀ b ∈ d.slots p, ∀ x, initialValue md p b.slot = some x → b.Admits x

theorem admitsStart_global (v : GVar) : AdmitsStart md p (.global v noBound noBound) := by
  intro b hb x _
  obtain ⟨t, _, rfl⟩ := List.mem_map.1 hb
  simp [BoundedSlot.Admits, noBound]

theorem admitsStart_regional (v : RVar) : AdmitsStart md p (.regional v noBound noBound) := by
  intro b hb x _
  obtain ⟨t, _, hb⟩ := List.mem_flatMap.1 hb
  obtain ⟨r, _, rfl⟩ := List.mem_map.1 hb
  simp [BoundedSlot.Admits, noBound]

theorem admitsStart_global_none {v : GVar} {lb ub : Params → Option ℝ} (h : ∀ t, initialValue md p (.g v t) = none) :
    AdmitsStart md p (.global v lb ub) := by
  intro b hb x hx
  obtain ⟨t, _, rfl⟩ := List.mem_map.1 hb
  rw [h] at hx; cases hx

theorem admitsStart_regional_none {v : RVar} {lb ub : Params → Option ℝ} (h : ∀ t r, initialValue md p (.r v t r) = none) :
    AdmitsStart md p (.regional v lb ub) := by
  intro b hb x hx
  obtain ⟨t, _, hb⟩ := List.mem_flatMap.1 hb
  obtain ⟨r, _, rfl⟩ := List.mem_map.1 hb
  rw [h] at hx; cases hx

theorem admitsStart_zero {v : RVar} {lb ub : Params → Option ℝ} (h : ∀ t r, initialValue md p (.r v t r) = some 0)
    (hl : ∀ l ∈ lb p, l ≤ 0) (hu : ∀ u ∈ ub p, 0 ≤ u) : AdmitsStart md p (.regional v lb ub) := by
  intro b hb x hx
  obtain ⟨t, _, hb⟩ := List.mem_flatMap.1 hb
  obtain ⟨r, _, rfl⟩ := List.mem_map.1 hb
  rw [h] at hx
  obtain rfl := Option.some.inj hx
  exact ⟨hl, hu⟩

theorem admitsStart_all (d : VarDecl) (hd : d ∈ allVars md) : AdmitsStart md p d := by
  have key : ∀ d ∈ allVars md, AdmitsStart md p d := by
    unfold allVars components
    simp only [List.flatMap_cons, List.flatMap_nil, List.append_nil, List.forall_mem_append]
    refine ⟨?_, ?_, ?_, ?_, ?_, ?_, ?_, ?_, ?_, ?_⟩
    · simp only [Emissions.component, List.forall_mem_cons, admitsStart_global, admitsStart_regional, true_and]
      exact ⟨admitsStart_zero (fun _ _ => rfl) (by simp) (by norm_num), by simp⟩
    · simp only [SeaLevelRise.component, List.forall_mem_cons]
      refine ⟨?_, ?_, ?_, ?_, by simp⟩ <;> exact admitsStart_global_none fun _ => rfl
    · cases md.damage
      · simp only [damageComponent, Damages.coacch, List.forall_mem_cons, admitsStart_global, admitsStart_regional, true_and]
        exact ⟨admitsStart_regional_none fun _ _ => rfl, by simp⟩
      · simp only [damageComponent, Damages.nodamage, List.forall_mem_cons, admitsStart_global, admitsStart_regional, true_and]
        simp
    · simp only [Mitigation.component, List.forall_mem_cons, admitsStart_global, admitsStart_regional, true_and]
      exact ⟨admitsStart_regional_none fun _ _ => rfl, by simp⟩
    · cases md.trade
      · simp [EmissionTrade.component, EmissionTrade.notrade]
      · simp only [EmissionTrade.component, EmissionTrade.globalcostpool, List.forall_mem_cons, admitsStart_global,
          admitsStart_regional, true_and]
        exact ⟨admitsStart_zero (fun _ _ => rfl) (by simp) (by simp [noBound]), by simp⟩
      · simp only [EmissionTrade.component, EmissionTrade.emissiontrade, List.forall_mem_cons, admitsStart_global,
          admitsStart_regional, true_and]
        simp
    · cases md.transfer
      · simp [FinTransfer.component, FinTransfer.notransfer]
      · simp only [FinTransfer.component, FinTransfer.globaldamagepool, List.forall_mem_cons, admitsStart_global,
          admitsStart_regional, true_and]
        simp
    · simp only [EffortSharing.component, List.forall_mem_cons, admitsStart_global, admitsStart_regional, true_and]
      simp
    · simp only [CobbDouglas.component, List.forall_mem_cons, admitsStart_global, admitsStart_regional, true_and]
      simp
    · cases md.welfare <;>
      · simp only [Welfare.component, List.forall_mem_cons, admitsStart_global, admitsStart_regional, true_and]
        simp
    · cases md.objective <;>
      · simp only [Objective.component, List.forall_mem_cons, admitsStart_global, admitsStart_regional, true_and]
        simp
  exact key d hd

/-- Declared starting values lie within the bounds of their variable. -/
theorem initial_admitted (h : Spec.Created md p inst) {b : BoundedSlot} (hb : b ∈ inst.slots) {x : ℝ}
    (hx : initialValue md p b.slot = some x) : b.Admits x := by
  obtain ⟨hp, hv⟩ := created_fields h
  unfold AbstractModel.Instance.slots at hb
  rw [hp, hv] at hb
  obtain ⟨d, hd, hb⟩ := List.mem_flatMap.1 hb
  exact admitsStart_all d hd b hb x hx

/-! ## Groups -/

theorem representatives_append (ls : List (Slot × Slot)) (l : Slot × Slot) :
    representatives (ls ++ [l]) = joinGroups (representatives ls) l := by
  simp [representatives]

/-- A variable is its own representative, or its group is that of a link. -/
theorem representatives_self (links : List (Slot × Slot)) (s : Slot) :
    representatives links s = s ∨ ∃ l ∈ links, representatives links l.1 = representatives links s := by
  induction links using List.reverseRecOn with
  | nil => exact .inl rfl
  | append_singleton ls l ih =>
    rw [representatives_append]
    rcases ih with h | ⟨l', hl', h⟩
    · by_cases he : representatives ls s = representatives ls l.1
      · exact .inr ⟨l, by simp, joinGroups_of_eq l he.symm⟩
      · left; unfold joinGroups; rw [if_neg he, h]
    · exact .inr ⟨l', by simp [hl'], joinGroups_of_eq l h⟩

/-- A variable that no link mentions stays alone. -/
theorem representatives_alone {links : List (Slot × Slot)} {x : Slot} (h : ∀ l ∈ links, l.1 ≠ x ∧ l.2 ≠ x) :
    representatives links x = x ∧ ∀ s, representatives links s = x → s = x := by
  induction links using List.reverseRecOn with
  | nil => exact ⟨rfl, fun s h => h⟩
  | append_singleton ls l ih =>
    obtain ⟨h1, h2⟩ := ih fun l' hl' => h l' (by simp [hl'])
    obtain ⟨n1, n2⟩ := h l (by simp)
    rw [representatives_append]
    constructor
    · unfold joinGroups
      rw [if_neg, h1]
      intro he
      exact n1 (h2 _ (he.symm.trans h1))
    · intro s hs
      unfold joinGroups at hs
      split at hs
      · exact absurd (h2 _ hs) n2
      · exact h2 s hs

/-! ## What a link mentions -/

theorem Expr.affine_rvars (e : Expr) : ∀ {a : Affine}, e.affine [] = some a → ∀ {v t r}, .r v t r ∈ a.terms.map (·.1) →
    (v, t, r) ∈ e.rvars := by
  have hscale : ∀ (k : ℝ) (a : Affine), (a.scale k).terms.map (·.1) = a.terms.map (·.1) := by
    intro k a; simp [Affine.scale]
  have hplus : ∀ (a b : Affine), (a.plus b).terms.map (·.1) = a.terms.map (·.1) ++ b.terms.map (·.1) := by
    intro a b; simp [Affine.plus]
  induction e with
  | const x => intro a h v t r hm; simp [Expr.affine] at h; subst h; simp at hm
  | g v t => intro a h v t r hm; simp [Expr.affine, Slot.affine, fixedAt] at h; subst h; simp at hm
  | r v t reg =>
    intro a h v t r hm; simp [Expr.affine, Slot.affine, fixedAt] at h; subst h; simp at hm
    simp [Expr.rvars, hm]
  | add x y ix iy | sub x y ix iy =>
    intro a h v t r hm
    simp only [Expr.affine, Option.bind_eq_bind, Option.bind_eq_some_iff, Option.pure_def, Option.some.injEq] at h
    obtain ⟨u, hu, w, hw, rfl⟩ := h
    simp only [hplus, hscale, List.mem_append] at hm
    exact List.mem_append.2 (hm.imp (ix hu) (iy hw))
  | neg x ix =>
    intro a h v t r hm
    simp only [Expr.affine, Option.bind_eq_bind, Option.bind_eq_some_iff, Option.pure_def, Option.some.injEq] at h
    obtain ⟨u, hu, rfl⟩ := h
    rw [hscale] at hm
    exact ix hu hm
  | mul x y ix iy =>
    intro a h v t r hm
    simp only [Expr.affine, Option.bind_eq_bind, Option.bind_eq_some_iff, Option.pure_def] at h
    obtain ⟨u, hu, w, hw, h⟩ := h
    split at h
    · obtain rfl := Option.some.inj h
      rw [hscale] at hm
      exact List.mem_append_right _ (iy hw hm)
    · split at h
      · obtain rfl := Option.some.inj h
        rw [hscale] at hm
        exact List.mem_append_left _ (ix hu hm)
      · cases h
  | div x y ix iy =>
    intro a h v t r hm
    simp only [Expr.affine, Option.bind_eq_bind, Option.bind_eq_some_iff, Option.pure_def] at h
    obtain ⟨u, hu, w, hw, h⟩ := h
    split at h
    · obtain rfl := Option.some.inj h
      rw [hscale] at hm
      exact List.mem_append_left _ (ix hu hm)
    · cases h
  | pow x y ix iy =>
    intro a h v t r hm
    simp only [Expr.affine, Option.bind_eq_bind, Option.bind_eq_some_iff, Option.pure_def] at h
    obtain ⟨u, hu, w, hw, h⟩ := h
    split at h
    · obtain rfl := Option.some.inj h
      simp at hm
    · cases h
  | atan x ix | exp x ix =>
    intro a h v t r hm
    simp only [Expr.affine, Option.bind_eq_bind, Option.bind_eq_some_iff, Option.pure_def] at h
    obtain ⟨u, hu, h⟩ := h
    split at h
    · obtain rfl := Option.some.inj h
      simp at hm
    · cases h

theorem Rel.link_rvars {c : Rel} {x y : Slot} (h : c.link = some (x, y)) {v : RVar} {t : ℤ} {r : String}
    (hx : x = .r v t r ∨ y = .r v t r) : (v, t, r) ∈ c.lhs.rvars ++ c.rhs.rvars := by
  unfold Rel.link at h
  split at h
  case isFalse => cases h
  split at h
  case h_1 => cases h
  rename_i a ha
  split at h
  case isFalse => cases h
  split at h
  case h_2 => cases h
  rename_i u w hs
  split at h
  case isFalse => cases h
  simp only [Option.some.injEq, Prod.mk.injEq] at h
  obtain ⟨rfl, rfl⟩ := h
  have key : ∀ s ∈ a.support, s ∈ a.terms.map (·.1) := by
    intro s hs
    unfold Affine.support at hs
    exact List.mem_dedup.1 (List.mem_filter.1 hs).1
  have : Slot.r v t r ∈ a.support := by
    rw [hs]
    rcases hx with rfl | rfl <;> simp
  exact Expr.affine_rvars _ ha (key _ this)

/-! ## Gross GDP is never merged with another variable -/

/-- The constraint does not link gross GDP with another variable. -/
def UnlinkedOut : RuleOut → Prop
  | .rel c => ∀ l, c.link = some l → ∀ t r, l.1 ≠ .r .GDP_gross t r ∧ l.2 ≠ .r .GDP_gross t r
  | _ => True

/-- The constraint does not mention gross GDP. -/
def FreeOut : RuleOut → Prop
  | .rel c => (∀ t r, (RVar.GDP_gross, t, r) ∉ c.lhs.rvars) ∧ ∀ t r, (RVar.GDP_gross, t, r) ∉ c.rhs.rvars
  | _ => True

@[simp] theorem freeOut_rel (c : Rel) : FreeOut (.rel c) ↔
    (∀ t r, (RVar.GDP_gross, t, r) ∉ c.lhs.rvars) ∧ ∀ t r, (RVar.GDP_gross, t, r) ∉ c.rhs.rvars := Iff.rfl
@[simp] theorem freeOut_skip : FreeOut .skip ↔ True := Iff.rfl
@[simp] theorem freeOut_raise (e : Err) : FreeOut (.raise e) ↔ True := Iff.rfl
@[simp] theorem freeOut_onlyIf (q : Prop) (c : Rel) : FreeOut (.onlyIf q c) ↔
    (q → (∀ t r, (RVar.GDP_gross, t, r) ∉ c.lhs.rvars) ∧ ∀ t r, (RVar.GDP_gross, t, r) ∉ c.rhs.rvars) := by
  unfold RuleOut.onlyIf; split <;> simp_all

theorem FreeOut.unlinked {o : RuleOut} (h : FreeOut o) : UnlinkedOut o := by
  cases o with
  | rel c =>
    intro l hl t r
    have := fun hx => Rel.link_rvars (c := c) (x := l.1) (y := l.2) hl (v := .GDP_gross) (t := t) (r := r) hx
    simp only [List.mem_append] at this
    constructor
    · exact fun e => (this (.inl e)).elim (h.1 t r) (h.2 t r)
    · exact fun e => (this (.inr e)).elim (h.1 t r) (h.2 t r)
  | skip => trivial
  | raise e => trivial

theorem allOut_mono {P Q : RuleOut → Prop} (h : ∀ o, P o → Q o) {cs : List GeneralConstraint}
    (hc : AllOut P p cs) : AllOut Q p cs := fun c hc' nc hn o ho => h o (hc c hc' nc hn o ho)

attribute [local simp] Expr.peq Expr.ple Expr.pge
  allOut_global allOut_globalInit allOut_regional allOut_regionalInit allOut_regionalSoft

theorem free_slr : AllOut FreeOut p SeaLevelRise.component.constraints := by
  unfold SeaLevelRise.component
  simp only
  simp only [allOut_cons _ _ _ (_ :: _)]
  simp [SeaLevelRise.rThermal, SeaLevelRise.rThermalInit, SeaLevelRise.rGsic,
    SeaLevelRise.rGsicInit, SeaLevelRise.rGis, SeaLevelRise.rGisInit, SeaLevelRise.rTotal,
    SeaLevelRise.slr_thermal_expansion, SeaLevelRise.slr_gsic, SeaLevelRise.slr_gis]

section
open EmissionTrade
theorem free_trade (htr : md.trade ≠ .globalcostpool) :
    AllOut FreeOut p (EmissionTrade.component md.trade).constraints := by
  cases htd : md.trade
  · simp [EmissionTrade.component, notrade]
  · exact absurd htd htr
  · unfold EmissionTrade.component emissiontrade
    simp only
    simp only [allOut_cons _ _ _ (_ :: _)]
    simp [htd, rGlobalCarbonprice, rSumBalance, rReductionBalance, rPaid, rAllowances]
end

section
open Welfare
theorem free_welfare : AllOut FreeOut p (Welfare.component md.welfare).constraints := by
  cases hw : md.welfare
  all_goals
    unfold Welfare.component
    simp only
    simp only [allOut_cons _ _ _ (_ :: _)]
    simp [rUtilityWL, rWelfareWL, rUtilityCM, rWelfareCM, rUtilityIA, rWelfareIA, sumPop, calc_utility,
      calc_regional_utility, calc_global_utility]
end

section
open EffortSharing
theorem free_effort : AllOut FreeOut p (EffortSharing.component md.transfer).constraints := by
  unfold EffortSharing.component
  simp only
  rw [allOut_cons, allOut_cons _ _ (equalTotalCosts _)]
  refine ⟨?_, ?_, ?_⟩
  · simp [equalMitigationCosts, rhs_eps]
  · cases md.transfer <;> simp [equalTotalCosts, rhs_eps, FinTransfer.relTransfer]
  · simp [percapconv, rhs_eps]
end

section
open Damages
theorem free_damage_rule {d : DamageCoeffs} {r : String} {v : RVar} {t : ℕ} {k : ℝ} {x x0 : Expr} (hv : v ≠ .GDP_gross)
    (hx : x.rvars = []) (hx0 : x0.rvars = []) :
    FreeOut (ruleE (damage_fct x x0 d r) fun dam => rv v t r =ₚ num k * dam) := by
  have key : ∀ {e E : Expr}, e.rvars = [] → functional_form e d r = .ok E → E.rvars = [] := by
    intro e E he hE
    rcases scope_form e d r with ⟨-, E', h1, -, h3⟩ | ⟨-, h1⟩
    · rw [h1] at hE
      obtain rfl := Except.ok.inj hE
      exact List.eq_nil_iff_forall_not_mem.2 fun y hy => by rw [h3, he] at hy; cases hy
    · rw [h1] at hE; cases hE
  unfold damage_fct
  cases h1 : functional_form x d r with
  | error e => simp [ruleE]
  | ok a =>
    cases h2 : functional_form x0 d r with
    | error e => simp [ruleE]
    | ok b => simp [ruleE, key hx h1, key hx0 h2, Ne.symm hv]

theorem free_damages : AllOut FreeOut p (damageComponent md.damage).constraints := by
  cases hd : md.damage
  · simp only [damageComponent, coacch]
    simp only [allOut_cons _ _ _ (_ :: _)]
    refine ⟨by simp [rDamageCosts], (allOut_regional _ _ _ _).2 fun t ht r hr => ?_,
      (allOut_regional _ _ _ _).2 fun t ht r hr => ?_, by simp [rMortOldest, mortalityRhs],
      by simp [rMortOlder, mortalityRhs], by simp [rMortYoung, mortalityRhs], by simp [rMortCost]⟩
    · exact free_damage_rule (by simp) (by simp) (by simp)
    · exact free_damage_rule (by simp) (by simp) (by simp)
  · simp [damageComponent, nodamage, rZero]
end

section
open Emissions
theorem free_emissions : AllOut FreeOut p Emissions.component.constraints := by
  unfold Emissions.component
  simp only
  rw [allOut_append, allOut_append]
  refine ⟨⟨?_, ?_⟩, ?_⟩
  · unfold emissionsConstraints
    simp only [allOut_cons _ _ _ (_ :: _)]
    cases hc : p.use_carbon_intensity_for_baseline <;> cases hz : p.cumulative_emissions_trapz <;>
    simp [rBaseline, rRegionalAbatement, rRegionalInit, rReduction, rGlobal, rGlobalInit, rCumulative, rCumulativeInit,
      rRelCumulative, rRelCumulativeInit, hc, hz]
  · unfold temperatureConstraints
    simp only [allOut_cons _ _ _ (_ :: _)]
    refine ⟨by simp [rTemperature], by simp [rTemperatureInit], ?_⟩
    cases hc : p.temperature_target <;> simp [rTemperatureTarget, hc]
  · unfold inertiaBudgetConstraints
    simp only [allOut_cons _ _ _ (_ :: _)]
    refine ⟨?_, by simp [rCumulativeNonneg], ?_, ?_, ?_, ?_, by simp [rNonIncreasing], by simp [rNetZero]⟩
    · rw [allOut_global]
      intro t _
      unfold rCarbonBudget
      split
      · rw [freeOut_onlyIf]
        intro _
        split <;> simp
      · trivial
    · cases hc : p.inertia_global <;> simp [rGlobalInertia, hc]
    · cases hc : p.inertia_regional <;> simp [rRegionalInertia, hc]
    · cases hc : p.global_min_level <;> simp [rGlobalMinLevel, hc]
    · cases hc : p.regional_min_level <;> simp [rRegionalMinLevel, hc]
end

/-- All variables have the same value. -/
def Env.all (x : ℝ) : Env := ⟨fun _ _ => x, fun _ _ _ => x⟩

@[simp] theorem Env.get_all (x : ℝ) (s : Slot) : (Env.all x).get s = x := by cases s <;> rfl
@[simp] theorem Env.all_g (x : ℝ) (v : GVar) (t : ℤ) : (Env.all x).g v t = x := rfl
@[simp] theorem Env.all_r (x : ℝ) (v : RVar) (t : ℤ) (r : String) : (Env.all x).r v t r = x := rfl

/-- A link holds if all variables have the same value. -/
theorem Rel.link_all {c : Rel} {l : Slot × Slot} (h : c.link = some l) (x : ℝ) : c.Holds (Env.all x) :=
  (Rel.link_spec (x := l.1) (y := l.2) h).2 (by simp)

theorem unlinked_of_not_holds {c : Rel} {x : ℝ} (h : ¬ c.Holds (Env.all x)) : UnlinkedOut (.rel c) :=
  fun _ hl => absurd (Rel.link_all hl x) h

theorem unlinked_onlyIf {q : Prop} {c : Rel} (h : q → UnlinkedOut (.rel c)) : UnlinkedOut (.onlyIf q c) := by
  unfold RuleOut.onlyIf
  split
  · exact h ‹_›
  · trivial

theorem unlinked_ineq {c : Rel} (h : c.op ≠ .eq) : UnlinkedOut (.rel c) := by
  intro l hl
  unfold Rel.link at hl
  rw [if_neg h] at hl
  cases hl

/-- One variable is zero on one side of a link and the other one is zero too: the constraint holds. -/
theorem Rel.link_set {c : Rel} {l : Slot × Slot} (h : c.link = some l) {z : Slot} (x : ℝ) (h1 : l.1 ≠ z) (h2 : l.2 ≠ z) :
    c.Holds ((Env.all 0).set z x) :=
  (Rel.link_spec (x := l.1) (y := l.2) h).2 (by
    rw [Env.get_set, Env.get_set, if_neg (Ne.symm h1), if_neg (Ne.symm h2)]; simp)

section
open CobbDouglas
theorem unlinked_net (tm : TransferModule) (t : ℕ) (r : String) : UnlinkedOut (rGDPnet tm p t r) := by
  intro l hl
  have hcase : (l.1 ≠ .r .GDP_net t r ∧ l.2 ≠ .r .GDP_net t r) ∨ (l.1 ≠ .r .mitigation_costs t r ∧ l.2 ≠ .r .mitigation_costs t r) ∨
      ((l.1 = .r .GDP_net t r ∨ l.2 = .r .GDP_net t r) ∧ (l.1 = .r .mitigation_costs t r ∨ l.2 = .r .mitigation_costs t r)) := by
    tauto
  rcases hcase with ⟨h1, h2⟩ | ⟨h1, h2⟩ | ⟨h1, h2⟩
  · exfalso
    have := (Rel.link_set hl 1 h1 h2).2.2
    cases tm <;> cases hi : p.ignore_damages <;>
    simp [Expr.peq, Rel.cmp, hi, FinTransfer.transfer, Env.set] at this
  · exfalso
    have := (Rel.link_set hl 1 h1 h2).2.2
    cases tm <;> cases hi : p.ignore_damages <;>
    simp [Expr.peq, Rel.cmp, hi, FinTransfer.transfer, Env.set] at this
  · intro t' r'
    rcases h1 with h1 | h1 <;> rcases h2 with h2 | h2 <;> simp_all

theorem unlinked_economy (hadm : p.Admissible) :
    AllOut UnlinkedOut p (CobbDouglas.component md.transfer).constraints := by
  unfold CobbDouglas.component
  simp only
  simp only [allOut_cons _ _ _ (_ :: _)]
  refine ⟨(allOut_regional _ _ _ _).2 fun t ht r hr => unlinked_onlyIf fun _ => unlinked_of_not_holds (x := 0) fun hh => ?_,
    (allOut_regionalInit _ _ _ _).2 fun r hr => unlinked_of_not_holds (x := 0) fun hh => ?_,
    (allOut_regional _ _ _ _).2 fun t ht r hr => unlinked_net md.transfer t r, ?_⟩
  · have h0 := hh.2.2
    have hd := hadm.econData
    have h1 : 0 < get_TFP_value p t r := div_pos (hd.gdp_pos _ ht r hr) (calcGDP_pos' hd ht hr)
    have h2 := Real.rpow_pos_of_pos (hd.pop_pos _ ht r hr) (1 - p.alpha)
    have h3 := Real.rpow_pos_of_pos (soft_min_pos_ten 0) p.alpha
    simp [Expr.peq, Rel.cmp, calc_GDP] at h0
    rcases h0 with (h0 | h0) | h0 <;> linarith
  · have h0 := hh.2.2
    have := hadm.gdp_pos 0 (Nat.zero_le _) r hr
    simp [Expr.peq, Rel.cmp] at h0
    linarith
  · have f : ∀ {k : GeneralConstraint}, AllOut FreeOut p [k] → AllOut UnlinkedOut p [k] :=
      fun h => allOut_mono (fun o h => FreeOut.unlinked h) h
    exact ⟨f (by simp [rInvestments]), f (by simp [rConsumption]), f (by simp [rCapital, calc_dKdt]),
      f (by simp [rCapitalInit])⟩
end

section
open Mitigation
theorem unlinked_mitigation : AllOut UnlinkedOut p (Mitigation.component md.trade).constraints := by
  unfold Mitigation.component macConstraints learningConstraints
  simp only [List.cons_append, List.nil_append]
  simp only [allOut_cons _ _ _ (_ :: _)]
  have f : ∀ {k : GeneralConstraint}, AllOut FreeOut p [k] → AllOut UnlinkedOut p [k] :=
    fun h => allOut_mono (fun o h => FreeOut.unlinked h) h
  refine ⟨f (by simp [rCarbonprice, mMAC, MAC]), f (by simp [rInitCarbonprice]), f ?_, f (by simp [rArea, mAC, AC]),
    (allOut_regional _ _ _ _).2 fun t ht r hr => unlinked_of_not_holds (x := 0) fun hh => ?_, f (by simp [rRelCostsMin]),
    (allOut_global _ _ _ _).2 fun t ht => unlinked_of_not_holds (x := 0) fun hh => ?_, f (by simp [rReductionPerCost]),
    f (by simp [rCostPerReduction]), f (by simp [rLBD]), f (by simp [rLOT]), f (by simp [rLearning])⟩
  · cases md.trade <;> simp [rMitigationCosts, costBalance, mAC, AC]
  · have := hh.2.1
    simp [Expr.peq] at this
  · have := hh.2.1
    simp [Expr.peq] at this
end

section
open FinTransfer
theorem unlinked_transfer : AllOut UnlinkedOut p (FinTransfer.component md.transfer).constraints := by
  cases htd : md.transfer
  · simp [FinTransfer.component, FinTransfer.notransfer]
  · unfold FinTransfer.component FinTransfer.globaldamagepool
    simp only
    simp only [allOut_cons _ _ _ (_ :: _)]
    have f : ∀ {k : GeneralConstraint}, AllOut FreeOut p [k] → AllOut UnlinkedOut p [k] :=
      fun h => allOut_mono (fun o h => FreeOut.unlinked h) h
    refine ⟨f (by simp [rZeroSum]), f (by simp [rFirstYear]),
      (allOut_regional _ _ _ _).2 fun t ht r hr => unlinked_ineq (by simp [Expr.pge]),
      (allOut_regional _ _ _ _).2 fun t ht r hr => unlinked_of_not_holds (x := 2) fun hh => ?_⟩
    have := hh.2.2
    simp [Expr.peq, Rel.cmp] at this
end

section
open Objective
/-- The relation of the global costs objective. -/
noncomputable abbrev rNPVcostsRel (p : Params) (t : ℕ) : Rel :=
  gv .NPV t =ₚ gv .NPV (t - 1) + num p.dt * num (discount p t) *
      ((sumRegions p fun r => rv .mitigation_costs t r) +
        (sumRegions p fun r => rv .damage_costs t r * rv .GDP_gross t r))

theorem unlinked_objective : AllOut UnlinkedOut p (Objective.component md.objective).constraints := by
  have f : ∀ {k : GeneralConstraint}, AllOut FreeOut p [k] → AllOut UnlinkedOut p [k] :=
    fun h => allOut_mono (fun o h => FreeOut.unlinked h) h
  cases ho : md.objective
  all_goals
    unfold Objective.component
    simp only
    simp only [allOut_cons _ _ _ (_ :: _)]
  · exact ⟨f (by simp [rNPVutility]), f (by simp [rNPVinit])⟩
  · refine ⟨(allOut_global _ _ _ _).2 fun t ht => unlinked_onlyIf fun h0 => ?_, f (by simp [rNPVinit])⟩
    intro l hl
    by_cases h1 : l.1 ≠ .g .NPV t ∧ l.2 ≠ .g .NPV t
    · exfalso
      have := (Rel.link_set hl 1 h1.1 h1.2).2.2
      simp [Expr.peq, Rel.cmp, Env.set] at this
      omega
    · -- one of them is the new NPV; set it and gross GDP to one
      intro t' r'
      have key : ∀ s : Slot, s = .r .GDP_gross t' r' → ¬ (l = (.g .NPV t, s) ∨ l = (s, .g .NPV t)) := by
        rintro s rfl hl'
        have hh : (rNPVcostsRel p t).Holds (((Env.all 0).set (.g .NPV t) 1).set (.r .GDP_gross t' r') 1) := by
          refine (Rel.link_spec (x := l.1) (y := l.2) hl).2 ?_
          rcases hl' with rfl | rfl <;> simp [Env.get_set]
        have := hh.2.2
        simp [rNPVcostsRel, Expr.peq, Rel.cmp, Env.set] at this
        omega
      constructor
      · intro e
        rcases not_and_or.1 h1 with h | h
        · exact h (by rw [e]; simp)
        · exact key l.1 e (.inr (Prod.ext rfl (not_not.1 h)))
      · intro e
        rcases not_and_or.1 h1 with h | h
        · exact key l.2 e (.inl (Prod.ext (not_not.1 h) rfl))
        · exact h (by rw [e]; simp)
end

/-- No link mentions gross GDP. -/
theorem gross_unlinked (h : Spec.Created md p inst) (hadm : p.Admissible) (t : ℤ) (r : String) :
    ∀ l ∈ inst.rels.filterMap Rel.link, l.1 ≠ .r .GDP_gross t r ∧ l.2 ≠ .r .GDP_gross t r := by
  intro l hl
  obtain ⟨c, hc, hcl⟩ := List.mem_filterMap.1 hl
  have htr := created_rels_mem h
  have f : ∀ {ks : List GeneralConstraint}, AllOut FreeOut p ks → AllOut UnlinkedOut p ks :=
    fun h => allOut_mono (fun o h => FreeOut.unlinked h) h
  have hall : AllOut UnlinkedOut p (allConstraints md) := by
    unfold allConstraints components
    simp only [List.flatMap_cons, List.flatMap_nil, List.append_nil]
    simp only [allOut_append]
    exact ⟨f free_emissions, f free_slr, f free_damages, unlinked_mitigation, f (free_trade htr),
      unlinked_transfer, f free_effort, unlinked_economy hadm, f free_welfare, unlinked_objective⟩
  obtain ⟨k, hk, nc, hnc, ho⟩ := (mem_rels h c).1 hc
  exact hall k hk nc hnc _ ho l hcl t r

/-! ## The starting point -/

theorem BoundedSlot.midpoint_admitted {b : BoundedSlot} {x : ℝ} (h : b.Admits x) : b.Admits b.midpoint := by
  obtain ⟨s, lb, ub⟩ := b
  obtain ⟨h1, h2⟩ := h
  cases lb <;> cases ub <;> simp [BoundedSlot.Admits, BoundedSlot.midpoint] at h1 h2 ⊢
  constructor <;> linarith

theorem average_admitted {b : BoundedSlot} {l : List ℝ} (hne : l ≠ []) (h : ∀ x ∈ l, b.Admits x) :
    b.Admits (l.sum / l.length) := by
  have hpos : (0 : ℝ) < l.length := by
    have := List.length_pos_of_ne_nil hne
    exact_mod_cast this
  have hle : ∀ (l : List ℝ) (c : ℝ), (∀ x ∈ l, c ≤ x) → c * l.length ≤ l.sum := by
    intro l c
    induction l with
    | nil => simp
    | cons a l ih =>
      intro h
      have h1 := h a List.mem_cons_self
      have h2 := ih fun x hx => h x (List.mem_cons_of_mem _ hx)
      simp only [List.length_cons, List.sum_cons, Nat.cast_add, Nat.cast_one]
      linarith
  have hge : ∀ (l : List ℝ) (c : ℝ), (∀ x ∈ l, x ≤ c) → l.sum ≤ c * l.length := by
    intro l c
    induction l with
    | nil => simp
    | cons a l ih =>
      intro h
      have h1 := h a List.mem_cons_self
      have h2 := ih fun x hx => h x (List.mem_cons_of_mem _ hx)
      simp only [List.length_cons, List.sum_cons, Nat.cast_add, Nat.cast_one]
      linarith
  constructor
  · intro c hc
    rw [le_div_iff₀ hpos]
    exact hle l c fun x hx => (h x hx).1 c hc
  · intro c hc
    rw [div_le_iff₀ hpos]
    exact hge l c fun x hx => (h x hx).2 c hc

theorem fixedAt_mem {F : List (Slot × ℝ)} {z : Slot} {x : ℝ} (h : fixedAt F z = some x) : (z, x) ∈ F := by
  unfold fixedAt at h
  cases hf : F.find? fun y => y.1 = z with
  | none => rw [hf] at h; cases h
  | some y =>
    rw [hf] at h
    obtain rfl := Option.some.inj h
    have h1 := List.find?_some hf
    have h2 := List.mem_of_find?_eq_some hf
    rw [← of_decide_eq_true h1]
    exact h2

/-- The links that are used. -/
noncomputable abbrev linksOf (inst : AbstractModel.Instance) : List (Slot × Slot) :=
  if inst.params.regions.length > 1 then inst.rels.filterMap Rel.link else []

theorem preprocessing_rep {s : SolverModel} (hs : preprocessing inst = .ok s) : s.rep = representatives (linksOf inst) := by
  rcases preprocessing_cases hs with ⟨hl, s', ha, rfl⟩ | ⟨hl, rfl⟩
  · unfold linksOf
    rw [if_pos hl]
    exact (aggregate_ok ha).1
  · unfold linksOf
    rw [if_neg hl]
    rfl

/-- The data of a consistent instance: a point that meets all equations and bounds. -/
structure Meets (inst : AbstractModel.Instance) (σ : Env) : Prop where
  bounds : ∀ b ∈ inst.slots, b.Admits (σ.get b.slot)
  equalities : ∀ c ∈ inst.rels, c.op = .eq → c.Holds σ

theorem Meets.rep {s : SolverModel} (hs : preprocessing inst = .ok s) (h : Meets inst σ) (x : Slot) :
    σ.get (s.rep x) = σ.get x := by
  rcases preprocessing_cases hs with ⟨hl, s', ha, rfl⟩ | ⟨hl, rfl⟩
  · show σ.get (s'.rep x) = _
    rw [(aggregate_ok ha).1]
    exact equalities_rep h.equalities x
  · rfl

theorem Meets.group {s : SolverModel} (hs : preprocessing inst = .ok s) (h : Meets inst σ) {x : Slot} : (groupVar inst.slots s.rep (s.rep x)).Admits (σ.get x) := by
  have hv : ∀ b ∈ inst.slots, s.rep b.slot = s.rep x → σ.get x = σ.get b.slot := fun b _ e => by
    rw [← h.rep hs b.slot, e, h.rep hs]
  exact ⟨(groupVar_bounds _ _ _ _).1.2 fun b hb e => hv b hb e ▸ (h.bounds b hb).1,
    (groupVar_bounds _ _ _ _).2.2 fun b hb e => hv b hb e ▸ (h.bounds b hb).2⟩

theorem Meets.fixed {s : SolverModel} (hs : preprocessing inst = .ok s) (h : Meets inst σ) :
    ∀ x ∈ s.fixed, σ.get x.1 = x.2 := by
  have hdet : ∀ (b : BoundedSlot) (x : Slot × ℝ), b.Admits (σ.get b.slot) →
      (match b.lb, b.ub with
      | some l, some u => open Classical in if l = u then some (b.slot, l) else none
      | _, _ => none) = some x → σ.get x.1 = x.2 := by
    intro b x hb hx
    split at hx
    · rename_i l u hl hu
      split at hx
      · rename_i e
        obtain rfl := Option.some.inj hx
        have a1 := hb.1 l (by rw [hl]; rfl)
        have a2 := hb.2 u (by rw [hu]; rfl)
        show σ.get b.slot = l
        linarith
      · cases hx
    · cases hx
  rcases preprocessing_cases hs with ⟨hl, s', ha, rfl⟩ | ⟨hl, rfl⟩
  · intro x hx
    obtain ⟨e1, e2, -, e4, -⟩ := aggregate_ok ha
    rcases List.mem_append.1 hx with hx | hx
    · rw [e2] at hx
      obtain ⟨y, hy, rfl⟩ := List.mem_map.1 hx
      show σ.get (repOf inst y.1) = y.2
      rw [equalities_rep h.equalities]
      exact fixPass_agrees inst.rels (by simp [Agrees]) h.equalities y hy
    · obtain ⟨b, hb, hx⟩ := List.mem_filterMap.1 hx
      refine hdet b x ?_ hx
      rw [e4] at hb
      obtain ⟨z, hz, rfl⟩ := List.mem_map.1 hb
      obtain ⟨b0, hb0, rfl⟩ := List.mem_map.1 (List.mem_dedup.1 (List.mem_filter.1 hz).1)
      have := h.group hs (x := b0.slot)
      have e : (detectFixedVars s').rep = repOf inst := e1
      rw [e] at this
      show (groupVar inst.slots (repOf inst) (repOf inst b0.slot)).Admits (σ.get (repOf inst b0.slot))
      rw [equalities_rep h.equalities]
      exact this
  · intro x hx
    rcases List.mem_append.1 hx with hx | hx
    · cases hx
    · obtain ⟨b, hb, hx⟩ := List.mem_filterMap.1 hx
      exact hdet b x (h.bounds b hb) hx

/-- The value at which a variable starts lies within its bounds. -/
theorem start_admitted (h : Spec.Created md p inst) {s : SolverModel} (hs : preprocessing inst = .ok s) (hm : Meets inst σ)
    (x : Slot) : (groupVar inst.slots s.rep (s.rep x)).Admits (startValue md inst s (s.rep x)) := by
  have hg := hm.group hs (x := x)
  unfold startValue
  cases hf : fixedAt s.fixed (s.rep x) with
  | some y =>
    have := hm.fixed hs _ (fixedAt_mem hf)
    simp only at this ⊢
    rw [← this, hm.rep hs]
    exact hg
  | none =>
    simp only
    cases hst : groupStart inst.slots (linksOf inst) s.rep (initialValue md inst.params) (s.rep x) with
    | none => exact BoundedSlot.midpoint_admitted hg
    | some y =>
      simp only
      unfold groupStart at hst
      split at hst
      · simp only at hst
        split at hst
        · cases hst
        · rename_i hne
          obtain rfl := Option.some.inj hst
          exact average_admitted hne fun z hz => by simpa using (List.mem_filter.1 hz).2
      · rename_i hn
        have halone : ∀ b ∈ inst.slots, s.rep b.slot = s.rep x → b.slot = s.rep x := by
          intro b _ e
          rw [preprocessing_rep hs] at e hn ⊢
          rcases representatives_self (linksOf inst) b.slot with h1 | ⟨l, hl, h1⟩
          · rw [← e, h1]
          · exact absurd ⟨l, hl, h1.trans e⟩ hn
        rw [(created_fields h).1] at hst
        exact ⟨(groupVar_bounds _ _ _ _).1.2 fun b hb e =>
            (initial_admitted h hb (by rw [halone b hb e]; exact hst)).1,
          (groupVar_bounds _ _ _ _).2.2 fun b hb e =>
            (initial_admitted h hb (by rw [halone b hb e]; exact hst)).2⟩

/-- The point at which the solver starts, as an assignment to the variables of the original model. -/
noncomputable def restoredStart (md : Modules) (inst : AbstractModel.Instance) (s : SolverModel) : Env :=
  (startPoint md inst s).restore s.rep

theorem restoredStart_get (s : SolverModel) (x : Slot) :
    (restoredStart md inst s).get x = startValue md inst s (s.rep x) := by
  unfold restoredStart
  rw [Env.get_restore]
  cases s.rep x <;> rfl

theorem consistent_meets (h : Spec.Consistent inst) : ∃ σ, Meets inst σ := by
  obtain ⟨σ, h1, h2⟩ := consistent_spec h
  exact ⟨σ, h1, h2⟩

/-- Gross GDP is positive wherever the equations hold. -/
theorem Meets.gross_pos (h : Spec.Created md p inst) (hadm : p.Admissible) (hm : Meets inst σ) {t : ℕ} (ht : t ≤ p.tf)
    {r : String} (hr : r ∈ p.regions) : 0 < σ.R .GDP_gross t r := by
  have hmem : ∀ k ∈ (CobbDouglas.component md.transfer).constraints, k ∈ allConstraints md := by
    intro k hk
    unfold allConstraints components
    simp only [List.flatMap_cons, List.flatMap_nil, List.mem_append]
    tauto
  cases t with
  | zero =>
    have hc : (rv .GDP_gross 0 r =ₚ num (p.baseline_GDP 0 r)) ∈ inst.rels := by
      refine (mem_rels h _).2 ⟨.regionalInit CobbDouglas.rGDPgrossInit (some "GDP_gross_init"), hmem _ ?_, _,
        List.mem_singleton.2 rfl, List.mem_map.2 ⟨r, hr, rfl⟩⟩
      simp [CobbDouglas.component]
    have := (hm.equalities _ hc rfl).2.2
    simp [Expr.peq, Rel.cmp] at this
    show 0 < σ.r .GDP_gross 0 r
    rw [this]
    exact hadm.gdp_pos 0 ht r hr
  | succ t =>
    have hc : (rv .GDP_gross ((t + 1 : ℕ) : ℤ) r =ₚ calc_GDP (num (get_TFP_value p (t + 1) r)) (num (p.population (t + 1) r))
        (soft_min (rv .capital_stock ((t + 1 : ℕ) : ℤ) r) (scale := 10)) p.alpha) ∈ inst.rels := by
      refine (mem_rels h _).2 ⟨.regional CobbDouglas.rGDPgross (some "GDP_gross"), hmem _ ?_, _,
        List.mem_singleton.2 rfl, ?_⟩
      · simp [CobbDouglas.component]
      · have := mem_outcomes (k := CobbDouglas.rGDPgross) (p := p) ht hr
        simpa [CobbDouglas.rGDPgross, RuleOut.onlyIf] using this
    have hv := (hm.equalities _ hc rfl).2.2
    have hd := hadm.econData
    have h1 : 0 < get_TFP_value p (t + 1) r := div_pos (hd.gdp_pos _ ht r hr) (calcGDP_pos' hd ht hr)
    have h2 := Real.rpow_pos_of_pos (hd.pop_pos _ ht r hr) (1 - p.alpha)
    have h3 := Real.rpow_pos_of_pos (soft_min_pos_ten (σ.r .capital_stock ((t + 1 : ℕ) : ℤ) r)) p.alpha
    simp only [Expr.peq, Rel.cmp, calc_GDP, rv, Expr.eval] at hv
    show 0 < σ.r .GDP_gross ((t + 1 : ℕ) : ℤ) r
    rw [hv]
    simp at h3 ⊢
    positivity

/-- **C81.** Every variable of the original model starts within its bounds. -/
theorem C81_start_within_bounds (h : Spec.Created md p inst) (hc : Spec.Consistent inst) {s : SolverModel}
    (hs : preprocessing inst = .ok s) : ∀ d ∈ inst.vars, d.BoundsOk p (restoredStart md inst s) := by
  obtain ⟨σ, hm⟩ := consistent_meets hc
  intro d hd
  rw [VarDecl.boundsOk_iff]
  intro b hb
  have hb' : b ∈ inst.slots := List.mem_flatMap.2 ⟨d, hd, by rw [(created_fields h).1]; exact hb⟩
  rw [restoredStart_get]
  have := start_admitted h hs hm b.slot
  exact ⟨(groupVar_bounds _ _ _ _).1.1 this.1 b hb' rfl, (groupVar_bounds _ _ _ _).2.1 this.2 b hb' rfl⟩

theorem start_sensible (h : Spec.Created md p inst) (hadm : p.Admissible) (hc : Spec.Consistent inst) {s : SolverModel}
    (hs : preprocessing inst = .ok s) : Spec.Sensible p (restoredStart md inst s) := by
  obtain ⟨σ, hm⟩ := consistent_meets hc
  have hgdp : ∀ t ≤ p.tf, ∀ r ∈ p.regions, 0 < (restoredStart md inst s).R .GDP_gross t r := by
    intro t ht r hr
    show 0 < (restoredStart md inst s).get (.r .GDP_gross t r)
    rw [restoredStart_get]
    have hal : ∀ l ∈ linksOf inst, l.1 ≠ .r .GDP_gross t r ∧ l.2 ≠ .r .GDP_gross t r := by
      unfold linksOf
      split
      · exact gross_unlinked h hadm t r
      · simp
    obtain ⟨a1, a2⟩ := representatives_alone hal
    rw [preprocessing_rep hs, a1]
    unfold startValue
    cases hf : fixedAt s.fixed (.r .GDP_gross t r) with
    | some y =>
      have := hm.fixed hs _ (fixedAt_mem hf)
      simp only at this ⊢
      rw [← this]
      exact hm.gross_pos h hadm ht hr
    | none =>
      have : groupStart inst.slots (linksOf inst) s.rep (initialValue md inst.params) (.r .GDP_gross t r) =
          some (p.baseline_GDP 0 r) := by
        unfold groupStart
        rw [if_neg, (created_fields h).1]
        · rfl
        · rintro ⟨l, hl, e⟩
          rw [preprocessing_rep hs] at e
          exact (hal l hl).1 (a2 _ e)
      simp only [linksOf] at this
      simp only [this]
      exact hadm.gdp_pos 0 (Nat.zero_le _) r hr
  refine ⟨fun t ht r hr => ?_, fun t ht r hr => (hgdp t ht r hr).ne', fun t ht =>
    (sumR_pos hadm.regions_ne fun r hr => hgdp t ht r hr).ne'⟩
  have hd : VarDecl.regional .relative_abatement (fun _ => some 0) (fun _ => some (5 / 2)) ∈ inst.vars := by
    rw [(created_fields h).2]
    simp [allVars, components, Emissions.component]
  exact ((C81_start_within_bounds h hc hs _ hd) t ht r hr).1 0 rfl

theorem fixPass_rest (cs : List Rel) : ∀ F, ∀ c ∈ (fixPass F cs).2, c ∈ cs := by
  induction cs with
  | nil => exact fun F c h => h
  | cons c cs ih =>
    intro F c' h
    rw [fixPass] at h
    split at h
    · exact List.mem_cons_of_mem _ (ih _ c' h)
    · rcases List.mem_cons.1 h with rfl | h
      · exact List.mem_cons_self
      · exact List.mem_cons_of_mem _ (ih _ c' h)

/-- **C81.** At the point at which the solver starts, all constraints that it is sent, and the objective, have a value. -/
theorem C81_start (h : Spec.Created md p inst) (hadm : p.Admissible) (h1 : Spec.LogisticData p.noslr p)
    (h2 : Spec.LogisticData p.slr p) (hc : Spec.Consistent inst) {s : SolverModel} (hs : preprocessing inst = .ok s) :
    (∀ c ∈ s.active, c.lhs.Defined (startPoint md inst s) ∧ c.rhs.Defined (startPoint md inst s)) ∧
    s.objective.Defined (startPoint md inst s) := by
  have he := C81_evaluable h hadm h1 h2 (start_sensible h hadm hc hs)
  rcases preprocessing_cases hs with ⟨hl, s', ha, rfl⟩ | ⟨hl, rfl⟩
  · obtain ⟨e1, e2, e3, e4, e5, e6⟩ := aggregate_ok ha
    have er : (detectFixedVars s').rep = repOf inst := e1
    unfold restoredStart at he
    rw [er] at he
    refine ⟨fun c hc => ?_, ?_⟩
    · have hc' : c ∈ s'.active := hc
      rw [e3] at hc'
      obtain ⟨c0, hc0, rfl⟩ := List.mem_map.1 hc'
      have := he.constraints c0 (fixPass_rest _ _ _ hc0)
      exact ⟨(Expr.defined_subst _).2 this.1, (Expr.defined_subst _).2 this.2⟩
    · show s'.objective.Defined _
      rw [e6]
      exact (Expr.defined_subst _).2 he.objective
  · have er : restoredStart md inst (detectFixedVars (sendAsIs inst)) =
        startPoint md inst (detectFixedVars (sendAsIs inst)) :=
      Env.ext_get fun x => by unfold restoredStart; rw [Env.get_restore]; rfl
    rw [er] at he
    exact ⟨he.constraints, he.objective⟩

/-- **C81 is sharp**: where gross GDP is zero, some constraint cannot be evaluated. -/
theorem C81_gdp_needed (h : Spec.Created md p inst) {t : ℕ} (ht : t ≤ p.tf) {r : String} (hr : r ∈ p.regions)
    (h0 : σ.R .GDP_gross t r = 0) : ¬ Spec.Evaluable inst σ := by
  intro he
  have hc : (rv .rel_mitigation_costs t r =ₚ rv .mitigation_costs t r / rv .GDP_gross t r) ∈ inst.rels := by
    refine (mem_rels h _).2 ⟨.regional Mitigation.rRelCosts (some "rel_mitigation_costs"), ?_, _, List.mem_singleton.2 rfl,
      mem_outcomes (k := Mitigation.rRelCosts) ht hr⟩
    simp [allConstraints, components, Mitigation.component, Mitigation.macConstraints]
  exact (he.constraints _ hc).2.2.2 h0

/-- **C81 is sharp**: where abatement is negative, some constraint cannot be evaluated unless the exponent of the MAC is
an integer. -/
theorem C81_abatement_needed (h : Spec.Created md p inst) {t : ℕ} (ht : t ≤ p.tf) {r : String}
    (hr : r ∈ p.regions) (h0 : σ.R .relative_abatement t r < 0) (hb : ∀ n : ℤ, p.MAC_beta ≠ n) : ¬ Spec.Evaluable inst σ := by
  intro he
  have hc : (rv .carbonprice t r =ₚ Mitigation.mMAC p t r) ∈ inst.rels := by
    refine (mem_rels h _).2 ⟨.regional Mitigation.rCarbonprice (some "carbonprice"), ?_, _, List.mem_singleton.2 rfl,
      mem_outcomes (k := Mitigation.rCarbonprice) ht hr⟩
    simp [allConstraints, components, Mitigation.component, Mitigation.macConstraints]
  have := (defined_mMAC p σ t r).1 (he.constraints _ hc).2
  rcases this with h1 | ⟨h1, -⟩ | ⟨-, n, hn⟩
  · exact absurd h1 (not_lt.2 (le_of_lt h0))
  · exact absurd h1 (ne_of_lt h0)
  · exact hb n hn

/-! ## A concrete case -/

/-- The second coefficients of the damage functions of the example are positive. -/
theorem p0_logistic : Spec.LogisticData Ex.p0.noslr Ex.p0 ∧ Spec.LogisticData Ex.p0.slr Ex.p0 := by
  constructor
  · intro r _ _
    simp [Ex.p0, Ex.ex]
  · intro r _ _
    simp [Ex.p0, Ex.ex]

/-- The example model is created, its data are admissible, its equations are consistent with its bounds; so there is a
starting point, at which everything can be evaluated. -/
example : ∃ inst s, Spec.Created Ex.m0 Ex.p0 inst ∧ Spec.Consistent inst ∧ preprocessing inst = .ok s ∧
    (∀ d ∈ inst.vars, d.BoundsOk Ex.p0 (restoredStart Ex.m0 inst s)) ∧
    s.objective.Defined (startPoint Ex.m0 inst s) := by
  obtain ⟨count, hm, m, inst, h1, h2, hf⟩ := Ex.sol0
  have hc : Spec.Created Ex.m0 Ex.p0 inst := ⟨count, hm, m, h1, h2⟩
  have hcon := solution_consistent hc Ex.sol0
  obtain ⟨s, h3, h4, -⟩ := C73_nothing_lost hc Ex.sol0
  exact ⟨inst, s, hc, hcon, h3, C81_start_within_bounds hc hcon h3,
    (C81_start hc (Ex.admissible (by norm_num) (by norm_num)) p0_logistic.1 p0_logistic.2 hcon h3).2⟩

/-- The solution of the example is one of the points covered by `C81_evaluable`. -/
example : ∃ inst, Spec.Created Ex.m0 Ex.p0 inst ∧ Spec.Evaluable inst Ex.σ0 := by
  obtain ⟨count, hm, m, inst, h1, h2, hf⟩ := Ex.sol0
  have hadm : Ex.p0.Admissible := Ex.admissible (by norm_num) (by norm_num)
  refine ⟨inst, ⟨count, hm, m, h1, h2⟩, C81_evaluable ⟨count, hm, m, h1, h2⟩ hadm p0_logistic.1 p0_logistic.2
    ⟨fun t ht r hr => (Ex.sol0.abatement_bounds ht hr).1, fun t ht r hr => (C37_gross_positive Ex.sol0 hadm.econData ht hr).ne',
     fun t ht => (sumR_pos hadm.regions_ne fun r hr => C37_gross_positive Ex.sol0 hadm.econData ht hr).ne'⟩⟩

/-- A point where nothing is produced: not all constraints of the example can be evaluated. -/
example : ∃ inst, Spec.Created Ex.m0 Ex.p0 inst ∧ ¬ Spec.Evaluable inst ⟨fun _ _ => 0, fun _ _ _ => 0⟩ := by
  obtain ⟨count, hm, m, inst, h1, h2, hf⟩ := Ex.sol0
  obtain ⟨r, hr⟩ := List.exists_mem_of_ne_nil _ (Ex.admissible (by norm_num) (by norm_num) : Ex.p0.Admissible).regions_ne
  exact ⟨inst, ⟨count, hm, m, h1, h2⟩, C81_gdp_needed ⟨count, hm, m, h1, h2⟩ (Nat.zero_le _) hr rfl⟩

end Mimosa
