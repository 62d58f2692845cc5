import Verif.Props.Optimum

/-!
# C71: the welfare and objective settings rank outcomes, they do not restrict them
-/

set_option linter.unusedVariables false

namespace Mimosa

variable {md : Modules} {p : Params} {σ τ : Env}

/-- The parameters `p` with the welfare settings (elasticity, inequality aversion, time preference) of `q`. -/
abbrev Params.withWelfare (p q : Params) : Params := { p with
    elasmu := q.elasmu
    inequal_aversion := q.inequal_aversion
    PRTP := q.PRTP }

/-- Same emissions, climate, abatement, costs, capital, GDP, consumption, …: everything but the welfare variables. -/
def Spec.SamePathway (σ τ : Env) : Prop :=
  (∀ v t, v ≠ .yearly_welfare → v ≠ .NPV → σ.G v t = τ.G v t) ∧ ∀ v t r, v ≠ .utility → σ.R v t r = τ.R v t r

namespace Rank

/-- Regional utility of the consumption in `σ`. -/
noncomputable def util (q : Params) (w : WelfareModule) (σ : Env) (t : ℤ) (r : String) : ℝ :=
  match w with
  | .welfare_loss_minimising =>
      (soft_min (σ.r .consumption t r / q.population t.toNat r) 1 ^ (1 - q.elasmu) - 1) / (1 - q.elasmu)
  | .cost_minimising => σ.r .consumption t r / q.population t.toNat r
  | .inequal_aversion_general => q.population t.toNat r *
        soft_min (σ.r .consumption t r / q.population t.toNat r) 1 ^ (1 - q.inequal_aversion)

/-- Welfare of the consumption in `σ`. -/
noncomputable def welf (q : Params) (w : WelfareModule) (σ : Env) (t : ℤ) : ℝ :=
  match w with
  | .welfare_loss_minimising => q.sumR fun r => q.population t.toNat r * util q .welfare_loss_minimising σ t r
  | .cost_minimising => q.sumR (fun r => q.population t.toNat r) *
        ((soft_min (q.sumR (fun r => σ.r .consumption t r) / q.sumR (fun r => q.population t.toNat r)) 1 ^
          (1 - q.elasmu) - 1) / (1 - q.elasmu))
  | .inequal_aversion_general => q.sumR (fun r => q.population t.toNat r) *
        (soft_min (q.sumR (fun r => util q .inequal_aversion_general σ t r) / q.sumR (fun r => q.population t.toNat r)) 1 ^
          ((1 - q.elasmu) / (1 - q.inequal_aversion)) / (1 - q.elasmu))

/-- Net present value of the pathway in `σ`. -/
noncomputable def npv (q : Params) (w : WelfareModule) (o : ObjectiveModule) (σ : Env) : ℕ → ℝ
  | 0 => 0
  | t + 1 => npv q w o σ t + q.dt * Objective.discount q (t + 1) *
      match o with
      | .utility => welf q w σ (t + 1 : ℕ)
      | .globalcosts => q.sumR (fun r => σ.R .mitigation_costs (t + 1) r) +
        q.sumR (fun r => σ.R .damage_costs (t + 1) r * σ.R .GDP_gross (t + 1) r)

/-- The pathway of `σ` with the welfare variables of other welfare and objective modules and settings. -/
noncomputable def env (q : Params) (w : WelfareModule) (o : ObjectiveModule) (σ : Env) : Env where
  g v t := match v with
    | .yearly_welfare => welf q w σ t
    | .NPV => npv q w o σ t.toNat
    | v => σ.g v t
  r v t r := match v with
    | .utility => util q w σ t r
    | v => σ.r v t r

theorem env_g (q : Params) (w : WelfareModule) (o : ObjectiveModule) {v : GVar} (t : ℤ) (h1 : v ≠ .yearly_welfare)
    (h2 : v ≠ .NPV) : (env q w o σ).g v t = σ.g v t := by
  cases v <;> first | rfl | exact absurd rfl h1 | exact absurd rfl h2

theorem env_r (q : Params) (w : WelfareModule) (o : ObjectiveModule) {v : RVar} (t : ℤ) (r : String)
    (h1 : v ≠ .utility) : (env q w o σ).r v t r = σ.r v t r := by
  cases v <;> first | rfl | exact absurd rfl h1

/-- A variable that is not about welfare, or has no bounds. -/
def Fine : VarDecl → Prop
  | .global v lb ub => (lb = noBound ∧ ub = noBound) ∨ (v ≠ .yearly_welfare ∧ v ≠ .NPV)
  | .regional v lb ub => (lb = noBound ∧ ub = noBound) ∨ v ≠ .utility

theorem vars {w : WelfareModule} {o : ObjectiveModule} (d : VarDecl)
    (hd : d ∈ allVars { md with welfare := w, objective := o }) :
    (d ∈ allVars md ∨ d ∈ (Welfare.component w).vars ∨ d ∈ (Objective.component o).vars) ∧ Fine d := by
  obtain ⟨dm, tr, tm, w0, o0⟩ := md
  have h1 : ∀ d ∈ Emissions.component.vars, Fine d := by simp [Emissions.component, Fine]
  have h2 : ∀ d ∈ SeaLevelRise.component.vars, Fine d := by simp [SeaLevelRise.component, Fine]
  have h3 : ∀ d ∈ (damageComponent dm).vars, Fine d := by
    cases dm <;> simp [damageComponent, Damages.coacch, Damages.nodamage, Fine]
  have h4 : ∀ d ∈ (Mitigation.component tr).vars, Fine d := by
    simp [Mitigation.component, Fine]
  have h5 : ∀ d ∈ (EmissionTrade.component tr).vars, Fine d := by
    cases tr <;> simp [EmissionTrade.component, EmissionTrade.notrade, EmissionTrade.globalcostpool,
      EmissionTrade.emissiontrade, Fine]
  have h6 : ∀ d ∈ (FinTransfer.component tm).vars, Fine d := by
    cases tm <;> simp [FinTransfer.component, FinTransfer.notransfer, FinTransfer.globaldamagepool, Fine]
  have h7 : ∀ d ∈ (EffortSharing.component tm).vars, Fine d := by
    simp [EffortSharing.component, Fine]
  have h8 : ∀ d ∈ (CobbDouglas.component tm).vars, Fine d := by
    simp [CobbDouglas.component, Fine]
  have h9 : ∀ d ∈ (Welfare.component w).vars, Fine d := by
    cases w <;> simp [Welfare.component, Fine]
  have h10 : ∀ d ∈ (Objective.component o).vars, Fine d := by
    cases o <;> simp [Objective.component, Fine]
  simp only [allVars, components, List.flatMap_cons, List.flatMap_nil, List.append_nil, List.mem_append] at hd ⊢
  rcases hd with h | h | h | h | h | h | h | h | h | h
  · exact ⟨by simp only [h, true_or, or_true], h1 _ h⟩
  · exact ⟨by simp only [h, true_or, or_true], h2 _ h⟩
  · exact ⟨by simp only [h, true_or, or_true], h3 _ h⟩
  · exact ⟨by simp only [h, true_or, or_true], h4 _ h⟩
  · exact ⟨by simp only [h, true_or, or_true], h5 _ h⟩
  · exact ⟨by simp only [h, true_or, or_true], h6 _ h⟩
  · exact ⟨by simp only [h, true_or, or_true], h7 _ h⟩
  · exact ⟨by simp only [h, true_or, or_true], h8 _ h⟩
  · exact ⟨by simp only [h, true_or, or_true], h9 _ h⟩
  · exact ⟨by simp only [h, true_or, or_true], h10 _ h⟩

end Rank

open Rank

/-- **C71.** Whatever pathway is possible under one choice of welfare module, objective and welfare settings is possible
under every other choice. -/
theorem C71_same_pathways (h : Solution md p σ) (w : WelfareModule) (o : ObjectiveModule) (q : Params)
    (hel : q.elasmu ≠ 1) (hin : w = .inequal_aversion_general → q.inequal_aversion ≠ 1) :
    ∃ τ, Solution { md with welfare := w, objective := o } (p.withWelfare q) τ ∧ Spec.SamePathway τ σ := by
  obtain ⟨htr, hr, c, hb, e⟩ := solution_char.1 h
  have hpop : ∀ t ≤ p.tf, ∀ r ∈ p.regions, p.population t r ≠ 0 := by
    have := e.welfare
    revert this
    cases md.welfare
    · exact fun h t ht r hr => (h.1 t ht r hr).1
    · exact fun h t ht r hr => (h.1 t ht r hr).1
    · exact fun h t ht r hr => (h.1 t ht r hr).1
  have hel' : 1 - q.elasmu ≠ 0 := sub_ne_zero.2 (Ne.symm hel)
  have hsum : ∀ t ≤ p.tf, p.sumR (fun r => p.population t r) ≠ 0 := fun t ht => c.init.sum_population_ne t ht hr
  have htfp : ∀ t r, get_TFP_value (p.withWelfare q) t r = get_TFP_value p t r := fun t r =>
    TFP_congr (p := p) (p' := p.withWelfare q) rfl (fun _ => rfl) rfl rfl rfl (fun _ => rfl) rfl t
  have hcal : ∀ t r, calibCapital (p.withWelfare q) r t = calibCapital p r t := fun t r =>
    calibCapital_congr (p := p) (p' := p.withWelfare q) rfl (fun _ => rfl) rfl rfl rfl t
  obtain ⟨dm, tr, tm, w0, o0⟩ := md
  refine ⟨env (p.withWelfare q) w o σ, solution_char.2 ⟨htr, hr, ⟨?_, c.overshoot, c.index, c.forms, c.allowances⟩, ?_,
    ⟨{ e.emissions with }, { e.slr with }, ?_, { e.mitigation with }, ?_, ?_, ?_, ?_, ?_, ?_⟩⟩,
    fun v t h1 h2 => env_g _ _ _ _ h1 h2, fun v t r h1 => env_r _ _ _ _ _ h1⟩
  · exact { c.init with
      cap_pow := fun t ht r hr => by rw [hcal]; exact c.init.cap_pow t ht r hr
      tfp_ne := fun t ht r hr => by rw [hcal]; exact c.init.tfp_ne t ht r hr }
  · intro d hd
    obtain ⟨h1, h2⟩ := vars d hd
    rcases h1 with h1 | h1 | h1
    · have hbd := hb d h1
      have := sameBounds (p := p) (p' := p.withWelfare q) rfl d h1
      cases d with
      | global v lb ub =>
        simp only [VarDecl.SameBounds] at this
        rcases h2 with ⟨rfl, rfl⟩ | h2
        · simp [VarDecl.BoundsOk, noBound]
        · simpa only [VarDecl.BoundsOk, this, env_g _ _ _ _ h2.1 h2.2] using hbd
      | regional v lb ub =>
        simp only [VarDecl.SameBounds] at this
        rcases h2 with ⟨rfl, rfl⟩ | h2
        · simp [VarDecl.BoundsOk, noBound]
        · simpa only [VarDecl.BoundsOk, this, env_r _ _ _ _ _ h2] using hbd
    · have h3 : d = .regional .utility noBound noBound ∨ d = .global .yearly_welfare noBound noBound := by
        cases w <;> simpa only [Welfare.component, List.mem_cons, List.not_mem_nil, or_false] using h1
      rcases h3 with rfl | rfl <;> simp [VarDecl.BoundsOk, noBound]
    · have h3 : d = .global .NPV noBound noBound := by
        cases o <;> simpa only [Objective.component, List.mem_cons, List.not_mem_nil, or_false] using h1
      subst h3
      simp [VarDecl.BoundsOk, noBound]
  · have := e.damages
    revert this
    cases dm
    · intro this; exact { (this : CoacchEqs p σ) with }
    · exact id
  · have := e.trade
    revert this htr
    cases tr
    · exact fun _ => id
    · exact fun h => absurd rfl h
    · intro _ this; exact { (this : TradeEqs p σ) with }
  · have := e.transfer
    revert this
    cases tm
    · exact id
    · intro this; exact { (this : PoolEqs p σ) with }
  · cases tm <;> exact { e.effort with }
  · cases tm <;> exact { e.economy with gross := fun t ht r hr => by rw [htfp]; exact e.economy.gross t ht r hr }
  · cases w
    · exact ⟨fun t ht r hr => ⟨hpop t ht r hr, hel', rfl⟩, fun t ht => rfl⟩
    · exact ⟨fun t ht r hr => ⟨hpop t ht r hr, rfl⟩, fun t ht => ⟨hsum t ht, hel', rfl⟩⟩
    · exact ⟨fun t ht r hr => ⟨hpop t ht r hr, rfl⟩,
        fun t ht => ⟨hsum t ht, sub_ne_zero.2 (Ne.symm (hin rfl)), hel', rfl⟩⟩
  · cases o
    · exact ⟨fun t ht => rfl, rfl⟩
    · exact ⟨fun t ht => rfl, rfl⟩

theorem Rank.welfare_congr {w : WelfareModule} (e : WelfareEqs p σ w) (e' : WelfareEqs p τ w)
    (hc : ∀ t r, σ.R .consumption t r = τ.R .consumption t r) :
    (∀ t ≤ p.tf, ∀ r ∈ p.regions, σ.R .utility t r = τ.R .utility t r) ∧
      (∀ t ≤ p.tf, σ.G .yearly_welfare t = τ.G .yearly_welfare t) := by
  revert e e'
  cases w
  · rintro ⟨h1, h2⟩ ⟨h3, h4⟩
    have hu : ∀ t ≤ p.tf, ∀ r ∈ p.regions, σ.R .utility t r = τ.R .utility t r := fun t ht r hr => by
      rw [(h1 t ht r hr).2.2, (h3 t ht r hr).2.2, hc]
    exact ⟨hu, fun t ht => by
      rw [h2 t ht, h4 t ht]; exact sumR_congr fun r hr => by rw [hu t ht r hr]⟩
  · rintro ⟨h1, h2⟩ ⟨h3, h4⟩
    have hu : ∀ t ≤ p.tf, ∀ r ∈ p.regions, σ.R .utility t r = τ.R .utility t r := fun t ht r hr => by
      rw [(h1 t ht r hr).2, (h3 t ht r hr).2, hc]
    refine ⟨hu, fun t ht => ?_⟩
    rw [(h2 t ht).2.2, (h4 t ht).2.2]
    simp only [hc]
  · rintro ⟨h1, h2⟩ ⟨h3, h4⟩
    have hu : ∀ t ≤ p.tf, ∀ r ∈ p.regions, σ.R .utility t r = τ.R .utility t r := fun t ht r hr => by
      rw [(h1 t ht r hr).2, (h3 t ht r hr).2, hc]
    refine ⟨hu, fun t ht => ?_⟩
    rw [(h2 t ht).2.2.2, (h4 t ht).2.2.2,
      show p.sumR (fun r => σ.R .utility t r) = p.sumR (fun r => τ.R .utility t r) from
        sumR_congr fun r hr => hu t ht r hr]

/-- **C71.** Under one choice of modules and settings, solutions with the same pathway have the same utility, welfare and
objective value: nothing else enters the ranking. -/
theorem C71_ranking (h : Solution md p σ) (h' : Solution md p τ) (hs : Spec.SamePathway σ τ) :
    (∀ t ≤ p.tf, ∀ r ∈ p.regions, σ.R .utility t r = τ.R .utility t r) ∧
    (∀ t ≤ p.tf, σ.G .yearly_welfare t = τ.G .yearly_welfare t) ∧ ∀ t ≤ p.tf, σ.G .NPV t = τ.G .NPV t := by
  have hc : ∀ t r, σ.R .consumption t r = τ.R .consumption t r := fun t r => hs.2 _ _ _ (by decide)
  have hu := Rank.welfare_congr h.eqs.welfare h'.eqs.welfare hc
  refine ⟨hu.1, hu.2, fun t ht => ?_⟩
  have o := h.eqs.objective
  have o' := h'.eqs.objective
  have hR : ∀ v t r, v ≠ RVar.utility → σ.R v t r = τ.R v t r := fun v t r hv => hs.2 v t r hv
  revert o o'
  cases md.objective
  · rintro ⟨h1, h2⟩ ⟨h3, h4⟩
    induction t with
    | zero => exact h2.trans h4.symm
    | succ t ih =>
      have := ih (by omega)
      rw [h1 t ht, h3 t ht, this]
      have := hu.2 (t + 1) ht
      rw [this]
  · rintro ⟨h1, h2⟩ ⟨h3, h4⟩
    induction t with
    | zero => exact h2.trans h4.symm
    | succ t ih =>
      have := ih (by omega)
      rw [h1 t ht, h3 t ht, this]
      simp only [hR _ _ _ (show RVar.mitigation_costs ≠ .utility by decide),
        hR _ _ _ (show RVar.damage_costs ≠ .utility by decide), hR _ _ _ (show RVar.GDP_gross ≠ .utility by decide)]

/-- The discounted world costs of abatement and damages of a pathway. -/
noncomputable def Spec.discountedCosts (p : Params) (σ : Env) : ℝ :=
  Spec.discountedSum p (fun t => (p.regions.map fun r => σ.R .mitigation_costs t r).sum +
    (p.regions.map fun r => σ.R .damage_costs t r * σ.R .GDP_gross t r).sum) p.tf

/-- A solution exists only if the welfare settings avoid the divisions by zero. -/
theorem Rank.settings_ok (hs : Solution md p σ) :
    p.elasmu ≠ 1 ∧ (md.welfare = .inequal_aversion_general → p.inequal_aversion ≠ 1) := by
  have e := hs.eqs.welfare
  obtain ⟨r, hr⟩ := List.exists_mem_of_ne_nil _ hs.regions_ne
  revert e
  cases md.welfare
  · exact fun e => ⟨fun h => (e.1 0 (Nat.zero_le _) r hr).2.1 (by rw [h, sub_self]), fun h => by cases h⟩
  · exact fun e => ⟨fun h => (e.2 0 (Nat.zero_le _)).2.1 (by rw [h, sub_self]), fun h => by cases h⟩
  · exact fun e => ⟨fun h => (e.2 0 (Nat.zero_le _)).2.2.1 (by rw [h, sub_self]),
      fun _ h => (e.2 0 (Nat.zero_le _)).2.1 (by rw [h, sub_self])⟩

/-- **C71.** The optimum of the cost objective has the lowest discounted costs of all pathways, including the optima of
every welfare objective (whatever the welfare settings). -/
theorem C71_cheapest (h : Optimal md p σ) (ho : md.objective = .globalcosts) {w : WelfareModule} {o : ObjectiveModule}
    {q : Params} (h' : Solution { md with welfare := w, objective := o } (p.withWelfare q) τ) :
    Spec.discountedCosts p σ ≤ Spec.discountedCosts p τ := by
  have hs := h.1
  have hel := Rank.settings_ok hs
  obtain ⟨τ', h1, h2⟩ := C71_same_pathways h' md.welfare md.objective p hel.1 hel.2
  have h3 : Solution md p τ' := h1
  have h4 := (C45_optimum h h3).2 ho
  rw [C45_globalcosts hs ho le_rfl, C45_globalcosts h3 ho le_rfl] at h4
  have h5 : ∀ v t r, v ≠ RVar.utility → τ'.R v t r = τ.R v t r := fun v t r hv => h2.2 v t r hv
  simp only [h5 _ _ _ (show RVar.mitigation_costs ≠ .utility by decide),
        h5 _ _ _ (show RVar.damage_costs ≠ .utility by decide), h5 _ _ _ (show RVar.GDP_gross ≠ .utility by decide)] at h4
  exact h4

/-- **C71.** The optimum of a welfare objective is at least as good, measured by its own welfare, as every pathway that is
possible under other modules and settings. -/
theorem C71_best_by_own_measure (h : Optimal md p σ) {w : WelfareModule} {o : ObjectiveModule}
    {q : Params} (h' : Solution { md with welfare := w, objective := o } (p.withWelfare q) τ) :
    ∃ τ', Solution md p τ' ∧ Spec.SamePathway τ' τ ∧ Spec.objectiveValue md p τ' ≤ Spec.objectiveValue md p σ := by
  have hs := h.1
  have hel := Rank.settings_ok hs
  obtain ⟨τ', h1, h2⟩ := C71_same_pathways h' md.welfare md.objective p hel.1 hel.2
  exact ⟨τ', h1, h2, h.best (show Solution md p τ' from h1)⟩

open Ex

example (w : WelfareModule) (o : ObjectiveModule) := C71_same_pathways sol0 w o { free with elasmu := 1 / 2, inequal_aversion := 2, PRTP := 3 }
  (by norm_num) (fun _ => by norm_num)
example := C71_ranking sol0 sol0 ⟨fun _ _ _ _ => rfl, fun _ _ _ _ => rfl⟩
/-- The cost optimum, and the half-abatement path judged by welfare with other settings. -/
example (w : WelfareModule) : ∃ τ, Solution (md0 .nodamage w .utility) (free.withWelfare { free with elasmu := 2, PRTP := 0 }) τ ∧
    Spec.discountedCosts free (σZero .cost_minimising .globalcosts) ≤ Spec.discountedCosts free τ := by
  obtain ⟨τ, h, -⟩ := C71_same_pathways (free_sol .nodamage .cost_minimising .globalcosts mild_half) w .utility
    { free with elasmu := 2, PRTP := 0 } (by norm_num) (fun _ => by norm_num [free, ex])
  exact ⟨τ, h, C71_cheapest (md := md0 .nodamage .cost_minimising .globalcosts)
    (C66_no_costs_optimal free_admissible ⟨fun _ => .inl rfl, fun _ => rfl, by simp [free, ex]⟩ (by norm_num [free, ex])
      (free_sol .nodamage .cost_minimising .globalcosts mild_zero) (fun t _ _ r _ => free_cost_zero _ _ t r)) rfl h⟩
example (w : WelfareModule) := C71_best_by_own_measure (τ := (Path.x half).env (md0 .nodamage .cost_minimising .globalcosts) free)
  (free_optimal w) (q := free) (free_sol .nodamage .cost_minimising .globalcosts mild_half)

end Mimosa
