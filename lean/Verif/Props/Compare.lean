import Verif.Props.Structure
import Verif.Lib.Char

/-!
# Comparing runs: C59 (looser limits), C60 (order of the regions), C61 (shorter horizon)
-/

namespace Mimosa

variable {md : Modules} {p : Params} {σ : Env}

/-- The bounds of a variable are the same for two sets of parameters. -/
def VarDecl.SameBounds (p p' : Params) : VarDecl → Prop
  | .global _ lb ub => lb p' = lb p ∧ ub p' = ub p
  | .regional _ lb ub => lb p' = lb p ∧ ub p' = ub p

theorem sameBounds {p p' : Params} (h : p'.MAC_gamma = p.MAC_gamma) : ∀ d ∈ allVars md, d.SameBounds p p' := by
  have h1 : ∀ d ∈ Emissions.component.vars, d.SameBounds p p' := by simp [Emissions.component, VarDecl.SameBounds, noBound]
  have h2 : ∀ d ∈ SeaLevelRise.component.vars, d.SameBounds p p' := by simp [SeaLevelRise.component, VarDecl.SameBounds, noBound]
  have h3 : ∀ d ∈ (damageComponent md.damage).vars, d.SameBounds p p' := by
    cases md.damage <;> simp [damageComponent, Damages.coacch, Damages.nodamage, VarDecl.SameBounds, noBound]
  have h4 : ∀ d ∈ (Mitigation.component md.trade).vars, d.SameBounds p p' := by
    cases md.trade <;> simp [Mitigation.component, VarDecl.SameBounds, noBound, h]
  have h5 : ∀ d ∈ (EmissionTrade.component md.trade).vars, d.SameBounds p p' := by
    cases md.trade <;> simp [EmissionTrade.component, EmissionTrade.notrade, EmissionTrade.globalcostpool,
      EmissionTrade.emissiontrade, VarDecl.SameBounds, noBound]
  have h6 : ∀ d ∈ (FinTransfer.component md.transfer).vars, d.SameBounds p p' := by
    cases md.transfer <;> simp [FinTransfer.component, FinTransfer.notransfer, FinTransfer.globaldamagepool,
      VarDecl.SameBounds, noBound]
  have h7 : ∀ d ∈ (EffortSharing.component md.transfer).vars, d.SameBounds p p' := by
    simp [EffortSharing.component, VarDecl.SameBounds, noBound]
  have h8 : ∀ d ∈ (CobbDouglas.component md.transfer).vars, d.SameBounds p p' := by
    simp [CobbDouglas.component, VarDecl.SameBounds, noBound]
  have h9 : ∀ d ∈ (Welfare.component md.welfare).vars, d.SameBounds p p' := by
    cases md.welfare <;> simp [Welfare.component, VarDecl.SameBounds, noBound]
  have h10 : ∀ d ∈ (Objective.component md.objective).vars, d.SameBounds p p' := by
    cases md.objective <;> simp [Objective.component, VarDecl.SameBounds, noBound]
  intro d hd
  simp only [allVars, components, List.flatMap_cons, List.flatMap_nil, List.append_nil, List.mem_append] at hd
  rcases hd with hd | hd | hd | hd | hd | hd | hd | hd | hd | hd
  exacts [h1 d hd, h2 d hd, h3 d hd, h4 d hd, h5 d hd, h6 d hd, h7 d hd, h8 d hd, h9 d hd, h10 d hd]

theorem calibCapital_congr {p p' : Params} {r : String} (h1 : p'.init_capitalstock_factor r = p.init_capitalstock_factor r)
    (h2 : ∀ t, p'.baseline_GDP t r = p.baseline_GDP t r) (h3 : p'.sr = p.sr) (h4 : p'.dk = p.dk) (h5 : p'.dt = p.dt)
    (t : ℕ) : calibCapital p' r t = calibCapital p r t := by
  induction t with
  | zero => simp [calibCapital, h1, h2]
  | succ t ih => simp [calibCapital, ih, h2, h3, h4, h5]

theorem TFP_congr {p p' : Params} {r : String} (h1 : p'.init_capitalstock_factor r = p.init_capitalstock_factor r)
    (h2 : ∀ t, p'.baseline_GDP t r = p.baseline_GDP t r) (h3 : p'.sr = p.sr) (h4 : p'.dk = p.dk) (h5 : p'.dt = p.dt)
    (h6 : ∀ t, p'.population t r = p.population t r) (h7 : p'.alpha = p.alpha)
    (t : ℕ) : get_TFP_value p' t r = get_TFP_value p t r := by
  simp [get_TFP_value, calibCapital_congr h1 h2 h3 h4 h5, h2, h6, h7]

/-! ## C59 -/

/-- The parameters `p`, with the limits on emissions, temperature and costs taken from `q`. -/
abbrev Params.withLimits (p q : Params) : Params := { p with
    temperature_target := q.temperature_target
    budget := q.budget
    inertia_global := q.inertia_global
    inertia_regional := q.inertia_regional
    global_min_level := q.global_min_level
    regional_min_level := q.regional_min_level
    non_increasing_emissions_after_2100 := q.non_increasing_emissions_after_2100
    no_pos_emissions_after_budget_year := q.no_pos_emissions_after_budget_year
    rel_mitigation_costs_min_level := q.rel_mitigation_costs_min_level
    effort_sharing_regime := q.effort_sharing_regime }

/-- Every limit set in `q` is also set in `p`, at least as strictly. -/
structure Spec.Looser (p q : Params) : Prop where
  target : ∀ T', q.temperature_target = some T' → ∃ T, p.temperature_target = some T ∧ T ≤ T'
  budget : ∀ b', q.budget = some b' → ∃ b, p.budget = some b ∧ b ≤ b'
  /-- (inertia limits are negative: the fastest allowed change per year, relative to the first year) -/
  inertia_global : ∀ i', q.inertia_global = some i' → ∃ i, p.inertia_global = some i ∧ i' ≤ i
  inertia_regional : ∀ i', q.inertia_regional = some i' → ∃ i, p.inertia_regional = some i ∧ i' ≤ i
  global_min : ∀ l', q.global_min_level = some l' → ∃ l, p.global_min_level = some l ∧ l' ≤ l
  regional_min : ∀ l', q.regional_min_level = some l' → ∃ l, p.regional_min_level = some l ∧ l' ≤ l
  non_increasing : q.non_increasing_emissions_after_2100 = true → p.non_increasing_emissions_after_2100 = true
  net_zero : q.no_pos_emissions_after_budget_year = true → p.no_pos_emissions_after_budget_year = true
  costs_min : q.rel_mitigation_costs_min_level ≤ p.rel_mitigation_costs_min_level
  regime : q.effort_sharing_regime = p.effort_sharing_regime ∨ q.effort_sharing_regime = "noregime"

/-- **C59.** Loosening or dropping limits never makes a solution infeasible.  (Emissions of the first year and the time
step must not be negative for the inertia limits.) -/
theorem C59_still_feasible {q : Params} (h : Solution md p σ) (hl : Spec.Looser p q) (hdt : 0 ≤ p.dt)
    (hem : ∀ r ∈ p.regions, 0 ≤ p.baseline_emissions 0 r) : Solution md (p.withLimits q) σ := by
  obtain ⟨htr, hr, c, hb, e⟩ := solution_char.1 h
  have hsum : 0 ≤ p.sumR fun r => p.baseline_emissions 0 r := by
    unfold Params.sumR
    exact List.sum_nonneg (by simpa using hem)
  have hbud : q.budget ≠ none → p.budget ≠ none := by
    intro h1 h2
    obtain ⟨b', hb'⟩ := Option.ne_none_iff_exists'.1 h1
    obtain ⟨b, hb, -⟩ := hl.budget _ hb'
    rw [h2] at hb; cases hb
  have htfp : ∀ t r, get_TFP_value (p.withLimits q) t r = get_TFP_value p t r := fun t r =>
    TFP_congr (p := p) (p' := p.withLimits q) rfl (fun _ => rfl) rfl rfl rfl (fun _ => rfl) rfl t
  have hcal : ∀ t r, calibCapital (p.withLimits q) r t = calibCapital p r t := fun t r =>
    calibCapital_congr (p := p) (p' := p.withLimits q) rfl (fun _ => rfl) rfl rfl rfl t
  refine solution_char.2 ⟨htr, hr, ⟨?_, ?_, ?_, c.forms, ?_⟩, ?_, ⟨?_, { e.slr with }, ?_, ?_, ?_, ?_, ?_, ?_, ?_, ?_⟩⟩
  · exact { c.init with
      cap_pow := fun t ht r hr => by rw [hcal]; exact c.init.cap_pow t ht r hr
      tfp_ne := fun t ht r hr => by rw [hcal]; exact c.init.tfp_ne t ht r hr }
  · intro h1; exact c.overshoot (hbud h1)
  · intro h1; exact c.index (hl.non_increasing h1)
  · intro h1
    rcases hl.regime with h2 | h2
    · exact c.allowances (h2 ▸ h1)
    · rw [show (p.withLimits q).effort_sharing_regime = q.effort_sharing_regime from rfl, h2] at h1
      exact absurd h1 (by decide)
  · intro d hd
    have := sameBounds (p := p) (p' := p.withLimits q) rfl d hd
    have hbd := hb d hd
    cases d <;> simp only [VarDecl.SameBounds] at this <;> simp only [VarDecl.BoundsOk, this] <;> exact hbd
  · exact { e.emissions with
      temperature_target := fun t ht T' hT' hy => by
        obtain ⟨T, hT, hle⟩ := hl.target T' hT'
        exact (e.emissions.temperature_target t ht T hT hy).trans hle
      budget := fun t ht b' hb' hy => by
        obtain ⟨b, hb, hle⟩ := hl.budget b' hb'
        have := e.emissions.budget t ht b hb hy
        show _ - (b' + (if p.perc_reversible_damages < 1 then _ else _)) ≤ 0
        linarith
      global_inertia := fun t ht i' hi' => by
        obtain ⟨i, hi, hle⟩ := hl.inertia_global i' hi'
        refine le_trans ?_ (e.emissions.global_inertia t ht i hi)
        show p.dt * i' * (p.sumR fun r => p.baseline_emissions 0 r) ≤ _
        gcongr
      regional_inertia := fun t ht r hr i' hi' => by
        obtain ⟨i, hi, hle⟩ := hl.inertia_regional i' hi'
        refine le_trans ?_ (e.emissions.regional_inertia t ht r hr i hi)
        show p.dt * i' * p.baseline_emissions 0 r ≤ _
        have := hem r hr
        gcongr
      global_min_level := fun t ht l' hl' => by
        obtain ⟨l, hl2, hle⟩ := hl.global_min l' hl'
        exact hle.trans (e.emissions.global_min_level t ht l hl2)
      regional_min_level := fun t ht r hr l' hl' => by
        obtain ⟨l, hl2, hle⟩ := hl.regional_min l' hl'
        exact hle.trans (e.emissions.regional_min_level t ht r hr l hl2)
      non_increasing := fun t ht r hr hy hf => e.emissions.non_increasing t ht r hr hy (hl.non_increasing hf)
      net_zero := fun t ht hy hf hb' => e.emissions.net_zero t ht hy (hl.net_zero hf) (hbud hb') }
  · have := e.damages
    revert this
    cases md.damage
    · intro this; exact { (this : CoacchEqs p σ) with }
    · exact id
  · exact { e.mitigation with
      rel_costs_min := fun t ht r hr => le_trans (by
        show (if t > 0 then q.rel_mitigation_costs_min_level else 0) ≤ if t > 0 then p.rel_mitigation_costs_min_level else 0
        split
        · exact hl.costs_min
        · exact le_rfl) (e.mitigation.rel_costs_min t ht r hr) }
  · have := e.trade
    revert this htr
    cases md.trade
    · exact fun _ => id
    · intro h; exact absurd rfl h
    · intro _ this; exact { (this : TradeEqs p σ) with }
  · have := e.transfer
    revert this
    cases md.transfer
    · exact id
    · intro this; exact { (this : PoolEqs p σ) with }
  · rcases hl.regime with h2 | h2
    · exact {
              mitigation := fun t ht r hr h1 => e.effort.mitigation t ht r hr (h2 ▸ h1)
              total := fun t ht r hr h1 => e.effort.total t ht r hr (h2 ▸ h1)
              percap := fun t ht r hr h1 => e.effort.percap t ht r hr (h2 ▸ h1) }
    · have hne : ∀ s, s ≠ "noregime" → (p.withLimits q).effort_sharing_regime ≠ s := by
        intro s hs h1; exact hs (h1.symm.trans h2)
      exact {
              mitigation := fun t ht r hr h1 => absurd h1 (hne _ (by decide))
              total := fun t ht r hr h1 => absurd h1 (hne _ (by decide))
              percap := fun t ht r hr h1 => absurd h1 (hne _ (by decide)) }
  · exact { e.economy with gross := fun t ht r hr => by rw [htfp]; exact e.economy.gross t ht r hr }
  · have := e.welfare
    revert this
    cases md.welfare <;> exact id
  · have := e.objective
    revert this
    cases md.objective <;> exact id

/-- Objective values, with larger meaning better. -/
noncomputable def Spec.objectiveValue (md : Modules) (p : Params) (σ : Env) : ℝ :=
  match md.objective with
  | .utility => σ.G .NPV p.tf
  | .globalcosts => -σ.G .NPV p.tf

theorem Optimal.best {τ : Env} (h : Optimal md p σ) (h' : Solution md p τ) :
    Spec.objectiveValue md p τ ≤ Spec.objectiveValue md p σ := by
  have := h.2 τ h'
  unfold Spec.objectiveValue
  revert this
  cases md.objective
  · exact id
  · exact fun h => neg_le_neg h

/-- **C59.** So a looser set of limits never has a worse optimum. -/
theorem C59_optimum {q : Params} {τ : Env} (h : Optimal md p σ) (h' : Optimal md (p.withLimits q) τ)
    (hl : Spec.Looser p q) (hdt : 0 ≤ p.dt) (hem : ∀ r ∈ p.regions, 0 ≤ p.baseline_emissions 0 r) :
    Spec.objectiveValue md p σ ≤ Spec.objectiveValue md p τ :=
  h'.best (C59_still_feasible h.1 hl hdt hem)

/-- **C59.** Limits that the optimum without them already respects change nothing: an optimum under looser limits that
satisfies the tighter ones is an optimum under the tighter ones, and the optimal value is the same. -/
theorem C59_not_binding {q : Params} {τ : Env} (h : Optimal md (p.withLimits q) τ) (hτ : Solution md p τ)
    (hl : Spec.Looser p q) (hdt : 0 ≤ p.dt) (hem : ∀ r ∈ p.regions, 0 ≤ p.baseline_emissions 0 r) :
    Optimal md p τ ∧ ∀ σ, Optimal md p σ → Spec.objectiveValue md p σ = Spec.objectiveValue md p τ := by
  have ho : Optimal md p τ := ⟨hτ, fun σ hσ => h.2 σ (C59_still_feasible hσ hl hdt hem)⟩
  exact ⟨ho, fun σ hσ => le_antisymm (ho.best hσ.1) (hσ.best hτ)⟩

/-! ## C61 -/

/-- **C61.** A solution up to the final year is also a solution for every shorter horizon: no constraint looks
ahead. -/
theorem C61_shorter_horizon (h : Solution md p σ) {n : ℕ} (hn : n ≤ p.tf) : Solution md { p with tf := n } σ := by
  obtain ⟨htr, hr, c, hb, e⟩ := solution_char.1 h
  have htfp : ∀ t r, get_TFP_value { p with tf := n } t r = get_TFP_value p t r := fun t r =>
    TFP_congr (p := p) (p' := { p with tf := n }) rfl (fun _ => rfl) rfl rfl rfl (fun _ => rfl) rfl t
  have hcal : ∀ t r, calibCapital { p with tf := n } r t = calibCapital p r t := fun t r =>
    calibCapital_congr (p := p) (p' := { p with tf := n }) rfl (fun _ => rfl) rfl rfl rfl t
  refine solution_char.2 ⟨htr, hr, ⟨?_, ?_, c.index, c.forms, ?_⟩, ?_, ⟨?_, ?_, ?_, ?_, ?_, ?_, ?_, ?_, ?_, ?_⟩⟩
  · exact { c.init with
      gdp_ne := fun t ht => c.init.gdp_ne t (ht.trans hn)
      sum_population_ne := fun t ht => c.init.sum_population_ne t (ht.trans hn)
      pop_pow := fun t ht => c.init.pop_pow t (ht.trans hn)
      cap_pow := fun t ht r hr => by rw [hcal]; exact c.init.cap_pow t (ht.trans hn) r hr
      tfp_ne := fun t ht r hr => by rw [hcal]; exact c.init.tfp_ne t (ht.trans hn) r hr }
  · exact fun h1 h2 t ht => c.overshoot h1 h2 t (ht.trans hn)
  · intro h1
    rcases c.allowances h1 with h2 | h2
    · exact .inl h2
    · right; show n = 0; omega
  · intro d hd
    have := sameBounds (p := p) (p' := { p with tf := n }) rfl d hd
    have hbd := hb d hd
    cases d <;> simp only [VarDecl.SameBounds] at this <;> simp only [VarDecl.BoundsOk, this] <;>
      exact fun t ht => hbd t (ht.trans hn)
  · exact {
          baseline := fun t ht => e.emissions.baseline t (ht.trans hn)
          regional_emissions := fun t ht => e.emissions.regional_emissions t (lt_of_lt_of_le ht hn)
          regional_emissions_init := e.emissions.regional_emissions_init
          reduction := fun t ht => e.emissions.reduction t (ht.trans hn)
          global_emissions := fun t ht => e.emissions.global_emissions t (lt_of_lt_of_le ht hn)
          global_emissions_init := e.emissions.global_emissions_init
          cumulative := fun t ht => e.emissions.cumulative t (lt_of_lt_of_le ht hn)
          cumulative_init := e.emissions.cumulative_init
          rel_cumulative := fun t ht => e.emissions.rel_cumulative t (lt_of_lt_of_le ht hn)
          rel_cumulative_init := e.emissions.rel_cumulative_init
          temperature := fun t ht => e.emissions.temperature t (ht.trans hn)
          temperature_init := e.emissions.temperature_init
          temperature_target := fun t ht => e.emissions.temperature_target t (ht.trans hn)
          budget := fun t ht => e.emissions.budget t (ht.trans hn)
          cumulative_nonneg := fun t ht => e.emissions.cumulative_nonneg t (ht.trans hn)
          global_inertia := fun t ht => e.emissions.global_inertia t (lt_of_lt_of_le ht hn)
          regional_inertia := fun t ht => e.emissions.regional_inertia t (lt_of_lt_of_le ht hn)
          global_min_level := fun t ht => e.emissions.global_min_level t (ht.trans hn)
          regional_min_level := fun t ht => e.emissions.regional_min_level t (ht.trans hn)
          non_increasing := fun t ht => e.emissions.non_increasing t (ht.trans hn)
          net_zero := fun t ht => e.emissions.net_zero t (ht.trans hn) }
  · exact {
          thermal := fun t ht => e.slr.thermal t (lt_of_lt_of_le ht hn)
          thermal_init := e.slr.thermal_init
          gsic := fun t ht => e.slr.gsic t (lt_of_lt_of_le ht hn)
          gsic_init := e.slr.gsic_init
          gis := fun t ht => e.slr.gis t (lt_of_lt_of_le ht hn)
          gis_init := e.slr.gis_init
          total := fun t ht => e.slr.total t (ht.trans hn) }
  · have := e.damages
    revert this
    cases md.damage
    · intro this
      replace this : CoacchEqs p σ := this
      exact {
              total := fun t ht => this.total t (ht.trans hn)
              noslr := fun t ht => this.noslr t (ht.trans hn)
              slr := fun t ht => this.slr t (ht.trans hn)
              mort_oldest := fun t ht => this.mort_oldest t (ht.trans hn)
              mort_older := fun t ht => this.mort_older t (ht.trans hn)
              mort_young := fun t ht => this.mort_young t (ht.trans hn)
              mort_cost := fun t ht => this.mort_cost t (ht.trans hn) }
    · exact fun this t ht => this t (ht.trans hn)
  · exact {
          carbonprice := fun t ht => e.mitigation.carbonprice t (ht.trans hn)
          carbonprice_init := e.mitigation.carbonprice_init
          mitigation_costs := fun t ht => e.mitigation.mitigation_costs t (ht.trans hn)
          area := fun t ht => e.mitigation.area t (ht.trans hn)
          rel_costs := fun t ht => e.mitigation.rel_costs t (ht.trans hn)
          rel_costs_min := fun t ht => e.mitigation.rel_costs_min t (ht.trans hn)
          global_rel := fun t ht => e.mitigation.global_rel t (ht.trans hn)
          reduction_per_cost := fun t ht => e.mitigation.reduction_per_cost t (lt_of_lt_of_le ht hn)
          cost_per_reduction := fun t ht => e.mitigation.cost_per_reduction t (lt_of_lt_of_le ht hn)
          lbd := fun t ht => e.mitigation.lbd t (ht.trans hn)
          lot := fun t ht => e.mitigation.lot t (ht.trans hn)
          learning := fun t ht => e.mitigation.learning t (ht.trans hn) }
  · have := e.trade
    revert this htr
    cases md.trade
    · exact fun _ => id
    · intro h; exact absurd rfl h
    · intro _ this
      replace this : TradeEqs p σ := this
      exact {
              price := fun t ht => this.price t (ht.trans hn)
              zero_sum := fun t ht => this.zero_sum t (ht.trans hn)
              reduction_balance := fun t ht => this.reduction_balance t (lt_of_lt_of_le ht hn)
              paid := fun t ht => this.paid t (lt_of_lt_of_le ht hn)
              allowances := fun t ht => this.allowances t (lt_of_lt_of_le ht hn) }
  · have := e.transfer
    revert this
    cases md.transfer
    · exact id
    · intro this
      replace this : PoolEqs p σ := this
      exact {
              zero_sum := fun t ht => this.zero_sum t (lt_of_lt_of_le ht hn)
              first_year := this.first_year
              max_own := fun t ht => this.max_own t (ht.trans hn)
              rel := fun t ht => this.rel t (ht.trans hn) }
  · exact {
          mitigation := fun t ht => e.effort.mitigation t (ht.trans hn)
          total := fun t ht => e.effort.total t (ht.trans hn)
          percap := fun t ht => e.effort.percap t (lt_of_lt_of_le ht hn) }
  · exact {
          gross := fun t ht r hr => by rw [htfp]; exact e.economy.gross t (lt_of_lt_of_le ht hn) r hr
          gross_init := e.economy.gross_init
          net := fun t ht => e.economy.net t (ht.trans hn)
          investments := fun t ht => e.economy.investments t (ht.trans hn)
          consumption := fun t ht => e.economy.consumption t (ht.trans hn)
          capital := fun t ht => e.economy.capital t (lt_of_lt_of_le ht hn)
          capital_init := e.economy.capital_init }
  · have := e.welfare
    revert this
    cases md.welfare
    · exact fun this => ⟨fun t ht => this.1 t (ht.trans hn), fun t ht => this.2 t (ht.trans hn)⟩
    · exact fun this => ⟨fun t ht => this.1 t (ht.trans hn), fun t ht => this.2 t (ht.trans hn)⟩
    · exact fun this => ⟨fun t ht => this.1 t (ht.trans hn), fun t ht => this.2 t (ht.trans hn)⟩
  · have := e.objective
    revert this
    cases md.objective
    · exact fun this => ⟨fun t ht => this.1 t (lt_of_lt_of_le ht hn), this.2⟩
    · exact fun this => ⟨fun t ht => this.1 t (lt_of_lt_of_le ht hn), this.2⟩

/-! ## C60 -/

theorem reorder_aux {L : List String} (hL : L.Perm p.regions) (h : Solution md p σ) :
    Solution md { p with regions := L } σ := by
  obtain ⟨htr, hr, c, hb, e⟩ := solution_char.1 h
  have hmem : ∀ r, r ∈ L ↔ r ∈ p.regions := fun r => hL.mem_iff
  have hsum : ∀ f : String → ℝ, (L.map f).sum = (p.regions.map f).sum := fun f => (hL.map f).sum_eq
  have hnil : (L ≠ []) ↔ p.regions ≠ [] := by
    rw [ne_eq, ne_eq, not_iff_not]; exact ⟨fun h => by subst h; exact hL.nil_eq.symm, fun h => by rw [h] at hL; exact hL.eq_nil⟩
  have htfp : ∀ t r, get_TFP_value { p with regions := L } t r = get_TFP_value p t r := fun t r =>
    TFP_congr (p := p) (p' := { p with regions := L }) rfl (fun _ => rfl) rfl rfl rfl (fun _ => rfl) rfl t
  have hcal : ∀ t r, calibCapital { p with regions := L } r t = calibCapital p r t := fun t r =>
    calibCapital_congr (p := p) (p' := { p with regions := L }) rfl (fun _ => rfl) rfl rfl rfl t
  have hS : ∀ f, ({ p with regions := L } : Params).sumR f = p.sumR f := hsum
  have hcg : ∀ t, ({ p with regions := L } : Params).cumulative_global_baseline_emissions t =
      p.cumulative_global_baseline_emissions t := fun t => hsum _
  have hshare : ∀ t r, ({ p with regions := L } : Params).percapconv_share t r = p.percapconv_share t r := by
    intro t r
    have h1 : ({ p with regions := L } : Params).percapconv_share_pop t r = p.percapconv_share_pop t r := by
      show _ / (L.map _).sum = _ / (p.regions.map _).sum
      rw [hsum]
    have h2 : ({ p with regions := L } : Params).percapconv_share_init r = p.percapconv_share_init r := by
      show _ / (L.map _).sum = _ / (p.regions.map _).sum
      rw [hsum]
    unfold Params.percapconv_share
    rw [h1, h2]
    rfl
  refine solution_char.2 ⟨htr, hnil.2 hr, ⟨?_, c.overshoot, c.index, ?_, c.allowances⟩, ?_,
    ⟨?_, { e.slr with }, ?_, ?_, ?_, ?_, ?_, ?_, ?_, ?_⟩⟩
  · exact { c.init with
      gdp_ne := fun t ht r hr => c.init.gdp_ne t ht r ((hmem r).1 hr)
      sum_emissions_ne := fun h1 => by
        show (L.map _).sum ≠ 0
        rw [hsum]; exact c.init.sum_emissions_ne (hnil.1 h1)
      sum_population_ne := fun t ht h1 => by
        show (L.map _).sum ≠ 0
        rw [hsum]; exact c.init.sum_population_ne t ht (hnil.1 h1)
      pop_pow := fun t ht r hr => c.init.pop_pow t ht r ((hmem r).1 hr)
      cap_pow := fun t ht r hr => by rw [hcal]; exact c.init.cap_pow t ht r ((hmem r).1 hr)
      tfp_ne := fun t ht r hr => by rw [hcal]; exact c.init.tfp_ne t ht r ((hmem r).1 hr) }
  · exact fun h1 r hr => c.forms h1 r ((hmem r).1 hr)
  · intro d hd
    have := sameBounds (p := p) (p' := { p with regions := L }) rfl d hd
    have hbd := hb d hd
    cases d <;> simp only [VarDecl.SameBounds] at this <;> simp only [VarDecl.BoundsOk, this, hmem] <;>
      exact hbd
  · exact {
          baseline := fun t ht r hr => e.emissions.baseline t ht r ((hmem r).1 hr)
          regional_emissions := fun t ht r hr => e.emissions.regional_emissions t ht r ((hmem r).1 hr)
          regional_emissions_init := fun r hr => e.emissions.regional_emissions_init r ((hmem r).1 hr)
          reduction := fun t ht r hr => e.emissions.reduction t ht r ((hmem r).1 hr)
          global_emissions := fun t ht => by have h0 := e.emissions.global_emissions t ht; simp only [hS]; exact h0
          global_emissions_init := by have h0 := e.emissions.global_emissions_init; simp only [hS]; exact h0
          cumulative := fun t ht => e.emissions.cumulative t ht
          cumulative_init := e.emissions.cumulative_init
          rel_cumulative := fun t ht => by have h0 := e.emissions.rel_cumulative t ht; simp only [hcg]; exact h0
          rel_cumulative_init := e.emissions.rel_cumulative_init
          temperature := fun t ht => e.emissions.temperature t ht
          temperature_init := e.emissions.temperature_init
          temperature_target := fun t ht => e.emissions.temperature_target t ht
          budget := fun t ht => e.emissions.budget t ht
          cumulative_nonneg := fun t ht => e.emissions.cumulative_nonneg t ht
          global_inertia := fun t ht => by have h0 := e.emissions.global_inertia t ht; simp only [hS]; exact h0
          regional_inertia := fun t ht r hr => e.emissions.regional_inertia t ht r ((hmem r).1 hr)
          global_min_level := fun t ht => e.emissions.global_min_level t ht
          regional_min_level := fun t ht r hr => e.emissions.regional_min_level t ht r ((hmem r).1 hr)
          non_increasing := fun t ht r hr => e.emissions.non_increasing t ht r ((hmem r).1 hr)
          net_zero := fun t ht => e.emissions.net_zero t ht }
  · have := e.damages
    revert this
    cases md.damage
    · intro this
      replace this : CoacchEqs p σ := this
      exact {
              total := fun t ht r hr => this.total t ht r ((hmem r).1 hr)
              noslr := fun t ht r hr => this.noslr t ht r ((hmem r).1 hr)
              slr := fun t ht r hr => this.slr t ht r ((hmem r).1 hr)
              mort_oldest := fun t ht r hr => this.mort_oldest t ht r ((hmem r).1 hr)
              mort_older := fun t ht r hr => this.mort_older t ht r ((hmem r).1 hr)
              mort_young := fun t ht r hr => this.mort_young t ht r ((hmem r).1 hr)
              mort_cost := fun t ht r hr => this.mort_cost t ht r ((hmem r).1 hr) }
    · exact fun this t ht r hr => this t ht r ((hmem r).1 hr)
  · exact {
          carbonprice := fun t ht r hr => e.mitigation.carbonprice t ht r ((hmem r).1 hr)
          carbonprice_init := fun r hr => e.mitigation.carbonprice_init r ((hmem r).1 hr)
          mitigation_costs := fun t ht r hr => e.mitigation.mitigation_costs t ht r ((hmem r).1 hr)
          area := fun t ht r hr => e.mitigation.area t ht r ((hmem r).1 hr)
          rel_costs := fun t ht r hr => e.mitigation.rel_costs t ht r ((hmem r).1 hr)
          rel_costs_min := fun t ht r hr => e.mitigation.rel_costs_min t ht r ((hmem r).1 hr)
          global_rel := fun t ht => by have h0 := e.mitigation.global_rel t ht; simp only [hS]; exact h0
          reduction_per_cost := fun t ht => by have h0 := e.mitigation.reduction_per_cost t ht; simp only [hS]; exact h0
          cost_per_reduction := fun t ht => by have h0 := e.mitigation.cost_per_reduction t ht; simp only [hS]; exact h0
          lbd := fun t ht => by have h0 := e.mitigation.lbd t ht; simp only [hcg]; exact h0
          lot := fun t ht => e.mitigation.lot t ht
          learning := fun t ht => e.mitigation.learning t ht }
  · have := e.trade
    revert this htr
    cases md.trade
    · exact fun _ => id
    · intro h; exact absurd rfl h
    · intro _ this
      replace this : TradeEqs p σ := this
      exact {
              price := fun t ht => by have h0 := this.price t ht; simp only [hS]; exact h0
              zero_sum := fun t ht => by have h0 := this.zero_sum t ht; simp only [hS]; exact h0
              reduction_balance := fun t ht r hr => this.reduction_balance t ht r ((hmem r).1 hr)
              paid := fun t ht r hr => this.paid t ht r ((hmem r).1 hr)
              allowances := fun t ht r hr => this.allowances t ht r ((hmem r).1 hr) }
  · have := e.transfer
    revert this
    cases md.transfer
    · exact id
    · intro this
      replace this : PoolEqs p σ := this
      exact {
              zero_sum := fun t ht => by have h0 := this.zero_sum t ht; simp only [hS]; exact h0
              first_year := fun r hr => this.first_year r ((hmem r).1 hr)
              max_own := fun t ht r hr => this.max_own t ht r ((hmem r).1 hr)
              rel := fun t ht r hr => this.rel t ht r ((hmem r).1 hr) }
  · exact {
          mitigation := fun t ht r hr => e.effort.mitigation t ht r ((hmem r).1 hr)
          total := fun t ht r hr => e.effort.total t ht r ((hmem r).1 hr)
          percap := fun t ht r hr => by have h0 := e.effort.percap t ht r ((hmem r).1 hr); simp only [hshare]; exact h0 }
  · exact {
          gross := fun t ht r hr => by have h0 := e.economy.gross t ht r ((hmem r).1 hr); simp only [htfp]; exact h0
          gross_init := fun r hr => e.economy.gross_init r ((hmem r).1 hr)
          net := fun t ht r hr => e.economy.net t ht r ((hmem r).1 hr)
          investments := fun t ht r hr => e.economy.investments t ht r ((hmem r).1 hr)
          consumption := fun t ht r hr => e.economy.consumption t ht r ((hmem r).1 hr)
          capital := fun t ht r hr => e.economy.capital t ht r ((hmem r).1 hr)
          capital_init := fun r hr => e.economy.capital_init r ((hmem r).1 hr) }
  · have := e.welfare
    revert this
    cases md.welfare <;> simp only [WelfareEqs, hS, hmem] <;> exact id
  · have := e.objective
    revert this
    cases md.objective <;> simp only [ObjectiveEqs, hS] <;> exact id

/-- **C60.** The order in which the regions are listed does not matter: the solutions and their objective values are
the same. -/
theorem C60_region_order {L : List String} (hL : L.Perm p.regions) :
    (Solution md { p with regions := L } σ ↔ Solution md p σ) ∧
      Spec.objectiveValue md { p with regions := L } σ = Spec.objectiveValue md p σ :=
  ⟨⟨fun h => reorder_aux (p := { p with regions := L }) (L := p.regions) hL.symm h, reorder_aux hL⟩, rfl⟩

/-- **C60.** Hence the optimal solutions are the same as well. -/
theorem C60_optimal {L : List String} (hL : L.Perm p.regions) :
    Optimal md { p with regions := L } σ ↔ Optimal md p σ := by
  unfold Optimal
  rw [(C60_region_order hL).1]
  refine and_congr_right fun _ => forall_congr' fun τ => ?_
  rw [(C60_region_order (σ := τ) hL).1]
  exact Iff.rfl

/-! ## C62 -/

/-- The values of `σ`, completed with emission trade in which nothing is traded. -/
noncomputable def noTradeValues (p : Params) (σ : Env) : Env where
  g v t := match v with
    | .global_carbonprice => p.sumR (fun r => σ.r .carbonprice t r * p.population t.toNat r) /
        p.sumR (fun r => p.population t.toNat r)
    | v => σ.g v t
  r v t r := match v with
    | .import_export_mitigation_cost_balance => 0
    | .import_export_emission_reduction_balance => 0
    | .paid_for_emission_reductions => σ.r .regional_emission_reduction t r
    | .regional_emission_allowances => σ.r .baseline t r - σ.r .regional_emission_reduction t r
    | v => σ.r v t r

/-- The values of `σ`, completed with financial transfers of zero. -/
def noTransferValues (σ : Env) : Env where
  g := σ.g
  r v t r := match v with
    | .financial_transfer => 0
    | .rel_financial_transfer => 0
    | v => σ.r v t r

/-- A variable without bounds, or one that is not about trade or transfers. -/
def VarDecl.FreeOrOther : VarDecl → Prop
  | .global v lb ub => (lb = noBound ∧ ub = noBound) ∨ v ≠ .global_carbonprice
  | .regional v lb ub => (lb = noBound ∧ ub = noBound) ∨
      v ∉ [RVar.import_export_mitigation_cost_balance, .import_export_emission_reduction_balance,
        .paid_for_emission_reductions, .regional_emission_allowances, .financial_transfer, .rel_financial_transfer]

theorem freeOrOther : ∀ d ∈ allVars md, d.FreeOrOther := by
  have h1 : ∀ d ∈ Emissions.component.vars, d.FreeOrOther := by simp [Emissions.component, VarDecl.FreeOrOther]
  have h2 : ∀ d ∈ SeaLevelRise.component.vars, d.FreeOrOther := by simp [SeaLevelRise.component, VarDecl.FreeOrOther]
  have h3 : ∀ d ∈ (damageComponent md.damage).vars, d.FreeOrOther := by
    cases md.damage <;> simp [damageComponent, Damages.coacch, Damages.nodamage, VarDecl.FreeOrOther]
  have h4 : ∀ d ∈ (Mitigation.component md.trade).vars, d.FreeOrOther := by
    simp [Mitigation.component, VarDecl.FreeOrOther]
  have h5 : ∀ d ∈ (EmissionTrade.component md.trade).vars, d.FreeOrOther := by
    cases md.trade <;> simp [EmissionTrade.component, EmissionTrade.notrade, EmissionTrade.globalcostpool,
      EmissionTrade.emissiontrade, VarDecl.FreeOrOther]
  have h6 : ∀ d ∈ (FinTransfer.component md.transfer).vars, d.FreeOrOther := by
    cases md.transfer <;> simp [FinTransfer.component, FinTransfer.notransfer, FinTransfer.globaldamagepool,
      VarDecl.FreeOrOther]
  have h7 : ∀ d ∈ (EffortSharing.component md.transfer).vars, d.FreeOrOther := by
    simp [EffortSharing.component, VarDecl.FreeOrOther]
  have h8 : ∀ d ∈ (CobbDouglas.component md.transfer).vars, d.FreeOrOther := by
    simp [CobbDouglas.component, VarDecl.FreeOrOther]
  have h9 : ∀ d ∈ (Welfare.component md.welfare).vars, d.FreeOrOther := by
    cases md.welfare <;> simp [Welfare.component, VarDecl.FreeOrOther]
  have h10 : ∀ d ∈ (Objective.component md.objective).vars, d.FreeOrOther := by
    cases md.objective <;> simp [Objective.component, VarDecl.FreeOrOther]
  intro d hd
  simp only [allVars, components, List.flatMap_cons, List.flatMap_nil, List.append_nil, List.mem_append] at hd
  rcases hd with hd | hd | hd | hd | hd | hd | hd | hd | hd | hd
  exacts [h1 d hd, h2 d hd, h3 d hd, h4 d hd, h5 d hd, h6 d hd, h7 d hd, h8 d hd, h9 d hd, h10 d hd]

/-- The bounds carry over to values that differ only in the variables about trade and transfers. -/
theorem bounds_trade {md' : Modules} {σ' : Env} (hb : ∀ d ∈ allVars md, d.BoundsOk p σ)
    (hmd : ∀ d ∈ allVars md', d ∈ allVars md ∨ d ∈ EmissionTrade.emissiontrade.vars ∨
      d ∈ FinTransfer.globaldamagepool.vars)
    (hg : ∀ v t, v ≠ .global_carbonprice → σ'.g v t = σ.g v t)
    (hr : ∀ v t r, v ∉ [RVar.import_export_mitigation_cost_balance, .import_export_emission_reduction_balance,
        .paid_for_emission_reductions, .regional_emission_allowances, .financial_transfer, .rel_financial_transfer] →
        σ'.r v t r = σ.r v t r) :
    ∀ d ∈ allVars md', d.BoundsOk p σ' := by
  intro d hd
  rcases hmd d hd with h | h | h
  · have hf := freeOrOther d h
    have hbd := hb d h
    cases d with
    | global v lb ub =>
      rcases hf with ⟨rfl, rfl⟩ | hf
      · simp [VarDecl.BoundsOk, noBound]
      · simpa only [VarDecl.BoundsOk, hg v _ hf] using hbd
    | regional v lb ub =>
      rcases hf with ⟨rfl, rfl⟩ | hf
      · simp [VarDecl.BoundsOk, noBound]
      · simpa only [VarDecl.BoundsOk, hr v _ _ hf] using hbd
  · simp only [EmissionTrade.emissiontrade, List.mem_cons, List.not_mem_nil, or_false] at h
    rcases h with rfl | rfl | rfl | rfl | rfl <;> simp [VarDecl.BoundsOk, noBound]
  · simp only [FinTransfer.globaldamagepool, List.mem_cons, List.not_mem_nil, or_false] at h
    rcases h with rfl | rfl <;> simp [VarDecl.BoundsOk, noBound]

theorem noTradeValues_g {v : GVar} (t : ℤ) (hv : v ≠ .global_carbonprice) : (noTradeValues p σ).g v t = σ.g v t := by
  cases v <;> first | rfl | exact absurd rfl hv

theorem noTradeValues_r {v : RVar} (t : ℤ) (r : String)
    (hv : v ∉ [RVar.import_export_mitigation_cost_balance, .import_export_emission_reduction_balance,
        .paid_for_emission_reductions, .regional_emission_allowances]) : (noTradeValues p σ).r v t r = σ.r v t r := by
  cases v <;> first | rfl | simp at hv

theorem noTransferValues_r {v : RVar} (t : ℤ) (r : String)
    (hv : v ∉ [RVar.financial_transfer, .rel_financial_transfer]) : (noTransferValues σ).r v t r = σ.r v t r := by
  cases v <;> first | rfl | simp at hv

/-- **C62.** Allowing emission trade never removes a solution: every solution without trade, with nothing traded, is a
solution with trade, with the same values of all other variables. -/
theorem C62_trade_allowed (h : Solution md p σ) (hm : md.trade = .notrade) :
    ∃ σ', Solution { md with trade := .emissiontrade } p σ' ∧
      (∀ v t, v ≠ .global_carbonprice → σ'.G v t = σ.G v t) ∧
      (∀ v t r, v ∉ [RVar.import_export_mitigation_cost_balance, .import_export_emission_reduction_balance,
        .paid_for_emission_reductions, .regional_emission_allowances] → σ'.R v t r = σ.R v t r) ∧
      ∀ t r, σ'.R .import_export_mitigation_cost_balance t r = 0 ∧
        σ'.R .import_export_emission_reduction_balance t r = 0 := by
  obtain ⟨d, tr, tm, w, o⟩ := md
  cases hm
  obtain ⟨htr, hr, c, hb, e⟩ := solution_char.1 h
  refine ⟨noTradeValues p σ, solution_char.2 ⟨by simp, hr, ⟨c.init, c.overshoot, c.index, c.forms, fun _ => .inl rfl⟩,
    ?_, ⟨{ e.emissions with }, { e.slr with }, ?_, { e.mitigation with }, ?_, ?_, ?_, { e.economy with }, ?_, ?_⟩⟩,
    ?_, ?_, fun _ _ => ⟨rfl, rfl⟩⟩
  · refine bounds_trade hb (fun d' hd' => ?_) (fun v t hv => noTradeValues_g t hv)
      (fun v t r hv => noTradeValues_r t r (by simp only [List.mem_cons, not_or] at hv ⊢; tauto))
    simp only [allVars, components, List.flatMap_cons, List.flatMap_nil, List.append_nil, List.mem_append] at hd' ⊢
    rcases hd' with h | h | h | h | h | h | h | h | h | h
    on_goal 5 => exact .inr (.inl h)
    all_goals first
      | exact .inl (by simp only [h, true_or, or_true])
      | exact .inl (.inr (.inr (.inr (.inl h))))
  · have := e.damages
    revert this
    cases d
    · intro this; exact { (this : CoacchEqs p σ) with }
    · exact id
  · exact
      { price := fun t ht => ⟨c.init.sum_population_ne t ht hr, rfl⟩
        zero_sum := fun t ht => by
          show (p.regions.map fun _ => (0 : ℝ)).sum = 0
          simp
        reduction_balance := fun t ht r hr => (zero_div _).symm
        paid := fun t ht r hr => (add_zero _).symm
        allowances := fun t ht r hr => rfl }
  · have := e.transfer
    revert this
    cases tm
    · exact id
    · intro this; exact { (this : PoolEqs p σ) with }
  · cases tm
    · exact { mitigation := e.effort.mitigation, total := e.effort.total,
              percap := fun t ht r hr h1 => by
                rcases c.allowances h1 with h2 | h2
                · cases h2
                · omega }
    · exact { mitigation := e.effort.mitigation, total := e.effort.total,
              percap := fun t ht r hr h1 => by
                rcases c.allowances h1 with h2 | h2
                · cases h2
                · omega }
  · have := e.welfare
    revert this
    cases w <;> exact id
  · have := e.objective
    revert this
    cases o <;> exact id
  · exact fun v t hv => noTradeValues_g _ hv
  · exact fun v t r hv => noTradeValues_r _ _ hv

/-- **C62.** So the optimum with emission trade is at least as good as the optimum without. -/
theorem C62_trade_optimum {τ : Env} (h : Optimal md p σ) (hm : md.trade = .notrade)
    (h' : Optimal { md with trade := .emissiontrade } p τ) :
    Spec.objectiveValue md p σ ≤ Spec.objectiveValue md p τ := by
  obtain ⟨σ', h1, h2, -, -⟩ := C62_trade_allowed h.1 hm
  have h3 := h'.best h1
  have h4 : Spec.objectiveValue { md with trade := .emissiontrade } p σ' = Spec.objectiveValue md p σ := by
    unfold Spec.objectiveValue
    rw [h2 .NPV p.tf (by decide)]
  rw [h4] at h3
  exact h3

/-- **C62.** Allowing transfers between regions never removes a solution in which no region gains from climate change:
with transfers of zero it is still a solution, with the same values of all other variables. -/
theorem C62_transfers_allowed (h : Solution md p σ) (hm : md.transfer = .notransfer)
    (hd : ∀ t ≤ p.tf, ∀ r ∈ p.regions, 0 ≤ σ.R .damage_costs t r * σ.R .GDP_gross t r) :
    ∃ σ', Solution { md with transfer := .globaldamagepool } p σ' ∧
      (∀ v t, σ'.G v t = σ.G v t) ∧
      (∀ v t r, v ∉ [RVar.financial_transfer, .rel_financial_transfer] → σ'.R v t r = σ.R v t r) ∧
      ∀ t r, σ'.R .financial_transfer t r = 0 ∧ σ'.R .rel_financial_transfer t r = 0 := by
  obtain ⟨d, tr, tm, w, o⟩ := md
  cases hm
  obtain ⟨htr, hr, c, hb, e⟩ := solution_char.1 h
  refine ⟨noTransferValues σ, solution_char.2 ⟨htr, hr, ⟨c.init, c.overshoot, c.index, c.forms, c.allowances⟩,
    ?_, ⟨{ e.emissions with }, { e.slr with }, ?_, ?_, ?_, ?_, { e.effort with }, { e.economy with }, ?_, ?_⟩⟩,
    fun _ _ => rfl, fun v t r hv => noTransferValues_r _ _ hv, fun _ _ => ⟨rfl, rfl⟩⟩
  · refine bounds_trade hb (fun d' hd' => ?_) (fun v t hv => rfl)
      (fun v t r hv => noTransferValues_r t r (by simp only [List.mem_cons, not_or] at hv ⊢; tauto))
    simp only [allVars, components, List.flatMap_cons, List.flatMap_nil, List.append_nil, List.mem_append] at hd' ⊢
    rcases hd' with h | h | h | h | h | h | h | h | h | h
    on_goal 6 => exact .inr (.inr h)
    all_goals exact .inl (by first | simp only [h, true_or, or_true] | tauto)
  · have := e.damages
    revert this
    cases d
    · intro this; exact { (this : CoacchEqs p σ) with }
    · exact id
  · cases tr
    · exact { e.mitigation with }
    · exact { e.mitigation with }
    · exact { e.mitigation with }
  · have := e.trade
    revert this htr
    cases tr
    · exact fun _ => id
    · intro h; exact absurd rfl h
    · intro _ this; exact { (this : TradeEqs p σ) with }
  · exact
      { zero_sum := fun t ht => by
          show (p.regions.map fun _ => (0 : ℝ)).sum = 0
          simp
        first_year := fun r hr => rfl
        max_own := fun t ht r hr => by
          show -(σ.R .damage_costs t r) * σ.R .GDP_gross t r ≤ 0
          linarith [hd t ht r hr]
        rel := fun t ht r hr => zero_mul _ }
  · have := e.welfare
    revert this
    cases w <;> exact id
  · have := e.objective
    revert this
    cases o <;> exact id

/-- **C62.** So the optimum with the damage pool is at least as good as an optimum without in which no region gains from
climate change. -/
theorem C62_transfers_optimum {τ : Env} (h : Optimal md p σ) (hm : md.transfer = .notransfer)
    (hd : ∀ t ≤ p.tf, ∀ r ∈ p.regions, 0 ≤ σ.R .damage_costs t r * σ.R .GDP_gross t r)
    (h' : Optimal { md with transfer := .globaldamagepool } p τ) :
    Spec.objectiveValue md p σ ≤ Spec.objectiveValue md p τ := by
  obtain ⟨σ', h1, h2, -, -⟩ := C62_transfers_allowed h.1 hm hd
  have h3 := h'.best h1
  have h4 : Spec.objectiveValue { md with transfer := .globaldamagepool } p σ' = Spec.objectiveValue md p σ := by
    unfold Spec.objectiveValue
    rw [h2 .NPV p.tf]
  rw [h4] at h3
  exact h3

/-- **C62.** A world of one region has nobody to trade with: with emission trade, its balances are zero, and its solutions
are exactly solutions without trade (unless the per-capita regime, which needs trade, is on). -/
theorem C62_single_region {r : String} (h : Solution md p σ) (hr : p.regions = [r]) (hm : md.trade = .emissiontrade) :
    (∀ t ≤ p.tf, σ.R .import_export_mitigation_cost_balance t r = 0) ∧
    (∀ t < p.tf, σ.R .import_export_emission_reduction_balance (t + 1) r = 0) ∧
    (p.effort_sharing_regime ≠ "per_cap_convergence" → Solution { md with trade := .notrade } p σ) := by
  obtain ⟨d, tr, tm, w, o⟩ := md
  cases hm
  obtain ⟨htr, hr', c, hb, e⟩ := solution_char.1 h
  have htrade : TradeEqs p σ := e.trade
  have h0 : ∀ t ≤ p.tf, σ.R .import_export_mitigation_cost_balance t r = 0 := by
    intro t ht
    have := htrade.zero_sum t ht
    simpa [Params.sumR, hr] using this
  refine ⟨h0, fun t ht => ?_, fun hreg => ?_⟩
  · rw [htrade.reduction_balance t ht r (by simp [hr]), h0 (t + 1) ht, zero_div]
  · refine solution_char.2 ⟨by simp, hr', ⟨c.init, c.overshoot, c.index, c.forms, fun h => absurd h hreg⟩,
      ?_, ⟨e.emissions, e.slr, e.damages, ?_, trivial, e.transfer, e.effort, e.economy, e.welfare, e.objective⟩⟩
    · refine bounds_trade hb (fun d' hd' => ?_) (fun v t hv => rfl) (fun v t r hv => rfl)
      simp only [allVars, components, List.flatMap_cons, List.flatMap_nil, List.append_nil, List.mem_append] at hd' ⊢
      rcases hd' with h | h | h | h | h | h | h | h | h | h
      on_goal 5 => simp [EmissionTrade.component, EmissionTrade.notrade] at h
      all_goals exact .inl (by first | simp only [h, true_or, or_true] | exact .inr (.inr (.inr (.inl h))))
    · refine { e.mitigation with mitigation_costs := fun t ht r' hr2 => ?_ }
      have h1 := e.mitigation.mitigation_costs t ht r' hr2
      have : r' = r := by simpa [hr] using hr2
      subst this
      simp only [costBalanceVal, h0 t ht] at h1 ⊢
      exact h1

/-- **C62.** Likewise for the damage pool. -/
theorem C62_single_region_transfers {r : String} (h : Solution md p σ) (hr : p.regions = [r])
    (hm : md.transfer = .globaldamagepool) :
    ∀ t ≤ p.tf, σ.R .financial_transfer t r = 0 := by
  obtain ⟨d, tr, tm, w, o⟩ := md
  cases hm
  obtain ⟨htr, hr', c, hb, e⟩ := solution_char.1 h
  have hp : PoolEqs p σ := e.transfer
  intro t ht
  cases t with
  | zero => exact hp.first_year r (by simp [hr])
  | succ t =>
    have := hp.zero_sum t ht
    simpa [Params.sumR, hr] using this

end Mimosa
