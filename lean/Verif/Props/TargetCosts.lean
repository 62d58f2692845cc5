import Verif.Props.Mixture

/-!
# C85: the costs of targets are convex in their stringency

Two scenarios of C84's setting may differ in every limit on emissions and temperature.  Between their limits there is a
policy at least as good as the mean of the two: each further tightening costs at least as much as the one before.
-/

namespace Mimosa
variable {md : Modules} {p q : Params} {σ τ : Env} {l : ℝ}

/-- The limit between two limits; no limit if one of the two is absent. -/
noncomputable def Spec.between (l : ℝ) : Option ℝ → Option ℝ → Option ℝ
  | some a, some b => some (l * a + (1 - l) * b)
  | _, _ => none

/-- The parameters `p` with limits between its own and those of `q`. -/
noncomputable abbrev Spec.limitsBetween (l : ℝ) (p q : Params) : Params := { p with
    temperature_target := Spec.between l p.temperature_target q.temperature_target
    budget := Spec.between l p.budget q.budget
    inertia_global := Spec.between l p.inertia_global q.inertia_global
    inertia_regional := Spec.between l p.inertia_regional q.inertia_regional
    global_min_level := Spec.between l p.global_min_level q.global_min_level
    regional_min_level := Spec.between l p.regional_min_level q.regional_min_level
    non_increasing_emissions_after_2100 := p.non_increasing_emissions_after_2100 && q.non_increasing_emissions_after_2100
    no_pos_emissions_after_budget_year := p.no_pos_emissions_after_budget_year && q.no_pos_emissions_after_budget_year }

/-- The parameters `p` with the limits of `q`. -/
abbrev Spec.otherLimits (p q : Params) : Params := { p with
    temperature_target := q.temperature_target
    budget := q.budget
    inertia_global := q.inertia_global
    inertia_regional := q.inertia_regional
    global_min_level := q.global_min_level
    regional_min_level := q.regional_min_level
    non_increasing_emissions_after_2100 := q.non_increasing_emissions_after_2100
    no_pos_emissions_after_budget_year := q.no_pos_emissions_after_budget_year }

namespace Between

theorem some_of {l : ℝ} {a b : Option ℝ} {c : ℝ} (h : Spec.between l a b = some c) :
    ∃ x y, a = some x ∧ b = some y ∧ c = l * x + (1 - l) * y := by
  unfold Spec.between at h
  split at h
  · next x y => cases h; exact ⟨x, y, rfl, rfl, rfl⟩
  · cases h

/-- The world without limits. -/
abbrev free (p : Params) : Params := { p with
    temperature_target := none
    budget := none
    inertia_global := none
    inertia_regional := none
    global_min_level := none
    regional_min_level := none
    non_increasing_emissions_after_2100 := false
    no_pos_emissions_after_budget_year := false }

theorem looser : Spec.Looser p (free p) where
  target _ h := by cases h
  budget _ h := by cases h
  inertia_global _ h := by cases h
  inertia_regional _ h := by cases h
  global_min _ h := by cases h
  regional_min _ h := by cases h
  non_increasing h := by cases h
  net_zero h := by cases h
  costs_min := le_rfl
  regime := .inl rfl

theorem freed (hadm : p.Admissible) (hp : Spec.PlainPolicy md p) (h : Solution md p σ) : Solution md (free p) σ :=
  C59_still_feasible (q := free p) h looser hadm.dt_pos.le fun r hr => hp.baseline 0 (Nat.zero_le _) r hr

theorem path_cum (t : ℕ) :
    Spec.pathCumulative (Spec.otherLimits p q) (fun _ _ => 0) t = Spec.pathCumulative p (fun _ _ => 0) t := by
  induction t with
  | zero => rfl
  | succ t ih => unfold Spec.pathCumulative; rw [ih]; rfl

theorem path_temp (t : ℕ) :
    Spec.pathTemperature (Spec.otherLimits p q) (fun _ _ => 0) t = Spec.pathTemperature p (fun _ _ => 0) t := by
  unfold Spec.pathTemperature; rw [path_cum]

theorem convex (hc : Spec.ConvexSetting md p) : Spec.ConvexSetting md (Spec.otherLimits p q) where
  policy := { hc.policy with }
  no_damages := hc.no_damages
  exogenous := hc.exogenous
  mac := { hc.mac with }
  beta := hc.beta
  rate_le := hc.rate_le
  rate_ge := hc.rate_ge
  trapz := hc.trapz
  T0_nonneg := hc.T0_nonneg
  TCRE_nonneg := hc.TCRE_nonneg
  melt := fun t ht => by rw [path_temp]; exact hc.melt t ht

theorem admissible (hadm : p.Admissible) : (free p).Admissible := { hadm with }

/-- A solution without limits that respects the limits is a solution with them. -/
theorem limited (hp : Spec.PlainPolicy md p) (hdt : 0 < p.dt) (h : Solution md (free p) σ)
    (target : ∀ t ≤ p.tf, ∀ T, p.temperature_target = some T → p.year t ≥ 2100 → σ.G .temperature t ≤ T)
    (budget : ∀ t ≤ p.tf, ∀ b, p.budget = some b → p.year t ≥ 2100 → σ.G .cumulative_emissions t ≤ b)
    (global_inertia : ∀ t < p.tf, ∀ i, p.inertia_global = some i →
      p.dt * i * (p.sumR fun r => p.baseline_emissions 0 r) ≤ σ.G .global_emissions (t + 1) - σ.G .global_emissions t)
    (regional_inertia : ∀ t < p.tf, ∀ r ∈ p.regions, ∀ i, p.inertia_regional = some i →
      p.dt * i * p.baseline_emissions 0 r ≤ σ.R .regional_emissions (t + 1) r - σ.R .regional_emissions t r)
    (global_min : ∀ t ≤ p.tf, ∀ l, p.global_min_level = some l → l ≤ σ.G .global_emissions t)
    (regional_min : ∀ t ≤ p.tf, ∀ r ∈ p.regions, ∀ l, p.regional_min_level = some l → l ≤ σ.R .regional_emissions t r)
    (non_increasing : p.non_increasing_emissions_after_2100 = true → ∀ t < p.tf, ∀ r ∈ p.regions, p.year t > 2100 →
      σ.R .regional_emissions (t + 1) r ≤ σ.R .regional_emissions t r)
    (net_zero : ∀ t ≤ p.tf, p.year t ≥ 2100 → p.no_pos_emissions_after_budget_year = true → p.budget ≠ none →
      σ.G .global_emissions t ≤ 0) : Solution md p σ := by
  obtain ⟨htr, hr, c, hb, e⟩ := solution_char.1 h
  have hrev : ¬ p.perc_reversible_damages < 1 := not_lt.2 hp.reversible
  have hyear : p.year (-1) ≤ 2100 := by
    have := hp.start
    simp only [Params.year]; push_cast; linarith
  have htfp : ∀ t r, get_TFP_value (free p) t r = get_TFP_value p t r := fun t r =>
    TFP_congr (p := p) (p' := free p) rfl (fun _ => rfl) rfl rfl rfl (fun _ => rfl) rfl t
  have hcal : ∀ t r, calibCapital (free p) r t = calibCapital p r t := fun t r =>
    calibCapital_congr (p := p) (p' := free p) rfl (fun _ => rfl) rfl rfl rfl t
  refine solution_char.2 ⟨htr, hr, ⟨?_, ?_, ?_, c.forms, c.allowances⟩, ?_, ⟨?_, { e.slr with }, ?_, ?_, ?_, ?_, ?_, ?_, ?_, ?_⟩⟩
  · exact { c.init with
      cap_pow := fun t ht r hr => by rw [← hcal]; exact c.init.cap_pow t ht r hr
      tfp_ne := fun t ht r hr => by rw [← hcal]; exact c.init.tfp_ne t ht r hr }
  · intro _ h1; exact absurd h1 hrev
  · intro _; exact hyear
  · intro d hd
    have := sameBounds (p := p) (p' := free p) rfl d hd
    have hbd := hb d hd
    cases d <;> simp only [VarDecl.SameBounds] at this <;> simp only [VarDecl.BoundsOk, this] at hbd <;> exact hbd
  · exact { e.emissions with
      temperature_target := target
      budget := fun t ht b hb hy => by
        rw [if_neg hrev]; linarith [budget t ht b hb hy]
      global_inertia := global_inertia
      regional_inertia := regional_inertia
      global_min_level := global_min
      regional_min_level := regional_min
      non_increasing := fun t ht r hr hy hf => by
        cases t with
        | zero => exact absurd hy (not_lt.2 (by simpa using hyear))
        | succ t =>
          have e1 : ((t + 1 : ℕ) : ℤ) - 1 = (t : ℤ) := by push_cast; ring
          rw [e1] at hy ⊢
          exact sub_nonpos.2 (non_increasing hf t ht r hr hy)
      net_zero := net_zero }
  · have := e.damages
    revert this
    cases md.damage
    · intro this; exact { (this : CoacchEqs (free p) σ) with }
    · exact id
  · exact { e.mitigation with }
  · have := e.trade
    revert this htr
    cases md.trade
    · exact fun _ => id
    · intro h; exact absurd rfl h
    · intro _ this; exact { (this : TradeEqs (free p) σ) with }
  · have := e.transfer
    revert this
    cases md.transfer
    · exact id
    · intro this; exact { (this : PoolEqs (free p) σ) with }
  · exact { e.effort with }
  · exact { e.economy with gross := fun t ht r hr => by rw [← htfp]; exact e.economy.gross t ht r hr }
  · have := e.welfare
    revert this
    cases md.welfare <;> exact id
  · have := e.objective
    revert this
    cases md.objective <;> exact id

theorem self (l : ℝ) (a : Option ℝ) : Spec.between l a a = a := by
  cases a with
  | none => rfl
  | some x =>
    show some _ = some _
    rw [Option.some_inj]; ring

theorem mixable (h : Spec.Mixable md p σ) : Spec.Mixable md (free p) σ := fun ho =>
  ⟨⟨(h ho).1.alpha, (h ho).1.elasmu, (h ho).1.inequality⟩, ⟨(h ho).2.capital, (h ho).2.costs, (h ho).2.consumption⟩⟩

theorem mixable' (h : Spec.Mixable md (free p) σ) : Spec.Mixable md (Spec.limitsBetween l p q) σ := fun ho =>
  ⟨⟨(h ho).1.alpha, (h ho).1.elasmu, (h ho).1.inequality⟩, ⟨(h ho).2.capital, (h ho).2.costs, (h ho).2.consumption⟩⟩

end Between

/-- **C85.** Between the limits of two scenarios there is a policy at least as good as the mean of the two scenarios',
strictly better if these differ. -/
theorem C85_between (hadm : p.Admissible) (hc : Spec.ConvexSetting md p) (hsr : p.sr < 1) (h : Solution md p σ)
    (h' : Solution md (Spec.otherLimits p q) τ) (hm : Spec.Mixable md p σ) (hm' : Spec.Mixable md (Spec.otherLimits p q) τ)
    (h0 : 0 < l) (h1 : l < 1) :
    ∃ ρ, Solution md (Spec.limitsBetween l p q) ρ ∧ Spec.Mixable md (Spec.limitsBetween l p q) ρ ∧
      (∀ t ≤ p.tf, ∀ r ∈ p.regions,
        ρ.R .relative_abatement t r = l * σ.R .relative_abatement t r + (1 - l) * τ.R .relative_abatement t r) ∧
      l * Spec.objectiveValue md p σ + (1 - l) * Spec.objectiveValue md p τ ≤ Spec.objectiveValue md p ρ ∧
      ((∃ t ≤ p.tf, 0 < t ∧ ∃ r ∈ p.regions, 0 < p.baseline_emissions t r ∧
          σ.R .relative_abatement t r ≠ τ.R .relative_abatement t r) →
        l * Spec.objectiveValue md p σ + (1 - l) * Spec.objectiveValue md p τ < Spec.objectiveValue md p ρ) := by
  have l1 : 0 < 1 - l := by linarith
  have f := Between.freed hadm hc.policy h
  have f' : Solution md (Between.free p) τ :=
    Between.freed (p := Spec.otherLimits p q) { hadm with } { hc.policy with } h'
  have cv : Spec.ConvexSetting md (Between.free p) := Between.convex (q := Between.free p) hc
  have ad := Between.admissible hadm
  obtain ⟨ρ, hρ, mρ, ab, better⟩ := C84_mixture_better ad cv hsr f f' (Between.mixable hm)
    (Between.mixable (p := Spec.otherLimits p q) hm') h0 h1
  obtain ⟨ρ', hρ', mix⟩ := C84_mixture ad cv f f' h0 h1
  have same : Spec.SameAbatement (Between.free p) ρ ρ' := fun t ht r hr => by
    rw [ab t ht r hr, ((mix t ht).2.2.2 r hr).1]
  have gE : ∀ t ≤ p.tf, ρ.G .global_emissions t = l * σ.G .global_emissions t + (1 - l) * τ.G .global_emissions t :=
    fun t ht => by rw [(C54_emissions hρ hρ' same cv.exogenous (t := t) ht).2, (mix t ht).1]
  have cu : ∀ t ≤ p.tf, ρ.G .cumulative_emissions t =
      l * σ.G .cumulative_emissions t + (1 - l) * τ.G .cumulative_emissions t :=
    fun t ht => by rw [(C54_climate hρ hρ' same cv.exogenous (t := t) ht).1, (mix t ht).2.1]
  have te : ∀ t ≤ p.tf, ρ.G .temperature t = l * σ.G .temperature t + (1 - l) * τ.G .temperature t :=
    fun t ht => by rw [(C54_climate hρ hρ' same cv.exogenous (t := t) ht).2.1, (mix t ht).2.2.1]
  have em : ∀ t ≤ p.tf, ∀ r ∈ p.regions, ρ.R .regional_emissions t r =
      l * σ.R .regional_emissions t r + (1 - l) * τ.R .regional_emissions t r :=
    fun t ht r hr => by
      rw [((C54_emissions hρ hρ' same cv.exogenous (t := t) ht).1 r hr).1, ((mix t ht).2.2.2 r hr).2.1]
  have mono : ∀ {a b c d : ℝ}, a ≤ b → c ≤ d → l * a + (1 - l) * c ≤ l * b + (1 - l) * d := fun i j =>
    add_le_add (mul_le_mul_of_nonneg_left i h0.le) (mul_le_mul_of_nonneg_left j l1.le)
  have hrev : ¬ p.perc_reversible_damages < 1 := not_lt.2 hc.policy.reversible
  have E := h.eqs.emissions
  have E' := h'.eqs.emissions
  refine ⟨ρ, ?_, Between.mixable' mρ, ab, better⟩
  refine Between.limited (p := Spec.limitsBetween l p q) { hc.policy with } hadm.dt_pos hρ ?_ ?_ ?_ ?_ ?_ ?_ ?_ ?_
  · intro t ht T hT hy
    obtain ⟨a, b, e1, e2, rfl⟩ := Between.some_of hT
    rw [te t ht]
    exact mono (E.temperature_target t ht a e1 hy) (E'.temperature_target t ht b e2 hy)
  · intro t ht T hT hy
    obtain ⟨a, b, e1, e2, rfl⟩ := Between.some_of hT
    rw [cu t ht]
    have i1 := E.budget t ht a e1 hy
    have i2 := E'.budget t ht b e2 hy
    rw [if_neg hrev] at i1 i2
    exact mono (by linarith) (by linarith)
  · intro t ht i hi
    obtain ⟨a, b, e1, e2, rfl⟩ := Between.some_of hi
    rw [gE (t + 1) ht, gE t (Nat.le_of_lt ht)]
    have i2 : p.dt * b * (p.sumR fun r => p.baseline_emissions 0 r) ≤ _ := E'.global_inertia t ht b e2
    have := mono (E.global_inertia t ht a e1) i2
    show p.dt * (l * a + (1 - l) * b) * (p.sumR fun r => p.baseline_emissions 0 r) ≤ _
    linarith
  · intro t ht r hr i hi
    obtain ⟨a, b, e1, e2, rfl⟩ := Between.some_of hi
    rw [em (t + 1) ht r hr, em t (Nat.le_of_lt ht) r hr]
    have i2 : p.dt * b * p.baseline_emissions 0 r ≤ _ := E'.regional_inertia t ht r hr b e2
    have := mono (E.regional_inertia t ht r hr a e1) i2
    linarith
  · intro t ht i hi
    obtain ⟨a, b, e1, e2, rfl⟩ := Between.some_of hi
    rw [gE t ht]
    exact mono (E.global_min_level t ht a e1) (E'.global_min_level t ht b e2)
  · intro t ht r hr i hi
    obtain ⟨a, b, e1, e2, rfl⟩ := Between.some_of hi
    rw [em t ht r hr]
    exact mono (E.regional_min_level t ht r hr a e1) (E'.regional_min_level t ht r hr b e2)
  · intro hf t ht r hr hy
    have hf := Bool.and_eq_true_iff.1 hf
    rw [em (t + 1) ht r hr, em t (Nat.le_of_lt ht) r hr]
    have e1 : ((t + 1 : ℕ) : ℤ) - 1 = (t : ℤ) := by push_cast; ring
    have i1 := E.non_increasing (t + 1) ht r hr (by rw [e1]; exact hy) hf.1
    have i2 := E'.non_increasing (t + 1) ht r hr (by rw [e1]; exact hy) hf.2
    rw [e1] at i1 i2
    exact mono (sub_nonpos.1 i1) (sub_nonpos.1 i2)
  · intro t ht hy hf hb
    have hf := Bool.and_eq_true_iff.1 hf
    obtain ⟨b, hb⟩ := Option.ne_none_iff_exists'.1 hb
    obtain ⟨x, y, e1, e2, -⟩ := Between.some_of hb
    rw [gE t ht]
    have := mono (E.net_zero t ht hy hf.1 (by rw [e1]; simp)) (E'.net_zero t ht hy hf.2 (by
      show q.budget ≠ none
      rw [e2]; simp))
    linarith

/-- **C85.** The best objective is concave in the limits, strictly where the optimal policies differ. -/
theorem C85_optimum (hadm : p.Admissible) (hc : Spec.ConvexSetting md p) (hsr : p.sr < 1) (h : Optimal md p σ)
    (h' : Optimal md (Spec.otherLimits p q) τ) (hm : Spec.Mixable md p σ) (hm' : Spec.Mixable md (Spec.otherLimits p q) τ)
    (h0 : 0 < l) (h1 : l < 1) {μ : Env} (hμ : Optimal md (Spec.limitsBetween l p q) μ) :
    l * Spec.objectiveValue md p σ + (1 - l) * Spec.objectiveValue md p τ ≤ Spec.objectiveValue md p μ ∧
      ((∃ t ≤ p.tf, 0 < t ∧ ∃ r ∈ p.regions, 0 < p.baseline_emissions t r ∧
          σ.R .relative_abatement t r ≠ τ.R .relative_abatement t r) →
        l * Spec.objectiveValue md p σ + (1 - l) * Spec.objectiveValue md p τ < Spec.objectiveValue md p μ) := by
  obtain ⟨ρ, hρ, -, -, b1, b2⟩ := C85_between hadm hc hsr h.1 h'.1 hm hm' h0 h1
  have best : Spec.objectiveValue md p ρ ≤ Spec.objectiveValue md p μ := hμ.best hρ
  exact ⟨b1.trans best, fun hd => (b2 hd).trans_le best⟩

/-- **C85.** Each further tightening of the carbon budget costs at least as much per ton as the one before: with
`b₀ < b₁ < b₂` the loss per ton between `b₁` and `b₀` is at least that between `b₂` and `b₁`. -/
theorem C85_budget_increasingly_dear (hadm : p.Admissible) (hc : Spec.ConvexSetting md p) (hsr : p.sr < 1) {b₀ b₁ b₂ : ℝ}
    (h01 : b₀ < b₁) (h12 : b₁ < b₂) {σ₀ σ₁ σ₂ : Env} (h₀ : Optimal md { p with budget := some b₀ } σ₀)
    (h₁ : Optimal md { p with budget := some b₁ } σ₁) (h₂ : Optimal md { p with budget := some b₂ } σ₂)
    (hm₀ : Spec.Mixable md { p with budget := some b₀ } σ₀) (hm₂ : Spec.Mixable md { p with budget := some b₂ } σ₂) :
    (Spec.objectiveValue md p σ₂ - Spec.objectiveValue md p σ₁) / (b₂ - b₁) ≤
      (Spec.objectiveValue md p σ₁ - Spec.objectiveValue md p σ₀) / (b₁ - b₀) := by
  set l := (b₂ - b₁) / (b₂ - b₀) with hl
  have d : 0 < b₂ - b₀ := by linarith
  have l0 : 0 < l := div_pos (by linarith) d
  have l1 : l < 1 := (div_lt_one d).2 (by linarith)
  have e : l * b₀ + (1 - l) * b₂ = b₁ := by rw [hl]; field_simp; ring
  have hc₀ : Spec.ConvexSetting md { p with budget := some b₀ } := Between.convex (q := { p with budget := some b₀ }) hc
  have hμ : Optimal md (Spec.limitsBetween l { p with budget := some b₀ } { p with budget := some b₂ }) σ₁ := by
    have : Spec.limitsBetween l { p with budget := some b₀ } { p with budget := some b₂ } = { p with budget := some b₁ } := by
      simp only [Spec.limitsBetween, Between.self, Bool.and_self]
      simp only [Spec.between, e]
    rw [this]; exact h₁
  have i := (C85_optimum (p := { p with budget := some b₀ }) (q := { p with budget := some b₂ }) { hadm with } hc₀ hsr h₀ h₂
    hm₀ hm₂ l0 l1 hμ).1
  have i : l * Spec.objectiveValue md p σ₀ + (1 - l) * Spec.objectiveValue md p σ₂ ≤ Spec.objectiveValue md p σ₁ := i
  rw [div_le_div_iff₀ (by linarith) (by linarith)]
  have j := mul_le_mul_of_nonneg_left i d.le
  have k1 : (b₂ - b₀) * l = b₂ - b₁ := by rw [hl]; field_simp
  have k : (b₂ - b₀) * (l * Spec.objectiveValue md p σ₀ + (1 - l) * Spec.objectiveValue md p σ₂) =
      (b₂ - b₁) * Spec.objectiveValue md p σ₀ + (b₁ - b₀) * Spec.objectiveValue md p σ₂ := by
    linear_combination (Spec.objectiveValue md p σ₀ - Spec.objectiveValue md p σ₂) * k1
  rw [k] at j
  linarith

/-- **C85.** The same for the temperature target. -/
theorem C85_target_increasingly_dear (hadm : p.Admissible) (hc : Spec.ConvexSetting md p) (hsr : p.sr < 1) {T₀ T₁ T₂ : ℝ}
    (h01 : T₀ < T₁) (h12 : T₁ < T₂) {σ₀ σ₁ σ₂ : Env} (h₀ : Optimal md { p with temperature_target := some T₀ } σ₀)
    (h₁ : Optimal md { p with temperature_target := some T₁ } σ₁) (h₂ : Optimal md { p with temperature_target := some T₂ } σ₂)
    (hm₀ : Spec.Mixable md { p with temperature_target := some T₀ } σ₀)
    (hm₂ : Spec.Mixable md { p with temperature_target := some T₂ } σ₂) :
    (Spec.objectiveValue md p σ₂ - Spec.objectiveValue md p σ₁) / (T₂ - T₁) ≤
      (Spec.objectiveValue md p σ₁ - Spec.objectiveValue md p σ₀) / (T₁ - T₀) := by
  set l := (T₂ - T₁) / (T₂ - T₀) with hl
  have d : 0 < T₂ - T₀ := by linarith
  have l0 : 0 < l := div_pos (by linarith) d
  have l1 : l < 1 := (div_lt_one d).2 (by linarith)
  have e : l * T₀ + (1 - l) * T₂ = T₁ := by rw [hl]; field_simp; ring
  have hc₀ : Spec.ConvexSetting md { p with temperature_target := some T₀ } :=
    Between.convex (q := { p with temperature_target := some T₀ }) hc
  have hμ : Optimal md (Spec.limitsBetween l { p with temperature_target := some T₀ } { p with temperature_target := some T₂ }) σ₁ := by
    have : Spec.limitsBetween l { p with temperature_target := some T₀ } { p with temperature_target := some T₂ } =
        { p with temperature_target := some T₁ } := by
      simp only [Spec.limitsBetween, Between.self, Bool.and_self]
      simp only [Spec.between, e]
    rw [this]; exact h₁
  have i := (C85_optimum (p := { p with temperature_target := some T₀ }) (q := { p with temperature_target := some T₂ })
    { hadm with } hc₀ hsr h₀ h₂ hm₀ hm₂ l0 l1 hμ).1
  have i : l * Spec.objectiveValue md p σ₀ + (1 - l) * Spec.objectiveValue md p σ₂ ≤ Spec.objectiveValue md p σ₁ := i
  rw [div_le_div_iff₀ (by linarith) (by linarith)]
  have j := mul_le_mul_of_nonneg_left i d.le
  have k1 : (T₂ - T₀) * l = T₂ - T₁ := by rw [hl]; field_simp
  have k : (T₂ - T₀) * (l * Spec.objectiveValue md p σ₀ + (1 - l) * Spec.objectiveValue md p σ₂) =
      (T₂ - T₁) * Spec.objectiveValue md p σ₀ + (T₁ - T₀) * Spec.objectiveValue md p σ₂ := by
    linear_combination (Spec.objectiveValue md p σ₀ - Spec.objectiveValue md p σ₂) * k1
  rw [k] at j
  linarith

/-! ## Concrete cases: budgets of 1600, 1700 and 1900, targets of 2, 2.1 and 2.4 degrees -/

namespace Ex
variable {w : WelfareModule} {o : ObjectiveModule}

theorem bq_looser {T b : ℝ} (hT : 2 ≤ T) (hb : 1600 ≤ b) :
    ∃ σ, Optimal (md0 .nodamage w o) (bq (some T) (some b) true) σ := by
  refine C65_optimum_exists_exogenous (md := md0 .nodamage w o) (p := bq (some T) (some b) true) bq_admissible
    (fun h => by cases h) rfl ⟨_, C59_still_feasible (p := bq (some 2) (some 1600) true) (q := bq (some T) (some b) true)
      (bq_sol (w := w) (o := o) (.inr rfl) (.inr rfl)) ?_ (by norm_num [ex]) (by simp [ex])⟩
  exact
    { target := fun T' h => ⟨2, rfl, by cases h; exact hT⟩
      budget := fun b' h => ⟨1600, rfl, by cases h; exact hb⟩
      inertia_global := fun b h => ⟨b, h, le_rfl⟩
      inertia_regional := fun b h => ⟨b, h, le_rfl⟩
      global_min := fun b h => ⟨b, h, le_rfl⟩
      regional_min := fun b h => ⟨b, h, le_rfl⟩
      non_increasing := id
      net_zero := id
      costs_min := le_rfl
      regime := .inl rfl }

example (w : WelfareModule) (o : ObjectiveModule) : ∃ σ₀ σ₁ σ₂,
    Optimal (md0 .nodamage w o) (bq (some 2) (some 1600) true) σ₀ ∧
    Optimal (md0 .nodamage w o) (bq (some 2) (some 1700) true) σ₁ ∧
    Optimal (md0 .nodamage w o) (bq (some 2) (some 1900) true) σ₂ ∧
    (Spec.objectiveValue (md0 .nodamage w o) (bq (some 2) none true) σ₂ -
        Spec.objectiveValue (md0 .nodamage w o) (bq (some 2) none true) σ₁) / (1900 - 1700) ≤
      (Spec.objectiveValue (md0 .nodamage w o) (bq (some 2) none true) σ₁ -
        Spec.objectiveValue (md0 .nodamage w o) (bq (some 2) none true) σ₀) / (1700 - 1600) := by
  obtain ⟨σ₀, h₀⟩ := bq_looser (w := w) (o := o) (T := 2) (b := 1600) (by norm_num) (by norm_num)
  obtain ⟨σ₁, h₁⟩ := bq_looser (w := w) (o := o) (T := 2) (b := 1700) (by norm_num) (by norm_num)
  obtain ⟨σ₂, h₂⟩ := bq_looser (w := w) (o := o) (T := 2) (b := 1900) (by norm_num) (by norm_num)
  exact ⟨σ₀, σ₁, σ₂, h₀, h₁, h₂, C85_budget_increasingly_dear (p := bq (some 2) none true) bq_admissible bq_convex
    (by norm_num [ex]) (by norm_num) (by norm_num) h₀ h₁ h₂ (bq_mixable h₀.1) (bq_mixable h₂.1)⟩

example (w : WelfareModule) (o : ObjectiveModule) : ∃ σ₀ σ₁ σ₂,
    Optimal (md0 .nodamage w o) (bq (some 2) (some 1600) true) σ₀ ∧
    Optimal (md0 .nodamage w o) (bq (some 2.1) (some 1600) true) σ₁ ∧
    Optimal (md0 .nodamage w o) (bq (some 2.4) (some 1600) true) σ₂ ∧
    (Spec.objectiveValue (md0 .nodamage w o) (bq none (some 1600) true) σ₂ -
        Spec.objectiveValue (md0 .nodamage w o) (bq none (some 1600) true) σ₁) / (2.4 - 2.1) ≤
      (Spec.objectiveValue (md0 .nodamage w o) (bq none (some 1600) true) σ₁ -
        Spec.objectiveValue (md0 .nodamage w o) (bq none (some 1600) true) σ₀) / (2.1 - 2) := by
  obtain ⟨σ₀, h₀⟩ := bq_looser (w := w) (o := o) (T := 2) (b := 1600) (by norm_num) (by norm_num)
  obtain ⟨σ₁, h₁⟩ := bq_looser (w := w) (o := o) (T := 2.1) (b := 1600) (by norm_num) (by norm_num)
  obtain ⟨σ₂, h₂⟩ := bq_looser (w := w) (o := o) (T := 2.4) (b := 1600) (by norm_num) (by norm_num)
  exact ⟨σ₀, σ₁, σ₂, h₀, h₁, h₂, C85_target_increasingly_dear (p := bq none (some 1600) true) bq_admissible bq_convex
    (by norm_num [ex]) (by norm_num) (by norm_num) h₀ h₁ h₂ (bq_mixable h₀.1) (bq_mixable h₂.1)⟩

/-- Half-way between a run with both limits and one with the budget only (the target is then absent). -/
example (w : WelfareModule) (o : ObjectiveModule) : ∃ σ τ μ,
    Optimal (md0 .nodamage w o) (bq (some 2) (some 1600) true) σ ∧
    Solution (md0 .nodamage w o) (bq none (some 1600) false) τ ∧
    Solution (md0 .nodamage w o) (Spec.limitsBetween (1 / 2) (bq (some 2) (some 1600) true) (bq none (some 1600) false)) μ := by
  obtain ⟨σ, h⟩ := bq_looser (w := w) (o := o) (T := 2) (b := 1600) (by norm_num) (by norm_num)
  have h' := bq_sol (w := w) (o := o) (T := none) (b := some 1600) (nz := false) (.inl rfl) (.inr rfl)
  obtain ⟨μ, hμ, -⟩ := C85_between (p := bq (some 2) (some 1600) true) (q := bq none (some 1600) false) (l := 1 / 2)
    bq_admissible bq_convex (by norm_num [ex]) h.1 h' (bq_mixable h.1) (bq_mixable h') (by norm_num) (by norm_num)
  exact ⟨σ, _, μ, h, h', hμ⟩

example (w : WelfareModule) (o : ObjectiveModule) {σ τ μ : Env} (h : Optimal (md0 .nodamage w o) (bq (some 2) (some 1600) true) σ)
    (h' : Optimal (md0 .nodamage w o) (bq (some 3) (some 2000) true) τ)
    (hμ : Optimal (md0 .nodamage w o)
      (Spec.limitsBetween (1 / 2) (bq (some 2) (some 1600) true) (bq (some 3) (some 2000) true)) μ) :=
  (C85_optimum (p := bq (some 2) (some 1600) true) (q := bq (some 3) (some 2000) true) bq_admissible bq_convex
    (by norm_num [ex]) h h' (bq_mixable h.1) (bq_mixable h'.1) (by norm_num) (by norm_num) hμ).1

end Ex
end Mimosa
