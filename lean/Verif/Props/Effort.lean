import Verif.Lib.Example2

/-!
# Effort sharing: C42 (equal relative costs) and C43 (per-capita convergence)

Also here: the concrete solutions that show that the hypotheses of C34 and C35 can be met.
-/

namespace Mimosa
variable {md : Modules} {p : Params} {σ : Env}

/-! ## Examples for C34 and C35 -/

/-- With emission trade: A pays B, the balances are not zero, and cancel. -/
example (t : ℕ) (ht : t ≤ 3) (h0 : 0 < t) :
    let σ := (Ex.xTrade "noregime" none).env (Ex.mdTrade .COACCH .cost_minimising .globalcosts)
      (Ex.ex "noregime" 0 none)
    0 < σ.R .import_export_mitigation_cost_balance t "A" ∧
    (["A", "B"].map fun r => σ.R .import_export_mitigation_cost_balance t r).sum = 0 ∧
    (["A", "B"].map fun r => σ.R .regional_emission_allowances t r).sum = σ.G .global_emissions t := by
  intro σ
  have sol := Ex.solTrade (conv := none) .COACCH .cost_minimising .globalcosts
  exact ⟨Ex.area_pos _ ⟨rfl, rfl⟩ "B" ht h0, C34_cost_balances_sum_zero sol rfl ht,
    C34_allowances_sum sol rfl ht h0⟩

/-- With the damage pool: transfers cancel and nobody receives more than its damages. -/
example (t : ℕ) (ht : t ≤ 3) : let σ := Ex.xPool.env Ex.mdPool Ex.pTot
    (["A", "B"].map fun r => σ.R .financial_transfer t r).sum = 0 :=
  C35_zero_sum Ex.solPool rfl ht

/-! ## C42 -/

/-- `x` is at most the factor 1.005/0.995 above `y` (and both are non-negative). -/
def Spec.WithinTolerance (x y : ℝ) : Prop := 0 ≤ x ∧ 0 ≤ y ∧ x ≤ 1.005 / 0.995 * y

private theorem tol {x y L : ℝ} (h1 : x ≤ (1 + 0.005) * L) (h2 : (1 - 0.005) * L ≤ x)
    (_ : y ≤ (1 + 0.005) * L) (h4 : (1 - 0.005) * L ≤ y) : Spec.WithinTolerance x y := by
  have hL : 0 ≤ L := by linarith
  refine ⟨?_, ?_, ?_⟩
  · nlinarith
  · nlinarith
  · have : L ≤ y / 0.995 := by rw [le_div_iff₀ (by norm_num)]; linarith
    calc x ≤ 1.005 * L := by linarith
      _ ≤ 1.005 * (y / 0.995) := by gcongr
      _ = _ := by ring

/-- Equal-mitigation-costs regime: the relative mitigation costs of any two regions agree up to the factor
1.005/0.995, at every time step. -/
theorem C42_equal_mitigation_costs (h : Solution md p σ)
    (hg : p.effort_sharing_regime = "equal_mitigation_costs") {t : ℕ} (ht : t ≤ p.tf) {r s : String}
    (hr : r ∈ p.regions) (hs : s ∈ p.regions) :
    Spec.WithinTolerance (σ.R .rel_mitigation_costs t r) (σ.R .rel_mitigation_costs t s) := by
  have a := h.eqs.effort.mitigation t ht r hr hg
  have b := h.eqs.effort.mitigation t ht s hs hg
  exact tol a.1 a.2 b.1 b.2

/-- Total costs of a region relative to gross GDP: mitigation, damages and transfers paid. -/
noncomputable def Spec.totalCosts (md : Modules) (σ : Env) (t : ℕ) (r : String) : ℝ :=
  σ.R .rel_mitigation_costs t r + σ.R .damage_costs t r +
    (match md.transfer with
      | .notransfer => 0
      | .globaldamagepool => σ.R .rel_financial_transfer t r)

/-- Equal-total-costs regime: total relative costs agree up to that factor at every time step up to 2100. -/
theorem C42_equal_total_costs (h : Solution md p σ)
    (hg : p.effort_sharing_regime = "equal_total_costs") {t : ℕ} (ht : t ≤ p.tf) (hy : p.year t ≤ 2100)
    {r s : String} (hr : r ∈ p.regions) (hs : s ∈ p.regions) :
    Spec.WithinTolerance (Spec.totalCosts md σ t r) (Spec.totalCosts md σ t s) := by
  have a := h.eqs.effort.total t ht r hr hg hy
  have b := h.eqs.effort.total t ht s hs hg hy
  have e : ∀ r, Spec.totalCosts md σ t r = σ.R .rel_mitigation_costs t r + σ.R .damage_costs t r +
      relTransferVal σ md.transfer t r := by
    intro r; unfold Spec.totalCosts relTransferVal; cases md.transfer <;> rfl
  rw [e, e]
  exact tol a.1 a.2 b.1 b.2

/-- What the regimes say about an assignment, independently of the model's own code. -/
def Spec.EffortSharing (md : Modules) (p : Params) (σ : Env) : Prop :=
  (p.effort_sharing_regime = "equal_mitigation_costs" → ∀ t ≤ p.tf, ∀ r ∈ p.regions,
    0.995 * σ.G .effort_sharing_common_level t ≤ σ.R .rel_mitigation_costs t r ∧
    σ.R .rel_mitigation_costs t r ≤ 1.005 * σ.G .effort_sharing_common_level t) ∧
  (p.effort_sharing_regime = "equal_total_costs" → ∀ t ≤ p.tf, p.year t ≤ 2100 → ∀ r ∈ p.regions,
    0.995 * σ.G .effort_sharing_common_level t ≤ Spec.totalCosts md σ t r ∧
    Spec.totalCosts md σ t r ≤ 1.005 * σ.G .effort_sharing_common_level t) ∧
  (p.effort_sharing_regime = "per_cap_convergence" → ∀ t ≤ p.tf, 0 < t → ∀ r ∈ p.regions,
    |p.percapconv_share t r * σ.G .global_emissions t - σ.R .regional_emission_allowances t r| ≤ 0.001)

private theorem effort_spec : EffortEqs p σ md.transfer ↔ Spec.EffortSharing md p σ := by
  have e : ∀ t r, Spec.totalCosts md σ t r = σ.R .rel_mitigation_costs t r + σ.R .damage_costs t r +
      relTransferVal σ md.transfer t r := by
    intro t r; unfold Spec.totalCosts relTransferVal; cases md.transfer <;> rfl
  constructor
  · intro he
    refine ⟨fun hg t ht r hr => ?_, fun hg t ht hy r hr => ?_, fun hg t ht h0 r hr => ?_⟩
    · have := he.mitigation t ht r hr hg
      constructor <;> linarith [this.1, this.2]
    · have := he.total t ht r hr hg hy
      rw [e]
      constructor <;> linarith [this.1, this.2]
    · obtain ⟨t, rfl⟩ := Nat.exists_eq_succ_of_ne_zero h0.ne'
      have := he.percap t ht r hr hg
      rw [abs_le]
      constructor <;> linarith [this.1, this.2]
  · rintro ⟨h1, h2, h3⟩
    refine ⟨fun t ht r hr hg => ?_, fun t ht r hr hg hy => ?_, fun t ht r hr hg => ?_⟩
    · have := h1 hg t ht r hr
      constructor <;> linarith [this.1, this.2]
    · have := h2 hg t ht hy r hr
      rw [e] at this
      constructor <;> linarith [this.1, this.2]
    · have := abs_le.1 (h3 hg (t + 1) ht (Nat.succ_pos t) r hr)
      constructor <;> linarith [this.1, this.2]

/-- The regime adds exactly its own restriction: a solution for a regime is a solution of the model without
regime that satisfies the regime's condition, and conversely (per-capita convergence needs emission trade).
In particular without a regime nothing is required. -/
theorem C42_regime_adds_only_this (regime : String)
    (htr : regime = "per_cap_convergence" → md.trade = .emissiontrade) :
    Solution md { p with effort_sharing_regime := regime } σ ↔
      Solution md { p with effort_sharing_regime := "noregime" } σ ∧
      Spec.EffortSharing md { p with effort_sharing_regime := regime } σ := by
  have hc : ∀ g₁ g₂ r t, calibCapital { p with effort_sharing_regime := g₁ } r t =
      calibCapital { p with effort_sharing_regime := g₂ } r t := by
    intro g₁ g₂ r t
    induction t with
    | zero => rfl
    | succ t ih => simp only [calibCapital, ih]
  have key : ∀ g₁ g₂ : String, (g₂ = "per_cap_convergence" → md.trade = .emissiontrade) →
      Solution md { p with effort_sharing_regime := g₁ } σ →
      Spec.EffortSharing md { p with effort_sharing_regime := g₂ } σ →
      Solution md { p with effort_sharing_regime := g₂ } σ := by
    intro g₁ g₂ hg2 h hs
    obtain ⟨h1, h2, h3, h4, h5⟩ := solution_char.1 h
    have hcap := hc g₁ g₂
    have hg : ∀ t r, get_TFP_value { p with effort_sharing_regime := g₂ } t r =
        get_TFP_value { p with effort_sharing_regime := g₁ } t r := by
      intro t r; simp only [get_TFP_value, hcap]
    have hcap := hc g₂ g₁
    refine solution_char.2 ⟨h1, h2, ?_, ?_, ?_⟩
    · refine ⟨?_, h3.overshoot, h3.index, h3.forms, fun k => Or.inl (hg2 k)⟩
      exact { h3.init with
        cap_pow := fun t ht r hr => by rw [hcap]; exact h3.init.cap_pow t ht r hr
        tfp_ne := fun t ht r hr => by rw [hcap]; exact h3.init.tfp_ne t ht r hr }
    · exact Drivers.bounds_of h1 (fun t ht r hr => h.abatement_bounds ht hr)
        (fun t ht r hr => h.price_bounds ht hr)
        (fun t ht => h.slr_nonneg ht) (fun hd t ht r hr => h.slr_damage_bounds hd ht hr)
    · refine ⟨{ h5.emissions with }, { h5.slr with }, ?_, { h5.mitigation with }, ?_, ?_,
        effort_spec.2 hs,
        { h5.economy with gross := fun t ht r hr => by rw [hg]; exact h5.economy.gross t ht r hr }, ?_, ?_⟩
      · have hd := h5.damages
        obtain ⟨d, _⟩ := md
        cases d
        · exact { hd with }
        · exact hd
      · have hd := h5.trade
        obtain ⟨_, tr, _, _, _⟩ := md
        cases tr
        · trivial
        · exact absurd rfl h1
        · exact { hd with }
      · have hd := h5.transfer
        obtain ⟨_, _, tr, _, _⟩ := md
        cases tr
        · trivial
        · exact { hd with }
      · have hd := h5.welfare
        obtain ⟨_, _, _, w, _⟩ := md
        cases w <;> exact hd
      · have hd := h5.objective
        obtain ⟨_, _, _, _, w⟩ := md
        cases w <;> exact hd
  constructor
  · intro h
    refine ⟨key _ _ (fun k => absurd k (by decide)) h ⟨?_, ?_, ?_⟩, effort_spec.1 h.eqs.effort⟩
    · intro hg; exact absurd (show "noregime" = "equal_mitigation_costs" from hg) (by decide)
    · intro hg; exact absurd (show "noregime" = "equal_total_costs" from hg) (by decide)
    · intro hg; exact absurd (show "noregime" = "per_cap_convergence" from hg) (by decide)
  · rintro ⟨h, hs⟩
    exact key _ _ htr h hs
example := C42_regime_adds_only_this (md := Ex.m0) (p := Ex.p0) (σ := Ex.σ0) "equal_total_costs" (by simp)

example (t : ℕ) (ht : t ≤ 3) :
    let σ := Ex.xMit.env Ex.m0 (Ex.ex "equal_mitigation_costs" 0 none)
    Spec.WithinTolerance (σ.R .rel_mitigation_costs t "A") (σ.R .rel_mitigation_costs t "B") :=
  C42_equal_mitigation_costs Ex.solMit rfl ht (by simp [Ex.ex]) (by simp [Ex.ex])

example : let σ := Ex.xPool.env Ex.mdPool Ex.pTot
    Spec.WithinTolerance (Spec.totalCosts Ex.mdPool σ 1 "A") (Spec.totalCosts Ex.mdPool σ 1 "B") :=
  C42_equal_total_costs Ex.solPool rfl (by decide) (by simp [Params.year, Ex.ex]; norm_num)
    (by simp [Ex.ex]) (by simp [Ex.ex])

/-- Without a regime relative costs may differ by any factor: in the trade example B pays nothing. -/
theorem C42_noregime_no_restriction : ∃ md p σ, Solution md p σ ∧ p.effort_sharing_regime = "noregime" ∧
    ∃ t ≤ p.tf, ∃ r ∈ p.regions, ∃ s ∈ p.regions,
      ¬ Spec.WithinTolerance (σ.R .rel_mitigation_costs t r) (σ.R .rel_mitigation_costs t s) := by
  refine ⟨_, _, _, Ex.solTrade (conv := none) .COACCH .cost_minimising .globalcosts, rfl, 1, by decide,
    "A", by simp [Ex.ex], "B", by simp [Ex.ex], ?_⟩
  have h := Ex.solTrade (conv := none) .COACCH .cost_minimising .globalcosts
  have a0 : ∀ t r, (Ex.xTrade "noregime" none).area (Ex.ex "noregime" 0 none) t r =
      (Ex.x0 fun _ => 0).area (Ex.ex "noregime" 0 none) t "B" := by
    intro t r
    rw [Ex.area_val _ ⟨rfl, rfl⟩, Ex.area_val _ ⟨rfl, rfl⟩]
    have : ∀ t, (Ex.xTrade "noregime" none).cum (Ex.ex "noregime" 0 none) t =
        (Ex.x0 fun _ => 0).cum (Ex.ex "noregime" 0 none) t := by
      intro t
      induction t with
      | zero => rfl
      | succ t ih =>
        simp only [Drivers.cum, ih]
        rw [Ex.gE_val _ ⟨rfl, rfl⟩, Ex.gE_val _ ⟨rfl, rfl⟩, Ex.gE_val _ ⟨rfl, rfl⟩, Ex.gE_val _ ⟨rfl, rfl⟩]
    unfold Drivers.learn Drivers.lbd
    rw [this]
  have hp : 0 < (Ex.x0 fun _ => 0).area (Ex.ex "noregime" 0 none) 1 "B" :=
    Ex.area_pos _ ⟨rfl, rfl⟩ "B" (by norm_num) (by norm_num)
  set md := Ex.mdTrade .COACCH .cost_minimising .globalcosts
  set x := Ex.xTrade "noregime" none
  have eA : (x.env md (Ex.ex "noregime" 0 none)).R .rel_mitigation_costs 1 "A" =
    (x.area (Ex.ex "noregime" 0 none) 1 "A" + (Ex.x0 fun _ => 0).area (Ex.ex "noregime" 0 none) 1 "B")
      / x.gross md (Ex.ex "noregime" 0 none) 1 "A" := rfl
  have eB : (x.env md (Ex.ex "noregime" 0 none)).R .rel_mitigation_costs 1 "B" =
    (x.area (Ex.ex "noregime" 0 none) 1 "B" + -(Ex.x0 fun _ => 0).area (Ex.ex "noregime" 0 none) 1 "B")
      / x.gross md (Ex.ex "noregime" 0 none) 1 "B" := rfl
  rw [eA, eB, Ex.gross_val, Ex.gross_val, a0, a0]
  rintro ⟨_, _, h3⟩
  linarith

/-! ## C43 -/

/-- Allowance shares of all regions add up to one at every time step, whatever the convergence year. -/
theorem C43_shares_sum_one (h : Solution md p σ) {t : ℕ} (ht : t ≤ p.tf) :
    (p.regions.map fun r => p.percapconv_share t r).sum = 1 := by
  have hi := h.instOk.init
  have h1 : p.sumR (fun r => p.percapconv_share_init r) = 1 := by
    unfold Params.percapconv_share_init
    rw [sumR_div]
    exact div_self (hi.sum_emissions_ne h.regions_ne)
  have h2 : p.sumR (fun r => p.percapconv_share_pop t r) = 1 := by
    unfold Params.percapconv_share_pop
    rw [sumR_div]
    exact div_self (hi.sum_population_ne t ht h.regions_ne)
  show p.sumR (fun r => p.percapconv_share t r) = 1
  unfold Params.percapconv_share
  by_cases hc : p.percapconv_year_num = p.year 0
  · simp only [hc, if_true]; exact h2
  · simp only [hc, if_false]
    rw [sumR_add, sumR_mul_left, sumR_mul_left, h1, h2]
    rcases le_total ((p.year t - p.year 0) / (p.percapconv_year_num - p.year 0)) 1 with h | h
    · rw [min_eq_left h, max_eq_left (by linarith)]; ring
    · rw [min_eq_right h, max_eq_right (by linarith)]; ring
example := C43_shares_sum_one Ex.solCap (t := 2) (by simp [Ex.ex])

/-- Share of baseline emissions in the first year ("grandfathering"). -/
noncomputable def Spec.grandfathering (p : Params) (r : String) : ℝ :=
  p.baseline_emissions 0 r / (p.regions.map fun s => p.baseline_emissions 0 s).sum
/-- Share of the world population. -/
noncomputable def Spec.perCapita (p : Params) (t : ℕ) (r : String) : ℝ :=
  p.population t r / (p.regions.map fun s => p.population t s).sum

/-- With a convergence year after the first year: the share moves linearly from grandfathering in the first
year to the population share in the convergence year, and is the population share from then on. -/
theorem C43_interpolation {c : ℝ} (hc : p.percapconv_year = some c) (h0 : p.year 0 < c) (t : ℕ)
    (r : String) :
    (t = 0 → p.percapconv_share t r = Spec.grandfathering p r) ∧
    (c ≤ p.year t → p.percapconv_share t r = Spec.perCapita p t r) ∧
    (p.year t ≤ c → p.percapconv_share t r =
      (c - p.year t) / (c - p.year 0) * Spec.grandfathering p r +
      (p.year t - p.year 0) / (c - p.year 0) * Spec.perCapita p t r) := by
  have e : p.percapconv_year_num = c := by simp [Params.percapconv_year_num, hc]
  have hne : c ≠ p.year 0 := h0.ne'
  have hpos : 0 < c - p.year 0 := by linarith
  have hs : p.percapconv_share t r = min ((p.year t - p.year 0) / (c - p.year 0)) 1 * Spec.perCapita p t r
      + max (1 - (p.year t - p.year 0) / (c - p.year 0)) 0 * Spec.grandfathering p r := by
    unfold Params.percapconv_share
    simp only [e, hne, if_false]; rfl
  have lin : p.year t ≤ c → p.percapconv_share t r =
      (c - p.year t) / (c - p.year 0) * Spec.grandfathering p r +
      (p.year t - p.year 0) / (c - p.year 0) * Spec.perCapita p t r := by
    intro ht
    have : (p.year t - p.year 0) / (c - p.year 0) ≤ 1 := (div_le_one hpos).2 (by linarith)
    rw [hs, min_eq_left this, max_eq_left (by linarith)]
    field_simp; ring
  refine ⟨?_, ?_, lin⟩
  · rintro rfl
    rw [hs]; simp
  · intro ht
    have : 1 ≤ (p.year t - p.year 0) / (c - p.year 0) := (one_le_div hpos).2 (by linarith)
    rw [hs, min_eq_right this, max_eq_right (by linarith)]; ring
example := C43_interpolation (p := Ex.pCap) (c := 2050) rfl (by norm_num [Ex.ex, Params.year]) 2 "A"

/-- Immediate convergence: with the first year as convergence year the shares are population shares
throughout. -/
theorem C43_immediate (hc : p.percapconv_year = some (p.year 0)) (t : ℕ) (r : String) :
    p.percapconv_share t r = Spec.perCapita p t r := by
  have e : p.percapconv_year_num = p.year 0 := by simp [Params.percapconv_year_num, hc]
  unfold Params.percapconv_share
  simp only [e, if_true]; rfl
example := C43_immediate (p := Ex.ex "per_cap_convergence" 0 (some 2020)) (by norm_num [Ex.ex, Params.year]) 2 "A"

/-- Shares are non-negative (non-negative baseline emissions in the first year and populations). -/
theorem C43_shares_nonneg {c : ℝ} (hc : p.percapconv_year = some c) (h0 : p.year 0 ≤ c) (hdt : 0 ≤ p.dt)
    {t : ℕ} {r : String} (hr : r ∈ p.regions) (hE : ∀ s ∈ p.regions, 0 ≤ p.baseline_emissions 0 s)
    (hP : ∀ s ∈ p.regions, 0 ≤ p.population t s) : 0 ≤ p.percapconv_share t r := by
  have g : 0 ≤ Spec.grandfathering p r := div_nonneg (hE r hr) (sumR_nonneg hE)
  have q : 0 ≤ Spec.perCapita p t r := div_nonneg (hP r hr) (sumR_nonneg hP)
  rcases h0.eq_or_lt with h0 | h0
  · rw [C43_immediate (by rw [hc, h0])]; exact q
  · obtain ⟨_, h2, h3⟩ := C43_interpolation hc h0 t r
    rcases le_total c (p.year t) with h | h
    · rw [h2 h]; exact q
    · rw [h3 h]
      have : p.year 0 ≤ p.year t := by
        simp only [Params.year]; push_cast; nlinarith [mul_nonneg (Nat.cast_nonneg (α := ℝ) t) hdt]
      have a : 0 ≤ (c - p.year t) / (c - p.year 0) := div_nonneg (by linarith) (by linarith)
      have b : 0 ≤ (p.year t - p.year 0) / (c - p.year 0) := div_nonneg (by linarith) (by linarith)
      positivity
example := C43_shares_nonneg (p := Ex.pCap) (c := 2050) rfl (by norm_num [Ex.ex, Params.year]) (by norm_num [Ex.ex]) (t := 2) (r := "A")
  (by simp [Ex.ex]) (by simp [Ex.ex]) (by simp [Ex.ex])

/-- In any solution with this regime the allowances are share × global emissions, up to 0.001, in every year
after the first. -/
theorem C43_allowances (h : Solution md p σ) (hg : p.effort_sharing_regime = "per_cap_convergence") {t : ℕ}
    (ht : t ≤ p.tf) (h0 : 0 < t) {r : String} (hr : r ∈ p.regions) :
    |σ.R .regional_emission_allowances t r - p.percapconv_share t r * σ.G .global_emissions t| ≤ 0.001 := by
  obtain ⟨t, rfl⟩ := Nat.exists_eq_succ_of_ne_zero h0.ne'
  have := h.eqs.effort.percap t ht r hr hg
  rw [abs_le]
  constructor <;> linarith [this.1, this.2]

/-- The documentation says that with `percapconv_year = False` grandfathering is used all the time.  What the
code does instead: shares start at grandfathering, but then move *away* from the population shares.  (This is
the part that holds, and the exact value; the documented claim is refuted below.) -/
theorem C43_false_partial (hc : p.percapconv_year = none) (hy : 0 < p.year 0) (hdt : 0 ≤ p.dt) (t : ℕ)
    (r : String) :
    (t = 0 → p.percapconv_share t r = Spec.grandfathering p r) ∧
    p.percapconv_share t r = Spec.grandfathering p r +
      (p.year t - p.year 0) / p.year 0 * (Spec.grandfathering p r - Spec.perCapita p t r) := by
  have e : p.percapconv_year_num = 0 := by simp [Params.percapconv_year_num, hc]
  have hs : p.percapconv_share t r = min ((p.year t - p.year 0) / (0 - p.year 0)) 1 * Spec.perCapita p t r
      + max (1 - (p.year t - p.year 0) / (0 - p.year 0)) 0 * Spec.grandfathering p r := by
    unfold Params.percapconv_share
    simp only [e, hy.ne, if_false]; rfl
  have hge : p.year 0 ≤ p.year t := by
    simp only [Params.year]; push_cast; nlinarith [mul_nonneg (Nat.cast_nonneg (α := ℝ) t) hdt]
  have hle : (p.year t - p.year 0) / (0 - p.year 0) ≤ 0 :=
    div_nonpos_of_nonneg_of_nonpos (by linarith) (by linarith)
  have main : p.percapconv_share t r = Spec.grandfathering p r +
      (p.year t - p.year 0) / p.year 0 * (Spec.grandfathering p r - Spec.perCapita p t r) := by
    rw [hs, min_eq_left (by linarith), max_eq_left (by linarith)]
    have : 0 - p.year 0 = -p.year 0 := by ring
    rw [this, div_neg]; ring
  refine ⟨?_, main⟩
  rintro rfl
  rw [main]; simp
example := C43_false_partial (p := Ex.ex "per_cap_convergence" 0 none) rfl (by norm_num [Ex.ex, Params.year]) (by norm_num [Ex.ex]) 2 "A"

/-- The documented behaviour with `percapconv_year = False` fails: there are data for which a region's share in
a later year is not its grandfathering share. -/
theorem C43_false_is_not_grandfathering : ∃ (p : Params) (t : ℕ) (r : String), t ≤ p.tf ∧ r ∈ p.regions ∧
    p.percapconv_year = none ∧ p.Admissible ∧ p.percapconv_share t r ≠ Spec.grandfathering p r := by
  let p : Params := { Ex.ex "per_cap_convergence" 0 none with
    population := fun _ r => if r = "A" then 1 else 3 }
  refine ⟨p, 1, "A", by decide, by simp [p, Ex.ex], rfl, ?_, ?_⟩
  · have ha := Ex.admissible (regime := "per_cap_convergence") (conv := none) (al := 0) le_rfl one_pos
    have hp : ∀ r : String, 0 < (if r = "A" then (1 : ℝ) else 3) := fun r => by split <;> norm_num
    exact { ha with pop_pos := fun t _ r _ => hp r }
  · rw [(C43_false_partial rfl (by simp [p, Params.year, Ex.ex]) (by simp [p, Ex.ex]) 1 "A").2]
    simp [p, Spec.grandfathering, Spec.perCapita, Params.year, Ex.ex]
    norm_num

example (t : ℕ) (ht : t ≤ 3) (h0 : 0 < t) : let σ := Ex.xCap.env Ex.mdCap Ex.pCap
    |σ.R .regional_emission_allowances t "A" - Ex.pCap.percapconv_share t "A" * σ.G .global_emissions t|
      ≤ 0.001 := C43_allowances Ex.solCap rfl ht h0 (by simp [Ex.ex])

end Mimosa
