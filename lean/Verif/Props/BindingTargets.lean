import Verif.Props.CostEffective

/-!
# C75: the targets bind

The policy scaled down a little (`Scaled`) is cheaper for the world.  Without trade every region then pays less; with
emission trade the payments can be chosen such that no region pays more.  Without damages an optimum that abates
therefore meets one of its targets with equality.
-/

namespace Mimosa
variable {md : Modules} {p : Params} {σ τ : Env}

/-- The setting of C75: no transfers or effort sharing, with or without emission trade, exogenous baseline, no damages, an ordinary abatement
cost curve, and limits (apart from the targets) that the baseline respects. -/
structure Spec.CostEffectiveness (md : Modules) (p : Params) : Prop where
  policy : Spec.UnsharedPolicy md p
  no_damages : md.damage = .nodamage
  exogenous : p.use_carbon_intensity_for_baseline = false
  mac : Spec.MacData p
  learning : Spec.ModestLearning p
  baseline : Spec.BaselineAllowed p
  T0_nonneg : 0 ≤ p.T0
  TCRE_nonneg : 0 ≤ p.TCRE

/-- The targets hold for the mixture of `l` parts of the policy and `1 - l` parts of the baseline. -/
structure Spec.MixtureAllowed (p : Params) (σ : Env) (l : ℝ) : Prop where
  target : ∀ T, p.temperature_target = some T → ∀ t ≤ p.tf, 2100 ≤ p.year t →
    l * σ.G .temperature t + (1 - l) * Spec.pathTemperature p (fun _ _ => 0) t ≤ T
  budget : ∀ b, p.budget = some b → ∀ t ≤ p.tf, 2100 ≤ p.year t →
    l * σ.G .cumulative_emissions t + (1 - l) * Spec.pathCumulative p (fun _ _ => 0) t ≤ b
  net_zero : p.budget ≠ none → p.no_pos_emissions_after_budget_year = true → ∀ t ≤ p.tf, 2100 ≤ p.year t →
    l * σ.G .global_emissions t + (1 - l) * (p.regions.map fun r => p.baseline_emissions t r).sum ≤ 0

/-- One of the targets is attained exactly, in a model year from 2100 on. -/
def Spec.TargetAttained (p : Params) (σ : Env) : Prop :=
  ∃ t ≤ p.tf, 2100 ≤ p.year t ∧
    ((∃ T, p.temperature_target = some T ∧ σ.G .temperature t = T) ∨
     (∃ b, p.budget = some b ∧ σ.G .cumulative_emissions t = b) ∨
     (p.budget ≠ none ∧ p.no_pos_emissions_after_budget_year = true ∧ σ.G .global_emissions t = 0))

namespace Scaled
variable {l : ℝ} {bal : ℕ → String → ℝ}

/-- Targets that are not attained leave room to abate a little less. -/
theorem slack (hrev : 1 ≤ p.perc_reversible_damages) (h : Solution md p σ) (hno : ¬ Spec.TargetAttained p σ) :
    ∃ l, 0 < l ∧ l < 1 ∧ Spec.MixtureAllowed p σ l := by
  have e := h.eqs.emissions
  -- the strict inequalities survive a small change of `l`
  have aff : ∀ (u v w : ℝ), u < w → ∀ᶠ l in nhdsWithin (1 : ℝ) (Set.Iio 1), l * u + (1 - l) * v ≤ w := by
    intro u v w hu
    have hcont : Filter.Tendsto (fun l : ℝ => l * u + (1 - l) * v) (nhdsWithin 1 (Set.Iio 1)) (nhds u) := by
      have : Continuous fun l : ℝ => l * u + (1 - l) * v := by fun_prop
      have h1 := this.tendsto 1
      simp only [one_mul, sub_self, zero_mul, add_zero] at h1
      exact h1.mono_left nhdsWithin_le_nhds
    exact (hcont.eventually (gt_mem_nhds hu)).mono fun l hl => le_of_lt hl
  have all : ∀ P : ℕ → ℝ → Prop, (∀ t ≤ p.tf, ∀ᶠ l in nhdsWithin (1 : ℝ) (Set.Iio 1), P t l) →
      ∀ᶠ l in nhdsWithin (1 : ℝ) (Set.Iio 1), ∀ t ≤ p.tf, P t l := by
    intro P hP
    have : ∀ᶠ l in nhdsWithin (1 : ℝ) (Set.Iio 1), ∀ t ∈ Finset.range (p.tf + 1), P t l :=
      (Filter.eventually_all_finset _).2 fun t ht => hP t (by simpa [Nat.lt_succ_iff] using ht)
    exact this.mono fun l hl t ht => hl t (by simpa [Nat.lt_succ_iff] using ht)
  have q1 := all (fun t l => ∀ T, p.temperature_target = some T → 2100 ≤ p.year t →
      l * σ.G .temperature t + (1 - l) * Spec.pathTemperature p (fun _ _ => 0) t ≤ T) (by
    intro t ht
    by_cases hy : 2100 ≤ p.year t
    · cases hT : p.temperature_target with
      | none => exact Filter.Eventually.of_forall fun l T hT => by cases hT
      | some T =>
        have hlt : σ.G .temperature t < T := lt_of_le_of_ne (e.temperature_target t ht T hT hy) fun heq =>
          hno ⟨t, ht, hy, .inl ⟨T, hT, heq⟩⟩
        exact (aff _ _ _ hlt).mono fun l hl T' hT' _ => by cases hT'; exact hl
    · exact Filter.Eventually.of_forall fun l T _ hy' => absurd hy' hy)
  have q2 := all (fun t l => ∀ b, p.budget = some b → 2100 ≤ p.year t →
      l * σ.G .cumulative_emissions t + (1 - l) * Spec.pathCumulative p (fun _ _ => 0) t ≤ b) (by
    intro t ht
    by_cases hy : 2100 ≤ p.year t
    · cases hb : p.budget with
      | none => exact Filter.Eventually.of_forall fun l b hb => by cases hb
      | some b =>
        have hle : σ.G .cumulative_emissions t ≤ b := by
          have := e.budget t ht b hb hy
          rw [if_neg (not_lt.2 hrev)] at this
          linarith
        have hlt : σ.G .cumulative_emissions t < b := lt_of_le_of_ne hle fun heq =>
          hno ⟨t, ht, hy, .inr (.inl ⟨b, hb, heq⟩)⟩
        exact (aff _ _ _ hlt).mono fun l hl b' hb' _ => by cases hb'; exact hl
    · exact Filter.Eventually.of_forall fun l b _ hy' => absurd hy' hy)
  have q3 := all (fun t l => p.budget ≠ none → p.no_pos_emissions_after_budget_year = true → 2100 ≤ p.year t →
      l * σ.G .global_emissions t + (1 - l) * (p.regions.map fun r => p.baseline_emissions t r).sum ≤ 0) (by
    intro t ht
    by_cases hy : p.budget ≠ none ∧ p.no_pos_emissions_after_budget_year = true ∧ 2100 ≤ p.year t
    · have hlt : σ.G .global_emissions t < 0 := lt_of_le_of_ne (e.net_zero t ht hy.2.2 hy.2.1 hy.1) fun heq =>
        hno ⟨t, ht, hy.2.2, .inr (.inr ⟨hy.1, hy.2.1, heq⟩)⟩
      exact (aff _ _ _ hlt).mono fun l hl _ _ _ => hl
    · exact Filter.Eventually.of_forall fun l h1 h2 h3 => absurd ⟨h1, h2, h3⟩ hy)
  have q4 : ∀ᶠ l in nhdsWithin (1 : ℝ) (Set.Iio 1), 0 < l :=
    (lt_mem_nhds (by norm_num : (0 : ℝ) < 1)).filter_mono nhdsWithin_le_nhds
  have q5 : ∀ᶠ l in nhdsWithin (1 : ℝ) (Set.Iio 1), l < 1 := self_mem_nhdsWithin
  obtain ⟨l, ⟨⟨⟨l1, l2⟩, l3⟩, l4⟩, l5⟩ := ((((q1.and q2).and q3).and q4).and q5).exists
  exact ⟨l, l4, l5, ⟨fun T hT t ht hy => l1 t ht T hT hy, fun b hb t ht hy => l2 t ht b hb hy,
    fun hb hn t ht hy => l3 t ht hb hn hy⟩⟩

section
variable (hadm : p.Admissible) (hc : Spec.CostEffectiveness md p) (h : Solution md p σ) (h0 : 0 < l) (h1 : l ≤ 1)
include hadm hc h

theorem capital (hK : Spec.CostsBelowCapital p σ)
    (hle : ∀ t ≤ p.tf, 0 < t → ∀ r ∈ p.regions, (x l σ bal).cost md p t r ≤ σ.R .mitigation_costs t r)
    {t : ℕ} (ht : t ≤ p.tf) {r : String} (hr : r ∈ p.regions) :
    σ.R .capital_stock t r ≤ (x l σ bal).K md p t r := by
  induction t with
  | zero => rw [h.eqs.economy.capital_init r hr]; exact le_rfl
  | succ t ih =>
    have hle' := ih (by omega)
    have hA : (0 : ℝ) < 2 - (1 - p.dk) ^ p.dt := by linarith [dk_pow_le hadm]
    have e := h.capital_eq hadm ht hr
    have n := NoAbate.net_eq (.inl hc.no_damages) h ht hr
    have g := (h.eqs.economy.gross t ht r hr).2
    have e' := (x l σ bal).K_step md p hadm rfl t r
    have hds : 0 ≤ p.dt * p.sr := mul_nonneg hadm.dt_pos.le hadm.sr_nonneg
    have hcc := mul_le_mul_of_nonneg_left (hle (t + 1) ht (Nat.succ_pos t) r hr) hds
    have hd : (x l σ bal).dam md p (t + 1) r = 0 := by unfold Drivers.dam; rw [hc.no_damages]
    unfold Drivers.CapStep Drivers.netOf Drivers.grossOf Drivers.transfer at e'
    rw [hc.policy.transfer, hd] at e'
    simp only [sub_zero, ite_self] at e'
    set F := get_TFP_value p (t + 1) r * p.population (t + 1) r ^ (1 - p.alpha) with hFd
    refine capital_le (A := 2 - (1 - p.dk) ^ p.dt)
      (B := σ.R .capital_stock t r - p.dt * p.sr * σ.R .mitigation_costs (t + 1) r)
      (B' := (x l σ bal).K md p t r - p.dt * p.sr * (x l σ bal).cost md p (t + 1) r)
      (C := p.dt * p.sr * F) (C' := p.dt * p.sr * F)
      hA ?_ hadm.alpha_nonneg hadm.alpha_lt (by linarith) le_rfl ?_ ?_
    · have := hK t ht r hr; linarith
    · rw [e, n, g]; ring
    · have hdt := hadm.dt_pos.ne'
      have e2 : p.dt * (((1 - p.dk) ^ p.dt - 1) / p.dt * (x l σ bal).K md p (t + 1) r) =
          ((1 - p.dk) ^ p.dt - 1) * (x l σ bal).K md p (t + 1) r := by field_simp
      rw [mul_add, e2] at e'
      linarith

theorem gross (hK : Spec.CostsBelowCapital p σ)
    (hle : ∀ t ≤ p.tf, 0 < t → ∀ r ∈ p.regions, (x l σ bal).cost md p t r ≤ σ.R .mitigation_costs t r)
    {t : ℕ} (ht : t ≤ p.tf) {r : String} (hr : r ∈ p.regions) :
    σ.R .GDP_gross t r ≤ (x l σ bal).gross md p t r := by
  unfold Drivers.gross
  cases t with
  | zero => rw [h.eqs.economy.gross_init r hr]; simp
  | succ t =>
    have hKK := capital hadm hc h hK hle ht hr
    rw [(h.eqs.economy.gross t ht r hr).2, if_neg (by omega)]
    unfold Drivers.grossOf
    have hF : 0 < get_TFP_value p (t + 1) r * p.population (t + 1) r ^ (1 - p.alpha) :=
      mul_pos (tfp_pos hadm ht hr) (Real.rpow_pos_of_pos (hadm.pop_pos (t + 1) ht r hr) _)
    refine mul_le_mul_of_nonneg_left ?_ hF.le
    exact Real.rpow_le_rpow (soft_min_pos_ten _).le ((soft_min_strictMono (by norm_num)).monotone hKK) hadm.alpha_nonneg

include h0 h1
/-- Without trade. -/
theorem notrade (htr : md.trade = .notrade) (hm : Spec.MixtureAllowed p σ l) :
    ∃ τ, Solution md p τ ∧ ∀ t ≤ p.tf, ∀ r ∈ p.regions,
      τ.R .relative_abatement t r = l * σ.R .relative_abatement t r ∧
      0 ≤ τ.R .mitigation_costs t r ∧ τ.R .mitigation_costs t r ≤ l * σ.R .mitigation_costs t r := by
  set b0 : ℕ → String → ℝ := fun _ _ => 0 with hb0
  have pr := fun {t} (ht : t ≤ p.tf) {r} (hr : r ∈ p.regions) =>
    price_le (bal := b0) h hc.exogenous hadm hc.learning hc.mac hc.policy.baseline h0 h1 ht hr
  have ec : ∀ t r, (x l σ b0).cost md p t r = (x l σ b0).area p t r := by
    intro t r
    unfold Drivers.cost Drivers.balance
    rw [htr]; exact add_zero _
  have o : (x l σ b0).Ok md p := by
    refine ok h hc.exogenous hadm hc.learning hc.mac hc.policy hc.baseline hc.no_damages hc.T0_nonneg hc.TCRE_nonneg
      h0 h1 hm.target hm.budget hm.net_zero h.trade_ne (fun hh => by rw [htr] at hh; cases hh) fun t ht r hr => ?_
    have hg := (x l σ b0).gross_pos md p hadm ht hr
    have := div_nonneg ((pr ht hr).2.2.1.trans_eq (ec t r).symm) hg.le
    have := hc.policy.cost_floor
    split <;> linarith
  refine ⟨_, Drivers.build_solution hadm o, fun t ht r hr => ?_⟩
  obtain ⟨-, -, q1, q2⟩ := pr ht hr
  have e1 : ((x l σ b0).env md p).R .mitigation_costs t r = (x l σ b0).area p t r := ec t r
  have e2 : σ.R .mitigation_costs t r = σ.R .area_under_MAC t r := by
    rw [(h.eqs.mitigation.mitigation_costs t ht r hr).2, (h.eqs.mitigation.area t ht r hr).2, htr]
    exact add_zero _
  rw [e1, e2]
  refine ⟨?_, q1, q2⟩
  show (x l σ b0).a t r = _
  unfold x
  dsimp only
  rcases Nat.eq_zero_or_pos t with rfl | hpos
  · rw [(C32_no_abatement h hc.mac hr).1]; simp
  · rw [if_neg (by omega)]

/-- With emission trade: payments such that nobody pays more. -/
theorem traded (htr : md.trade = .emissiontrade) (hK : Spec.CostsBelowCapital p σ) (hm : Spec.MixtureAllowed p σ l) :
    ∃ τ, Solution md p τ ∧
      (∀ t ≤ p.tf, ∀ r ∈ p.regions, τ.R .relative_abatement t r = l * σ.R .relative_abatement t r) ∧
      (∀ t ≤ p.tf, 0 < t → ∀ r ∈ p.regions, τ.R .mitigation_costs t r ≤ σ.R .mitigation_costs t r) ∧
      ∀ t ≤ p.tf, 0 < t → 0 ≤ (p.sumR fun r => τ.R .mitigation_costs t r) ∧
        (p.sumR fun r => τ.R .mitigation_costs t r) ≤ l * p.sumR fun r => σ.R .mitigation_costs t r := by
  have hnp := h.trade_ne
  set b0 : ℕ → String → ℝ := fun _ _ => 0 with hb0
  have pr := fun {t} (ht : t ≤ p.tf) {r} (hr : r ∈ p.regions) =>
    price_le (bal := b0) h hc.exogenous hadm hc.learning hc.mac hc.policy.baseline h0 h1 ht hr
  set A : ℕ → ℝ := fun t => p.sumR fun r => (x l σ b0).area p t r with hA
  set bal : ℕ → String → ℝ := fun t r => Shift.pays p σ (A t) t r - (x l σ b0).area p t r with hbal
  have earea : ∀ t r, (x l σ bal).area p t r = (x l σ b0).area p t r := fun t r => by
    have hgE : ∀ t, (x l σ bal).gE p t = (x l σ b0).gE p t := fun t => rfl
    have hcum : ∀ t, (x l σ bal).cum p t = (x l σ b0).cum p t := by
      intro t
      induction t with
      | zero => rfl
      | succ t ih => rw [Drivers.cum, Drivers.cum, ih, hgE, hgE]
    unfold Drivers.area Drivers.learn Drivers.lbd
    rw [hcum]; rfl
  have A0 : ∀ t ≤ p.tf, 0 ≤ A t := fun t ht =>
    sumR_zero.symm.le.trans (sumR_le (p := p) (f := fun _ => 0) fun r hr => (pr ht hr).2.2.1)
  have A2 : ∀ t ≤ p.tf, A t ≤ l * p.sumR fun r => σ.R .mitigation_costs t r := fun t ht => by
    rw [Shift.sum_costs hnp h ht, ← sumR_mul_left]
    exact sumR_le (p := p) fun r hr => (pr ht hr).2.2.2
  have A1 : ∀ t ≤ p.tf, A t ≤ p.sumR fun r => σ.R .mitigation_costs t r := fun t ht =>
    (A2 t ht).trans (mul_le_of_le_one_left (nonneg_of_mul_nonneg_right ((A0 t ht).trans (A2 t ht)) h0) h1)
  have cost_pos : ∀ t, 0 < t → ∀ r, (x l σ bal).cost md p t r = Shift.pays p σ (A t) t r := by
    intro t hpos r
    unfold Drivers.cost Drivers.balance
    rw [earea, htr]
    show _ + (if t = 0 then 0 else bal t r) = _
    rw [if_neg (by omega), hbal]; ring
  have cost_zero : ∀ r, (x l σ bal).cost md p 0 r = 0 := by
    intro r
    have : (p.MAC_beta + 1) ≠ 0 := by linarith [hadm.beta_pos]
    unfold Drivers.cost Drivers.balance Drivers.area
    rw [htr]
    have ea : (x l σ bal).a 0 r = 0 := by simp [x]
    have eb : (x l σ bal).bal 0 r = 0 := by simp [x]
    rw [ea]
    show _ * (0 : ℝ) ^ (p.MAC_beta + 1) / _ * _ + (x l σ bal).bal 0 r = 0
    rw [eb, Real.zero_rpow this]; simp
  have hle : ∀ t ≤ p.tf, 0 < t → ∀ r ∈ p.regions, (x l σ bal).cost md p t r ≤ σ.R .mitigation_costs t r := by
    intro t ht hpos r hr
    rw [cost_pos t hpos r]
    exact Shift.pays_le (A0 t ht) (A1 t ht) r
  have hg := fun {t} (ht : t ≤ p.tf) {r} (hr : r ∈ p.regions) => gross hadm hc h hK hle ht hr
  have o : (x l σ bal).Ok md p := by
    refine ok h hc.exogenous hadm hc.learning hc.mac hc.policy hc.baseline hc.no_damages hc.T0_nonneg hc.TCRE_nonneg
      h0 h1 hm.target hm.budget hm.net_zero hnp (fun _ t ht _ => ?_) fun t ht r hr => ?_
    · have e : p.sumR (bal t) = p.sumR (Shift.pays p σ (A t) t) + -1 * A t := by
        rw [hA, ← sumR_mul_left, ← sumR_add]
        exact sumR_congr fun r _ => by simp only [hbal]; ring
      rw [e, Shift.pays_sum (A0 t ht) (A1 t ht)]; ring
    · rcases Nat.eq_zero_or_pos t with rfl | hpos
      · rw [cost_zero r]; simp
      · rw [if_pos hpos, cost_pos t hpos r]
        have g0 := h.gross_pos hadm ht hr
        have g1 := hg ht hr
        have fl := h.eqs.mitigation.rel_costs_min t ht r hr
        rw [if_pos hpos, (h.eqs.mitigation.rel_costs t ht r hr).2, le_div_iff₀ g0] at fl
        rw [le_div_iff₀ (g0.trans_le g1)]
        refine le_trans ?_ (Shift.pays_ge (A0 t ht) (A1 t ht) r)
        have hf := hc.policy.cost_floor
        refine le_min ?_ (mul_nonpos_of_nonpos_of_nonneg hf (g0.le.trans g1))
        exact (mul_le_mul_of_nonpos_left g1 hf).trans fl
  refine ⟨_, Drivers.build_solution hadm o, fun t ht r hr => ?_, fun t ht hpos r hr => hle t ht hpos r hr,
    fun t ht hpos => ?_⟩
  · show (x l σ bal).a t r = _
    unfold x
    dsimp only
    rcases Nat.eq_zero_or_pos t with rfl | hpos
    · rw [(C32_no_abatement h hc.mac hr).1]; simp
    · rw [if_neg (by omega)]
  · have e : (p.sumR fun r => ((x l σ bal).env md p).R .mitigation_costs t r) = A t := by
      rw [← Shift.pays_sum (A0 t ht) (A1 t ht)]
      exact sumR_congr fun r _ => cost_pos t hpos r
    rw [e]
    exact ⟨A0 t ht, A2 t ht⟩
end
end Scaled

/-- **C75.** The fraction `l` of a policy is a policy too, if the targets hold for the mixture of `l` parts of the
policy and `1 - l` parts of the baseline; no region has higher costs, the world's costs fall at least in proportion (with
emission trade for suitable payments between regions; without trade every region's costs fall in proportion), and the
outcome is better, strictly so if there were costs to save. -/
theorem C75_scaled_down (hadm : p.Admissible) (hc : Spec.CostEffectiveness md p) (hsr : p.sr < 1)
    (h : Solution md p σ) (hK : Spec.CostsBelowCapital p σ) {l : ℝ} (h0 : 0 < l) (h1 : l ≤ 1)
    (hm : Spec.MixtureAllowed p σ l) :
    ∃ τ, Solution md p τ ∧
      (∀ t ≤ p.tf, ∀ r ∈ p.regions, τ.R .relative_abatement t r = l * σ.R .relative_abatement t r) ∧
      (∀ t ≤ p.tf, 0 < t → (∀ r ∈ p.regions, τ.R .mitigation_costs t r ≤ σ.R .mitigation_costs t r) ∧
        0 ≤ (p.regions.map fun r => τ.R .mitigation_costs t r).sum ∧
        (p.regions.map fun r => τ.R .mitigation_costs t r).sum ≤ l * (p.regions.map fun r => σ.R .mitigation_costs t r).sum) ∧
      (md.trade = .notrade → ∀ t ≤ p.tf, ∀ r ∈ p.regions, 0 ≤ τ.R .mitigation_costs t r ∧
        τ.R .mitigation_costs t r ≤ l * σ.R .mitigation_costs t r) ∧
      Spec.objectiveValue md p σ ≤ Spec.objectiveValue md p τ ∧
      (l < 1 → (∃ t ≤ p.tf, 0 < t ∧ 0 < (p.regions.map fun r => σ.R .mitigation_costs t r).sum) →
        Spec.objectiveValue md p σ < Spec.objectiveValue md p τ) := by
  have key : ∃ τ, Solution md p τ ∧
      (∀ t ≤ p.tf, ∀ r ∈ p.regions, τ.R .relative_abatement t r = l * σ.R .relative_abatement t r) ∧
      (∀ t ≤ p.tf, 0 < t → (∀ r ∈ p.regions, τ.R .mitigation_costs t r ≤ σ.R .mitigation_costs t r) ∧
        0 ≤ (p.sumR fun r => τ.R .mitigation_costs t r) ∧
        (p.sumR fun r => τ.R .mitigation_costs t r) ≤ l * p.sumR fun r => σ.R .mitigation_costs t r) ∧
      (md.trade = .notrade → ∀ t ≤ p.tf, ∀ r ∈ p.regions, 0 ≤ τ.R .mitigation_costs t r ∧
        τ.R .mitigation_costs t r ≤ l * σ.R .mitigation_costs t r) := by
    cases htr : md.trade with
    | globalcostpool => exact absurd htr h.trade_ne
    | emissiontrade =>
      obtain ⟨τ, hτ, q1, q2, q3⟩ := Scaled.traded hadm hc h h0 h1 htr hK hm
      exact ⟨τ, hτ, q1, fun t ht hpos => ⟨q2 t ht hpos, q3 t ht hpos⟩, fun hh => by cases hh⟩
    | notrade =>
      obtain ⟨τ, hτ, q⟩ := Scaled.notrade hadm hc h h0 h1 htr hm
      refine ⟨τ, hτ, fun t ht r hr => (q t ht r hr).1, fun t ht hpos => ⟨fun r hr => ?_, ?_, ?_⟩, fun _ t ht r hr =>
        (q t ht r hr).2⟩
      · obtain ⟨-, q1, q2⟩ := q t ht r hr
        exact q2.trans (mul_le_of_le_one_left (nonneg_of_mul_nonneg_right (q1.trans q2) h0) h1)
      · exact sumR_zero.symm.le.trans (sumR_le (p := p) (f := fun _ => 0) fun r hr => (q t ht r hr).2.1)
      · rw [← sumR_mul_left]
        exact sumR_le fun r hr => (q t ht r hr).2.2
  obtain ⟨τ, hτ, q1, q2, q3⟩ := key
  have better := C75_lower_costs_better hadm ⟨fun _ => .inl hc.no_damages, fun _ => hc.no_damages⟩ hsr h hτ hK
    fun t ht hpos r hr => (q2 t ht hpos).1 r hr
  refine ⟨τ, hτ, q1, q2, q3, better.1, ?_⟩
  rintro hl ⟨t, ht, hpos, hcost⟩
  refine better.2 ⟨t, ht, hpos, ?_⟩
  by_contra hno
  push Not at hno
  have s1 := sumR_le (p := p) hno
  have s2 := (q2 t ht hpos).2.2
  have s3 : l * (p.sumR fun r => σ.R .mitigation_costs t r) < p.sumR fun r => σ.R .mitigation_costs t r :=
    mul_lt_of_lt_one_left hcost hl
  exact absurd (s1.trans s2) (not_le.2 s3)

/-- **C75.** Without damages the optimum abates no more than the targets require: if the world has any abatement costs at
all, then the temperature target, the carbon budget or the net-zero requirement holds with equality in some year. -/
theorem C75_target_binds (hadm : p.Admissible) (hc : Spec.CostEffectiveness md p) (hsr : p.sr < 1)
    (h : Optimal md p σ) (hK : Spec.CostsBelowCapital p σ)
    (hcost : ∃ t ≤ p.tf, 0 < t ∧ 0 < (p.regions.map fun r => σ.R .mitigation_costs t r).sum) :
    Spec.TargetAttained p σ := by
  by_contra hno
  obtain ⟨l, l0, l1, hm⟩ := Scaled.slack hc.policy.reversible h.1 hno
  obtain ⟨τ, hτ, -, -, -, -, hbetter⟩ := C75_scaled_down hadm hc hsr h.1 hK l0 l1.le hm
  exact absurd (hbetter l1 hcost) (not_lt.2 (h.best hτ))

/-- **C75.** In particular, with a carbon budget only: an optimum that abates spends the whole budget. -/
theorem C75_budget_spent (hadm : p.Admissible) (hc : Spec.CostEffectiveness md p) (hsr : p.sr < 1)
    (h : Optimal md p σ) (hK : Spec.CostsBelowCapital p σ)
    (hcost : ∃ t ≤ p.tf, 0 < t ∧ 0 < (p.regions.map fun r => σ.R .mitigation_costs t r).sum) {b : ℝ} (hb : p.budget = some b)
    (hT : p.temperature_target = none) (hn : p.no_pos_emissions_after_budget_year = false) :
    ∃ t ≤ p.tf, 2100 ≤ p.year t ∧ σ.G .cumulative_emissions t = b := by
  obtain ⟨t, ht, hy, ⟨T, h1, -⟩ | ⟨b', h1, h2⟩ | ⟨-, h1, -⟩⟩ := C75_target_binds hadm hc hsr h hK hcost
  · rw [hT] at h1; cases h1
  · rw [hb] at h1; cases h1; exact ⟨t, ht, hy, h2⟩
  · rw [hn] at h1; cases h1

end Mimosa
