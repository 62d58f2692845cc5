import Verif.Props.Optimum
import Verif.Props.Milder

/-!
# C75: without damages no more is abated than the limits require

If damages do not count, abatement has no benefit; so if the optimum abates at all, one of the limits (temperature
target, carbon budget, net-zero requirement) holds with equality.  The comparison is with the same policy scaled down a
little: it is a solution too, as long as the limits allow it, and it is cheaper, even though less is learned by doing.
-/

namespace Mimosa
variable {md : Modules} {p : Params} {σ τ : Env}

/-- Damages do not enter the objective. -/
structure Spec.DamagesDoNotCount (md : Modules) (p : Params) : Prop where
  utility : md.objective = .utility → md.damage = .nodamage ∨ (p.ignore_damages = true ∧ md.transfer = .notransfer)
  globalcosts : md.objective = .globalcosts → md.damage = .nodamage

/-- The savings for one step's abatement costs do not use up the capital stock. -/
def Spec.CostsBelowCapital (p : Params) (σ : Env) : Prop :=
  ∀ t < p.tf, ∀ r ∈ p.regions, p.dt * (p.sr * σ.R .mitigation_costs (t + 1) r) < σ.R .capital_stock t r

namespace Cheaper
section
variable (hadm : p.Admissible)
    (hnd : md.damage = .nodamage ∨ (p.ignore_damages = true ∧ md.transfer = .notransfer))
    (h : Solution md p σ) (h' : Solution md p τ) (hK : Spec.CostsBelowCapital p σ)
    (hc : ∀ t ≤ p.tf, 0 < t → ∀ r ∈ p.regions, τ.R .mitigation_costs t r ≤ σ.R .mitigation_costs t r)
include hadm hnd h h' hK hc

theorem capital {r : String} (hr : r ∈ p.regions) :
    ∀ {t : ℕ}, t ≤ p.tf → σ.R .capital_stock t r ≤ τ.R .capital_stock t r := by
  intro t
  induction t with
  | zero =>
    intro _
    rw [h.eqs.economy.capital_init r hr, h'.eqs.economy.capital_init r hr]
  | succ t ih =>
    intro ht
    have hle := ih (by omega)
    have hA : (0 : ℝ) < 2 - (1 - p.dk) ^ p.dt := by linarith [dk_pow_le hadm]
    have e := h.capital_eq hadm ht hr
    have e' := h'.capital_eq hadm ht hr
    have n := NoAbate.net_eq hnd h ht hr
    have n' := NoAbate.net_eq hnd h' ht hr
    have g := (h.eqs.economy.gross t ht r hr).2
    have g' := (h'.eqs.economy.gross t ht r hr).2
    have hds : 0 ≤ p.dt * p.sr := mul_nonneg hadm.dt_pos.le hadm.sr_nonneg
    have hcc := mul_le_mul_of_nonneg_left (hc (t + 1) ht (Nat.succ_pos t) r hr) hds
    set F := get_TFP_value p (t + 1) r * p.population (t + 1) r ^ (1 - p.alpha) with hFd
    refine capital_le (A := 2 - (1 - p.dk) ^ p.dt)
      (B := σ.R .capital_stock t r - p.dt * p.sr * σ.R .mitigation_costs (t + 1) r)
      (B' := τ.R .capital_stock t r - p.dt * p.sr * τ.R .mitigation_costs (t + 1) r)
      (C := p.dt * p.sr * F) (C' := p.dt * p.sr * F)
      hA ?_ hadm.alpha_nonneg hadm.alpha_lt (by linarith) le_rfl ?_ ?_
    · have := hK t ht r hr; linarith
    · rw [e, n, g]; ring
    · rw [e', n', g']; ring

theorem gross {t : ℕ} (ht : t ≤ p.tf) {r : String} (hr : r ∈ p.regions) :
    σ.R .GDP_gross t r ≤ τ.R .GDP_gross t r := by
  cases t with
  | zero => rw [h.eqs.economy.gross_init r hr, h'.eqs.economy.gross_init r hr]
  | succ t =>
    have hKK := capital hadm hnd h h' hK hc hr ht
    rw [(h.eqs.economy.gross t ht r hr).2, (h'.eqs.economy.gross t ht r hr).2]
    have hgp := h.gross_pos hadm ht hr
    rw [(h.eqs.economy.gross t ht r hr).2] at hgp
    have hF : 0 < get_TFP_value p (t + 1) r * p.population (t + 1) r ^ (1 - p.alpha) :=
      (mul_pos_iff_of_pos_right (Real.rpow_pos_of_pos (soft_min_pos_ten _) _)).1 hgp
    refine mul_le_mul_of_nonneg_left ?_ hF.le
    exact Real.rpow_le_rpow (soft_min_pos_ten _).le ((soft_min_strictMono (by norm_num)).monotone hKK) hadm.alpha_nonneg
end
end Cheaper

/-- **C75.** When damages do not count, a solution with lower abatement costs everywhere has at least the consumption
of the other, in every region and at all times … -/
theorem C75_lower_costs_richer (hadm : p.Admissible) (hsr : p.sr ≤ 1)
    (hnd : md.damage = .nodamage ∨ (p.ignore_damages = true ∧ md.transfer = .notransfer))
    (h : Solution md p σ) (h' : Solution md p τ) (hK : Spec.CostsBelowCapital p σ)
    (hc : ∀ t ≤ p.tf, 0 < t → ∀ r ∈ p.regions, τ.R .mitigation_costs t r ≤ σ.R .mitigation_costs t r)
    {t : ℕ} (ht : t ≤ p.tf) (h0 : 0 < t) {r : String} (hr : r ∈ p.regions) :
    σ.R .capital_stock t r ≤ τ.R .capital_stock t r ∧ σ.R .GDP_gross t r ≤ τ.R .GDP_gross t r ∧
      σ.R .GDP_net t r ≤ τ.R .GDP_net t r ∧ σ.R .consumption t r ≤ τ.R .consumption t r := by
  have g := Cheaper.gross hadm hnd h h' hK hc ht hr
  have hn : σ.R .GDP_net t r ≤ τ.R .GDP_net t r := by
    rw [NoAbate.net_eq hnd h ht hr, NoAbate.net_eq hnd h' ht hr]
    linarith [hc t ht h0 r hr]
  refine ⟨Cheaper.capital hadm hnd h h' hK hc hr ht, g, hn, ?_⟩
  rw [h.eqs.economy.consumption t ht r hr, h'.eqs.economy.consumption t ht r hr]
  exact mul_le_mul_of_nonneg_left hn (by linarith)

/-- **C75.** … and a better value of the objective, strictly better if the costs are lower anywhere. -/
theorem C75_lower_costs_better (hadm : p.Admissible) (hd : Spec.DamagesDoNotCount md p) (hsr : p.sr < 1)
    (h : Solution md p σ) (h' : Solution md p τ) (hK : Spec.CostsBelowCapital p σ)
    (hc : ∀ t ≤ p.tf, 0 < t → ∀ r ∈ p.regions, τ.R .mitigation_costs t r ≤ σ.R .mitigation_costs t r) :
    Spec.objectiveValue md p σ ≤ Spec.objectiveValue md p τ ∧
      ((∃ t ≤ p.tf, 0 < t ∧ ∃ r ∈ p.regions, τ.R .mitigation_costs t r < σ.R .mitigation_costs t r) →
        Spec.objectiveValue md p σ < Spec.objectiveValue md p τ) := by
  unfold Spec.objectiveValue
  cases ho : md.objective with
  | utility =>
    have hnd := hd.utility ho
    have rich := fun {t} (ht : t ≤ p.tf) (h1 : 0 < t) {r} (hr : r ∈ p.regions) =>
      C75_lower_costs_richer hadm hsr.le hnd h h' hK hc ht h1 hr
    have hw : ∀ t ≤ p.tf, 0 < t → σ.G .yearly_welfare t ≤ τ.G .yearly_welfare t := by
      intro t ht h1
      by_cases hall : ∃ r ∈ p.regions, σ.R .consumption t r < τ.R .consumption t r
      · exact (C44_more_consumption_more_welfare h h' ht (hadm.pop_pos t ht) (fun r hr => (rich ht h1 hr).2.2.2) hall).le
      · push Not at hall
        exact (C44_only_consumption_matters rfl h h' ht fun r hr => le_antisymm (rich ht h1 hr).2.2.2 (hall r hr)).1.le
    constructor
    · by_cases hlt : ∃ t ≤ p.tf, 0 < t ∧ σ.G .yearly_welfare t < τ.G .yearly_welfare t
      · exact (C45_more_welfare_better h h' ho hadm.dt_pos hw hlt).le
      · push Not at hlt
        show σ.G .NPV p.tf ≤ τ.G .NPV p.tf
        rw [C45_utility h ho le_rfl, C45_utility h' ho le_rfl]
        unfold Spec.discountedSum
        refine le_of_eq (Finset.sum_congr rfl fun t ht => ?_)
        have ht' : t + 1 ≤ p.tf := by simpa using ht
        dsimp only
        rw [le_antisymm (hw (t + 1) ht' (by omega)) (hlt (t + 1) ht' (by omega))]
    · rintro ⟨t, ht, h1, r, hr, hne⟩
      refine C45_more_welfare_better h h' ho hadm.dt_pos hw ⟨t, ht, h1, ?_⟩
      refine C44_more_consumption_more_welfare h h' ht (hadm.pop_pos t ht) (fun r hr => (rich ht h1 hr).2.2.2) ⟨r, hr, ?_⟩
      rw [h.eqs.economy.consumption t ht r hr, h'.eqs.economy.consumption t ht r hr, NoAbate.net_eq hnd h ht hr,
        NoAbate.net_eq hnd h' ht hr]
      have := (rich ht h1 hr).2.1
      exact mul_lt_mul_of_pos_left (by linarith) (by linarith)
  | globalcosts =>
    have hdm := hd.globalcosts ho
    have hsum : ∀ {ρ : Env}, Solution md p ρ → ∀ t ≤ p.tf,
        (p.regions.map fun r => ρ.R .damage_costs t r * ρ.R .GDP_gross t r).sum = 0 := by
      intro ρ hρ t ht
      have hz := hρ.eqs.damages
      rw [hdm] at hz
      have hz' : ∀ t ≤ p.tf, ∀ r ∈ p.regions, ρ.R .damage_costs t r = 0 := hz
      refine Eq.trans (sumR_congr (p := p) (g := fun _ => 0) fun r hr => ?_) sumR_zero
      rw [hz' t ht r hr, zero_mul]
    have hdt := hadm.dt_pos
    have hw : ∀ t : ℕ, 0 < p.dt * Real.exp (-p.PRTP * (p.year (t + 1 : ℕ) - p.beginyear)) := fun t =>
      mul_pos hdt (Real.exp_pos _)
    have hterm : ∀ t < p.tf, (p.regions.map fun r => τ.R .mitigation_costs (t + 1) r).sum ≤
        (p.regions.map fun r => σ.R .mitigation_costs (t + 1) r).sum := fun t ht =>
      sumR_le (p := p) fun r hr => hc (t + 1) ht (Nat.succ_pos t) r hr
    have hle : ∀ t ∈ Finset.range p.tf,
        p.dt * Real.exp (-p.PRTP * (p.year (t + 1 : ℕ) - p.beginyear)) *
          ((p.regions.map fun r => τ.R .mitigation_costs (t + 1) r).sum +
            (p.regions.map fun r => τ.R .damage_costs (t + 1) r * τ.R .GDP_gross (t + 1) r).sum) ≤
        p.dt * Real.exp (-p.PRTP * (p.year (t + 1 : ℕ) - p.beginyear)) *
          ((p.regions.map fun r => σ.R .mitigation_costs (t + 1) r).sum +
            (p.regions.map fun r => σ.R .damage_costs (t + 1) r * σ.R .GDP_gross (t + 1) r).sum) := by
      intro t ht
      have ht' : t < p.tf := by simpa using ht
      rw [hsum h (t + 1) ht', hsum h' (t + 1) ht', add_zero, add_zero]
      exact mul_le_mul_of_nonneg_left (hterm t ht') (hw t).le
    constructor
    · show -σ.G .NPV p.tf ≤ -τ.G .NPV p.tf
      rw [C45_globalcosts h ho le_rfl, C45_globalcosts h' ho le_rfl]
      exact neg_le_neg (Finset.sum_le_sum hle)
    · rintro ⟨t, ht, h1, r, hr, hne⟩
      show -σ.G .NPV p.tf < -τ.G .NPV p.tf
      rw [C45_globalcosts h ho le_rfl, C45_globalcosts h' ho le_rfl]
      obtain ⟨t, rfl⟩ : ∃ s, t = s + 1 := ⟨t - 1, by omega⟩
      refine neg_lt_neg (Finset.sum_lt_sum hle ⟨t, Finset.mem_range.2 ht, ?_⟩)
      dsimp only
      rw [hsum h (t + 1) ht, hsum h' (t + 1) ht, add_zero, add_zero]
      refine mul_lt_mul_of_pos_left ?_ (hw t)
      exact sumR_lt (p := p) (fun r hr => hc (t + 1) ht (Nat.succ_pos t) r hr) ⟨r, hr, hne⟩

/-! ## The policy scaled down -/

/-- Apart from targets, the configured limits allow the world to emit its baseline emissions (and no step of the
baseline climate melts more ice than there is). -/
structure Spec.BaselineAllowed (p : Params) : Prop where
  inertia_global : ∀ i, p.inertia_global = some i → ∀ t < p.tf,
    p.dt * i * (p.regions.map fun r => p.baseline_emissions 0 r).sum ≤
      (p.regions.map fun r => p.baseline_emissions (t + 1) r).sum -
        (p.regions.map fun r => p.baseline_emissions t r).sum
  inertia_regional : ∀ i, p.inertia_regional = some i → ∀ t < p.tf, ∀ r ∈ p.regions,
    p.dt * i * p.baseline_emissions 0 r ≤ p.baseline_emissions (t + 1) r - p.baseline_emissions t r
  min_global : ∀ l, p.global_min_level = some l → ∀ t ≤ p.tf,
    l ≤ (p.regions.map fun r => p.baseline_emissions t r).sum
  min_regional : ∀ l, p.regional_min_level = some l → ∀ t ≤ p.tf, ∀ r ∈ p.regions,
    l ≤ p.baseline_emissions t r
  non_increasing : p.non_increasing_emissions_after_2100 = true → ∀ t < p.tf, 2100 < p.year t →
    ∀ r ∈ p.regions, p.baseline_emissions (t + 1) r ≤ p.baseline_emissions t r
  melt : ∀ t ≤ p.tf, 0.0008 * p.dt * (Spec.pathTemperature p (fun _ _ => 0) t + 1) ≤ 0.26 ∧
    p.dt * (1.11860082 * Spec.pathTemperature p (fun _ _ => 0) t + 0.6) ≤ 7300

/-- A doubling of experience makes abatement cheaper by at most the factor by which half the abatement has a lower
marginal cost (`2 ^ MAC_beta`; the default rate is 0.82, the default exponent 3), and experience is counted as
emissions are (trapezoid rule). -/
structure Spec.ModestLearning (p : Params) : Prop where
  rate_le : p.LBD_rate ≤ 1
  rate_ge : (2 : ℝ) ^ (-p.MAC_beta) ≤ p.LBD_rate
  trapz : p.cumulative_emissions_trapz = true

theorem Spec.ModestLearning.log {p : Params} (h : Spec.ModestLearning p) (h0 : 0 < p.LBD_rate) :
    p.log_LBD_rate ≤ 0 ∧ -p.MAC_beta ≤ p.log_LBD_rate := by
  have l2 : 0 < Real.log 2 := Real.log_pos (by norm_num)
  unfold Params.log_LBD_rate
  constructor
  · exact div_nonpos_of_nonpos_of_nonneg (Real.log_nonpos h0.le h.rate_le) l2.le
  · rw [le_div_iff₀ l2, ← Real.log_rpow (by norm_num)]
    exact Real.log_le_log (Real.rpow_pos_of_pos (by norm_num) _) h.rate_ge

namespace Scaled

/-- The abatement of `σ` times `l`, with payments `bal` between regions. -/
noncomputable def x (l : ℝ) (σ : Env) (bal : ℕ → String → ℝ) : Drivers :=
  ⟨fun t r => l * (if t = 0 then 0 else σ.R .relative_abatement t r), fun t r => if t = 0 then 0 else bal t r,
    fun _ _ => 0, fun _ => 0, none⟩

section
variable (h : Solution md p σ) (hex : p.use_carbon_intensity_for_baseline = false) {l : ℝ}
  {bal : ℕ → String → ℝ}
include h hex

theorem em_eq {t : ℕ} (ht : t ≤ p.tf) {r : String} (hr : r ∈ p.regions) :
    (x l σ bal).em p t r = l * σ.R .regional_emissions t r + (1 - l) * p.baseline_emissions t r := by
  show (1 - l * (if t = 0 then 0 else _)) * p.baseline_emissions t r = _
  rcases Nat.eq_zero_or_pos t with rfl | h0
  · rw [(C32_emissions h).1 r hr]; simp; ring
  · rw [C23_abated_baseline h ht h0 hr, (C23_baseline h ht hr).1 hex, if_neg (by omega)]; ring

theorem gE_eq {t : ℕ} (ht : t ≤ p.tf) :
    (x l σ bal).gE p t = l * σ.G .global_emissions t + (1 - l) * p.sumR fun r => p.baseline_emissions t r := by
  rw [C23_global_is_sum h ht]
  show p.sumR (fun r => (x l σ bal).em p t r) = l * p.sumR _ + _
  rw [← sumR_mul_left, ← sumR_mul_left, ← sumR_add]
  exact sumR_congr fun r hr => em_eq h hex ht hr

theorem cum_eq {t : ℕ} (ht : t ≤ p.tf) : (x l σ bal).cum p t =
    l * σ.G .cumulative_emissions t + (1 - l) * Spec.pathCumulative p (fun _ _ => 0) t := by
  induction t with
  | zero => rw [h.eqs.emissions.cumulative_init]; simp [Drivers.cum, Spec.pathCumulative]
  | succ t ih =>
    rw [h.eqs.emissions.cumulative t ht, Drivers.cum, ih (by omega), gE_eq h hex ht,
      gE_eq h hex (t := t) (Nat.le_of_succ_le ht)]
    simp only [Spec.pathCumulative, Spec.pathWorld_zero]
    unfold Params.sumR
    split <;> ring

theorem temp_eq {t : ℕ} (ht : t ≤ p.tf) : (x l σ bal).temp p t =
    l * σ.G .temperature t + (1 - l) * Spec.pathTemperature p (fun _ _ => 0) t := by
  rw [h.eqs.emissions.temperature t ht, Drivers.temp, cum_eq h hex ht, Spec.pathTemperature]; ring

omit h hex in
theorem baseline_cum (hz : p.cumulative_emissions_trapz = true) (t : ℕ) :
    Spec.pathCumulative p (fun _ _ => 0) t = p.cumulative_global_baseline_emissions t := by
  rw [C24_baseline_cumulative]
  induction t with
  | zero => simp [Spec.pathCumulative]
  | succ t ih =>
    simp only [Spec.pathCumulative, hz, if_true, Finset.sum_range_succ, Spec.pathWorld_zero, ih]
    have e2 : p.sumR (fun r => p.baseline_emissions (t + 1) r) + p.sumR (fun r => p.baseline_emissions t r) =
        p.sumR fun r => p.baseline_emissions (t + 1) r + p.baseline_emissions t r := sumR_add.symm
    have e : p.sumR (fun r => ∑ s ∈ Finset.range t,
          p.dt * (p.baseline_emissions (s + 1) r + p.baseline_emissions s r) / 2 +
          p.dt * (p.baseline_emissions (t + 1) r + p.baseline_emissions t r) / 2) =
        p.sumR (fun r => ∑ s ∈ Finset.range t,
          p.dt * (p.baseline_emissions (s + 1) r + p.baseline_emissions s r) / 2) +
        p.dt / 2 * (p.sumR (fun r => p.baseline_emissions (t + 1) r) + p.sumR fun r => p.baseline_emissions t r) := by
      rw [sumR_add, e2, ← sumR_mul_left]
      congr 1
      exact sumR_congr fun r _ => by ring
    refine Eq.trans ?_ e.symm
    unfold Params.sumR
    ring

theorem cum_le (hdt : 0 < p.dt) (hb : ∀ t ≤ p.tf, ∀ r ∈ p.regions, 0 ≤ p.baseline_emissions t r) {t : ℕ} (ht : t ≤ p.tf) :
    σ.G .cumulative_emissions t ≤ Spec.pathCumulative p (fun _ _ => 0) t := by
  have hw : ∀ s ≤ p.tf, σ.G .global_emissions s ≤ Spec.pathWorld p (fun _ _ => 0) s := by
    intro s hs
    rw [C23_global_is_sum h hs, Spec.pathWorld_zero]
    refine sumR_le (p := p) fun r hr => ?_
    rcases Nat.eq_zero_or_pos s with rfl | h0
    · exact ((C32_emissions h).1 r hr).le
    · rw [C23_abated_baseline h hs h0 hr, (C23_baseline h hs hr).1 hex]
      have h1 := (h.abatement_bounds hs hr).1
      have h2 := hb s hs r hr
      nlinarith
  induction t with
  | zero => rw [h.eqs.emissions.cumulative_init]; exact le_rfl
  | succ t ih =>
    have h1 := hw (t + 1) ht
    have h2 := hw t (by omega)
    have ih := ih (by omega)
    rw [h.eqs.emissions.cumulative t ht]
    simp only [Spec.pathCumulative]
    split
    · nlinarith
    · nlinarith

/-- Less is learned from less abatement, but not in proportion. -/
theorem learn_le (hadm : p.Admissible) (hm : Spec.ModestLearning p)
    (hb : ∀ t ≤ p.tf, ∀ r ∈ p.regions, 0 ≤ p.baseline_emissions t r) (h0 : 0 < l) (h1 : l ≤ 1) {t : ℕ} (ht : t ≤ p.tf) :
    0 < (x l σ bal).learn p t ∧ (x l σ bal).learn p t ≤ l ^ p.log_LBD_rate * σ.G .learning_factor t := by
  have m := h.eqs.mitigation
  have hl := hm.log hadm.lbd_pos
  set X := (p.cumulative_global_baseline_emissions t - σ.G .cumulative_emissions t) / p.LBD_scaling with hX
  have hX0 : 0 ≤ X := div_nonneg (by
    rw [← baseline_cum hm.trapz]; linarith [cum_le h hex hadm.dt_pos hb ht]) hadm.lbd_scaling.le
  have hexp : (p.cumulative_global_baseline_emissions t - (x l σ bal).cum p t) / p.LBD_scaling = l * X := by
    rw [cum_eq h hex ht, baseline_cum hm.trapz, hX]; ring
  have key : l * soft_min (X + 1) 1 ≤ soft_min (l * X + 1) 1 := by
    have f1 := soft_min_pos_one (X + 1)
    have hle : l * X + 1 ≤ X + 1 := by nlinarith
    rcases hle.eq_or_lt with heq | hlt
    · rw [heq]; nlinarith
    · have h2 := soft_min_div_antitone one_pos (by positivity : 0 < l * X + 1) hlt
      have h3 : l * (X + 1) ≤ l * X + 1 := by linarith
      have h4 : soft_min (X + 1) 1 * (l * (X + 1)) ≤ soft_min (X + 1) 1 * (l * X + 1) :=
        mul_le_mul_of_nonneg_left h3 f1.le
      have h5 : (l * soft_min (X + 1) 1) * (X + 1) ≤ soft_min (l * X + 1) 1 * (X + 1) := by linarith
      exact le_of_mul_le_mul_right h5 (by linarith)
  have lot : 0 < Drivers.lot p t := one_div_pos.2 (Real.rpow_pos_of_pos hadm.lot _)
  have elbd : (x l σ bal).lbd p t = soft_min (l * X + 1) 1 ^ p.log_LBD_rate := by
    show soft_min ((p.cumulative_global_baseline_emissions t - (x l σ bal).cum p t) / p.LBD_scaling + 1) 1 ^ p.log_LBD_rate = _
    rw [hexp]
  have e1 : σ.G .learning_factor t = soft_min (X + 1) 1 ^ p.log_LBD_rate * Drivers.lot p t := by
    rw [m.learning t ht, (m.lbd t ht).2, (m.lot t ht).2.2]; rfl
  refine ⟨mul_pos (by rw [elbd]; exact Real.rpow_pos_of_pos (soft_min_pos_one _) _) lot, ?_⟩
  rw [Drivers.learn, elbd, e1, ← mul_assoc, ← Real.mul_rpow h0.le (soft_min_pos_one _).le]
  refine mul_le_mul_of_nonneg_right ?_ lot.le
  exact Real.rpow_le_rpow_of_nonpos (mul_pos h0 (soft_min_pos_one _)) key hl.1

/-- Price and costs of the scaled policy. -/
theorem price_le (hadm : p.Admissible) (hm : Spec.ModestLearning p) (hmac : Spec.MacData p)
    (hb : ∀ t ≤ p.tf, ∀ r ∈ p.regions, 0 ≤ p.baseline_emissions t r) (h0 : 0 < l) (h1 : l ≤ 1) {t : ℕ} (ht : t ≤ p.tf)
    {r : String} (hr : r ∈ p.regions) :
    0 ≤ (x l σ bal).price p t r ∧ (x l σ bal).price p t r ≤ σ.R .carbonprice t r ∧
    0 ≤ (x l σ bal).area p t r ∧ (x l σ bal).area p t r ≤ l * σ.R .area_under_MAC t r := by
  have e := h.eqs.mitigation
  obtain ⟨k0, k1⟩ := learn_le h hex hadm hm hb h0 h1 ht
  have hl := hm.log hadm.lbd_pos
  have ha := (h.abatement_bounds ht hr).1
  have ea : (x l σ bal).a t r = l * σ.R .relative_abatement t r := by
    show l * (if t = 0 then 0 else _) = _
    rcases Nat.eq_zero_or_pos t with rfl | hpos
    · rw [(C32_no_abatement h hmac hr).1]; simp
    · rw [if_neg (by omega)]
  have hL : 0 < σ.G .learning_factor t := (C31_positive h hmac.lot ht).2.2
  have hs := (hmac.scaling_pos r hr).le
  have hg := hmac.gamma_pos.le
  have hβ := hadm.beta_pos
  have c0 : 0 ≤ p.MAC_scaling_factor r * p.MAC_gamma := mul_nonneg hs hg
  have bas := hb t ht r hr
  -- a power of the scaled abatement, times the learning factor
  have key : ∀ q : ℝ, p.MAC_beta ≤ q → (x l σ bal).learn p t * (x l σ bal).a t r ^ q ≤
      l ^ (q - p.MAC_beta) * (σ.G .learning_factor t * σ.R .relative_abatement t r ^ q) := by
    intro q hq
    have aq := Real.rpow_nonneg ha q
    rw [ea, Real.mul_rpow h0.le ha]
    have e1 : l ^ p.log_LBD_rate * l ^ q ≤ l ^ (q - p.MAC_beta) := by
      rw [← Real.rpow_add h0]
      exact Real.rpow_le_rpow_of_exponent_ge h0 h1 (by linarith [hl.2])
    have lq := Real.rpow_nonneg h0.le q
    calc (x l σ bal).learn p t * (l ^ q * σ.R .relative_abatement t r ^ q)
        ≤ (l ^ p.log_LBD_rate * σ.G .learning_factor t) * (l ^ q * σ.R .relative_abatement t r ^ q) :=
          mul_le_mul_of_nonneg_right k1 (mul_nonneg lq aq)
      _ = (l ^ p.log_LBD_rate * l ^ q) * (σ.G .learning_factor t * σ.R .relative_abatement t r ^ q) := by ring
      _ ≤ _ := mul_le_mul_of_nonneg_right e1 (mul_nonneg hL.le aq)
  have a0 : 0 ≤ (x l σ bal).a t r := by rw [ea]; exact mul_nonneg h0.le ha
  have ep : (x l σ bal).price p t r = p.MAC_scaling_factor r * p.MAC_gamma * ((x l σ bal).learn p t * (x l σ bal).a t r ^ p.MAC_beta) := by
    show (x l σ bal).learn p t * p.MAC_scaling_factor r * p.MAC_gamma * (x l σ bal).a t r ^ p.MAC_beta = _
    ring
  have ear : (x l σ bal).area p t r = p.MAC_scaling_factor r * p.MAC_gamma / (p.MAC_beta + 1) * p.baseline_emissions t r *
      ((x l σ bal).learn p t * (x l σ bal).a t r ^ (p.MAC_beta + 1)) := by
    show (x l σ bal).learn p t * p.MAC_scaling_factor r * p.MAC_gamma * (x l σ bal).a t r ^ (p.MAC_beta + 1) / (p.MAC_beta + 1) *
      p.baseline_emissions t r = _
    ring
  refine ⟨?_, ?_, ?_, ?_⟩
  · rw [ep]; exact mul_nonneg c0 (mul_nonneg k0.le (Real.rpow_nonneg a0 _))
  · have := key p.MAC_beta le_rfl
    rw [sub_self, Real.rpow_zero, one_mul] at this
    rw [ep, (e.carbonprice t ht r hr).2]
    calc _ ≤ p.MAC_scaling_factor r * p.MAC_gamma *
          (σ.G .learning_factor t * σ.R .relative_abatement t r ^ p.MAC_beta) := mul_le_mul_of_nonneg_left this c0
      _ = _ := by unfold macVal; ring
  · rw [ear]
    exact mul_nonneg (mul_nonneg (div_nonneg c0 (by linarith)) bas) (mul_nonneg k0.le (Real.rpow_nonneg a0 _))
  · have := key (p.MAC_beta + 1) (by linarith)
    rw [show p.MAC_beta + 1 - p.MAC_beta = 1 by ring, Real.rpow_one] at this
    rw [ear, (e.area t ht r hr).2, (C23_baseline h ht hr).1 hex]
    calc _ ≤ p.MAC_scaling_factor r * p.MAC_gamma / (p.MAC_beta + 1) * p.baseline_emissions t r *
          (l * (σ.G .learning_factor t * σ.R .relative_abatement t r ^ (p.MAC_beta + 1))) :=
          mul_le_mul_of_nonneg_left this (mul_nonneg (div_nonneg c0 (by linarith)) bas)
      _ = _ := by unfold acVal; ring

/-- The scaled policy is possible as long as the targets allow it. -/
theorem ok (hadm : p.Admissible) (hm : Spec.ModestLearning p) (hmac : Spec.MacData p) (hp : Spec.UnsharedPolicy md p)
    (hba : Spec.BaselineAllowed p) (hnd : md.damage = .nodamage) (hT0 : 0 ≤ p.T0) (hTC : 0 ≤ p.TCRE)
    (h0 : 0 < l) (h1 : l ≤ 1)
    (htarget : ∀ T, p.temperature_target = some T → ∀ t ≤ p.tf, 2100 ≤ p.year t →
      l * σ.G .temperature t + (1 - l) * Spec.pathTemperature p (fun _ _ => 0) t ≤ T)
    (hbudget : ∀ b, p.budget = some b → ∀ t ≤ p.tf, 2100 ≤ p.year t →
      l * σ.G .cumulative_emissions t + (1 - l) * Spec.pathCumulative p (fun _ _ => 0) t ≤ b)
    (hzero : p.budget ≠ none → p.no_pos_emissions_after_budget_year = true → ∀ t ≤ p.tf, 2100 ≤ p.year t →
      l * σ.G .global_emissions t + (1 - l) * (p.regions.map fun r => p.baseline_emissions t r).sum ≤ 0)
    (htr : md.trade ≠ .globalcostpool)
    (hbal : md.trade = .emissiontrade → ∀ t ≤ p.tf, 0 < t → p.sumR (bal t) = 0)
    (hfloor : ∀ t ≤ p.tf, ∀ r ∈ p.regions, (if t > 0 then p.rel_mitigation_costs_min_level else 0) ≤
      (x l σ bal).cost md p t r / (x l σ bal).gross md p t r) :
    (x l σ bal).Ok md p := by
  have e := h.eqs
  have l1 : 0 ≤ 1 - l := by linarith
  have pr := fun {t} (ht : t ≤ p.tf) {r} (hr : r ∈ p.regions) => price_le (bal := bal) h hex hadm hm hmac hp.baseline h0 h1 ht hr
  have hcumB : ∀ t ≤ p.tf, 0 ≤ Spec.pathCumulative p (fun _ _ => 0) t := fun t ht =>
    (e.emissions.cumulative_nonneg t ht).trans (cum_le h hex hadm.dt_pos hp.baseline ht)
  have hcum0 : ∀ t ≤ p.tf, 0 ≤ (x l σ bal).cum p t := fun t ht => by
    rw [cum_eq h hex ht]
    exact add_nonneg (mul_nonneg h0.le (e.emissions.cumulative_nonneg t ht)) (mul_nonneg l1 (hcumB t ht))
  have hcumle : ∀ t ≤ p.tf, (x l σ bal).cum p t ≤ Spec.pathCumulative p (fun _ _ => 0) t := fun t ht => by
    rw [cum_eq h hex ht]
    have := cum_le h hex hadm.dt_pos hp.baseline ht
    nlinarith
  have htemp0 : ∀ t ≤ p.tf, 0 ≤ (x l σ bal).temp p t := fun t ht => by
    unfold Drivers.temp; exact add_nonneg hT0 (mul_nonneg hTC (hcum0 t ht))
  have htemple : ∀ t ≤ p.tf, (x l σ bal).temp p t ≤ Spec.pathTemperature p (fun _ _ => 0) t := fun t ht => by
    unfold Drivers.temp Spec.pathTemperature
    have := mul_le_mul_of_nonneg_left (hcumle t ht) hTC
    linarith
  have hdt := hadm.dt_pos
  have hsl := Drivers.slr_ranges (p := p) (x := x l σ bal) hdt.le hT0 htemp0
    (fun t ht => le_trans (mul_le_mul_of_nonneg_left (by linarith [htemple t ht]) (by positivity)) (hba.melt t ht).1)
    (fun t ht => le_trans (mul_le_mul_of_nonneg_left (by linarith [htemple t ht]) hdt.le) (hba.melt t ht).2)
  have a0 : ∀ t ≤ p.tf, ∀ r ∈ p.regions, 0 ≤ (x l σ bal).a t r ∧ (x l σ bal).a t r ≤ 5 / 2 := by
    intro t ht r hr
    show 0 ≤ l * (if t = 0 then 0 else _) ∧ l * (if t = 0 then 0 else _) ≤ _
    split
    · norm_num
    · have := h.abatement_bounds ht hr
      exact ⟨mul_nonneg h0.le this.1, by nlinarith [this.1, this.2]⟩
  constructor
  case a_init => intro r hr; simp [x]
  case a_nonneg => exact fun t ht r hr => (a0 t ht r hr).1
  case a_le => exact fun t ht r hr => (a0 t ht r hr).2
  case exogenous => intro _; rfl
  case endogenous => intro h; rw [hex] at h; cases h
  case trade => exact htr
  case bal_sum =>
    intro hh t ht
    rcases Nat.eq_zero_or_pos t with rfl | hpos
    · exact (sumR_congr fun r _ => by simp [x]).trans sumR_zero
    · rw [← hbal hh t ht hpos]
      exact sumR_congr fun r _ => by simp only [x]; rw [if_neg (by omega)]
  case tr_init => intro hh; rw [hp.transfer] at hh; cases hh
  case tr_sum => intro hh; rw [hp.transfer] at hh; cases hh
  case tr_max => intro hh; rw [hp.transfer] at hh; cases hh
  case target => intro t ht T hT hy; rw [temp_eq h hex ht]; exact htarget T hT t ht hy
  case reversible => intro _; exact hp.reversible
  case budget => intro t ht b hb hy; rw [cum_eq h hex ht]; exact hbudget b hb t ht hy
  case cum_nonneg => exact hcum0
  case global_inertia =>
    intro t ht i hi
    have i1 := e.emissions.global_inertia t ht i hi
    have i2 := hba.inertia_global i hi t ht
    rw [gE_eq h hex ht, gE_eq h hex (t := t) (Nat.le_of_succ_le ht)]
    have i1' := mul_le_mul_of_nonneg_left i1 h0.le
    have i2' := mul_le_mul_of_nonneg_left i2 l1
    unfold Params.sumR at *
    linarith
  case regional_inertia =>
    intro t ht r hr i hi
    have i1 := mul_le_mul_of_nonneg_left (e.emissions.regional_inertia t ht r hr i hi) h0.le
    have i2 := mul_le_mul_of_nonneg_left (hba.inertia_regional i hi t ht r hr) l1
    rw [em_eq h hex ht hr, em_eq h hex (t := t) (Nat.le_of_succ_le ht) hr]
    linarith
  case global_min =>
    intro t ht m hl
    have i1 := mul_le_mul_of_nonneg_left (e.emissions.global_min_level t ht m hl) h0.le
    have i2 := mul_le_mul_of_nonneg_left (hba.min_global m hl t ht) l1
    rw [gE_eq h hex ht]
    unfold Params.sumR at *
    linarith
  case regional_min =>
    intro t ht r hr m hl
    have i1 := mul_le_mul_of_nonneg_left (e.emissions.regional_min_level t ht r hr m hl) h0.le
    have i2 := mul_le_mul_of_nonneg_left (hba.min_regional m hl t ht r hr) l1
    rw [em_eq h hex ht hr]
    linarith
  case start => exact hp.start
  case non_increasing =>
    intro t ht r hr hy hn
    have i1 := e.emissions.non_increasing (t + 1) ht r hr (by rw [cast_succ_sub_one]; exact hy) hn
    rw [cast_succ_sub_one] at i1
    have i2 := mul_le_mul_of_nonneg_left (hba.non_increasing hn t ht hy r hr) l1
    rw [em_eq h hex ht hr, em_eq h hex (t := t) (Nat.le_of_succ_le ht) hr]
    have i3 := mul_le_mul_of_nonneg_left (sub_nonpos.1 i1) h0.le
    exact add_le_add i3 i2
  case net_zero =>
    intro t ht hy hn hb
    rw [gE_eq h hex ht]
    exact hzero hb hn t ht hy
  case slr_nonneg =>
    intro t ht
    have := hsl t ht
    exact ⟨this.1, by linarith [this.2.1.1], by linarith [this.2.2.1]⟩
  case forms => intro hd; rw [hnd] at hd; cases hd
  case damS_bounds => intro hd; rw [hnd] at hd; cases hd
  case price_nonneg => exact fun t ht r hr => (pr ht hr).1
  case price_le => exact fun t ht r hr => (pr ht hr).2.1.trans (h.price_bounds ht hr).2
  case rel_costs_min => exact hfloor
  case effort =>
    have ne1 : "noregime" ≠ "equal_mitigation_costs" := by decide
    have ne2 : "noregime" ≠ "equal_total_costs" := by decide
    have ne3 : "noregime" ≠ "per_cap_convergence" := by decide
    constructor
    · intro t ht r hr he; exact absurd (hp.regime.symm.trans he) ne1
    · intro t ht r hr he; exact absurd (hp.regime.symm.trans he) ne2
    · intro t ht r hr he; exact absurd (hp.regime.symm.trans he) ne3
  case effort_scope =>
    intro he
    exact absurd (hp.regime.symm.trans he) (by decide)

end
end Scaled

end Mimosa
