import Verif.Lib.BoundedCI
import Verif.Props.Compare
import Verif.Props.Welfare
import Verif.Props.Mitigation
import Verif.Props.ExistenceCI
import Verif.Props.ExamplesFree
import Verif.Props.ExamplesCI
import Verif.Lib.Example2

/-!
# C65: there is something for the solver to find, C66: without damages and targets nothing is abated
-/

set_option linter.unusedSimpArgs false
set_option linter.unusedVariables false

namespace Mimosa
open Damages Topology

variable {md : Modules} {p : Params} {σ τ : Env}

/-! ## C65 -/

/-- **C65.** With exogenous baseline emissions: if there is a solution at all, then there is a best one. -/
theorem C65_optimum_exists_exogenous (hadm : p.Admissible)
    (hf : md.damage = .COACCH → ∀ r ∈ p.regions, ∀ x, FormOk x p.noslr r ∧ FormOk x p.slr r)
    (hex : p.use_carbon_intensity_for_baseline = false) (h : ∃ σ, Solution md p σ) : ∃ σ, Optimal md p σ :=
  (baseBd_exogenous hadm hf hex).optimum h

/-- **C65.** The same with the carbon-intensity baseline (`CIBounds` lists the assumptions on the data). -/
theorem C65_optimum_exists_carbon_intensity (hd : CIBounds md p) (h : ∃ σ, Solution md p σ) : ∃ σ, Optimal md p σ :=
  hd.baseBd.optimum h

/-- **C65.** Solutions do not disappear in a limit: the limit, variable by variable, of solutions is a solution. -/
theorem C65_limit_of_solutions (hadm : p.Admissible)
    (hf : md.damage = .COACCH → ∀ r ∈ p.regions, ∀ x, FormOk x p.noslr r ∧ FormOk x p.slr r)
    {s : ℕ → Env} (hs : ∀ n, Solution md p (s n))
    (hg : ∀ v t, Filter.Tendsto (fun n => (s n).g v t) .atTop (𝓝 (σ.g v t)))
    (hr : ∀ v t r, Filter.Tendsto (fun n => (s n).r v t r) .atTop (𝓝 (σ.r v t r))) : Solution md p σ := by
  have hc := solution_closed hadm hf
  suffices h : Filter.Tendsto s .atTop (𝓝 σ) from
    hc.mem_of_tendsto (s := {σ | Solution md p σ}) h (Filter.Eventually.of_forall hs)
  rw [Env.isInducing.tendsto_nhds_iff]
  refine Filter.Tendsto.prodMk_nhds ?_ ?_
  · exact tendsto_pi_nhds.2 fun v => tendsto_pi_nhds.2 fun t => hg v t
  · exact tendsto_pi_nhds.2 fun v => tendsto_pi_nhds.2 fun t => tendsto_pi_nhds.2 fun r => hr v t r

/-- **C65.** The objective is bounded over all solutions: it cannot be improved without end. -/
theorem C65_objective_bounded (hadm : p.Admissible)
    (hf : md.damage = .COACCH → ∀ r ∈ p.regions, ∀ x, FormOk x p.noslr r ∧ FormOk x p.slr r)
    (hb : p.use_carbon_intensity_for_baseline = false ∨ CIBounds md p) :
    ∃ B, ∀ σ, Solution md p σ → |Spec.objectiveValue md p σ| ≤ B := by
  have h : BaseBd md p := hb.elim (baseBd_exogenous hadm hf) (·.baseBd)
  obtain ⟨B, hB⟩ := h.npv le_rfl
  refine ⟨B, fun σ hσ => ?_⟩
  have := hB σ hσ
  unfold Spec.objectiveValue
  cases md.objective
  · exact this
  · simpa using this

/-- **C65.** A run without policy target always has an optimum. -/
theorem C65_no_policy_optimum (hadm : p.Admissible) (hd : Spec.OrdinaryData md p) (htr : md.trade ≠ .globalcostpool)
    (heff : p.effort_sharing_regime = "noregime" ∨ p.effort_sharing_regime = "equal_mitigation_costs")
    (hexo : p.use_carbon_intensity_for_baseline = false → Spec.BaselineWithinLimits p ∧
      (md.transfer = .globaldamagepool → md.damage = .COACCH →
        ∀ t ≤ p.tf, ∀ r ∈ p.regions, 0 ≤ Spec.pathDamage p (fun _ _ => 0) t r))
    (hendo : p.use_carbon_intensity_for_baseline = true → CIBounds md p ∧
      ∃ g Kf, 0 ≤ g ∧ Spec.FavourableGrowth p g Kf ∧ Spec.PathWithinLimitsCI p (fun _ _ => 0) g Kf md) :
    ∃ σ, Optimal md p σ := by
  obtain ⟨σ, hσ, -⟩ := C49_no_policy_feasible (md := md) hadm hd htr heff hexo fun h => (hendo h).2
  cases hu : p.use_carbon_intensity_for_baseline with
  | false => exact C65_optimum_exists_exogenous hadm hd.forms hu ⟨σ, hσ⟩
  | true => exact C65_optimum_exists_carbon_intensity (hendo hu).1 ⟨σ, hσ⟩

/-! ## C66 -/

/-- Nothing is gained by abating: damages do not enter the objective, and no region can be given negative costs. -/
structure Spec.NoReasonToAbate (md : Modules) (p : Params) : Prop where
  utility : md.objective = .utility → md.damage = .nodamage ∨ (p.ignore_damages = true ∧ md.transfer = .notransfer)
  globalcosts : md.objective = .globalcosts → md.damage = .nodamage
  no_negative_costs : 0 ≤ p.rel_mitigation_costs_min_level

namespace NoAbate

theorem mitig_nonneg (hadm : p.Admissible) (hn : 0 ≤ p.rel_mitigation_costs_min_level) (h : Solution md p σ) {t : ℕ}
    (ht : t ≤ p.tf) {r : String} (hr : r ∈ p.regions) : 0 ≤ σ.R .mitigation_costs t r := by
  have h1 := h.eqs.mitigation.rel_costs_min t ht r hr
  have h2 := (h.eqs.mitigation.rel_costs t ht r hr).2
  have hg := h.gross_pos hadm ht hr
  have h3 : 0 ≤ σ.R .rel_mitigation_costs t r := le_trans (by split <;> [exact hn; exact le_rfl]) h1
  rw [h2] at h3
  by_contra hneg
  push Not at hneg
  exact absurd (div_neg_of_neg_of_pos hneg hg) (not_lt.2 h3)

theorem net_eq (hnd : md.damage = .nodamage ∨ (p.ignore_damages = true ∧ md.transfer = .notransfer))
    (h : Solution md p σ) {t : ℕ} (ht : t ≤ p.tf) {r : String} (hr : r ∈ p.regions) :
    σ.R .GDP_net t r = σ.R .GDP_gross t r - σ.R .mitigation_costs t r := by
  rw [h.eqs.economy.net t ht r hr]
  rcases hnd with hd | ⟨hi, hf⟩
  · have hdam := h.eqs.damages
    rw [hd] at hdam
    have h0 : ∀ r ∈ p.regions, σ.R .damage_costs t r = 0 := hdam t ht
    have h1 : transferVal σ md.transfer t r = 0 := by
      cases hf : md.transfer with
      | notransfer => rfl
      | globaldamagepool =>
        have hp := h.pool' hf
        show σ.R .financial_transfer t r = 0
        cases t with
        | zero => exact hp.first_year r hr
        | succ t =>
          have hnn : ∀ r ∈ p.regions, 0 ≤ σ.R .financial_transfer (t + 1) r := fun r hr => by
            have := hp.max_own (t + 1) ht r hr
            rw [h0 r hr] at this; linarith
          have := le_sumR hnn hr
          rw [hp.zero_sum t ht] at this
          exact le_antisymm this (hnn r hr)
    rw [h0 r hr, h1]
    split <;> ring
  · rw [if_pos hi, hf]; simp [transferVal]

/-- A solution without costs has at least the capital of any other. -/
theorem capital (hadm : p.Admissible) (hn : 0 ≤ p.rel_mitigation_costs_min_level)
    (hnd : md.damage = .nodamage ∨ (p.ignore_damages = true ∧ md.transfer = .notransfer))
    (h : Solution md p σ) (h' : Solution md p τ)
    (h0 : ∀ t ≤ p.tf, 0 < t → ∀ r ∈ p.regions, σ.R .mitigation_costs t r = 0) {r : String} (hr : r ∈ p.regions) :
    ∀ {t : ℕ}, t ≤ p.tf → 0 < σ.R .capital_stock t r ∧ τ.R .capital_stock t r ≤ σ.R .capital_stock t r := by
  intro t
  induction t with
  | zero =>
    intro _
    rw [h.eqs.economy.capital_init r hr, h'.eqs.economy.capital_init r hr]
    exact ⟨mul_pos (hadm.capital_pos r hr) (hadm.gdp_pos 0 (Nat.zero_le _) r hr), le_rfl⟩
  | succ t ih =>
    intro ht
    obtain ⟨hK, hle⟩ := ih (by omega)
    have hA : (0 : ℝ) < 2 - (1 - p.dk) ^ p.dt := by linarith [dk_pow_le hadm]
    have e := h.capital_eq hadm ht hr
    have e' := h'.capital_eq hadm ht hr
    have n := net_eq hnd h ht hr
    have n' := net_eq hnd h' ht hr
    rw [h0 (t + 1) ht (Nat.succ_pos t) r hr, sub_zero] at n
    have m' := mitig_nonneg hadm hn h' ht hr
    have g := (h.eqs.economy.gross t ht r hr).2
    have g' := (h'.eqs.economy.gross t ht r hr).2
    set F := get_TFP_value p (t + 1) r * p.population (t + 1) r ^ (1 - p.alpha) with hF
    have hgp := h.gross_pos hadm ht hr
    have hds : 0 ≤ p.dt * p.sr := mul_nonneg hadm.dt_pos.le hadm.sr_nonneg
    have hsp : 0 < soft_min (τ.R .capital_stock (t + 1) r) 10 ^ p.alpha :=
      Real.rpow_pos_of_pos (soft_min_pos_ten _) _
    rw [n, g] at e
    constructor
    · have : 0 < (2 - (1 - p.dk) ^ p.dt) * σ.R .capital_stock (t + 1) r := by
        rw [e, ← g]; nlinarith
      exact (mul_pos_iff_of_pos_left hA).1 this
    · set s := soft_min (τ.R .capital_stock (t + 1) r) 10 ^ p.alpha with hs
      refine capital_le (A := 2 - (1 - p.dk) ^ p.dt) (B := σ.R .capital_stock t r) (B' := σ.R .capital_stock t r)
        (C := p.dt * p.sr * F - (p.dt * p.sr * τ.R .mitigation_costs (t + 1) r +
          (σ.R .capital_stock t r - τ.R .capital_stock t r)) / s)
        (C' := p.dt * p.sr * F) hA hK hadm.alpha_nonneg hadm.alpha_lt le_rfl ?_ ?_ ?_
      · have : 0 ≤ (p.dt * p.sr * τ.R .mitigation_costs (t + 1) r +
          (σ.R .capital_stock t r - τ.R .capital_stock t r)) / s :=
          div_nonneg (add_nonneg (mul_nonneg hds m') (by linarith)) hsp.le
        linarith
      · rw [e', n', g', ← hs, sub_mul, div_mul_cancel₀ _ hsp.ne']; ring
      · rw [e]; ring

theorem gross (hadm : p.Admissible) (hn : 0 ≤ p.rel_mitigation_costs_min_level)
    (hnd : md.damage = .nodamage ∨ (p.ignore_damages = true ∧ md.transfer = .notransfer))
    (h : Solution md p σ) (h' : Solution md p τ)
    (h0 : ∀ t ≤ p.tf, 0 < t → ∀ r ∈ p.regions, σ.R .mitigation_costs t r = 0) {t : ℕ} (ht : t ≤ p.tf) {r : String}
    (hr : r ∈ p.regions) : τ.R .GDP_gross t r ≤ σ.R .GDP_gross t r := by
  cases t with
  | zero => rw [h.eqs.economy.gross_init r hr, h'.eqs.economy.gross_init r hr]
  | succ t =>
    have hK := (capital hadm hn hnd h h' h0 hr ht).2
    rw [(h.eqs.economy.gross t ht r hr).2, (h'.eqs.economy.gross t ht r hr).2]
    have hgp := h.gross_pos hadm ht hr
    rw [(h.eqs.economy.gross t ht r hr).2] at hgp
    have hF : 0 < get_TFP_value p (t + 1) r * p.population (t + 1) r ^ (1 - p.alpha) :=
      (mul_pos_iff_of_pos_right (Real.rpow_pos_of_pos (soft_min_pos_ten _) _)).1 hgp
    refine mul_le_mul_of_nonneg_left ?_ hF.le
    exact Real.rpow_le_rpow (soft_min_pos_ten _).le ((soft_min_strictMono (by norm_num)).monotone hK) hadm.alpha_nonneg
end NoAbate

/-- **C66.** With nothing to gain from abating, a solution without mitigation costs is at least as rich as any other
solution: in every region and at all times. -/
theorem C66_nobody_richer (hadm : p.Admissible) (hn : 0 ≤ p.rel_mitigation_costs_min_level) (hsr : p.sr ≤ 1)
    (hnd : md.damage = .nodamage ∨ (p.ignore_damages = true ∧ md.transfer = .notransfer))
    (h : Solution md p σ) (h0 : ∀ t ≤ p.tf, 0 < t → ∀ r ∈ p.regions, σ.R .mitigation_costs t r = 0)
    (h' : Solution md p τ) {t : ℕ} (ht : t ≤ p.tf) (h0t : 0 < t) {r : String} (hr : r ∈ p.regions) :
    τ.R .GDP_gross t r ≤ σ.R .GDP_gross t r ∧ τ.R .GDP_net t r ≤ σ.R .GDP_net t r ∧
      τ.R .consumption t r ≤ σ.R .consumption t r := by
  have g := NoAbate.gross hadm hn hnd h h' h0 ht hr
  have hnet : τ.R .GDP_net t r ≤ σ.R .GDP_net t r := by
    rw [NoAbate.net_eq hnd h ht hr, NoAbate.net_eq hnd h' ht hr, h0 t ht h0t r hr]
    linarith [NoAbate.mitig_nonneg hadm hn h' ht hr]
  refine ⟨g, hnet, ?_⟩
  rw [h.eqs.economy.consumption t ht r hr, h'.eqs.economy.consumption t ht r hr]
  exact mul_le_mul_of_nonneg_left hnet (by linarith)

/-- **C66.** The comparison behind the next two theorems: a solution without mitigation costs is at least as good as
any other, and strictly better than one with costs anywhere after the first year. -/
theorem C66_costs_make_worse (hadm : p.Admissible) (hn : Spec.NoReasonToAbate md p) (hsr : p.sr < 1)
    (h : Solution md p σ) (h0 : ∀ t ≤ p.tf, 0 < t → ∀ r ∈ p.regions, σ.R .mitigation_costs t r = 0)
    (h' : Solution md p τ) :
    Spec.objectiveValue md p τ ≤ Spec.objectiveValue md p σ ∧
      ((∃ t ≤ p.tf, 0 < t ∧ ∃ r ∈ p.regions, τ.R .mitigation_costs t r ≠ 0) →
        Spec.objectiveValue md p τ < Spec.objectiveValue md p σ) := by
  have hm' : ∀ t ≤ p.tf, ∀ r ∈ p.regions, 0 ≤ τ.R .mitigation_costs t r := fun t ht r hr =>
    NoAbate.mitig_nonneg hadm hn.no_negative_costs h' ht hr
  unfold Spec.objectiveValue
  cases ho : md.objective with
  | utility =>
    have hnd := hn.utility ho
    have hc : ∀ t ≤ p.tf, 0 < t → ∀ r ∈ p.regions, τ.R .consumption t r ≤ σ.R .consumption t r := fun t ht h1 r hr =>
      (C66_nobody_richer hadm hn.no_negative_costs hsr.le hnd h h0 h' ht h1 hr).2.2
    have hw : ∀ t ≤ p.tf, 0 < t → τ.G .yearly_welfare t ≤ σ.G .yearly_welfare t := by
      intro t ht h1
      by_cases hall : ∃ r ∈ p.regions, τ.R .consumption t r < σ.R .consumption t r
      · exact (C44_more_consumption_more_welfare h' h ht (hadm.pop_pos t ht) (hc t ht h1) hall).le
      · push Not at hall
        exact (C44_only_consumption_matters rfl h' h ht fun r hr => le_antisymm (hc t ht h1 r hr) (hall r hr)).1.le
    constructor
    · by_cases hlt : ∃ t ≤ p.tf, 0 < t ∧ τ.G .yearly_welfare t < σ.G .yearly_welfare t
      · exact (C45_more_welfare_better h' h ho hadm.dt_pos hw hlt).le
      · push Not at hlt
        show τ.G .NPV p.tf ≤ σ.G .NPV p.tf
        rw [C45_utility h ho le_rfl, C45_utility h' ho le_rfl]
        unfold Spec.discountedSum
        refine le_of_eq (Finset.sum_congr rfl fun t ht => ?_)
        have ht' : t + 1 ≤ p.tf := by simpa using ht
        dsimp only
        rw [le_antisymm (hw (t + 1) ht' (by omega)) (hlt (t + 1) ht' (by omega))]
    · rintro ⟨t, ht, h1, r, hr, hne⟩
      have hpos : 0 < τ.R .mitigation_costs t r := lt_of_le_of_ne (hm' t ht r hr) (Ne.symm hne)
      refine C45_more_welfare_better h' h ho hadm.dt_pos hw ⟨t, ht, h1, ?_⟩
      refine C44_more_consumption_more_welfare h' h ht (hadm.pop_pos t ht) (hc t ht h1) ⟨r, hr, ?_⟩
      rw [h.eqs.economy.consumption t ht r hr, h'.eqs.economy.consumption t ht r hr, NoAbate.net_eq hnd h ht hr,
        NoAbate.net_eq hnd h' ht hr, h0 t ht h1 r hr]
      have := (C66_nobody_richer hadm hn.no_negative_costs hsr.le hnd h h0 h' ht h1 hr).1
      exact mul_lt_mul_of_pos_left (by linarith) (by linarith)
  | globalcosts =>
    have hd := hn.globalcosts ho
    have hdam : ∀ {ρ : Env}, Solution md p ρ → ∀ t ≤ p.tf, ∀ r ∈ p.regions, ρ.R .damage_costs t r = 0 := by
      intro ρ hρ
      have := hρ.eqs.damages
      rw [hd] at this
      exact this
    have hsum : ∀ {ρ : Env}, Solution md p ρ → ∀ t ≤ p.tf,
        (p.regions.map fun r => ρ.R .damage_costs t r * ρ.R .GDP_gross t r).sum = 0 := by
      intro ρ hρ t ht
      refine Eq.trans (sumR_congr (p := p) (g := fun _ => 0) fun r hr => ?_) sumR_zero
      rw [hdam hρ t ht r hr, zero_mul]
    have hz : σ.G .NPV p.tf = 0 := by
      rw [C45_globalcosts h ho le_rfl]
      unfold Spec.discountedSum
      refine Finset.sum_eq_zero fun t ht => ?_
      have ht' : t + 1 ≤ p.tf := by simpa using ht
      have : (p.regions.map fun r => σ.R .mitigation_costs (t + 1) r).sum = 0 :=
        Eq.trans (sumR_congr (p := p) (g := fun _ => 0) fun r hr => h0 (t + 1) ht' (by omega) r hr) sumR_zero
      dsimp only
      rw [hsum h (t + 1) ht', this]; simp
    have hdt := hadm.dt_pos
    have hterm : ∀ t < p.tf, 0 ≤ (p.regions.map fun r => τ.R .mitigation_costs (t + 1) r).sum := fun t ht =>
      sumR_nonneg (p := p) (hm' (t + 1) ht)
    have hnn : ∀ t ∈ Finset.range p.tf, 0 ≤ p.dt * Real.exp (-p.PRTP * (p.year (t + 1 : ℕ) - p.beginyear)) *
      ((p.regions.map fun r => τ.R .mitigation_costs (t + 1) r).sum +
        (p.regions.map fun r => τ.R .damage_costs (t + 1) r * τ.R .GDP_gross (t + 1) r).sum) := by
      intro t ht
      have ht' : t < p.tf := by simpa using ht
      rw [hsum h' (t + 1) ht', add_zero]
      exact mul_nonneg (mul_nonneg hdt.le (Real.exp_pos _).le) (hterm t ht')
    constructor
    · show -τ.G .NPV p.tf ≤ -σ.G .NPV p.tf
      rw [hz, C45_globalcosts h' ho le_rfl]
      unfold Spec.discountedSum
      have := Finset.sum_nonneg hnn
      simp only [neg_zero, Left.neg_nonpos_iff]
      exact this
    · rintro ⟨t, ht, h1, r, hr, hne⟩
      have hpos : 0 < τ.R .mitigation_costs t r := lt_of_le_of_ne (hm' t ht r hr) (Ne.symm hne)
      show -τ.G .NPV p.tf < -σ.G .NPV p.tf
      rw [hz, C45_globalcosts h' ho le_rfl]
      obtain ⟨t, rfl⟩ : ∃ s, t = s + 1 := ⟨t - 1, by omega⟩
      unfold Spec.discountedSum
      have hs := Finset.single_le_sum hnn (Finset.mem_range.2 ht)
      have hpos2 : 0 < (p.regions.map fun r => τ.R .mitigation_costs (t + 1) r).sum :=
        lt_of_lt_of_le hpos (le_sumR (p := p) (hm' (t + 1) ht) hr)
      rw [hsum h' (t + 1) ht, add_zero] at hs
      have := mul_pos (mul_pos hdt (Real.exp_pos (-p.PRTP * (p.year (t + 1 : ℕ) - p.beginyear)))) hpos2
      simp only [neg_zero, Left.neg_neg_iff]
      exact lt_of_lt_of_le this hs

/-- **C66.** With nothing to gain from abating, any solution without mitigation costs is optimal. -/
theorem C66_no_costs_optimal (hadm : p.Admissible) (hn : Spec.NoReasonToAbate md p) (hsr : p.sr < 1)
    (h : Solution md p σ) (h0 : ∀ t ≤ p.tf, 0 < t → ∀ r ∈ p.regions, σ.R .mitigation_costs t r = 0) :
    Optimal md p σ := by
  refine ⟨h, fun τ h' => ?_⟩
  have := (C66_costs_make_worse hadm hn hsr h h0 h').1
  revert this
  unfold Spec.objectiveValue
  cases md.objective
  · exact id
  · exact fun h => neg_le_neg_iff.1 h

/-- **C66.** When there is a solution without mitigation costs, then no optimum has any, … -/
theorem C66_optimum_no_costs (hadm : p.Admissible) (hn : Spec.NoReasonToAbate md p) (hsr : p.sr < 1)
    (h : Solution md p σ) (h0 : ∀ t ≤ p.tf, 0 < t → ∀ r ∈ p.regions, σ.R .mitigation_costs t r = 0)
    (h' : Optimal md p τ) : ∀ t ≤ p.tf, 0 < t → ∀ r ∈ p.regions, τ.R .mitigation_costs t r = 0 := by
  by_contra hneg
  push Not at hneg
  obtain ⟨t, ht, h1, r, hr, hne⟩ := hneg
  exact absurd ((C66_costs_make_worse hadm hn hsr h h0 h'.1).2 ⟨t, ht, h1, r, hr, hne⟩) (not_lt.2 (h'.best h))

/-- **C66.** … and no optimum abates: all carbon prices are zero, emissions are the baseline emissions, and the
product and consumption are those of that solution. -/
theorem C66_optimum_no_abatement (hadm : p.Admissible) (hn : Spec.NoReasonToAbate md p) (hsr : p.sr < 1)
    (hem : ∀ t ≤ p.tf, ∀ r ∈ p.regions, 0 < p.baseline_emissions t r) (hγ : 0 < p.MAC_gamma)
    (hsc : ∀ r ∈ p.regions, 0 < p.MAC_scaling_factor r) (hdam : md.damage = .nodamage ∨ md.objective = .utility)
    (h : Solution md p σ) (h0 : ∀ t ≤ p.tf, 0 < t → ∀ r ∈ p.regions, σ.R .mitigation_costs t r = 0)
    (h' : Optimal md p τ) : ∀ t ≤ p.tf, 0 < t → ∀ r ∈ p.regions,
      τ.R .relative_abatement t r = 0 ∧ τ.R .carbonprice t r = 0 ∧
      τ.R .regional_emissions t r = τ.R .baseline t r ∧
      τ.R .GDP_gross t r = σ.R .GDP_gross t r ∧ τ.R .consumption t r = σ.R .consumption t r := by
  have h0' := C66_optimum_no_costs hadm hn hsr h h0 h'
  have hnd : md.damage = .nodamage ∨ (p.ignore_damages = true ∧ md.transfer = .notransfer) :=
    hdam.elim .inl hn.utility
  intro t ht h1 r hr
  have hβ := hadm.beta_pos
  have hlot : -1 < p.LOT_rate := by linarith [hadm.lot]
  have hbase : ∀ r ∈ p.regions, 0 < τ.R .baseline t r := by
    intro r hr
    have hb := h'.1.eqs.emissions.baseline t ht r hr
    split at hb
    · rw [hb, NoAbate.net_eq hnd h'.1 ht hr, h0' t ht h1 r hr, sub_zero]
      exact mul_pos (div_pos (hem t ht r hr) (hadm.gdp_pos t ht r hr)) (h'.1.gross_pos hadm ht hr)
    · rw [hb]; exact hem t ht r hr
  have hlearn : 0 < τ.G .learning_factor t := (C31_positive h'.1 hlot ht).2.2
  have hab : ∀ r ∈ p.regions, 0 ≤ τ.R .relative_abatement t r := fun r hr => (h'.1.abatement_bounds ht hr).1
  have hk : ∀ r ∈ p.regions, 0 < τ.G .learning_factor t * p.MAC_scaling_factor r * p.MAC_gamma / (p.MAC_beta + 1) := by
    intro r hr
    have := hsc r hr
    positivity
  have hac : ∀ r ∈ p.regions, acVal p τ t r * τ.R .baseline t r =
      τ.G .learning_factor t * p.MAC_scaling_factor r * p.MAC_gamma / (p.MAC_beta + 1) *
        τ.R .relative_abatement t r ^ (p.MAC_beta + 1) * τ.R .baseline t r := by
    intro r hr
    simp only [acVal]; ring
  have hnn : ∀ r ∈ p.regions, 0 ≤ acVal p τ t r * τ.R .baseline t r := by
    intro r hr
    rw [hac r hr]
    exact mul_nonneg (mul_nonneg (hk r hr).le (Real.rpow_nonneg (hab r hr) _)) (hbase r hr).le
  have hsum : p.sumR (fun r => costBalanceVal τ md.trade t r) = 0 := by
    cases htr : md.trade with
    | emissiontrade => exact (h'.1.trade' htr).zero_sum t ht
    | notrade => exact sumR_zero
    | globalcostpool => exact absurd htr h'.1.trade_ne
  have htot : p.sumR (fun r => acVal p τ t r * τ.R .baseline t r) = 0 := by
    have e1 : p.sumR (fun r => acVal p τ t r * τ.R .baseline t r + costBalanceVal τ md.trade t r) = 0 := by
      refine Eq.trans (sumR_congr (g := fun _ => 0) fun r hr => ?_) sumR_zero
      rw [← (h'.1.eqs.mitigation.mitigation_costs t ht r hr).2, h0' t ht h1 r hr]
    rw [sumR_add, hsum, add_zero] at e1
    exact e1
  have hz : τ.R .relative_abatement t r = 0 := by
    have h2 := le_sumR hnn hr
    rw [htot, hac r hr] at h2
    by_contra hne
    have hp : 0 < τ.R .relative_abatement t r := lt_of_le_of_ne (hab r hr) (Ne.symm hne)
    have := mul_pos (mul_pos (hk r hr) (Real.rpow_pos_of_pos hp (p.MAC_beta + 1))) (hbase r hr)
    linarith
  have r1 := C66_nobody_richer hadm hn.no_negative_costs hsr.le hnd h h0 h'.1 ht h1 hr
  have r2 := C66_nobody_richer hadm hn.no_negative_costs hsr.le hnd h'.1 h0' h ht h1 hr
  refine ⟨hz, ?_, ?_, le_antisymm r1.1 r2.1, le_antisymm r1.2.2 r2.2.2⟩
  · rw [(h'.1.eqs.mitigation.carbonprice t ht r hr).2]
    simp only [macVal]
    rw [hz, Real.zero_rpow hβ.ne']; ring
  · rw [C23_abated_baseline h'.1 ht h1 hr, hz]; ring

/-- **C66.** A run without damages and without policy targets, with either baseline, with or without emission trade:
no abatement is optimal, and everything optimal is without abatement. -/
theorem C66_baseline_run (hadm : p.Admissible) (hn : Spec.NoReasonToAbate md p) (hsr : p.sr < 1)
    (hdam : md.damage = .nodamage) (hd : Spec.OrdinaryData md p) (htr : md.trade ≠ .globalcostpool)
    (hem : ∀ t ≤ p.tf, ∀ r ∈ p.regions, 0 < p.baseline_emissions t r) (hγ : 0 < p.MAC_gamma)
    (hsc : ∀ r ∈ p.regions, 0 < p.MAC_scaling_factor r)
    (heff : p.effort_sharing_regime = "noregime" ∨ p.effort_sharing_regime = "equal_mitigation_costs")
    (hexo : p.use_carbon_intensity_for_baseline = false → Spec.BaselineWithinLimits p)
    (hendo : p.use_carbon_intensity_for_baseline = true → ∃ g Kf, 0 ≤ g ∧ Spec.FavourableGrowth p g Kf ∧
      Spec.PathWithinLimitsCI p (fun _ _ => 0) g Kf md) :
    (∃ σ, Optimal md p σ) ∧ ∀ σ, Optimal md p σ → ∀ t ≤ p.tf, 0 < t → ∀ r ∈ p.regions,
      σ.R .mitigation_costs t r = 0 ∧ σ.R .carbonprice t r = 0 ∧ σ.R .relative_abatement t r = 0 ∧
      σ.R .regional_emissions t r = σ.R .baseline t r ∧ σ.R .GDP_net t r = σ.R .GDP_gross t r := by
  obtain ⟨ρ, hρ, h1⟩ := C49_no_policy_feasible (md := { md with trade := .notrade }) hadm { hd with } (by simp) heff
    (fun h => ⟨hexo h, fun _ h => by simp only at h; rw [hdam] at h; cases h⟩)
    (fun h => by
      obtain ⟨g, Kf, hg, hU, hl⟩ := hendo h
      exact ⟨g, Kf, hg, hU, { hl with }⟩)
  have hρ0 : ∀ t ≤ p.tf, 0 < t → ∀ r ∈ p.regions, ρ.R .mitigation_costs t r = 0 := fun t ht _ r hr => by
    rw [C33_costs_notrade hρ rfl ht hr, (h1 t ht r hr).2.1]
  obtain ⟨σ, hσ, h0⟩ : ∃ σ, Solution md p σ ∧ ∀ t ≤ p.tf, 0 < t → ∀ r ∈ p.regions, σ.R .mitigation_costs t r = 0 := by
    obtain ⟨d, tr, tm, w, o⟩ := md
    cases tr with
    | notrade => exact ⟨ρ, hρ, hρ0⟩
    | emissiontrade =>
      obtain ⟨σ, hσ, -, hR, -⟩ := C62_trade_allowed hρ rfl
      exact ⟨σ, hσ, fun t ht h0 r hr => by rw [hR _ _ _ (by decide)]; exact hρ0 t ht h0 r hr⟩
    | globalcostpool => exact absurd rfl htr
  refine ⟨⟨σ, C66_no_costs_optimal hadm hn hsr hσ h0⟩, fun τ h' t ht ht0 r hr => ?_⟩
  obtain ⟨a, b, c, -, -⟩ := C66_optimum_no_abatement hadm hn hsr hem hγ hsc (.inl hdam) hσ h0 h' t ht ht0 r hr
  have hz := C66_optimum_no_costs hadm hn hsr hσ h0 h' t ht ht0 r hr
  refine ⟨hz, b, a, c, ?_⟩
  rw [NoAbate.net_eq (.inl hdam) h'.1 ht hr, hz, sub_zero]

/-! ## Examples -/
namespace Ex

example : ∃ σ, Optimal m0 p0 σ :=
  C65_optimum_exists_exogenous (admissible (by norm_num) (by norm_num))
    (fun _ r hr x => formsOk x r hr) rfl ⟨_, sol0⟩
example (d : DamageModule) (w : WelfareModule) (o : ObjectiveModule) : ∃ σ, Optimal (md0 d w o) free σ :=
  C65_optimum_exists_exogenous free_admissible free_ordinary.forms rfl ⟨_, free_sol d w o mild_half⟩
theorem freeCI_bounds (d : DamageModule) (w : WelfareModule) (o : ObjectiveModule) : CIBounds (md0 d w o) freeCI where
  adm := freeCI_admissible
  forms := freeCI_ordinary.forms
  ci := rfl
  baseline_nonneg := (freeCI_ordinary (md := md0 d w o)).baseline_nonneg
  TCRE_nonneg := (freeCI_ordinary (md := md0 d w o)).TCRE_nonneg
  lbd_le := (freeCI_ordinary (md := md0 d w o)).lbd_le
  gamma_pos := by norm_num [freeCI, free, ex]
  scaling_pos := by simp [freeCI, free, ex]
  damage_lower := by
    intro _ r hr
    refine ⟨0, fun T hT => ?_⟩
    have hT : (1 : ℝ) ≤ T := hT
    have h0 : freeCI.T0 = 1 := rfl
    have h1 : freeCI.damage_scale_factor = 1 := rfl
    have hr : r = "A" ∨ r = "B" := by simpa [freeCI, free, ex] using hr
    have h2 : freeCI.noslr = (ex "noregime" 0 none).noslr := rfl
    rw [h0, h1, h2]
    rcases hr with rfl | rfl
    · rw [formN_A, formN_A]; linarith
    · rw [formN_B, formN_B]; nlinarith
  transfers := fun _ => rfl

example (d : DamageModule) (w : WelfareModule) (o : ObjectiveModule) : ∃ σ, Optimal (md0 d w o) freeCI σ := by
  obtain ⟨Kf, hU⟩ := favourable_exists (g := 1 / 10) freeCI_admissible
  obtain ⟨σ, hσ, -⟩ := C49_path_feasible_carbon_intensity (md := md0 d w o) freeCI_admissible freeCI_ordinary
    (by norm_num) hU (limitsCI _ rfl) rfl (by simp [md0]) (Or.inl rfl)
  exact C65_optimum_exists_carbon_intensity (freeCI_bounds d w o) ⟨σ, hσ⟩
example := C65_limit_of_solutions (md := m0) (p := p0) (admissible (by norm_num) (by norm_num))
  (fun _ r hr x => formsOk x r hr) (s := fun _ => σ0) (fun _ => sol0)
  (fun _ _ => tendsto_const_nhds) (fun _ _ _ => tendsto_const_nhds)
example := C65_no_policy_optimum (md := md0 .COACCH .cost_minimising .utility) free_admissible free_ordinary
  (by simp [md0]) (.inl rfl) (fun _ => ⟨free_baseline, fun h => by simp [md0] at h⟩) (by simp [free, ex])
example (w : WelfareModule) : ∃ B, ∀ σ, Solution (md0 .COACCH w .utility) free σ →
    |Spec.objectiveValue (md0 .COACCH w .utility) free σ| ≤ B :=
  C65_objective_bounded free_admissible free_ordinary.forms (.inl rfl)
example : Optimal (md0 .nodamage .cost_minimising .globalcosts) free (σZero .cost_minimising .globalcosts) :=
  C66_no_costs_optimal free_admissible ⟨fun _ => .inl rfl, fun _ => rfl, by simp [free, ex]⟩ (by norm_num [free, ex])
    (free_sol _ _ _ mild_zero) fun t _ _ r _ => free_cost_zero _ _ t r
example (w : WelfareModule) (o : ObjectiveModule) :=
  C66_baseline_run (md := md0 .nodamage w o) free_admissible ⟨fun _ => .inl rfl, fun _ => rfl, by simp [free, ex]⟩
    (by norm_num [free, ex]) rfl free_ordinary (by simp [md0]) (by norm_num [free, ex]) (by norm_num [free, ex])
    (by norm_num [free, ex]) (.inl rfl) (fun _ => free_baseline) (by simp [free, ex])
example (w : WelfareModule) (o : ObjectiveModule) : Spec.objectiveValue (md0 .nodamage w o) free (σHalf w o) <
    Spec.objectiveValue (md0 .nodamage w o) free (σZero w o) :=
  (C66_costs_make_worse free_admissible ⟨fun _ => .inl rfl, fun _ => rfl, by simp [free, ex]⟩ (by norm_num [free, ex])
    (free_sol _ _ _ mild_zero) (fun t _ _ r _ => free_cost_zero _ _ t r) (free_sol _ _ _ mild_half)).2
    ⟨1, by norm_num [free, ex], one_pos, "A", by simp [free, ex], (free_cost_half w o 1 "A" one_pos).ne'⟩
end Ex
end Mimosa
