import Verif.Lib.CarbonIntensity

/-!
# The set of solutions is closed

Env is given the topology of pointwise convergence.  Every constraint passes to limits.
-/

set_option linter.unusedSimpArgs false

namespace Mimosa
open Damages Topology

/-- Pointwise convergence of assignments. -/
instance : TopologicalSpace Env := .induced (fun σ => (σ.g, σ.r)) inferInstance

theorem Env.isInducing : IsInducing (fun σ : Env => (σ.g, σ.r)) := ⟨rfl⟩

@[fun_prop] theorem Env.continuous_g (v : GVar) (t : ℤ) : Continuous fun σ : Env => σ.g v t := by
  have h : Continuous fun x : (GVar → ℤ → ℝ) × (RVar → ℤ → String → ℝ) => x.1 v t := by fun_prop
  exact h.comp Env.isInducing.continuous
@[fun_prop] theorem Env.continuous_r (v : RVar) (t : ℤ) (r : String) : Continuous fun σ : Env => σ.r v t r := by
  have h : Continuous fun x : (GVar → ℤ → ℝ) × (RVar → ℤ → String → ℝ) => x.2 v t r := by fun_prop
  exact h.comp Env.isInducing.continuous
@[fun_prop] theorem Env.continuous_G (v : GVar) (t : ℕ) : Continuous fun σ : Env => σ.G v t := Env.continuous_g v t
@[fun_prop] theorem Env.continuous_R (v : RVar) (t : ℕ) (r : String) : Continuous fun σ : Env => σ.R v t r :=
  Env.continuous_r v t r

@[fun_prop] theorem continuous_sumR (p : Params) {f : Env → String → ℝ} (h : ∀ r, Continuous fun σ => f σ r) :
    Continuous fun σ => p.sumR (f σ) := by
  unfold Params.sumR
  exact continuous_list_sum _ fun r _ => h r

@[fun_prop] theorem continuous_soft_min_comp {f : Env → ℝ} (h : Continuous f) (s : ℝ) :
    Continuous fun σ => soft_min (f σ) s := (continuous_soft_min (s := s)).comp h

theorem continuous_soft_pow {f : Env → ℝ} (h : Continuous f) (e : ℝ) {s : ℝ} (hs : 0 < s) :
    Continuous fun σ => soft_min (f σ) s ^ e :=
  (continuous_soft_min_comp h s).rpow_const fun σ => Or.inl (soft_min_pos (f σ) hs).ne'

theorem continuous_transferVal (tm : TransferModule) (t : ℕ) (r : String) : Continuous fun σ => transferVal σ tm t r := by
  cases tm <;> simp only [transferVal] <;> fun_prop
theorem continuous_relTransferVal (tm : TransferModule) (t : ℕ) (r : String) :
    Continuous fun σ => relTransferVal σ tm t r := by
  cases tm <;> simp only [relTransferVal] <;> fun_prop
theorem continuous_costBalanceVal (tr : TradeModule) (t : ℕ) (r : String) :
    Continuous fun σ => costBalanceVal σ tr t r := by
  cases tr <;> simp only [costBalanceVal] <;> fun_prop

section limits
variable {S : Set Env} {τ : Env} (hτ : τ ∈ closure S) {f g : Env → ℝ}
include hτ

theorem lim_eq (hf : Continuous f) (hg : Continuous g) (h : ∀ σ ∈ S, f σ = g σ) : f τ = g τ :=
  (closure_minimal (fun σ hσ => h σ hσ) (isClosed_eq hf hg)) hτ
theorem lim_le (hf : Continuous f) (hg : Continuous g) (h : ∀ σ ∈ S, f σ ≤ g σ) : f τ ≤ g τ :=
  (closure_minimal (fun σ hσ => h σ hσ) (isClosed_le hf hg)) hτ
end limits

variable {md : Modules} {p : Params} {S : Set Env} {τ : Env}

theorem closed_emissions (h : ∀ σ ∈ S, EmissionsEqs p σ) (hτ : τ ∈ closure S) : EmissionsEqs p τ where
  baseline t ht r hr := by
    refine lim_eq hτ (by fun_prop) ?_ fun σ hσ => (h σ hσ).baseline t ht r hr
    split <;> fun_prop
  regional_emissions t ht r hr := by
    refine lim_eq hτ (by fun_prop) ?_ fun σ hσ => (h σ hσ).regional_emissions t ht r hr
    split <;> fun_prop
  regional_emissions_init r hr := lim_eq hτ (by fun_prop) (by fun_prop) fun σ hσ => (h σ hσ).regional_emissions_init r hr
  reduction t ht r hr := lim_eq hτ (by fun_prop) (by fun_prop) fun σ hσ => (h σ hσ).reduction t ht r hr
  global_emissions t ht := lim_eq hτ (by fun_prop) (by fun_prop) fun σ hσ => (h σ hσ).global_emissions t ht
  global_emissions_init := lim_eq hτ (by fun_prop) (by fun_prop) fun σ hσ => (h σ hσ).global_emissions_init
  cumulative t ht := by
    refine lim_eq hτ (by fun_prop) ?_ fun σ hσ => (h σ hσ).cumulative t ht
    split <;> fun_prop
  cumulative_init := lim_eq hτ (by fun_prop) (by fun_prop) fun σ hσ => (h σ hσ).cumulative_init
  rel_cumulative t ht := by
    obtain ⟨σ₀, hσ₀⟩ := closure_nonempty_iff.1 ⟨τ, hτ⟩
    exact ⟨((h σ₀ hσ₀).rel_cumulative t ht).1,
      lim_eq hτ (by fun_prop) (by fun_prop) fun σ hσ => ((h σ hσ).rel_cumulative t ht).2⟩
  rel_cumulative_init := lim_eq hτ (by fun_prop) (by fun_prop) fun σ hσ => (h σ hσ).rel_cumulative_init
  temperature t ht := lim_eq hτ (by fun_prop) (by fun_prop) fun σ hσ => (h σ hσ).temperature t ht
  temperature_init := lim_eq hτ (by fun_prop) (by fun_prop) fun σ hσ => (h σ hσ).temperature_init
  temperature_target t ht T hT hy :=
    lim_le hτ (by fun_prop) (by fun_prop) fun σ hσ => (h σ hσ).temperature_target t ht T hT hy
  budget t ht b hb hy := by
    refine lim_le hτ ?_ (by fun_prop) fun σ hσ => (h σ hσ).budget t ht b hb hy
    split <;> fun_prop
  cumulative_nonneg t ht := lim_le hτ (by fun_prop) (by fun_prop) fun σ hσ => (h σ hσ).cumulative_nonneg t ht
  global_inertia t ht i hi := lim_le hτ (by fun_prop) (by fun_prop) fun σ hσ => (h σ hσ).global_inertia t ht i hi
  regional_inertia t ht r hr i hi :=
    lim_le hτ (by fun_prop) (by fun_prop) fun σ hσ => (h σ hσ).regional_inertia t ht r hr i hi
  global_min_level t ht l hl := lim_le hτ (by fun_prop) (by fun_prop) fun σ hσ => (h σ hσ).global_min_level t ht l hl
  regional_min_level t ht r hr l hl :=
    lim_le hτ (by fun_prop) (by fun_prop) fun σ hσ => (h σ hσ).regional_min_level t ht r hr l hl
  non_increasing t ht r hr hy hn :=
    lim_le hτ (by fun_prop) (by fun_prop) fun σ hσ => (h σ hσ).non_increasing t ht r hr hy hn
  net_zero t ht hy hn hb := lim_le hτ (by fun_prop) (by fun_prop) fun σ hσ => (h σ hσ).net_zero t ht hy hn hb

theorem closed_slr (h : ∀ σ ∈ S, SlrEqs p σ) (hτ : τ ∈ closure S) : SlrEqs p τ where
  thermal t ht := lim_eq hτ (by fun_prop) (by fun_prop) fun σ hσ => (h σ hσ).thermal t ht
  thermal_init := lim_eq hτ (by fun_prop) (by fun_prop) fun σ hσ => (h σ hσ).thermal_init
  gsic t ht := lim_eq hτ (by fun_prop) (by fun_prop) fun σ hσ => (h σ hσ).gsic t ht
  gsic_init := lim_eq hτ (by fun_prop) (by fun_prop) fun σ hσ => (h σ hσ).gsic_init
  gis t ht := lim_eq hτ (by fun_prop) (by fun_prop) fun σ hσ => (h σ hσ).gis t ht
  gis_init := lim_eq hτ (by fun_prop) (by fun_prop) fun σ hσ => (h σ hσ).gis_init
  total t ht := lim_eq hτ (by fun_prop) (by fun_prop) fun σ hσ => (h σ hσ).total t ht

theorem closed_damages (hf : md.damage = .COACCH → ∀ r ∈ p.regions, ∀ x, FormOk x p.noslr r ∧ FormOk x p.slr r)
    (h : ∀ σ ∈ S, DamageEqs p σ md.damage) (hτ : τ ∈ closure S) : DamageEqs p τ md.damage := by
  cases hd : md.damage with
  | nodamage =>
    simp only [hd, DamageEqs] at h ⊢
    exact fun t ht r hr => lim_eq hτ (by fun_prop) (by fun_prop) fun σ hσ => h σ hσ t ht r hr
  | COACCH =>
    simp only [hd, DamageEqs] at h ⊢
    have hc : ∀ r ∈ p.regions, (Continuous fun x => formVal x p.noslr r) ∧ Continuous fun x => formVal x p.slr r :=
      fun r hr => ⟨formVal_continuous fun x => (hf hd r hr x).1, formVal_continuous fun x => (hf hd r hr x).2⟩
    exact {
      total := fun t ht r hr => lim_eq hτ (by fun_prop) (by fun_prop) fun σ hσ => (h σ hσ).total t ht r hr
      noslr := fun t ht r hr => by
        refine ⟨(hf hd r hr _).1, (hf hd r hr _).1, ?_⟩
        refine lim_eq hτ (by fun_prop) ?_ fun σ hσ => ((h σ hσ).noslr t ht r hr).2.2
        exact (((hc r hr).1.comp (by fun_prop : Continuous fun σ : Env => σ.G .temperature t - 0.6)).sub
          continuous_const).const_mul _
      slr := fun t ht r hr => by
        refine ⟨(hf hd r hr _).2, (hf hd r hr _).2, ?_⟩
        refine lim_eq hτ (by fun_prop) ?_ fun σ hσ => ((h σ hσ).slr t ht r hr).2.2
        exact (((hc r hr).2.comp (by fun_prop : Continuous fun σ : Env => σ.G .total_SLR t)).sub
          ((hc r hr).2.comp (by fun_prop : Continuous fun σ : Env => σ.G .total_SLR 0))).const_mul _
      mort_oldest := fun t ht r hr => lim_eq hτ (by fun_prop) (by fun_prop) fun σ hσ => (h σ hσ).mort_oldest t ht r hr
      mort_older := fun t ht r hr => lim_eq hτ (by fun_prop) (by fun_prop) fun σ hσ => (h σ hσ).mort_older t ht r hr
      mort_young := fun t ht r hr => lim_eq hτ (by fun_prop) (by fun_prop) fun σ hσ => (h σ hσ).mort_young t ht r hr
      mort_cost := fun t ht r hr => lim_eq hτ (by fun_prop) (by fun_prop) fun σ hσ => (h σ hσ).mort_cost t ht r hr }

theorem powOk_nonneg {x e : ℝ} (hx : 0 ≤ x) (he : 0 < e) : Expr.PowOk x e := by
  rcases hx.eq_or_lt with h | h
  · exact Or.inr (Or.inl ⟨h.symm, he.le⟩)
  · exact .of_pos h

theorem continuous_macVal (hβ : 0 ≤ p.MAC_beta) (t : ℕ) (r : String) : Continuous fun σ => macVal p σ t r := by
  unfold macVal
  have : Continuous fun σ : Env => σ.R .relative_abatement t r ^ p.MAC_beta :=
    (Env.continuous_R .relative_abatement t r).rpow_const fun _ => Or.inr hβ
  fun_prop
theorem continuous_acVal (hβ : 0 ≤ p.MAC_beta) (t : ℕ) (r : String) : Continuous fun σ => acVal p σ t r := by
  unfold acVal
  have : Continuous fun σ : Env => σ.R .relative_abatement t r ^ (p.MAC_beta + 1) :=
    (Env.continuous_R .relative_abatement t r).rpow_const fun _ => Or.inr (by linarith)
  fun_prop

theorem closed_mitigation (hβ : 0 < p.MAC_beta) (h : ∀ σ ∈ S, MitigationEqs p σ md.trade) (hτ : τ ∈ closure S)
    (hgdp : ∀ t ≤ p.tf, ∀ r ∈ p.regions, 0 < τ.R .GDP_gross t r) (hne : p.regions ≠ [])
    (hab : ∀ t ≤ p.tf, ∀ r ∈ p.regions, 0 ≤ τ.R .relative_abatement t r) : MitigationEqs p τ md.trade where
  carbonprice t ht r hr := ⟨powOk_nonneg (hab t ht r hr) hβ,
    lim_eq hτ (by fun_prop) (continuous_macVal hβ.le t r) fun σ hσ => ((h σ hσ).carbonprice t ht r hr).2⟩
  carbonprice_init r hr := lim_eq hτ (by fun_prop) (by fun_prop) fun σ hσ => (h σ hσ).carbonprice_init r hr
  mitigation_costs t ht r hr := by
    refine ⟨⟨powOk_nonneg (hab t ht r hr) (by linarith), by linarith⟩, ?_⟩
    have h1 := continuous_acVal (p := p) hβ.le t r
    have h2 := continuous_costBalanceVal md.trade t r
    exact lim_eq hτ (by fun_prop) (by fun_prop) fun σ hσ => ((h σ hσ).mitigation_costs t ht r hr).2
  area t ht r hr := by
    refine ⟨⟨powOk_nonneg (hab t ht r hr) (by linarith), by linarith⟩, ?_⟩
    have h1 := continuous_acVal (p := p) hβ.le t r
    exact lim_eq hτ (by fun_prop) (by fun_prop) fun σ hσ => ((h σ hσ).area t ht r hr).2
  rel_costs t ht r hr := by
    refine ⟨(hgdp t ht r hr).ne', ?_⟩
    rw [eq_div_iff (hgdp t ht r hr).ne']
    refine lim_eq (f := fun σ => σ.R .rel_mitigation_costs t r * σ.R .GDP_gross t r)
      (g := fun σ => σ.R .mitigation_costs t r) hτ (by fun_prop) (by fun_prop) fun σ hσ => ?_
    have := (h σ hσ).rel_costs t ht r hr
    simp only [this.2]; exact div_mul_cancel₀ _ this.1
  rel_costs_min t ht r hr := lim_le hτ (by fun_prop) (by fun_prop) fun σ hσ => (h σ hσ).rel_costs_min t ht r hr
  global_rel t ht := by
    have hs := sumR_pos hne (hgdp t ht)
    refine ⟨hs.ne', ?_⟩
    rw [eq_div_iff hs.ne']
    refine lim_eq (f := fun σ => σ.G .global_rel_mitigation_costs t * p.sumR fun r => σ.R .GDP_gross t r)
      (g := fun σ => p.sumR fun r => σ.R .mitigation_costs t r) hτ (by fun_prop) (by fun_prop) fun σ hσ => ?_
    have := (h σ hσ).global_rel t ht
    simp only [this.2]; exact div_mul_cancel₀ _ this.1
  reduction_per_cost t ht := by
    refine lim_eq hτ (by fun_prop) ?_ fun σ hσ => (h σ hσ).reduction_per_cost t ht
    exact Continuous.div (by fun_prop) (by fun_prop) fun σ => (soft_min_pos_one _).ne'
  cost_per_reduction t ht := by
    refine lim_eq hτ (by fun_prop) ?_ fun σ hσ => (h σ hσ).cost_per_reduction t ht
    exact Continuous.div (by fun_prop) (by fun_prop) fun σ => (soft_min_pos_one _).ne'
  lbd t ht := by
    obtain ⟨σ₀, hσ₀⟩ := closure_nonempty_iff.1 ⟨τ, hτ⟩
    refine ⟨((h σ₀ hσ₀).lbd t ht).1, lim_eq hτ (by fun_prop) ?_ fun σ hσ => ((h σ hσ).lbd t ht).2⟩
    exact continuous_soft_pow (by fun_prop) _ one_pos
  lot t ht := by
    obtain ⟨σ₀, hσ₀⟩ := closure_nonempty_iff.1 ⟨τ, hτ⟩
    exact ⟨((h σ₀ hσ₀).lot t ht).1, ((h σ₀ hσ₀).lot t ht).2.1,
      lim_eq hτ (by fun_prop) (by fun_prop) fun σ hσ => ((h σ hσ).lot t ht).2.2⟩
  learning t ht := lim_eq hτ (by fun_prop) (by fun_prop) fun σ hσ => (h σ hσ).learning t ht

theorem closed_trade (htr : md.trade ≠ .globalcostpool) (h : ∀ σ ∈ S, TradeModuleEqs p σ md.trade)
    (hτ : τ ∈ closure S) : TradeModuleEqs p τ md.trade := by
  cases hd : md.trade with
  | notrade => trivial
  | globalcostpool => exact absurd hd htr
  | emissiontrade =>
    simp only [hd, TradeModuleEqs] at h ⊢
    obtain ⟨σ₀, hσ₀⟩ := closure_nonempty_iff.1 ⟨τ, hτ⟩
    exact {
      price := fun t ht => ⟨((h σ₀ hσ₀).price t ht).1,
        lim_eq hτ (by fun_prop) (by fun_prop) fun σ hσ => ((h σ hσ).price t ht).2⟩
      zero_sum := fun t ht => lim_eq hτ (by fun_prop) (by fun_prop) fun σ hσ => (h σ hσ).zero_sum t ht
      reduction_balance := fun t ht r hr => by
        refine lim_eq hτ (by fun_prop) ?_ fun σ hσ => (h σ hσ).reduction_balance t ht r hr
        exact Continuous.div (by fun_prop) (by fun_prop) fun σ => (soft_min_pos_one _).ne'
      paid := fun t ht r hr => lim_eq hτ (by fun_prop) (by fun_prop) fun σ hσ => (h σ hσ).paid t ht r hr
      allowances := fun t ht r hr => lim_eq hτ (by fun_prop) (by fun_prop) fun σ hσ => (h σ hσ).allowances t ht r hr }

theorem closed_transfer (h : ∀ σ ∈ S, TransferModuleEqs p σ md.transfer)
    (hτ : τ ∈ closure S) : TransferModuleEqs p τ md.transfer := by
  cases hd : md.transfer with
  | notransfer => trivial
  | globaldamagepool =>
    simp only [hd, TransferModuleEqs] at h ⊢
    exact {
      zero_sum := fun t ht => lim_eq hτ (by fun_prop) (by fun_prop) fun σ hσ => (h σ hσ).zero_sum t ht
      first_year := fun r hr => lim_eq hτ (by fun_prop) (by fun_prop) fun σ hσ => (h σ hσ).first_year r hr
      max_own := fun t ht r hr => lim_le hτ (by fun_prop) (by fun_prop) fun σ hσ => (h σ hσ).max_own t ht r hr
      rel := fun t ht r hr => lim_eq hτ (by fun_prop) (by fun_prop) fun σ hσ => (h σ hσ).rel t ht r hr }

theorem closed_effort (tm : TransferModule) (h : ∀ σ ∈ S, EffortEqs p σ tm) (hτ : τ ∈ closure S) : EffortEqs p τ tm where
  mitigation t ht r hr hg := ⟨
    lim_le hτ (by fun_prop) (by fun_prop) fun σ hσ => ((h σ hσ).mitigation t ht r hr hg).1,
    lim_le hτ (by fun_prop) (by fun_prop) fun σ hσ => ((h σ hσ).mitigation t ht r hr hg).2⟩
  total t ht r hr hg hy := by
    have := continuous_relTransferVal tm t r
    exact ⟨lim_le hτ (by fun_prop) (by fun_prop) fun σ hσ => ((h σ hσ).total t ht r hr hg hy).1,
      lim_le hτ (by fun_prop) (by fun_prop) fun σ hσ => ((h σ hσ).total t ht r hr hg hy).2⟩
  percap t ht r hr hg := ⟨
    lim_le hτ (by fun_prop) (by fun_prop) fun σ hσ => ((h σ hσ).percap t ht r hr hg).1,
    lim_le hτ (by fun_prop) (by fun_prop) fun σ hσ => ((h σ hσ).percap t ht r hr hg).2⟩

theorem closed_economy (tm : TransferModule) (h : ∀ σ ∈ S, EconomyEqs p σ tm) (hτ : τ ∈ closure S) :
    EconomyEqs p τ tm := by
  obtain ⟨σ₀, hσ₀⟩ := closure_nonempty_iff.1 ⟨τ, hτ⟩
  exact {
    gross := fun t ht r hr => by
      refine ⟨((h σ₀ hσ₀).gross t ht r hr).1, lim_eq hτ (by fun_prop) ?_ fun σ hσ => ((h σ hσ).gross t ht r hr).2⟩
      exact (continuous_soft_pow (by fun_prop) _ (by norm_num)).const_mul _
    gross_init := fun r hr => lim_eq hτ (by fun_prop) (by fun_prop) fun σ hσ => (h σ hσ).gross_init r hr
    net := fun t ht r hr => by
      have := continuous_transferVal tm t r
      refine lim_eq hτ (by fun_prop) ?_ fun σ hσ => (h σ hσ).net t ht r hr
      split <;> fun_prop
    investments := fun t ht r hr => lim_eq hτ (by fun_prop) (by fun_prop) fun σ hσ => (h σ hσ).investments t ht r hr
    consumption := fun t ht r hr => lim_eq hτ (by fun_prop) (by fun_prop) fun σ hσ => (h σ hσ).consumption t ht r hr
    capital := fun t ht r hr => ⟨((h σ₀ hσ₀).capital t ht r hr).1, ((h σ₀ hσ₀).capital t ht r hr).2.1,
      lim_eq hτ (by fun_prop) (by fun_prop) fun σ hσ => ((h σ hσ).capital t ht r hr).2.2⟩
    capital_init := fun r hr => lim_eq hτ (by fun_prop) (by fun_prop) fun σ hσ => (h σ hσ).capital_init r hr }

theorem closed_welfare (w : WelfareModule) (h : ∀ σ ∈ S, WelfareEqs p σ w) (hτ : τ ∈ closure S) : WelfareEqs p τ w := by
  obtain ⟨σ₀, hσ₀⟩ := closure_nonempty_iff.1 ⟨τ, hτ⟩
  cases w with
  | welfare_loss_minimising =>
    refine ⟨fun t ht r hr => ?_, fun t ht => ?_⟩
    · have h0 := (h σ₀ hσ₀).1 t ht r hr
      refine ⟨h0.1, h0.2.1, lim_eq hτ (by fun_prop) ?_ fun σ hσ => ((h σ hσ).1 t ht r hr).2.2⟩
      exact ((continuous_soft_pow (by fun_prop) _ one_pos).sub continuous_const).div_const _
    · exact lim_eq hτ (by fun_prop) (by fun_prop) fun σ hσ => (h σ hσ).2 t ht
  | cost_minimising =>
    refine ⟨fun t ht r hr => ?_, fun t ht => ?_⟩
    · have h0 := (h σ₀ hσ₀).1 t ht r hr
      exact ⟨h0.1, lim_eq hτ (by fun_prop) (by fun_prop) fun σ hσ => ((h σ hσ).1 t ht r hr).2⟩
    · have h0 := (h σ₀ hσ₀).2 t ht
      refine ⟨h0.1, h0.2.1, lim_eq hτ (by fun_prop) ?_ fun σ hσ => ((h σ hσ).2 t ht).2.2⟩
      exact (((continuous_soft_pow (by fun_prop) _ one_pos).sub continuous_const).div_const _).const_mul _
  | inequal_aversion_general =>
    refine ⟨fun t ht r hr => ?_, fun t ht => ?_⟩
    · have h0 := (h σ₀ hσ₀).1 t ht r hr
      refine ⟨h0.1, lim_eq hτ (by fun_prop) ?_ fun σ hσ => ((h σ hσ).1 t ht r hr).2⟩
      exact (continuous_soft_pow (by fun_prop) _ one_pos).const_mul _
    · have h0 := (h σ₀ hσ₀).2 t ht
      refine ⟨h0.1, h0.2.1, h0.2.2.1, lim_eq hτ (by fun_prop) ?_ fun σ hσ => ((h σ hσ).2 t ht).2.2.2⟩
      exact ((continuous_soft_pow (by fun_prop) _ one_pos).div_const _).const_mul _

theorem closed_objective (o : ObjectiveModule) (h : ∀ σ ∈ S, ObjectiveEqs p σ o) (hτ : τ ∈ closure S) :
    ObjectiveEqs p τ o := by
  cases o with
  | utility =>
    exact ⟨fun t ht => lim_eq hτ (by fun_prop) (by fun_prop) fun σ hσ => (h σ hσ).1 t ht,
      lim_eq hτ (by fun_prop) (by fun_prop) fun σ hσ => (h σ hσ).2⟩
  | globalcosts =>
    exact ⟨fun t ht => lim_eq hτ (by fun_prop) (by fun_prop) fun σ hσ => (h σ hσ).1 t ht,
      lim_eq hτ (by fun_prop) (by fun_prop) fun σ hσ => (h σ hσ).2⟩

theorem closed_bounds (d : VarDecl) (h : ∀ σ ∈ S, d.BoundsOk p σ) (hτ : τ ∈ closure S) : d.BoundsOk p τ := by
  cases d with
  | global v lb ub =>
    exact fun t ht => ⟨fun b hb => lim_le hτ (by fun_prop) (by fun_prop) fun σ hσ => (h σ hσ t ht).1 b hb,
      fun b hb => lim_le hτ (by fun_prop) (by fun_prop) fun σ hσ => (h σ hσ t ht).2 b hb⟩
  | regional v lb ub =>
    exact fun t ht r hr => ⟨fun b hb => lim_le hτ (by fun_prop) (by fun_prop) fun σ hσ => (h σ hσ t ht r hr).1 b hb,
      fun b hb => lim_le hτ (by fun_prop) (by fun_prop) fun σ hσ => (h σ hσ t ht r hr).2 b hb⟩

/-- A limit of solutions is a solution. -/
theorem solution_closed (hadm : p.Admissible)
    (hf : md.damage = .COACCH → ∀ r ∈ p.regions, ∀ x, FormOk x p.noslr r ∧ FormOk x p.slr r) :
    IsClosed {σ | Solution md p σ} := by
  refine isClosed_of_closure_subset fun τ hτ => ?_
  set S := {σ | Solution md p σ}
  have hS : ∀ σ ∈ S, Solution md p σ := fun σ h => h
  obtain ⟨σ₀, hσ₀⟩ := closure_nonempty_iff.1 ⟨τ, hτ⟩
  have hec := closed_economy md.transfer (fun σ hσ => (hS σ hσ).eqs.economy) hτ
  have hgdp : ∀ t ≤ p.tf, ∀ r ∈ p.regions, 0 < τ.R .GDP_gross t r := by
    intro t ht r hr
    cases t with
    | zero => rw [hec.gross_init r hr]; exact hadm.gdp_pos 0 ht r hr
    | succ t =>
      rw [(hec.gross t (by omega) r hr).2]
      have := tfp_pos hadm ht hr
      have := Real.rpow_pos_of_pos (hadm.pop_pos (t + 1) ht r hr) (1 - p.alpha)
      have := Real.rpow_pos_of_pos (soft_min_pos_ten (τ.R .capital_stock (t + 1) r)) p.alpha
      positivity
  have hab : ∀ t ≤ p.tf, ∀ r ∈ p.regions, 0 ≤ τ.R .relative_abatement t r := fun t ht r hr =>
    lim_le hτ (f := fun _ => 0) (by fun_prop) (by fun_prop) fun σ hσ => ((hS σ hσ).abatement_bounds ht hr).1
  refine solution_char.2 ⟨(hS σ₀ hσ₀).trade_ne, hadm.regions_ne, (hS σ₀ hσ₀).instOk,
    fun d hd => closed_bounds d (fun σ hσ => (hS σ hσ).bounds d hd) hτ, ?_⟩
  exact {
    emissions := closed_emissions (fun σ hσ => (hS σ hσ).eqs.emissions) hτ
    slr := closed_slr (fun σ hσ => (hS σ hσ).eqs.slr) hτ
    damages := closed_damages hf (fun σ hσ => (hS σ hσ).eqs.damages) hτ
    mitigation := closed_mitigation hadm.beta_pos (fun σ hσ => (hS σ hσ).eqs.mitigation) hτ hgdp hadm.regions_ne hab
    trade := closed_trade (hS σ₀ hσ₀).trade_ne (fun σ hσ => (hS σ hσ).eqs.trade) hτ
    transfer := closed_transfer (fun σ hσ => (hS σ hσ).eqs.transfer) hτ
    effort := closed_effort md.transfer (fun σ hσ => (hS σ hσ).eqs.effort) hτ
    economy := hec
    welfare := closed_welfare md.welfare (fun σ hσ => (hS σ hσ).eqs.welfare) hτ
    objective := closed_objective md.objective (fun σ hσ => (hS σ hσ).eqs.objective) hτ }

end Mimosa
