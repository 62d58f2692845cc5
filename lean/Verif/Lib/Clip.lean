import Verif.Lib.Closed

/-!
# Coordinates that no constraint mentions

Some values of an assignment are not constrained at all: indices outside the index sets, variables that are not
declared, and a few declared variables in the first period.  `clip` sets them to zero; this does not affect being a
solution.
-/

set_option linter.unusedSimpArgs false

namespace Mimosa
open Damages

/-- The global variable occurs in a constraint at time `t`. -/
abbrev KeptG (md : Modules) (p : Params) (v : GVar) (t : ℤ) : Prop :=
  match v with
  | .overshoot => False
  | .global_emission_reduction_per_cost_unit | .global_cost_per_emission_reduction_unit => 0 < t
  | .global_carbonprice => md.trade = .emissiontrade
  | .effort_sharing_common_level => p.effort_sharing_regime = "equal_mitigation_costs" ∨
      (p.effort_sharing_regime = "equal_total_costs" ∧ p.year t ≤ 2100)
  | _ => True

/-- The regional variable occurs in a constraint at time `t`. -/
abbrev KeptR (md : Modules) (v : RVar) (t : ℤ) : Prop :=
  match v with
  | .damage_costs_non_slr | .damage_costs_slr | .mortality_oldest | .mortality_older | .mortality_young
  | .mortality_cost_oldest => md.damage = .COACCH
  | .paid_for_emission_reductions | .regional_emission_allowances
  | .import_export_emission_reduction_balance => md.trade = .emissiontrade ∧ 0 < t
  | .import_export_mitigation_cost_balance => md.trade = .emissiontrade
  | .financial_transfer | .rel_financial_transfer => md.transfer = .globaldamagepool
  | _ => True

open Classical in
/-- Set everything that is not constrained to zero. -/
noncomputable def clip (md : Modules) (p : Params) (σ : Env) : Env where
  g v t := if (0 ≤ t ∧ t ≤ p.tf) ∧ KeptG md p v t then σ.g v t else 0
  r v t r := if (0 ≤ t ∧ t ≤ p.tf) ∧ r ∈ p.regions ∧ KeptR md v t then σ.r v t r else 0

variable {md : Modules} {p : Params} {σ : Env}

theorem clip_G {v : GVar} {t : ℕ} (ht : t ≤ p.tf) (hk : KeptG md p v t) : (clip md p σ).G v t = σ.G v t := by
  simp only [clip, Env.G]
  rw [if_pos ⟨⟨by omega, by omega⟩, hk⟩]
theorem clip_R {v : RVar} {t : ℕ} {r : String} (ht : t ≤ p.tf) (hr : r ∈ p.regions) (hk : KeptR md v t) :
    (clip md p σ).R v t r = σ.R v t r := by
  simp only [clip, Env.R]
  rw [if_pos ⟨⟨by omega, by omega⟩, hr, hk⟩]
theorem clip_sum {v : RVar} {t : ℕ} (ht : t ≤ p.tf) (hk : KeptR md v t) :
    p.sumR (fun r => (clip md p σ).R v t r) = p.sumR fun r => σ.R v t r :=
  sumR_congr fun _ hr => clip_R ht hr hk

local macro "clp" : tactic => `(tactic|
  simp (disch := first | assumption | omega | simp [KeptG, KeptR, *]) only [clip_G, clip_R, clip_sum])

theorem clip_emissions (hi : InstanceOk md p) (h : EmissionsEqs p σ) : EmissionsEqs p (clip md p σ) where
  baseline t ht r hr := by clp; exact h.baseline t ht r hr
  regional_emissions t ht r hr := by clp; exact h.regional_emissions t ht r hr
  regional_emissions_init r hr := by clp; exact h.regional_emissions_init r hr
  reduction t ht r hr := by clp; exact h.reduction t ht r hr
  global_emissions t ht := by clp; exact h.global_emissions t ht
  global_emissions_init := by clp; exact h.global_emissions_init
  cumulative t ht := by clp; exact h.cumulative t ht
  cumulative_init := by clp; exact h.cumulative_init
  rel_cumulative t ht := by clp; exact h.rel_cumulative t ht
  rel_cumulative_init := by clp; exact h.rel_cumulative_init
  temperature t ht := by clp; exact h.temperature t ht
  temperature_init := by clp; exact h.temperature_init
  temperature_target t ht := by clp; exact h.temperature_target t ht
  budget t ht b hb hy := by
    have := h.budget t ht b hb hy
    by_cases hp : p.perc_reversible_damages < 1
    · have := hi.overshoot (by simp [hb]) hp t ht; linarith
    · simp only [hp, if_false] at this ⊢
      clp; exact this
  cumulative_nonneg t ht := by clp; exact h.cumulative_nonneg t ht
  global_inertia t ht := by clp; exact h.global_inertia t ht
  regional_inertia t ht r hr := by clp; exact h.regional_inertia t ht r hr
  global_min_level t ht := by clp; exact h.global_min_level t ht
  regional_min_level t ht r hr := by clp; exact h.regional_min_level t ht r hr
  non_increasing t ht r hr hy hn := by
    cases t with
    | zero =>
      have := hi.index hn
      simp only [CharP.cast_eq_zero, zero_sub] at hy
      linarith
    | succ t =>
      have := h.non_increasing (t + 1) ht r hr hy hn
      rw [cast_succ_sub_one] at this ⊢
      have e1 : (clip md p σ).R .regional_emissions (t + 1) r = σ.R .regional_emissions (t + 1) r := clip_R ht hr trivial
      have e2 : (clip md p σ).R .regional_emissions t r = σ.R .regional_emissions t r := clip_R (by omega) hr trivial
      rw [e1]; rw [show (clip md p σ).r .regional_emissions t r = σ.r .regional_emissions t r from e2]; exact this
  net_zero t ht := by clp; exact h.net_zero t ht

theorem clip_slr (h : SlrEqs p σ) : SlrEqs p (clip md p σ) where
  thermal t ht := by clp; exact h.thermal t ht
  thermal_init := by clp; exact h.thermal_init
  gsic t ht := by clp; exact h.gsic t ht
  gsic_init := by clp; exact h.gsic_init
  gis t ht := by clp; exact h.gis t ht
  gis_init := by clp; exact h.gis_init
  total t ht := by clp; exact h.total t ht

theorem clip_damages (h : DamageEqs p σ md.damage) : DamageEqs p (clip md p σ) md.damage := by
  cases hd : md.damage with
  | nodamage =>
    simp only [hd, DamageEqs] at h ⊢
    intro t ht r hr; clp; exact h t ht r hr
  | COACCH =>
    simp only [hd, DamageEqs] at h ⊢
    exact {
      total := fun t ht r hr => by clp; exact h.total t ht r hr
      noslr := fun t ht r hr => by clp; exact h.noslr t ht r hr
      slr := fun t ht r hr => by clp; exact h.slr t ht r hr
      mort_oldest := fun t ht r hr => by clp; exact h.mort_oldest t ht r hr
      mort_older := fun t ht r hr => by clp; exact h.mort_older t ht r hr
      mort_young := fun t ht r hr => by clp; exact h.mort_young t ht r hr
      mort_cost := fun t ht r hr => by clp; exact h.mort_cost t ht r hr }

theorem clip_mac {t : ℕ} (ht : t ≤ p.tf) {r : String} (hr : r ∈ p.regions) :
    macVal p (clip md p σ) t r = macVal p σ t r := by unfold macVal; clp
theorem clip_ac {t : ℕ} (ht : t ≤ p.tf) {r : String} (hr : r ∈ p.regions) :
    acVal p (clip md p σ) t r = acVal p σ t r := by unfold acVal; clp
theorem clip_acOk {t : ℕ} (ht : t ≤ p.tf) {r : String} (hr : r ∈ p.regions) :
    AcOk p (clip md p σ) t r ↔ AcOk p σ t r := by unfold AcOk; clp
theorem clip_balance (htr : md.trade ≠ .globalcostpool) {t : ℕ} (ht : t ≤ p.tf) {r : String} (hr : r ∈ p.regions) :
    costBalanceVal (clip md p σ) md.trade t r = costBalanceVal σ md.trade t r := by
  unfold costBalanceVal
  cases hd : md.trade
  · rfl
  · exact absurd hd htr
  · simp only; clp
theorem clip_transferVal {t : ℕ} (ht : t ≤ p.tf) {r : String} (hr : r ∈ p.regions) :
    transferVal (clip md p σ) md.transfer t r = transferVal σ md.transfer t r := by
  unfold transferVal
  cases hd : md.transfer
  · rfl
  · simp only; clp
theorem clip_relTransferVal {t : ℕ} (ht : t ≤ p.tf) {r : String} (hr : r ∈ p.regions) :
    relTransferVal (clip md p σ) md.transfer t r = relTransferVal σ md.transfer t r := by
  unfold relTransferVal
  cases hd : md.transfer
  · rfl
  · simp only; clp

theorem clip_mitigation (htr : md.trade ≠ .globalcostpool) (h : MitigationEqs p σ md.trade) :
    MitigationEqs p (clip md p σ) md.trade where
  carbonprice t ht r hr := by rw [clip_mac ht hr]; clp; exact h.carbonprice t ht r hr
  carbonprice_init r hr := by clp; exact h.carbonprice_init r hr
  mitigation_costs t ht r hr := by
    rw [clip_ac ht hr, clip_acOk ht hr, clip_balance htr ht hr]; clp; exact h.mitigation_costs t ht r hr
  area t ht r hr := by rw [clip_ac ht hr, clip_acOk ht hr]; clp; exact h.area t ht r hr
  rel_costs t ht r hr := by clp; exact h.rel_costs t ht r hr
  rel_costs_min t ht r hr := by clp; exact h.rel_costs_min t ht r hr
  global_rel t ht := by clp; exact h.global_rel t ht
  reduction_per_cost t ht := by clp; exact h.reduction_per_cost t ht
  cost_per_reduction t ht := by clp; exact h.cost_per_reduction t ht
  lbd t ht := by clp; exact h.lbd t ht
  lot t ht := by clp; exact h.lot t ht
  learning t ht := by clp; exact h.learning t ht

theorem clip_trade (htr : md.trade ≠ .globalcostpool) (h : TradeModuleEqs p σ md.trade) :
    TradeModuleEqs p (clip md p σ) md.trade := by
  cases hd : md.trade with
  | notrade => trivial
  | globalcostpool => exact absurd hd htr
  | emissiontrade =>
    simp only [hd, TradeModuleEqs] at h ⊢
    exact {
      price := fun t ht => by
        have e : p.sumR (fun r => (clip md p σ).R .carbonprice t r * p.population t r) =
            p.sumR fun r => σ.R .carbonprice t r * p.population t r :=
          sumR_congr fun r hr => by clp
        rw [e]; clp; exact h.price t ht
      zero_sum := fun t ht => by clp; exact h.zero_sum t ht
      reduction_balance := fun t ht r hr => by clp; exact h.reduction_balance t ht r hr
      paid := fun t ht r hr => by clp; exact h.paid t ht r hr
      allowances := fun t ht r hr => by clp; exact h.allowances t ht r hr }

theorem clip_transfer (h : TransferModuleEqs p σ md.transfer) : TransferModuleEqs p (clip md p σ) md.transfer := by
  cases hd : md.transfer with
  | notransfer => trivial
  | globaldamagepool =>
    simp only [hd, TransferModuleEqs] at h ⊢
    exact {
      zero_sum := fun t ht => by clp; exact h.zero_sum t ht
      first_year := fun r hr => by clp; exact h.first_year r hr
      max_own := fun t ht r hr => by clp; exact h.max_own t ht r hr
      rel := fun t ht r hr => by clp; exact h.rel t ht r hr }

theorem clip_effort (hi : InstanceOk md p) (h : EffortEqs p σ md.transfer) :
    EffortEqs p (clip md p σ) md.transfer where
  mitigation t ht r hr hg := by clp; exact h.mitigation t ht r hr hg
  total t ht r hr hg hy := by
    have hk : KeptG md p .effort_sharing_common_level t := Or.inr ⟨hg, hy⟩
    rw [clip_relTransferVal ht hr, clip_G ht hk]; clp; exact h.total t ht r hr hg hy
  percap t ht r hr hg := by
    rcases hi.allowances hg with htr | h0
    · clp; exact h.percap t ht r hr hg
    · omega

theorem clip_economy (h : EconomyEqs p σ md.transfer) : EconomyEqs p (clip md p σ) md.transfer where
  gross t ht r hr := by clp; exact h.gross t ht r hr
  gross_init r hr := by clp; exact h.gross_init r hr
  net t ht r hr := by rw [clip_transferVal ht hr]; clp; exact h.net t ht r hr
  investments t ht r hr := by clp; exact h.investments t ht r hr
  consumption t ht r hr := by clp; exact h.consumption t ht r hr
  capital t ht r hr := by clp; exact h.capital t ht r hr
  capital_init r hr := by clp; exact h.capital_init r hr

theorem clip_welfare (w : WelfareModule) (h : WelfareEqs p σ w) : WelfareEqs p (clip md p σ) w := by
  cases w with
  | welfare_loss_minimising =>
    refine ⟨fun t ht r hr => by clp; exact h.1 t ht r hr, fun t ht => ?_⟩
    have e : p.sumR (fun r => p.population t r * (clip md p σ).R .utility t r) =
        p.sumR fun r => p.population t r * σ.R .utility t r := sumR_congr fun r hr => by clp
    rw [e]; clp; exact h.2 t ht
  | cost_minimising =>
    exact ⟨fun t ht r hr => by clp; exact h.1 t ht r hr, fun t ht => by clp; exact h.2 t ht⟩
  | inequal_aversion_general =>
    exact ⟨fun t ht r hr => by clp; exact h.1 t ht r hr, fun t ht => by clp; exact h.2 t ht⟩

theorem clip_objective (o : ObjectiveModule) (h : ObjectiveEqs p σ o) : ObjectiveEqs p (clip md p σ) o := by
  cases o with
  | utility => exact ⟨fun t ht => by clp; exact h.1 t ht, by clp; exact h.2⟩
  | globalcosts =>
    refine ⟨fun t ht => ?_, by clp; exact h.2⟩
    have e : p.sumR (fun r => (clip md p σ).R .damage_costs (t + 1) r * (clip md p σ).R .GDP_gross (t + 1) r) =
        p.sumR fun r => σ.R .damage_costs (t + 1) r * σ.R .GDP_gross (t + 1) r := sumR_congr fun r hr => by clp
    rw [e]; clp; exact h.1 t ht

/-- A variable that has bounds is not clipped. -/
def BoundsKept (md : Modules) (p : Params) : VarDecl → Prop
  | .global v lb ub => (lb p = none ∧ ub p = none) ∨ ∀ t, KeptG md p v t
  | .regional v lb ub => (lb p = none ∧ ub p = none) ∨ ∀ t, KeptR md v t

theorem clip_bounds (d : VarDecl) (h : d.BoundsOk p σ) (hd : BoundsKept md p d) : d.BoundsOk p (clip md p σ) := by
  cases d with
  | global v lb ub =>
    intro t ht
    rcases hd with ⟨h1, h2⟩ | hk
    · simp [h1, h2]
    · have e : (clip md p σ).g v t = σ.g v t := clip_G ht (hk t)
      rw [e]; exact h t ht
  | regional v lb ub =>
    intro t ht r hr
    rcases hd with ⟨h1, h2⟩ | hk
    · simp [h1, h2]
    · have e : (clip md p σ).r v t r = σ.r v t r := clip_R ht hr (hk t)
      rw [e]; exact h t ht r hr

theorem boundsKept (htr : md.trade ≠ .globalcostpool) : ∀ d ∈ allVars md, BoundsKept md p d := by
  simp only [allVars, components, List.flatMap_cons, List.flatMap_nil, List.append_nil, List.forall_mem_append]
  refine ⟨?_, ?_, ?_, ?_, ?_, ?_, ?_, ?_, ?_, ?_⟩
  · simp [Emissions.component, BoundsKept, noBound]
  · simp [SeaLevelRise.component, BoundsKept, noBound]
  · cases hd : md.damage <;> simp [damageComponent, Damages.coacch, Damages.nodamage, BoundsKept, noBound, hd]
  · simp [Mitigation.component, BoundsKept, noBound]
  · cases hd : md.trade
    · simp [EmissionTrade.component, EmissionTrade.notrade]
    · exact absurd hd htr
    · simp [EmissionTrade.component, EmissionTrade.emissiontrade, BoundsKept, noBound]
  · cases hd : md.transfer <;>
      simp [FinTransfer.component, FinTransfer.notransfer, FinTransfer.globaldamagepool, BoundsKept, noBound]
  · simp [EffortSharing.component, BoundsKept, noBound]
  · simp [CobbDouglas.component, BoundsKept, noBound]
  · cases md.welfare <;> simp [Welfare.component, BoundsKept, noBound]
  · cases md.objective <;> simp [Objective.component, BoundsKept, noBound]

theorem clip_solution (h : Solution md p σ) : Solution md p (clip md p σ) := by
  have htr := h.trade_ne
  refine solution_char.2 ⟨htr, h.regions_ne, h.instOk,
    fun d hd => clip_bounds d (h.bounds d hd) (boundsKept htr d hd), ?_⟩
  have e := h.eqs
  exact {
    emissions := clip_emissions h.instOk e.emissions
    slr := clip_slr e.slr
    damages := clip_damages e.damages
    mitigation := clip_mitigation htr e.mitigation
    trade := clip_trade htr e.trade
    transfer := clip_transfer e.transfer
    effort := clip_effort h.instOk e.effort
    economy := clip_economy e.economy
    welfare := clip_welfare md.welfare e.welfare
    objective := clip_objective md.objective e.objective }

end Mimosa
