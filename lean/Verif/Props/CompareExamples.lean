import Verif.Props.Compare
import Verif.Props.ExamplesFree

/-!
# Concrete cases for C59, C60 and C61
-/

namespace Mimosa.Ex
open Mimosa

/-- All limits dropped. -/
noncomputable def unlimited : Params :=
  { p0 with
    temperature_target := none
    budget := none
    inertia_global := none
    inertia_regional := some (-1)
    global_min_level := none
    regional_min_level := some (-11)
    non_increasing_emissions_after_2100 := false
    no_pos_emissions_after_budget_year := false }

theorem unlimited_looser : Spec.Looser p0 unlimited where
  target := by intro T h; simp [unlimited] at h
  budget := by intro T h; simp [unlimited] at h
  inertia_global := by intro T h; simp [unlimited] at h
  inertia_regional := by
    intro T h; simp only [unlimited, Option.some.injEq] at h; exact ⟨-0.05, rfl, by rw [← h]; norm_num⟩
  global_min := by intro T h; simp [unlimited] at h
  regional_min := by
    intro T h; simp only [unlimited, Option.some.injEq] at h; exact ⟨-10, rfl, by rw [← h]; norm_num⟩
  non_increasing := by intro h; simp [unlimited] at h
  net_zero := by intro h; simp [unlimited] at h
  costs_min := le_rfl
  regime := .inl rfl

example : Solution m0 (p0.withLimits unlimited) σ0 :=
  C59_still_feasible sol0 unlimited_looser (by norm_num [p0, ex]) (by norm_num [p0, ex])

example : Solution m0 { p0 with tf := 2 } σ0 := C61_shorter_horizon sol0 (by norm_num [p0, ex])

example : Solution m0 { p0 with regions := ["B", "A"] } σ0 :=
  (C60_region_order (p := p0) (List.Perm.swap "A" "B" [])).1.2 sol0

example (w : WelfareModule) :
    Optimal (md0 .nodamage w .utility) { free with regions := ["B", "A"] } (σZero w .utility) :=
  (C60_optimal (p := free) (List.Perm.swap "A" "B" [])).2 (free_optimal w)

/-- `free` with a temperature target that the path without abatement meets. -/
noncomputable abbrev target : Params := { free with temperature_target := some 100 }

theorem target_looser : Spec.Looser target free where
  target := by intro T h; simp [free] at h
  budget := fun b h => ⟨b, h, le_rfl⟩
  inertia_global := fun b h => ⟨b, h, le_rfl⟩
  inertia_regional := fun b h => ⟨b, h, le_rfl⟩
  global_min := fun b h => ⟨b, h, le_rfl⟩
  regional_min := fun b h => ⟨b, h, le_rfl⟩
  non_increasing := id
  net_zero := id
  costs_min := le_rfl
  regime := .inl rfl

theorem target_sol (w : WelfareModule) : Solution (md0 .nodamage w .utility) target (σZero w .utility) := by
  obtain ⟨htr, hr, c, hb, e⟩ := solution_char.1 (free_sol .nodamage w .utility mild_zero)
  have htfp : ∀ t r, get_TFP_value target t r = get_TFP_value free t r := fun t r =>
    TFP_congr (p := free) (p' := target) rfl (fun _ => rfl) rfl rfl rfl (fun _ => rfl) rfl t
  have hcal : ∀ t r, calibCapital target r t = calibCapital free r t := fun t r =>
    calibCapital_congr (p := free) (p' := target) rfl (fun _ => rfl) rfl rfl rfl t
  refine solution_char.2 ⟨htr, hr, ⟨?_, c.overshoot, c.index, c.forms, c.allowances⟩, ?_,
    ⟨?_, { e.slr with }, e.damages, { e.mitigation with }, e.trade, e.transfer, { e.effort with }, ?_, ?_, e.objective⟩⟩
  · exact { c.init with
      cap_pow := fun t ht r hr => by rw [hcal]; exact c.init.cap_pow t ht r hr
      tfp_ne := fun t ht r hr => by rw [hcal]; exact c.init.tfp_ne t ht r hr }
  · intro d hd
    have := sameBounds (p := free) (p' := target) rfl d hd
    have hbd := hb d hd
    cases d <;> simp only [VarDecl.SameBounds] at this <;> simp only [VarDecl.BoundsOk, this] <;> exact hbd
  · refine { e.emissions with temperature_target := fun t ht T hT hy => ?_ }
    have h1 := (mild_temp mild_zero (t := t) ht).2
    have h2 : (σZero w .utility).G .temperature t = Spec.pathTemperature free (fun _ _ => 0) t := Path.temp_eq free _ t
    simp only [Option.some.injEq] at hT
    rw [h2, ← hT]
    have h3 : (t : ℝ) ≤ 3 := by exact_mod_cast ht
    linarith
  · exact { e.economy with gross := fun t ht r hr => by rw [htfp]; exact e.economy.gross t ht r hr }
  · have := e.welfare
    revert this
    cases w <;> exact id

/-- The target does not bind, so the optimum stays the same: `C59` in both directions. -/
theorem target_optimal (w : WelfareModule) : Optimal (md0 .nodamage w .utility) target (σZero w .utility) :=
  (C59_not_binding (p := target) (q := free) (free_optimal w) (target_sol w) target_looser (by norm_num [free, ex])
    (by norm_num [free, ex])).1

example (w : WelfareModule) := C59_optimum (target_optimal w) (q := free) (free_optimal w) target_looser
  (by norm_num [free, ex]) (by norm_num [free, ex])

/-! ## C62 -/

/-- A world of one region, without limits. -/
noncomputable def solo : Params :=
  { free with regions := ["A"], damage_scale_factor := 0, inertia_global := none, inertia_regional := none,
              global_min_level := none, regional_min_level := none }

theorem solo_temp (t : ℕ) : Spec.pathTemperature solo (fun _ _ => 0) t = 1 + 0.0006 * (800 * t) := by
  have h : Spec.pathCumulative solo (fun _ _ => 0) t = 800 * t := by
    induction t with
    | zero => simp [Spec.pathCumulative]
    | succ t ih =>
      have e : Spec.pathCumulative solo (fun _ _ => 0) (t + 1) = Spec.pathCumulative solo (fun _ _ => 0) t +
        40 * (Spec.pathWorld solo (fun _ _ => 0) (t + 1) + Spec.pathWorld solo (fun _ _ => 0) t) / 2 := rfl
      have hw : ∀ t, Spec.pathWorld solo (fun _ _ => 0) t = 20 := fun t => by
        rw [Spec.pathWorld_zero]; simp [solo, free, ex]
      rw [e, ih, hw, hw]; push_cast; ring
  show 1 + 0.0006 * Spec.pathCumulative solo (fun _ _ => 0) t = _
  rw [h]

theorem solo_admissible : solo.Admissible where
  regions_ne := by simp [solo]
  dt_pos := free_admissible.dt_pos
  pop_pos := by simp [solo, free, ex]
  gdp_pos := by simp [solo, free, ex]
  sum_emissions_pos := by simp [solo, free, ex]
  cum_ne := by
    have h : ∀ t ≤ 3, solo.cumulative_global_baseline_emissions t = 800 * t := by
      intro t ht
      interval_cases t <;>
      simp [Params.cumulative_global_baseline_emissions, Params.cumulative_baseline_emissions, solo, free, ex,
        List.range_succ, Params.trapz] <;> norm_num
    intro t ht
    rw [h _ ht]
    push_cast
    positivity
  lbd_pos := free_admissible.lbd_pos
  lbd_scaling := free_admissible.lbd_scaling
  lot := free_admissible.lot
  beta_pos := free_admissible.beta_pos
  alpha_nonneg := free_admissible.alpha_nonneg
  alpha_lt := free_admissible.alpha_lt
  dk_nonneg := free_admissible.dk_nonneg
  dk_lt := free_admissible.dk_lt
  sr_nonneg := free_admissible.sr_nonneg
  capital_pos := by simp [solo, free, ex]
  elasmu := free_admissible.elasmu
  inequal := free_admissible.inequal

theorem solo_ordinary {md : Modules} : Spec.OrdinaryData md solo where
  baseline_nonneg := by simp [solo, free, ex]
  T0_nonneg := (free_ordinary (md := md)).T0_nonneg
  TCRE_nonneg := (free_ordinary (md := md)).TCRE_nonneg
  lbd_le := (free_ordinary (md := md)).lbd_le
  lot_nonneg := (free_ordinary (md := md)).lot_nonneg
  gamma_nonneg := (free_ordinary (md := md)).gamma_nonneg
  scaling_nonneg := by simp [solo, free, ex]
  reversible := (free_ordinary (md := md)).reversible
  start := (free_ordinary (md := md)).start
  forms := fun hm r hr x => (free_ordinary (md := md)).forms hm r (by simp [solo] at hr; simp [hr, free, ex]) x

theorem solo_baseline : Spec.BaselineWithinLimits solo where
  no_target := rfl
  no_budget := rfl
  inertia_global := by intro i h; cases h
  inertia_regional := by intro i h; cases h
  min_global := by intro i h; cases h
  min_regional := by intro i h; cases h
  non_increasing := fun _ _ _ _ _ _ => le_rfl
  cost_floor := le_of_eq rfl
  melt := by
    intro t ht
    have h3 : (t : ℝ) ≤ 3 := by exact_mod_cast ht
    rw [solo_temp]
    constructor
    · show 0.0008 * 40 * (_ + 1) ≤ (0.26 : ℝ); linarith
    · show 40 * (_ + 0.6) ≤ (7300 : ℝ); linarith
  sea_damages := by
    intro t ht r hr
    have : solo.damage_scale_factor = 0 := rfl
    rw [this, zero_mul]; norm_num

theorem solo_sol (w : WelfareModule) (o : ObjectiveModule) {tr : TradeModule} (htr : tr ≠ .globalcostpool)
    {tm : TransferModule} : ∃ σ, Solution ⟨.nodamage, tr, tm, w, o⟩ solo σ :=
  let ⟨σ, h, _⟩ := C49_no_policy_feasible_exogenous (md := ⟨.nodamage, tr, tm, w, o⟩) solo_admissible solo_ordinary
    solo_baseline rfl htr (fun _ h => by cases h) (.inl rfl)
  ⟨σ, h⟩

/-- With trade, and without. -/
example (w : WelfareModule) (o : ObjectiveModule) : ∃ σ, Solution ⟨.nodamage, .emissiontrade, .notransfer, w, o⟩ solo σ ∧
    Solution ⟨.nodamage, .notrade, .notransfer, w, o⟩ solo σ :=
  let ⟨σ, h⟩ := solo_sol w o (tr := .emissiontrade) (by simp) (tm := .notransfer)
  ⟨σ, h, (C62_single_region h rfl rfl).2.2 (by decide)⟩

example (w : WelfareModule) (o : ObjectiveModule) :
    ∃ σ, Solution ⟨.nodamage, .notrade, .globaldamagepool, w, o⟩ solo σ ∧
      ∀ t ≤ solo.tf, σ.R .financial_transfer t "A" = 0 :=
  let ⟨σ, h⟩ := solo_sol w o (tr := .notrade) (by simp) (tm := .globaldamagepool)
  ⟨σ, h, C62_single_region_transfers h rfl rfl⟩

/-- The two-region example with a target, a budget and damages, opened to trade. -/
example := C62_trade_allowed sol0 rfl

/-- Transfers allowed in a run without damages. -/
example (w : WelfareModule) (o : ObjectiveModule) := C62_transfers_allowed (free_sol .nodamage w o mild_half) rfl
  (fun t ht r hr => by
    have := (free_sol .nodamage w o mild_half).eqs.damages t ht r hr
    rw [this, zero_mul])

/-- The modules without damages, any trade and transfers. -/
abbrev mdOpen (tr : TradeModule) (tm : TransferModule) (w : WelfareModule) : Modules := ⟨.nodamage, tr, tm, w, .utility⟩

/-- Without damages, consumption is at most 8 (the lower bound on relative costs is 0). -/
theorem open_cons {tr : TradeModule} {tm : TransferModule} {w : WelfareModule} {τ : Env}
    (h : Solution (mdOpen tr tm w) free τ) {t : ℕ} (ht : t ≤ 3) {r : String} (hr : r ∈ free.regions) :
    τ.R .consumption t r ≤ 8 := by
  have h1 := h.eqs.economy.consumption t ht r hr
  have h2 := h.eqs.economy.net t ht r hr
  have h3 : τ.R .damage_costs t r = 0 := h.eqs.damages t ht r hr
  have hg := free_gross h ht hr
  have h4 := C33_relative h ht hr
  have h5 : 0 ≤ τ.R .rel_mitigation_costs t r := by
    rcases Nat.eq_zero_or_pos t with h0 | h0
    · exact h4.2.2.2 h0
    · exact h4.2.2.1 h0
  rw [h4.2.1, hg] at h5
  have h6 : 0 ≤ transferVal τ tm t r := by
    have := h.eqs.transfer
    cases tm
    · exact le_rfl
    · have := (this : PoolEqs free τ).max_own t ht r hr
      rw [h3] at this
      simpa [transferVal] using this
  have h7 : 0 ≤ τ.R .mitigation_costs t r := by
    by_contra hneg
    push Not at hneg
    have : τ.R .mitigation_costs t r / 10 < 0 := by linarith
    linarith
  rw [h3, hg] at h2
  rw [h1, h2]
  show (1 - 1 / 5) * (10 * (1 - if false = true then 0 else 0) - _ - _) ≤ 8
  norm_num
  linarith

theorem open_sol {tr : TradeModule} (htr : tr ≠ .globalcostpool) (tm : TransferModule) (w : WelfareModule) :
    Solution (mdOpen tr tm w) free ((Path.x fun _ _ => 0).env (mdOpen tr tm w) free) :=
  Drivers.build_solution free_admissible (Path.ok free_admissible free_ordinary (mild_limits mild_zero) rfl
    htr (fun _ h => by cases h) (Or.inl rfl))

theorem open_cons_zero {tr : TradeModule} (htr : tr ≠ .globalcostpool) (tm : TransferModule) (w : WelfareModule)
    {t : ℕ} (ht : t ≤ 3) {r : String} (hr : r ∈ free.regions) :
    ((Path.x fun _ _ => 0).env (mdOpen tr tm w) free).R .consumption t r = 8 := by
  have h := open_sol htr tm w
  have h1 := h.eqs.economy.consumption t ht r hr
  have h2 := h.eqs.economy.net t ht r hr
  have h3 := h.eqs.damages t ht r hr
  have hg := free_gross h ht hr
  have h4 : ((Path.x fun _ _ => 0).env (mdOpen tr tm w) free).R .mitigation_costs t r = 0 := by
    cases tr
    case globalcostpool => exact absurd rfl htr
    all_goals
      show (Path.x fun _ _ => 0).learn free t * 1 * (1 / 10) * (0 : ℝ) ^ ((3 : ℝ) + 1) / (3 + 1) * 20 + 0 = 0
      rw [Real.zero_rpow (by norm_num)]; simp
  have h5 : transferVal ((Path.x fun _ _ => 0).env (mdOpen tr tm w) free) tm t r = 0 := by
    cases tm <;> rfl
  have h3' : ((Path.x fun _ _ => 0).env (mdOpen tr tm w) free).R .damage_costs t r = 0 := h3
  rw [h3', hg, h4, h5] at h2
  rw [h1, h2]
  show (1 - 1 / 5) * (10 * (1 - if false = true then 0 else 0) - _ - _) = (8 : ℝ)
  norm_num

theorem open_optimal {tr : TradeModule} (htr : tr ≠ .globalcostpool) (tm : TransferModule) (w : WelfareModule) :
    Optimal (mdOpen tr tm w) free ((Path.x fun _ _ => 0).env (mdOpen tr tm w) free) := by
  refine ⟨open_sol htr tm w, fun τ hτ => ?_⟩
  have hz := open_sol htr tm w
  set ζ := (Path.x fun _ _ => 0).env (mdOpen tr tm w) free
  show τ.G .NPV free.tf ≤ ζ.G .NPV free.tf
  have hless : ∀ t ≤ free.tf, ∀ r ∈ free.regions, τ.R .consumption t r ≤ ζ.R .consumption t r := fun t ht r hr => by
    rw [open_cons_zero htr tm w ht hr]; exact open_cons hτ ht hr
  have hw : ∀ t ≤ free.tf, τ.G .yearly_welfare t ≤ ζ.G .yearly_welfare t := by
    intro t ht
    by_cases hall : ∃ r ∈ free.regions, τ.R .consumption t r < ζ.R .consumption t r
    · exact (C44_more_consumption_more_welfare hτ hz ht (free_pop t ht) (hless t ht) hall).le
    · push Not at hall
      exact (C44_only_consumption_matters rfl hτ hz ht fun r hr =>
        le_antisymm (hless t ht r hr) (hall r hr)).1.le
  by_cases hlt : ∃ t ≤ free.tf, 0 < t ∧ τ.G .yearly_welfare t < ζ.G .yearly_welfare t
  · exact (C45_more_welfare_better hτ hz rfl (by norm_num [free, ex]) (fun t ht _ => hw t ht) hlt).le
  · push Not at hlt
    rw [C45_utility hτ rfl le_rfl, C45_utility hz rfl le_rfl]
    unfold Spec.discountedSum
    apply le_of_eq
    refine Finset.sum_congr rfl fun t ht => ?_
    have ht' : t + 1 ≤ free.tf := by simpa using ht
    dsimp only
    rw [le_antisymm (hw (t + 1) ht') (hlt (t + 1) ht' (by omega))]

/-- Optima with and without trade, and with and without transfers. -/
example (tm : TransferModule) (w : WelfareModule) :=
  C62_trade_optimum (open_optimal (tr := .notrade) (by simp) tm w) rfl (open_optimal (tr := .emissiontrade) (by simp) tm w)
example (w : WelfareModule) :=
  C62_transfers_optimum (open_optimal (tr := .notrade) (by simp) .notransfer w) rfl
    (fun t ht r hr => by
      have := (open_sol (tr := .notrade) (by simp) .notransfer w).eqs.damages t ht r hr
      exact le_of_eq (by rw [this, zero_mul]))
    (open_optimal (tr := .notrade) (by simp) .globaldamagepool w)

end Mimosa.Ex
