import Verif.Props.BindingTargets
import Verif.Props.Separable

/-!
# Concrete cases for C75

Two regions emitting 20 each for 120 years would emit 4800 in total; the budget is 1600.  With it an optimum exists, it
has abatement costs, and so the targets hold with equality somewhere.
-/

namespace Mimosa
namespace Ex
variable {w : WelfareModule} {o : ObjectiveModule} {T b : Option ℝ} {nz : Bool}

/-- The world of `ex`, with the given budget, temperature target and net-zero requirement. -/
noncomputable abbrev bq (T b : Option ℝ) (nz : Bool) : Params :=
  { ex "noregime" 0 none with temperature_target := T, budget := b, no_pos_emissions_after_budget_year := nz }

theorem bq_admissible : (bq T b nz).Admissible := { admissible (regime := "noregime") (al := 0) (conv := none) le_rfl one_pos with }

theorem bq_sol_dam (d : DamageModule) (hT : T = none ∨ T = some 2) (hb : b = none ∨ b = some 1600) :
    Solution (md0 d w o) (bq T b nz) ((x0 fun _ => 0).env (md0 d w o) (ex "noregime" 0 none)) := by
  refine C59_still_feasible (q := bq T b nz) (solution0 (conv := none) d w o le_rfl one_pos) ?_ (by norm_num [ex])
    (by simp [ex])
  exact
    { target := fun T' h => by
        rcases hT with rfl | rfl
        · cases h
        · exact ⟨T', h, le_rfl⟩
      budget := fun b' h => by
        rcases hb with rfl | rfl
        · cases h
        · exact ⟨b', h, le_rfl⟩
      inertia_global := fun b h => ⟨b, h, le_rfl⟩
      inertia_regional := fun b h => ⟨b, h, le_rfl⟩
      global_min := fun b h => ⟨b, h, le_rfl⟩
      regional_min := fun b h => ⟨b, h, le_rfl⟩
      non_increasing := id
      net_zero := fun _ => rfl
      costs_min := le_rfl
      regime := .inl rfl }

theorem bq_sol (hT : T = none ∨ T = some 2) (hb : b = none ∨ b = some 1600) :
    Solution (md0 .nodamage w o) (bq T b nz) ((x0 fun _ => 0).env (md0 .nodamage w o) (ex "noregime" 0 none)) :=
  bq_sol_dam .nodamage hT hb

theorem bq_zero_cum {t : ℕ} (ht : t ≤ 3) : Spec.pathCumulative (bq T b nz) (fun _ _ => 0) t = 1600 * t :=
  (Scaled.baseline_cum (p := bq T b nz) rfl t).trans (baseline_cum (regime := "noregime") (al := 0) (conv := none) t ht)

theorem bq_setting : Spec.CostEffectiveness (md0 .nodamage w o) (bq T b nz) where
  policy := ⟨rfl, rfl, le_rfl, le_rfl, by norm_num [ex], by simp [ex]⟩
  no_damages := rfl
  exogenous := rfl
  mac := ⟨by norm_num [ex], by norm_num [ex], by simp [ex], by norm_num [ex]⟩
  learning := by
    refine ⟨by norm_num [ex], ?_, rfl⟩
    show (2 : ℝ) ^ (-3 : ℝ) ≤ 1 / 2
    rw [Real.rpow_neg (by norm_num), show (3 : ℝ) = ((3 : ℕ) : ℝ) by norm_num, Real.rpow_natCast]
    norm_num
  baseline := by
    constructor
    · intro i hi t _
      have hi : some (-0.05 : ℝ) = some i := hi
      cases hi
      show (40 : ℝ) * (-0.05) * ([20, 20] : List ℝ).sum ≤ ([20, 20] : List ℝ).sum - ([20, 20] : List ℝ).sum
      norm_num
    · intro i hi t _ r _
      have hi : some (-0.05 : ℝ) = some i := hi
      cases hi
      show (40 : ℝ) * (-0.05) * 20 ≤ 20 - 20
      norm_num
    · intro i hi t _
      have hi : some (-20 : ℝ) = some i := hi
      cases hi
      show (-20 : ℝ) ≤ ([20, 20] : List ℝ).sum
      norm_num
    · intro i hi t _ r _
      have hi : some (-10 : ℝ) = some i := hi
      cases hi
      show (-10 : ℝ) ≤ 20
      norm_num
    · intro _ t _ _ r _; exact le_rfl
    · intro t ht
      have ht : t ≤ 3 := ht
      have h3 : (t : ℝ) ≤ 3 := by exact_mod_cast ht
      have e : Spec.pathTemperature (bq T b nz) (fun _ _ => 0) t = 1 + 0.0006 * (1600 * t) := by
        rw [← bq_zero_cum (T := T) (b := b) (nz := nz) ht]; rfl
      rw [e]
      show 0.0008 * (40 : ℝ) * _ ≤ _ ∧ (40 : ℝ) * _ ≤ _
      constructor <;> linarith
  T0_nonneg := by norm_num [ex]
  TCRE_nonneg := by norm_num [ex]

section
variable {σ : Env} (h : Solution (md0 .nodamage w o) (bq T b nz) σ)
include h

theorem bq_cost_eq {t : ℕ} (ht : t ≤ 3) {r : String} (hr : r ∈ (bq T b nz).regions) :
    σ.R .mitigation_costs t r = 5 * (σ.R .carbonprice t r * σ.R .relative_abatement t r) := by
  have h1 := (h.eqs.mitigation.mitigation_costs t ht r hr).2
  have h2 := (h.eqs.mitigation.carbonprice t ht r hr).2
  have h3 := h.eqs.emissions.baseline t ht r hr
  have h3 : σ.R .baseline t r = 20 := h3
  have ha := (h.abatement_bounds ht hr).1
  rw [h1, h2, h3]
  show σ.G .learning_factor t * 1 * (1 / 10) * σ.R .relative_abatement t r ^ ((3 : ℝ) + 1) / (3 + 1) * 20 + 0 =
    5 * (σ.G .learning_factor t * 1 * (1 / 10) * σ.R .relative_abatement t r ^ (3 : ℝ) * σ.R .relative_abatement t r)
  rw [Real.rpow_add_one' ha (by norm_num)]
  ring

theorem bq_costs {t : ℕ} (ht : t ≤ 3) {r : String} (hr : r ∈ (bq T b nz).regions) :
    0 ≤ σ.R .mitigation_costs t r ∧ σ.R .mitigation_costs t r ≤ 5 / 2 := by
  have hp := h.price_bounds (t := t) ht hr
  have hp2 : σ.R .carbonprice t r ≤ 2 * (1 / 10) := hp.2
  have ha := h.abatement_bounds (t := t) ht hr
  rw [bq_cost_eq h ht hr]
  constructor
  · have := mul_nonneg hp.1 ha.1; linarith
  · have := mul_le_mul hp2 ha.2 ha.1 (by norm_num); linarith

theorem bq_capital {r : String} (hr : r ∈ (bq T b nz).regions) {t : ℕ} (ht : t ≤ 3) : 30 ≤ σ.R .capital_stock t r := by
  induction t with
  | zero => rw [C37_initial h hr]; norm_num [ex]
  | succ t ih =>
    have ih := ih (by omega)
    have g : σ.R .GDP_gross (t + 1) r = 10 := by
      rw [(h.eqs.economy.gross t ht r hr).2]
      simp [get_TFP_value, calc_GDP_real, ex]
    have n := NoAbate.net_eq (.inl rfl) h (t := t + 1) ht hr
    have hi : σ.R .investments (t + 1) r = 1 / 5 * σ.R .GDP_net (t + 1) r := h.eqs.economy.investments (t + 1) ht r hr
    have hd := decay_range (bq_admissible (T := T) (b := b) (nz := nz)).econData
    rw [C37_explicit h (bq_admissible (T := T) (b := b) (nz := nz)).econData ht hr, le_div_iff₀ (by linarith [hd.2]), hi, n, g]
    have e2 : (bq T b nz).dt = 40 := rfl
    have := (bq_costs h (t := t + 1) ht hr).2
    rw [e2] at hd ⊢
    linarith [hd.1]

theorem bq_below_capital : Spec.CostsBelowCapital (bq T b nz) σ := by
  intro t ht r hr
  have h1 := (bq_costs h (t := t + 1) ht hr).2
  have h2 := bq_capital h hr (t := t) (Nat.le_of_lt ht)
  show (40 : ℝ) * (1 / 5 * _) < _
  linarith

/-- The budget cannot be met without costs. -/
theorem bq_must_pay (hb : b = some 1600) : ∃ t ≤ (bq T b nz).tf, 0 < t ∧
    0 < ((bq T b nz).regions.map fun r => σ.R .mitigation_costs t r).sum := by
  by_contra hall
  push Not at hall
  have hno : ∀ t ≤ 3, 0 < t → ∀ r ∈ (bq T b nz).regions, σ.R .mitigation_costs t r ≤ 0 := fun t ht h0 r hr =>
    (le_sumR (p := bq T b nz) (fun q hq => (bq_costs h ht hq).1) hr).trans (hall t ht h0)
  have ha : ∀ t ≤ 3, ∀ r ∈ (bq T b nz).regions, σ.R .relative_abatement t r = 0 := by
    intro t ht r hr
    rcases Nat.eq_zero_or_pos t with rfl | h0
    · exact (C32_no_abatement h (bq_setting (w := w) (o := o)).mac hr).1
    · by_contra hne
      have hpos := lt_of_le_of_ne (h.abatement_bounds (t := t) ht hr).1 (Ne.symm hne)
      have hl := (C31_positive h (by norm_num [ex]) (t := t) ht).2.2
      have h2 : σ.R .carbonprice t r = σ.G .learning_factor t * 1 * (1 / 10) * σ.R .relative_abatement t r ^ (3 : ℝ) :=
        (h.eqs.mitigation.carbonprice t ht r hr).2
      have h3 : 0 < σ.R .carbonprice t r := by
        have := Real.rpow_pos_of_pos hpos (3 : ℝ)
        rw [h2]; positivity
      have h4 := hno t ht h0 r hr
      rw [bq_cost_eq h ht hr] at h4
      have := mul_pos h3 hpos
      linarith
  have he : ∀ t ≤ 3, σ.G .global_emissions t = 40 := by
    intro t ht
    have hr : ∀ r ∈ (bq T b nz).regions, σ.R .regional_emissions t r = 20 := by
      intro r hr
      rcases Nat.eq_zero_or_pos t with rfl | h0
      · exact (C32_emissions h).1 r hr
      · rw [C23_abated_baseline h ht h0 hr, (C23_baseline h ht hr).1 rfl, ha t ht r hr]
        show (1 - 0) * (20 : ℝ) = 20
        norm_num
    rw [C23_global_is_sum h ht]
    show (List.map (fun r => σ.R .regional_emissions t r) ["A", "B"]).sum = 40
    simp only [List.map_cons, List.map_nil, List.sum_cons, List.sum_nil]
    rw [hr "A" (by simp [ex]), hr "B" (by simp [ex])]
    norm_num
  have c : ∀ t ≤ 3, σ.G .cumulative_emissions t = 1600 * t := by
    intro t
    induction t with
    | zero => intro _; rw [h.eqs.emissions.cumulative_init]; norm_num
    | succ t ih =>
      intro ht
      rw [h.eqs.emissions.cumulative t ht, he _ ht, he t (by omega), ih (by omega)]
      show 1600 * (t : ℝ) + (if true = true then (40 : ℝ) * (40 + 40) / 2 else _) = _
      push_cast
      norm_num
      ring
  have hb := h.eqs.emissions.budget 2 (by norm_num [ex]) 1600 hb (by show (2100 : ℝ) ≤ 2020 + _ * 40; norm_num)
  rw [c 2 (by norm_num), if_neg (by norm_num [ex])] at hb
  norm_num at hb
end

/-- C75 applies to real optima: with the temperature target, the budget and the net-zero requirement … -/
example (w : WelfareModule) (o : ObjectiveModule) :
    ∃ σ, Optimal (md0 .nodamage w o) (bq (some 2) (some 1600) true) σ ∧ Spec.TargetAttained (bq (some 2) (some 1600) true) σ := by
  obtain ⟨σ, h⟩ := C65_optimum_exists_exogenous (md := md0 .nodamage w o) (p := bq (some 2) (some 1600) true) bq_admissible
    (fun h => by cases h) rfl ⟨_, bq_sol (.inr rfl) (.inr rfl)⟩
  exact ⟨σ, h, C75_target_binds bq_admissible bq_setting (by norm_num [ex]) h (bq_below_capital h.1) (bq_must_pay h.1 rfl)⟩

/-- … and with the budget alone: it is spent exactly. -/
example (w : WelfareModule) (o : ObjectiveModule) : ∃ σ, Optimal (md0 .nodamage w o) (bq none (some 1600) false) σ ∧
    ∃ t : ℕ, t ≤ 3 ∧ 2100 ≤ (bq none (some 1600) false).year t ∧ σ.G .cumulative_emissions t = 1600 := by
  obtain ⟨σ, h⟩ := C65_optimum_exists_exogenous (md := md0 .nodamage w o) (p := bq none (some 1600) false) bq_admissible
    (fun h => by cases h) rfl ⟨_, bq_sol (.inl rfl) (.inr rfl)⟩
  exact ⟨σ, h, C75_budget_spent bq_admissible bq_setting (by norm_num [ex]) h (bq_below_capital h.1) (bq_must_pay h.1 rfl) rfl
    rfl rfl⟩

/-- Two thirds of a policy in a world without a budget. -/
example (w : WelfareModule) (o : ObjectiveModule) :=
  C75_scaled_down (md := md0 .nodamage w o) (p := bq none none true) (l := 2 / 3) bq_admissible bq_setting
    (by norm_num [ex]) (bq_sol (.inl rfl) (.inl rfl)) (bq_below_capital (bq_sol (.inl rfl) (.inl rfl))) (by norm_num)
    (by norm_num) ⟨(fun _ h => by cases h), (fun _ h => by cases h), fun h => absurd rfl h⟩

/-- A policy that halves emissions is worse than none. -/
example (w : WelfareModule) (o : ObjectiveModule) :
    Spec.objectiveValue (md0 .nodamage w o) free (σHalf w o) < Spec.objectiveValue (md0 .nodamage w o) free (σZero w o) := by
  have hK : Spec.CostsBelowCapital free (σHalf w o) := by
    intro t ht r hr
    have h1 := (free_capital (w := w) (o := o) hr (t := t + 1) ht).1
    have h2 := (free_capital (w := w) (o := o) hr (t := t) (le_of_lt ht)).2
    show (40 : ℝ) * (1 / 5 * _) < _
    linarith
  refine (C75_lower_costs_better free_admissible ⟨fun _ => .inl rfl, fun _ => rfl⟩ (by norm_num [free, ex])
    (free_sol .nodamage w o mild_half) (free_sol .nodamage w o mild_zero) hK (fun t ht h0 r _ => ?_)).2
    ⟨2, by norm_num [free, ex], by norm_num, "A", by simp [free, ex], ?_⟩
  · rw [free_cost_zero]; exact (free_cost_half w o t r h0).le
  · rw [free_cost_zero]; exact free_cost_half w o 2 "A" (by norm_num)

/-- Consumption with the cheaper path is at least as high. -/
example (w : WelfareModule) (o : ObjectiveModule) {t : ℕ} (ht : t ≤ 3) (h0 : 0 < t) :=
  C75_lower_costs_richer free_admissible (by norm_num [free, ex]) (.inl rfl) (free_sol .nodamage w o mild_half)
    (free_sol .nodamage w o mild_zero) (by
      intro t ht r hr
      have h1 := (free_capital (w := w) (o := o) hr (t := t + 1) ht).1
      have h2 := (free_capital (w := w) (o := o) hr (t := t) (le_of_lt ht)).2
      show (40 : ℝ) * (1 / 5 * _) < _
      linarith) (fun t _ h0 r _ => by rw [free_cost_zero]; exact (free_cost_half w o t r h0).le) ht h0
    (r := "A") (by simp [free, ex])

end Ex
end Mimosa
