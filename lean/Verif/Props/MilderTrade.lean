import Verif.Props.MilderClimate
import Verif.Props.CostEffectiveExamples

/-!
# C68 and C72 with emission trade

With emission trade the costs a region bears are its own abatement costs plus what it pays to the others, so lower
abatement costs alone do not settle who gains.  The same abatement remains possible in the milder world, with payments
that let no region pay more than before, and then every region has at least the consumption it had: the optimum is not
worse.
-/

set_option linter.unusedVariables false

namespace Mimosa
open Damages

variable {md : Modules} {p : Params} {σ τ : Env} {γ lot s k : ℝ} {sc : String → ℝ}

/-- The settings of the comparison (`Spec.UnsharedPolicy`) with emission trade. -/
structure Spec.TradedPolicy (md : Modules) (p : Params) : Prop extends Spec.UnsharedPolicy md p where
  trade : md.trade = .emissiontrade

/-- The outcome for the regions in `τ` is at least that in `σ`: no region bears higher costs of abatement, and none has
a smaller product, capital stock or consumption, in any model year. -/
def Spec.NobodyWorse (p : Params) (σ τ : Env) : Prop :=
  ∀ t : ℕ, t ≤ p.tf → ∀ r ∈ p.regions,
    τ.R .mitigation_costs t r ≤ σ.R .mitigation_costs t r ∧ τ.R .damage_costs t r ≤ σ.R .damage_costs t r ∧
    σ.R .capital_stock t r ≤ τ.R .capital_stock t r ∧ σ.R .GDP_gross t r ≤ τ.R .GDP_gross t r ∧
    σ.R .GDP_net t r ≤ τ.R .GDP_net t r ∧ σ.R .consumption t r ≤ τ.R .consumption t r

namespace MilderTrade

section
variable {bal : ℕ → String → ℝ} (hadm : p.Admissible) (hm : Spec.Milder p γ sc lot s) (h : Solution md p σ)
  (hex : p.use_carbon_intensity_for_baseline = false)
include hadm hm h hex

theorem learn_le {t : ℕ} (ht : t ≤ p.tf) : 0 < (Milder.x σ bal).learn (Spec.withWorld p γ sc lot s k) t ∧
    (Milder.x σ bal).learn (Spec.withWorld p γ sc lot s k) t ≤ σ.G .learning_factor t := by
  have e := h.eqs
  have l := (Milder.admissible (k := k) hadm hm).lot
  refine ⟨mul_pos (Real.rpow_pos_of_pos (soft_min_pos_one _) _) (one_div_pos.2 (Real.rpow_pos_of_pos l _)), ?_⟩
  have cumE := Milder.cum_eq (bal := bal) (γ := γ) (sc := sc) (lot := lot) (s := s) (k := k) h hex ht
  have e1 : (Milder.x σ bal).lbd (Spec.withWorld p γ sc lot s k) t = σ.G .LBD_factor t := by
    rw [(e.mitigation.lbd t ht).2, ← cumE]; rfl
  have hb : 0 < σ.G .LBD_factor t := by
    rw [(e.mitigation.lbd t ht).2]; exact Real.rpow_pos_of_pos (soft_min_pos_one _) _
  rw [e.mitigation.learning t ht, Drivers.learn, e1, (e.mitigation.lot t ht).2.2]
  refine mul_le_mul_of_nonneg_left ?_ hb.le
  exact one_div_le_one_div_of_le (Real.rpow_pos_of_pos hadm.lot _)
    (Real.rpow_le_rpow hadm.lot.le (by show _ ≤ 1 + lot; linarith [hm.learning]) (Nat.cast_nonneg t))

/-- The costs of the same abatement in the milder world. -/
theorem area_le (hb : ∀ t ≤ p.tf, ∀ r ∈ p.regions, 0 ≤ p.baseline_emissions t r) {t : ℕ} (ht : t ≤ p.tf)
    {r : String} (hr : r ∈ p.regions) : 0 ≤ (Milder.x σ bal).area (Spec.withWorld p γ sc lot s k) t r ∧
    (0 < t → (Milder.x σ bal).area (Spec.withWorld p γ sc lot s k) t r ≤ σ.R .area_under_MAC t r) := by
  obtain ⟨l0, l1⟩ := learn_le (bal := bal) (k := k) hadm hm h hex ht
  have h1 := hm.gamma; have h2 := hm.level r hr
  have h3 := hb t ht r hr
  have h7 := hadm.beta_pos
  have a0 : 0 ≤ (Milder.x σ bal).a t r := by
    simp only [Milder.x]
    split
    · norm_num
    · exact (h.abatement_bounds ht hr).1
  have h6 := Real.rpow_nonneg a0 (p.MAC_beta + 1)
  have e1 : (Milder.x σ bal).area (Spec.withWorld p γ sc lot s k) t r =
      (Milder.x σ bal).learn (Spec.withWorld p γ sc lot s k) t * sc r * γ * (Milder.x σ bal).a t r ^ (p.MAC_beta + 1) /
      (p.MAC_beta + 1) * p.baseline_emissions t r := rfl
  refine ⟨by rw [e1]; have := h2.1; have := h1.1; positivity, fun h0 => ?_⟩
  have ea : (Milder.x σ bal).a t r = σ.R .relative_abatement t r := by simp [Milder.x]; omega
  have hpow := Real.rpow_nonneg (h.abatement_bounds ht hr).1 (p.MAC_beta + 1)
  rw [e1, (h.eqs.mitigation.area t ht r hr).2, ea, (C23_baseline h ht hr).1 hex]
  unfold acVal
  have : 0 ≤ σ.G .learning_factor t := l0.le.trans l1
  refine mul_le_mul_of_nonneg_right (div_le_div_of_nonneg_right (mul_le_mul_of_nonneg_right
    (mul_le_mul (mul_le_mul l1 h2.2 h2.1 this) h1.2 h1.1 (mul_nonneg this (h2.1.trans h2.2))) hpow) (by linarith)) h3

/-- Regions that pay no more and suffer no more damage have at least the capital. -/
theorem capital (hf : md.transfer = .notransfer)
    (hK : ∀ t < p.tf, ∀ r ∈ p.regions, p.dt * (p.sr * σ.R .mitigation_costs (t + 1) r) < σ.R .capital_stock t r)
    (hc : ∀ t ≤ p.tf, 0 < t → ∀ r ∈ p.regions,
      (Milder.x σ bal).cost md (Spec.withWorld p γ sc lot s k) t r ≤ σ.R .mitigation_costs t r)
    (hd : ∀ t ≤ p.tf, ∀ r ∈ p.regions,
      (Milder.x σ bal).dam md (Spec.withWorld p γ sc lot s k) t r ≤ σ.R .damage_costs t r)
    {t : ℕ} (ht : t ≤ p.tf) {r : String} (hr : r ∈ p.regions) :
    σ.R .capital_stock t r ≤ (Milder.x σ bal).K md (Spec.withWorld p γ sc lot s k) t r := by
  induction t with
  | zero => rw [h.eqs.economy.capital_init r hr]; exact le_rfl
  | succ t ih =>
    have hle := ih (by omega)
    have hA : (0 : ℝ) < 2 - (1 - p.dk) ^ p.dt := by linarith [dk_pow_le hadm]
    have e := h.capital_eq hadm ht hr
    have n := h.eqs.economy.net (t + 1) ht r hr
    have g := (h.eqs.economy.gross t ht r hr).2
    have e' := (Milder.x σ bal).K_step md (Spec.withWorld p γ sc lot s k) (Milder.admissible hadm hm) rfl t r
    rw [hf] at n
    simp only [transferVal, sub_zero] at n
    have hds : 0 ≤ p.dt * p.sr := mul_nonneg hadm.dt_pos.le hadm.sr_nonneg
    have hcc := mul_le_mul_of_nonneg_left (hc (t + 1) ht (Nat.succ_pos t) r hr) hds
    have hdd := hd (t + 1) ht r hr
    have eT : get_TFP_value (Spec.withWorld p γ sc lot s k) (t + 1) r = get_TFP_value p (t + 1) r :=
      TFP_congr (p := p) (p' := Spec.withWorld p γ sc lot s k) rfl (fun _ => rfl) rfl rfl rfl (fun _ => rfl) rfl _
    unfold Drivers.CapStep Drivers.netOf Drivers.grossOf Drivers.transfer at e'
    rw [hf, eT] at e'
    simp only [sub_zero] at e'
    have hF : 0 < get_TFP_value p (t + 1) r * p.population (t + 1) r ^ (1 - p.alpha) :=
      mul_pos (tfp_pos hadm ht hr) (Real.rpow_pos_of_pos (hadm.pop_pos (t + 1) ht r hr) _)
    set K' := (Milder.x σ bal).K md (Spec.withWorld p γ sc lot s k) with hK'
    set c' := (Milder.x σ bal).cost md (Spec.withWorld p γ sc lot s k) (t + 1) r with hc'
    set d' := (Milder.x σ bal).dam md (Spec.withWorld p γ sc lot s k) (t + 1) r with hd'
    set F := get_TFP_value p (t + 1) r * p.population (t + 1) r ^ (1 - p.alpha) with hFd
    set D := (if p.ignore_damages then (0 : ℝ) else σ.R .damage_costs (t + 1) r) with hD
    set D' := (if p.ignore_damages then (0 : ℝ) else d') with hD'
    have hl : D' ≤ D := by
      rw [hD, hD']
      split <;> [exact le_rfl; exact hdd]
    refine capital_le (A := 2 - (1 - p.dk) ^ p.dt)
      (B := σ.R .capital_stock t r - p.dt * p.sr * σ.R .mitigation_costs (t + 1) r)
      (B' := K' t r - p.dt * p.sr * c')
      (C := p.dt * p.sr * F * (1 - D)) (C' := p.dt * p.sr * F * (1 - D'))
      hA ?_ hadm.alpha_nonneg hadm.alpha_lt (by linarith) ?_ ?_ ?_
    · have := hK t ht r hr; linarith
    · exact mul_le_mul_of_nonneg_left (by linarith) (mul_nonneg hds hF.le)
    · rw [e, n, g]; ring
    · have hdt := hadm.dt_pos.ne'
      have e2 : p.dt * (((1 - p.dk) ^ p.dt - 1) / p.dt * K' (t + 1) r) =
          ((1 - p.dk) ^ p.dt - 1) * K' (t + 1) r := by field_simp
      rw [mul_add, e2] at e'
      linarith

theorem gross (hf : md.transfer = .notransfer)
    (hK : ∀ t < p.tf, ∀ r ∈ p.regions, p.dt * (p.sr * σ.R .mitigation_costs (t + 1) r) < σ.R .capital_stock t r)
    (hc : ∀ t ≤ p.tf, 0 < t → ∀ r ∈ p.regions,
      (Milder.x σ bal).cost md (Spec.withWorld p γ sc lot s k) t r ≤ σ.R .mitigation_costs t r)
    (hd : ∀ t ≤ p.tf, ∀ r ∈ p.regions,
      (Milder.x σ bal).dam md (Spec.withWorld p γ sc lot s k) t r ≤ σ.R .damage_costs t r)
    {t : ℕ} (ht : t ≤ p.tf) {r : String} (hr : r ∈ p.regions) :
    σ.R .GDP_gross t r ≤ (Milder.x σ bal).gross md (Spec.withWorld p γ sc lot s k) t r := by
  unfold Drivers.gross
  cases t with
  | zero => rw [h.eqs.economy.gross_init r hr]; simp
  | succ t =>
    have hKK := capital hadm hm h hex hf hK hc hd ht hr
    have eT : get_TFP_value (Spec.withWorld p γ sc lot s k) (t + 1) r = get_TFP_value p (t + 1) r :=
      TFP_congr (p := p) (p' := Spec.withWorld p γ sc lot s k) rfl (fun _ => rfl) rfl rfl rfl (fun _ => rfl) rfl _
    rw [(h.eqs.economy.gross t ht r hr).2, if_neg (by omega)]
    unfold Drivers.grossOf
    rw [eT]
    have hF : 0 < get_TFP_value p (t + 1) r * p.population (t + 1) r ^ (1 - p.alpha) :=
      mul_pos (tfp_pos hadm ht hr) (Real.rpow_pos_of_pos (hadm.pop_pos (t + 1) ht r hr) _)
    refine mul_le_mul_of_nonneg_left ?_ hF.le
    exact Real.rpow_le_rpow (soft_min_pos_ten _).le ((soft_min_strictMono (by norm_num)).monotone hKK) hadm.alpha_nonneg

/-- The same abatement, with payments that let nobody pay more. -/
theorem possible (hp : Spec.TradedPolicy md p)
    (hK : ∀ t < p.tf, ∀ r ∈ p.regions, p.dt * (p.sr * σ.R .mitigation_costs (t + 1) r) < σ.R .capital_stock t r)
    (hd : ∀ bal : ℕ → String → ℝ, ∀ t ≤ p.tf, ∀ r ∈ p.regions,
      (Milder.x σ bal).dam md (Spec.withWorld p γ sc lot s k) t r ≤ σ.R .damage_costs t r)
    (hok : ∀ bal : ℕ → String → ℝ, (∀ t ≤ p.tf, 0 < t → p.sumR (bal t) = 0) →
      (∀ t ≤ p.tf, ∀ r ∈ p.regions, (if t > 0 then p.rel_mitigation_costs_min_level else 0) ≤
        (Milder.x σ bal).cost md (Spec.withWorld p γ sc lot s k) t r /
          (Milder.x σ bal).gross md (Spec.withWorld p γ sc lot s k) t r) →
      (Milder.x σ bal).Ok md (Spec.withWorld p γ sc lot s k)) :
    ∃ τ, Solution md (Spec.withWorld p γ sc lot s k) τ ∧ Spec.SamePolicy p σ τ ∧
      ∀ t : ℕ, t ≤ p.tf → ∀ r ∈ p.regions, τ.R .mitigation_costs t r ≤ σ.R .mitigation_costs t r := by
  set q := Spec.withWorld p γ sc lot s k with hq
  have htr := hp.trade
  have hnp : md.trade ≠ .globalcostpool := by rw [htr]; decide
  set A : ℕ → ℝ := fun t => p.sumR fun r => (Milder.x σ fun _ _ => 0).area q t r with hA
  set bal : ℕ → String → ℝ := fun t r => Shift.pays p σ (A t) t r - (Milder.x σ fun _ _ => 0).area q t r with hbal
  have ar := fun {t} (ht : t ≤ p.tf) {r} (hr : r ∈ p.regions) =>
    area_le (bal := fun _ _ => 0) (k := k) hadm hm h hex hp.baseline ht hr
  have earea : ∀ t r, (Milder.x σ bal).area q t r = (Milder.x σ fun _ _ => 0).area q t r := fun t r => by
    have hem : ∀ t r, (Milder.x σ bal).em q t r = (Milder.x σ fun _ _ => 0).em q t r := fun t r => rfl
    have hgE : ∀ t, (Milder.x σ bal).gE q t = (Milder.x σ fun _ _ => 0).gE q t := fun t => rfl
    have hcum : ∀ t, (Milder.x σ bal).cum q t = (Milder.x σ fun _ _ => 0).cum q t := by
      intro t
      induction t with
      | zero => rfl
      | succ t ih => rw [Drivers.cum, Drivers.cum, ih, hgE, hgE]
    unfold Drivers.area Drivers.learn Drivers.lbd
    rw [hcum]; rfl
  have A0 : ∀ t ≤ p.tf, 0 ≤ A t := fun t ht =>
    sumR_zero.symm.le.trans (sumR_le (p := p) (f := fun _ => 0) fun r hr => (ar ht hr).1)
  have A1 : ∀ t ≤ p.tf, 0 < t → A t ≤ p.sumR fun r => σ.R .mitigation_costs t r := fun t ht h0 =>
    (sumR_le (p := p) fun r hr => (ar ht hr).2 h0).trans_eq (Shift.sum_costs hnp h ht).symm
  have cost_pos : ∀ t ≤ p.tf, 0 < t → ∀ r ∈ p.regions,
      (Milder.x σ bal).cost md q t r = Shift.pays p σ (A t) t r := by
    intro t ht h0 r hr
    unfold Drivers.cost Drivers.balance
    rw [earea, htr]
    show _ + (if t = 0 then 0 else bal t r) = _
    rw [if_neg (by omega), hbal]; ring
  have cost_zero : ∀ r ∈ p.regions, (Milder.x σ bal).cost md q 0 r = 0 := by
    intro r hr
    have : (p.MAC_beta + 1) ≠ 0 := by linarith [hadm.beta_pos]
    unfold Drivers.cost Drivers.balance Drivers.area
    rw [htr]
    have ea : (Milder.x σ bal).a 0 r = 0 := by simp [Milder.x]
    have eb : (Milder.x σ bal).bal 0 r = 0 := by simp [Milder.x]
    rw [ea]
    show _ * (0 : ℝ) ^ (p.MAC_beta + 1) / _ * _ + (Milder.x σ bal).bal 0 r = 0
    rw [eb, Real.zero_rpow this]; simp
  have hc : ∀ t ≤ p.tf, 0 < t → ∀ r ∈ p.regions, (Milder.x σ bal).cost md q t r ≤ σ.R .mitigation_costs t r := by
    intro t ht h0 r hr
    rw [cost_pos t ht h0 r hr]
    exact Shift.pays_le (A0 t ht) (A1 t ht h0) r
  have hg := fun {t} (ht : t ≤ p.tf) {r} (hr : r ∈ p.regions) => gross hadm hm h hex hp.transfer hK hc (hd bal) ht hr
  have o : (Milder.x σ bal).Ok md q := by
    refine hok bal (fun t ht h0 => ?_) fun t ht r hr => ?_
    · have e : p.sumR (bal t) = p.sumR (Shift.pays p σ (A t) t) + -1 * A t := by
        rw [hA, ← sumR_mul_left, ← sumR_add]
        exact sumR_congr fun r _ => by simp only [hbal]; ring
      rw [e, Shift.pays_sum (A0 t ht) (A1 t ht h0)]; ring
    · rcases Nat.eq_zero_or_pos t with rfl | h0
      · rw [cost_zero r hr]; simp
      · rw [if_pos h0, cost_pos t ht h0 r hr]
        have g0 := h.gross_pos hadm ht hr
        have g1 := hg ht hr
        have fl := h.eqs.mitigation.rel_costs_min t ht r hr
        rw [if_pos h0, (h.eqs.mitigation.rel_costs t ht r hr).2, le_div_iff₀ g0] at fl
        rw [le_div_iff₀ (g0.trans_le g1)]
        refine le_trans ?_ (Shift.pays_ge (A0 t ht) (A1 t ht h0) r)
        have hf := hp.cost_floor
        refine le_min ?_ (mul_nonpos_of_nonpos_of_nonneg hf (g0.le.trans g1))
        exact (mul_le_mul_of_nonpos_left g1 hf).trans fl
  refine ⟨_, Drivers.build_solution (Milder.admissible hadm hm) o, fun t h0 ht r hr => if_neg (Nat.pos_iff_ne_zero.1 h0),
    fun t ht r hr => ?_⟩
  show (Milder.x σ bal).cost md q t r ≤ _
  rcases Nat.eq_zero_or_pos t with rfl | h0
  · rw [cost_zero r hr]
    have g0 := h.gross_pos hadm ht hr
    have fl := h.eqs.mitigation.rel_costs_min 0 ht r hr
    rw [if_neg (lt_irrefl 0), (h.eqs.mitigation.rel_costs 0 ht r hr).2, le_div_iff₀ g0, zero_mul] at fl
    exact fl
  · exact hc t ht h0 r hr
end

/-- Damages that fall before scaling do not rise when the scale falls too. -/
theorem scaled {s₀ A B A' B' : ℝ} (hs : 0 ≤ s ∧ s ≤ s₀) (h0 : 0 ≤ s₀ * A + s₀ * B)
    (hle : s * A' + s * B' ≤ s * A + s * B) : s * A' + s * B' ≤ s₀ * A + s₀ * B := by
  refine hle.trans ?_
  rcases hs.2.eq_or_lt with h2 | h2
  · rw [h2]
  · have h3 : 0 < s₀ := hs.1.trans_lt h2
    have h4 : 0 ≤ A + B := by
      by_contra hneg
      have := mul_neg_of_pos_of_neg h3 (not_le.1 hneg)
      linarith
    have := mul_le_mul_of_nonneg_right hs.2 h4
    linarith

section
variable {bal : ℕ → String → ℝ} (hm : Spec.Milder p γ sc lot s) (h : Solution md p σ)
  (hex : p.use_carbon_intensity_for_baseline = false) (ho : Spec.Moderate p σ)
include hm h hex ho

theorem dam_le {t : ℕ} (ht : t ≤ p.tf) {r : String} (hr : r ∈ p.regions) :
    (Milder.x σ bal).dam md (Spec.withCosts p γ sc lot s) t r ≤ σ.R .damage_costs t r := by
  have d := h.eqs.damages
  unfold Drivers.dam
  cases hd : md.damage with
  | nodamage => rw [hd] at d; exact (d t ht r hr).ge
  | COACCH =>
    rw [hd] at d
    have e0 := (ho.damages t ht r hr).1
    rw [d.total t ht r hr, (d.noslr t ht r hr).2.2, (d.slr t ht r hr).2.2] at e0 ⊢
    show s * (formVal ((Milder.x σ bal).temp (Spec.withCosts p γ sc lot s) t - 0.6) p.noslr r -
        formVal (p.T0 - 0.6) p.noslr r) +
      s * (formVal ((Milder.x σ bal).slr (Spec.withCosts p γ sc lot s) t) p.slr r -
        formVal ((Milder.x σ bal).slr (Spec.withCosts p γ sc lot s) 0) p.slr r) ≤ _
    rw [Milder.temp_eq h hex ht, Milder.slr_eq h hex ht, Milder.slr_eq h hex (Nat.zero_le _)]
    exact scaled hm.damage e0 le_rfl

theorem dam_le_climate (hk : 0 ≤ k ∧ k ≤ p.TCRE) (hc : Spec.RegularClimate md p σ) {t : ℕ} (ht : t ≤ p.tf) {r : String}
    (hr : r ∈ p.regions) : (Milder.x σ bal).dam md (Spec.withWorld p γ sc lot s k) t r ≤ σ.R .damage_costs t r := by
  have d := h.eqs.damages
  unfold Drivers.dam
  cases hd : md.damage with
  | nodamage => rw [hd] at d; exact (d t ht r hr).ge
  | COACCH =>
    rw [hd] at d
    have e0 := (ho.damages t ht r hr).1
    have cl := MilderClimate.climate (bal := bal) (γ := γ) (sc := sc) (lot := lot) (s := s) hk h hex hc ht
    rw [d.total t ht r hr, (d.noslr t ht r hr).2.2, (d.slr t ht r hr).2.2] at e0 ⊢
    show s * (formVal ((Milder.x σ bal).temp (Spec.withWorld p γ sc lot s k) t - 0.6) p.noslr r -
        formVal (p.T0 - 0.6) p.noslr r) +
      s * (formVal ((Milder.x σ bal).slr (Spec.withWorld p γ sc lot s k) t) p.slr r -
        formVal ((Milder.x σ bal).slr (Spec.withWorld p γ sc lot s k) 0) p.slr r) ≤ _
    rw [cl.2.2.2]
    exact scaled hm.damage e0 (MilderClimate.parts h hc hm hd ht hr cl.1 cl.2.2.1).2
end

section
variable (hadm : p.Admissible) (hm : Spec.Milder p γ sc lot s) (hp : Spec.TradedPolicy md p)
  (hex : p.use_carbon_intensity_for_baseline = false) (h : Solution md p σ)
  (h' : Solution md (Spec.withWorld p γ sc lot s k) τ)
include hadm hm hp hex h h'

/-- World costs of the same abatement. -/
theorem world_costs (ha : Spec.SamePolicy p σ τ) {t : ℕ} (ht : t ≤ p.tf) :
    (p.sumR fun r => τ.R .mitigation_costs t r) ≤ p.sumR fun r => σ.R .mitigation_costs t r := by
  have hnp : md.trade ≠ .globalcostpool := by rw [hp.trade]; decide
  have e' : (p.sumR fun r => τ.R .mitigation_costs t r) = p.sumR fun r => τ.R .area_under_MAC t r :=
    Shift.sum_costs (p := Spec.withWorld p γ sc lot s k) hnp h' ht
  rw [Shift.sum_costs hnp h ht, e']
  refine sumR_le fun r hr => ?_
  have hβ := hadm.beta_pos
  have a1 := (h.abatement_bounds ht hr).1
  have a1' := (h'.abatement_bounds ht hr).1
  have f := (h.eqs.mitigation.carbonprice t ht r hr).2
  have f' := (h'.eqs.mitigation.carbonprice t ht r hr).2
  have aux : ∀ x : ℝ, 0 ≤ x → x ^ (p.MAC_beta + 1) = x ^ p.MAC_beta * x := by
    intro x hx
    rcases hx.eq_or_lt with rfl | hx
    · rw [Real.zero_rpow (by linarith), mul_zero]
    · rw [Real.rpow_add hx, Real.rpow_one]
  have c : σ.R .area_under_MAC t r =
      σ.R .carbonprice t r * σ.R .relative_abatement t r / (p.MAC_beta + 1) * p.baseline_emissions t r := by
    rw [(h.eqs.mitigation.area t ht r hr).2, (C23_baseline h ht hr).1 hex, f]
    simp only [acVal, macVal]
    rw [aux _ a1]; ring
  have c' : τ.R .area_under_MAC t r =
      τ.R .carbonprice t r * τ.R .relative_abatement t r / (p.MAC_beta + 1) * p.baseline_emissions t r := by
    rw [(h'.eqs.mitigation.area t ht r hr).2, (C23_baseline h' ht hr).1 hex, f']
    simp only [acVal, macVal]
    rw [aux _ a1']; ring
  rw [c, c']
  refine mul_le_mul_of_nonneg_right (div_le_div_of_nonneg_right ?_ (by linarith)) (hp.baseline t ht r hr)
  rcases Nat.eq_zero_or_pos t with rfl | h0
  · have z : τ.R .carbonprice 0 r = 0 := h'.eqs.mitigation.carbonprice_init r hr
    have z0 : σ.R .carbonprice 0 r = 0 := h.eqs.mitigation.carbonprice_init r hr
    rw [z, z0, zero_mul, zero_mul]
  · rw [ha t h0 ht r hr]
    exact mul_le_mul_of_nonneg_right (Milder.prices h h' ha hex hadm hm ht hr) a1

omit hex in
theorem nobody (hsr : p.sr ≤ 1) (ho : Spec.Moderate p σ)
    (hc : ∀ t ≤ p.tf, ∀ r ∈ p.regions, τ.R .mitigation_costs t r ≤ σ.R .mitigation_costs t r)
    (hd : ∀ t ≤ p.tf, ∀ r ∈ p.regions, τ.R .damage_costs t r ≤ σ.R .damage_costs t r) : Spec.NobodyWorse p σ τ := by
  have hf := hp.transfer
  exact fun t ht r hr => ⟨hc t ht r hr, hd t ht r hr, Milder.capital hadm hm h h' hf hc hd ho hr ht,
    Milder.gross hadm hm h h' hf hc hd ho ht hr, Milder.net hadm hm h h' hf hc hd ho ht hr,
    Milder.consumption hadm hm h h' hf hc hd ho hsr ht hr⟩
end
end MilderTrade

/-! ## The theorems -/

/-- **C68**, with emission trade.  Whatever the payments between regions, the same abatement has the same emissions,
temperature and sea level in the milder world, no region has a higher carbon price or larger damages, and the world
does not pay more for it. -/
theorem C68_same_policy_trade (hadm : p.Admissible) (hm : Spec.Milder p γ sc lot s) (hp : Spec.TradedPolicy md p)
    (hex : p.use_carbon_intensity_for_baseline = false) (h : Solution md p σ)
    (h' : Solution md (Spec.withCosts p γ sc lot s) τ) (ha : Spec.SamePolicy p σ τ) (ho : Spec.Moderate p σ) {t : ℕ}
    (ht : t ≤ p.tf) :
    (τ.G .temperature t = σ.G .temperature t ∧ τ.G .total_SLR t = σ.G .total_SLR t ∧
      (p.regions.map fun r => τ.R .mitigation_costs t r).sum ≤ (p.regions.map fun r => σ.R .mitigation_costs t r).sum) ∧
    ∀ r ∈ p.regions, τ.R .regional_emissions t r = σ.R .regional_emissions t r ∧
      τ.R .carbonprice t r ≤ σ.R .carbonprice t r ∧ τ.R .damage_costs t r ≤ σ.R .damage_costs t r :=
  ⟨⟨Milder.temperature h h' ha hex ht, Milder.seaLevel h h' ha hex ht, MilderTrade.world_costs hadm hm hp hex h h' ha ht⟩,
    fun r hr => ⟨(Milder.emissions h h' ha hex ht).1 r hr, Milder.prices h h' ha hex hadm hm ht hr,
      Milder.damages_le h h' ha hex hm ho ht hr⟩⟩

/-- **C68**, with emission trade.  Every policy that is possible is also possible where abatement is cheaper and damages
are milder, with payments between regions such that nobody is worse off. -/
theorem C68_policy_possible_trade (hadm : p.Admissible) (hm : Spec.Milder p γ sc lot s) (hp : Spec.TradedPolicy md p)
    (hex : p.use_carbon_intensity_for_baseline = false) (hsr : p.sr ≤ 1) (h : Solution md p σ) (ho : Spec.Moderate p σ) :
    ∃ τ, Solution md (Spec.withCosts p γ sc lot s) τ ∧ Spec.SamePolicy p σ τ ∧ Spec.NobodyWorse p σ τ := by
  obtain ⟨τ, h', ha, hc⟩ := MilderTrade.possible (k := p.TCRE) hadm hm h hex hp ho.costs
    (fun bal t ht r hr => MilderTrade.dam_le hm h hex ho ht hr)
    (fun bal hb hf => Milder.ok_costs h hex hadm hm hp.toUnsharedPolicy (by rw [hp.trade]; decide) (fun _ => hb) hf)
  exact ⟨τ, h', ha, MilderTrade.nobody hadm hm hp h h' hsr ho hc fun t ht r hr => Milder.damages_le h h' ha hex hm ho ht hr⟩

/-- **C68**, with emission trade.  So with the objective "utility" the optimum is not worse where abatement is cheaper
and damages are milder. -/
theorem C68_optimum_trade (hadm : p.Admissible) (hm : Spec.Milder p γ sc lot s) (hp : Spec.TradedPolicy md p)
    (hex : p.use_carbon_intensity_for_baseline = false) (hsr : p.sr ≤ 1) (hob : md.objective = .utility)
    (h : Optimal md p σ) (h' : Optimal md (Spec.withCosts p γ sc lot s) τ) (ho : Spec.Moderate p σ) :
    σ.G .NPV p.tf ≤ τ.G .NPV p.tf := by
  obtain ⟨ρ, hρ, ha, hn⟩ := C68_policy_possible_trade hadm hm hp hex hsr h.1 ho
  have h1 := Milder.objective (k := p.TCRE) hadm hm h.1 hρ hp.transfer (fun t ht r hr => (hn t ht r hr).1)
    (fun t ht r hr => (hn t ht r hr).2.1) ho hsr hob
  have h2 := h'.best hρ
  unfold Spec.objectiveValue at h1 h2
  rw [hob] at h1 h2
  exact h1.trans h2

/-- **C72**, with emission trade.  Whatever the payments between regions, the same abatement has the same emissions
where the climate is less sensitive, temperature, sea level, carbon prices and damages are not higher, and the world
does not pay more for it. -/
theorem C72_same_policy_trade (hadm : p.Admissible) (hk : 0 ≤ k ∧ k ≤ p.TCRE) (hm : Spec.Milder p γ sc lot s)
    (hp : Spec.TradedPolicy md p) (hex : p.use_carbon_intensity_for_baseline = false)
    (h : Solution md p σ) (h' : Solution md (Spec.withWorld p γ sc lot s k) τ) (ha : Spec.SamePolicy p σ τ)
    (ho : Spec.Moderate p σ) (hc : Spec.RegularClimate md p σ) {t : ℕ} (ht : t ≤ p.tf) :
    (τ.G .temperature t ≤ σ.G .temperature t ∧ τ.G .total_SLR t ≤ σ.G .total_SLR t ∧
      (p.regions.map fun r => τ.R .mitigation_costs t r).sum ≤ (p.regions.map fun r => σ.R .mitigation_costs t r).sum) ∧
    ∀ r ∈ p.regions, τ.R .regional_emissions t r = σ.R .regional_emissions t r ∧
      τ.R .carbonprice t r ≤ σ.R .carbonprice t r ∧ τ.R .damage_costs t r ≤ σ.R .damage_costs t r :=
  ⟨⟨(MilderClimate.temperature hk h h' ha hex ht).2, (MilderClimate.seaLevel hk h h' ha hex hc ht).2,
      MilderTrade.world_costs hadm hm hp hex h h' ha ht⟩,
    fun r hr => ⟨(Milder.emissions h h' ha hex ht).1 r hr, Milder.prices h h' ha hex hadm hm ht hr,
      MilderClimate.damages hk h h' ha hex hc hm ho ht hr⟩⟩

/-- **C72**, with emission trade.  Every policy that is possible is also possible where the climate is less sensitive,
with payments between regions such that nobody is worse off. -/
theorem C72_policy_possible_trade (hadm : p.Admissible) (hk : 0 ≤ k ∧ k ≤ p.TCRE) (hm : Spec.Milder p γ sc lot s)
    (hp : Spec.TradedPolicy md p) (hex : p.use_carbon_intensity_for_baseline = false) (hsr : p.sr ≤ 1)
    (h : Solution md p σ) (ho : Spec.Moderate p σ) (hc : Spec.RegularClimate md p σ) :
    ∃ τ, Solution md (Spec.withWorld p γ sc lot s k) τ ∧ Spec.SamePolicy p σ τ ∧ Spec.NobodyWorse p σ τ := by
  obtain ⟨τ, h', ha, hco⟩ := MilderTrade.possible (k := k) hadm hm h hex hp ho.costs
    (fun bal t ht r hr => MilderTrade.dam_le_climate hm h hex ho hk hc ht hr)
    (fun bal hb hf => MilderClimate.ok_costs hk h hex hc hadm hm hp.toUnsharedPolicy (by rw [hp.trade]; decide)
      (fun _ => hb) hf)
  exact ⟨τ, h', ha, MilderTrade.nobody hadm hm hp h h' hsr ho hco fun t ht r hr =>
    MilderClimate.damages hk h h' ha hex hc hm ho ht hr⟩

/-- **C72**, with emission trade.  So with the objective "utility" the optimum is not worse where the climate is less
sensitive. -/
theorem C72_optimum_trade (hadm : p.Admissible) (hk : 0 ≤ k ∧ k ≤ p.TCRE) (hm : Spec.Milder p γ sc lot s)
    (hp : Spec.TradedPolicy md p) (hex : p.use_carbon_intensity_for_baseline = false) (hsr : p.sr ≤ 1)
    (hob : md.objective = .utility) (h : Optimal md p σ) (h' : Optimal md (Spec.withWorld p γ sc lot s k) τ)
    (ho : Spec.Moderate p σ) (hc : Spec.RegularClimate md p σ) :
    σ.G .NPV p.tf ≤ τ.G .NPV p.tf := by
  obtain ⟨ρ, hρ, ha, hn⟩ := C72_policy_possible_trade hadm hk hm hp hex hsr h.1 ho hc
  have h1 := Milder.objective hadm hm h.1 hρ hp.transfer (fun t ht r hr => (hn t ht r hr).1)
    (fun t ht r hr => (hn t ht r hr).2.1) ho hsr hob
  have h2 := h'.best hρ
  unfold Spec.objectiveValue at h1 h2
  rw [hob] at h1 h2
  exact h1.trans h2

/-! ## Witnesses -/

namespace Ex
variable (w : WelfareModule) (o : ObjectiveModule)

/-- The example with damages, abatement and a temperature target, with emission trade: the assumptions on the first
solution hold, and the theorems apply. -/
example : ∃ σ τ, Solution ⟨.COACCH, .emissiontrade, .notransfer, w, o⟩ (ex "noregime" 0 none) σ ∧
    Solution ⟨.COACCH, .emissiontrade, .notransfer, w, o⟩
      (Spec.withWorld (ex "noregime" 0 none) (8 / 100) (fun _ => 1) (3 / 100) (1 / 2) ((ex "noregime" 0 none).TCRE / 2)) τ ∧
    σ.R .relative_abatement 2 "A" = 1 ∧ τ.R .relative_abatement 2 "A" = 1 ∧
    Spec.NobodyWorse (ex "noregime" 0 none) σ τ := by
  obtain ⟨σ, h, e1, e2, -⟩ := C62_trade_allowed (solM w o) rfl
  have g := fun (v : GVar) (hv : v ≠ .global_carbonprice) (t : ℕ) => (show σ.G v t = (σM w o).G v t from e1 v t hv)
  have hR := fun (v : RVar) (hv : v ∉ [RVar.import_export_mitigation_cost_balance, .import_export_emission_reduction_balance,
        .paid_for_emission_reductions, .regional_emission_allowances]) (t : ℕ) (r : String) =>
    (show σ.R v t r = (σM w o).R v t r from e2 v t r hv)
  have hadm : (ex "noregime" 0 none).Admissible := admissible le_rfl one_pos
  have ho : Spec.Moderate (ex "noregime" 0 none) σ := by
    constructor
    · intro t ht r hr
      rw [hR _ (by decide)]
      exact (moderateM w o).damages t ht r hr
    · intro t ht r hr
      have := (moderateM w o).costs t ht r hr
      rw [← hR .capital_stock (by decide)] at this
      rw [hR .mitigation_costs (by decide) (t + 1)]
      exact this
  have hc : Spec.RegularClimate ⟨.COACCH, .emissiontrade, .notransfer, w, o⟩ (ex "noregime" 0 none) σ := by
    have := regularM w o
    have eT : (fun t => σ.G .temperature t) = fun t : ℕ => (σM w o).G .temperature t := funext fun t => g _ (by decide) t
    refine ⟨this.T0_nonneg, ?_, this.rising, fun hd r hr => ?_⟩
    · rw [eT]; exact this.melt
    · have h1 := this.sea_gain rfl r hr
      rw [show σ.G .total_SLR 0 = (σM w o).G .total_SLR 0 from g _ (by decide) 0]
      exact h1
  have hp : Spec.TradedPolicy ⟨.COACCH, .emissiontrade, .notransfer, w, o⟩ (ex "noregime" 0 none) :=
    ⟨⟨rfl, rfl, le_rfl, le_rfl, by norm_num [ex], by simp [ex]⟩, rfl⟩
  have ea : σ.R .relative_abatement 2 "A" = 1 := by
    have : (σM w o).R .relative_abatement 2 "A" = 1 := by
      show aPath 2 = 1
      norm_num [aPath]
    rw [← this]; exact hR _ (by decide) 2 "A"
  obtain ⟨τ, h', ha, hn⟩ := C72_policy_possible_trade hadm halfTCRE milderM hp rfl (by norm_num [ex]) h ho hc
  exact ⟨σ, τ, h, h', ea, (ha 2 (by norm_num) (by norm_num [ex]) "A" (by simp [ex])).trans ea, hn⟩

/-- Optima with a carbon budget and emission trade. -/
example : ∃ σ τ, Optimal (tqMd .emissiontrade w .utility) tq σ ∧
    Optimal (tqMd .emissiontrade w .utility) (Spec.withCosts tq (1 / 25) tqLevel (3 / 100) 1) τ ∧
    σ.G .NPV 3 ≤ τ.G .NPV 3 := by
  obtain ⟨σ, h⟩ := tq_optimum w .utility (tr := .emissiontrade) (by decide)
  have hs := tq_shared (w := w) (tr := .emissiontrade) (o := .utility) fun _ => rfl
  have hA := tq_affordable h.1
  have hm : Spec.Milder tq (1 / 25) tqLevel (3 / 100) 1 :=
    ⟨by norm_num [tq, ex, Params.withLimits], fun r _ => ⟨(tqLevel_range r).1.le, le_rfl⟩,
      by norm_num [tq, ex, Params.withLimits], by norm_num [tq, ex, Params.withLimits]⟩
  have hp : Spec.TradedPolicy (tqMd .emissiontrade w .utility) tq :=
    ⟨⟨rfl, hs.regime, hs.cost_floor, hs.reversible, hs.start, hs.baseline⟩, rfl⟩
  have ho : Spec.Moderate tq σ := by
    refine ⟨fun t ht r hr => ?_, hA.costs⟩
    have hz : ∀ t ≤ tq.tf, ∀ r ∈ tq.regions, σ.R .damage_costs t r = 0 := h.1.eqs.damages
    rw [hz t ht r hr]; norm_num
  have hsr : tq.sr ≤ 1 := by norm_num [tq, ex, Params.withLimits]
  obtain ⟨ρ, hρ, -⟩ := C68_policy_possible_trade tq_admissible hm hp rfl hsr h.1 ho
  obtain ⟨τ, hτ⟩ := C65_optimum_exists_exogenous (Milder.admissible (k := tq.TCRE) tq_admissible hm) (fun h => by cases h) rfl
    ⟨ρ, hρ⟩
  exact ⟨σ, τ, h, hτ, C68_optimum_trade tq_admissible hm hp rfl hsr rfl h hτ ho⟩
end Ex
end Mimosa
