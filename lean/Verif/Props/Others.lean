import Verif.Props.Ambition

/-!
# C93: what other regions abate never harms a region

If the other regions abate more and a region keeps its own policy, abatement becomes cheaper for it (learning is shared),
its damages do not rise, and its product, capital and consumption do not fall.
-/

set_option linter.unusedVariables false

namespace Mimosa
variable {md : Modules} {p : Params} {σ τ : Env}

/-- For the region: damages between nothing and the whole product, and the savings for one step's abatement costs do not use
up the capital stock. -/
structure Spec.ModerateIn (p : Params) (σ : Env) (r : String) : Prop where
  damages : ∀ t ≤ p.tf, 0 ≤ σ.R .damage_costs t r ∧ σ.R .damage_costs t r ≤ 1
  costs : ∀ t < p.tf, p.dt * (p.sr * σ.R .mitigation_costs (t + 1) r) < σ.R .capital_stock t r

/-- The region abates the same in both. -/
def Spec.SameIn (p : Params) (σ τ : Env) (r : String) : Prop :=
  ∀ t ≤ p.tf, τ.R .relative_abatement t r = σ.R .relative_abatement t r

namespace Others
variable (hadm : p.Admissible) (hs : Spec.AmbitionSetting md p) (h : Solution md p σ) (h' : Solution md p τ)
  (ha : Spec.AtLeastAsAmbitious p τ σ)
include hadm hs h h' ha

theorem learning {t : ℕ} (ht : t ≤ p.tf) : τ.G .learning_factor t ≤ σ.G .learning_factor t := by
  have e := h.eqs.mitigation
  have e' := h'.eqs.mitigation
  have hc := (C89_more_ambitious hs hadm.dt_pos.le h' h ha ht).2.2.1
  rw [e.learning t ht, e'.learning t ht, (e.lbd t ht).2, (e'.lbd t ht).2, (e.lot t ht).2.2, (e'.lot t ht).2.2]
  have hlot : 0 ≤ 1 / (1 + p.LOT_rate) ^ (t : ℝ) := (one_div_pos.2 (Real.rpow_pos_of_pos hadm.lot _)).le
  refine mul_le_mul_of_nonneg_right ?_ hlot
  have hlog : p.log_LBD_rate ≤ 0 := by
    unfold Params.log_LBD_rate
    exact div_nonpos_of_nonpos_of_nonneg (Real.log_nonpos hadm.lbd_pos.le hs.rate_le) (Real.log_nonneg (by norm_num))
  refine Real.rpow_le_rpow_of_nonpos (soft_min_pos_one _) ?_ hlog
  refine (soft_min_strictMono one_pos).monotone ?_
  have := div_le_div_of_nonneg_right (sub_le_sub_left hc (p.cumulative_global_baseline_emissions t)) hadm.lbd_scaling.le
  linarith

section
variable {r : String} (hr : r ∈ p.regions) (hsame : Spec.SameIn p σ τ r)
include hr hsame

theorem price {t : ℕ} (ht : t ≤ p.tf) : τ.R .carbonprice t r ≤ σ.R .carbonprice t r := by
  rw [(h.eqs.mitigation.carbonprice t ht r hr).2, (h'.eqs.mitigation.carbonprice t ht r hr).2]
  unfold macVal
  rw [hsame t ht]
  have := Real.rpow_nonneg (h.abatement_bounds ht hr).1 p.MAC_beta
  have := (hs.mac.scaling_pos r hr).le
  have := hs.mac.gamma_pos.le
  have := learning hadm hs h h' ha ht
  gcongr

theorem cost (htr : md.trade = .notrade) {t : ℕ} (ht : t ≤ p.tf) : τ.R .mitigation_costs t r ≤ σ.R .mitigation_costs t r := by
  rw [C33_costs_notrade h htr ht hr, C33_costs_notrade h' htr ht hr, (h.eqs.mitigation.area t ht r hr).2,
    (h'.eqs.mitigation.area t ht r hr).2, (C23_baseline h ht hr).1 hs.exogenous, (C23_baseline h' ht hr).1 hs.exogenous]
  unfold acVal
  rw [hsame t ht]
  have := Real.rpow_nonneg (h.abatement_bounds ht hr).1 (p.MAC_beta + 1)
  have := (hs.mac.scaling_pos r hr).le
  have := hs.mac.gamma_pos.le
  have := learning hadm hs h h' ha ht
  have := hs.policy.baseline t ht r hr
  have : 0 ≤ p.MAC_beta + 1 := by linarith [hs.mac.beta_pos]
  gcongr

theorem capital (htr : md.trade = .notrade) (ho : Spec.ModerateIn p σ r) :
    ∀ {t : ℕ}, t ≤ p.tf → σ.R .capital_stock t r ≤ τ.R .capital_stock t r := by
  intro t
  induction t with
  | zero =>
    intro _
    rw [h.eqs.economy.capital_init r hr, h'.eqs.economy.capital_init r hr]
  | succ t ih =>
    intro ht
    have hle := ih (by omega)
    have hA : (0 : ℝ) < 2 - (1 - p.dk) ^ p.dt := by linarith [dk_pow_le hadm]
    have e := h.capital_eq hadm ht hr
    have e' := h'.capital_eq hadm ht hr
    have n := h.eqs.economy.net (t + 1) ht r hr
    have n' := h'.eqs.economy.net (t + 1) ht r hr
    have g := (h.eqs.economy.gross t ht r hr).2
    have g' := (h'.eqs.economy.gross t ht r hr).2
    rw [hs.policy.transfer] at n n'
    simp only [transferVal, sub_zero] at n n'
    have hgp := h.gross_pos hadm ht hr
    rw [g] at hgp
    have hF : 0 < get_TFP_value p (t + 1) r * p.population (t + 1) r ^ (1 - p.alpha) :=
      (mul_pos_iff_of_pos_right (Real.rpow_pos_of_pos (soft_min_pos_ten _) _)).1 hgp
    have hds : 0 ≤ p.dt * p.sr := mul_nonneg hadm.dt_pos.le hadm.sr_nonneg
    have hc := mul_le_mul_of_nonneg_left (cost hadm hs h h' ha hr hsame htr ht) hds
    have hl : (if p.ignore_damages then (0 : ℝ) else τ.R .damage_costs (t + 1) r) ≤
        (if p.ignore_damages then 0 else σ.R .damage_costs (t + 1) r) := by
      split <;> [exact le_rfl; exact (C89_less_damage hadm hs h' h ha ht).2 r hr]
    set F := get_TFP_value p (t + 1) r * p.population (t + 1) r ^ (1 - p.alpha) with hFd
    set D := (if p.ignore_damages then (0 : ℝ) else σ.R .damage_costs (t + 1) r) with hD
    set D' := (if p.ignore_damages then (0 : ℝ) else τ.R .damage_costs (t + 1) r) with hD'
    refine capital_le (A := 2 - (1 - p.dk) ^ p.dt)
      (B := σ.R .capital_stock t r - p.dt * p.sr * σ.R .mitigation_costs (t + 1) r)
      (B' := τ.R .capital_stock t r - p.dt * p.sr * τ.R .mitigation_costs (t + 1) r)
      (C := p.dt * p.sr * F * (1 - D)) (C' := p.dt * p.sr * F * (1 - D'))
      hA ?_ hadm.alpha_nonneg hadm.alpha_lt (by linarith) ?_ ?_ ?_
    · have := ho.costs t ht; linarith
    · exact mul_le_mul_of_nonneg_left (by linarith) (mul_nonneg hds hF.le)
    · rw [e, n, g]; ring
    · rw [e', n', g']; ring

theorem gross (htr : md.trade = .notrade) (ho : Spec.ModerateIn p σ r) {t : ℕ} (ht : t ≤ p.tf) :
    σ.R .GDP_gross t r ≤ τ.R .GDP_gross t r := by
  cases t with
  | zero => rw [h.eqs.economy.gross_init r hr, h'.eqs.economy.gross_init r hr]
  | succ t =>
    have hK := capital hadm hs h h' ha hr hsame htr ho ht
    rw [(h.eqs.economy.gross t ht r hr).2, (h'.eqs.economy.gross t ht r hr).2]
    have hgp := h.gross_pos hadm ht hr
    rw [(h.eqs.economy.gross t ht r hr).2] at hgp
    have hF : 0 < get_TFP_value p (t + 1) r * p.population (t + 1) r ^ (1 - p.alpha) :=
      (mul_pos_iff_of_pos_right (Real.rpow_pos_of_pos (soft_min_pos_ten _) _)).1 hgp
    refine mul_le_mul_of_nonneg_left ?_ hF.le
    exact Real.rpow_le_rpow (soft_min_pos_ten _).le ((soft_min_strictMono (by norm_num)).monotone hK) hadm.alpha_nonneg

theorem net (htr : md.trade = .notrade) (ho : Spec.ModerateIn p σ r) {t : ℕ} (ht : t ≤ p.tf) :
    σ.R .GDP_net t r ≤ τ.R .GDP_net t r := by
  have hg := gross hadm hs h h' ha hr hsame htr ho ht
  have hgp := h.gross_pos hadm ht hr
  have n := h.eqs.economy.net t ht r hr
  have n' := h'.eqs.economy.net t ht r hr
  rw [hs.policy.transfer] at n n'
  simp only [transferVal, sub_zero] at n n'
  rw [n, n']
  have hd := ho.damages t ht
  have hdd := (C89_less_damage hadm hs h' h ha ht).2 r hr
  have hc := cost hadm hs h h' ha hr hsame htr ht
  split
  · linarith
  · have : σ.R .GDP_gross t r * (1 - σ.R .damage_costs t r) ≤ τ.R .GDP_gross t r * (1 - τ.R .damage_costs t r) :=
      mul_le_mul hg (by linarith) (by linarith) (by linarith)
    linarith
end
end Others

/-- **C93.** The other regions abate more, this region abates the same: its emissions are the same, its carbon price is not
higher … -/
theorem C93_cheaper_abatement (hadm : p.Admissible) (hs : Spec.AmbitionSetting md p) (h : Solution md p σ)
    (h' : Solution md p τ) (ha : Spec.AtLeastAsAmbitious p τ σ) {r : String} (hr : r ∈ p.regions)
    (hsame : Spec.SameIn p σ τ r) {t : ℕ} (ht : t ≤ p.tf) :
    τ.R .regional_emissions t r = σ.R .regional_emissions t r ∧ τ.R .carbonprice t r ≤ σ.R .carbonprice t r ∧
    τ.R .area_under_MAC t r ≤ σ.R .area_under_MAC t r ∧ τ.R .damage_costs t r ≤ σ.R .damage_costs t r := by
  refine ⟨?_, Others.price hadm hs h h' ha hr hsame ht, ?_, (C89_less_damage hadm hs h' h ha ht).2 r hr⟩
  · rcases Nat.eq_zero_or_pos t with rfl | h0
    · rw [(C32_emissions h).1 r hr, (C32_emissions h').1 r hr]
    · rw [C23_abated_baseline h ht h0 hr, C23_abated_baseline h' ht h0 hr, hsame t ht, (C23_baseline h ht hr).1 hs.exogenous,
        (C23_baseline h' ht hr).1 hs.exogenous]
  · rw [(h.eqs.mitigation.area t ht r hr).2, (h'.eqs.mitigation.area t ht r hr).2, (C23_baseline h ht hr).1 hs.exogenous,
      (C23_baseline h' ht hr).1 hs.exogenous]
    unfold acVal
    rw [hsame t ht]
    have := Real.rpow_nonneg (h.abatement_bounds ht hr).1 (p.MAC_beta + 1)
    have := (hs.mac.scaling_pos r hr).le
    have := hs.mac.gamma_pos.le
    have := Others.learning hadm hs h h' ha ht
    have := hs.policy.baseline t ht r hr
    have : 0 ≤ p.MAC_beta + 1 := by linarith [hs.mac.beta_pos]
    gcongr

/-- **C93.** … and without emission trade its mitigation costs do not rise, and its capital stock, product and consumption do
not fall, in any year. -/
theorem C93_never_harmed (hadm : p.Admissible) (hs : Spec.AmbitionSetting md p) (htr : md.trade = .notrade) (hsr : p.sr ≤ 1)
    (h : Solution md p σ) (h' : Solution md p τ) (ha : Spec.AtLeastAsAmbitious p τ σ) {r : String} (hr : r ∈ p.regions)
    (hsame : Spec.SameIn p σ τ r) (ho : Spec.ModerateIn p σ r) {t : ℕ} (ht : t ≤ p.tf) :
    τ.R .mitigation_costs t r ≤ σ.R .mitigation_costs t r ∧ σ.R .capital_stock t r ≤ τ.R .capital_stock t r ∧
    σ.R .GDP_gross t r ≤ τ.R .GDP_gross t r ∧ σ.R .GDP_net t r ≤ τ.R .GDP_net t r ∧
    σ.R .consumption t r ≤ τ.R .consumption t r := by
  refine ⟨Others.cost hadm hs h h' ha hr hsame htr ht, Others.capital hadm hs h h' ha hr hsame htr ho ht,
    Others.gross hadm hs h h' ha hr hsame htr ho ht, Others.net hadm hs h h' ha hr hsame htr ho ht, ?_⟩
  rw [h.eqs.economy.consumption t ht r hr, h'.eqs.economy.consumption t ht r hr]
  exact mul_le_mul_of_nonneg_left (Others.net hadm hs h h' ha hr hsame htr ho ht) (by linarith)

/-! ## The hypotheses can be met: region A abates half; B abates nothing, or half as well -/

namespace Ex
variable {w : WelfareModule} {o : ObjectiveModule}

/-- Only region A abates. -/
noncomputable def onlyA (t : ℕ) (r : String) : ℝ := if r = "A" then half t r else 0

theorem mild_onlyA : Mild onlyA := by
  refine ⟨fun r => ?_, fun t r => ?_, fun t r => ?_⟩ <;> unfold onlyA <;> split
  · exact mild_half.1 r
  · rfl
  · exact mild_half.2.1 t r
  · norm_num
  · exact mild_half.2.2 t r
  · exact le_rfl

theorem onlyA_sol : Solution (md0 .nodamage w o) free ((Path.x onlyA).env (md0 .nodamage w o) free) :=
  free_sol .nodamage w o mild_onlyA

theorem both_sol : Solution (md0 .nodamage w o) free ((Path.x half).env (md0 .nodamage w o) free) :=
  free_sol .nodamage w o mild_half

theorem others_setting : Spec.AmbitionSetting (md0 .nodamage w o) free where
  policy := ⟨rfl, rfl, le_rfl, le_rfl, by norm_num [free, ex], by simp [free, ex]⟩
  exogenous := rfl
  mac := { (bq_convex (w := w) (o := o) (T := none) (b := none) (nz := true)).mac with }
  rate_le := (bq_convex (w := w) (o := o) (T := none) (b := none) (nz := true)).rate_le
  T0_nonneg := (bq_convex (w := w) (o := o) (T := none) (b := none) (nz := true)).T0_nonneg
  TCRE_nonneg := (bq_convex (w := w) (o := o) (T := none) (b := none) (nz := true)).TCRE_nonneg
  melt := by
    have hT : ∀ t < 3, 1 ≤ Spec.pathTemperature free (fun _ _ => 0) t ∧
        Spec.pathTemperature free (fun _ _ => 0) t ≤ 6 := by
      intro t ht
      have h1 := mild_temp mild_zero (t := t) (by omega)
      have h3 : (t : ℝ) ≤ 3 := by exact_mod_cast ht.le
      exact ⟨h1.1, by linarith [h1.2]⟩
    have hdt : free.dt = 40 := rfl
    refine ⟨by rw [hdt]; norm_num, ?_, ?_, ?_⟩
    iterate 3
      intro t ht
      have := hT t ht
      rw [hdt] at *
      norm_num at this ⊢; linarith
  damages := fun h => by cases h

theorem others_ambitious : Spec.AtLeastAsAmbitious free ((Path.x half).env (md0 .nodamage w o) free)
    ((Path.x onlyA).env (md0 .nodamage w o) free) := by
  intro t _ r _
  show onlyA t r ≤ half t r
  unfold onlyA
  split
  · exact le_rfl
  · exact (mild_half.2.1 t r).1

theorem others_same : Spec.SameIn free ((Path.x onlyA).env (md0 .nodamage w o) free)
    ((Path.x half).env (md0 .nodamage w o) free) "A" := by
  intro t _
  show half t "A" = onlyA t "A"
  simp [onlyA]

/-- Region B does more in the second solution. -/
example : onlyA 1 "B" < half 1 "B" := by simp [onlyA, half]

theorem others_moderate : Spec.ModerateIn free ((Path.x onlyA).env (md0 .nodamage w o) free) "A" where
  damages := fun t ht => by
    have : ((Path.x onlyA).env (md0 .nodamage w o) free).R .damage_costs t "A" = 0 :=
      (onlyA_sol (w := w) (o := o)).eqs.damages t ht "A" (by simp [free, ex])
    rw [this]; norm_num
  costs := fun t ht => by
    have h : Solution (md0 .nodamage w o) (bq none none true) ((Path.x onlyA).env (md0 .nodamage w o) free) := onlyA_sol
    have h3 : t < 3 := ht
    have h1 := bq_capital h (r := "A") (by simp [ex]) (t := t) h3.le
    have h2 := (bq_costs h (t := t + 1) (by omega) (r := "A") (by simp [ex])).2
    have e1 : free.dt = 40 := rfl
    have e2 : free.sr = 1 / 5 := rfl
    rw [e1, e2]
    linarith

example {t : ℕ} (ht : t ≤ free.tf) := C93_cheaper_abatement free_admissible others_setting (onlyA_sol (w := w) (o := o)) both_sol
  others_ambitious (r := "A") (by simp [free, ex]) others_same ht

example {t : ℕ} (ht : t ≤ free.tf) := C93_never_harmed free_admissible others_setting rfl (by norm_num [free, ex])
  (onlyA_sol (w := w) (o := o)) both_sol others_ambitious (r := "A") (by simp [free, ex]) others_same others_moderate ht

end Ex
end Mimosa
