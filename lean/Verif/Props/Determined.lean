import Verif.Props.Initial
import Verif.Props.Optimum
import Verif.Props.ExamplesCI

/-!
# C54 with endogenous baseline emissions

With the carbon-intensity baseline (the default) the emissions of a year depend on its GDP, GDP on damages, and damages on
the emissions of the same year.  The feedback is negative, so there is only one consistent outcome: two solutions with the
same abatement path coincide.
-/

namespace Mimosa
variable {md : Modules} {p : Params} {σ τ : Env}

/-- More emissions mean no less damage and no more learning. -/
structure Spec.NegativeFeedback (md : Modules) (p : Params) : Prop where
  TCRE_nonneg : 0 ≤ p.TCRE
  lbd_le : p.LBD_rate ≤ 1
  gamma_nonneg : 0 ≤ p.MAC_gamma
  scaling_nonneg : ∀ r ∈ p.regions, 0 ≤ p.MAC_scaling_factor r
  baseline_nonneg : ∀ t ≤ p.tf, ∀ r ∈ p.regions, 0 ≤ p.baseline_emissions t r
  damages : md.damage = .COACCH → 0 ≤ p.damage_scale_factor ∧ ∀ r ∈ p.regions, ∀ x y vx vy : ℝ, p.T0 - 0.6 ≤ x → x ≤ y →
    Damages.functional_form x p.noslr r = .ok vx → Damages.functional_form y p.noslr r = .ok vy → vx ≤ vy

/-- Emissions are not abated beyond zero, and damages (if they count) do not exceed GDP. -/
structure Spec.WithinGDP (p : Params) (σ : Env) : Prop where
  abatement : ∀ t ≤ p.tf, ∀ r ∈ p.regions, σ.R .relative_abatement t r ≤ 1
  damages : p.ignore_damages = false → ∀ t ≤ p.tf, ∀ r ∈ p.regions, σ.R .damage_costs t r ≤ 1

namespace Determined

/-- The damages that count. -/
noncomputable def D (p : Params) (σ : Env) (t : ℕ) (r : String) : ℝ :=
  if p.ignore_damages then 0 else σ.R .damage_costs t r

/-- Carbon intensity of the baseline. -/
noncomputable def ci (p : Params) (t : ℕ) (r : String) : ℝ := p.baseline_carbon_intensity t r

/-- What the solutions agree on up to time `t`. -/
structure Agree (p : Params) (σ τ : Env) (t : ℕ) : Prop where
  cum : σ.G .cumulative_emissions t = τ.G .cumulative_emissions t
  world : σ.G .global_emissions t = τ.G .global_emissions t
  thermal : σ.G .slr_thermal t = τ.G .slr_thermal t
  gsic : σ.G .slr_cumgsic t = τ.G .slr_cumgsic t
  gis : σ.G .slr_cumgis t = τ.G .slr_cumgis t
  capital : ∀ r ∈ p.regions, σ.R .capital_stock t r = τ.R .capital_stock t r

theorem Agree.symm {t : ℕ} (h : Agree p σ τ t) : Agree p τ σ t :=
  ⟨h.cum.symm, h.world.symm, h.thermal.symm, h.gsic.symm, h.gis.symm, fun r hr => (h.capital r hr).symm⟩

section
variable (hadm : p.Admissible) (hn : Spec.NegativeFeedback md p) (huse : p.use_carbon_intensity_for_baseline = true)
  (htr : md.trade = .notrade) (hf : md.transfer = .notransfer)
include hadm hn

theorem ci_nonneg {t : ℕ} (ht : t ≤ p.tf) {r : String} (hr : r ∈ p.regions) : 0 ≤ ci p t r :=
  div_nonneg (hn.baseline_nonneg t ht r hr) (hadm.gdp_pos t ht r hr).le

theorem ac_nonneg (h : Solution md p σ) {t : ℕ} (ht : t ≤ p.tf) {r : String} (hr : r ∈ p.regions) : 0 ≤ acVal p σ t r := by
  have hl := (C31_positive h (by linarith [hadm.lot]) ht).2.2
  have ha := Real.rpow_nonneg (h.abatement_bounds ht hr).1 (p.MAC_beta + 1)
  have h1 := hn.scaling_nonneg r hr
  have h2 := hn.gamma_nonneg
  have h3 := hadm.beta_pos
  unfold acVal
  positivity

include huse htr hf in
omit hadm hn in
/-- Net GDP after damages and the costs that themselves grow with GDP. -/
theorem net_eq (h : Solution md p σ) {t : ℕ} (ht : t ≤ p.tf) {r : String} (hr : r ∈ p.regions) :
    σ.R .GDP_net t r * (1 + acVal p σ t r * ci p t r) = σ.R .GDP_gross t r * (1 - D p σ t r) := by
  have n := h.eqs.economy.net t ht r hr
  have m := (h.eqs.mitigation.mitigation_costs t ht r hr).2
  have b : σ.R .baseline t r = ci p t r * σ.R .GDP_net t r := (C23_baseline h ht hr).2 huse
  rw [htr] at m
  rw [hf] at n
  have n' : σ.R .GDP_net t r = σ.R .GDP_gross t r * (1 - D p σ t r) - σ.R .mitigation_costs t r - 0 := n
  have m' : σ.R .mitigation_costs t r = acVal p σ t r * σ.R .baseline t r + 0 := m
  rw [m', b] at n'
  linarith

include huse htr hf in
theorem net_eq' (h : Solution md p σ) {t : ℕ} (ht : t ≤ p.tf) {r : String} (hr : r ∈ p.regions) :
    σ.R .GDP_net t r = σ.R .GDP_gross t r * ((1 - D p σ t r) / (1 + acVal p σ t r * ci p t r)) := by
  have h1 := ac_nonneg hadm hn h ht hr
  have h2 := ci_nonneg hadm hn ht hr
  have h3 : 0 < 1 + acVal p σ t r * ci p t r := by positivity
  rw [← mul_div_assoc, eq_div_iff h3.ne', net_eq huse htr hf h ht hr]

include huse htr hf in
theorem net_nonneg (h : Solution md p σ) (hw : Spec.WithinGDP p σ) {t : ℕ} (ht : t ≤ p.tf) {r : String}
    (hr : r ∈ p.regions) : 0 ≤ σ.R .GDP_net t r := by
  have h1 := ac_nonneg hadm hn h ht hr
  have h2 := ci_nonneg hadm hn ht hr
  have h3 : 0 ≤ 1 - D p σ t r := by
    unfold D
    split
    · norm_num
    · rename_i hi
      have := hw.damages (by simpa using hi) t ht r hr
      linarith
  rw [net_eq' hadm hn huse htr hf h ht hr]
  exact mul_nonneg (h.gross_pos hadm ht hr).le (div_nonneg h3 (by positivity))

section
variable (h : Solution md p σ) (h' : Solution md p τ) (ha : Spec.SameAbatement p σ τ)
include h h'

omit hadm hn in
/-- Sea level lags behind temperature. -/
theorem sea {t : ℕ} (ht : t < p.tf) (ag : Agree p σ τ t) : σ.G .slr_thermal (t + 1) = τ.G .slr_thermal (t + 1) ∧
    σ.G .slr_cumgsic (t + 1) = τ.G .slr_cumgsic (t + 1) ∧ σ.G .slr_cumgis (t + 1) = τ.G .slr_cumgis (t + 1) := by
  have hT : σ.G .temperature t = τ.G .temperature t := by
    rw [h.eqs.emissions.temperature t (Nat.le_of_lt ht), h'.eqs.emissions.temperature t (Nat.le_of_lt ht), ag.cum]
  rw [h.eqs.slr.thermal t ht, h'.eqs.slr.thermal t ht, h.eqs.slr.gsic t ht, h'.eqs.slr.gsic t ht, h.eqs.slr.gis t ht,
    h'.eqs.slr.gis t ht, ag.thermal, ag.gsic, ag.gis, hT]
  exact ⟨rfl, rfl, rfl⟩

omit hadm in
/-- Higher cumulative emissions at the same sea level: no less damage. -/
theorem D_le {t : ℕ} (ht : t ≤ p.tf) (hs : σ.G .slr_thermal t = τ.G .slr_thermal t ∧
    σ.G .slr_cumgsic t = τ.G .slr_cumgsic t ∧ σ.G .slr_cumgis t = τ.G .slr_cumgis t)
    (hc : σ.G .cumulative_emissions t ≤ τ.G .cumulative_emissions t) {r : String} (hr : r ∈ p.regions) :
    D p σ t r ≤ D p τ t r := by
  unfold D
  split
  · exact le_rfl
  · have d := h.eqs.damages
    have d' := h'.eqs.damages
    cases hd : md.damage with
    | nodamage =>
      rw [hd] at d d'
      have z : σ.R .damage_costs t r = 0 := d t ht r hr
      have z' : τ.R .damage_costs t r = 0 := d' t ht r hr
      rw [z, z']
    | COACCH =>
      rw [hd] at d d'
      have hS : ∀ {u}, u ≤ p.tf → (σ.G .slr_thermal u = τ.G .slr_thermal u ∧
          σ.G .slr_cumgsic u = τ.G .slr_cumgsic u ∧ σ.G .slr_cumgis u = τ.G .slr_cumgis u) →
          σ.G .total_SLR u = τ.G .total_SLR u := by
        intro u hu q
        rw [h.eqs.slr.total u hu, h'.eqs.slr.total u hu, q.1, q.2.1, q.2.2]
      have e0 := hS (Nat.zero_le p.tf) ⟨h.eqs.slr.thermal_init.trans h'.eqs.slr.thermal_init.symm,
        h.eqs.slr.gsic_init.trans h'.eqs.slr.gsic_init.symm, h.eqs.slr.gis_init.trans h'.eqs.slr.gis_init.symm⟩
      have e1 := hS ht hs
      have hT := h.eqs.emissions.temperature t ht
      have hT' := h'.eqs.emissions.temperature t ht
      have hle : σ.G .temperature t ≤ τ.G .temperature t := by
        rw [hT, hT']
        have := mul_le_mul_of_nonneg_left hc hn.TCRE_nonneg
        linarith
      have hge : p.T0 ≤ σ.G .temperature t := by
        rw [hT]
        have := mul_nonneg hn.TCRE_nonneg (h.eqs.emissions.cumulative_nonneg t ht)
        linarith
      obtain ⟨hk, hmono⟩ := hn.damages hd
      have f := (d.noslr t ht r hr).1
      have f' := (d'.noslr t ht r hr).1
      have hm := hmono r hr (σ.G .temperature t - 0.6) (τ.G .temperature t - 0.6)
        (formVal (σ.G .temperature t - 0.6) p.noslr r) (formVal (τ.G .temperature t - 0.6) p.noslr r)
        (by linarith) (by linarith)
        (by rw [functional_form_real]; exact if_pos (h.instOk.forms hd r hr).1)
        (by rw [functional_form_real]; exact if_pos (h.instOk.forms hd r hr).1)
      rw [d.total t ht r hr, d'.total t ht r hr, (d.noslr t ht r hr).2.2, (d'.noslr t ht r hr).2.2,
        (d.slr t ht r hr).2.2, (d'.slr t ht r hr).2.2, e0, e1]
      have := mul_le_mul_of_nonneg_left (sub_le_sub_right hm (formVal (p.T0 - 0.6) p.noslr r)) hk
      linarith

include ha in
theorem ac_le {t : ℕ} (ht : t ≤ p.tf) (hc : σ.G .cumulative_emissions t ≤ τ.G .cumulative_emissions t) {r : String}
    (hr : r ∈ p.regions) : acVal p σ t r ≤ acVal p τ t r := by
  have hl : σ.G .learning_factor t ≤ τ.G .learning_factor t := by
    rw [C31_learning_is_product h ht, C31_learning_is_product h' ht]
    have e : σ.G .LOT_factor t = τ.G .LOT_factor t := (C31_over_time h ht).trans (C31_over_time h' ht).symm
    rw [e]
    exact mul_le_mul_of_nonneg_right (C31_by_doing_mono h h' hadm.lbd_scaling hn.lbd_le ht hc)
      (C31_positive h' (by linarith [hadm.lot]) ht).2.1.le
  have hp := Real.rpow_nonneg (h'.abatement_bounds ht hr).1 (p.MAC_beta + 1)
  have h1 := hn.scaling_nonneg r hr
  have h2 := hn.gamma_nonneg
  have h3 := hadm.beta_pos
  unfold acVal
  rw [ha t ht r hr]
  gcongr

include ha huse htr hf in
/-- If `τ` has the higher cumulative emissions, it has the smaller economy. -/
theorem smaller {t : ℕ} (ht : t < p.tf) (ag : Agree p σ τ t)
    (hc : σ.G .cumulative_emissions (t + 1) ≤ τ.G .cumulative_emissions (t + 1)) {r : String} (hr : r ∈ p.regions)
    (hD : D p σ (t + 1) r ≤ 1) (hK : 0 < σ.R .capital_stock t r) :
    τ.R .capital_stock (t + 1) r ≤ σ.R .capital_stock (t + 1) r ∧ τ.R .GDP_net (t + 1) r ≤ σ.R .GDP_net (t + 1) r := by
  have ht' : t + 1 ≤ p.tf := ht
  have hs := sea h h' ht ag
  have d := D_le hn h h' ht' hs hc hr
  have c := ac_le hadm hn h h' ha ht' hc hr
  have c0 := ac_nonneg hadm hn h ht' hr
  have i0 := ci_nonneg hadm hn ht' hr
  set m := (1 - D p σ (t + 1) r) / (1 + acVal p σ (t + 1) r * ci p (t + 1) r) with hm
  set m' := (1 - D p τ (t + 1) r) / (1 + acVal p τ (t + 1) r * ci p (t + 1) r) with hm'
  have q0 : 0 < 1 + acVal p σ (t + 1) r * ci p (t + 1) r := by positivity
  have q1 : 1 + acVal p σ (t + 1) r * ci p (t + 1) r ≤ 1 + acVal p τ (t + 1) r * ci p (t + 1) r := by gcongr
  have hm0 : 0 ≤ m := div_nonneg (by linarith) q0.le
  have hmm : m' ≤ m :=
    (div_le_div_of_nonneg_right (by linarith : 1 - D p τ (t + 1) r ≤ 1 - D p σ (t + 1) r) (q0.le.trans q1)).trans
      (div_le_div_of_nonneg_left (by linarith) q0 q1)
  have n := net_eq' hadm hn huse htr hf h ht' hr
  have n' := net_eq' hadm hn huse htr hf h' ht' hr
  rw [← hm] at n
  rw [← hm'] at n'
  have g := (h.eqs.economy.gross t ht r hr).2
  have g' := (h'.eqs.economy.gross t ht r hr).2
  set F := get_TFP_value p (t + 1) r * p.population (t + 1) r ^ (1 - p.alpha) with hF
  have hF0 : 0 < F := by
    have hgp := h.gross_pos hadm ht' hr
    rw [g] at hgp
    exact (mul_pos_iff_of_pos_right (Real.rpow_pos_of_pos (soft_min_pos_ten _) _)).1 hgp
  have e := h.capital_eq hadm ht hr
  have e' := h'.capital_eq hadm ht hr
  rw [n, g] at e
  rw [n', g', ← ag.capital r hr] at e'
  have hA : (0 : ℝ) < 2 - (1 - p.dk) ^ p.dt := by linarith [dk_pow_le hadm]
  have hds : 0 ≤ p.dt * p.sr * F := mul_nonneg (mul_nonneg hadm.dt_pos.le hadm.sr_nonneg) hF0.le
  have hKK : τ.R .capital_stock (t + 1) r ≤ σ.R .capital_stock (t + 1) r := by
    -- compare the capital equations with the smaller and the larger productivity
    refine capital_le (A := 2 - (1 - p.dk) ^ p.dt) (B := σ.R .capital_stock t r) (B' := σ.R .capital_stock t r)
      (C := p.dt * p.sr * F * m') (C' := p.dt * p.sr * F * m) hA hK hadm.alpha_nonneg hadm.alpha_lt le_rfl
      (mul_le_mul_of_nonneg_left hmm hds) ?_ ?_
    · rw [e']; ring
    · rw [e]; ring
  refine ⟨hKK, ?_⟩
  have hpow := Real.rpow_le_rpow (soft_min_pos_ten _).le ((soft_min_strictMono (by norm_num : (0 : ℝ) < 10)).monotone hKK)
    hadm.alpha_nonneg
  have hp0 := Real.rpow_nonneg (soft_min_pos_ten (τ.R .capital_stock (t + 1) r)).le p.alpha
  rw [n, n', g, g']
  calc F * soft_min (τ.R .capital_stock (t + 1) r) 10 ^ p.alpha * m'
      ≤ F * soft_min (τ.R .capital_stock (t + 1) r) 10 ^ p.alpha * m :=
        mul_le_mul_of_nonneg_left hmm (mul_nonneg hF0.le hp0)
    _ ≤ F * soft_min (σ.R .capital_stock (t + 1) r) 10 ^ p.alpha * m :=
        mul_le_mul_of_nonneg_right (mul_le_mul_of_nonneg_left hpow hF0.le) hm0

include ha huse htr hf in
/-- … and hence the lower emissions: a contradiction, unless they are equal. -/
theorem cum_le {t : ℕ} (ht : t < p.tf) (ag : Agree p σ τ t)
    (h1 : ∀ r ∈ p.regions, σ.R .relative_abatement (t + 1) r ≤ 1)
    (hc : σ.G .cumulative_emissions (t + 1) ≤ τ.G .cumulative_emissions (t + 1))
    (hD : ∀ r ∈ p.regions, D p σ (t + 1) r ≤ 1) (hK : ∀ r ∈ p.regions, 0 < σ.R .capital_stock t r) :
    σ.G .global_emissions (t + 1) = τ.G .global_emissions (t + 1) ∧
      σ.G .cumulative_emissions (t + 1) = τ.G .cumulative_emissions (t + 1) := by
  have ht' : t + 1 ≤ p.tf := ht
  have hE : τ.G .global_emissions (t + 1) ≤ σ.G .global_emissions (t + 1) := by
    rw [C23_global_is_sum h ht', C23_global_is_sum h' ht']
    refine sumR_le (p := p) fun r hr => ?_
    rw [C23_abated_baseline h ht' (Nat.succ_pos t) hr, C23_abated_baseline h' ht' (Nat.succ_pos t) hr,
      (C23_baseline h ht' hr).2 huse, (C23_baseline h' ht' hr).2 huse, ← ha (t + 1) ht' r hr]
    have n := (smaller hadm hn huse htr hf h h' ha ht ag hc hr (hD r hr) (hK r hr)).2
    have := ci_nonneg hadm hn ht' hr
    have ha1 := h1 r hr
    exact mul_le_mul_of_nonneg_left (mul_le_mul_of_nonneg_left n this) (by linarith)
  have c := h.eqs.emissions.cumulative t ht
  have c' := h'.eqs.emissions.cumulative t ht
  rw [ag.cum, ag.world] at c
  have hdt := hadm.dt_pos
  have hle : τ.G .cumulative_emissions (t + 1) ≤ σ.G .cumulative_emissions (t + 1) := by
    rw [c, c']
    split <;> gcongr
  have heq := le_antisymm hc hle
  refine ⟨?_, heq⟩
  rw [c, c'] at heq
  split at heq
  · have : p.dt * (σ.G .global_emissions (t + 1) - τ.G .global_emissions (t + 1)) = 0 := by linarith
    rcases mul_eq_zero.1 this with h0 | h0 <;> linarith
  · have : p.dt * (σ.G .global_emissions (t + 1) - τ.G .global_emissions (t + 1)) = 0 := by linarith
    rcases mul_eq_zero.1 this with h0 | h0 <;> linarith
end

include huse htr hf in
theorem agree (h : Solution md p σ) (h' : Solution md p τ) (ha : Spec.SameAbatement p σ τ) (hw : Spec.WithinGDP p σ) :
    ∀ {t : ℕ}, t ≤ p.tf → Agree p σ τ t := by
  have ha' : Spec.SameAbatement p τ σ := fun t ht r hr => (ha t ht r hr).symm
  have hKpos : ∀ {t : ℕ}, t ≤ p.tf → ∀ r ∈ p.regions, 0 < σ.R .capital_stock t r := fun ht r hr =>
    C37_positive h hadm.econData hr (fun t ht => net_nonneg hadm hn huse htr hf h hw ht hr) ht
  have hDσ : ∀ t ≤ p.tf, ∀ r ∈ p.regions, D p σ t r ≤ 1 := by
    intro t ht r hr
    unfold D
    split
    · norm_num
    · rename_i hi; exact hw.damages (by simpa using hi) t ht r hr
  intro t
  induction t with
  | zero =>
    intro _
    exact ⟨h.eqs.emissions.cumulative_init.trans h'.eqs.emissions.cumulative_init.symm,
      (C32_emissions h).2.1.trans (C32_emissions h').2.1.symm,
      h.eqs.slr.thermal_init.trans h'.eqs.slr.thermal_init.symm, h.eqs.slr.gsic_init.trans h'.eqs.slr.gsic_init.symm,
      h.eqs.slr.gis_init.trans h'.eqs.slr.gis_init.symm,
      fun r hr => (h.eqs.economy.capital_init r hr).trans (h'.eqs.economy.capital_init r hr).symm⟩
  | succ t ih =>
    intro ht
    have ag := ih (by omega)
    have hs := sea h h' ht ag
    have hs' := sea h' h ht ag.symm
    have key : σ.G .global_emissions (t + 1) = τ.G .global_emissions (t + 1) ∧
        σ.G .cumulative_emissions (t + 1) = τ.G .cumulative_emissions (t + 1) := by
      rcases le_total (σ.G .cumulative_emissions (t + 1)) (τ.G .cumulative_emissions (t + 1)) with hc | hc
      · exact cum_le hadm hn huse htr hf h h' ha ht ag (fun r hr => hw.abatement _ ht r hr) hc
          (fun r hr => hDσ _ ht r hr) (fun r hr => hKpos (Nat.le_of_succ_le ht) r hr)
      · have := cum_le hadm hn huse htr hf h' h ha' ht ag.symm
          (fun r hr => by rw [← ha _ ht r hr]; exact hw.abatement _ ht r hr) hc
          (fun r hr => (D_le hn h' h ht hs' hc hr).trans (hDσ _ ht r hr))
          (fun r hr => by rw [← ag.capital r hr]; exact hKpos (Nat.le_of_succ_le ht) r hr)
        exact ⟨this.1.symm, this.2.symm⟩
    refine ⟨key.2, key.1, hs.1, hs.2.1, hs.2.2, fun r hr => le_antisymm ?_ ?_⟩
    · exact (smaller hadm hn huse htr hf h' h ha' ht ag.symm key.2.ge hr
        ((D_le hn h' h ht hs' key.2.ge hr).trans (hDσ _ ht r hr))
        (by rw [← ag.capital r hr]; exact hKpos (Nat.le_of_succ_le ht) r hr)).1
    · exact (smaller hadm hn huse htr hf h h' ha ht ag key.2.le hr (hDσ _ ht r hr)
        (hKpos (Nat.le_of_succ_le ht) r hr)).1

include huse htr hf in
theorem baseline (h : Solution md p σ) (h' : Solution md p τ) (ha : Spec.SameAbatement p σ τ) (hw : Spec.WithinGDP p σ)
    {t : ℕ} (ht : t ≤ p.tf) {r : String} (hr : r ∈ p.regions) : σ.R .baseline t r = τ.R .baseline t r := by
  have ha' : Spec.SameAbatement p τ σ := fun t ht r hr => (ha t ht r hr).symm
  have ag := agree hadm hn huse htr hf h h' ha hw ht
  have hs : σ.G .slr_thermal t = τ.G .slr_thermal t ∧ σ.G .slr_cumgsic t = τ.G .slr_cumgsic t ∧
      σ.G .slr_cumgis t = τ.G .slr_cumgis t := ⟨ag.thermal, ag.gsic, ag.gis⟩
  have hs' : τ.G .slr_thermal t = σ.G .slr_thermal t ∧ τ.G .slr_cumgsic t = σ.G .slr_cumgsic t ∧
      τ.G .slr_cumgis t = σ.G .slr_cumgis t := ⟨hs.1.symm, hs.2.1.symm, hs.2.2.symm⟩
  have d := le_antisymm (D_le hn h h' ht hs ag.cum.le hr) (D_le hn h' h ht hs' ag.cum.ge hr)
  have c := le_antisymm (ac_le hadm hn h h' ha ht ag.cum.le hr) (ac_le hadm hn h' h ha' ht ag.cum.ge hr)
  have g : σ.R .GDP_gross t r = τ.R .GDP_gross t r := by
    cases t with
    | zero => exact (h.eqs.economy.gross_init r hr).trans (h'.eqs.economy.gross_init r hr).symm
    | succ t => rw [(h.eqs.economy.gross t ht r hr).2, (h'.eqs.economy.gross t ht r hr).2, ag.capital r hr]
  rw [(C23_baseline h ht hr).2 huse, (C23_baseline h' ht hr).2 huse, net_eq' hadm hn huse htr hf h ht hr,
    net_eq' hadm hn huse htr hf h' ht hr, d, c, g]
end
end Determined

section
variable (hadm : p.Admissible) (hn : Spec.NegativeFeedback md p) (huse : p.use_carbon_intensity_for_baseline = true)
  (htr : md.trade = .notrade) (hf : md.transfer = .notransfer) (h : Solution md p σ) (h' : Solution md p τ)
  (ha : Spec.SameAbatement p σ τ) (hw : Spec.WithinGDP p σ)
include hadm hn huse htr hf h h' ha hw

/-- **C54.** With the carbon-intensity baseline, two solutions with the same abatement path have the same baseline,
emissions, temperature and sea level … -/
theorem C54_emissions_carbon_intensity {t : ℕ} (ht : t ≤ p.tf) :
    (∀ r ∈ p.regions, σ.R .baseline t r = τ.R .baseline t r ∧
      σ.R .regional_emissions t r = τ.R .regional_emissions t r) ∧
    σ.G .global_emissions t = τ.G .global_emissions t ∧
    σ.G .cumulative_emissions t = τ.G .cumulative_emissions t ∧
    σ.G .temperature t = τ.G .temperature t ∧ σ.G .total_SLR t = τ.G .total_SLR t := by
  have hb := fun t (ht : t ≤ p.tf) r (hr : r ∈ p.regions) => Determined.baseline hadm hn huse htr hf h h' ha hw ht hr
  have e := SameBase.emissions h h' ha hb ht
  have c := SameBase.climate h h' ha hb ht
  exact ⟨fun r hr => ⟨(e.1 r hr).2.1, (e.1 r hr).1⟩, e.2, c.1, c.2.1, c.2.2.2.2.2⟩

/-- … the same damages, carbon prices and abatement costs … -/
theorem C54_costs_carbon_intensity {t : ℕ} (ht : t ≤ p.tf) {r : String} (hr : r ∈ p.regions) :
    σ.R .damage_costs t r = τ.R .damage_costs t r ∧ σ.R .carbonprice t r = τ.R .carbonprice t r ∧
    σ.R .mitigation_costs t r = τ.R .mitigation_costs t r := by
  have hb := fun t (ht : t ≤ p.tf) r (hr : r ∈ p.regions) => Determined.baseline hadm hn huse htr hf h h' ha hw ht hr
  have c := (SameBase.costs h h' ha hb ht).2 r hr
  exact ⟨SameBase.damages h h' ha hb ht hr, c.1, c.2.2 htr⟩

/-- … the same economy … -/
theorem C54_economy_carbon_intensity {t : ℕ} (ht : t ≤ p.tf) {r : String} (hr : r ∈ p.regions) :
    σ.R .capital_stock t r = τ.R .capital_stock t r ∧ σ.R .GDP_gross t r = τ.R .GDP_gross t r ∧
    σ.R .GDP_net t r = τ.R .GDP_net t r ∧ σ.R .investments t r = τ.R .investments t r ∧
    σ.R .consumption t r = τ.R .consumption t r :=
  SameBase.economy h h' ha (fun _ ht _ hr => Determined.baseline hadm hn huse htr hf h h' ha hw ht hr) htr hf
    (fun _ ht r hr => (Determined.agree hadm hn huse htr hf h h' ha hw ht).capital r hr) ht hr

/-- … and the same welfare and objective. -/
theorem C54_objective_carbon_intensity {t : ℕ} (ht : t ≤ p.tf) :
    σ.G .yearly_welfare t = τ.G .yearly_welfare t ∧ σ.G .NPV t = τ.G .NPV t :=
  SameBase.objective h h' ha (fun _ ht _ hr => Determined.baseline hadm hn huse htr hf h h' ha hw ht hr) htr hf
    (fun _ ht r hr => (Determined.agree hadm hn huse htr hf h h' ha hw ht).capital r hr) ht
end

/-- The usual coefficients give a negative feedback. -/
theorem C54_ordinary_feedback (hd : Spec.OrdinaryData md p) (hc : ∀ r ∈ p.regions, Spec.CoeffsOk p.noslr r (p.T0 - 0.6))
    (hs : 0 ≤ p.damage_scale_factor) : Spec.NegativeFeedback md p where
  TCRE_nonneg := hd.TCRE_nonneg
  lbd_le := hd.lbd_le
  gamma_nonneg := hd.gamma_nonneg
  scaling_nonneg := hd.scaling_nonneg
  baseline_nonneg := hd.baseline_nonneg
  damages := fun _ => ⟨hs, fun r hr _ _ _ _ hx hxy ex ey => C41_form_monotone (hc r hr) hx hxy ex ey⟩

/-! ## Witness -/

namespace Ex
variable {w : WelfareModule} {o : ObjectiveModule}

theorem freeCI_coeffs : ∀ r ∈ freeCI.regions, Spec.CoeffsOk freeCI.noslr r (freeCI.T0 - 0.6) := by
  intro r _
  constructor <;> norm_num [freeCI, free, ex]

theorem freeCI_feedback : Spec.NegativeFeedback (md0 .COACCH w o) freeCI :=
  C54_ordinary_feedback freeCI_ordinary freeCI_coeffs zero_le_one

/-- Damages stay below GDP in every solution in which emissions are halved. -/
theorem freeCI_within {σ : Env} (h : Solution (md0 .COACCH w o) freeCI σ)
    (ha : ∀ t r, σ.R .relative_abatement t r = half t r) : Spec.WithinGDP freeCI σ := by
  have hn := freeCI_feedback (w := w) (o := o)
  have hab : ∀ t r, 0 ≤ half t r ∧ half t r ≤ 1 := fun t r => by unfold half; split <;> norm_num
  refine ⟨fun t _ r _ => by rw [ha]; exact (hab t r).2, fun _ => ?_⟩
  have hg : ∀ t ≤ 3, ∀ r ∈ freeCI.regions, σ.R .GDP_gross t r = 10 := by
    intro t ht r hr
    cases t with
    | zero => exact h.eqs.economy.gross_init r hr
    | succ t =>
      rw [(h.eqs.economy.gross t ht r hr).2]
      simp [get_TFP_value, calc_GDP_real, freeCI, free, ex]
  have hT0 : ∀ t ≤ 3, 1 ≤ σ.G .temperature t := by
    intro t ht
    have e : σ.G .temperature t = 1 + 0.0006 * σ.G .cumulative_emissions t := h.eqs.emissions.temperature t ht
    have := h.eqs.emissions.cumulative_nonneg t ht
    rw [e]; linarith
  have hdn : ∀ t ≤ 3, ∀ r ∈ freeCI.regions, σ.R .damage_costs_non_slr t r =
      (if r = "A" then (σ.G .temperature t - 1) / 100 else
        ((σ.G .temperature t - 0.6) + (σ.G .temperature t - 0.6) ^ 2 - (0.4 + 0.4 ^ 2)) / 100) := by
    intro t ht r hr
    have e : σ.R .damage_costs_non_slr t r = 1 * (formVal (σ.G .temperature t - 0.6) (ex "noregime" 0 none).noslr r -
      formVal (1 - 0.6) (ex "noregime" 0 none).noslr r) := (h.coacch' rfl).noslr t ht r hr |>.2.2
    have hr : r = "A" ∨ r = "B" := by simpa [freeCI, free, ex] using hr
    rw [e]
    rcases hr with rfl | rfl
    · rw [formN_A, formN_A, if_pos rfl]; ring
    · rw [formN_B, formN_B, if_neg (by decide)]; norm_num; ring
  have hdn0 : ∀ t ≤ 3, ∀ r ∈ freeCI.regions, 0 ≤ σ.R .damage_costs_non_slr t r := by
    intro t ht r hr
    have := hT0 t ht
    rw [hdn t ht r hr]
    split
    · linarith
    · nlinarith
  -- net GDP is at most 15, so a region emits at most 30 without abatement
  have hnet : ∀ t ≤ 3, ∀ r ∈ freeCI.regions, σ.R .GDP_net t r ≤ 15 := by
    intro t ht r hr
    have hq := Determined.net_eq (md := md0 .COACCH w o) (p := freeCI) rfl rfl rfl h ht hr
    have h1 := Determined.ac_nonneg freeCI_admissible hn h ht hr
    have h2 := Determined.ci_nonneg freeCI_admissible hn (t := t) ht hr
    have hD : Determined.D freeCI σ t r = σ.R .damage_costs_non_slr t r + σ.R .damage_costs_slr t r :=
      (h.coacch' rfl).total t ht r hr
    have h3 := (h.slr_damage_bounds rfl (t := t) ht hr).1
    have h4 := hdn0 t ht r hr
    rw [hg t ht r hr, hD] at hq
    by_contra hlt
    push Not at hlt
    have h5 := mul_nonneg h1 h2
    have h6 : 15 * 1 < σ.R .GDP_net t r * (1 + acVal freeCI σ t r * Determined.ci freeCI t r) :=
      mul_lt_mul hlt (by linarith) one_pos (by linarith)
    rw [hq] at h6
    linarith
  have hem : ∀ t ≤ 3, σ.G .global_emissions t ≤ if t = 0 then 40 else 30 := by
    intro t ht
    have hr : ∀ r ∈ freeCI.regions, σ.R .regional_emissions t r ≤ if t = 0 then 20 else 15 := by
      intro r hr
      rcases Nat.eq_zero_or_pos t with rfl | h0
      · rw [(C32_emissions h).1 r hr]; exact le_of_eq rfl
      · rw [C23_abated_baseline h ht h0 hr, (C23_baseline h ht hr).2 rfl, ha, half, if_neg (by omega), if_neg (by omega)]
        have e : freeCI.baseline_emissions t r / freeCI.baseline_GDP t r = 2 := by
          show (20 : ℝ) / 10 = 2
          norm_num
        have := hnet t ht r hr
        rw [e]; linarith
    rw [C23_global_is_sum h ht]
    show (List.map (fun r => σ.R .regional_emissions t r) ["A", "B"]).sum ≤ _
    have h1 := hr "A" (by simp [freeCI, free, ex])
    have h2 := hr "B" (by simp [freeCI, free, ex])
    simp only [List.map_cons, List.map_nil, List.sum_cons, List.sum_nil]
    split at h1 <;> rename_i hz
    · rw [if_pos hz] at h2 ⊢; linarith
    · rw [if_neg hz] at h2 ⊢; linarith
  have hcum : ∀ t ≤ 3, σ.G .cumulative_emissions t ≤ 1400 * t := by
    intro t
    induction t with
    | zero => intro _; rw [h.eqs.emissions.cumulative_init]; norm_num
    | succ t ih =>
      intro ht
      have c : σ.G .cumulative_emissions (t + 1) = σ.G .cumulative_emissions t +
        40 * (σ.G .global_emissions (t + 1) + σ.G .global_emissions t) / 2 := h.eqs.emissions.cumulative t ht
      have e1 := hem (t + 1) ht
      have e2 := hem t (by omega)
      have i := ih (by omega)
      rw [if_neg (by omega)] at e1
      have e2' : σ.G .global_emissions t ≤ 40 := e2.trans (by split <;> norm_num)
      rw [c]; push_cast; linarith
  intro t ht r hr
  have ht : t ≤ 3 := ht
  have h3 : (t : ℝ) ≤ 3 := by exact_mod_cast ht
  have e : σ.G .temperature t = 1 + 0.0006 * σ.G .cumulative_emissions t := h.eqs.emissions.temperature t ht
  have hT : σ.G .temperature t ≤ 3.52 := by rw [e]; linarith [hcum t ht]
  have hT1 := hT0 t ht
  have hs := (h.slr_damage_bounds rfl (t := t) ht hr).2
  have hn : σ.R .damage_costs_non_slr t r ≤ 1 / 5 := by
    rw [hdn t ht r hr]
    split
    · linarith
    · nlinarith
  rw [(h.coacch' rfl).total t ht r hr]
  linarith

/-- There is a solution that halves emissions, and every solution that does so has its GDP, temperature and objective. -/
example (w : WelfareModule) (o : ObjectiveModule) : ∃ σ, Solution (md0 .COACCH w o) freeCI σ ∧
    σ.R .relative_abatement 2 "A" = 1 / 2 ∧
    ∀ τ, Solution (md0 .COACCH w o) freeCI τ → (∀ t r, τ.R .relative_abatement t r = half t r) → ∀ t : ℕ, t ≤ 3 →
      σ.G .temperature t = τ.G .temperature t ∧ σ.R .damage_costs t "B" = τ.R .damage_costs t "B" ∧
      σ.R .GDP_net t "A" = τ.R .GDP_net t "A" ∧ σ.G .NPV t = τ.G .NPV t := by
  obtain ⟨Kf, hU⟩ := favourable_exists (g := 1 / 10) freeCI_admissible
  obtain ⟨σ, h, ha⟩ := C49_path_feasible_carbon_intensity (md := md0 .COACCH w o) freeCI_admissible freeCI_ordinary
    (by norm_num) hU (limitsCI _ rfl) rfl (by simp [md0]) (Or.inl rfl)
  refine ⟨σ, h, by rw [ha]; norm_num [half], fun τ h' ha' t ht => ?_⟩
  have hs : Spec.SameAbatement freeCI σ τ := fun t _ r _ => (ha t r).trans (ha' t r).symm
  have hw := freeCI_within h ha
  exact ⟨(C54_emissions_carbon_intensity freeCI_admissible freeCI_feedback rfl rfl rfl h h' hs hw ht).2.2.2.1,
    (C54_costs_carbon_intensity freeCI_admissible freeCI_feedback rfl rfl rfl h h' hs hw ht (r := "B")
      (by simp [freeCI, free, ex])).1,
    (C54_economy_carbon_intensity freeCI_admissible freeCI_feedback rfl rfl rfl h h' hs hw ht (r := "A")
      (by simp [freeCI, free, ex])).2.2.1,
    (C54_objective_carbon_intensity freeCI_admissible freeCI_feedback rfl rfl rfl h h' hs hw ht).2⟩
end Ex

end Mimosa
