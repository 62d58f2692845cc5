import Verif.Props.Mitigation

/-!
# Emission trade (C34) and financial transfers (C35)
-/

namespace Mimosa
variable {md : Modules} {p : Params} {σ : Env}

theorem Solution.tradeEqs (h : Solution md p σ) (htr : md.trade = .emissiontrade) : TradeEqs p σ := by
  have := h.eqs.trade
  rw [htr] at this
  exact this

theorem Solution.poolEqs (h : Solution md p σ) (htr : md.transfer = .globaldamagepool) : PoolEqs p σ := by
  have := h.eqs.transfer
  rw [htr] at this
  exact this

/-! ## C34 -/

/-- Payments between regions cancel: money is conserved, in every year. -/
theorem C34_cost_balances_sum_zero (h : Solution md p σ) (htr : md.trade = .emissiontrade) {t : ℕ}
    (ht : t ≤ p.tf) :
    (p.regions.map fun r => σ.R .import_export_mitigation_cost_balance t r).sum = 0 :=
  (h.tradeEqs htr).zero_sum t ht

/-- Traded emission reductions cancel, in every year after the first (in the first year the model leaves
them free). -/
theorem C34_reduction_balances_sum_zero (h : Solution md p σ) (htr : md.trade = .emissiontrade) {t : ℕ}
    (ht : t ≤ p.tf) (h0 : 0 < t) :
    (p.regions.map fun r => σ.R .import_export_emission_reduction_balance t r).sum = 0 := by
  obtain ⟨t, rfl⟩ := Nat.exists_eq_succ_of_ne_zero h0.ne'
  have e := (h.tradeEqs htr).reduction_balance t ht
  have h1 : p.sumR (fun r => σ.R .import_export_emission_reduction_balance (t + 1) r) =
      p.sumR (fun r => σ.R .import_export_mitigation_cost_balance (t + 1) r /
        soft_min (σ.G .global_carbonprice (t + 1)) 1) := sumR_congr e
  rw [sumR_div, (h.tradeEqs htr).zero_sum (t + 1) ht, zero_div] at h1
  exact h1

/-- **C34.** What a region pays for, its reductions and what it may emit: it pays for its own reductions plus those it
bought; it may emit its baseline minus the reductions it paid for, which is what it emits minus what it bought. -/
theorem C34_allowances (h : Solution md p σ) (htr : md.trade = .emissiontrade) {t : ℕ} (ht : t ≤ p.tf) (h0 : 0 < t)
    {r : String} (hr : r ∈ p.regions) :
    σ.R .paid_for_emission_reductions t r =
      (σ.R .baseline t r - σ.R .regional_emissions t r) + σ.R .import_export_emission_reduction_balance t r ∧
    σ.R .regional_emission_allowances t r = σ.R .baseline t r - σ.R .paid_for_emission_reductions t r ∧
    σ.R .regional_emission_allowances t r =
      σ.R .regional_emissions t r - σ.R .import_export_emission_reduction_balance t r := by
  obtain ⟨t, rfl⟩ := Nat.exists_eq_succ_of_ne_zero h0.ne'
  have a := (h.tradeEqs htr).allowances t ht r hr
  have b := (h.tradeEqs htr).paid t ht r hr
  have c := h.eqs.emissions.reduction (t + 1) ht r hr
  refine ⟨?_, a, ?_⟩ <;> linarith

/-- Emission allowances of all regions add up to actual global emissions. -/
theorem C34_allowances_sum (h : Solution md p σ) (htr : md.trade = .emissiontrade) {t : ℕ}
    (ht : t ≤ p.tf) (h0 : 0 < t) :
    (p.regions.map fun r => σ.R .regional_emission_allowances t r).sum = σ.G .global_emissions t := by
  have hz := C34_reduction_balances_sum_zero h htr ht h0
  obtain ⟨t, rfl⟩ := Nat.exists_eq_succ_of_ne_zero h0.ne'
  have e : p.sumR (fun r => σ.R .regional_emission_allowances (t + 1) r) =
      p.sumR (fun r => σ.R .regional_emissions (t + 1) r -
        σ.R .import_export_emission_reduction_balance (t + 1) r) := by
    apply sumR_congr
    intro r hr
    have a := (h.tradeEqs htr).allowances t ht r hr
    have b := (h.tradeEqs htr).paid t ht r hr
    have c := h.eqs.emissions.reduction (t + 1) ht r hr
    linarith
  rw [sumR_sub] at e
  have hz' : p.sumR (fun r => σ.R .import_export_emission_reduction_balance (t + 1) r) = 0 := hz
  rw [hz', sub_zero, ← h.eqs.emissions.global_emissions t ht] at e
  exact e

/-- Mitigation costs of all regions add up to the total area under the marginal abatement cost curves:
trade redistributes costs but creates none. -/
theorem C34_costs_sum (h : Solution md p σ) (htr : md.trade = .emissiontrade) {t : ℕ} (ht : t ≤ p.tf) :
    (p.regions.map fun r => σ.R .mitigation_costs t r).sum =
      (p.regions.map fun r => σ.R .area_under_MAC t r).sum := by
  have e : p.sumR (fun r => σ.R .mitigation_costs t r) = p.sumR (fun r => σ.R .area_under_MAC t r +
      σ.R .import_export_mitigation_cost_balance t r) := sumR_congr fun r hr => C33_costs h htr ht hr
  rw [sumR_add, (h.tradeEqs htr).zero_sum t ht, add_zero] at e
  exact e

/-- The global carbon price is the population-weighted mean, so it lies between the lowest and the highest
regional price. -/
theorem C34_global_price (h : Solution md p σ) (htr : md.trade = .emissiontrade) {t : ℕ} (ht : t ≤ p.tf)
    (hp : ∀ r ∈ p.regions, 0 < p.population t r) :
    (∃ r ∈ p.regions, σ.R .carbonprice t r ≤ σ.G .global_carbonprice t) ∧
    (∃ r ∈ p.regions, σ.G .global_carbonprice t ≤ σ.R .carbonprice t r) := by
  rw [((h.tradeEqs htr).price t ht).2]
  exact weighted_average h.regions_ne _ _ hp

/-- If all regions have the same carbon price, that is the global one. -/
theorem C34_uniform_price (h : Solution md p σ) (htr : md.trade = .emissiontrade) {t : ℕ} (ht : t ≤ p.tf)
    {c : ℝ} (hc : ∀ r ∈ p.regions, σ.R .carbonprice t r = c) : σ.G .global_carbonprice t = c := by
  obtain ⟨h1, h2⟩ := (h.tradeEqs htr).price t ht
  rw [h2, sumR_congr (g := fun r => c * p.population t r) fun r hr => by rw [hc r hr], sumR_mul_left,
    mul_div_assoc, div_self h1, mul_one]

/-- Who pays receives reductions: a region pays (positive balance) exactly if it imports emission
reductions, and the payment is the imported amount times a positive price at least the global carbon
price. -/
theorem C34_payment (h : Solution md p σ) (htr : md.trade = .emissiontrade) {t : ℕ}
    (ht : t ≤ p.tf) (h0 : 0 < t) {r : String} (hr : r ∈ p.regions) :
    (0 < σ.R .import_export_mitigation_cost_balance t r ↔
      0 < σ.R .import_export_emission_reduction_balance t r) ∧
    ∃ price, 0 < price ∧ σ.G .global_carbonprice t < price ∧
      price ≤ max (σ.G .global_carbonprice t) 0 + 1 / (25 * Real.pi) ∧
      σ.R .import_export_mitigation_cost_balance t r =
        price * σ.R .import_export_emission_reduction_balance t r := by
  obtain ⟨t, rfl⟩ := Nat.exists_eq_succ_of_ne_zero h0.ne'
  have e := (h.tradeEqs htr).reduction_balance t ht r hr
  have hpos := soft_min_pos_one (σ.G .global_carbonprice (t + 1))
  refine ⟨?_, _, hpos, soft_min_gt_self _ one_pos, soft_min_le _ one_pos, ?_⟩
  · show _ ↔ 0 < σ.R .import_export_emission_reduction_balance (t + 1) r
    rw [e]; exact (div_pos_iff_of_pos_right hpos).symm
  · show _ = _ * σ.R .import_export_emission_reduction_balance (t + 1) r
    rw [e]; field_simp

/-! ## C35 -/

theorem sum_erase {L : List String} {r : String} (hr : r ∈ L) (f : String → ℝ) :
    (L.map f).sum = f r + ((L.erase r).map f).sum := by
  have := (List.perm_cons_erase hr).map f
  rw [this.sum_eq]; simp

/-- Transfers sum to zero in every year. -/
theorem C35_zero_sum (h : Solution md p σ) (htr : md.transfer = .globaldamagepool) {t : ℕ}
    (ht : t ≤ p.tf) : (p.regions.map fun r => σ.R .financial_transfer t r).sum = 0 := by
  cases t with
  | zero =>
    have e : p.sumR (fun r => σ.R .financial_transfer 0 r) = p.sumR (fun _ => 0) :=
      sumR_congr (h.poolEqs htr).first_year
    rw [sumR_zero] at e; exact e
  | succ t => exact (h.poolEqs htr).zero_sum t ht

theorem C35_none_in_first_year (h : Solution md p σ) (htr : md.transfer = .globaldamagepool)
    {r : String} (hr : r ∈ p.regions) : σ.R .financial_transfer 0 r = 0 :=
  (h.poolEqs htr).first_year r hr

/-- Nobody receives more than its own damages (a received amount is a negative transfer). -/
theorem C35_received_at_most_damages (h : Solution md p σ) (htr : md.transfer = .globaldamagepool)
    {t : ℕ} (ht : t ≤ p.tf) {r : String} (hr : r ∈ p.regions) :
    -(σ.R .financial_transfer t r) ≤ σ.R .damage_costs t r * σ.R .GDP_gross t r := by
  have := (h.poolEqs htr).max_own t ht r hr
  linarith

/-- Nobody pays more than the damages of all other regions together. -/
theorem C35_paid_at_most_others_damages (h : Solution md p σ)
    (htr : md.transfer = .globaldamagepool) {t : ℕ} (ht : t ≤ p.tf) {r : String} (hr : r ∈ p.regions) :
    σ.R .financial_transfer t r ≤
      ((p.regions.erase r).map fun s => σ.R .damage_costs t s * σ.R .GDP_gross t s).sum := by
  have h1 := C35_zero_sum h htr ht
  rw [sum_erase hr] at h1
  have h2 : ((p.regions.erase r).map fun s => -(σ.R .financial_transfer t s)).sum ≤
      ((p.regions.erase r).map fun s => σ.R .damage_costs t s * σ.R .GDP_gross t s).sum := by
    apply List.sum_le_sum
    intro s hs
    exact C35_received_at_most_damages h htr ht (List.mem_of_mem_erase hs)
  have h3 : ((p.regions.erase r).map fun s => -(σ.R .financial_transfer t s)).sum =
      -((p.regions.erase r).map fun s => σ.R .financial_transfer t s).sum := by
    generalize p.regions.erase r = L
    induction L with
    | nil => simp
    | cons a L ih => simp only [List.map_cons, List.sum_cons, ih]; ring
  rw [h3] at h2
  linarith

/-- Relative transfers are transfers over gross GDP. -/
theorem C35_relative (h : Solution md p σ) (htr : md.transfer = .globaldamagepool) {t : ℕ}
    (ht : t ≤ p.tf) {r : String} (hr : r ∈ p.regions) :
    σ.R .rel_financial_transfer t r = σ.R .financial_transfer t r / σ.R .GDP_gross t r := by
  rw [eq_div_iff (h.eqs.mitigation.rel_costs t ht r hr).1]
  exact (h.poolEqs htr).rel t ht r hr

/-- Without damages there are no transfers. -/
theorem C35_no_damages (h : Solution md p σ) (htr : md.transfer = .globaldamagepool)
    (hd : md.damage = .nodamage) {t : ℕ} (ht : t ≤ p.tf) {r : String} (hr : r ∈ p.regions) :
    σ.R .financial_transfer t r = 0 := by
  have hdam : ∀ s ∈ p.regions, σ.R .damage_costs t s = 0 := by
    have := h.eqs.damages
    rw [hd] at this
    exact fun s hs => this t ht s hs
  have h1 := C35_received_at_most_damages h htr ht hr
  have h2 := C35_paid_at_most_others_damages h htr ht hr
  rw [hdam r hr] at h1
  have h3 : ((p.regions.erase r).map fun s => σ.R .damage_costs t s * σ.R .GDP_gross t s).sum = 0 := by
    apply List.sum_eq_zero
    intro x hx
    obtain ⟨s, hs, rfl⟩ := List.mem_map.1 hx
    rw [hdam s (List.mem_of_mem_erase hs), zero_mul]
  rw [h3] at h2
  linarith

end Mimosa
