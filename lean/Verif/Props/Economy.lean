import Verif.Props.Trade

/-!
# The economy: C36 (GDP accounting), C37 (capital), C38 (TFP calibration)
-/

namespace Mimosa
variable {md : Modules} {p : Params} {σ : Env}

/-! ## C36 -/

/-- Net GDP is either invested or consumed, in the fixed savings proportion. -/
theorem C36_uses (h : Solution md p σ) {t : ℕ} (ht : t ≤ p.tf) {r : String} (hr : r ∈ p.regions) :
    σ.R .investments t r + σ.R .consumption t r = σ.R .GDP_net t r ∧
    σ.R .investments t r = p.sr * σ.R .GDP_net t r ∧
    σ.R .consumption t r = (1 - p.sr) * σ.R .GDP_net t r := by
  have h1 := h.eqs.economy.investments t ht r hr
  have h2 := h.eqs.economy.consumption t ht r hr
  exact ⟨by rw [h1, h2]; ring, h1, h2⟩
example := C36_uses Ex.sol0 (t := 1) (by simp [Ex.ex]) (r := "A") (by simp [Ex.ex])

/-- Net GDP is gross GDP minus damages, mitigation costs and transfers. -/
theorem C36_net (h : Solution md p σ) {t : ℕ} (ht : t ≤ p.tf) {r : String} (hr : r ∈ p.regions)
    (hi : p.ignore_damages = false) :
    (md.transfer = .notransfer → σ.R .GDP_net t r = σ.R .GDP_gross t r
      - σ.R .damage_costs t r * σ.R .GDP_gross t r - σ.R .mitigation_costs t r) ∧
    (md.transfer = .globaldamagepool → σ.R .GDP_net t r = σ.R .GDP_gross t r
      - σ.R .damage_costs t r * σ.R .GDP_gross t r - σ.R .mitigation_costs t r
      - σ.R .financial_transfer t r) := by
  have h1 := h.eqs.economy.net t ht r hr
  rw [hi] at h1
  constructor
  · intro hm; rw [hm] at h1; simp only [transferVal] at h1; rw [h1]; simp; ring
  · intro hm; rw [hm] at h1; simp only [transferVal] at h1; rw [h1]; simp; ring

/-- With "ignore damages" damages do not reduce GDP. -/
theorem C36_net_ignoring_damages (h : Solution md p σ) {t : ℕ} (ht : t ≤ p.tf) {r : String}
    (hr : r ∈ p.regions) (hi : p.ignore_damages = true) (hm : md.transfer = .notransfer) :
    σ.R .GDP_net t r = σ.R .GDP_gross t r - σ.R .mitigation_costs t r := by
  have h1 := h.eqs.economy.net t ht r hr
  rw [hi, hm] at h1
  simp only [transferVal] at h1
  rw [h1]; simp

/-- World net GDP does not depend on transfers or on trade balances: it is world gross GDP minus world
damages minus the total area under the marginal abatement cost curves. -/
theorem C36_world_net (h : Solution md p σ) {t : ℕ} (ht : t ≤ p.tf) :
    (p.regions.map fun r => σ.R .GDP_net t r).sum =
      (p.regions.map fun r => σ.R .GDP_gross t r).sum
      - (p.regions.map fun r => if p.ignore_damages then 0
          else σ.R .damage_costs t r * σ.R .GDP_gross t r).sum
      - (p.regions.map fun r => σ.R .area_under_MAC t r).sum := by
  have hcost : p.sumR (fun r => σ.R .mitigation_costs t r) =
      p.sumR (fun r => σ.R .area_under_MAC t r) := by
    cases htr : md.trade with
    | notrade => exact sumR_congr fun r hr => C33_costs_notrade h htr ht hr
    | emissiontrade => exact C34_costs_sum h htr ht
    | globalcostpool => exact absurd htr h.trade_ne
  have htrans : p.sumR (fun r => transferVal σ md.transfer t r) = 0 := by
    cases hm : md.transfer with
    | notransfer => exact sumR_zero
    | globaldamagepool => exact C35_zero_sum h hm ht
  have e : p.sumR (fun r => σ.R .GDP_net t r) = p.sumR (fun r => σ.R .GDP_gross t r
      - (if p.ignore_damages then 0 else σ.R .damage_costs t r * σ.R .GDP_gross t r)
      - σ.R .mitigation_costs t r - transferVal σ md.transfer t r) := by
    apply sumR_congr
    intro r hr
    rw [h.eqs.economy.net t ht r hr]
    split <;> ring
  rw [sumR_sub, sumR_sub, sumR_sub, htrans, hcost, sub_zero] at e
  exact e
example := C36_world_net Ex.sol0 (t := 1) (by simp [Ex.ex])

/-- … likewise world consumption. -/
theorem C36_world_consumption (h : Solution md p σ) {t : ℕ} (ht : t ≤ p.tf) :
    (p.regions.map fun r => σ.R .consumption t r).sum =
      (1 - p.sr) * (p.regions.map fun r => σ.R .GDP_net t r).sum := by
  have e : p.sumR (fun r => σ.R .consumption t r) = p.sumR (fun r => (1 - p.sr) * σ.R .GDP_net t r) :=
    sumR_congr fun r hr => (C36_uses h ht hr).2.2
  rw [sumR_mul_left] at e; exact e
example := C36_world_consumption Ex.sol0 (t := 1) (by simp [Ex.ex])

example := C36_net Ex.sol0 (t := 2) (by simp [Ex.p0, Ex.ex]) (r := "B") (by simp [Ex.p0, Ex.ex]) rfl

/-! ## C37 -/

/-- Data of a normal economy. -/
structure Spec.EconData (p : Params) : Prop where
  gdp_pos : ∀ t ≤ p.tf, ∀ r ∈ p.regions, 0 < p.baseline_GDP t r
  pop_pos : ∀ t ≤ p.tf, ∀ r ∈ p.regions, 0 < p.population t r
  capital_pos : ∀ r ∈ p.regions, 0 < p.init_capitalstock_factor r
  dt_pos : 0 < p.dt
  sr_nonneg : 0 ≤ p.sr
  dk_nonneg : 0 ≤ p.dk
  dk_lt : p.dk < 1

theorem Params.Admissible.econData (h : p.Admissible) : Spec.EconData p :=
  ⟨h.gdp_pos, h.pop_pos, h.capital_pos, h.dt_pos, h.sr_nonneg, h.dk_nonneg, h.dk_lt⟩

/-- The remaining fraction of capital after one step is in `(0, 1]`. -/
theorem decay_range (h : Spec.EconData p) : 0 < (1 - p.dk) ^ p.dt ∧ (1 - p.dk) ^ p.dt ≤ 1 :=
  ⟨Real.rpow_pos_of_pos (by linarith [h.dk_lt]) _,
    Real.rpow_le_one (by linarith [h.dk_lt]) (by linarith [h.dk_nonneg]) h.dt_pos.le⟩

/-- The recursion (implicit in the new stock). -/
theorem C37_recursion (h : Solution md p σ) {t : ℕ} (ht : t < p.tf) {r : String} (hr : r ∈ p.regions) :
    (σ.R .capital_stock (t + 1) r - σ.R .capital_stock t r) / p.dt =
      ((1 - p.dk) ^ p.dt - 1) / p.dt * σ.R .capital_stock (t + 1) r + σ.R .investments (t + 1) r := by
  obtain ⟨_, hdt, e⟩ := h.eqs.economy.capital t ht r hr
  rw [div_eq_iff hdt]; linarith
example := C37_recursion Ex.sol0 (t := 1) (by simp [Ex.ex]) (r := "A") (by simp [Ex.ex])

theorem C37_initial (h : Solution md p σ) {r : String} (hr : r ∈ p.regions) :
    σ.R .capital_stock 0 r = p.init_capitalstock_factor r * p.baseline_GDP 0 r :=
  h.eqs.economy.capital_init r hr
example := C37_initial Ex.sol0 (r := "A") (by simp [Ex.ex])

/-- It has exactly one solution: capital is determined by the previous stock and investments. -/
theorem C37_explicit (h : Solution md p σ) (hd : Spec.EconData p) {t : ℕ} (ht : t < p.tf) {r : String}
    (hr : r ∈ p.regions) : σ.R .capital_stock (t + 1) r =
      (σ.R .capital_stock t r + p.dt * σ.R .investments (t + 1) r) / (2 - (1 - p.dk) ^ p.dt) := by
  obtain ⟨_, hdt, e⟩ := h.eqs.economy.capital t ht r hr
  have h2 := (decay_range hd).2
  rw [eq_div_iff (by linarith)]
  have e2 : p.dt * (((1 - p.dk) ^ p.dt - 1) / p.dt * σ.R .capital_stock (t + 1) r +
      σ.R .investments (t + 1) r) =
      ((1 - p.dk) ^ p.dt - 1) * σ.R .capital_stock (t + 1) r + p.dt * σ.R .investments (t + 1) r := by
    field_simp
  rw [e2] at e
  linarith

/-- Two solutions with the same investments have the same capital. -/
theorem C37_unique {md' : Modules} {σ' : Env} (h : Solution md p σ) (h' : Solution md' p σ')
    (hd : Spec.EconData p) {r : String} (hr : r ∈ p.regions)
    (hi : ∀ t ≤ p.tf, σ.R .investments t r = σ'.R .investments t r) {t : ℕ} (ht : t ≤ p.tf) :
    σ.R .capital_stock t r = σ'.R .capital_stock t r := by
  induction t with
  | zero => rw [C37_initial h hr, C37_initial h' hr]
  | succ t ih => rw [C37_explicit h hd ht hr, C37_explicit h' hd ht hr, ih (by omega), hi _ ht]

/-- Capital stays positive as long as net GDP is not negative. -/
theorem C37_positive (h : Solution md p σ) (hd : Spec.EconData p) {r : String} (hr : r ∈ p.regions)
    (hn : ∀ t ≤ p.tf, 0 ≤ σ.R .GDP_net t r) {t : ℕ} (ht : t ≤ p.tf) : 0 < σ.R .capital_stock t r := by
  induction t with
  | zero =>
    rw [C37_initial h hr]
    exact mul_pos (hd.capital_pos r hr) (hd.gdp_pos 0 (Nat.zero_le _) r hr)
  | succ t ih =>
    rw [C37_explicit h hd ht hr]
    have h1 := ih (by omega)
    have h2 := (C36_uses h ht hr).2.1
    have h3 := decay_range hd
    have h4 : 0 ≤ p.dt * σ.R .investments (t + 1) r := by
      rw [h2]; have := hn _ ht; have := hd.sr_nonneg; have := hd.dt_pos; positivity
    apply div_pos <;> linarith

theorem calibCapital_step (hdt : p.dt ≠ 0) (r : String) (t : ℕ) : calibCapital p r (t + 1) =
    (1 - p.dk) ^ p.dt * calibCapital p r t + p.dt * (p.sr * p.baseline_GDP t r) := by
  simp only [calibCapital, calc_dKdt_real]
  field_simp; ring

theorem calibCapital_pos' (h : Spec.EconData p) {r : String} (hr : r ∈ p.regions) :
    ∀ t ≤ p.tf, 0 < calibCapital p r t := by
  intro t
  induction t with
  | zero => intro _; exact mul_pos (h.capital_pos r hr) (h.gdp_pos 0 (Nat.zero_le _) r hr)
  | succ t ih =>
    intro ht
    rw [calibCapital_step h.dt_pos.ne']
    have h1 := mul_pos (decay_range h).1 (ih (by omega))
    have h2 := h.gdp_pos t (by omega) r hr
    have h3 := h.sr_nonneg
    have h4 := h.dt_pos
    have : 0 ≤ p.dt * (p.sr * p.baseline_GDP t r) := by positivity
    linarith

theorem calcGDP_pos' (h : Spec.EconData p) {t : ℕ} (ht : t ≤ p.tf) {r : String} (hr : r ∈ p.regions) :
    0 < calc_GDP 1 (p.population t r) (calibCapital p r t) p.alpha := by
  have h1 := Real.rpow_pos_of_pos (h.pop_pos t ht r hr) (1 - p.alpha)
  have h2 := Real.rpow_pos_of_pos (calibCapital_pos' h hr t ht) p.alpha
  rw [calc_GDP_real]; positivity

/-- Gross GDP is positive, whatever the path of the economy. -/
theorem C37_gross_positive (h : Solution md p σ) (hd : Spec.EconData p) {t : ℕ} (ht : t ≤ p.tf)
    {r : String} (hr : r ∈ p.regions) : 0 < σ.R .GDP_gross t r := by
  cases t with
  | zero => rw [h.eqs.economy.gross_init r hr]; exact hd.gdp_pos 0 ht r hr
  | succ t =>
    rw [(h.eqs.economy.gross t ht r hr).2]
    have h1 : 0 < get_TFP_value p (t + 1) r := div_pos (hd.gdp_pos _ ht r hr) (calcGDP_pos' hd ht hr)
    have h2 := Real.rpow_pos_of_pos (hd.pop_pos _ ht r hr) (1 - p.alpha)
    have h3 := Real.rpow_pos_of_pos (soft_min_pos_ten (σ.R .capital_stock (t + 1) r)) p.alpha
    positivity

/-- Production is the Cobb–Douglas function of capital, from below exactly and from above up to the
smoothing of at most 0.13 units of capital. -/
theorem C37_production (h : Solution md p σ) (hd : Spec.EconData p) (ha : 0 ≤ p.alpha) {t : ℕ}
    (ht : t < p.tf) {r : String} (hr : r ∈ p.regions) (hK : 0 ≤ σ.R .capital_stock (t + 1) r) :
    get_TFP_value p (t + 1) r * p.population (t + 1) r ^ (1 - p.alpha) *
        σ.R .capital_stock (t + 1) r ^ p.alpha ≤ σ.R .GDP_gross (t + 1) r ∧
    σ.R .GDP_gross (t + 1) r ≤
      get_TFP_value p (t + 1) r * p.population (t + 1) r ^ (1 - p.alpha) *
        (σ.R .capital_stock (t + 1) r + 0.13) ^ p.alpha := by
  rw [(h.eqs.economy.gross t ht r hr).2]
  have h1 : 0 < get_TFP_value p (t + 1) r := div_pos (hd.gdp_pos _ ht r hr) (calcGDP_pos' hd ht hr)
  have h2 := Real.rpow_pos_of_pos (hd.pop_pos (t + 1) ht r hr) (1 - p.alpha)
  have hk : 0 ≤ get_TFP_value p (t + 1) r * p.population (t + 1) r ^ (1 - p.alpha) := by positivity
  have h3 := soft_min_gt_self (σ.R .capital_stock (t + 1) r) (s := 10) (by norm_num)
  have h4 := soft_min_le (σ.R .capital_stock (t + 1) r) (s := 10) (by norm_num)
  rw [max_eq_left hK] at h4
  have h5 : (10 : ℝ) / (25 * Real.pi) ≤ 0.13 := by
    rw [div_le_iff₀ (by positivity)]; nlinarith [Real.pi_gt_d2]
  constructor
  · exact mul_le_mul_of_nonneg_left (Real.rpow_le_rpow hK h3.le ha) hk
  · exact mul_le_mul_of_nonneg_left
      (Real.rpow_le_rpow (soft_min_pos_ten _).le (by linarith) ha) hk

example : Spec.EconData Ex.p0 := (Ex.admissible (by norm_num) (by norm_num)).econData
example := C37_gross_positive Ex.sol0 (Ex.admissible (by norm_num) (by norm_num)).econData (t := 3)
  (by simp [Ex.p0, Ex.ex]) (r := "A") (by simp [Ex.p0, Ex.ex])

/-! ## C38 -/

/-- The calibration's capital path: start value, then depreciation and the savings of the previous
baseline GDP. -/
theorem C38_baseline_capital (hdt : p.dt ≠ 0) (r : String) :
    calibCapital p r 0 = p.init_capitalstock_factor r * p.baseline_GDP 0 r ∧
    ∀ t, calibCapital p r (t + 1) =
      (1 - p.dk) ^ p.dt * calibCapital p r t + p.dt * (p.sr * p.baseline_GDP t r) :=
  ⟨rfl, calibCapital_step hdt r⟩

/-- The calibrated productivity is positive and, on that capital path, the production function returns
exactly the baseline GDP. -/
theorem C38_reproduces_baseline (h : Spec.EconData p) {t : ℕ} (ht : t ≤ p.tf) {r : String}
    (hr : r ∈ p.regions) :
    0 < get_TFP_value p t r ∧
    calc_GDP (get_TFP_value p t r) (p.population t r) (calibCapital p r t) p.alpha =
      p.baseline_GDP t r := by
  have hg := calcGDP_pos' h ht hr
  refine ⟨div_pos (h.gdp_pos t ht r hr) hg, ?_⟩
  have e : calc_GDP (get_TFP_value p t r) (p.population t r) (calibCapital p r t) p.alpha =
      get_TFP_value p t r * calc_GDP 1 (p.population t r) (calibCapital p r t) p.alpha := by
    simp only [calc_GDP_real]; ring
  rw [e, get_TFP_value, div_mul_cancel₀ _ hg.ne']

/-- It is the only productivity doing so. -/
theorem C38_unique (h : Spec.EconData p) {t : ℕ} (ht : t ≤ p.tf) {r : String} (hr : r ∈ p.regions)
    {A : ℝ} (hA : calc_GDP A (p.population t r) (calibCapital p r t) p.alpha = p.baseline_GDP t r) :
    A = get_TFP_value p t r := by
  have hg := calcGDP_pos' h ht hr
  rw [get_TFP_value, eq_div_iff hg.ne', ← hA]
  simp only [calc_GDP_real]; ring

/-- Hence gross GDP of a solution relative to the baseline depends only on the ratio of the (smoothed)
capital stock to the calibrated one. -/
theorem C38_gross_over_baseline (h : Solution md p σ) (hd : Spec.EconData p) {t : ℕ} (ht : t < p.tf)
    {r : String} (hr : r ∈ p.regions) :
    σ.R .GDP_gross (t + 1) r / p.baseline_GDP (t + 1) r =
      (soft_min (σ.R .capital_stock (t + 1) r) 10 / calibCapital p r (t + 1)) ^ p.alpha := by
  have hb := hd.gdp_pos (t + 1) ht r hr
  have hc := calibCapital_pos' hd hr (t + 1) ht
  have hp := Real.rpow_pos_of_pos (hd.pop_pos (t + 1) ht r hr) (1 - p.alpha)
  have hcp := Real.rpow_pos_of_pos hc p.alpha
  rw [(h.eqs.economy.gross t ht r hr).2, Real.div_rpow (soft_min_pos_ten _).le hc.le, get_TFP_value,
    calc_GDP_real]
  field_simp

example := C38_reproduces_baseline (Ex.admissible (regime := "noregime") (conv := none) (al := 3 / 10)
  (by norm_num) (by norm_num)).econData (t := 3) (by simp [Ex.ex]) (r := "A") (by simp [Ex.ex])

end Mimosa
