import Verif.Props.Economy
import Verif.Props.Optimum
import Verif.Props.ExamplesFree
import Mathlib.Analysis.SpecialFunctions.Trigonometric.ArctanDeriv

/-!
# C83: without damages and abatement, GDP stays near the baseline GDP

`tests/modeltests/test_baseline_nodamages.py` runs the model once without damages and abatement and checks that the net
product of every region stays within 7 % of the baseline GDP of the input data.  It is not equal to it: the productivity
is calibrated (`common/economics.py`, `get_TFP_value`, lines 8–31, with last step's capital and GDP) on a capital stock that last step's
baseline GDP feeds, while the model's capital stock (`components/cobbdouglas.py`) is fed by the *present* product and
depreciates from its present value; and the production function sees a soft minimum of the stock.

`C83_at_most` and `C83_at_least` bound the two effects for every solution, with conditions on the input data alone;
`C83_seven_percent` is the case of the default depreciation, saving and elasticity and five-year steps, and
`C83_optimum` says the same of the optimum.
-/

namespace Mimosa
open Real

variable {md : Modules} {p : Params} {σ : Env}

/-- The capital stock that belongs to the baseline GDP: last step's stock, depreciated, plus what is saved. -/
noncomputable def Spec.baselineCapital (p : Params) (r : String) : ℕ → ℝ
  | 0 => p.init_capitalstock_factor r * p.baseline_GDP 0 r
  | t + 1 => (1 - p.dk) ^ p.dt * Spec.baselineCapital p r t + p.dt * (p.sr * p.baseline_GDP t r)

theorem baselineCapital_eq (hdt : p.dt ≠ 0) (r : String) (t : ℕ) : Spec.baselineCapital p r t = calibCapital p r t := by
  induction t with
  | zero => rfl
  | succ t ih => rw [calibCapital_step hdt, Spec.baselineCapital, ih]

theorem arctan_lower {y : ℝ} (hy : 0 ≤ y) : y - y ^ 3 / 3 ≤ arctan y := by
  have hd : ∀ x : ℝ, HasDerivAt (fun y : ℝ => arctan y - (y - y ^ 3 / 3)) (1 / (1 + x ^ 2) - (1 - x ^ 2)) x := by
    intro x
    have h1 := hasDerivAt_arctan x
    have h3 := (hasDerivAt_pow 3 x).div_const 3
    have e : ((3 : ℕ) : ℝ) * x ^ (3 - 1) / 3 = x ^ 2 := by push_cast; ring
    rw [e] at h3
    exact h1.sub ((hasDerivAt_id' x).sub h3)
  have hm : Monotone (fun y : ℝ => arctan y - (y - y ^ 3 / 3)) := by
    apply monotone_of_deriv_nonneg fun x => (hd x).differentiableAt
    intro x
    rw [(hd x).deriv]
    have : 0 < 1 + x ^ 2 := by positivity
    have e : 1 / (1 + x ^ 2) - (1 - x ^ 2) = x ^ 4 / (1 + x ^ 2) := by field_simp; ring
    rw [e]; positivity
  have := hm hy
  simp at this
  linarith

/-- The soft minimum of a positive number is hardly above it. -/
theorem soft_min_near {x : ℝ} (hx : 0 < x) : soft_min x 10 ≤ x + 0.0068 / x ^ 2 := by
  rw [soft_min_real]
  have ha : (25 / 10 : ℝ) * x > 0 := by positivity
  have h1 : arctan (25 / 10 * x) = π / 2 - arctan (25 / 10 * x)⁻¹ := by
    rw [arctan_inv_of_pos ha]; ring
  have h2 := arctan_lower (inv_nonneg.2 ha.le)
  rw [h1]
  set y := (25 / 10 * x)⁻¹ with hy
  have hxy : x * y = 4 / 10 := by rw [hy]; field_simp; norm_num
  have hpi := Real.pi_gt_d2
  have e1 : ((π / 2 - arctan y) / π + 1 / 2) * x + 1 / (25 / 10 * π) = x + (4 / 10 - x * arctan y) / π := by
    field_simp; ring
  rw [e1]
  have h3 : 4 / 10 - x * arctan y ≤ x * y ^ 3 / 3 := by nlinarith [mul_le_mul_of_nonneg_left h2 hx.le]
  have e2 : x * y ^ 3 / 3 = 0.064 / 3 / x ^ 2 := by
    rw [hy]; field_simp; norm_num
  rw [e2] at h3
  have h4 : (4 / 10 - x * arctan y) / π ≤ 0.064 / 3 / x ^ 2 / π := by gcongr
  have h5 : 0.064 / 3 / x ^ 2 / π ≤ 0.0068 / x ^ 2 := by
    rw [div_div, div_div, div_le_div_iff₀ (by positivity) (by positivity)]
    nlinarith [mul_pos (pow_pos hx 2) (by linarith : (0:ℝ) < π - 3.14)]
  linarith

private theorem q_range (hd : Spec.EconData p) : 0 < (1 - p.dk) ^ p.dt ∧ (1 - p.dk) ^ p.dt ≤ 1 :=
  ⟨Real.rpow_pos_of_pos (by linarith [hd.dk_lt]) _,
    Real.rpow_le_one (by linarith [hd.dk_lt]) (by linarith [hd.dk_nonneg]) hd.dt_pos.le⟩

theorem gross_ratio (h : Solution md p σ) (hd : Spec.EconData p) {t : ℕ} (ht : t < p.tf) {r : String} (hr : r ∈ p.regions) :
    σ.R .GDP_gross (t + 1) r = p.baseline_GDP (t + 1) r *
      (soft_min (σ.R .capital_stock (t + 1) r) 10 / Spec.baselineCapital p r (t + 1)) ^ p.alpha := by
  have := C38_gross_over_baseline h hd ht hr
  rw [baselineCapital_eq hd.dt_pos.ne', ← this, mul_div_cancel₀ _ (hd.gdp_pos (t + 1) ht r hr).ne']

/-- **C83.** The upper bound.  When the costs of a region are never negative (its net product is at most its gross
product), and the data let a capital stock `c` times the baseline stock not grow further (`hstep`; `ε` is the relative
error of the soft minimum, `hbig`), then in every solution the capital stock stays at most `c` times the baseline stock,
and the gross product at most `(c (1 + ε)) ^ alpha` times the baseline GDP. -/
theorem C83_at_most (h : Solution md p σ) (hd : Spec.EconData p) (hα0 : 0 ≤ p.alpha) (hα1 : p.alpha ≤ 1)
    {r : String} (hr : r ∈ p.regions) (hnet : ∀ t ≤ p.tf, 0 < t → σ.R .GDP_net t r ≤ σ.R .GDP_gross t r)
    {c ε : ℝ} (hc : 1 ≤ c) (hε : 0 ≤ ε)
    (hbig : ∀ t ≤ p.tf, 0.0068 ≤ ε * Spec.baselineCapital p r t ^ 3)
    (hstep : ∀ t < p.tf, c * Spec.baselineCapital p r t +
      p.dt * p.sr * ((c * (1 + ε)) ^ p.alpha * p.baseline_GDP (t + 1) r) ≤
        (2 - (1 - p.dk) ^ p.dt) * (c * Spec.baselineCapital p r (t + 1))) :
    ∀ t ≤ p.tf, σ.R .capital_stock t r ≤ c * Spec.baselineCapital p r t ∧
      σ.R .GDP_gross t r ≤ (c * (1 + ε)) ^ p.alpha * p.baseline_GDP t r := by
  have hpos : ∀ t ≤ p.tf, 0 < Spec.baselineCapital p r t := fun t ht => by
    rw [baselineCapital_eq hd.dt_pos.ne']; exact calibCapital_pos' hd hr t ht
  have hsoft : ∀ t ≤ p.tf, ∀ k, 1 ≤ k → soft_min (k * Spec.baselineCapital p r t) 10 ≤
      k * (1 + ε) * Spec.baselineCapital p r t := by
    intro t ht k hk
    have hP := hpos t ht
    have h1 := soft_min_near (mul_pos (by linarith : 0 < k) hP)
    have h2 : 0.0068 / (k * Spec.baselineCapital p r t) ^ 2 ≤ ε * Spec.baselineCapital p r t := by
      rw [div_le_iff₀ (by positivity)]
      have hk2 : 1 ≤ k ^ 2 := by nlinarith
      have := hbig t ht
      calc (0.0068 : ℝ) ≤ ε * Spec.baselineCapital p r t ^ 3 := this
        _ ≤ ε * Spec.baselineCapital p r t ^ 3 * k ^ 2 := le_mul_of_one_le_right (by positivity) hk2
        _ = _ := by ring
    have h3 : ε * Spec.baselineCapital p r t ≤ k * (ε * Spec.baselineCapital p r t) :=
      le_mul_of_one_le_left (by positivity) hk
    nlinarith
  have hgross : ∀ t < p.tf, ∀ k, 1 ≤ k → σ.R .capital_stock (t + 1) r ≤ k * Spec.baselineCapital p r (t + 1) →
      σ.R .GDP_gross (t + 1) r ≤ (k * (1 + ε)) ^ p.alpha * p.baseline_GDP (t + 1) r := by
    intro t ht k hk hK
    have hP := hpos (t + 1) ht
    rw [gross_ratio h hd ht hr, mul_comm]
    refine mul_le_mul_of_nonneg_right (Real.rpow_le_rpow (div_nonneg (soft_min_pos_ten _).le hP.le) ?_ hα0)
      (hd.gdp_pos (t + 1) ht r hr).le
    rw [div_le_iff₀ hP]
    exact ((soft_min_strictMono (s := 10) (by norm_num)).monotone hK).trans (hsoft (t + 1) ht k hk)
  have hq := q_range hd
  intro t
  induction t with
  | zero =>
    intro _
    have hP := hpos 0 (Nat.zero_le _)
    have hB := hd.gdp_pos 0 (Nat.zero_le _) r hr
    constructor
    · rw [h.eqs.economy.capital_init r hr]
      exact le_mul_of_one_le_left hP.le hc
    · rw [h.eqs.economy.gross_init r hr]
      exact le_mul_of_one_le_left hB.le (Real.one_le_rpow (by nlinarith) hα0)
  | succ t ih =>
    intro ht
    have hK := (ih (by omega)).1
    have hP := hpos (t + 1) ht
    have hP0 := hpos t (by omega)
    have hB := hd.gdp_pos (t + 1) ht r hr
    have key : σ.R .capital_stock (t + 1) r ≤ c * Spec.baselineCapital p r (t + 1) := by
      by_contra hlt
      rw [not_le] at hlt
      set k := σ.R .capital_stock (t + 1) r / Spec.baselineCapital p r (t + 1) with hk
      have hKk : σ.R .capital_stock (t + 1) r = k * Spec.baselineCapital p r (t + 1) := by
        rw [hk, div_mul_cancel₀ _ hP.ne']
      have hck : c < k := by rw [hk, lt_div_iff₀ hP]; exact hlt
      have h1 := h.eqs.economy.capital t ht r hr
      have h2 := h.eqs.economy.investments (t + 1) ht r hr
      have h3 : (2 - (1 - p.dk) ^ p.dt) * σ.R .capital_stock (t + 1) r =
          σ.R .capital_stock t r + p.dt * (p.sr * σ.R .GDP_net (t + 1) r) := by
        have h4 := h1.2.2
        have hdt := hd.dt_pos
        rw [h2] at h4
        field_simp at h4
        linarith
      have h4 := hgross t ht k (by linarith) hKk.le
      have h5 := (hnet (t + 1) ht (by omega)).trans h4
      have hs : 0 ≤ p.dt * p.sr := mul_nonneg hd.dt_pos.le hd.sr_nonneg
      have h6 := mul_le_mul_of_nonneg_left h5 hs
      have h7 := hstep t ht
      have hc0 : 0 < c := by linarith
      -- the condition at the larger factor
      have h8 : (k * (1 + ε)) ^ p.alpha ≤ k / c * (c * (1 + ε)) ^ p.alpha := by
        have e : k * (1 + ε) = k / c * (c * (1 + ε)) := by field_simp
        have h1k : 1 ≤ k / c := by rw [le_div_iff₀ hc0]; linarith
        rw [e, Real.mul_rpow (by positivity) (by positivity)]
        refine mul_le_mul_of_nonneg_right ?_ (by positivity)
        calc (k / c) ^ p.alpha ≤ (k / c) ^ (1 : ℝ) := Real.rpow_le_rpow_of_exponent_le h1k hα1
          _ = k / c := Real.rpow_one _
      have h9 := mul_le_mul_of_nonneg_left h7 (div_nonneg (by linarith) hc0.le : 0 ≤ k / c)
      have h10 : p.dt * p.sr * ((k * (1 + ε)) ^ p.alpha * p.baseline_GDP (t + 1) r) ≤
          p.dt * p.sr * (k / c * (c * (1 + ε)) ^ p.alpha * p.baseline_GDP (t + 1) r) := by gcongr
      have h11 : c * Spec.baselineCapital p r t < k * Spec.baselineCapital p r t := by gcongr
      have e1 : k / c * (c * Spec.baselineCapital p r t + p.dt * p.sr * ((c * (1 + ε)) ^ p.alpha * p.baseline_GDP (t + 1) r)) =
          k * Spec.baselineCapital p r t +
          p.dt * p.sr * (k / c * (c * (1 + ε)) ^ p.alpha * p.baseline_GDP (t + 1) r) := by field_simp
      have e2 : k / c * ((2 - (1 - p.dk) ^ p.dt) * (c * Spec.baselineCapital p r (t + 1))) =
          (2 - (1 - p.dk) ^ p.dt) * (k * Spec.baselineCapital p r (t + 1)) := by field_simp
      rw [e1, e2] at h9
      rw [hKk] at h3
      linarith
    exact ⟨key, hgross t ht c hc key⟩

/-- **C83.** The lower bound, with costs.  When the costs of a region (damages and abatement) are at most `D t`, not more
than its capital stock can bear, and the data let a capital stock `c` times the baseline stock not shrink further, then in
every solution the capital stock stays at least `c` times the baseline stock, and the gross product at least `c ^ alpha`
times the baseline GDP. -/
theorem C83_at_least_with_costs (h : Solution md p σ) (hd : Spec.EconData p) (hα0 : 0 ≤ p.alpha) (hα1 : p.alpha ≤ 1)
    {r : String} (hr : r ∈ p.regions) {D : ℕ → ℝ}
    (hnet : ∀ t ≤ p.tf, 0 < t → σ.R .GDP_gross t r - D t ≤ σ.R .GDP_net t r)
    {c : ℝ} (hc0 : 0 < c) (hc : c ≤ 1)
    (hbelow : ∀ t < p.tf, p.dt * p.sr * D (t + 1) < c * Spec.baselineCapital p r t)
    (hstep : ∀ t < p.tf, (2 - (1 - p.dk) ^ p.dt) * (c * Spec.baselineCapital p r (t + 1)) ≤
      c * Spec.baselineCapital p r t + p.dt * p.sr * (c ^ p.alpha * p.baseline_GDP (t + 1) r - D (t + 1))) :
    ∀ t ≤ p.tf, c * Spec.baselineCapital p r t ≤ σ.R .capital_stock t r ∧
      c ^ p.alpha * p.baseline_GDP t r ≤ σ.R .GDP_gross t r := by
  have hpos : ∀ t ≤ p.tf, 0 < Spec.baselineCapital p r t := fun t ht => by
    rw [baselineCapital_eq hd.dt_pos.ne']; exact calibCapital_pos' hd hr t ht
  have hgross : ∀ t < p.tf, ∀ k, 0 ≤ k → k * Spec.baselineCapital p r (t + 1) ≤ σ.R .capital_stock (t + 1) r →
      k ^ p.alpha * p.baseline_GDP (t + 1) r ≤ σ.R .GDP_gross (t + 1) r := by
    intro t ht k hk hK
    have hP := hpos (t + 1) ht
    rw [gross_ratio h hd ht hr, mul_comm]
    refine mul_le_mul_of_nonneg_left (Real.rpow_le_rpow hk ?_ hα0) (hd.gdp_pos (t + 1) ht r hr).le
    rw [le_div_iff₀ hP]
    exact hK.trans (soft_min_gt_self _ (by norm_num)).le
  have hq := q_range hd
  intro t
  induction t with
  | zero =>
    intro _
    have hP := hpos 0 (Nat.zero_le _)
    have hB := hd.gdp_pos 0 (Nat.zero_le _) r hr
    constructor
    · rw [h.eqs.economy.capital_init r hr]
      exact mul_le_of_le_one_left hP.le hc
    · rw [h.eqs.economy.gross_init r hr]
      exact mul_le_of_le_one_left hB.le (Real.rpow_le_one hc0.le hc hα0)
  | succ t ih =>
    intro ht
    have hK := (ih (by omega)).1
    have hP := hpos (t + 1) ht
    have hP0 := hpos t (by omega)
    have hB := hd.gdp_pos (t + 1) ht r hr
    have hs : 0 ≤ p.dt * p.sr := mul_nonneg hd.dt_pos.le hd.sr_nonneg
    have h3 : (2 - (1 - p.dk) ^ p.dt) * σ.R .capital_stock (t + 1) r =
        σ.R .capital_stock t r + p.dt * (p.sr * σ.R .GDP_net (t + 1) r) := by
      have h4 := (h.eqs.economy.capital t ht r hr).2.2
      have hdt := hd.dt_pos
      rw [h.eqs.economy.investments (t + 1) ht r hr] at h4
      field_simp at h4
      linarith
    have hn := hnet (t + 1) ht (by omega)
    have hg0 : 0 < σ.R .GDP_gross (t + 1) r := by
      rw [gross_ratio h hd ht hr]
      exact mul_pos hB (Real.rpow_pos_of_pos (div_pos (soft_min_pos_ten _) hP) _)
    have key : c * Spec.baselineCapital p r (t + 1) ≤ σ.R .capital_stock (t + 1) r := by
      by_contra hlt
      rw [not_le] at hlt
      set k := σ.R .capital_stock (t + 1) r / Spec.baselineCapital p r (t + 1) with hk
      have hKk : σ.R .capital_stock (t + 1) r = k * Spec.baselineCapital p r (t + 1) := by
        rw [hk, div_mul_cancel₀ _ hP.ne']
      have hck : k < c := by rw [hk, div_lt_iff₀ hP]; exact hlt
      have hk0 : 0 < k := by
        have : 0 < σ.R .capital_stock (t + 1) r := by
          have h5 : 0 < (2 - (1 - p.dk) ^ p.dt) * σ.R .capital_stock (t + 1) r := by
            rw [h3]
            have : 0 < c * Spec.baselineCapital p r t := by positivity
            have h6 := mul_le_mul_of_nonneg_left hn hs
            have h7 := mul_nonneg hs hg0.le
            linarith [hbelow t ht]
          exact (pos_iff_pos_of_mul_pos h5).1 (by linarith [hq.2])
        rw [hk]; positivity
      have h4 := hgross t ht k hk0.le hKk.ge
      have h5 : k ^ p.alpha * p.baseline_GDP (t + 1) r - D (t + 1) ≤ σ.R .GDP_net (t + 1) r := by linarith
      have h6 := mul_le_mul_of_nonneg_left h5 hs
      have h7 := hstep t ht
      have h8 : k / c * c ^ p.alpha ≤ k ^ p.alpha := by
        have h1k : k / c ≤ 1 := by rw [div_le_one hc0]; exact hck.le
        have : k / c ≤ (k / c) ^ p.alpha := by
          calc k / c = (k / c) ^ (1 : ℝ) := (Real.rpow_one _).symm
            _ ≤ (k / c) ^ p.alpha := Real.rpow_le_rpow_of_exponent_ge (by positivity) h1k hα1
        calc k / c * c ^ p.alpha ≤ (k / c) ^ p.alpha * c ^ p.alpha := by gcongr
          _ = (k / c * c) ^ p.alpha := (Real.mul_rpow (by positivity) hc0.le).symm
          _ = k ^ p.alpha := by rw [div_mul_cancel₀ _ hc0.ne']
      have h9 := mul_le_mul_of_nonneg_left h7 (by positivity : 0 ≤ k / c)
      have h10 : p.dt * p.sr * (k / c * c ^ p.alpha * p.baseline_GDP (t + 1) r) ≤
          p.dt * p.sr * (k ^ p.alpha * p.baseline_GDP (t + 1) r) := by gcongr
      have h11 : k * Spec.baselineCapital p r t < c * Spec.baselineCapital p r t := by gcongr
      have e1 : k / c * (c * Spec.baselineCapital p r t +
            p.dt * p.sr * (c ^ p.alpha * p.baseline_GDP (t + 1) r - D (t + 1))) =
          k * Spec.baselineCapital p r t +
          p.dt * p.sr * (k / c * c ^ p.alpha * p.baseline_GDP (t + 1) r) -
          k / c * (p.dt * p.sr * D (t + 1)) := by field_simp; ring
      have e2 : k / c * ((2 - (1 - p.dk) ^ p.dt) * (c * Spec.baselineCapital p r (t + 1))) =
          (2 - (1 - p.dk) ^ p.dt) * (k * Spec.baselineCapital p r (t + 1)) := by field_simp
      rw [e1, e2] at h9
      rw [hKk] at h3
      have h12 : (1 - k / c) * (p.dt * p.sr * D (t + 1)) < (1 - k / c) * (c * Spec.baselineCapital p r t) :=
        mul_lt_mul_of_pos_left (hbelow t ht) (by rw [sub_pos, div_lt_one hc0]; exact hck)
      have e3 : (1 - k / c) * (c * Spec.baselineCapital p r t) =
          c * Spec.baselineCapital p r t - k * Spec.baselineCapital p r t := by field_simp
      rw [e3] at h12
      linarith
    exact ⟨key, hgross t ht c hc0.le key⟩

/-- **C83.** The lower bound.  When the costs of a region are never positive, and the data let a capital stock `c` times
the baseline stock not shrink further, then in every solution the capital stock stays at least `c` times the baseline
stock, and the gross product at least `c ^ alpha` times the baseline GDP. -/
theorem C83_at_least (h : Solution md p σ) (hd : Spec.EconData p) (hα0 : 0 ≤ p.alpha) (hα1 : p.alpha ≤ 1)
    {r : String} (hr : r ∈ p.regions) (hnet : ∀ t ≤ p.tf, 0 < t → σ.R .GDP_gross t r ≤ σ.R .GDP_net t r)
    {c : ℝ} (hc0 : 0 < c) (hc : c ≤ 1)
    (hstep : ∀ t < p.tf, (2 - (1 - p.dk) ^ p.dt) * (c * Spec.baselineCapital p r (t + 1)) ≤
      c * Spec.baselineCapital p r t + p.dt * p.sr * (c ^ p.alpha * p.baseline_GDP (t + 1) r)) :
    ∀ t ≤ p.tf, c * Spec.baselineCapital p r t ≤ σ.R .capital_stock t r ∧
      c ^ p.alpha * p.baseline_GDP t r ≤ σ.R .GDP_gross t r := by
  have hpos : ∀ t ≤ p.tf, 0 < Spec.baselineCapital p r t := fun t ht => by
    rw [baselineCapital_eq hd.dt_pos.ne']; exact calibCapital_pos' hd hr t ht
  exact C83_at_least_with_costs h hd hα0 hα1 hr (D := fun _ => 0) (fun t ht h1 => by simpa using hnet t ht h1) hc0 hc
    (fun t ht => by rw [mul_zero]; exact mul_pos hc0 (hpos t ht.le)) (fun t ht => by simpa using hstep t ht)

/-- The default depreciation, saving rate and capital elasticity, and five-year steps
(`inputdata/config/config_default.yaml`, keys `economics.GDP.depreciation of capital`, `economics.GDP.savings rate`,
`economics.GDP.alpha`, `time.dt`). -/
structure Spec.DefaultEconomics (p : Params) : Prop where
  dt : p.dt = 5
  dk : p.dk = 0.05
  sr : p.sr = 0.21
  alpha : p.alpha = 0.3

/-- The baseline GDP of a region grows moderately, compared to its capital: not faster than about 4.5 % a year, and it
hardly shrinks; and the capital stock is not below one trillion dollar. -/
structure Spec.ModerateGrowth (p : Params) (r : String) : Prop where
  size : ∀ t ≤ p.tf, 1 ≤ Spec.baselineCapital p r t
  fast : ∀ t < p.tf, 0.0635 * Spec.baselineCapital p r t + 1.124 * p.baseline_GDP (t + 1) r ≤
    1.596 * p.baseline_GDP t r
  slow : ∀ t < p.tf, 1.159 * p.baseline_GDP t r ≤
    0.046 * Spec.baselineCapital p r t + 1.016 * p.baseline_GDP (t + 1) r

private theorem pow_up : (1.24 * (1 + 0.01) : ℝ) ^ (0.3 : ℝ) ≤ 1.07 := by
  have h : ((1.24 * (1 + 0.01) : ℝ) ^ (0.3 : ℝ)) ^ (10 : ℕ) ≤ 1.07 ^ 10 := by
    rw [← Real.rpow_natCast, ← Real.rpow_mul (by norm_num)]
    norm_num
  exact le_of_pow_le_pow_left₀ (by norm_num) (by norm_num) h

private theorem pow_low : (0.968 : ℝ) ≤ (0.9 : ℝ) ^ (0.3 : ℝ) := by
  have h : (0.968 : ℝ) ^ 10 ≤ ((0.9 : ℝ) ^ (0.3 : ℝ)) ^ (10 : ℕ) := by
    rw [← Real.rpow_natCast ((0.9 : ℝ) ^ (0.3 : ℝ)), ← Real.rpow_mul (by norm_num)]
    norm_num
  exact le_of_pow_le_pow_left₀ (by norm_num) (by positivity) h

/-- **C83.** With the default depreciation, saving rate and elasticity and five-year steps, and data in which the
baseline GDP of a region grows moderately: in every solution without damages and without mitigation costs the net
product of the region is at all times within 7 % of the baseline GDP. -/
theorem C83_seven_percent (h : Solution md p σ) (hd : Spec.EconData p) (he : Spec.DefaultEconomics p)
    (hnd : md.damage = .nodamage ∨ (p.ignore_damages = true ∧ md.transfer = .notransfer))
    {r : String} (hr : r ∈ p.regions) (h0 : ∀ t ≤ p.tf, 0 < t → σ.R .mitigation_costs t r = 0)
    (hg : Spec.ModerateGrowth p r) {t : ℕ} (ht : t ≤ p.tf) (h1 : 0 < t) :
    |σ.R .GDP_net t r - p.baseline_GDP t r| ≤ 0.07 * p.baseline_GDP t r := by
  have hn : ∀ t ≤ p.tf, 0 < t → σ.R .GDP_net t r = σ.R .GDP_gross t r := fun t ht h1 => by
    rw [NoAbate.net_eq hnd h ht hr, h0 t ht h1, sub_zero]
  have hq : (1 - p.dk) ^ p.dt = 0.7737809375 := by
    rw [he.dk, he.dt, show (5 : ℝ) = ((5 : ℕ) : ℝ) by norm_num, Real.rpow_natCast]; norm_num
  have ha := he.alpha
  have hB := hd.gdp_pos
  have hstep : ∀ t, Spec.baselineCapital p r (t + 1) =
      0.7737809375 * Spec.baselineCapital p r t + 1.05 * p.baseline_GDP t r := fun t => by
    rw [Spec.baselineCapital, hq, he.dt, he.sr]; ring
  have up := (C83_at_most h hd (by rw [ha]; norm_num) (by rw [ha]; norm_num) hr (fun t ht h1 => (hn t ht h1).le)
    (c := 1.24) (ε := 0.01) (by norm_num) (by norm_num)
    (fun t ht => by nlinarith [one_le_pow₀ (hg.size t ht) (n := 3)])
    (fun t ht => by
      have hp : p.dt * p.sr * ((1.24 * (1 + 0.01)) ^ p.alpha * p.baseline_GDP (t + 1) r) ≤
          1.05 * (1.07 * p.baseline_GDP (t + 1) r) := by
        rw [he.dt, he.sr, ha]
        have := mul_le_mul_of_nonneg_right pow_up (hB (t + 1) ht r hr).le
        linarith
      rw [hq, hstep]
      have := hg.fast t ht
      have := hg.size t ht.le
      have := hB (t + 1) ht r hr
      have := hB t ht.le r hr
      linarith) t ht).2
  have low := (C83_at_least h hd (by rw [ha]; norm_num) (by rw [ha]; norm_num) hr (fun t ht h1 => (hn t ht h1).ge)
    (c := 0.9) (by norm_num) (by norm_num)
    (fun t ht => by
      have hp : 1.05 * (0.968 * p.baseline_GDP (t + 1) r) ≤
          p.dt * p.sr * (0.9 ^ p.alpha * p.baseline_GDP (t + 1) r) := by
        rw [he.dt, he.sr, ha]
        have := mul_le_mul_of_nonneg_right pow_low (hB (t + 1) ht r hr).le
        linarith
      rw [hq, hstep]
      have := hg.slow t ht
      have := hg.size t ht.le
      have := hB (t + 1) ht r hr
      have := hB t ht.le r hr
      linarith) t ht).2
  rw [hn t ht h1, abs_le]
  rw [ha] at up low
  have h2 := mul_le_mul_of_nonneg_right pow_up (hB t ht r hr).le
  have h3 := mul_le_mul_of_nonneg_right pow_low (hB t ht r hr).le
  have := hB t ht r hr
  constructor <;> linarith

/-- **C83.** The same of any optimum without damages when nothing is to be gained from abating: in all regions with
moderate growth the net product is within 7 % of the baseline GDP. -/
theorem C83_optimum (hadm : p.Admissible) (hn : Spec.NoReasonToAbate md p) (hnd : md.damage = .nodamage)
    (he : Spec.DefaultEconomics p) (h : Solution md p σ)
    (h0 : ∀ t ≤ p.tf, 0 < t → ∀ r ∈ p.regions, σ.R .mitigation_costs t r = 0) {τ : Env} (h' : Optimal md p τ)
    {r : String} (hr : r ∈ p.regions) (hg : Spec.ModerateGrowth p r) {t : ℕ} (ht : t ≤ p.tf) (h1 : 0 < t) :
    |τ.R .GDP_net t r - p.baseline_GDP t r| ≤ 0.07 * p.baseline_GDP t r :=
  C83_seven_percent h'.1 hadm.econData he (.inl hnd) hr
    (fun t ht h1 => C66_optimum_no_costs hadm hn (by rw [he.sr]; norm_num) h h0 h' t ht h1 r hr) hg ht h1

/-! ### A concrete case: growing baseline GDP, default economics -/

namespace Ex

/-- The example data with the default economics and GDP growing from 10 to 13. -/
noncomputable def near : Params :=
  { ex "noregime" 0.3 none with
    temperature_target := none, budget := none, damage_scale_factor := 0, dt := 5, sr := 0.21, dk := 0.05,
    baseline_GDP := fun t _ => 10 + t }

theorem near_cum (t : ℕ) (ht : t ≤ 3) : near.cumulative_global_baseline_emissions t = 200 * t := by
  interval_cases t <;>
  simp [Params.cumulative_global_baseline_emissions, Params.cumulative_baseline_emissions, near, ex,
    List.range_succ, Params.trapz] <;> norm_num

theorem near_admissible : near.Admissible :=
  { admissible (regime := "noregime") (al := 0.3) (conv := none) (by norm_num) (by norm_num) with
    dt_pos := by simp [near]
    gdp_pos := fun t _ r _ => by show (0 : ℝ) < 10 + t; positivity
    cum_ne := by
      intro t ht
      rw [near_cum _ ht]
      push_cast
      positivity
    sr_nonneg := by norm_num [near]
    dk_nonneg := by norm_num [near]
    dk_lt := by norm_num [near] }

theorem near_ordinary {md : Modules} : Spec.OrdinaryData md near where
  baseline_nonneg := by simp [near, ex]
  T0_nonneg := by simp [near, ex]
  TCRE_nonneg := by norm_num [near, ex]
  lbd_le := by norm_num [near, ex]
  lot_nonneg := by norm_num [near, ex]
  gamma_nonneg := by norm_num [near, ex]
  scaling_nonneg := by simp [near, ex]
  reversible := by simp [near, ex]
  start := by norm_num [near, ex]
  forms := fun _ r hr x => formsOk (regime := "noregime") (al := 0.3) (conv := none) x r hr

theorem near_economics : Spec.DefaultEconomics near := ⟨rfl, rfl, rfl, rfl⟩

theorem near_growth {r : String} : Spec.ModerateGrowth near r := by
  have hq : (1 - near.dk) ^ near.dt = 0.7737809375 := by
    rw [near_economics.dk, near_economics.dt, show (5 : ℝ) = ((5 : ℕ) : ℝ) by norm_num, Real.rpow_natCast]; norm_num
  have hs : ∀ t, Spec.baselineCapital near r (t + 1) =
      0.7737809375 * Spec.baselineCapital near r t + 1.05 * (10 + t) := fun t => by
    rw [Spec.baselineCapital, hq, near_economics.dt, near_economics.sr]
    show _ + 5 * (0.21 * (10 + (t : ℝ))) = _
    ring
  have k0 : Spec.baselineCapital near r 0 = 30 := by
    show (3 : ℝ) * (10 + ((0 : ℕ) : ℝ)) = 30
    norm_num
  have k1 := hs 0
  have k2 := hs 1
  have k3 := hs 2
  rw [k0] at k1
  rw [k1] at k2
  rw [k2] at k3
  norm_num at k1 k2 k3
  have b : ∀ t : ℕ, near.baseline_GDP t r = 10 + t := fun _ => rfl
  constructor
  · intro t (ht : t ≤ 3)
    interval_cases t <;> simp only [k0, k1, k2, k3] <;> norm_num
  · intro t (ht : t < 3)
    interval_cases t <;> simp only [k0, k1, k2, b] <;> norm_num
  · intro t (ht : t < 3)
    interval_cases t <;> simp only [k0, k1, k2, b] <;> norm_num
theorem near_temp (t : ℕ) : Spec.pathTemperature near (fun _ _ => 0) t = 1 + 0.12 * t := by
  have hw : ∀ t, Spec.pathWorld near (fun _ _ => 0) t = 40 := fun t => by
    rw [Spec.pathWorld_zero]; simp [near, ex]; norm_num
  have hc : Spec.pathCumulative near (fun _ _ => 0) t = 200 * t := by
    induction t with
    | zero => simp [Spec.pathCumulative]
    | succ t ih =>
      have e : Spec.pathCumulative near (fun _ _ => 0) (t + 1) = Spec.pathCumulative near (fun _ _ => 0) t +
        5 * (Spec.pathWorld near (fun _ _ => 0) (t + 1) + Spec.pathWorld near (fun _ _ => 0) t) / 2 := rfl
      rw [e, ih, hw, hw]; push_cast; ring
  have e : Spec.pathTemperature near (fun _ _ => 0) t = 1 + 0.0006 * Spec.pathCumulative near (fun _ _ => 0) t := rfl
  rw [e, hc]; ring

theorem near_baseline : Spec.BaselineWithinLimits near where
  no_target := rfl
  no_budget := rfl
  inertia_global := by
    intro i hi t _
    have : i = -0.05 := by simpa [near, ex] using hi.symm
    rw [this]; simp [near, ex]; norm_num
  inertia_regional := by
    intro i hi t _ r _
    have : i = -0.05 := by simpa [near, ex] using hi.symm
    rw [this]; simp [near, ex]; norm_num
  min_global := by
    intro l hl t _
    have : l = -20 := by simpa [near, ex] using hl.symm
    rw [this]; simp [near, ex]; norm_num
  min_regional := by
    intro l hl t _ r _
    have : l = -10 := by simpa [near, ex] using hl.symm
    rw [this]; simp [near, ex]; norm_num
  non_increasing := fun _ t _ _ r _ => by simp [near, ex]
  cost_floor := le_of_eq rfl
  melt := by
    intro t (ht : t ≤ 3)
    have h3 : (t : ℝ) ≤ 3 := by exact_mod_cast ht
    rw [near_temp]
    constructor
    · show 0.0008 * 5 * (_ + 1) ≤ (0.26 : ℝ); linarith
    · show 5 * (1.11860082 * _ + 0.6) ≤ (7300 : ℝ); linarith
  sea_damages := by
    intro t _ r _
    show (0 : ℝ) * _ ∈ _
    rw [zero_mul]; norm_num

/-- There is a solution of the example data without damages and mitigation costs. -/
theorem near_sol (w : WelfareModule) (o : ObjectiveModule) : ∃ σ, Solution (md0 .nodamage w o) near σ ∧
    ∀ t ≤ near.tf, 0 < t → ∀ r ∈ near.regions, σ.R .mitigation_costs t r = 0 := by
  obtain ⟨σ, hσ, ha⟩ := C49_no_policy_feasible_exogenous (md := md0 .nodamage w o) near_admissible near_ordinary
    near_baseline rfl (by simp [md0]) (fun h => by cases h) (Or.inl rfl)
  refine ⟨σ, hσ, fun t ht h1 r hr => ?_⟩
  rw [C33_costs_notrade hσ rfl ht hr, (ha t ht r hr).2.2]

/-- C83 applies to it: its net product is within 7 % of the baseline GDP. -/
example (w : WelfareModule) (o : ObjectiveModule) : ∃ σ, Solution (md0 .nodamage w o) near σ ∧
    ∀ t ≤ 3, 0 < t → |σ.R .GDP_net t "A" - (10 + t)| ≤ 0.07 * (10 + t) := by
  obtain ⟨σ, hσ, h0⟩ := near_sol w o
  exact ⟨σ, hσ, fun t ht h1 => C83_seven_percent hσ near_admissible.econData near_economics (.inl rfl)
    (r := "A") (by simp [near, ex]) (fun t ht h1 => h0 t ht h1 "A" (by simp [near, ex])) near_growth (t := t) ht h1⟩

/-- … and to every optimum. -/
example {τ : Env} (h' : Optimal (md0 .nodamage .welfare_loss_minimising .utility) near τ) :
    |τ.R .GDP_net 3 "B" - 13| ≤ 0.07 * 13 := by
  obtain ⟨σ, hσ, h0⟩ := near_sol .welfare_loss_minimising .utility
  have := C83_optimum near_admissible ⟨fun _ => .inl rfl, fun _ => rfl, le_of_eq rfl⟩ rfl near_economics hσ h0 h'
    (r := "B") (by simp [near, ex]) near_growth (t := 3) le_rfl (by norm_num)
  have e : near.baseline_GDP 3 "B" = 13 := by show (10 : ℝ) + ((3 : ℕ) : ℝ) = 13; norm_num
  rwa [e] at this

/-- Such an optimum exists. -/
example : ∃ τ, Optimal (md0 .nodamage .welfare_loss_minimising .utility) near τ := by
  obtain ⟨σ, hσ, h0⟩ := near_sol .welfare_loss_minimising .utility
  exact ⟨σ, C66_no_costs_optimal near_admissible ⟨fun _ => .inl rfl, fun _ => rfl, le_of_eq rfl⟩
    (by norm_num [near]) hσ h0⟩
end Ex

end Mimosa
