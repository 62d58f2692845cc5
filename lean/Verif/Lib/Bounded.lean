import Verif.Lib.Clip

/-!
# The set of solutions is bounded

All variables that are constrained at all stay within bounds that depend only on the parameters, provided the baseline
emissions do.
-/

set_option linter.unusedSimpArgs false
set_option linter.unusedVariables false
set_option linter.unusedSectionVars false

namespace Mimosa
open Damages Topology

variable {md : Modules} {p : Params}

/-- `f` is bounded on the solutions. -/
def Bd (md : Modules) (p : Params) (f : Env → ℝ) : Prop := ∃ B, ∀ σ, Solution md p σ → |f σ| ≤ B
/-- `f` is bounded from above on the solutions. -/
def Above (md : Modules) (p : Params) (f : Env → ℝ) : Prop := ∃ B, ∀ σ, Solution md p σ → f σ ≤ B
/-- `f` is bounded away from zero on the solutions. -/
def Away (md : Modules) (p : Params) (f : Env → ℝ) : Prop := ∃ c, 0 < c ∧ ∀ σ, Solution md p σ → c ≤ f σ

namespace Bd
variable {f g : Env → ℝ}

theorem congr (hg : Bd md p g) (h : ∀ σ, Solution md p σ → f σ = g σ) : Bd md p f := by
  obtain ⟨B, hB⟩ := hg
  exact ⟨B, fun σ hσ => by rw [h σ hσ]; exact hB σ hσ⟩
theorem const (c : ℝ) : Bd md p fun _ => c := ⟨|c|, fun _ _ => le_rfl⟩
theorem add (hf : Bd md p f) (hg : Bd md p g) : Bd md p fun σ => f σ + g σ := by
  obtain ⟨A, hA⟩ := hf
  obtain ⟨B, hB⟩ := hg
  exact ⟨A + B, fun σ hσ => (abs_add_le _ _).trans (add_le_add (hA σ hσ) (hB σ hσ))⟩
theorem neg (hf : Bd md p f) : Bd md p fun σ => -f σ := by
  obtain ⟨A, hA⟩ := hf
  exact ⟨A, fun σ hσ => by rw [abs_neg]; exact hA σ hσ⟩
theorem sub (hf : Bd md p f) (hg : Bd md p g) : Bd md p fun σ => f σ - g σ := by
  simpa only [sub_eq_add_neg] using hf.add hg.neg
theorem mul (hf : Bd md p f) (hg : Bd md p g) : Bd md p fun σ => f σ * g σ := by
  obtain ⟨A, hA⟩ := hf
  obtain ⟨B, hB⟩ := hg
  refine ⟨A * B, fun σ hσ => ?_⟩
  rw [abs_mul]
  exact mul_le_mul (hA σ hσ) (hB σ hσ) (abs_nonneg _) ((abs_nonneg _).trans (hA σ hσ))
theorem cmul (c : ℝ) (hf : Bd md p f) : Bd md p fun σ => c * f σ := (const c).mul hf
theorem mulc (hf : Bd md p f) (c : ℝ) : Bd md p fun σ => f σ * c := hf.mul (const c)
theorem divc (hf : Bd md p f) (c : ℝ) : Bd md p fun σ => f σ / c := by
  simpa only [div_eq_mul_inv] using hf.mulc c⁻¹
/-- A continuous function of a bounded quantity is bounded. -/
theorem comp {φ : ℝ → ℝ} (hφ : Continuous φ) (hf : Bd md p f) : Bd md p fun σ => φ (f σ) := by
  obtain ⟨A, hA⟩ := hf
  obtain ⟨C, hC⟩ := isCompact_Icc.exists_bound_of_continuousOn (s := Set.Icc (-A) A) hφ.continuousOn
  exact ⟨C, fun σ hσ => hC _ (abs_le.1 (hA σ hσ))⟩
theorem div (hf : Bd md p f) (hg : Away md p g) : Bd md p fun σ => f σ / g σ := by
  obtain ⟨A, hA⟩ := hf
  obtain ⟨c, hc, hg⟩ := hg
  refine ⟨A / c, fun σ hσ => ?_⟩
  rw [abs_div, abs_of_pos (hc.trans_le (hg σ hσ))]
  exact div_le_div₀ ((abs_nonneg _).trans (hA σ hσ)) (hA σ hσ) hc (hg σ hσ)
theorem of_between {A B : ℝ} (h : ∀ σ, Solution md p σ → A ≤ f σ ∧ f σ ≤ B) : Bd md p f := by
  refine ⟨|A| + |B|, fun σ hσ => ?_⟩
  have := h σ hσ
  rw [abs_le]
  constructor
  · linarith [neg_abs_le A, abs_nonneg B]
  · linarith [le_abs_self B, abs_nonneg A]
theorem of_above (h1 : Above md p f) (h2 : Above md p fun σ => -f σ) : Bd md p f := by
  obtain ⟨A, hA⟩ := h1
  obtain ⟨B, hB⟩ := h2
  exact of_between (A := -B) (B := A) fun σ hσ => ⟨by linarith [hB σ hσ], hA σ hσ⟩
theorem above (hf : Bd md p f) : Above md p f := by
  obtain ⟨A, hA⟩ := hf
  exact ⟨A, fun σ hσ => (le_abs_self _).trans (hA σ hσ)⟩
theorem sumR {f : Env → String → ℝ} (h : ∀ r ∈ p.regions, Bd md p fun σ => f σ r) : Bd md p fun σ => p.sumR (f σ) := by
  unfold Params.sumR
  generalize p.regions = L at h
  induction L with
  | nil => simpa using const 0
  | cons a L ih =>
    simp only [List.map_cons, List.sum_cons]
    exact (h a (by simp)).add (ih fun r hr => h r (by simp [hr]))
end Bd

theorem Away.of_continuous {f : Env → ℝ} {φ : ℝ → ℝ} (hφ : Continuous φ) (hpos : ∀ x, 0 < φ x) (hf : Bd md p f) :
    Away md p fun σ => φ (f σ) := by
  have hinv : Continuous fun x => (φ x)⁻¹ := hφ.inv₀ fun x => (hpos x).ne'
  obtain ⟨C, hC⟩ := hf.comp hinv
  refine ⟨(max C 1)⁻¹, by positivity, fun σ hσ => ?_⟩
  have h1 := hC σ hσ
  rw [abs_of_pos (inv_pos.2 (hpos _))] at h1
  rw [inv_le_comm₀ (by positivity) (hpos _)]
  exact h1.trans (le_max_left _ _)

theorem Away.sumR {f : Env → String → ℝ} (hne : p.regions ≠ []) (h : ∀ r ∈ p.regions, Away md p fun σ => f σ r) :
    Away md p fun σ => p.sumR (f σ) := by
  unfold Params.sumR
  generalize p.regions = L at h hne
  induction L with
  | nil => exact absurd rfl hne
  | cons a L ih =>
    obtain ⟨c, hc, h1⟩ := h a (by simp)
    simp only [List.map_cons, List.sum_cons]
    by_cases hL : L = []
    · subst hL; exact ⟨c, hc, fun σ hσ => by simpa using h1 σ hσ⟩
    · obtain ⟨c', hc', h2⟩ := ih (fun r hr => h r (by simp [hr])) hL
      exact ⟨c + c', by linarith, fun σ hσ => add_le_add (h1 σ hσ) (h2 σ hσ)⟩

/-- One bound for all elements of a list. -/
theorem uniform_bound {L : List String} {Q : String → ℝ → Prop} (hm : ∀ r B B', B ≤ B' → Q r B → Q r B')
    (h : ∀ r ∈ L, ∃ B, Q r B) : ∃ B, ∀ r ∈ L, Q r B := by
  induction L with
  | nil => exact ⟨0, by simp⟩
  | cons a L ih =>
    obtain ⟨B, hB⟩ := h a (by simp)
    obtain ⟨B', hB'⟩ := ih fun r hr => h r (by simp [hr])
    refine ⟨max B B', fun r hr => ?_⟩
    rcases List.mem_cons.1 hr with rfl | hr
    · exact hm _ _ _ (le_max_left _ _) hB
    · exact hm _ _ _ (le_max_right _ _) (hB' r hr)

/-- Quantities that sum to zero and are bounded from below are bounded. -/
theorem Bd.of_zero_sum {f : Env → String → ℝ} (hz : ∀ σ, Solution md p σ → p.sumR (f σ) = 0)
    (h : ∀ r ∈ p.regions, Above md p fun σ => -f σ r) {r : String} (hr : r ∈ p.regions) : Bd md p fun σ => f σ r := by
  refine of_above ?_ (h r hr)
  obtain ⟨B, hB⟩ := uniform_bound (Q := fun r B => ∀ σ, Solution md p σ → -f σ r ≤ B)
    (fun r B B' hBB h σ hσ => (h σ hσ).trans hBB) h
  refine ⟨p.sumR (fun _ => B) - B, fun σ hσ => ?_⟩
  have h1 := le_sumR (p := p) (f := fun r => f σ r + B) (fun r hr => by linarith [hB r hr σ hσ]) hr
  have h2 : p.sumR (fun r => f σ r + B) = p.sumR (f σ) + p.sumR fun _ => B := sumR_add
  rw [h2, hz σ hσ] at h1
  linarith

/-! ## Capital and GDP -/

section
variable (hadm : p.Admissible)
include hadm

theorem Solution.gross_pos {σ : Env} (h : Solution md p σ) {t : ℕ} (ht : t ≤ p.tf) {r : String} (hr : r ∈ p.regions) :
    0 < σ.R .GDP_gross t r := by
  cases t with
  | zero => rw [h.eqs.economy.gross_init r hr]; exact hadm.gdp_pos 0 ht r hr
  | succ t =>
    rw [(h.eqs.economy.gross t (by omega) r hr).2]
    have := tfp_pos hadm ht hr
    have := Real.rpow_pos_of_pos (hadm.pop_pos (t + 1) ht r hr) (1 - p.alpha)
    have := Real.rpow_pos_of_pos (soft_min_pos_ten (σ.R .capital_stock (t + 1) r)) p.alpha
    positivity

/-- The capital equation, solved for the new capital stock. -/
theorem Solution.capital_eq {σ : Env} (h : Solution md p σ) {t : ℕ} (ht : t < p.tf) {r : String} (hr : r ∈ p.regions) :
    (2 - (1 - p.dk) ^ p.dt) * σ.R .capital_stock (t + 1) r =
      σ.R .capital_stock t r + p.dt * (p.sr * σ.R .GDP_net (t + 1) r) := by
  have h1 := (h.eqs.economy.capital t ht r hr).2.2
  have h2 := h.eqs.economy.investments (t + 1) ht r hr
  have hdt := hadm.dt_pos
  rw [h2] at h1
  field_simp at h1
  linarith

theorem capital_above {r : String} (hr : r ∈ p.regions)
    (hnet : ∀ t < p.tf, ∃ M, ∀ σ, Solution md p σ → σ.R .GDP_net (t + 1) r ≤ M * σ.R .GDP_gross (t + 1) r) :
    ∀ t ≤ p.tf, Above md p fun σ => σ.R .capital_stock t r := by
  intro t
  induction t with
  | zero =>
    intro _
    exact ⟨p.init_capitalstock_factor r * p.baseline_GDP 0 r, fun σ h => (h.eqs.economy.capital_init r hr).le⟩
  | succ t ih =>
    intro ht
    obtain ⟨B, hB⟩ := ih (by omega)
    obtain ⟨M, hM⟩ := hnet t ht
    have hA : (0 : ℝ) < 2 - (1 - p.dk) ^ p.dt := by linarith [dk_pow_le hadm]
    set A := get_TFP_value p (t + 1) r * p.population (t + 1) r ^ (1 - p.alpha) with hAdef
    have hApos : 0 < A :=
      mul_pos (tfp_pos hadm ht hr) (Real.rpow_pos_of_pos (hadm.pop_pos (t + 1) ht r hr) (1 - p.alpha))
    set C := p.dt * p.sr * max M 0 * A with hC
    have hB' : 0 < max B 1 := by positivity
    obtain ⟨K', hK'⟩ := capital_exists (B := max B 1) (C := C) hA hadm.alpha_nonneg hadm.alpha_lt
    refine ⟨K', fun σ hσ => ?_⟩
    have hs := Real.rpow_pos_of_pos (soft_min_pos_ten (σ.R .capital_stock (t + 1) r)) p.alpha
    set s := soft_min (σ.R .capital_stock (t + 1) r) 10 ^ p.alpha with hsdef
    have e1 := hσ.capital_eq hadm ht hr
    have e2 := (hσ.eqs.economy.gross t ht r hr).2
    rw [← hAdef, ← hsdef] at e2
    have hle : (2 - (1 - p.dk) ^ p.dt) * σ.R .capital_stock (t + 1) r ≤ max B 1 + C * s := by
      rw [e1]
      have h1 : σ.R .GDP_net (t + 1) r ≤ max M 0 * (A * s) := by
        refine (hM σ hσ).trans ?_
        rw [e2]
        exact mul_le_mul_of_nonneg_right (le_max_left _ _) (by positivity)
      have h2 : p.dt * (p.sr * σ.R .GDP_net (t + 1) r) ≤ p.dt * (p.sr * (max M 0 * (A * s))) := by
        have := hadm.dt_pos; have := hadm.sr_nonneg
        gcongr
      have h3 := (hB σ hσ).trans (le_max_left B 1)
      have h4 : p.dt * (p.sr * (max M 0 * (A * s))) = C * s := by rw [hC]; ring
      linarith
    refine capital_le (C := ((2 - (1 - p.dk) ^ p.dt) * σ.R .capital_stock (t + 1) r - max B 1) / s) hA hB'
      hadm.alpha_nonneg hadm.alpha_lt le_rfl ?_ ?_ hK'
    · rw [div_le_iff₀ hs]; linarith
    · rw [← hsdef, div_mul_cancel₀ _ hs.ne']; ring

theorem gross_bd {r : String} (hr : r ∈ p.regions) {t : ℕ} (ht : t ≤ p.tf)
    (hK : Above md p fun σ => σ.R .capital_stock t r) : Bd md p fun σ => σ.R .GDP_gross t r := by
  cases t with
  | zero => exact (Bd.const (p.baseline_GDP 0 r)).congr fun σ h => h.eqs.economy.gross_init r hr
  | succ t =>
    obtain ⟨B, hB⟩ := hK
    refine Bd.of_between (A := 0) (B := get_TFP_value p (t + 1) r * p.population (t + 1) r ^ (1 - p.alpha) *
      soft_min B 10 ^ p.alpha) fun σ h => ⟨(h.gross_pos hadm ht hr).le, ?_⟩
    rw [(h.eqs.economy.gross t ht r hr).2]
    have h1 := tfp_pos hadm ht hr
    have h2 := Real.rpow_pos_of_pos (hadm.pop_pos (t + 1) ht r hr) (1 - p.alpha)
    refine mul_le_mul_of_nonneg_left ?_ (by positivity)
    exact Real.rpow_le_rpow (soft_min_pos_ten _).le
      ((soft_min_strictMono (by norm_num : (0 : ℝ) < 10)).monotone (hB σ h)) hadm.alpha_nonneg

theorem mitigation_lower {σ : Env} (h : Solution md p σ) {t : ℕ} (ht : t ≤ p.tf) {r : String} (hr : r ∈ p.regions) :
    -|p.rel_mitigation_costs_min_level| * σ.R .GDP_gross t r ≤ σ.R .mitigation_costs t r := by
  have h1 := (h.eqs.mitigation.rel_costs t ht r hr).2
  have h2 := h.eqs.mitigation.rel_costs_min t ht r hr
  have hg := h.gross_pos hadm ht hr
  have e : σ.R .mitigation_costs t r = σ.R .rel_mitigation_costs t r * σ.R .GDP_gross t r := by
    rw [h1, div_mul_cancel₀ _ hg.ne']
  rw [e]
  refine mul_le_mul_of_nonneg_right (le_trans ?_ h2) hg.le
  split
  · exact neg_abs_le _
  · simp
end

/-! ## Everything else -/

/-- What is needed to bound all variables. -/
structure BaseBd (md : Modules) (p : Params) : Prop where
  adm : p.Admissible
  forms : md.damage = .COACCH → ∀ r ∈ p.regions, ∀ x, FormOk x p.noslr r ∧ FormOk x p.slr r
  baseline : ∀ t ≤ p.tf, ∀ r ∈ p.regions, Bd md p fun σ => σ.R .baseline t r

namespace BaseBd
variable (h : BaseBd md p)
include h

theorem abatement {t : ℕ} (ht : t ≤ p.tf) {r : String} (hr : r ∈ p.regions) :
    Bd md p fun σ => σ.R .relative_abatement t r := Bd.of_between fun _ hσ => hσ.abatement_bounds ht hr
theorem emissions {t : ℕ} (ht : t ≤ p.tf) {r : String} (hr : r ∈ p.regions) :
    Bd md p fun σ => σ.R .regional_emissions t r := by
  cases t with
  | zero => exact (Bd.const _).congr fun σ hσ => hσ.eqs.emissions.regional_emissions_init r hr
  | succ t =>
    refine Bd.congr ?_ fun σ hσ => hσ.eqs.emissions.regional_emissions t ht r hr
    refine ((Bd.const 1).sub (h.abatement ht hr)).mul ?_
    split
    · exact h.baseline _ ht r hr
    · exact Bd.const _
theorem reduction {t : ℕ} (ht : t ≤ p.tf) {r : String} (hr : r ∈ p.regions) :
    Bd md p fun σ => σ.R .regional_emission_reduction t r :=
  ((h.baseline t ht r hr).sub (h.emissions ht hr)).congr fun σ hσ => hσ.eqs.emissions.reduction t ht r hr
theorem world {t : ℕ} (ht : t ≤ p.tf) : Bd md p fun σ => σ.G .global_emissions t := by
  cases t with
  | zero => exact (Bd.const _).congr fun σ hσ => hσ.eqs.emissions.global_emissions_init
  | succ t => exact (Bd.sumR fun r hr => h.emissions ht hr).congr fun σ hσ => hσ.eqs.emissions.global_emissions t ht
theorem cumulative : ∀ {t : ℕ}, t ≤ p.tf → Bd md p fun σ => σ.G .cumulative_emissions t := by
  intro t
  induction t with
  | zero => intro _; exact (Bd.const _).congr fun σ hσ => hσ.eqs.emissions.cumulative_init
  | succ t ih =>
    intro ht
    refine Bd.congr ?_ fun σ hσ => hσ.eqs.emissions.cumulative t ht
    refine (ih (by omega)).add ?_
    split
    · exact (((h.world ht).add (h.world (by omega : t ≤ p.tf))).cmul _).divc _
    · exact (h.world ht).cmul _
theorem relCumulative {t : ℕ} (ht : t ≤ p.tf) : Bd md p fun σ => σ.G .emission_relative_cumulative t := by
  cases t with
  | zero => exact (Bd.const _).congr fun σ hσ => hσ.eqs.emissions.rel_cumulative_init
  | succ t => exact ((h.cumulative ht).divc _).congr fun σ hσ => (hσ.eqs.emissions.rel_cumulative t ht).2
theorem temperature {t : ℕ} (ht : t ≤ p.tf) : Bd md p fun σ => σ.G .temperature t :=
  ((Bd.const _).add ((h.cumulative ht).cmul _)).congr fun σ hσ => hσ.eqs.emissions.temperature t ht

theorem thermal : ∀ {t : ℕ}, t ≤ p.tf → Bd md p fun σ => σ.G .slr_thermal t := by
  intro t
  induction t with
  | zero => intro _; exact (Bd.const _).congr fun σ hσ => hσ.eqs.slr.thermal_init
  | succ t ih =>
    intro ht
    exact (((ih (by omega)).cmul _).add (((h.temperature (by omega : t ≤ p.tf)).mulc _).cmul _)).congr
      fun σ hσ => hσ.eqs.slr.thermal t ht
theorem gsic : ∀ {t : ℕ}, t ≤ p.tf → Bd md p fun σ => σ.G .slr_cumgsic t := by
  intro t
  induction t with
  | zero => intro _; exact (Bd.const _).congr fun σ hσ => hσ.eqs.slr.gsic_init
  | succ t ih =>
    intro ht
    have i := ih (by omega)
    exact (i.add (((Bd.const _).mul ((Bd.const _).sub i)).mul
      ((h.temperature (by omega : t ≤ p.tf)).sub (Bd.const _)))).congr fun σ hσ => hσ.eqs.slr.gsic t ht
theorem gis : ∀ {t : ℕ}, t ≤ p.tf → Bd md p fun σ => σ.G .slr_cumgis t := by
  intro t
  induction t with
  | zero => intro _; exact (Bd.const _).congr fun σ hσ => hσ.eqs.slr.gis_init
  | succ t ih =>
    intro ht
    have i := ih (by omega)
    exact (i.add (((Bd.const _).mul (((h.temperature (by omega : t ≤ p.tf)).cmul _).add (Bd.const _))).mul
      ((Bd.const _).sub (i.divc _)))).congr fun σ hσ => hσ.eqs.slr.gis t ht
theorem slr {t : ℕ} (ht : t ≤ p.tf) : Bd md p fun σ => σ.G .total_SLR t :=
  (((h.thermal ht).add (h.gsic ht)).add (h.gis ht)).congr fun σ hσ => hσ.eqs.slr.total t ht

section coacch
variable (hd : md.damage = .COACCH)
include hd
omit h in
theorem _root_.Mimosa.Solution.coacch' {σ : Env} (hσ : Solution md p σ) : CoacchEqs p σ := by
  have := hσ.eqs.damages; rw [hd] at this; exact this
theorem nonSlr {t : ℕ} (ht : t ≤ p.tf) {r : String} (hr : r ∈ p.regions) :
    Bd md p fun σ => σ.R .damage_costs_non_slr t r := by
  refine Bd.congr ?_ fun σ hσ => ((hσ.coacch' hd).noslr t ht r hr).2.2
  exact ((((h.temperature ht).sub (Bd.const _)).comp (formVal_continuous fun x => (h.forms hd r hr x).1)).sub
    (Bd.const _)).cmul _
theorem slrDamage {t : ℕ} (ht : t ≤ p.tf) {r : String} (hr : r ∈ p.regions) :
    Bd md p fun σ => σ.R .damage_costs_slr t r := Bd.of_between fun _ hσ => hσ.slr_damage_bounds hd ht hr
theorem mortOldest {t : ℕ} (ht : t ≤ p.tf) {r : String} (hr : r ∈ p.regions) :
    Bd md p fun σ => σ.R .mortality_oldest t r :=
  ((h.temperature ht).comp (φ := fun x => p.mortality_oldest.a r + p.mortality_oldest.b r * x +
    p.mortality_oldest.c r * x ^ 2) (by fun_prop)).congr fun σ hσ => (hσ.coacch' hd).mort_oldest t ht r hr
theorem mortOlder {t : ℕ} (ht : t ≤ p.tf) {r : String} (hr : r ∈ p.regions) :
    Bd md p fun σ => σ.R .mortality_older t r :=
  ((h.temperature ht).comp (φ := fun x => p.mortality_older.a r + p.mortality_older.b r * x +
    p.mortality_older.c r * x ^ 2) (by fun_prop)).congr fun σ hσ => (hσ.coacch' hd).mort_older t ht r hr
theorem mortYoung {t : ℕ} (ht : t ≤ p.tf) {r : String} (hr : r ∈ p.regions) :
    Bd md p fun σ => σ.R .mortality_young t r :=
  ((h.temperature ht).comp (φ := fun x => p.mortality_young.a r + p.mortality_young.b r * x +
    p.mortality_young.c r * x ^ 2) (by fun_prop)).congr fun σ hσ => (hσ.coacch' hd).mort_young t ht r hr
theorem mortCost {t : ℕ} (ht : t ≤ p.tf) {r : String} (hr : r ∈ p.regions) :
    Bd md p fun σ => σ.R .mortality_cost_oldest t r :=
  ((((h.mortOldest hd ht hr).mulc _).mulc _).mulc _).congr fun σ hσ => (hσ.coacch' hd).mort_cost t ht r hr
end coacch

theorem damage {t : ℕ} (ht : t ≤ p.tf) {r : String} (hr : r ∈ p.regions) : Bd md p fun σ => σ.R .damage_costs t r := by
  cases hd : md.damage with
  | COACCH => exact ((h.nonSlr hd ht hr).add (h.slrDamage hd ht hr)).congr fun σ hσ => (hσ.coacch' hd).total t ht r hr
  | nodamage =>
    refine (Bd.const 0).congr fun σ hσ => ?_
    have := hσ.eqs.damages; rw [hd] at this; exact this t ht r hr

theorem lbd {t : ℕ} (ht : t ≤ p.tf) : Bd md p fun σ => σ.G .LBD_factor t := by
  refine Bd.congr ?_ fun σ hσ => (hσ.eqs.mitigation.lbd t ht).2
  have hc : Continuous fun x : ℝ => soft_min x 1 ^ p.log_LBD_rate :=
    (continuous_soft_min (s := 1)).rpow_const fun x => Or.inl (soft_min_pos_one x).ne'
  exact ((((Bd.const _).sub (h.cumulative ht)).divc _).add (Bd.const _)).comp hc
omit h in
theorem lot {t : ℕ} (ht : t ≤ p.tf) : Bd md p fun σ => σ.G .LOT_factor t :=
  (Bd.const _).congr fun σ hσ => (hσ.eqs.mitigation.lot t ht).2.2
theorem learning {t : ℕ} (ht : t ≤ p.tf) : Bd md p fun σ => σ.G .learning_factor t :=
  ((h.lbd ht).mul (lot ht)).congr fun σ hσ => hσ.eqs.mitigation.learning t ht
theorem ac {t : ℕ} (ht : t ≤ p.tf) {r : String} (hr : r ∈ p.regions) : Bd md p fun σ => acVal p σ t r := by
  have hβ := h.adm.beta_pos
  unfold acVal
  exact (((((h.learning ht).mulc _).mulc _).mul ((h.abatement ht hr).comp (φ := fun x => x ^ (p.MAC_beta + 1))
    (continuous_id.rpow_const fun _ => Or.inr (by linarith)))).divc _)
theorem area {t : ℕ} (ht : t ≤ p.tf) {r : String} (hr : r ∈ p.regions) : Bd md p fun σ => σ.R .area_under_MAC t r :=
  ((h.ac ht hr).mul (h.baseline t ht r hr)).congr fun σ hσ => (hσ.eqs.mitigation.area t ht r hr).2
omit h in
theorem price {t : ℕ} (ht : t ≤ p.tf) {r : String} (hr : r ∈ p.regions) : Bd md p fun σ => σ.R .carbonprice t r :=
  Bd.of_between fun _ hσ => hσ.price_bounds ht hr

/-- The net product is at most a fixed multiple of the gross product. -/
theorem net_le_gross {r : String} (hr : r ∈ p.regions) {t : ℕ} (ht : t < p.tf) :
    ∃ M, ∀ σ, Solution md p σ → σ.R .GDP_net (t + 1) r ≤ M * σ.R .GDP_gross (t + 1) r := by
  obtain ⟨B, hB⟩ := h.damage ht hr
  refine ⟨1 + 2 * B + |p.rel_mitigation_costs_min_level|, fun σ hσ => ?_⟩
  have hg := hσ.gross_pos h.adm ht hr
  have hm := mitigation_lower h.adm hσ ht hr
  have hd := abs_le.1 (hB σ hσ)
  have hB0 : 0 ≤ B := (abs_nonneg _).trans (hB σ hσ)
  have htr : -B * σ.R .GDP_gross (t + 1) r ≤ transferVal σ md.transfer (t + 1) r := by
    cases hf : md.transfer with
    | notransfer => simp only [transferVal]; nlinarith
    | globaldamagepool =>
      have he := hσ.eqs.transfer
      rw [hf] at he
      have := he.max_own (t + 1) ht r hr
      simp only [transferVal]
      refine le_trans ?_ this
      exact mul_le_mul_of_nonneg_right (by linarith) hg.le
  rw [hσ.eqs.economy.net (t + 1) ht r hr]
  split
  · nlinarith
  · nlinarith

theorem capitalAbove {t : ℕ} (ht : t ≤ p.tf) {r : String} (hr : r ∈ p.regions) :
    Above md p fun σ => σ.R .capital_stock t r := capital_above h.adm hr (fun _ ht => h.net_le_gross hr ht) t ht
theorem gross {t : ℕ} (ht : t ≤ p.tf) {r : String} (hr : r ∈ p.regions) : Bd md p fun σ => σ.R .GDP_gross t r :=
  gross_bd h.adm hr ht (h.capitalAbove ht hr)
theorem mitigAbove {t : ℕ} (ht : t ≤ p.tf) {r : String} (hr : r ∈ p.regions) :
    Above md p fun σ => -σ.R .mitigation_costs t r := by
  obtain ⟨B, hB⟩ := (h.gross ht hr).cmul |p.rel_mitigation_costs_min_level|
  exact ⟨B, fun σ hσ => by linarith [mitigation_lower h.adm hσ ht hr, le_abs_self (|p.rel_mitigation_costs_min_level| * σ.R .GDP_gross t r), hB σ hσ]⟩

omit h in
theorem _root_.Mimosa.Solution.trade' {σ : Env} (hσ : Solution md p σ) (htr : md.trade = .emissiontrade) :
    TradeEqs p σ := by
  have := hσ.eqs.trade; rw [htr] at this; exact this
omit h in
theorem _root_.Mimosa.Solution.pool' {σ : Env} (hσ : Solution md p σ) (htr : md.transfer = .globaldamagepool) :
    PoolEqs p σ := by
  have := hσ.eqs.transfer; rw [htr] at this; exact this

theorem balance (htr : md.trade = .emissiontrade) {t : ℕ} (ht : t ≤ p.tf) {r : String} (hr : r ∈ p.regions) :
    Bd md p fun σ => σ.R .import_export_mitigation_cost_balance t r := by
  refine Bd.of_zero_sum (f := fun σ r => σ.R .import_export_mitigation_cost_balance t r)
    (fun σ hσ => (hσ.trade' htr).zero_sum t ht) (fun r hr => ?_) hr
  obtain ⟨A, hA⟩ := h.mitigAbove ht hr
  obtain ⟨B, hB⟩ := (h.area ht hr).above
  refine ⟨A + B, fun σ hσ => ?_⟩
  have e1 := (hσ.eqs.mitigation.mitigation_costs t ht r hr).2
  have e2 := (hσ.eqs.mitigation.area t ht r hr).2
  have e3 : costBalanceVal σ md.trade t r = σ.R .import_export_mitigation_cost_balance t r := by rw [htr]; rfl
  rw [e3, ← e2] at e1
  have := hA σ hσ; have := hB σ hσ
  linarith
theorem balanceVal {t : ℕ} (ht : t ≤ p.tf) {r : String} (hr : r ∈ p.regions) :
    Bd md p fun σ => costBalanceVal σ md.trade t r := by
  cases htr : md.trade with
  | notrade => exact Bd.const 0
  | emissiontrade => exact h.balance htr ht hr
  | globalcostpool => exact ⟨0, fun σ hσ => absurd htr hσ.trade_ne⟩
theorem mitig {t : ℕ} (ht : t ≤ p.tf) {r : String} (hr : r ∈ p.regions) : Bd md p fun σ => σ.R .mitigation_costs t r :=
  (((h.ac ht hr).mul (h.baseline t ht r hr)).add (h.balanceVal ht hr)).congr fun σ hσ =>
    (hσ.eqs.mitigation.mitigation_costs t ht r hr).2
theorem pool (hf : md.transfer = .globaldamagepool) {t : ℕ} (ht : t ≤ p.tf) {r : String} (hr : r ∈ p.regions) :
    Bd md p fun σ => σ.R .financial_transfer t r := by
  cases t with
  | zero => exact (Bd.const 0).congr fun σ hσ => (hσ.pool' hf).first_year r hr
  | succ t =>
    refine Bd.of_zero_sum (f := fun σ r => σ.R .financial_transfer (t + 1) r)
      (fun σ hσ => (hσ.pool' hf).zero_sum t ht) (fun r hr => ?_) hr
    obtain ⟨B, hB⟩ := ((h.damage ht hr).mul (h.gross ht hr)).above
    exact ⟨B, fun σ hσ => by linarith [(hσ.pool' hf).max_own (t + 1) ht r hr, hB σ hσ]⟩
theorem transferVal {t : ℕ} (ht : t ≤ p.tf) {r : String} (hr : r ∈ p.regions) :
    Bd md p fun σ => transferVal σ md.transfer t r := by
  cases hf : md.transfer with
  | notransfer => exact Bd.const 0
  | globaldamagepool => exact h.pool hf ht hr
theorem net {t : ℕ} (ht : t ≤ p.tf) {r : String} (hr : r ∈ p.regions) : Bd md p fun σ => σ.R .GDP_net t r := by
  refine Bd.congr ?_ fun σ hσ => hσ.eqs.economy.net t ht r hr
  refine (((h.gross ht hr).mul ((Bd.const 1).sub ?_)).sub (h.mitig ht hr)).sub (h.transferVal ht hr)
  split
  · exact Bd.const 0
  · exact h.damage ht hr
theorem investments {t : ℕ} (ht : t ≤ p.tf) {r : String} (hr : r ∈ p.regions) : Bd md p fun σ => σ.R .investments t r :=
  ((h.net ht hr).cmul _).congr fun σ hσ => hσ.eqs.economy.investments t ht r hr
theorem consumption {t : ℕ} (ht : t ≤ p.tf) {r : String} (hr : r ∈ p.regions) : Bd md p fun σ => σ.R .consumption t r :=
  ((h.net ht hr).cmul _).congr fun σ hσ => hσ.eqs.economy.consumption t ht r hr
theorem capital {r : String} (hr : r ∈ p.regions) : ∀ {t : ℕ}, t ≤ p.tf → Bd md p fun σ => σ.R .capital_stock t r := by
  intro t
  induction t with
  | zero => intro _; exact (Bd.const _).congr fun σ hσ => hσ.eqs.economy.capital_init r hr
  | succ t ih =>
    intro ht
    have hA : (0 : ℝ) < 2 - (1 - p.dk) ^ p.dt := by linarith [dk_pow_le h.adm]
    refine (((ih (by omega)).add (((h.net ht hr).cmul p.sr).cmul p.dt)).divc (2 - (1 - p.dk) ^ p.dt)).congr
      fun σ hσ => ?_
    rw [eq_div_iff hA.ne', mul_comm]
    exact hσ.capital_eq h.adm ht hr
theorem grossAway {t : ℕ} (ht : t ≤ p.tf) {r : String} (hr : r ∈ p.regions) : Away md p fun σ => σ.R .GDP_gross t r := by
  cases t with
  | zero => exact ⟨p.baseline_GDP 0 r, h.adm.gdp_pos 0 ht r hr, fun σ hσ => (hσ.eqs.economy.gross_init r hr).ge⟩
  | succ t =>
    have h1 := tfp_pos h.adm ht hr
    have h2 := Real.rpow_pos_of_pos (h.adm.pop_pos (t + 1) ht r hr) (1 - p.alpha)
    obtain ⟨c, hc, hle⟩ := Away.of_continuous (φ := fun x => get_TFP_value p (t + 1) r *
      p.population (t + 1) r ^ (1 - p.alpha) * soft_min x 10 ^ p.alpha)
      (((continuous_soft_min (s := 10)).rpow_const fun x => Or.inl (soft_min_pos_ten x).ne').const_mul _)
      (fun x => by have := Real.rpow_pos_of_pos (soft_min_pos_ten x) p.alpha; positivity) (h.capital hr ht)
    exact ⟨c, hc, fun σ hσ => (hle σ hσ).trans (hσ.eqs.economy.gross t ht r hr).2.ge⟩
theorem relMitig {t : ℕ} (ht : t ≤ p.tf) {r : String} (hr : r ∈ p.regions) :
    Bd md p fun σ => σ.R .rel_mitigation_costs t r :=
  ((h.mitig ht hr).div (h.grossAway ht hr)).congr fun σ hσ => (hσ.eqs.mitigation.rel_costs t ht r hr).2
theorem globalRel {t : ℕ} (ht : t ≤ p.tf) : Bd md p fun σ => σ.G .global_rel_mitigation_costs t :=
  ((Bd.sumR fun r hr => h.mitig ht hr).div (Away.sumR h.adm.regions_ne fun r hr => h.grossAway ht hr)).congr
    fun σ hσ => (hσ.eqs.mitigation.global_rel t ht).2
theorem relTransfer (hf : md.transfer = .globaldamagepool) {t : ℕ} (ht : t ≤ p.tf) {r : String} (hr : r ∈ p.regions) :
    Bd md p fun σ => σ.R .rel_financial_transfer t r := by
  refine ((h.pool hf ht hr).div (h.grossAway ht hr)).congr fun σ hσ => ?_
  rw [eq_div_iff (hσ.gross_pos h.adm ht hr).ne']
  exact (hσ.pool' hf).rel t ht r hr
theorem relTransferVal {t : ℕ} (ht : t ≤ p.tf) {r : String} (hr : r ∈ p.regions) :
    Bd md p fun σ => relTransferVal σ md.transfer t r := by
  cases hf : md.transfer with
  | notransfer => exact Bd.const 0
  | globaldamagepool => exact h.relTransfer hf ht hr

omit h in
theorem _root_.Mimosa.Bd.soft_inv {f : Env → ℝ} (hf : Bd md p f) : Away md p fun σ => soft_min (f σ) 1 :=
  Away.of_continuous continuous_soft_min soft_min_pos_one hf

theorem perCost {t : ℕ} (ht : t < p.tf) : Bd md p fun σ => σ.G .global_emission_reduction_per_cost_unit (t + 1) :=
  ((Bd.sumR fun _ hr => h.reduction ht hr).div (Bd.sumR fun _ hr => h.mitig ht hr).soft_inv).congr
    fun σ hσ => hσ.eqs.mitigation.reduction_per_cost t ht
theorem perReduction {t : ℕ} (ht : t < p.tf) : Bd md p fun σ => σ.G .global_cost_per_emission_reduction_unit (t + 1) :=
  ((Bd.sumR fun _ hr => h.mitig ht hr).div (Bd.sumR fun _ hr => h.reduction ht hr).soft_inv).congr
    fun σ hσ => hσ.eqs.mitigation.cost_per_reduction t ht

section trade
variable (htr : md.trade = .emissiontrade)
include htr
omit h in
theorem worldPrice {t : ℕ} (ht : t ≤ p.tf) : Bd md p fun σ => σ.G .global_carbonprice t :=
  ((Bd.sumR fun r hr => (price ht hr).mulc (p.population t r)).divc _).congr fun σ hσ => ((hσ.trade' htr).price t ht).2
theorem reductionBalance {t : ℕ} (ht : t < p.tf) {r : String} (hr : r ∈ p.regions) :
    Bd md p fun σ => σ.R .import_export_emission_reduction_balance (t + 1) r :=
  ((h.balance htr ht hr).div (worldPrice htr ht).soft_inv).congr fun σ hσ => (hσ.trade' htr).reduction_balance t ht r hr
theorem paid {t : ℕ} (ht : t < p.tf) {r : String} (hr : r ∈ p.regions) :
    Bd md p fun σ => σ.R .paid_for_emission_reductions (t + 1) r :=
  ((h.reduction ht hr).add (h.reductionBalance htr ht hr)).congr fun σ hσ => (hσ.trade' htr).paid t ht r hr
theorem allowances {t : ℕ} (ht : t < p.tf) {r : String} (hr : r ∈ p.regions) :
    Bd md p fun σ => σ.R .regional_emission_allowances (t + 1) r :=
  ((h.baseline _ ht r hr).sub (h.paid htr ht hr)).congr fun σ hσ => (hσ.trade' htr).allowances t ht r hr
end trade

theorem level {t : ℕ} (ht : t ≤ p.tf) (hk : p.effort_sharing_regime = "equal_mitigation_costs" ∨
      (p.effort_sharing_regime = "equal_total_costs" ∧ p.year t ≤ 2100)) :
    Bd md p fun σ => σ.G .effort_sharing_common_level t := by
  obtain ⟨r, hr⟩ := List.exists_mem_of_ne_nil _ h.adm.regions_ne
  have key : ∀ f : Env → ℝ, Bd md p f → (∀ σ, Solution md p σ →
      f σ ≤ (1 + 0.005) * σ.G .effort_sharing_common_level t ∧
      (1 - 0.005) * σ.G .effort_sharing_common_level t ≤ f σ) →
      Bd md p fun σ => σ.G .effort_sharing_common_level t := by
    rintro f ⟨B, hB⟩ hf
    refine Bd.of_between (A := -B) (B := 2 * B) fun σ hσ => ?_
    have h1 := hf σ hσ
    have h2 := abs_le.1 (hB σ hσ)
    have h3 : 0 ≤ B := (abs_nonneg _).trans (hB σ hσ)
    constructor <;> nlinarith [h1.1, h1.2, h2.1, h2.2]
  rcases hk with hk | ⟨hk, hy⟩
  · exact key _ (h.relMitig ht hr) fun σ hσ => hσ.eqs.effort.mitigation t ht r hr hk
  · exact key _ (((h.relMitig ht hr).add (h.damage ht hr)).add (h.relTransferVal ht hr)) fun σ hσ =>
      hσ.eqs.effort.total t ht r hr hk hy

omit h in
theorem _root_.Mimosa.Bd.soft_pow {f : Env → ℝ} (hf : Bd md p f) (e : ℝ) : Bd md p fun σ => soft_min (f σ) 1 ^ e :=
  hf.comp (φ := fun x => soft_min x 1 ^ e)
    ((continuous_soft_min (s := 1)).rpow_const fun x => Or.inl (soft_min_pos_one x).ne')

theorem utility {t : ℕ} (ht : t ≤ p.tf) {r : String} (hr : r ∈ p.regions) : Bd md p fun σ => σ.R .utility t r := by
  cases hw : md.welfare with
  | welfare_loss_minimising =>
    refine Bd.congr (((((h.consumption ht hr).divc (p.population t r)).soft_pow (1 - p.elasmu)).sub
      (Bd.const 1)).divc (1 - p.elasmu)) fun σ hσ => ?_
    have := hσ.eqs.welfare; rw [hw] at this
    exact (this.1 t ht r hr).2.2
  | cost_minimising =>
    refine Bd.congr ((h.consumption ht hr).divc (p.population t r)) fun σ hσ => ?_
    have := hσ.eqs.welfare; rw [hw] at this
    exact (this.1 t ht r hr).2
  | inequal_aversion_general =>
    refine Bd.congr ((((h.consumption ht hr).divc (p.population t r)).soft_pow (1 - p.inequal_aversion)).cmul
      (p.population t r)) fun σ hσ => ?_
    have := hσ.eqs.welfare; rw [hw] at this
    exact (this.1 t ht r hr).2

theorem welfare {t : ℕ} (ht : t ≤ p.tf) : Bd md p fun σ => σ.G .yearly_welfare t := by
  cases hw : md.welfare with
  | welfare_loss_minimising =>
    refine Bd.congr (Bd.sumR fun r hr => (h.utility ht hr).cmul (p.population t r)) fun σ hσ => ?_
    have := hσ.eqs.welfare; rw [hw] at this
    exact this.2 t ht
  | cost_minimising =>
    refine Bd.congr ((((((Bd.sumR fun r hr => h.consumption ht hr).divc (p.sumR fun r => p.population t r)).soft_pow
      (1 - p.elasmu)).sub (Bd.const 1)).divc (1 - p.elasmu)).cmul (p.sumR fun r => p.population t r)) fun σ hσ => ?_
    have := hσ.eqs.welfare; rw [hw] at this
    exact (this.2 t ht).2.2
  | inequal_aversion_general =>
    refine Bd.congr (((((Bd.sumR fun r hr => h.utility ht hr).divc (p.sumR fun r => p.population t r)).soft_pow
      ((1 - p.elasmu) / (1 - p.inequal_aversion))).divc (1 - p.elasmu)).cmul (p.sumR fun r => p.population t r))
      fun σ hσ => ?_
    have := hσ.eqs.welfare; rw [hw] at this
    exact (this.2 t ht).2.2.2

theorem npv : ∀ {t : ℕ}, t ≤ p.tf → Bd md p fun σ => σ.G .NPV t := by
  intro t
  induction t with
  | zero =>
    intro _
    refine (Bd.const 0).congr fun σ hσ => ?_
    have := hσ.eqs.objective
    cases ho : md.objective <;> rw [ho] at this <;> exact this.2
  | succ t ih =>
    intro ht
    cases ho : md.objective with
    | utility =>
      refine Bd.congr ((ih (by omega)).add ((h.welfare ht).cmul (p.dt * Objective.discount p (t + 1)))) fun σ hσ => ?_
      have := hσ.eqs.objective; rw [ho] at this
      exact this.1 t ht
    | globalcosts =>
      refine Bd.congr ((ih (by omega)).add (((Bd.sumR fun r hr => h.mitig ht hr).add
        (Bd.sumR fun r hr => (h.damage ht hr).mul (h.gross ht hr))).cmul
        (p.dt * Objective.discount p (t + 1)))) fun σ hσ => ?_
      have := hσ.eqs.objective; rw [ho] at this
      exact this.1 t ht

/-- All values of clipped solutions are bounded. -/
theorem global (v : GVar) (t : ℤ) : Bd md p fun σ => (clip md p σ).g v t := by
  by_cases hk : (0 ≤ t ∧ t ≤ p.tf) ∧ KeptG md p v t
  · obtain ⟨⟨h0, ht⟩, hk⟩ := hk
    obtain ⟨n, rfl⟩ := Int.eq_ofNat_of_zero_le h0
    have hn : n ≤ p.tf := by simpa using ht
    refine Bd.congr (g := fun σ => σ.G v n) ?_ fun σ _ => clip_G hn hk
    cases v with
    | cumulative_emissions => exact h.cumulative hn
    | global_emissions => exact h.world hn
    | emission_relative_cumulative => exact h.relCumulative hn
    | temperature => exact h.temperature hn
    | slr_thermal => exact h.thermal hn
    | slr_cumgsic => exact h.gsic hn
    | slr_cumgis => exact h.gis hn
    | total_SLR => exact h.slr hn
    | global_rel_mitigation_costs => exact h.globalRel hn
    | global_emission_reduction_per_cost_unit =>
      obtain ⟨m, rfl⟩ : ∃ m, n = m + 1 := ⟨n - 1, by simp [KeptG] at hk; omega⟩
      exact h.perCost hn
    | global_cost_per_emission_reduction_unit =>
      obtain ⟨m, rfl⟩ : ∃ m, n = m + 1 := ⟨n - 1, by simp [KeptG] at hk; omega⟩
      exact h.perReduction hn
    | LBD_factor => exact h.lbd hn
    | LOT_factor => exact lot hn
    | learning_factor => exact h.learning hn
    | global_carbonprice => exact worldPrice hk hn
    | effort_sharing_common_level => exact h.level hn hk
    | yearly_welfare => exact h.welfare hn
    | NPV => exact h.npv hn
    | overshoot => exact hk.elim
  · refine (Bd.const 0).congr fun σ _ => ?_
    simp only [clip]; rw [if_neg hk]

theorem regional (v : RVar) (t : ℤ) (r : String) : Bd md p fun σ => (clip md p σ).r v t r := by
  by_cases hk : (0 ≤ t ∧ t ≤ p.tf) ∧ r ∈ p.regions ∧ KeptR md v t
  · obtain ⟨⟨h0, ht⟩, hr, hk⟩ := hk
    obtain ⟨n, rfl⟩ := Int.eq_ofNat_of_zero_le h0
    have hn : n ≤ p.tf := by simpa using ht
    refine Bd.congr (g := fun σ => σ.R v n r) ?_ fun σ _ => clip_R hn hr hk
    cases v with
    | regional_emissions => exact h.emissions hn hr
    | baseline => exact h.baseline n hn r hr
    | relative_abatement => exact h.abatement hn hr
    | regional_emission_reduction => exact h.reduction hn hr
    | damage_costs => exact h.damage hn hr
    | damage_costs_non_slr => exact h.nonSlr hk hn hr
    | damage_costs_slr => exact h.slrDamage hk hn hr
    | mortality_oldest => exact h.mortOldest hk hn hr
    | mortality_older => exact h.mortOlder hk hn hr
    | mortality_young => exact h.mortYoung hk hn hr
    | mortality_cost_oldest => exact h.mortCost hk hn hr
    | carbonprice => exact price hn hr
    | mitigation_costs => exact h.mitig hn hr
    | area_under_MAC => exact h.area hn hr
    | rel_mitigation_costs => exact h.relMitig hn hr
    | paid_for_emission_reductions =>
      obtain ⟨m, rfl⟩ : ∃ m, n = m + 1 := ⟨n - 1, by have := hk.2; omega⟩
      exact h.paid hk.1 hn hr
    | regional_emission_allowances =>
      obtain ⟨m, rfl⟩ : ∃ m, n = m + 1 := ⟨n - 1, by have := hk.2; omega⟩
      exact h.allowances hk.1 hn hr
    | import_export_emission_reduction_balance =>
      obtain ⟨m, rfl⟩ : ∃ m, n = m + 1 := ⟨n - 1, by have := hk.2; omega⟩
      exact h.reductionBalance hk.1 hn hr
    | import_export_mitigation_cost_balance => exact h.balance hk hn hr
    | financial_transfer => exact h.pool hk hn hr
    | rel_financial_transfer => exact h.relTransfer hk hn hr
    | capital_stock => exact h.capital hr hn
    | GDP_gross => exact h.gross hn hr
    | GDP_net => exact h.net hn hr
    | investments => exact h.investments hn hr
    | consumption => exact h.consumption hn hr
    | utility => exact h.utility hn hr
  · refine (Bd.const 0).congr fun σ _ => ?_
    simp only [clip]; rw [if_neg hk]

/-- The clipped solutions are the solutions in a compact set. -/
theorem exists_compact : ∃ K : Set Env, IsCompact K ∧ ∀ σ, Solution md p σ → clip md p σ ∈ K := by
  choose Bg hBg using h.global
  choose Br hBr using h.regional
  refine ⟨(fun σ : Env => (σ.g, σ.r)) ⁻¹' (Set.univ.pi fun v => Set.univ.pi fun t => Set.Icc (-Bg v t) (Bg v t)) ×ˢ
    (Set.univ.pi fun v => Set.univ.pi fun t => Set.univ.pi fun r => Set.Icc (-Br v t r) (Br v t r)), ?_, ?_⟩
  · rw [Env.isInducing.isCompact_iff, Set.image_preimage_eq_of_subset]
    · exact (isCompact_univ_pi fun v => isCompact_univ_pi fun t => isCompact_Icc).prod
        (isCompact_univ_pi fun v => isCompact_univ_pi fun t => isCompact_univ_pi fun r => isCompact_Icc)
    · rintro ⟨a, b⟩ _; exact ⟨⟨a, b⟩, rfl⟩
  · intro σ hσ
    simp only [Set.mem_preimage, Set.mem_prod, Set.mem_univ_pi, Set.mem_Icc]
    exact ⟨fun v t => abs_le.1 (hBg v t σ hσ), fun v t r => abs_le.1 (hBr v t r σ hσ)⟩

/-- If there is a solution, there is an optimal one. -/
theorem optimum (hex : ∃ σ, Solution md p σ) : ∃ σ, Optimal md p σ := by
  obtain ⟨K, hK, hmem⟩ := h.exists_compact
  obtain ⟨σ₀, hσ₀⟩ := hex
  have hcl := solution_closed h.adm h.forms
  have hcomp : IsCompact (K ∩ {σ | Solution md p σ}) := hK.inter_right hcl
  have hne : (K ∩ {σ | Solution md p σ}).Nonempty := ⟨clip md p σ₀, hmem σ₀ hσ₀, clip_solution hσ₀⟩
  have hc : Continuous fun σ : Env => σ.g .NPV p.tf := by fun_prop
  have hclip : ∀ σ, (clip md p σ).g .NPV p.tf = σ.g .NPV p.tf := fun σ => clip_G (t := p.tf) le_rfl trivial
  cases ho : md.objective with
  | utility =>
    obtain ⟨σ, hσ, hmax⟩ := hcomp.exists_isMaxOn hne hc.continuousOn
    refine ⟨σ, hσ.2, fun τ hτ => ?_⟩
    have := hmax ⟨hmem τ hτ, clip_solution hτ⟩
    simp only [Set.mem_setOf_eq, hclip] at this
    simpa [ho, Objective.sense, Objective.objectiveExpr] using this
  | globalcosts =>
    obtain ⟨σ, hσ, hmin⟩ := hcomp.exists_isMinOn hne hc.continuousOn
    refine ⟨σ, hσ.2, fun τ hτ => ?_⟩
    have := hmin ⟨hmem τ hτ, clip_solution hτ⟩
    simp only [Set.mem_setOf_eq, hclip] at this
    simpa [ho, Objective.sense, Objective.objectiveExpr] using this
end BaseBd

end Mimosa
