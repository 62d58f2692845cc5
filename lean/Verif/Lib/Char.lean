import Verif.Lib.Build

/-! # A characterisation of solutions and some consequences -/

set_option linter.unusedSimpArgs false

namespace Mimosa
open AbstractModel

variable {md : Modules} {p : Params} {σ : Env}

/-- The conditions under which creating the instance does not raise (see `scope_all`). -/
structure InstanceOk (md : Modules) (p : Params) : Prop where
  init : p.InitOk
  overshoot : p.budget ≠ none → p.perc_reversible_damages < 1 → ∀ t ≤ p.tf, p.year t < 2100
  index : p.non_increasing_emissions_after_2100 = true → p.year (-1) ≤ 2100
  forms : md.damage = .COACCH → ∀ r ∈ p.regions, KnownForm p.noslr r ∧ KnownForm p.slr r
  allowances : p.effort_sharing_regime = "per_cap_convergence" → md.trade = .emissiontrade ∨ p.tf = 0

theorem Solution.regions_ne (h : Solution md p σ) : p.regions ≠ [] := by
  intro hr
  have := (h.eqs.mitigation.global_rel 0 (Nat.zero_le _)).1
  simp [Params.sumR, hr] at this

theorem Solution.trade_ne (h : Solution md p σ) : md.trade ≠ .globalcostpool := by
  obtain ⟨c, hc, m, hm, _⟩ := solution_iff.1 h
  exact (buildModel_isOk hc md).1 ⟨m, hm⟩

theorem solution_char : Solution md p σ ↔ md.trade ≠ .globalcostpool ∧ p.regions ≠ [] ∧
    InstanceOk md p ∧ (∀ d ∈ allVars md, d.BoundsOk p σ) ∧ AllEqs p σ md := by
  constructor
  · intro h
    refine ⟨h.trade_ne, h.regions_ne, ?_, h.bounds, h.eqs⟩
    obtain ⟨c, hc, m, hm, hi, _⟩ := solution_iff.1 h
    rw [createInstance_isOk_iff p hm, scope_all h.regions_ne h.trade_ne] at hi
    obtain ⟨h1, h2, h3, h4, h5⟩ := hi
    exact ⟨h1, h2, h3, h4, h5⟩
  · rintro ⟨htr, hr, ⟨h1, h2, h3, h4, h5⟩, hb, he⟩
    rw [solution_iff]
    have hcount : StrictMono (fun n : ℕ => n) := fun _ _ h => h
    obtain ⟨m, hm⟩ := (buildModel_isOk hcount md).2 htr
    refine ⟨fun n => n, hcount, m, hm, ?_, hb, (allEqs_iff p σ md).2 he⟩
    rw [createInstance_isOk_iff p hm, scope_all hr htr]
    exact ⟨h1, h2, h3, h4, h5⟩

theorem Solution.instOk (h : Solution md p σ) : InstanceOk md p := (solution_char.1 h).2.2.1

/-! ## Variable bounds of a solution -/

theorem mem_allVars_emissions {d : VarDecl} (h : d ∈ Emissions.component.vars) : d ∈ allVars md := by
  simp only [allVars, components, List.flatMap_cons, List.mem_append]; exact Or.inl h
theorem mem_allVars_slr {d : VarDecl} (h : d ∈ SeaLevelRise.component.vars) : d ∈ allVars md := by
  simp only [allVars, components, List.flatMap_cons, List.mem_append]; exact Or.inr (Or.inl h)
theorem mem_allVars_damage {d : VarDecl} (h : d ∈ (damageComponent md.damage).vars) :
    d ∈ allVars md := by
  simp only [allVars, components, List.flatMap_cons, List.mem_append]; exact Or.inr (Or.inr (Or.inl h))
theorem mem_allVars_mitigation {d : VarDecl} (h : d ∈ (Mitigation.component md.trade).vars) :
    d ∈ allVars md := by
  simp only [allVars, components, List.flatMap_cons, List.mem_append]
  exact Or.inr (Or.inr (Or.inr (Or.inl h)))

namespace Solution
variable (h : Solution md p σ)
include h

theorem abatement_bounds {t : ℕ} (ht : t ≤ p.tf) {r : String} (hr : r ∈ p.regions) :
    0 ≤ σ.R .relative_abatement t r ∧ σ.R .relative_abatement t r ≤ 5 / 2 := by
  have := h.bounds (.regional .relative_abatement (fun _ => some 0) (fun _ => some (5 / 2)))
    (mem_allVars_emissions (by simp [Emissions.component])) t ht r hr
  simpa using this

theorem price_bounds {t : ℕ} (ht : t ≤ p.tf) {r : String} (hr : r ∈ p.regions) :
    0 ≤ σ.R .carbonprice t r ∧ σ.R .carbonprice t r ≤ 2 * p.MAC_gamma := by
  have := h.bounds (.regional .carbonprice (fun _ => some 0) (fun p => some (2 * p.MAC_gamma)))
    (mem_allVars_mitigation (by simp [Mitigation.component])) t ht r hr
  simpa using this

theorem slr_nonneg {t : ℕ} (ht : t ≤ p.tf) : 0 ≤ σ.G .slr_thermal t ∧ 0 ≤ σ.G .slr_cumgsic t ∧
    0 ≤ σ.G .slr_cumgis t ∧ 0 ≤ σ.G .total_SLR t := by
  have h1 := h.bounds (.global .slr_thermal (fun _ => some 0) noBound)
    (mem_allVars_slr (by simp [SeaLevelRise.component])) t ht
  have h2 := h.bounds (.global .slr_cumgsic (fun _ => some 0) noBound)
    (mem_allVars_slr (by simp [SeaLevelRise.component])) t ht
  have h3 := h.bounds (.global .slr_cumgis (fun _ => some 0) noBound)
    (mem_allVars_slr (by simp [SeaLevelRise.component])) t ht
  have h4 := h.bounds (.global .total_SLR (fun _ => some 0) noBound)
    (mem_allVars_slr (by simp [SeaLevelRise.component])) t ht
  simp at h1 h2 h3 h4
  exact ⟨h1.1, h2.1, h3.1, h4.1⟩

theorem slr_damage_bounds (hd : md.damage = .COACCH) {t : ℕ} (ht : t ≤ p.tf) {r : String}
    (hr : r ∈ p.regions) :
    -1 / 2 ≤ σ.R .damage_costs_slr t r ∧ σ.R .damage_costs_slr t r ≤ 7 / 10 := by
  have := h.bounds (.regional .damage_costs_slr (fun _ => some (-1 / 2)) (fun _ => some (7 / 10)))
    (mem_allVars_damage (by simp [hd, damageComponent, Damages.coacch])) t ht r hr
  simpa using this
end Solution

/-! ## Sums over regions -/

section sums
variable {f g : String → ℝ}

theorem sumR_le (h : ∀ r ∈ p.regions, f r ≤ g r) : p.sumR f ≤ p.sumR g := by
  unfold Params.sumR
  generalize p.regions = L at *
  induction L with
  | nil => simp
  | cons a L ih =>
    simp only [List.map_cons, List.sum_cons]
    have := ih fun r hr => h r (by simp [hr])
    linarith [h a (by simp)]

theorem sumR_add : p.sumR (fun r => f r + g r) = p.sumR f + p.sumR g := by
  unfold Params.sumR
  induction p.regions with
  | nil => simp
  | cons a L ih => simp only [List.map_cons, List.sum_cons, ih]; ring
theorem sumR_sub : p.sumR (fun r => f r - g r) = p.sumR f - p.sumR g := by
  unfold Params.sumR
  induction p.regions with
  | nil => simp
  | cons a L ih => simp only [List.map_cons, List.sum_cons, ih]; ring
theorem sumR_mul_left (c : ℝ) : p.sumR (fun r => c * f r) = c * p.sumR f := by
  unfold Params.sumR
  induction p.regions with
  | nil => simp
  | cons a L ih => simp only [List.map_cons, List.sum_cons, ih]; ring
theorem sumR_div (c : ℝ) : p.sumR (fun r => f r / c) = p.sumR f / c := by
  simp only [div_eq_inv_mul]; exact sumR_mul_left _
theorem sumR_zero : p.sumR (fun _ => 0) = 0 := by
  unfold Params.sumR; simp
theorem sumR_nonneg (h : ∀ r ∈ p.regions, 0 ≤ f r) : 0 ≤ p.sumR f := by
  have := sumR_le (p := p) (f := fun _ => 0) h
  rwa [sumR_zero] at this
theorem le_sumR (h : ∀ r ∈ p.regions, 0 ≤ f r) {r : String} (hr : r ∈ p.regions) : f r ≤ p.sumR f := by
  unfold Params.sumR
  generalize p.regions = L at *
  induction L with
  | nil => simp at hr
  | cons a L ih =>
    simp only [List.map_cons, List.sum_cons]
    have hs : 0 ≤ (L.map f).sum := List.sum_nonneg (by simpa using fun r hr => h r (by simp [hr]))
    rcases List.mem_cons.1 hr with rfl | hr
    · linarith
    · linarith [ih (fun r hr => h r (by simp [hr])) hr, h a (by simp)]
theorem sumR_lt (h : ∀ r ∈ p.regions, f r ≤ g r) (h2 : ∃ r ∈ p.regions, f r < g r) :
    p.sumR f < p.sumR g := by
  obtain ⟨r, hr, hlt⟩ := h2
  have h3 := le_sumR (p := p) (f := fun r => g r - f r) (fun r hr => by linarith [h r hr]) hr
  rw [sumR_sub] at h3
  linarith
end sums

end Mimosa
