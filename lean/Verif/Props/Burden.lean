import Verif.Props.Effort
import Verif.Props.Initial
import Verif.Lib.Bounded

/-!
# C91: what the effort-sharing regimes mean for the regions

With equal mitigation costs each region bears the part of the world's costs that is its part of the world's product, and
no region can abate unless all do.  With equal total costs every region loses the same part of its product, and none
gains.  With per-capita convergence the trade volumes are given: who emits more than its allocation pays.
-/

namespace Mimosa
variable {md : Modules} {p : Params} {σ : Env}

private theorem cross {x y a b k : ℝ} (ha : 0 < a) (hb : 0 < b) (h : x / a ≤ k * (y / b)) : x * b ≤ k * (a * y) := by
  rw [div_le_iff₀ ha] at h
  have := mul_le_mul_of_nonneg_right h hb.le
  have e : k * (y / b) * a * b = k * (a * y) := by field_simp
  linarith

/-- **C91.** Equal mitigation costs: the part of the world's mitigation costs that a region bears is its part of the
world's gross product, up to the factor 1.005/0.995. -/
theorem C91_costs_follow_gdp (hadm : p.Admissible) (h : Solution md p σ)
    (hg : p.effort_sharing_regime = "equal_mitigation_costs") {t : ℕ} (ht : t ≤ p.tf) {r : String} (hr : r ∈ p.regions) :
    let part := fun v => σ.R v t r / (p.regions.map fun s => σ.R v t s).sum
    0 < (p.regions.map fun s => σ.R .mitigation_costs t s).sum →
    part .mitigation_costs ≤ 1.005 / 0.995 * part .GDP_gross ∧ part .GDP_gross ≤ 1.005 / 0.995 * part .mitigation_costs := by
  intro part hM
  have hG : 0 < (p.regions.map fun s => σ.R .GDP_gross t s).sum := sumR_pos h.regions_ne fun s hs => h.gross_pos hadm ht hs
  have key : ∀ r ∈ p.regions, ∀ s ∈ p.regions, σ.R .mitigation_costs t r * σ.R .GDP_gross t s ≤
      1.005 / 0.995 * (σ.R .GDP_gross t r * σ.R .mitigation_costs t s) := by
    intro r hr s hs
    have := (C42_equal_mitigation_costs h hg ht hr hs).2.2
    rw [(h.eqs.mitigation.rel_costs t ht r hr).2, (h.eqs.mitigation.rel_costs t ht s hs).2] at this
    exact cross (h.gross_pos hadm ht hr) (h.gross_pos hadm ht hs) this
  have i1 := sumR_le (p := p) fun s hs => key r hr s hs
  have i2 := sumR_le (p := p) fun s hs => key s hs r hr
  have e1 : p.sumR (fun s => σ.R .mitigation_costs t r * σ.R .GDP_gross t s) =
      σ.R .mitigation_costs t r * (p.regions.map fun s => σ.R .GDP_gross t s).sum := sumR_mul_left _
  have e2 : p.sumR (fun s => 1.005 / 0.995 * (σ.R .GDP_gross t r * σ.R .mitigation_costs t s)) =
      1.005 / 0.995 * (σ.R .GDP_gross t r * (p.regions.map fun s => σ.R .mitigation_costs t s).sum) := by
    rw [sumR_mul_left, sumR_mul_left]; rfl
  have e3 : p.sumR (fun s => σ.R .mitigation_costs t s * σ.R .GDP_gross t r) =
      (p.regions.map fun s => σ.R .mitigation_costs t s).sum * σ.R .GDP_gross t r := by
    rw [mul_comm, ← show p.sumR (fun s => σ.R .GDP_gross t r * σ.R .mitigation_costs t s) =
      σ.R .GDP_gross t r * (p.regions.map fun s => σ.R .mitigation_costs t s).sum from sumR_mul_left _]
    exact sumR_congr fun s _ => mul_comm _ _
  have e4 : p.sumR (fun s => 1.005 / 0.995 * (σ.R .GDP_gross t s * σ.R .mitigation_costs t r)) =
      1.005 / 0.995 * (σ.R .mitigation_costs t r * (p.regions.map fun s => σ.R .GDP_gross t s).sum) := by
    rw [sumR_mul_left, ← show p.sumR (fun s => σ.R .mitigation_costs t r * σ.R .GDP_gross t s) = _ from e1]
    exact congrArg _ (sumR_congr fun s _ => mul_comm _ _)
  rw [e1, e2] at i1
  rw [e3, e4] at i2
  constructor
  · rw [div_le_iff₀ hM, ← mul_div_assoc, div_mul_eq_mul_div, le_div_iff₀ hG]
    linarith
  · rw [div_le_iff₀ hG, ← mul_div_assoc, div_mul_eq_mul_div, le_div_iff₀ hM]
    linarith

/-- **C91.** … so in every year either no region has mitigation costs, or all regions have. -/
theorem C91_all_or_none (hadm : p.Admissible) (h : Solution md p σ)
    (hg : p.effort_sharing_regime = "equal_mitigation_costs") {t : ℕ} (ht : t ≤ p.tf) :
    (∀ r ∈ p.regions, σ.R .mitigation_costs t r = 0) ∨ ∀ r ∈ p.regions, 0 < σ.R .mitigation_costs t r := by
  have e : ∀ r ∈ p.regions, σ.R .mitigation_costs t r = σ.R .rel_mitigation_costs t r * σ.R .GDP_gross t r := by
    intro r hr
    have := h.eqs.mitigation.rel_costs t ht r hr
    rw [this.2, div_mul_cancel₀ _ this.1]
  by_cases hx : ∃ r ∈ p.regions, σ.R .mitigation_costs t r ≠ 0
  · obtain ⟨r, hr, hne⟩ := hx
    right
    intro s hs
    have w := C42_equal_mitigation_costs h hg ht hr hs
    have hpos : 0 < σ.R .rel_mitigation_costs t r := by
      refine lt_of_le_of_ne w.1 fun k => hne ?_
      rw [e r hr, ← k, zero_mul]
    rw [e s hs]
    refine mul_pos ?_ (h.gross_pos hadm ht hs)
    have := w.2.2
    by_contra hc
    have : σ.R .rel_mitigation_costs t s = 0 := le_antisymm (not_lt.1 hc) w.2.1
    rw [this] at w
    linarith [w.2.2]
  · left
    intro r hr
    by_contra hc
    exact hx ⟨r, hr, hc⟩

/-- **C91.** … and without emission trade no region abates unless all regions have emissions and abate. -/
theorem C91_all_abate (hadm : p.Admissible) (h : Solution md p σ)
    (hg : p.effort_sharing_regime = "equal_mitigation_costs") (htr : md.trade = .notrade) (hm : Spec.MacData p)
    {t : ℕ} (ht : t ≤ p.tf) {r : String} (hr : r ∈ p.regions) (ha : 0 < σ.R .relative_abatement t r)
    (hb : 0 < σ.R .baseline t r) {s : String} (hs : s ∈ p.regions) :
    0 < σ.R .relative_abatement t s ∧ 0 < σ.R .baseline t s ∧ 0 < σ.R .mitigation_costs t s := by
  have cost : ∀ r ∈ p.regions, σ.R .mitigation_costs t r = acVal p σ t r * σ.R .baseline t r := fun r hr => by
    rw [C33_costs_notrade h htr ht hr, (h.eqs.mitigation.area t ht r hr).2]
  have l := (C31_positive h hm.lot ht).2.2
  have b1 : 0 < p.MAC_beta + 1 := by linarith [hm.beta_pos]
  have pr : 0 < σ.R .mitigation_costs t r := by
    rw [cost r hr, acVal]
    have := Real.rpow_pos_of_pos ha (p.MAC_beta + 1)
    have := hm.scaling_pos r hr
    have := hm.gamma_pos
    positivity
  have ps : 0 < σ.R .mitigation_costs t s := by
    rcases C91_all_or_none hadm h hg ht with k | k
    · exact absurd (k r hr) pr.ne'
    · exact k s hs
  have hac : 0 ≤ acVal p σ t s := by
    rw [acVal]
    have := Real.rpow_nonneg (h.abatement_bounds ht hs).1 (p.MAC_beta + 1)
    have := hm.scaling_pos s hs
    have := hm.gamma_pos
    positivity
  have hp := ps
  rw [cost s hs] at hp
  refine ⟨?_, pos_of_mul_pos_right hp hac, ps⟩
  refine lt_of_le_of_ne (h.abatement_bounds ht hs).1 fun k => ?_
  rw [acVal, ← k, Real.zero_rpow b1.ne'] at hp
  simp at hp

/-- The part of its gross product that a region loses to mitigation, damages and transfers. -/
noncomputable def Spec.lossOf (σ : Env) (t : ℕ) (r : String) : ℝ :=
  (σ.R .GDP_gross t r - σ.R .GDP_net t r) / σ.R .GDP_gross t r

theorem totalCosts_eq_loss (h : Solution md p σ) (hi : p.ignore_damages = false) {t : ℕ} (ht : t ≤ p.tf) {r : String}
    (hr : r ∈ p.regions) : Spec.totalCosts md σ t r = Spec.lossOf σ t r := by
  have hne := (h.eqs.mitigation.rel_costs t ht r hr).1
  unfold Spec.totalCosts Spec.lossOf
  rw [(h.eqs.mitigation.rel_costs t ht r hr).2]
  cases htr : md.transfer with
  | notransfer => rw [(C36_net h ht hr hi).1 htr]; simp only; field_simp; ring
  | globaldamagepool => rw [(C36_net h ht hr hi).2 htr, C35_relative h htr ht hr]; simp only; field_simp; ring

/-- **C91.** Equal total costs: up to 2100 any two regions lose the same part of their product, up to the factor
1.005/0.995, and no region ends with more than its gross product. -/
theorem C91_equal_loss (hadm : p.Admissible) (h : Solution md p σ) (hg : p.effort_sharing_regime = "equal_total_costs")
    (hi : p.ignore_damages = false) {t : ℕ} (ht : t ≤ p.tf) (hy : p.year t ≤ 2100) {r s : String} (hr : r ∈ p.regions)
    (hs : s ∈ p.regions) :
    Spec.WithinTolerance (Spec.lossOf σ t r) (Spec.lossOf σ t s) ∧ σ.R .GDP_net t r ≤ σ.R .GDP_gross t r := by
  have w := C42_equal_total_costs h hg ht hy hr hs
  rw [totalCosts_eq_loss h hi ht hr, totalCosts_eq_loss h hi ht hs] at w
  refine ⟨w, ?_⟩
  have := w.1
  unfold Spec.lossOf at this
  have g := h.gross_pos hadm ht hr
  rw [le_div_iff₀ g] at this
  linarith

/-- What damages and transfers alone cost a region, relative to its gross product. -/
noncomputable def Spec.withoutMitigation (md : Modules) (σ : Env) (t : ℕ) (r : String) : ℝ :=
  match md.transfer with
  | .notransfer => σ.R .damage_costs t r
  | .globaldamagepool => σ.R .damage_costs t r + σ.R .rel_financial_transfer t r

/-- **C91.** … so a region that gains from warming must spend its gain on mitigation (or lose it in transfers), and if
mitigation costs cannot be negative every region loses at least 0.99 times what the region hit hardest loses. -/
theorem C91_no_gain (h : Solution md p σ) (hg : p.effort_sharing_regime = "equal_total_costs") {t : ℕ} (ht : t ≤ p.tf)
    (hy : p.year t ≤ 2100) {r : String} (hr : r ∈ p.regions) :
    -Spec.withoutMitigation md σ t r ≤ σ.R .rel_mitigation_costs t r ∧
    (0 ≤ p.rel_mitigation_costs_min_level → ∀ s ∈ p.regions,
      0.995 / 1.005 * Spec.withoutMitigation md σ t s ≤
        σ.R .rel_mitigation_costs t r + Spec.withoutMitigation md σ t r) := by
  have tot : ∀ s, Spec.totalCosts md σ t s = σ.R .rel_mitigation_costs t s + Spec.withoutMitigation md σ t s := by
    intro s; unfold Spec.totalCosts Spec.withoutMitigation; cases md.transfer <;> simp; ring
  refine ⟨?_, fun hmin s hs => ?_⟩
  · have := (C42_equal_total_costs h hg ht hy hr hr).1
    rw [tot] at this
    linarith
  · have w := (C42_equal_total_costs h hg ht hy hs hr).2.2
    rw [tot, tot] at w
    have m : 0 ≤ σ.R .rel_mitigation_costs t s := by
      have := h.eqs.mitigation.rel_costs_min t ht s hs
      split at this
      · exact hmin.trans this
      · exact this
    linarith

/-- **C91.** Per-capita convergence: from the convergence year on every region buys, up to 0.001, exactly the emissions that
exceed its share by population of the world's emissions; a region emitting more pays, one emitting less is paid. -/
theorem C91_excess_is_bought (h : Solution md p σ) (hg : p.effort_sharing_regime = "per_cap_convergence")
    (htr : md.trade = .emissiontrade) {c : ℝ} (hc : p.percapconv_year = some c) (h0 : p.year 0 < c) {t : ℕ}
    (ht : t ≤ p.tf) (hy : c ≤ p.year t) {r : String} (hr : r ∈ p.regions) :
    let fair := p.population t r / (p.regions.map fun s => p.population t s).sum * σ.G .global_emissions t
    |σ.R .import_export_emission_reduction_balance t r - (σ.R .regional_emissions t r - fair)| ≤ 0.001 ∧
    (fair + 0.001 < σ.R .regional_emissions t r → 0 < σ.R .import_export_mitigation_cost_balance t r) ∧
    (σ.R .regional_emissions t r < fair - 0.001 → σ.R .import_export_mitigation_cost_balance t r < 0) := by
  intro fair
  have ht0 : 0 < t := by
    rcases Nat.eq_zero_or_pos t with rfl | k
    · simp at hy; linarith
    · exact k
  have al := C43_allowances h hg ht ht0 hr
  rw [((C43_interpolation hc h0 t r).2.1 hy), (C34_allowances h htr ht ht0 hr).2.2] at al
  have al' : |σ.R .regional_emissions t r - σ.R .import_export_emission_reduction_balance t r - fair| ≤ 0.001 := al
  rw [abs_le] at al'
  obtain ⟨hiff, price, hp, _, _, hprice⟩ := C34_payment h htr ht ht0 hr
  refine ⟨by rw [abs_le]; constructor <;> linarith [al'.1, al'.2], fun k => ?_, fun k => ?_⟩
  · rw [hprice]; exact mul_pos hp (by linarith [al'.2])
  · rw [hprice]; exact mul_neg_of_pos_of_neg hp (by linarith [al'.1])

/-! ## Witnesses -/

namespace Ex

/-- With equal mitigation costs both regions have costs in 2060 … -/
theorem both_bear : let σ := xMit.env m0 (ex "equal_mitigation_costs" 0 none)
    (0 < σ.R .mitigation_costs 1 "A" ∧ 0 < σ.R .mitigation_costs 1 "B") ∧
    0 < σ.R .relative_abatement 1 "B" := by
  intro σ
  have hadm := admissible (regime := "equal_mitigation_costs") (conv := none) (al := 0) le_rfl one_pos
  have hm : Spec.MacData (ex "equal_mitigation_costs" 0 none) := ⟨by norm_num [ex], by norm_num [ex], by simp [ex], by norm_num [ex]⟩
  have ha : 0 < σ.R .relative_abatement 1 "A" := by show 0 < aPath 1; norm_num [aPath]
  have hb : 0 < σ.R .baseline 1 "A" := by
    rw [(C23_baseline solMit (t := 1) (by norm_num [ex]) (r := "A") (by simp [ex])).1 rfl]; norm_num [ex]
  have k := fun {s} (hs : s ∈ (ex "equal_mitigation_costs" 0 none).regions) =>
    C91_all_abate hadm solMit rfl rfl hm (t := 1) (by norm_num [ex]) (r := "A") (by simp [ex]) ha hb hs
  have kA := k (s := "A") (by simp [ex])
  have kB := k (s := "B") (by simp [ex])
  exact ⟨⟨kA.2.2, kB.2.2⟩, kB.1⟩

/-- … each of them, as they have the same product, nearly half of the world's. -/
example : let σ := xMit.env m0 (ex "equal_mitigation_costs" 0 none)
    σ.R .mitigation_costs 1 "A" / (["A", "B"].map fun s => σ.R .mitigation_costs 1 s).sum ≤
      1.005 / 0.995 * (σ.R .GDP_gross 1 "A" / (["A", "B"].map fun s => σ.R .GDP_gross 1 s).sum) := by
  intro σ
  refine (C91_costs_follow_gdp (admissible le_rfl one_pos) solMit rfl (t := 1) (by norm_num [ex]) (r := "A") (by simp [ex]) ?_).1
  have k := both_bear.1
  show 0 < (["A", "B"].map fun s => σ.R .mitigation_costs 1 s).sum
  simp only [List.map_cons, List.map_nil, List.sum_cons, List.sum_nil]
  linarith [k.1, k.2]

/-- With equal total costs and the damage pool, both regions lose the same part of their product. -/
example : let σ := xPool.env mdPool pTot
    Spec.WithinTolerance (Spec.lossOf σ 1 "A") (Spec.lossOf σ 1 "B") ∧ σ.R .GDP_net 1 "A" ≤ σ.R .GDP_gross 1 "A" :=
  C91_equal_loss (admissible le_rfl one_pos) solPool rfl rfl (by decide) (by simp [Params.year, ex]; norm_num)
    (by simp [ex]) (by simp [ex])

/-- Region A bears at least 0.99 times what damages and transfers cost region B. -/
example : 0.995 / 1.005 * Spec.withoutMitigation mdPool (xPool.env mdPool pTot) 1 "B" ≤
    (xPool.env mdPool pTot).R .rel_mitigation_costs 1 "A" + Spec.withoutMitigation mdPool (xPool.env mdPool pTot) 1 "A" :=
  (C91_no_gain solPool rfl (by decide) (by simp [Params.year, ex]; norm_num) (by simp [ex])).2 (by norm_num [ex]) "B" (by simp [ex])

/-- With per-capita convergence in 2050 the regions, alike in all respects, buy at most 0.001. -/
example : |(xCap.env mdCap pCap).R .import_export_emission_reduction_balance 1 "A" -
    ((xCap.env mdCap pCap).R .regional_emissions 1 "A" -
      pCap.population 1 "A" / (pCap.regions.map fun s => pCap.population 1 s).sum *
        (xCap.env mdCap pCap).G .global_emissions 1)| ≤ 0.001 :=
  (C91_excess_is_bought solCap rfl rfl (c := 2050) rfl (by norm_num [ex, Params.year]) (t := 1) (by norm_num [ex])
    (by norm_num [ex, Params.year]) (r := "A") (by simp [ex])).1

end Ex
end Mimosa
