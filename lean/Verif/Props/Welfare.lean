import Verif.Props.Economy
import Verif.Lib.Concave
import Mathlib.Analysis.Convex.Jensen

/-!
# Welfare and objective: C44 and C45
-/

namespace Mimosa
variable {md : Modules} {p : Params} {σ τ : Env}

/-! ## C44 -/

/-- Isoelastic utility `(x^(1-e) - 1) / (1-e)` of the (softly bounded below) consumption per person. -/
noncomputable def Spec.utility (e x : ℝ) : ℝ := (soft_min x 1 ^ (1 - e) - 1) / (1 - e)

theorem pow_div_strictMono {k : ℝ} (hk : k ≠ 0) {x y : ℝ} (hx : 0 < x) (hxy : x < y) :
    x ^ k / k < y ^ k / k := by
  rcases lt_or_gt_of_ne hk with h | h
  · rw [div_lt_div_right_of_neg h]; exact Real.rpow_lt_rpow_of_neg hx hxy h
  · rw [div_lt_div_iff_of_pos_right h]; exact Real.rpow_lt_rpow hx.le hxy h

theorem pow_div_mono {k : ℝ} (hk : k ≠ 0) {x y : ℝ} (hx : 0 < x) (hxy : x ≤ y) :
    x ^ k / k ≤ y ^ k / k := by
  rcases hxy.eq_or_lt with h | h
  · rw [h]
  · exact (pow_div_strictMono hk hx h).le

/-- Utility strictly increases with consumption, for every elasticity other than 1. -/
theorem C44_utility_strictMono {e : ℝ} (he : e ≠ 1) : StrictMono (Spec.utility e) := by
  intro x y hxy
  have h1 := soft_min_strictMono one_pos hxy
  have h2 := pow_div_strictMono (k := 1 - e) (by intro h; apply he; linarith) (soft_min_pos_one x) h1
  simp only [Spec.utility, sub_div]
  linarith
example := C44_utility_strictMono (e := 3 / 2) (by norm_num)

theorem welfare_lt {m : WelfareModule} (hne : p.regions ≠ []) (w : WelfareEqs p σ m) (w' : WelfareEqs p τ m) {t : ℕ}
    (ht : t ≤ p.tf) (hpop : ∀ r ∈ p.regions, 0 < p.population t r)
    (hle : ∀ r ∈ p.regions, σ.R .consumption t r ≤ τ.R .consumption t r)
    (hlt : ∃ r ∈ p.regions, σ.R .consumption t r < τ.R .consumption t r) :
    σ.G .yearly_welfare t < τ.G .yearly_welfare t := by
  have hL : 0 < p.sumR (fun r => p.population t r) := sumR_pos hne hpop
  cases m with
  | welfare_loss_minimising =>
    obtain ⟨u, y⟩ := w
    obtain ⟨u', y'⟩ := w'
    rw [y t ht, y' t ht]
    have he : p.elasmu ≠ 1 := by
      obtain ⟨r, hr, _⟩ := hlt
      intro h; exact (u t ht r hr).2.1 (by linarith)
    apply sumR_lt
    · intro r hr
      rw [(u t ht r hr).2.2, (u' t ht r hr).2.2]
      apply mul_le_mul_of_nonneg_left _ (hpop r hr).le
      exact (C44_utility_strictMono he).monotone ((div_le_div_iff_of_pos_right (hpop r hr)).2 (hle r hr))
    · obtain ⟨r, hr, hc⟩ := hlt
      refine ⟨r, hr, ?_⟩
      rw [(u t ht r hr).2.2, (u' t ht r hr).2.2]
      apply mul_lt_mul_of_pos_left _ (hpop r hr)
      exact C44_utility_strictMono he ((div_lt_div_iff_of_pos_right (hpop r hr)).2 hc)
  | cost_minimising =>
    obtain ⟨_, h1, y⟩ := w.2 t ht
    obtain ⟨_, _, y'⟩ := w'.2 t ht
    rw [y, y']
    apply mul_lt_mul_of_pos_left _ hL
    apply C44_utility_strictMono (e := p.elasmu) (by intro h; apply h1; linarith)
    rw [div_lt_div_iff_of_pos_right hL]
    exact sumR_lt hle hlt
  | inequal_aversion_general =>
    obtain ⟨u, y⟩ := w
    obtain ⟨u', y'⟩ := w'
    obtain ⟨_, hi, he, y⟩ := y t ht
    obtain ⟨_, _, _, y'⟩ := y' t ht
    rw [y, y']
    apply mul_lt_mul_of_pos_left _ hL
    -- the mean of regional utilities divided by `1 - i` increases
    have e0 : ∀ z : Env, p.sumR (fun r => z.R .utility t r / (1 - p.inequal_aversion)) =
        p.sumR (fun r => z.R .utility t r) / (1 - p.inequal_aversion) := fun z => sumR_div _
    have key : p.sumR (fun r => σ.R .utility t r) / (1 - p.inequal_aversion) <
        p.sumR (fun r => τ.R .utility t r) / (1 - p.inequal_aversion) := by
      rw [← e0, ← e0]
      apply sumR_lt
      · intro r hr
        rw [(u t ht r hr).2, (u' t ht r hr).2, mul_div_assoc, mul_div_assoc]
        apply mul_le_mul_of_nonneg_left _ (hpop r hr).le
        exact pow_div_mono hi (soft_min_pos_one _) ((soft_min_strictMono one_pos).monotone
          ((div_le_div_iff_of_pos_right (hpop r hr)).2 (hle r hr)))
      · obtain ⟨r, hr, hc⟩ := hlt
        refine ⟨r, hr, ?_⟩
        rw [(u t ht r hr).2, (u' t ht r hr).2, mul_div_assoc, mul_div_assoc]
        apply mul_lt_mul_of_pos_left _ (hpop r hr)
        exact pow_div_strictMono hi (soft_min_pos_one _) (soft_min_strictMono one_pos
          ((div_lt_div_iff_of_pos_right (hpop r hr)).2 hc))
    set S := p.sumR (fun r => σ.R .utility t r)
    set S' := p.sumR (fun r => τ.R .utility t r)
    set i := 1 - p.inequal_aversion
    set e := 1 - p.elasmu
    have hk : e / i ≠ 0 := div_ne_zero he hi
    have e1 : ∀ z : ℝ, z ^ (e / i) / e = z ^ (e / i) / (e / i) / i := by
      intro z; field_simp
    rw [e1, e1]
    rcases lt_or_gt_of_ne hi with h0 | h0
    · have : S' < S := by rwa [div_lt_div_right_of_neg h0] at key
      rw [div_lt_div_right_of_neg h0]
      exact pow_div_strictMono hk (soft_min_pos_one _) (soft_min_strictMono one_pos
        ((div_lt_div_iff_of_pos_right hL).2 this))
    · have : S < S' := by rwa [div_lt_div_iff_of_pos_right h0] at key
      rw [div_lt_div_iff_of_pos_right h0]
      exact pow_div_strictMono hk (soft_min_pos_one _) (soft_min_strictMono one_pos
        ((div_lt_div_iff_of_pos_right hL).2 this))

/-- In all three welfare modules: if no region consumes less and one region consumes more, the yearly
welfare is strictly higher. -/
theorem C44_more_consumption_more_welfare (h : Solution md p σ) (h' : Solution md p τ) {t : ℕ}
    (ht : t ≤ p.tf) (hpop : ∀ r ∈ p.regions, 0 < p.population t r)
    (hle : ∀ r ∈ p.regions, σ.R .consumption t r ≤ τ.R .consumption t r)
    (hlt : ∃ r ∈ p.regions, σ.R .consumption t r < τ.R .consumption t r) :
    σ.G .yearly_welfare t < τ.G .yearly_welfare t :=
  welfare_lt h.regions_ne h.eqs.welfare h'.eqs.welfare ht hpop hle hlt

theorem welfare_eq {m : WelfareModule} (w : WelfareEqs p σ m) (w' : WelfareEqs p τ m) {t : ℕ}
    (ht : t ≤ p.tf) (heq : ∀ r ∈ p.regions, σ.R .consumption t r = τ.R .consumption t r) :
    σ.G .yearly_welfare t = τ.G .yearly_welfare t ∧
      ∀ r ∈ p.regions, σ.R .utility t r = τ.R .utility t r := by
  cases m with
  | welfare_loss_minimising =>
    have hu : ∀ r ∈ p.regions, σ.R .utility t r = τ.R .utility t r := fun r hr => by
      rw [(w.1 t ht r hr).2.2, (w'.1 t ht r hr).2.2, heq r hr]
    exact ⟨by rw [w.2 t ht, w'.2 t ht]; exact sumR_congr fun r hr => by rw [hu r hr], hu⟩
  | cost_minimising =>
    refine ⟨?_, fun r hr => by rw [(w.1 t ht r hr).2, (w'.1 t ht r hr).2, heq r hr]⟩
    rw [(w.2 t ht).2.2, (w'.2 t ht).2.2, sumR_congr heq]
  | inequal_aversion_general =>
    have hu : ∀ r ∈ p.regions, σ.R .utility t r = τ.R .utility t r := fun r hr => by
      rw [(w.1 t ht r hr).2, (w'.1 t ht r hr).2, heq r hr]
    refine ⟨?_, hu⟩
    rw [(w.2 t ht).2.2.2, (w'.2 t ht).2.2.2, sumR_congr hu]

/-- Welfare only looks at that year's consumption, whatever else differs between the two solutions. -/
theorem C44_only_consumption_matters {md' : Modules} (hw : md'.welfare = md.welfare)
    (h : Solution md p σ) (h' : Solution md' p τ) {t : ℕ}
    (ht : t ≤ p.tf) (heq : ∀ r ∈ p.regions, σ.R .consumption t r = τ.R .consumption t r) :
    σ.G .yearly_welfare t = τ.G .yearly_welfare t ∧
      ∀ r ∈ p.regions, σ.R .utility t r = τ.R .utility t r :=
  welfare_eq h.eqs.welfare (hw ▸ h'.eqs.welfare) ht heq

theorem Solution.elasmu_ne (h : Solution md p σ) (hw : md.welfare = .welfare_loss_minimising) :
    p.elasmu ≠ 1 := by
  have w := h.eqs.welfare
  rw [hw] at w
  obtain ⟨r, hr⟩ := List.exists_mem_of_ne_nil _ h.regions_ne
  intro he
  exact (w.1 0 (Nat.zero_le _) r hr).2.1 (by linarith)

/-- Welfare of the welfare-loss-minimising module is the population-weighted sum of the regional utilities
of consumption per person. -/
theorem C44_welfare_loss_formula (h : Solution md p σ) (hw : md.welfare = .welfare_loss_minimising) {t : ℕ}
    (ht : t ≤ p.tf) : σ.G .yearly_welfare t = (p.regions.map fun r =>
      p.population t r * Spec.utility p.elasmu (σ.R .consumption t r / p.population t r)).sum := by
  have w := h.eqs.welfare
  rw [hw] at w
  rw [w.2 t ht]
  exact sumR_congr fun r hr => by rw [(w.1 t ht r hr).2.2]; rfl

/-- Welfare of the cost-minimising module is the utility of the average world citizen … -/
theorem C44_cost_minimising_formula (h : Solution md p σ) (hw : md.welfare = .cost_minimising) {t : ℕ}
    (ht : t ≤ p.tf) : σ.G .yearly_welfare t = (p.regions.map fun r => p.population t r).sum *
      Spec.utility p.elasmu ((p.regions.map fun r => σ.R .consumption t r).sum /
        (p.regions.map fun r => p.population t r).sum) := by
  have w := h.eqs.welfare
  rw [hw] at w
  exact (w.2 t ht).2.2

/-- … so it only depends on total consumption: redistribution between regions leaves it unchanged. -/
theorem C44_cost_minimising_total (h : Solution md p σ) (h' : Solution md p τ)
    (hw : md.welfare = .cost_minimising) {t : ℕ} (ht : t ≤ p.tf)
    (htot : (p.regions.map fun r => σ.R .consumption t r).sum =
      (p.regions.map fun r => τ.R .consumption t r).sum) :
    σ.G .yearly_welfare t = τ.G .yearly_welfare t := by
  rw [C44_cost_minimising_formula h hw ht, C44_cost_minimising_formula h' hw ht, htot]

/-- **C44.** Welfare with general inequality aversion `η`: the generalised mean of consumption per person (smoothed
at zero), in which persons count equally, raised to the utility with elasticity `θ`. -/
theorem C44_inequal_aversion_formula (h : Solution md p σ) (hw : md.welfare = .inequal_aversion_general) {t : ℕ}
    (ht : t ≤ p.tf) : σ.G .yearly_welfare t = (p.regions.map fun r => p.population t r).sum *
      (soft_min ((p.regions.map fun r => p.population t r *
          soft_min (σ.R .consumption t r / p.population t r) 1 ^ (1 - p.inequal_aversion)).sum /
            (p.regions.map fun r => p.population t r).sum) 1 ^
        ((1 - p.elasmu) / (1 - p.inequal_aversion)) / (1 - p.elasmu)) := by
  have w := h.eqs.welfare
  rw [hw] at w
  have e := (w.2 t ht).2.2.2
  have : p.sumR (fun r => σ.R .utility t r) = p.sumR fun r => p.population t r *
      soft_min (σ.R .consumption t r / p.population t r) 1 ^ (1 - p.inequal_aversion) :=
    sumR_congr fun r hr => (w.1 t ht r hr).2
  rw [this] at e
  exact e
example := C44_inequal_aversion_formula (Ex.solution0 .COACCH .inequal_aversion_general .utility (al := 0) (conv := none)
  le_rfl one_pos) rfl (t := 2) (by simp [Ex.ex])

/-- **C44.** The variable `utility` in the three modules. -/
theorem C44_reported_utility (h : Solution md p σ) {t : ℕ} (ht : t ≤ p.tf) {r : String} (hr : r ∈ p.regions) :
    (md.welfare = .welfare_loss_minimising →
      σ.R .utility t r = Spec.utility p.elasmu (σ.R .consumption t r / p.population t r)) ∧
    (md.welfare = .cost_minimising → σ.R .utility t r = σ.R .consumption t r / p.population t r) ∧
    (md.welfare = .inequal_aversion_general → σ.R .utility t r =
      p.population t r * soft_min (σ.R .consumption t r / p.population t r) 1 ^ (1 - p.inequal_aversion)) := by
  have w := h.eqs.welfare
  refine ⟨fun hw => ?_, fun hw => ?_, fun hw => ?_⟩ <;> rw [hw] at w
  · exact (w.1 t ht r hr).2.2
  · exact (w.1 t ht r hr).2
  · exact (w.1 t ht r hr).2
example := (C44_reported_utility Ex.sol0 (t := 2) (by simp [Ex.ex]) (r := "A") (by simp [Ex.ex])).1 rfl

/-- With a single region the cost-minimising and the welfare-loss-minimising module give the same
welfare. -/
theorem C44_single_region {md' : Modules} {r : String} (hr : p.regions = [r])
    (h : Solution md p σ) (hw : md.welfare = .cost_minimising)
    (h' : Solution md' p τ) (hw' : md'.welfare = .welfare_loss_minimising) {t : ℕ} (ht : t ≤ p.tf)
    (hc : σ.R .consumption t r = τ.R .consumption t r) :
    σ.G .yearly_welfare t = τ.G .yearly_welfare t := by
  rw [C44_cost_minimising_formula h hw ht, C44_welfare_loss_formula h' hw' ht, hr]
  simp [hc]

/-- Utility is concave in non-negative consumption exactly for elasticities of at least `8/π² ≈ 0.81`: for
the smaller elasticities that the configuration also accepts (it allows 0.1 and more) the smoothing of
`soft_min` makes utility convex close to zero consumption. -/
theorem C44_utility_concave_iff {e : ℝ} (he : e ≠ 1) :
    ConcaveOn ℝ (Set.Ici 0) (Spec.utility e) ↔ 8 / Real.pi ^ 2 ≤ e :=
  ⟨fun h => by by_contra hlt; exact utility_not_concaveOn (not_le.1 hlt) h, fun h => utility_concaveOn h he⟩
example := C44_utility_concave_iff (e := 3 / 2) (by norm_num)

/-- In particular for the default elasticity 1.001 and all values above 1. -/
theorem C44_utility_concave {e : ℝ} (he : 1 < e) : ConcaveOn ℝ (Set.Ici 0) (Spec.utility e) := by
  refine (C44_utility_concave_iff he.ne').2 ((div_le_one (by positivity)).2 ?_ |>.trans he.le)
  nlinarith [Real.pi_gt_three]
example := C44_utility_concave (e := 3 / 2) (by norm_num)

/-- The lowest accepted elasticity is a counterexample to concavity. -/
theorem C44_utility_not_concave : ¬ ConcaveOn ℝ (Set.Ici 0) (Spec.utility 0.1) := by
  rw [C44_utility_concave_iff (by norm_num), not_le, lt_div_iff₀ (by positivity)]
  nlinarith [Real.pi_gt_three, Real.pi_lt_d2]

/-- With elasticity at least `8/π²`, for given consumption, unequal consumption is never counted as a gain: the
welfare-loss-minimising welfare is at most the welfare of equal consumption per person. -/
theorem C44_inequality_lowers_welfare (h : Solution md p σ) (hw : md.welfare = .welfare_loss_minimising)
    (he : 8 / Real.pi ^ 2 ≤ p.elasmu) {t : ℕ} (ht : t ≤ p.tf) (hpop : ∀ r ∈ p.regions, 0 < p.population t r)
    (hc : ∀ r ∈ p.regions, 0 ≤ σ.R .consumption t r) :
    σ.G .yearly_welfare t ≤ (p.regions.map fun r => p.population t r).sum *
      Spec.utility p.elasmu ((p.regions.map fun r => σ.R .consumption t r).sum /
        (p.regions.map fun r => p.population t r).sum) := by
  rw [C44_welfare_loss_formula h hw ht]
  have hL : 0 < (p.regions.map fun r => p.population t r).sum := sumR_pos h.regions_ne hpop
  have he1 : p.elasmu ≠ 1 := h.elasmu_ne hw
  set L := (p.regions.map fun r => p.population t r).sum with hLdef
  have toFin : ∀ f : String → ℝ, (p.regions.map f).sum = ∑ i : Fin p.regions.length, f p.regions[i] := by
    intro f
    rw [← List.sum_ofFn]
    congr 1
    apply List.ext_getElem <;> simp
  have hj := (utility_concaveOn he he1).le_map_sum (t := Finset.univ)
    (w := fun i : Fin p.regions.length => p.population t p.regions[i] / L)
    (p := fun i => σ.R .consumption t p.regions[i] / p.population t p.regions[i])
    (fun i _ => (div_pos (hpop _ (List.getElem_mem _)) hL).le)
    (by rw [← Finset.sum_div, ← toFin fun r => p.population t r, ← hLdef, div_self hL.ne'])
    (fun i _ => div_nonneg (hc _ (List.getElem_mem _)) (hpop _ (List.getElem_mem _)).le)
  have e1 : ∑ i : Fin p.regions.length, (p.population t p.regions[i] / L) •
      (σ.R .consumption t p.regions[i] / p.population t p.regions[i]) =
      (p.regions.map fun r => σ.R .consumption t r).sum / L := by
    rw [toFin, Finset.sum_div]
    refine Finset.sum_congr rfl fun i _ => ?_
    have := (hpop _ (List.getElem_mem i.2)).ne'
    show p.population t p.regions[i.1] / L * (σ.R .consumption t p.regions[i.1] / p.population t p.regions[i.1]) = _
    field_simp
    rfl
  rw [e1] at hj
  have hj2 := mul_le_mul_of_nonneg_left hj hL.le
  rw [Finset.mul_sum] at hj2
  rw [toFin]
  refine le_of_eq_of_le (Finset.sum_congr rfl fun i _ => ?_) hj2
  simp only [smul_eq_mul, Spec.utility]
  field_simp

/-- With elasticity at least `8/π²`, moving consumption from a person-richer region `a` to a poorer region `b`
(without overtaking) never lowers welfare-loss-minimising welfare. -/
theorem C44_redistribution (h : Solution md p σ) (h' : Solution md p τ)
    (hw : md.welfare = .welfare_loss_minimising) (he : 8 / Real.pi ^ 2 ≤ p.elasmu) {t : ℕ} (ht : t ≤ p.tf)
    (hpop : ∀ r ∈ p.regions, 0 < p.population t r) {a b : String} (hab : a ≠ b) (hn : p.regions.Nodup)
    (ha : a ∈ p.regions) (hb : b ∈ p.regions) {δ : ℝ} (hδ : 0 ≤ δ)
    (hca : τ.R .consumption t a = σ.R .consumption t a - δ)
    (hcb : τ.R .consumption t b = σ.R .consumption t b + δ)
    (hother : ∀ r ∈ p.regions, r ≠ a → r ≠ b → τ.R .consumption t r = σ.R .consumption t r)
    (hpoor : 0 ≤ σ.R .consumption t b)
    (hover : τ.R .consumption t b / p.population t b ≤ τ.R .consumption t a / p.population t a) :
    σ.G .yearly_welfare t ≤ τ.G .yearly_welfare t := by
  rw [C44_welfare_loss_formula h hw ht, C44_welfare_loss_formula h' hw ht]
  have he1 : p.elasmu ≠ 1 := h.elasmu_ne hw
  have hLa := hpop a ha
  have hLb := hpop b hb
  have split : ∀ f : String → ℝ, (p.regions.map f).sum =
      f a + (f b + (((p.regions.erase a).erase b).map f).sum) := by
    intro f
    have p1 := List.perm_cons_erase ha
    have hb' : b ∈ p.regions.erase a := (List.mem_erase_of_ne hab.symm).2 hb
    have p2 := List.perm_cons_erase hb'
    rw [(p1.map f).sum_eq, List.map_cons, List.sum_cons, (p2.map f).sum_eq, List.map_cons,
      List.sum_cons]
  rw [split, split fun r => p.population t r * Spec.utility p.elasmu (τ.R .consumption t r / _)]
  have hrest : ∀ r ∈ (p.regions.erase a).erase b, τ.R .consumption t r = σ.R .consumption t r := by
    intro r hr
    have hn1 := hn.erase a
    have h1 := hn1.mem_erase_iff.1 hr
    have h2 := hn.mem_erase_iff.1 h1.2
    exact hother r h2.2 h2.1 h1.1
  have erest : (((p.regions.erase a).erase b).map fun r => p.population t r *
      Spec.utility p.elasmu (τ.R .consumption t r / p.population t r)).sum =
      (((p.regions.erase a).erase b).map fun r => p.population t r *
      Spec.utility p.elasmu (σ.R .consumption t r / p.population t r)).sum := by
    rw [List.map_congr_left]
    intro r hr; rw [hrest r hr]
  rw [erest]
  set xa := σ.R .consumption t a / p.population t a with hxa
  set xb := σ.R .consumption t b / p.population t b with hxb
  have exa : τ.R .consumption t a / p.population t a = xa - δ / p.population t a := by
    rw [hca, sub_div]
  have exb : τ.R .consumption t b / p.population t b = xb + δ / p.population t b := by
    rw [hcb, add_div]
  rw [exa, exb] at hover ⊢
  rcases hδ.eq_or_lt with h0 | h0
  · rw [← h0]; simp
  have da := div_pos h0 hLa
  have db := div_pos h0 hLb
  have hxb0 : 0 ≤ xb := div_nonneg hpoor hLb.le
  have hcv := utility_concaveOn he he1
  -- slope on [xb, xb'] ≥ slope on [xa', xa]
  have slopes : (Spec.utility p.elasmu xa - Spec.utility p.elasmu (xa - δ / p.population t a)) /
      (δ / p.population t a) ≤
      (Spec.utility p.elasmu (xb + δ / p.population t b) - Spec.utility p.elasmu xb) /
      (δ / p.population t b) := by
    rcases hover.eq_or_lt with heq | hlt
    · have s := hcv.slope_anti_adjacent (x := xb) (y := xb + δ / p.population t b) (z := xa)
        (by simpa using hxb0) (by simp; linarith) (by linarith) (by linarith)
      simp only [Spec.utility]
      rw [← heq]
      have e1 : xa - (xb + δ / p.population t b) = δ / p.population t a := by linarith
      have e2 : xb + δ / p.population t b - xb = δ / p.population t b := by ring
      rw [e1, e2] at s
      exact s
    · have s := hcv.slope_anti_adjacent (x := xb) (y := xb + δ / p.population t b)
        (z := xa - δ / p.population t a)
        (by simpa using hxb0) (by simp; linarith) (by linarith) hlt
      have s' := hcv.slope_anti_adjacent (x := xb + δ / p.population t b)
        (y := xa - δ / p.population t a) (z := xa)
        (by simp; linarith) (by simp; linarith) hlt (by linarith)
      have e1 : xa - (xa - δ / p.population t a) = δ / p.population t a := by ring
      have e2 : xb + δ / p.population t b - xb = δ / p.population t b := by ring
      rw [e1] at s'
      rw [e2] at s
      exact s'.trans s
  rw [div_le_div_iff₀ da db] at slopes
  have k := mul_le_mul_of_nonneg_right slopes (show 0 ≤ p.population t a * p.population t b / δ by positivity)
  have e1 : (Spec.utility p.elasmu xa - Spec.utility p.elasmu (xa - δ / p.population t a)) *
      (δ / p.population t b) * (p.population t a * p.population t b / δ) =
      p.population t a * (Spec.utility p.elasmu xa - Spec.utility p.elasmu (xa - δ / p.population t a)) := by
    field_simp
  have e2 : (Spec.utility p.elasmu (xb + δ / p.population t b) - Spec.utility p.elasmu xb) *
      (δ / p.population t a) * (p.population t a * p.population t b / δ) =
      p.population t b * (Spec.utility p.elasmu (xb + δ / p.population t b) - Spec.utility p.elasmu xb) := by
    field_simp
  rw [e1, e2] at k
  linarith

/-! ## C45 -/

/-- The discounted sum of a yearly quantity over the model years after the first. -/
noncomputable def Spec.discountedSum (p : Params) (f : ℕ → ℝ) : ℕ → ℝ
  | n => ∑ t ∈ Finset.range n, p.dt * Real.exp (-p.PRTP * ((p.beginyear + ↑(t + 1) * p.dt) - p.beginyear)) * f (t + 1)

theorem C45_starts_at_zero (h : Solution md p σ) : σ.G .NPV 0 = 0 := by
  have := h.eqs.objective
  cases ho : md.objective <;> rw [ho] at this <;> exact this.2
example := C45_starts_at_zero Ex.sol0

/-- With the objective "utility" the net present value is the discounted sum of yearly welfare. -/
theorem C45_utility (h : Solution md p σ) (ho : md.objective = .utility) {n : ℕ} (hn : n ≤ p.tf) :
    σ.G .NPV n = Spec.discountedSum p (fun t => σ.G .yearly_welfare t) n := by
  have e := h.eqs.objective
  rw [ho] at e
  induction n with
  | zero => simpa [Spec.discountedSum] using e.2
  | succ n ih =>
    rw [e.1 n hn, ih (by omega), Spec.discountedSum, Spec.discountedSum, Finset.sum_range_succ]
    simp [Objective.discount, Params.year]

/-- With the objective "globalcosts" it is the discounted sum of world mitigation and damage costs. -/
theorem C45_globalcosts (h : Solution md p σ) (ho : md.objective = .globalcosts) {n : ℕ} (hn : n ≤ p.tf) :
    σ.G .NPV n = Spec.discountedSum p (fun t => (p.regions.map fun r => σ.R .mitigation_costs t r).sum +
      (p.regions.map fun r => σ.R .damage_costs t r * σ.R .GDP_gross t r).sum) n := by
  have e := h.eqs.objective
  rw [ho] at e
  induction n with
  | zero => simpa [Spec.discountedSum] using e.2
  | succ n ih =>
    rw [e.1 n hn, ih (by omega), Spec.discountedSum, Spec.discountedSum, Finset.sum_range_succ]
    simp [Objective.discount, Params.year, Params.sumR]

/-- An optimum has the highest net present value (utility) or the lowest (global costs) of all
solutions. -/
theorem C45_optimum (h : Optimal md p σ) (h' : Solution md p τ) :
    (md.objective = .utility → τ.G .NPV p.tf ≤ σ.G .NPV p.tf) ∧
    (md.objective = .globalcosts → σ.G .NPV p.tf ≤ τ.G .NPV p.tf) := by
  have := h.2 τ h'
  constructor <;> intro ho <;> simpa [ho, Objective.sense, Objective.objectiveExpr] using this

/-- More welfare in some year after the first, and less in none, is a better objective. -/
theorem C45_more_welfare_better (h : Solution md p σ) (h' : Solution md p τ) (ho : md.objective = .utility)
    (hdt : 0 < p.dt) (hle : ∀ t ≤ p.tf, 0 < t → σ.G .yearly_welfare t ≤ τ.G .yearly_welfare t)
    (hlt : ∃ t ≤ p.tf, 0 < t ∧ σ.G .yearly_welfare t < τ.G .yearly_welfare t) :
    σ.G .NPV p.tf < τ.G .NPV p.tf := by
  rw [C45_utility h ho le_rfl, C45_utility h' ho le_rfl]
  apply Finset.sum_lt_sum
  · intro t ht
    rw [Finset.mem_range] at ht
    exact mul_le_mul_of_nonneg_left (hle _ ht (by omega)) (by positivity)
  · obtain ⟨t, ht, h0, hl⟩ := hlt
    refine ⟨t - 1, Finset.mem_range.2 (by omega), ?_⟩
    obtain ⟨s, rfl⟩ : ∃ s, t = s + 1 := ⟨t - 1, by omega⟩
    simp only [Nat.add_sub_cancel]
    exact mul_lt_mul_of_pos_left hl (by positivity)

/-- Hence at an optimum no other solution gives every region at least as much consumption in every year
after the first and more in some region and year. -/
theorem C45_pareto (h : Optimal md p σ) (ho : md.objective = .utility)
    (hdt : 0 < p.dt) (hpop : ∀ t ≤ p.tf, ∀ r ∈ p.regions, 0 < p.population t r) :
    ¬ ∃ τ, Solution md p τ ∧
      (∀ t ≤ p.tf, 0 < t → ∀ r ∈ p.regions, σ.R .consumption t r ≤ τ.R .consumption t r) ∧
      ∃ t ≤ p.tf, 0 < t ∧ ∃ r ∈ p.regions, σ.R .consumption t r < τ.R .consumption t r := by
  rintro ⟨τ, h', hle, hlt⟩
  have hopt := (C45_optimum h h').1 ho
  have : σ.G .NPV p.tf < τ.G .NPV p.tf := by
    apply C45_more_welfare_better h.1 h' ho hdt
    · intro t ht h0
      by_cases hall : ∃ r ∈ p.regions, σ.R .consumption t r < τ.R .consumption t r
      · exact (C44_more_consumption_more_welfare h.1 h' ht (hpop t ht) (hle t ht h0) hall).le
      · push Not at hall
        exact (C44_only_consumption_matters rfl h.1 h' ht fun r hr =>
          le_antisymm (hle t ht h0 r hr) (hall r hr)).1.le
    · obtain ⟨t, ht, h0, hr⟩ := hlt
      exact ⟨t, ht, h0, C44_more_consumption_more_welfare h.1 h' ht (hpop t ht) (hle t ht h0) hr⟩
  linarith

end Mimosa
