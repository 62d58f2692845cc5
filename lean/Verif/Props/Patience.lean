import Verif.Props.Splice
import Verif.Props.Ranking
import Verif.Props.BindingExamples

/-!
# C88: a higher rate of time preference moves welfare to earlier years, never to later ones
-/

set_option linter.unusedVariables false

namespace Mimosa

variable {md : Modules} {p : Params} {σ τ : Env} {ρ : ℝ}

namespace Patience

/-- The pathway of a run stays possible, with the same value in every year, if the rate of time preference changes. -/
theorem move (h : Solution md p σ) (h' : Solution md { p with PRTP := ρ } τ) :
    ∃ τ', Solution md p τ' ∧ ∀ t ≤ p.tf, Spec.yearlyValue md p τ' t = Spec.yearlyValue md p τ t := by
  have hel := Rank.settings_ok h
  obtain ⟨τ', h1, h2⟩ := C71_same_pathways h' md.welfare md.objective p hel.1 hel.2
  have h3 : Solution md p τ' := h1
  refine ⟨τ', h3, fun t ht => ?_⟩
  have e' : WelfareEqs p τ md.welfare := by
    have := h'.eqs.welfare
    revert this
    cases md.welfare <;> exact id
  have hu := Rank.welfare_congr h3.eqs.welfare e' (fun t r => h2.2 _ _ _ (by decide))
  have hR : ∀ v t r, v ≠ RVar.utility → τ'.R v t r = τ.R v t r := fun v t r hv => h2.2 v t r hv
  unfold Spec.yearlyValue
  cases md.objective
  · exact hu.2 t ht
  · simp only [hR _ _ _ (show RVar.mitigation_costs ≠ .utility by decide),
      hR _ _ _ (show RVar.damage_costs ≠ .utility by decide), hR _ _ _ (show RVar.GDP_gross ≠ .utility by decide)]

theorem value_congr {a b : Env} (h : ∀ t ≤ p.tf, Spec.yearlyValue md p a t = Spec.yearlyValue md p b t) :
    Spec.valueBetween md p a 0 p.tf = Spec.valueBetween md p b 0 p.tf :=
  Finset.sum_congr rfl fun t ht => by rw [h t (Finset.mem_Ioc.1 ht).2]

/-- Each of the two optima is at least as good as the other one by its own measure. -/
theorem own (h : Optimal md p σ) (h' : Solution md { p with PRTP := ρ } τ) :
    Spec.valueBetween md p τ 0 p.tf ≤ Spec.valueBetween md p σ 0 p.tf := by
  obtain ⟨τ', h1, h2⟩ := move h.1 h'
  have := h.best h1
  rwa [Splice.objective_value h.1, Splice.objective_value h1, value_congr h2] at this

theorem own' (h : Solution md p σ) (h' : Optimal md { p with PRTP := ρ } τ) :
    Spec.valueBetween md { p with PRTP := ρ } σ 0 p.tf ≤ Spec.valueBetween md { p with PRTP := ρ } τ 0 p.tf :=
  own (p := { p with PRTP := ρ }) (ρ := p.PRTP) h' h

end Patience

/-- **C88.** Between the optima of two rates of time preference, welfare (minus costs, if costs are minimised) is higher
on average where the weights are higher. -/
theorem C88_revealed (h : Optimal md p σ) (h' : Optimal md { p with PRTP := ρ } τ) :
    0 ≤ ∑ t ∈ Finset.Ioc 0 p.tf, p.dt * (Real.exp (-p.PRTP * (t * p.dt)) - Real.exp (-ρ * (t * p.dt))) *
      (Spec.yearlyValue md p σ t - Spec.yearlyValue md p τ t) := by
  have a := Patience.own h h'.1
  have b := Patience.own' h.1 h'
  unfold Spec.valueBetween at a b
  have e : ∀ t : ℕ, p.dt * (Real.exp (-p.PRTP * (t * p.dt)) - Real.exp (-ρ * (t * p.dt))) *
      (Spec.yearlyValue md p σ t - Spec.yearlyValue md p τ t) =
      (p.dt * Real.exp (-p.PRTP * (t * p.dt)) * Spec.yearlyValue md p σ t -
        p.dt * Real.exp (-p.PRTP * (t * p.dt)) * Spec.yearlyValue md p τ t) +
      (p.dt * Real.exp (-ρ * (t * p.dt)) * Spec.yearlyValue md p τ t -
        p.dt * Real.exp (-ρ * (t * p.dt)) * Spec.yearlyValue md p σ t) := fun t => by ring
  rw [Finset.sum_congr rfl fun t _ => e t, Finset.sum_add_distrib, Finset.sum_sub_distrib, Finset.sum_sub_distrib]
  exact add_nonneg (sub_nonneg.2 a) (sub_nonneg.2 b)

/-- **C88.** If, with the higher rate, no year up to number `k` is better and no later year is worse, nothing has changed:
impatience never moves welfare into the future. -/
theorem C88_no_shift (h : Optimal md p σ) (h' : Optimal md { p with PRTP := ρ } τ) (hρ : p.PRTP < ρ) (hdt : 0 < p.dt)
    {k : ℕ} (early : ∀ t, 0 < t → t ≤ k → t ≤ p.tf → Spec.yearlyValue md p τ t ≤ Spec.yearlyValue md p σ t)
    (late : ∀ t, k < t → t ≤ p.tf → Spec.yearlyValue md p σ t ≤ Spec.yearlyValue md p τ t)
    {t : ℕ} (h0 : 0 < t) (ht : t ≤ p.tf) : Spec.yearlyValue md p τ t = Spec.yearlyValue md p σ t := by
  have a := Patience.own h h'.1
  have b := Patience.own' h.1 h'
  unfold Spec.valueBetween at a b
  replace b : ∑ t ∈ Finset.Ioc 0 p.tf, p.dt * Real.exp (-ρ * (t * p.dt)) * Spec.yearlyValue md p σ t ≤
      ∑ t ∈ Finset.Ioc 0 p.tf, p.dt * Real.exp (-ρ * (t * p.dt)) * Spec.yearlyValue md p τ t := b
  -- the weights of the two rates, relative to those of year `k`
  set w : ℕ → ℝ := fun t => Real.exp (-(ρ - p.PRTP) * (t * p.dt)) with hw
  have wpos : ∀ t, 0 < w t := fun t => Real.exp_pos _
  have wlt : ∀ s t : ℕ, s < t → w t < w s := fun s t hst => by
    rw [hw]
    refine Real.exp_lt_exp.2 ?_
    have : (s : ℝ) < t := by exact_mod_cast hst
    nlinarith [mul_lt_mul_of_pos_right this hdt, sub_pos.2 hρ, mul_pos (sub_pos.2 hρ) (mul_pos (sub_pos.2 this) hdt)]
  have ew : ∀ t : ℕ, Real.exp (-ρ * (t * p.dt)) = Real.exp (-p.PRTP * (t * p.dt)) * w t := fun t => by
    rw [hw, ← Real.exp_add]; congr 1; ring
  set D : ℕ → ℝ := fun t => p.dt * Real.exp (-p.PRTP * (t * p.dt)) *
    (Spec.yearlyValue md p τ t - Spec.yearlyValue md p σ t) with hD
  have cpos : ∀ t : ℕ, 0 < p.dt * Real.exp (-p.PRTP * (t * p.dt)) := fun t => mul_pos hdt (Real.exp_pos _)
  have hA : ∑ t ∈ Finset.Ioc 0 p.tf, D t ≤ 0 := by
    have : ∑ t ∈ Finset.Ioc 0 p.tf, D t = ∑ t ∈ Finset.Ioc 0 p.tf, p.dt * Real.exp (-p.PRTP * (t * p.dt)) * Spec.yearlyValue md p τ t -
        ∑ t ∈ Finset.Ioc 0 p.tf, p.dt * Real.exp (-p.PRTP * (t * p.dt)) * Spec.yearlyValue md p σ t := by
      rw [hD, ← Finset.sum_sub_distrib]
      exact Finset.sum_congr rfl fun t _ => mul_sub _ _ _
    rw [this]; linarith
  have hB : 0 ≤ ∑ t ∈ Finset.Ioc 0 p.tf, w t * D t := by
    have : ∑ t ∈ Finset.Ioc 0 p.tf, w t * D t = ∑ t ∈ Finset.Ioc 0 p.tf, p.dt * Real.exp (-ρ * (t * p.dt)) * Spec.yearlyValue md p τ t -
        ∑ t ∈ Finset.Ioc 0 p.tf, p.dt * Real.exp (-ρ * (t * p.dt)) * Spec.yearlyValue md p σ t := by
      rw [hD, ← Finset.sum_sub_distrib]
      exact Finset.sum_congr rfl fun t _ => by rw [ew]; ring
    rw [this]; linarith
  have hT : ∀ t ∈ Finset.Ioc 0 p.tf, (w t - w k) * D t ≤ 0 := fun t ht => by
    obtain ⟨h1, h2⟩ := Finset.mem_Ioc.1 ht
    rcases le_or_gt t k with hk | hk
    · refine mul_nonpos_of_nonneg_of_nonpos (sub_nonneg.2 ?_)
        (mul_nonpos_of_nonneg_of_nonpos (cpos t).le (sub_nonpos.2 (early t h1 hk h2)))
      rcases hk.eq_or_lt with rfl | hk
      · exact le_rfl
      · exact (wlt _ _ hk).le
    · exact mul_nonpos_of_nonpos_of_nonneg (sub_nonpos.2 (wlt _ _ hk).le)
        (mul_nonneg (cpos t).le (sub_nonneg.2 (late t hk h2)))
  have hsum : ∑ t ∈ Finset.Ioc 0 p.tf, (w t - w k) * D t =
      ∑ t ∈ Finset.Ioc 0 p.tf, w t * D t - w k * ∑ t ∈ Finset.Ioc 0 p.tf, D t := by
    rw [Finset.mul_sum, ← Finset.sum_sub_distrib]
    exact Finset.sum_congr rfl fun t _ => sub_mul _ _ _
  have hz : ∑ t ∈ Finset.Ioc 0 p.tf, (w t - w k) * D t = 0 := by
    refine le_antisymm (Finset.sum_nonpos hT) ?_
    rw [hsum]
    nlinarith [mul_nonneg (wpos k).le (neg_nonneg.2 hA)]
  have hall : ∀ s ∈ Finset.Ioc 0 p.tf, (w s - w k) * D s = 0 := (Finset.sum_eq_zero_iff_of_nonpos hT).1 hz
  have hne : ∀ s ∈ Finset.Ioc 0 p.tf, s ≠ k → D s = 0 := fun s hs hsk => by
    rcases mul_eq_zero.1 (hall s hs) with h1 | h1
    · rcases lt_or_gt_of_ne hsk with h2 | h2
      · exact absurd h1 (sub_ne_zero.2 (wlt _ _ h2).ne')
      · exact absurd h1 (sub_ne_zero.2 (wlt _ _ h2).ne)
    · exact h1
  have fin : D t = 0 := by
    have mt := Finset.mem_Ioc.2 ⟨h0, ht⟩
    by_cases htk : t = k
    · have e1 : ∑ s ∈ Finset.Ioc 0 p.tf, w s * D s = w t * D t :=
        Finset.sum_eq_single_of_mem t mt fun s hs hst => by rw [hne s hs (htk ▸ hst), mul_zero]
      rw [e1] at hB
      have h1 : 0 ≤ D t := nonneg_of_mul_nonneg_right hB (wpos t)
      have h2 : D t ≤ 0 := mul_nonpos_of_nonneg_of_nonpos (cpos t).le (sub_nonpos.2 (early t h0 htk.le ht))
      exact le_antisymm h2 h1
    · exact hne t mt htk
  have := (mul_eq_zero.1 fin).resolve_left (cpos t).ne'
  linarith

/-- **C88.** So if a higher rate of time preference changes what any year is worth, some earlier year is worth more and
some later year less. -/
theorem C88_sooner (h : Optimal md p σ) (h' : Optimal md { p with PRTP := ρ } τ) (hρ : p.PRTP < ρ) (hdt : 0 < p.dt)
    {t : ℕ} (h0 : 0 < t) (ht : t ≤ p.tf) (hd : Spec.yearlyValue md p τ t ≠ Spec.yearlyValue md p σ t) :
    ∃ a b, 0 < a ∧ a < b ∧ b ≤ p.tf ∧ Spec.yearlyValue md p σ a < Spec.yearlyValue md p τ a ∧
      Spec.yearlyValue md p τ b < Spec.yearlyValue md p σ b := by
  by_contra hno
  push Not at hno
  -- the last year that is worse
  classical
  let k := ((Finset.Ioc 0 p.tf).filter fun s => Spec.yearlyValue md p τ s < Spec.yearlyValue md p σ s).sup id
  refine hd (C88_no_shift h h' hρ hdt (k := k) (fun s s0 sk hs => ?_) (fun s sk hs => ?_) h0 ht)
  · by_contra hgt
    push Not at hgt
    have hk : k ∈ (Finset.Ioc 0 p.tf).filter fun s => Spec.yearlyValue md p τ s < Spec.yearlyValue md p σ s := by
      have hne : ((Finset.Ioc 0 p.tf).filter fun s => Spec.yearlyValue md p τ s < Spec.yearlyValue md p σ s).Nonempty := by
        by_contra hemp
        rw [Finset.not_nonempty_iff_eq_empty] at hemp
        have : k = 0 := by show Finset.sup _ id = 0; rw [hemp]; rfl
        omega
      obtain ⟨i, hi, he⟩ := Finset.exists_mem_eq_sup _ hne id
      show Finset.sup _ id ∈ _
      rw [he]; exact hi
    obtain ⟨h1, h2⟩ := Finset.mem_filter.1 hk
    have hsk : s ≠ k := by rintro rfl; exact absurd h2 (not_lt.2 hgt.le)
    exact absurd h2 (not_lt.2 (hno s k s0 (lt_of_le_of_ne sk hsk) (Finset.mem_Ioc.1 h1).2 hgt))
  · by_contra hlt
    push Not at hlt
    have : s ≤ k := Finset.le_sup (f := id) (Finset.mem_filter.2 ⟨Finset.mem_Ioc.2 ⟨by omega, hs⟩, hlt⟩)
    omega

/-- **C88.** The value of the optimum falls with the rate of time preference if every year is worth something; if every
year is a cost, the discounted costs fall. -/
theorem C88_value (h : Optimal md p σ) (h' : Optimal md { p with PRTP := ρ } τ) (hρ : p.PRTP ≤ ρ) (hdt : 0 ≤ p.dt) :
    ((∀ t, 0 < t → t ≤ p.tf → 0 ≤ Spec.yearlyValue md p τ t) →
      Spec.objectiveValue md { p with PRTP := ρ } τ ≤ Spec.objectiveValue md p σ) ∧
    ((∀ t, 0 < t → t ≤ p.tf → Spec.yearlyValue md p σ t ≤ 0) →
      Spec.objectiveValue md p σ ≤ Spec.objectiveValue md { p with PRTP := ρ } τ) := by
  have hexp : ∀ t : ℕ, Real.exp (-ρ * (t * p.dt)) ≤ Real.exp (-p.PRTP * (t * p.dt)) := fun t => by
    refine Real.exp_le_exp.2 ?_
    have : (0 : ℝ) ≤ t * p.dt := mul_nonneg (Nat.cast_nonneg _) hdt
    nlinarith [mul_le_mul_of_nonneg_right hρ this]
  rw [Splice.objective_value h.1, Splice.objective_value h'.1]
  refine ⟨fun hv => ?_, fun hv => ?_⟩
  · refine le_trans (Finset.sum_le_sum fun t ht => ?_) (Patience.own h h'.1)
    obtain ⟨h1, h2⟩ := Finset.mem_Ioc.1 ht
    exact mul_le_mul_of_nonneg_right (mul_le_mul_of_nonneg_left (hexp t) hdt) (hv t h1 h2)
  · refine le_trans (Finset.sum_le_sum fun t ht => ?_) (Patience.own' h.1 h')
    obtain ⟨h1, h2⟩ := Finset.mem_Ioc.1 ht
    exact mul_le_mul_of_nonpos_right (mul_le_mul_of_nonneg_left (hexp t) hdt) (hv t h1 h2)

/-- **C88.** Cost minimisation without damages: the discounted costs of the optimum do not rise with the rate. -/
theorem C88_costs (hadm : p.Admissible) (hn : 0 ≤ p.rel_mitigation_costs_min_level) (ho : md.objective = .globalcosts)
    (hd : md.damage = .nodamage) (h : Optimal md p σ) (h' : Optimal md { p with PRTP := ρ } τ) (hρ : p.PRTP ≤ ρ) :
    τ.G .NPV p.tf ≤ σ.G .NPV p.tf := by
  have hv := (C88_value h h' hρ hadm.dt_pos.le).2 fun t h0 ht => by
    unfold Spec.yearlyValue
    rw [ho]
    have hz : ∀ r ∈ p.regions, σ.R .damage_costs t r = 0 := fun r hr => by
      have := h.1.eqs.damages
      rw [hd] at this
      exact this t ht r hr
    have e : (p.regions.map fun r => σ.R .damage_costs t r * σ.R .GDP_gross t r).sum = 0 :=
      List.sum_eq_zero fun x hx => by
        obtain ⟨r, hr, rfl⟩ := List.mem_map.1 hx
        rw [hz r hr, zero_mul]
    have : 0 ≤ (p.regions.map fun r => σ.R .mitigation_costs t r).sum := List.sum_nonneg fun x hx => by
      obtain ⟨r, hr, rfl⟩ := List.mem_map.1 hx
      exact NoAbate.mitig_nonneg hadm hn h.1 ht hr
    show -(_ + _) ≤ (0 : ℝ)
    rw [e]; linarith
  unfold Spec.objectiveValue at hv
  rw [ho] at hv
  simpa using hv

open Ex

/-- A run with a temperature target and a budget, for two rates of time preference: both have an optimum, and either no
year is worth anything else, or the impatient one gives up a later year for an earlier one. -/
example (w : WelfareModule) (o : ObjectiveModule) : ∃ σ τ, Optimal (md0 .nodamage w o) (bq (some 2) (some 1600) true) σ ∧
    Optimal (md0 .nodamage w o) { bq (some 2) (some 1600) true with PRTP := 1 / 10 } τ ∧
    ((∀ t, 0 < t → t ≤ 3 → Spec.yearlyValue (md0 .nodamage w o) (bq (some 2) (some 1600) true) τ t =
        Spec.yearlyValue (md0 .nodamage w o) (bq (some 2) (some 1600) true) σ t) ∨
      ∃ a b, 0 < a ∧ a < b ∧ b ≤ 3 ∧ Spec.yearlyValue (md0 .nodamage w o) (bq (some 2) (some 1600) true) σ a <
        Spec.yearlyValue (md0 .nodamage w o) (bq (some 2) (some 1600) true) τ a ∧
        Spec.yearlyValue (md0 .nodamage w o) (bq (some 2) (some 1600) true) τ b <
        Spec.yearlyValue (md0 .nodamage w o) (bq (some 2) (some 1600) true) σ b) := by
  have h0 : Solution (md0 .nodamage w o) (bq (some 2) (some 1600) true) _ := bq_sol (.inr rfl) (.inr rfl)
  obtain ⟨σ, h⟩ := C65_optimum_exists_exogenous (md := md0 .nodamage w o) (p := bq (some 2) (some 1600) true) bq_admissible
    (fun h => by cases h) rfl ⟨_, h0⟩
  have hel := Rank.settings_ok h0
  obtain ⟨τ', h1, -⟩ := C71_same_pathways h0 w o { bq (some 2) (some 1600) true with PRTP := 1 / 10 } hel.1 hel.2
  obtain ⟨τ, h'⟩ := C65_optimum_exists_exogenous (md := md0 .nodamage w o)
    (p := { bq (some 2) (some 1600) true with PRTP := 1 / 10 }) { bq_admissible (T := some 2) (b := some 1600) (nz := true) with }
    (fun h => by cases h) rfl ⟨_, h1⟩
  refine ⟨σ, τ, h, h', ?_⟩
  by_cases hall : ∀ t, 0 < t → t ≤ 3 → Spec.yearlyValue (md0 .nodamage w o) (bq (some 2) (some 1600) true) τ t =
        Spec.yearlyValue (md0 .nodamage w o) (bq (some 2) (some 1600) true) σ t
  · exact .inl hall
  · push Not at hall
    obtain ⟨t, t0, ht, hne⟩ := hall
    exact .inr (C88_sooner h h' (by norm_num [ex]) (by norm_num [ex]) t0 ht hne)

/-- … and the discounted costs of the budget are not higher with the higher rate. -/
example (w : WelfareModule) {σ τ : Env} (h : Optimal (md0 .nodamage w .globalcosts) (bq (some 2) (some 1600) true) σ)
    (h' : Optimal (md0 .nodamage w .globalcosts) { bq (some 2) (some 1600) true with PRTP := 1 / 10 } τ) :
    τ.G .NPV 3 ≤ σ.G .NPV 3 :=
  C88_costs bq_admissible (by norm_num [ex]) rfl rfl h h' (by norm_num [ex])

end Mimosa
