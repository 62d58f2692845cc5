import Verif.Props.ExistenceCI
import Verif.Props.ExamplesFree

/-!
# The carbon-intensity example: abatement of one half after the first year
-/

namespace Mimosa.Ex
open Mimosa Spec

/-- `free`, with the carbon-intensity baseline. -/
noncomputable def freeCI : Params := { free with use_carbon_intensity_for_baseline := true }

theorem freeCI_admissible : freeCI.Admissible := { free_admissible with }
theorem freeCI_ordinary {md : Modules} : Spec.OrdinaryData md freeCI := { free_ordinary (md := md) with }

theorem freeCI_gdp (t : ℕ) (r : String) (K : ℝ) : gdpOf freeCI t r K = 10 := by
  unfold gdpOf
  split
  · rfl
  · simp [get_TFP_value, calc_GDP_real, freeCI, free, ex]

variable {Kf : ℕ → String → ℝ}

theorem fav_em (t : ℕ) (r : String) : favourableEmissions freeCI half (1 / 10) Kf t r = if t = 0 then 20 else 11 := by
  unfold favourableEmissions
  split
  · rfl
  · rename_i h0
    rw [freeCI_gdp]
    have e : freeCI.baseline_carbon_intensity t r = 2 := by
      show (20 : ℝ) / 10 = 2
      norm_num
    rw [e, half, if_neg h0]; norm_num

theorem fav_world (t : ℕ) : favourableWorld freeCI half (1 / 10) Kf t = if t = 0 then 40 else 22 := by
  have e : favourableWorld freeCI half (1 / 10) Kf t = favourableEmissions freeCI half (1 / 10) Kf t "A" +
      favourableEmissions freeCI half (1 / 10) Kf t "B" := by
    simp [favourableWorld, freeCI, free, ex]
  rw [e, fav_em, fav_em]; split <;> norm_num

theorem fav_cum (t : ℕ) : favourableCumulative freeCI half (1 / 10) Kf t =
    if t = 0 then 0 else 360 + 880 * (t : ℝ) := by
  induction t with
  | zero => simp [favourableCumulative]
  | succ t ih =>
    have e : favourableCumulative freeCI half (1 / 10) Kf (t + 1) = favourableCumulative freeCI half (1 / 10) Kf t +
      40 * (favourableWorld freeCI half (1 / 10) Kf (t + 1) + favourableWorld freeCI half (1 / 10) Kf t) / 2 := rfl
    rw [e, ih, fav_world, fav_world]
    split <;> rename_i h
    · subst h; norm_num
    · rw [if_neg (Nat.succ_ne_zero t), if_neg (Nat.succ_ne_zero t)]; push_cast; ring

theorem fav_temp {t : ℕ} (ht : t ≤ 3) : favourableTemperature freeCI half (1 / 10) Kf t ≤ 4 := by
  have e : favourableTemperature freeCI half (1 / 10) Kf t = 1 + 0.0006 * favourableCumulative freeCI half (1 / 10) Kf t :=
    rfl
  have h3 : (t : ℝ) ≤ 3 := by exact_mod_cast ht
  rw [e, fav_cum]; split <;> linarith

theorem seaCI {T : ℕ → ℝ} (hT : ∀ t ≤ 3, 1 ≤ T t ∧ T t ≤ 4) {t : ℕ} (ht : t ≤ 3) :
    0 ≤ seaLevelOf freeCI T t ∧ seaLevelOf freeCI T t ≤ 10 := by
  have key : (0 ≤ (seaOf freeCI T t).1 ∧ (seaOf freeCI T t).1 ≤ 0.2 + 0.25 * t) ∧
      (0 ≤ (seaOf freeCI T t).2.1 ∧ (seaOf freeCI T t).2.1 ≤ 0.26) ∧
      (0 ≤ (seaOf freeCI T t).2.2 ∧ (seaOf freeCI T t).2.2 ≤ 7.3) := by
    induction t with
    | zero =>
      simp only [seaOf]
      have : freeCI.T0 = 1 := rfl
      rw [this]; norm_num
    | succ t ih =>
      obtain ⟨⟨a1, a2⟩, ⟨b1, b2⟩, c1, c2⟩ := ih (by omega)
      obtain ⟨h1, h4⟩ := hT t (by omega)
      have hdt : freeCI.dt = 40 := rfl
      have g1 := gsic_range (c := (seaOf freeCI T t).2.1) (T := T t) (dt := 40) b2 (by norm_num) (by linarith)
        (by linarith)
      have g2 := gis_range (c := (seaOf freeCI T t).2.2) (T := T t) (dt := 40) c2 (by norm_num) (by linarith)
        (by linarith)
      rw [gsic_step] at g1
      rw [gis_step] at g2
      have hp : (1 - 0.024076141150722 : ℝ) ^ ((40 : ℝ) / 10) ≤ 1 :=
        Real.rpow_le_one (by norm_num) (by norm_num) (by norm_num)
      have hp0 : 0 ≤ (1 - 0.024076141150722 : ℝ) ^ ((40 : ℝ) / 10) := Real.rpow_nonneg (by norm_num) _
      simp only [seaOf, hdt]
      refine ⟨⟨?_, ?_⟩, ⟨b1.trans g1.1, g1.2⟩, c1.trans g2.1, g2.2⟩
      · have := mul_nonneg hp0 a1
        nlinarith
      · push_cast; nlinarith
  have h3 : (t : ℝ) ≤ 3 := by exact_mod_cast ht
  obtain ⟨⟨a1, a2⟩, ⟨b1, b2⟩, c1, c2⟩ := key
  unfold seaLevelOf
  constructor <;> linarith

theorem limitsCI (md : Modules) (hmd : md.transfer = .notransfer) : PathWithinLimitsCI freeCI half (1 / 10) Kf md := by
  constructor
  case starts_at_zero => intro r _; simp [half]
  case range => intro t _ r _; unfold half; split <;> norm_num
  case target => intro T hT; cases hT
  case budget => intro b hb; cases hb
  case inertia_global =>
    intro i hi t ht
    have : i = -0.05 := by simpa [freeCI, free, ex] using hi.symm
    have e : (freeCI.regions.map fun r => freeCI.baseline_emissions 0 r).sum = 40 := by
      simp [freeCI, free, ex]; norm_num
    rw [this, e, fav_world]
    show 40 * (-0.05) * 40 ≤ _
    split <;> norm_num
  case inertia_regional =>
    intro i hi t ht r hr
    have : i = -0.05 := by simpa [freeCI, free, ex] using hi.symm
    rw [this, fav_em]
    show 40 * (-0.05) * 20 ≤ _
    split <;> norm_num
  case min_global =>
    intro l hl
    have : l = -20 := by simpa [freeCI, free, ex] using hl.symm
    linarith
  case min_regional =>
    intro l hl
    have : l = -10 := by simpa [freeCI, free, ex] using hl.symm
    linarith
  case non_increasing =>
    intro _ t ht hy
    exfalso
    have ht' : t < 3 := ht
    have h2 : (t : ℝ) ≤ 2 := by exact_mod_cast (by omega : t ≤ 2)
    have e : freeCI.year t = 2020 + 40 * (t : ℝ) := by simp [Params.year, freeCI, free, ex]; ring
    rw [e] at hy; linarith
  case cost_floor => exact le_of_eq rfl
  case price =>
    intro t ht r hr
    refine Or.inr ⟨?_, ?_⟩
    · have e : freeCI.cumulative_global_baseline_emissions t = 1600 * t := by
        exact baseline_cum (regime := "noregime") (al := 0) (conv := none) t ht
      rw [e, fav_cum]
      split <;> rename_i h
      · subst h; simp
      · have : (1 : ℝ) ≤ t := by exact_mod_cast Nat.one_le_iff_ne_zero.2 h
        linarith
    · show 1 * half t r ^ (3 : ℝ) ≤ 2
      have := Real.rpow_le_one (x := half t r) (z := 3) (by unfold half; split <;> norm_num)
        (by unfold half; split <;> norm_num) (by norm_num)
      linarith
  case melt =>
    intro t ht
    have := fav_temp (Kf := Kf) (t := t) ht
    constructor
    · show 0.0008 * 40 * (_ + 1) ≤ (0.26 : ℝ); linarith
    · show 40 * (_ + 0.6) ≤ (7300 : ℝ); linarith
  case damages =>
    intro _ T hT t ht r hr
    have ht3 : t ≤ 3 := ht
    have hTr : ∀ t ≤ 3, 1 ≤ T t ∧ T t ≤ 4 := fun t ht => ⟨(hT.range t ht).1, (hT.range t ht).2.trans (fav_temp ht)⟩
    have b1 := seaCI hTr ht3
    have b2 := seaCI hTr (t := 0) (by norm_num)
    have hTt := hTr t ht3
    have hr' : r ∈ ["A", "B"] := hr
    simp only [List.mem_cons, List.not_mem_nil, or_false] at hr'
    have hslr : freeCI.slr = (ex "noregime" 0 none).slr := rfl
    have hno : freeCI.noslr = (ex "noregime" 0 none).noslr := rfl
    have hsc : freeCI.damage_scale_factor = 1 := rfl
    have hT0 : freeCI.T0 = 1 := rfl
    simp only [damageOf, seaDamageOf, hslr, hno, hsc, hT0, Set.mem_Icc]
    rcases hr' with rfl | rfl
    · rw [formS_A, formS_A, formN_A, formN_A]
      refine ⟨⟨?_, ?_⟩, ?_, ?_⟩ <;> linarith [b1.1, b1.2, b2.1, b2.2]
    · have c1 := formS_B_range (regime := "noregime") (al := 0) (conv := none) (seaLevelOf freeCI T t)
      have c2 := formS_B_range (regime := "noregime") (al := 0) (conv := none) (seaLevelOf freeCI T 0)
      rw [formN_B, formN_B]
      refine ⟨⟨?_, ?_⟩, ?_, ?_⟩ <;> nlinarith [c1.1, c1.2, c2.1, c2.2]
  case pool => intro h; rw [hmd] at h; cases h

/-- C49 applies with the carbon-intensity baseline: any damage, welfare and objective module. -/
example (d : DamageModule) (w : WelfareModule) (o : ObjectiveModule) :
    ∃ σ, Solution (md0 d w o) freeCI σ ∧ ∀ t r, σ.R .relative_abatement t r = half t r := by
  obtain ⟨Kf, hU⟩ := favourable_exists (g := 1 / 10) freeCI_admissible
  exact C49_path_feasible_carbon_intensity freeCI_admissible freeCI_ordinary (by norm_num) hU
    (limitsCI _ rfl) rfl (by simp [md0]) (Or.inl rfl)

end Mimosa.Ex
