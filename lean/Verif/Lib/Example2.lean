import Verif.Props.Climate

/-!
# Concrete solutions with emission trade, the damage pool and the effort-sharing regimes

Same data as `Lib/Example.lean`, with capital elasticity 0 (so that gross GDP is the baseline GDP).
-/

namespace Mimosa.Ex
open Mimosa

variable {regime : String} {conv : Option ℝ}

section
variable (y : Drivers) (hy : (y.a = fun t _ => aPath t) ∧ y.base = none)

theorem gross_val (md : Modules) (t : ℕ) (r : String) : y.gross md (ex regime 0 conv) t r = 10 := by
  unfold Drivers.gross
  split
  · rfl
  · simp [Drivers.grossOf, get_TFP_value, calc_GDP_real, ex]

include hy
theorem area_val (t : ℕ) (r : String) : y.area (ex regime 0 conv) t r =
    y.learn (ex regime 0 conv) t * (1 / 10) * aPath t ^ (4 : ℝ) * 5 := by
  have : (3 : ℝ) + 1 = 4 := by norm_num
  simp [Drivers.area, Drivers.bl, ex, hy.1, hy.2, this]; ring

theorem area_pos (r : String) {t : ℕ} (ht : t ≤ 3) (h0 : 0 < t) : 0 < y.area (ex regime 0 conv) t r := by
  rw [area_val y hy]
  have h1 := (learn_range (regime := regime) (al := 0) (conv := conv) y hy t ht).1
  have h2 : 0 < aPath t := by unfold aPath; split; omega; split <;> norm_num
  have := Real.rpow_pos_of_pos h2 4
  positivity

theorem th_le (t : ℕ) (ht : t ≤ 3) : y.th (ex regime 0 conv) t ≤ 0.11 + 0.1 * t := by
  induction t with
  | zero =>
    show SeaLevelRise.slr_thermal_expansion_init 1 ≤ _
    unfold SeaLevelRise.slr_thermal_expansion_init SeaLevelRise.thermal_init
      SeaLevelRise.thermal_adjust_rate SeaLevelRise.thermal_equil
    norm_num
  | succ t ih =>
    have ih := ih (by omega)
    have h0 := (slr_facts (regime := regime) (al := 0) (conv := conv) y hy t (by omega)).1
    have hT := (temp_range (regime := regime) (al := 0) (conv := conv) y hy t (by omega)).2
    have e : y.th (ex regime 0 conv) (t + 1) = (1 - 0.024076141150722) ^ ((40 : ℝ) / 10) *
        y.th (ex regime 0 conv) t +
        0.024076141150722 * (40 / 10) * (y.temp (ex regime 0 conv) t * 0.5) := thermal_step _ _ _
    have hp : (1 - 0.024076141150722 : ℝ) ^ ((40 : ℝ) / 10) ≤ 1 :=
      Real.rpow_le_one (by norm_num) (by norm_num) (by norm_num)
    rw [e]; push_cast; nlinarith

theorem th_mono (t : ℕ) (ht : t < 3) : y.th (ex regime 0 conv) t ≤ y.th (ex regime 0 conv) (t + 1) := by
  have h0 := (slr_facts (regime := regime) (al := 0) (conv := conv) y hy t (by omega)).1
  have hT := (temp_range (regime := regime) (al := 0) (conv := conv) y hy t (by omega)).1
  have h1 := th_le (regime := regime) (conv := conv) y hy t (by omega)
  have e : y.th (ex regime 0 conv) (t + 1) = (1 - 0.024076141150722) ^ ((40 : ℝ) / 10) *
      y.th (ex regime 0 conv) t +
      0.024076141150722 * (40 / 10) * (y.temp (ex regime 0 conv) t * 0.5) := thermal_step _ _ _
  have hp : (0.9 : ℝ) ≤ (1 - 0.024076141150722 : ℝ) ^ ((40 : ℝ) / 10) := by
    have : ((40 : ℝ) / 10) = ((4 : ℕ) : ℝ) := by norm_num
    rw [this, Real.rpow_natCast]; norm_num
  have h2 : (t : ℝ) ≤ 2 := by exact_mod_cast (by omega : t ≤ 2)
  rw [e]; nlinarith

theorem slr_ge (t : ℕ) (ht : t ≤ 3) : y.slr (ex regime 0 conv) 0 ≤ y.slr (ex regime 0 conv) t := by
  induction t with
  | zero => exact le_refl _
  | succ t ih =>
    refine (ih (by omega)).trans ?_
    have hm := Drivers.slr_mono (p := ex regime 0 conv) (x := y) (by simp [ex]) (by simp [ex])
      (fun t ht => by linarith [(temp_range (regime := regime) (al := 0) (conv := conv) y hy t ht).1])
      (fun t ht => by
        have := (temp_range (regime := regime) (al := 0) (conv := conv) y hy t ht).2
        show 0.0008 * 40 * (_ + 1) ≤ (0.26 : ℝ)
        linarith)
      (fun t ht => by
        have := (temp_range (regime := regime) (al := 0) (conv := conv) y hy t ht).2
        show 40 * (_ + 0.6) ≤ (7300 : ℝ)
        linarith) t ht
    have := th_mono (regime := regime) (conv := conv) y hy t (by omega)
    unfold Drivers.slr
    linarith [hm.1, hm.2]

/-- Damages are non-negative in the example. -/
theorem dam_nonneg (md : Modules) (t : ℕ) (ht : t ≤ 3) (r : String) (hr : r ∈ ["A", "B"]) :
    0 ≤ y.dam md (ex regime 0 conv) t r := by
  unfold Drivers.dam
  cases md.damage with
  | nodamage => exact le_refl _
  | COACCH =>
    have e : y.damN (ex regime 0 conv) t r = 1 * (formVal (y.temp (ex regime 0 conv) t - 0.6)
      (ex regime 0 conv).noslr r - formVal (1 - 0.6) (ex regime 0 conv).noslr r) := rfl
    have e' : y.damS (ex regime 0 conv) t r = 1 * (formVal (y.slr (ex regime 0 conv) t)
      (ex regime 0 conv).slr r - formVal (y.slr (ex regime 0 conv) 0) (ex regime 0 conv).slr r) := rfl
    have hT := (temp_range (regime := regime) (al := 0) (conv := conv) y hy t (by omega)).1
    have hS := slr_ge (regime := regime) (conv := conv) y hy t ht
    show 0 ≤ y.damN (ex regime 0 conv) t r + y.damS (ex regime 0 conv) t r
    rw [e, e']
    simp only [List.mem_cons, List.not_mem_nil, or_false] at hr
    rcases hr with rfl | rfl
    · rw [formN_A, formN_A, formS_A, formS_A]; linarith
    · rw [formN_B, formN_B, formS_B, formS_B]
      have := C41_logistic_monotone (b1 := 1) (b2 := 1) (b3 := 1) (by norm_num) (by norm_num)
        (by norm_num) hS
      simp only [logistic_real, one_mul, neg_mul] at this
      nlinarith

end

/-! ## Emission trade: region A pays B for its abatement -/

/-- Abatement as before; A pays for B's mitigation. -/
noncomputable def xTrade (regime : String) (conv : Option ℝ) : Drivers :=
  let c := fun t => (x0 fun _ => 0).area (ex regime 0 conv) t "B"
  ⟨fun t _ => aPath t, fun t r => if r = "A" then c t else -c t, fun _ _ => 0, fun _ => 0, none⟩

def mdTrade (d : DamageModule) (w : WelfareModule) (o : ObjectiveModule) : Modules :=
  ⟨d, .emissiontrade, .notransfer, w, o⟩

theorem solTrade (d : DamageModule) (w : WelfareModule) (o : ObjectiveModule) :
    Solution (mdTrade d w o) (ex "noregime" 0 conv)
      ((xTrade "noregime" conv).env (mdTrade d w o) (ex "noregime" 0 conv)) := by
  apply Drivers.build_solution (admissible le_rfl one_pos)
  have e : ∀ t r, (xTrade "noregime" conv).area (ex "noregime" 0 conv) t r =
      (x0 fun _ => 0).area (ex "noregime" 0 conv) t "B" := by
    intro t r
    rw [area_val _ ⟨rfl, rfl⟩, area_val _ ⟨rfl, rfl⟩]
    have : ∀ t, (xTrade "noregime" conv).cum (ex "noregime" 0 conv) t =
        (x0 fun _ => 0).cum (ex "noregime" 0 conv) t := by
      intro t
      induction t with
      | zero => rfl
      | succ t ih =>
        simp only [Drivers.cum, ih]
        rw [gE_val _ ⟨rfl, rfl⟩, gE_val _ ⟨rfl, rfl⟩, gE_val _ ⟨rfl, rfl⟩, gE_val _ ⟨rfl, rfl⟩]
    unfold Drivers.learn Drivers.lbd
    rw [this]
  apply ok_of _ ⟨rfl, rfl⟩ le_rfl one_pos
  · simp [mdTrade]
  · intro _ t ht
    simp [Params.sumR, ex, xTrade]
  · simp [mdTrade]
  · simp [mdTrade]
  · simp [mdTrade]
  · intro t ht r hr
    have h1 := area_nonneg (regime := "noregime") (al := 0) (conv := conv) (x0 fun _ => 0) ⟨rfl, rfl⟩ t ht "B"
    show 0 ≤ (xTrade "noregime" conv).area _ t r + (xTrade "noregime" conv).bal t r
    rw [e]
    simp only [xTrade]
    split <;> linarith
  · exact effort_none
  · intro h; exact absurd h (by decide)

/-! ## Equal mitigation costs -/

noncomputable def xMit : Drivers :=
  x0 fun t => (x0 fun _ => 0).area (ex "equal_mitigation_costs" 0 none) t "A" / 10

theorem solMit : Solution m0 (ex "equal_mitigation_costs" 0 none)
    (xMit.env m0 (ex "equal_mitigation_costs" 0 none)) := by
  apply Drivers.build_solution (admissible le_rfl one_pos)
  have e : ∀ t r, xMit.area (ex "equal_mitigation_costs" 0 none) t r =
      (x0 fun _ => 0).area (ex "equal_mitigation_costs" 0 none) t "A" := by
    intro t r
    rw [area_val _ ⟨rfl, rfl⟩, area_val _ ⟨rfl, rfl⟩]
    have : ∀ t, xMit.cum (ex "equal_mitigation_costs" 0 none) t =
        (x0 fun _ => 0).cum (ex "equal_mitigation_costs" 0 none) t := by
      intro t
      induction t with
      | zero => rfl
      | succ t ih =>
        simp only [Drivers.cum, ih]
        rw [gE_val _ ⟨rfl, rfl⟩, gE_val _ ⟨rfl, rfl⟩, gE_val _ ⟨rfl, rfl⟩, gE_val _ ⟨rfl, rfl⟩]
    unfold Drivers.learn Drivers.lbd
    rw [this]
  apply ok_of _ ⟨rfl, rfl⟩ le_rfl one_pos
  · simp [md0]
  · simp [md0]
  · simp [md0]
  · simp [md0]
  · simp [md0]
  · intro t ht r hr
    have h1 := area_nonneg (regime := "equal_mitigation_costs") (al := 0) (conv := none) xMit ⟨rfl, rfl⟩ t ht r
    show 0 ≤ xMit.area _ t r + 0
    linarith
  · constructor
    · intro t ht r hr _
      have h1 := area_nonneg (regime := "equal_mitigation_costs") (al := 0) (conv := none) xMit ⟨rfl, rfl⟩ t ht r
      have e1 : (xMit.env m0 (ex "equal_mitigation_costs" 0 none)).R .rel_mitigation_costs t r =
          (xMit.area (ex "equal_mitigation_costs" 0 none) t r + 0) /
            xMit.gross m0 (ex "equal_mitigation_costs" 0 none) t r := rfl
      have e2 : (xMit.env m0 (ex "equal_mitigation_costs" 0 none)).G .effort_sharing_common_level t =
        (x0 fun _ => 0).area (ex "equal_mitigation_costs" 0 none) t "A" / 10 := rfl
      rw [e1, e2, gross_val, ← e t r]
      constructor <;> linarith
    · intro t ht r hr h
      exact absurd (show "equal_mitigation_costs" = "equal_total_costs" from h) (by decide)
    · intro t ht r hr h
      exact absurd (show "equal_mitigation_costs" = "per_cap_convergence" from h) (by decide)
  · intro h; exact absurd h (by decide)

/-! ## Equal total costs through the damage pool -/

noncomputable def xPool0 : Drivers := x0 fun _ => 0
noncomputable abbrev pTot : Params := ex "equal_total_costs" 0 none
def mdPool : Modules := ⟨.COACCH, .notrade, .globaldamagepool, .welfare_loss_minimising, .utility⟩

noncomputable def xPool : Drivers :=
  let d := fun t r => xPool0.dam mdPool pTot t r
  ⟨fun t _ => aPath t, fun _ _ => 0,
    fun t r => if r = "A" then 5 * (d t "B" - d t "A") else 5 * (d t "A" - d t "B"),
    fun t => xPool0.area pTot t "A" / 10 + (d t "A" + d t "B") / 2, none⟩

theorem xPool_cum (t : ℕ) : xPool.cum pTot t = xPool0.cum pTot t := by
  induction t with
  | zero => rfl
  | succ t ih =>
    simp only [Drivers.cum, ih]
    rw [gE_val _ ⟨rfl, rfl⟩, gE_val _ ⟨rfl, rfl⟩, gE_val _ ⟨rfl, rfl⟩, gE_val _ ⟨rfl, rfl⟩]

theorem xPool_temp (t : ℕ) : xPool.temp pTot t = xPool0.temp pTot t := by
  unfold Drivers.temp; rw [xPool_cum]

theorem xPool_slr (t : ℕ) : xPool.slr pTot t = xPool0.slr pTot t := by
  have h : xPool.th pTot t = xPool0.th pTot t ∧ xPool.gs pTot t = xPool0.gs pTot t ∧
      xPool.gi pTot t = xPool0.gi pTot t := by
    induction t with
    | zero => exact ⟨rfl, rfl, rfl⟩
    | succ t ih => simp only [Drivers.th, Drivers.gs, Drivers.gi, ih, xPool_temp, and_self]
  unfold Drivers.slr; rw [h.1, h.2.1, h.2.2]

theorem xPool_dam (t : ℕ) (r : String) : xPool.dam mdPool pTot t r = xPool0.dam mdPool pTot t r := by
  show xPool.damN pTot t r + xPool.damS pTot t r = xPool0.damN pTot t r + xPool0.damS pTot t r
  unfold Drivers.damN Drivers.damS
  rw [xPool_temp, xPool_slr, xPool_slr]

theorem xPool_area (t : ℕ) (r : String) : xPool.area pTot t r = xPool0.area pTot t "A" := by
  rw [area_val _ ⟨rfl, rfl⟩, area_val _ ⟨rfl, rfl⟩]
  unfold Drivers.learn Drivers.lbd
  rw [xPool_cum]

theorem xPool_dam_zero (r : String) : xPool0.dam mdPool pTot 0 r = 0 := by
  show xPool0.damN pTot 0 r + xPool0.damS pTot 0 r = 0
  unfold Drivers.damN Drivers.damS Drivers.temp
  simp [Drivers.cum]

theorem solPool : Solution mdPool pTot (xPool.env mdPool pTot) := by
  apply Drivers.build_solution (admissible le_rfl one_pos)
  have hd : ∀ t ≤ 3, ∀ r ∈ ["A", "B"], 0 ≤ xPool0.dam mdPool pTot t r := fun t ht r hr =>
    dam_nonneg _ ⟨rfl, rfl⟩ _ t ht r hr
  apply ok_of _ ⟨rfl, rfl⟩ le_rfl one_pos
  · simp [mdPool]
  · simp [mdPool]
  · intro _ r hr
    simp only [xPool, xPool_dam_zero]; simp
  · intro _ t ht
    simp [Params.sumR, ex, xPool]; ring
  · intro _ t ht r hr
    rw [gross_val, xPool_dam]
    have hA := hd t ht "A" (by simp)
    have hB := hd t ht "B" (by simp)
    simp only [List.mem_cons, List.not_mem_nil, or_false] at hr
    rcases hr with rfl | rfl
    · simp only [xPool, if_true]; linarith
    · simp only [xPool, show ("B" = "A") = False by simp, if_false]; linarith
  · intro t ht r hr
    show 0 ≤ xPool.area _ t r + 0
    have := area_nonneg (regime := "equal_total_costs") (al := 0) (conv := none) xPool ⟨rfl, rfl⟩ t ht r
    linarith
  · constructor
    · intro t ht r hr h
      exact absurd (show "equal_total_costs" = "equal_mitigation_costs" from h) (by decide)
    · intro t ht r hr _ _
      have e1 : (xPool.env mdPool pTot).R .rel_mitigation_costs t r =
          (xPool.area pTot t r + 0) / xPool.gross mdPool pTot t r := rfl
      have e2 : (xPool.env mdPool pTot).G .effort_sharing_common_level t =
        xPool0.area pTot t "A" / 10 + (xPool0.dam mdPool pTot t "A" + xPool0.dam mdPool pTot t "B") / 2 :=
        rfl
      have e3 : (xPool.env mdPool pTot).R .damage_costs t r = xPool.dam mdPool pTot t r := rfl
      have e4 : relTransferVal (xPool.env mdPool pTot) mdPool.transfer t r =
        xPool.tr t r / xPool.gross mdPool pTot t r := rfl
      have hA := hd t ht "A" (by simp)
      have hB := hd t ht "B" (by simp)
      have hn := area_nonneg (regime := "equal_total_costs") (al := 0) (conv := none) xPool0 ⟨rfl, rfl⟩ t ht "A"
      rw [e1, e2, e3, e4, gross_val, xPool_area, xPool_dam]
      have hr' : r ∈ ["A", "B"] := hr
      simp only [List.mem_cons, List.not_mem_nil, or_false] at hr'
      have hn' : 0 ≤ xPool0.area pTot t "A" := hn
      rcases hr' with rfl | rfl
      · simp only [xPool, if_true]; constructor <;> linarith
      · simp only [xPool, show ("B" = "A") = False by simp, if_false]; constructor <;> linarith
    · intro t ht r hr h
      exact absurd (show "equal_total_costs" = "per_cap_convergence" from h) (by decide)
  · intro h; exact absurd h (by decide)

/-! ## Per-capita convergence with emission trade -/

noncomputable abbrev pCap : Params := ex "per_cap_convergence" 0 (some 2050)
abbrev mdCap : Modules := mdTrade .COACCH .welfare_loss_minimising .utility
noncomputable abbrev xCap : Drivers := x0 fun _ => 0

theorem share_half (t : ℕ) (r : String) : pCap.percapconv_share t r = 1 / 2 := by
  have h1 : pCap.percapconv_share_init r = 1 / 2 := by
    simp [Params.percapconv_share_init, ex]; norm_num
  have h2 : pCap.percapconv_share_pop t r = 1 / 2 := by
    simp [Params.percapconv_share_pop, ex]; norm_num
  unfold Params.percapconv_share
  simp only [h1, h2]
  split
  · rfl
  · rw [← add_mul]
    have : ∀ l : ℝ, min l 1 + max (1 - l) 0 = 1 := by
      intro l
      rcases le_total l 1 with h | h
      · rw [min_eq_left h, max_eq_left (by linarith)]; ring
      · rw [min_eq_right h, max_eq_right (by linarith)]; ring
    rw [this]; ring

theorem solCap : Solution mdCap pCap (xCap.env mdCap pCap) := by
  apply Drivers.build_solution (admissible le_rfl one_pos)
  apply ok_of _ ⟨rfl, rfl⟩ le_rfl one_pos
  · simp [mdTrade]
  · intro _ t ht; simp [Params.sumR, ex, x0]
  · simp [mdTrade]
  · simp [mdTrade]
  · simp [mdTrade]
  · intro t ht r hr
    show 0 ≤ xCap.area _ t r + 0
    have := area_nonneg (regime := "per_cap_convergence") (al := 0) (conv := some 2050) xCap ⟨rfl, rfl⟩ t ht r
    linarith
  · constructor
    · intro t ht r hr h
      exact absurd (show "per_cap_convergence" = "equal_mitigation_costs" from h) (by decide)
    · intro t ht r hr h
      exact absurd (show "per_cap_convergence" = "equal_total_costs" from h) (by decide)
    · intro t ht r hr _
      have e1 : (xCap.env mdCap pCap).R .regional_emission_allowances (t + 1) r =
          20 - (xCap.red pCap (t + 1) r + xCap.redBal pCap (t + 1) r) := rfl
      have e2 : (xCap.env mdCap pCap).G .global_emissions (t + 1) = xCap.gE pCap (t + 1) := rfl
      have e3 : xCap.redBal pCap (t + 1) r = 0 := by simp [Drivers.redBal, x0]
      have e4 : xCap.red pCap (t + 1) r = 20 - xCap.em pCap (t + 1) r := rfl
      rw [share_half, e1, e2, e3, e4, gE_val _ ⟨rfl, rfl⟩, em_val _ ⟨rfl, rfl⟩]
      constructor <;> linarith
  · intro _; rfl

end Mimosa.Ex
