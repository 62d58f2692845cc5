import Verif.Export.Calibration
import Verif.Props.RoundTrip
import Verif.Props.Mitigation
import Verif.Props.Economy
import Verif.Props.ExamplesFree

/-!
# C80: the cost share that the calibration script reports
-/

namespace Mimosa

variable {md : Modules} {m : AbstractModel} {p : Params} {σ : Env} {count : ℕ → ℕ} {units : String → Option (List Char)}
  {rate : ℝ} {k : ℕ}

/-! ## Specification -/

/-- The discounted integral (trapezoid rule) of `x` from step `k` to the last step, discounted to step `k`. -/
noncomputable def Spec.discounted (p : Params) (rate : ℝ) (k : ℕ) (x : ℕ → ℝ) : ℝ :=
  ∑ j ∈ Finset.range (p.tf - k), p.dt * (x (k + j + 1) * Real.exp (-rate * (p.dt * (j + 1))) +
    x (k + j) * Real.exp (-rate * (p.dt * j))) / 2

/-- The global mitigation costs and global gross GDP of a solution. -/
noncomputable def Spec.mitigationCostsOfWorld (p : Params) (σ : Env) (t : ℕ) : ℝ := (p.regions.map fun r => σ.R .mitigation_costs t r).sum
noncomputable def Spec.grossGDPOfWorld (p : Params) (σ : Env) (t : ℕ) : ℝ := (p.regions.map fun r => σ.R .GDP_gross t r).sum

/-- … and as printed in the file. -/
noncomputable def Spec.printedCosts (p : Params) (σ : Env) (t : ℕ) : ℝ :=
  (p.regions.map fun r => (print6g (σ.R .mitigation_costs t r) : ℝ)).sum
noncomputable def Spec.printedGDP (p : Params) (σ : Env) (t : ℕ) : ℝ :=
  (p.regions.map fun r => (print6g (σ.R .GDP_gross t r) : ℝ)).sum

/-! ## The formula -/

theorem trapz_range (f x : ℕ → ℝ) (n : ℕ) : trapz ((List.range (n + 1)).map f) ((List.range (n + 1)).map x) =
    ∑ j ∈ Finset.range n, (x (j + 1) - x j) * (f (j + 1) + f j) / 2 := by
  induction n generalizing f x with
  | zero => simp [trapz]
  | succ n ih =>
    rw [Finset.sum_range_succ', List.range_succ_eq_map, List.range_succ_eq_map]
    simp only [List.map_cons, List.map_map, trapz]
    have := ih (fun j => f (j + 1)) (fun j => x (j + 1))
    rw [List.range_succ_eq_map] at this
    simp only [List.map_cons, List.map_map] at this
    rw [add_comm]
    congr 1

theorem rows_of_variable (hc : StrictMono count) (hb : buildModel count md = .ok m) (hr : p.regions.Nodup) {v : RVar}
    (hv : md.declaresR v = true) :
    ((saveOutput m p units σ).rows.filter fun row => decide (row.variableName = v.name)).Perm
      (p.regions.map fun r => ⟨v.name, r, getUnit (units v.name), p.steps.map fun t : ℕ => print6g (σ.r v t r)⟩) := by
  have hn : (saveOutput m p units σ).rows.Nodup := (C47_unique (units := units) (σ := σ) hc hb hr).of_map
  refine (List.perm_ext_iff_of_nodup (hn.filter _) ?_).2 fun row => ?_
  · exact hr.map fun a b hab => by cases hab; rfl
  · simp only [List.mem_filter, List.mem_map, decide_eq_true_eq]
    constructor
    · rintro ⟨hrow, hname⟩
      rcases (mem_rows hb).1 hrow with ⟨w, -, r, hr', rfl⟩ | ⟨w, -, rfl⟩ | ⟨d, hd, ht, r, hr', rfl⟩
      · obtain rfl := RVar.name_inj hname
        exact ⟨r, hr', rfl⟩
      · exact absurd hname (GVar.name_ne w v)
      · exfalso
        have h1 := savedNames_nodup ((buildModel_isOk hc md).1 ⟨m, hb⟩)
        obtain ⟨hvars, -, -⟩ := buildModel_vars hb
        obtain ⟨lb, ub, hm⟩ := (declaresR_iff_mem hvars v).1 hv
        rw [hvars] at hm
        rw [savedNames, List.nodup_append] at h1
        exact h1.2.2 v.name (List.mem_map.2 ⟨_, hm, rfl⟩) d.name
          (List.mem_map.2 ⟨d, List.mem_filter.2 ⟨hd, by rw [ht]; rfl⟩, rfl⟩) hname.symm
    · rintro ⟨r, hr', rfl⟩
      exact ⟨(mem_rows hb).2 (.inl ⟨v, hv, r, hr', rfl⟩), rfl⟩

theorem columnSums_eq (hc : StrictMono count) (hb : buildModel count md = .ok m) (hr : p.regions.Nodup) {v : RVar}
    (hv : md.declaresR v = true) (hk : k ≤ p.tf) :
    columnSums (saveOutput m p units σ) v.name k (p.tf - k + 1) =
      (List.range (p.tf - k + 1)).map fun j => (p.regions.map fun r => print6g (σ.r v (k + j : ℕ) r)).sum := by
  refine List.map_congr_left fun j hj => ?_
  rw [List.mem_range] at hj
  rw [((rows_of_variable (units := units) (σ := σ) hc hb hr hv).map _).sum_eq, List.map_map]
  congr 1
  refine List.map_congr_left fun r _ => ?_
  rw [Function.comp_apply, List.getD_eq_getElem?_getD, cells_at _ (by omega)]
  rfl

theorem findIdx_years (hy : PlainYears p) (hk : k ≤ p.tf) (h20 : p.year k = 2020) :
    ((saveOutput m p units σ).years.findIdx? fun y => decide (y = 2020)) = some k := by
  have hlen : (saveOutput m p units σ).years.length = p.tf + 1 := by simp [saveOutput, Params.steps]
  have hat : ∀ (t : ℕ) (ht : t < (saveOutput m p units σ).years.length),
      (saveOutput m p units σ).years[t] = print6g (p.year t) := by
    intro t ht; simp [saveOutput, Params.steps]
  have hyr : print6g (p.year k) = 2020 := by
    have := hy.header hk
    rw [h20] at this ⊢
    exact_mod_cast this
  rw [List.findIdx?_eq_some_iff_getElem]
  refine ⟨by omega, ?_, fun j hj => ?_⟩
  · rw [hat, hyr]; rfl
  · rw [hat]
    have e := hy.header (t := j) (by omega)
    have hlt : p.year j < 2020 := by
      rw [← h20]
      simp only [Params.year]
      have : ((j : ℕ) : ℝ) < k := by exact_mod_cast hj
      have := hy.dt_pos
      push_cast
      nlinarith
    intro hc
    have hc' := of_decide_eq_true hc
    rw [hc'] at e
    push_cast at e
    linarith

theorem npv_eq (hy : PlainYears p) (hk : k ≤ p.tf) (x : ℕ → ℚ) :
    npv ((saveOutput m p units σ).years.drop k) ((List.range (p.tf - k + 1)).map fun j => x (k + j)) rate =
      Spec.discounted p rate k fun t => x t := by
  have hyears : (saveOutput m p units σ).years.drop k =
      (List.range (p.tf - k + 1)).map fun j => print6g (p.year (k + j : ℕ)) := by
    refine List.ext_getElem ?_ fun i h1 h2 => ?_
    · simp [saveOutput, Params.steps]; omega
    · simp [saveOutput, Params.steps]
  have hhead : ((List.range (p.tf - k + 1)).map fun j => print6g (p.year (k + j : ℕ))).headD 0 = print6g (p.year k) := by
    rw [List.range_succ_eq_map]; rfl
  unfold npv
  rw [hyears, hhead]
  dsimp only
  rw [List.map_map, List.zipWith_map, List.zipWith_self]
  rw [trapz_range]
  unfold Spec.discounted
  refine Finset.sum_congr rfl fun j hj => ?_
  rw [Finset.mem_range] at hj
  have e : ∀ i : ℕ, i ≤ p.tf - k → ((print6g (p.year (k + i : ℕ)) - print6g (p.year k) : ℚ) : ℝ) = p.dt * i := by
    intro i hi
    rw [Rat.cast_sub, hy.header (by omega), hy.header hk]
    simp only [Params.year]
    push_cast
    ring
  simp only [Function.comp_apply, e j (by omega), e (j + 1) (by omega)]
  push_cast
  rw [add_assoc]
  ring

/-- **C80.** For a file saved from any run whose time grid contains the year 2020, the script reports the trapezoid
integral of the discounted costs from 2020 to the end of the run, divided by that of gross GDP, of the printed values. -/
theorem C80_share (hc : StrictMono count) (hb : buildModel count md = .ok m) (hr : p.regions.Nodup) (hy : PlainYears p)
    (hk : k ≤ p.tf) (h20 : p.year k = 2020) : calibrationShare (saveOutput m p units σ) rate =
      .ok (Spec.discounted p rate k (Spec.printedCosts p σ) / Spec.discounted p rate k (Spec.printedGDP p σ)) := by
  have hlen : ((saveOutput m p units σ).years.drop k).length = p.tf - k + 1 := by
    simp [saveOutput, Params.steps]; omega
  unfold calibrationShare
  rw [findIdx_years hy hk h20]
  dsimp only
  have h1 := columnSums_eq (units := units) (σ := σ) (v := .mitigation_costs) hc hb hr
    (by obtain ⟨d, t, f, w, o⟩ := md; cases d <;> cases t <;> cases f <;> rfl) hk
  have h2 := columnSums_eq (units := units) (σ := σ) (v := .GDP_gross) hc hb hr
    (by obtain ⟨d, t, f, w, o⟩ := md; cases d <;> cases t <;> cases f <;> rfl) hk
  rw [hlen, show "mitigation_costs" = RVar.mitigation_costs.name from rfl, h1,
    show "GDP_gross" = RVar.GDP_gross.name from rfl, h2,
    npv_eq hy hk fun t => (p.regions.map fun r => print6g (σ.r .mitigation_costs t r)).sum,
    npv_eq hy hk fun t => (p.regions.map fun r => print6g (σ.r .GDP_gross t r)).sum]
  congr 2
  · refine congrArg _ (funext fun t => ?_)
    simp only [Spec.printedCosts, Rat.cast_list_sum, List.map_map]
    rfl
  · refine congrArg _ (funext fun t => ?_)
    simp only [Spec.printedGDP, Rat.cast_list_sum, List.map_map]
    rfl

/-- **C80.** Without a column for 2020 the script fails. -/
theorem C80_no_2020 (hy : PlainYears p) (h20 : ∀ t ≤ p.tf, p.year (t : ℕ) ≠ 2020) :
    calibrationShare (saveOutput m p units σ) rate = .error .keyError := by
  have : ((saveOutput m p units σ).years.findIdx? fun y => decide (y = 2020)) = none := by
    rw [List.findIdx?_eq_none_iff]
    intro y hyy
    simp only [saveOutput, Params.steps, List.mem_map, List.mem_range] at hyy
    obtain ⟨t, ht, rfl⟩ := hyy
    have e := hy.header (t := t) (by omega)
    refine decide_eq_false fun hc => h20 t (by omega) ?_
    rw [← e, hc]
    norm_num
  unfold calibrationShare
  rw [this]

/-! ## Accuracy and bounds -/

theorem discounted_mono (hdt : 0 ≤ p.dt) {x y : ℕ → ℝ} (h : ∀ t ≤ p.tf, k ≤ t → x t ≤ y t) :
    Spec.discounted p rate k x ≤ Spec.discounted p rate k y := by
  refine Finset.sum_le_sum fun j hj => ?_
  rw [Finset.mem_range] at hj
  have h1 := h (k + j + 1) (by omega) (by omega)
  have h2 := h (k + j) (by omega) (by omega)
  have e1 := (Real.exp_pos (-rate * (p.dt * (j + 1)))).le
  have e2 := (Real.exp_pos (-rate * (p.dt * j))).le
  have := mul_le_mul_of_nonneg_left (add_le_add (mul_le_mul_of_nonneg_right h1 e1) (mul_le_mul_of_nonneg_right h2 e2)) hdt
  linarith

theorem discounted_smul (c : ℝ) (x : ℕ → ℝ) :
    Spec.discounted p rate k (fun t => c * x t) = c * Spec.discounted p rate k x := by
  unfold Spec.discounted
  rw [Finset.mul_sum]
  exact Finset.sum_congr rfl fun j _ => by ring

theorem discounted_add (x y : ℕ → ℝ) :
    Spec.discounted p rate k (fun t => x t + y t) = Spec.discounted p rate k x + Spec.discounted p rate k y := by
  unfold Spec.discounted
  rw [← Finset.sum_add_distrib]
  exact Finset.sum_congr rfl fun j _ => by ring

theorem discounted_pos (hdt : 0 < p.dt) (hk : k < p.tf) {x : ℕ → ℝ} (h : ∀ t ≤ p.tf, 0 < x t) :
    0 < Spec.discounted p rate k x := by
  refine Finset.sum_pos (fun j hj => ?_) ⟨0, by simp; omega⟩
  rw [Finset.mem_range] at hj
  have h1 := h (k + j + 1) (by omega)
  have h2 := h (k + j) (by omega)
  positivity

theorem sum_abs_sub_le (l : List String) (x y b : String → ℝ) (h : ∀ r ∈ l, |x r - y r| ≤ b r) :
    |(l.map x).sum - (l.map y).sum| ≤ (l.map b).sum := by
  induction l with
  | nil => simp
  | cons r l ih =>
    simp only [List.map_cons, List.sum_cons]
    have h1 := h r (by simp)
    have h2 := ih fun s hs => h s (by simp [hs])
    rw [abs_le] at *
    constructor <;> linarith [h1.1, h1.2, h2.1, h2.2]

theorem share_error {C C' A G G' e : ℝ} (he : 0 < e) (he1 : e < 1) (hG : 0 < G) (hC : |C' - C| ≤ e * A) (hA : |C| ≤ A)
    (hGG : |G' - G| ≤ e * G) : 0 < G' ∧ |C' / G' - C / G| ≤ 2 * e / (1 - e) * (A / G) := by
  rw [abs_le] at hGG
  have hG' : (1 - e) * G ≤ G' := by linarith [hGG.1]
  have h1e : 0 < 1 - e := by linarith
  have hp : 0 < G' := lt_of_lt_of_le (mul_pos h1e hG) hG'
  refine ⟨hp, ?_⟩
  have hA0 : 0 ≤ A := (abs_nonneg C).trans hA
  have e1 : C' / G' - C / G = ((C' - C) * G - C * (G' - G)) / (G' * G) := by field_simp; ring
  have h2 : |(C' - C) * G - C * (G' - G)| ≤ 2 * e * A * G := by
    calc |(C' - C) * G - C * (G' - G)| ≤ |(C' - C) * G| + |C * (G' - G)| := abs_sub _ _
      _ = |C' - C| * G + |C| * |G' - G| := by rw [abs_mul, abs_mul, abs_of_pos hG]
      _ ≤ e * A * G + A * (e * G) := by
        have := mul_le_mul hA (abs_le.2 hGG) (abs_nonneg _) hA0
        have := mul_le_mul_of_nonneg_right hC hG.le
        linarith
      _ = 2 * e * A * G := by ring
  rw [e1, abs_div, abs_of_pos (mul_pos hp hG), div_le_iff₀ (mul_pos hp hG)]
  refine h2.trans ?_
  have : 2 * e / (1 - e) * (A / G) * (G' * G) = 2 * e * A * (G' / (1 - e)) := by field_simp
  rw [this]
  have : G ≤ G' / (1 - e) := by rw [le_div_iff₀ h1e]; linarith
  nlinarith [mul_nonneg (mul_nonneg (by norm_num : (0:ℝ) ≤ 2) he.le) hA0]

theorem grossGDPOfWorld_pos (h : Solution md p σ) (hd : Spec.EconData p) {t : ℕ} (ht : t ≤ p.tf) : 0 < Spec.grossGDPOfWorld p σ t := by
  refine List.sum_pos _ (fun x hx => ?_) (by simpa using h.regions_ne)
  obtain ⟨r, hr, rfl⟩ := List.mem_map.1 hx
  exact C37_gross_positive h hd ht hr

/-- **C80.** The reported share is that of the solution itself, up to the rounding of the file: the error is at most
0.0011 % of the discounted absolute costs of the regions, relative to GDP. -/
theorem C80_accuracy (h : Solution md p σ) (hd : Spec.EconData p) (hdt : 0 < p.dt) (hk : k < p.tf) :
    |Spec.discounted p rate k (Spec.printedCosts p σ) / Spec.discounted p rate k (Spec.printedGDP p σ) -
      Spec.discounted p rate k (Spec.mitigationCostsOfWorld p σ) / Spec.discounted p rate k (Spec.grossGDPOfWorld p σ)| ≤
    0.000011 * (Spec.discounted p rate k (fun t => (p.regions.map fun r => |σ.R .mitigation_costs t r|).sum) /
      Spec.discounted p rate k (Spec.grossGDPOfWorld p σ)) := by
  have hG := discounted_pos (rate := rate) hdt hk fun t ht => grossGDPOfWorld_pos h hd ht
  have cost : ∀ t ≤ p.tf, |Spec.printedCosts p σ t - Spec.mitigationCostsOfWorld p σ t| ≤
      5 / 1000000 * (p.regions.map fun r => |σ.R .mitigation_costs t r|).sum := by
    intro t _
    rw [← List.sum_map_mul_left]
    exact sum_abs_sub_le _ _ _ _ fun r _ => C47_accuracy _
  have gdp : ∀ t ≤ p.tf, |Spec.printedGDP p σ t - Spec.grossGDPOfWorld p σ t| ≤ 5 / 1000000 * Spec.grossGDPOfWorld p σ t := by
    intro t ht
    unfold Spec.printedGDP Spec.grossGDPOfWorld
    rw [← List.sum_map_mul_left]
    refine sum_abs_sub_le _ _ _ _ fun r hr => ?_
    have := C47_accuracy (σ.R .GDP_gross t r)
    rwa [abs_of_pos (C37_gross_positive h hd ht hr)] at this
  have D : ∀ x y b : ℕ → ℝ, (∀ t ≤ p.tf, |x t - y t| ≤ 5 / 1000000 * b t) →
      |Spec.discounted p rate k x - Spec.discounted p rate k y| ≤ 5 / 1000000 * Spec.discounted p rate k b := by
    intro x y b hb
    have h1 := discounted_mono (rate := rate) (k := k) hdt.le (x := x) (y := fun t => y t + 5 / 1000000 * b t)
      fun t ht _ => by linarith [(abs_le.1 (hb t ht)).2]
    have h2 := discounted_mono (rate := rate) (k := k) hdt.le (x := y) (y := fun t => x t + 5 / 1000000 * b t)
      fun t ht _ => by linarith [(abs_le.1 (hb t ht)).1]
    rw [discounted_add, discounted_smul] at h1 h2
    rw [abs_le]
    constructor <;> linarith
  have hA : |Spec.discounted p rate k (Spec.mitigationCostsOfWorld p σ)| ≤
      Spec.discounted p rate k (fun t => (p.regions.map fun r => |σ.R .mitigation_costs t r|).sum) := by
    have habs : ∀ t, |Spec.mitigationCostsOfWorld p σ t| ≤ (p.regions.map fun r => |σ.R .mitigation_costs t r|).sum := by
      intro t
      have := sum_abs_sub_le p.regions (fun r => σ.R .mitigation_costs t r) (fun _ => 0)
        (fun r => |σ.R .mitigation_costs t r|) fun r _ => by rw [sub_zero]
      simpa [Spec.mitigationCostsOfWorld] using this
    rw [abs_le]
    constructor
    · have := discounted_mono (rate := rate) (k := k) hdt.le
        (x := fun t => -1 * (p.regions.map fun r => |σ.R .mitigation_costs t r|).sum) (y := Spec.mitigationCostsOfWorld p σ)
        fun t ht _ => by linarith [(abs_le.1 (habs t)).1]
      rw [discounted_smul] at this
      linarith
    · exact discounted_mono hdt.le fun t ht _ => (abs_le.1 (habs t)).2
  obtain ⟨-, hfin⟩ := share_error (e := 5 / 1000000) (by norm_num) (by norm_num) hG (D _ _ _ cost) hA (D _ _ _ gdp)
  refine hfin.trans ?_
  have hq : 0 ≤ Spec.discounted p rate k (fun t => (p.regions.map fun r => |σ.R .mitigation_costs t r|).sum) /
      Spec.discounted p rate k (Spec.grossGDPOfWorld p σ) := div_nonneg ((abs_nonneg _).trans hA) hG.le
  exact mul_le_mul_of_nonneg_right (by norm_num) hq

/-- **C80.** The share of the solution lies between the smallest and the largest yearly share of global mitigation costs
in GDP that the model itself reports. -/
theorem C80_between (h : Solution md p σ) (hd : Spec.EconData p) (hdt : 0 < p.dt) (hk : k < p.tf) {lo hi : ℝ}
    (hb : ∀ t ≤ p.tf, k ≤ t → lo ≤ σ.G .global_rel_mitigation_costs (t : ℕ) ∧ σ.G .global_rel_mitigation_costs (t : ℕ) ≤ hi) :
    lo ≤ Spec.discounted p rate k (Spec.mitigationCostsOfWorld p σ) / Spec.discounted p rate k (Spec.grossGDPOfWorld p σ) ∧
    Spec.discounted p rate k (Spec.mitigationCostsOfWorld p σ) / Spec.discounted p rate k (Spec.grossGDPOfWorld p σ) ≤ hi := by
  have hG := discounted_pos (rate := rate) hdt hk fun t ht => grossGDPOfWorld_pos h hd ht
  have key : ∀ t ≤ p.tf, Spec.mitigationCostsOfWorld p σ t = σ.G .global_rel_mitigation_costs t * Spec.grossGDPOfWorld p σ t := by
    intro t ht
    rw [C33_global h ht]
    exact (div_mul_cancel₀ _ (grossGDPOfWorld_pos h hd ht).ne').symm
  rw [le_div_iff₀ hG, div_le_iff₀ hG, ← discounted_smul, ← discounted_smul]
  exact ⟨discounted_mono hdt.le fun t ht hkt => by
      rw [key t ht]; exact mul_le_mul_of_nonneg_right (hb t ht hkt).1 (grossGDPOfWorld_pos h hd ht).le,
    discounted_mono hdt.le fun t ht hkt => by
      rw [key t ht]; exact mul_le_mul_of_nonneg_right (hb t ht hkt).2 (grossGDPOfWorld_pos h hd ht).le⟩

/-- **C80.** If relative mitigation costs may not be negative (the default), the reported share is not negative, and it is
that of the solution up to a relative error of 0.0011 %. -/
theorem C80_relative_accuracy (h : Solution md p σ) (hd : Spec.EconData p) (hdt : 0 < p.dt) (hk : k < p.tf)
    (hmin : 0 ≤ p.rel_mitigation_costs_min_level) :
    0 ≤ Spec.discounted p rate k (Spec.printedCosts p σ) / Spec.discounted p rate k (Spec.printedGDP p σ) ∧
    |Spec.discounted p rate k (Spec.printedCosts p σ) / Spec.discounted p rate k (Spec.printedGDP p σ) -
      Spec.discounted p rate k (Spec.mitigationCostsOfWorld p σ) / Spec.discounted p rate k (Spec.grossGDPOfWorld p σ)| ≤
    0.000011 * (Spec.discounted p rate k (Spec.mitigationCostsOfWorld p σ) / Spec.discounted p rate k (Spec.grossGDPOfWorld p σ)) := by
  have hcost : ∀ t ≤ p.tf, ∀ r ∈ p.regions, 0 ≤ σ.R .mitigation_costs t r := by
    intro t ht r hr
    obtain ⟨h1, h2, h3, h4⟩ := C33_relative h ht hr
    have hg := C37_gross_positive h hd ht hr
    have hrel : 0 ≤ σ.R .rel_mitigation_costs t r := by
      rcases Nat.eq_zero_or_pos t with h0 | h0
      · exact h4 h0
      · exact hmin.trans (h3 h0)
    rw [h2, le_div_iff₀ hg, zero_mul] at hrel
    exact hrel
  have e : Spec.discounted p rate k (fun t => (p.regions.map fun r => |σ.R .mitigation_costs t r|).sum) =
      Spec.discounted p rate k (Spec.mitigationCostsOfWorld p σ) := by
    have : ∀ t ≤ p.tf, (p.regions.map fun r => |σ.R .mitigation_costs t r|).sum = Spec.mitigationCostsOfWorld p σ t := fun t ht =>
      congrArg List.sum (List.map_congr_left fun r hr => abs_of_nonneg (hcost t ht r hr))
    exact le_antisymm (discounted_mono hdt.le fun t ht _ => (this t ht).le)
      (discounted_mono hdt.le fun t ht _ => (this t ht).ge)
  have ha := C80_accuracy (rate := rate) h hd hdt hk
  rw [e] at ha
  refine ⟨?_, ha⟩
  have hG := discounted_pos (rate := rate) hdt hk fun t ht => grossGDPOfWorld_pos h hd ht
  have hC : 0 ≤ Spec.discounted p rate k (Spec.mitigationCostsOfWorld p σ) := by
    have := discounted_mono (rate := rate) (k := k) hdt.le (x := fun t => 0 * Spec.grossGDPOfWorld p σ t) (y := Spec.mitigationCostsOfWorld p σ)
      fun t ht _ => by
        rw [zero_mul]
        exact List.sum_nonneg fun x hx => by
          obtain ⟨r, hr, rfl⟩ := List.mem_map.1 hx
          exact hcost t ht r hr
    rwa [discounted_smul, zero_mul] at this
  have hq := div_nonneg hC hG.le
  have := (abs_le.1 ha).1
  norm_num at this hq ⊢
  nlinarith

/-- **C80.** Without abatement costs the share is zero. -/
theorem C80_no_costs (hz : ∀ t ≤ p.tf, k ≤ t → ∀ r ∈ p.regions, σ.R .mitigation_costs (t : ℕ) r = 0) :
    Spec.discounted p rate k (Spec.printedCosts p σ) / Spec.discounted p rate k (Spec.printedGDP p σ) = 0 := by
  have : Spec.discounted p rate k (Spec.printedCosts p σ) = 0 := by
    refine Finset.sum_eq_zero fun j hj => ?_
    rw [Finset.mem_range] at hj
    have hx : ∀ t ≤ p.tf, k ≤ t → Spec.printedCosts p σ t = 0 := fun t ht hkt => by
      unfold Spec.printedCosts
      rw [List.map_congr_left (g := fun _ => (0 : ℝ)) fun r hr => by rw [hz t ht hkt r hr, print6g_zero]; norm_num]
      simp
    rw [hx _ (by omega) (by omega), hx _ (by omega) (by omega)]
    simp
  rw [this, zero_div]

/-- **C80.** Runs can be compared: with nowhere higher costs and nowhere lower GDP, the share is not higher. -/
theorem C80_compare {md' : Modules} {p' : Params} {σ' : Env} (h' : Solution md' p' σ') (hd' : Spec.EconData p') (htf : p'.tf = p.tf) (hdt' : p'.dt = p.dt) (hdt : 0 < p.dt)
    (hk : k < p.tf) (hcost : ∀ t ≤ p.tf, k ≤ t → Spec.mitigationCostsOfWorld p σ t ≤ Spec.mitigationCostsOfWorld p' σ' t)
    (hpos : ∀ t ≤ p.tf, k ≤ t → 0 ≤ Spec.mitigationCostsOfWorld p' σ' t)
    (hgdp : ∀ t ≤ p.tf, k ≤ t → Spec.grossGDPOfWorld p' σ' t ≤ Spec.grossGDPOfWorld p σ t) :
    Spec.discounted p rate k (Spec.mitigationCostsOfWorld p σ) / Spec.discounted p rate k (Spec.grossGDPOfWorld p σ) ≤
      Spec.discounted p' rate k (Spec.mitigationCostsOfWorld p' σ') / Spec.discounted p' rate k (Spec.grossGDPOfWorld p' σ') := by
  have e : ∀ x, Spec.discounted p' rate k x = Spec.discounted p rate k x := by
    intro x; unfold Spec.discounted; rw [htf, hdt']
  have hG' := discounted_pos (p := p') (rate := rate) (k := k) (by rw [hdt']; exact hdt) (by rw [htf]; exact hk)
    fun t ht => grossGDPOfWorld_pos h' hd' ht
  rw [e, e]
  rw [e] at hG'
  have hC : 0 ≤ Spec.discounted p rate k (Spec.mitigationCostsOfWorld p' σ') := by
    have := discounted_mono (rate := rate) (k := k) hdt.le (x := fun t => 0 * Spec.grossGDPOfWorld p σ t) (y := Spec.mitigationCostsOfWorld p' σ')
      fun t ht hkt => by rw [zero_mul]; exact hpos t ht hkt
    rwa [discounted_smul, zero_mul] at this
  exact div_le_div₀ hC (discounted_mono hdt.le hcost) hG' (discounted_mono hdt.le hgdp)

/-- **C80.** All together: for the file of a solved run that starts at the latest in 2020 and ends after it, where relative
costs may not be negative, the script reports a share that is at least 0 and that lies, up to the rounding of the file,
between the smallest and the largest yearly cost share since 2020. -/
theorem C80_reported (hc : StrictMono count) (hb : buildModel count md = .ok m) (hr : p.regions.Nodup) (hy : PlainYears p)
    (h : Solution md p σ) (hd : Spec.EconData p) (hk : k < p.tf) (h20 : p.year k = 2020)
    (hmin : 0 ≤ p.rel_mitigation_costs_min_level) :
    ∃ s, calibrationShare (saveOutput m p units σ) rate = .ok s ∧ 0 ≤ s ∧ ∀ lo hi : ℝ,
      (∀ t ≤ p.tf, k ≤ t → lo ≤ σ.G .global_rel_mitigation_costs (t : ℕ) ∧ σ.G .global_rel_mitigation_costs (t : ℕ) ≤ hi) →
      lo * 0.999989 ≤ s ∧ s ≤ hi * 1.000011 := by
  obtain ⟨h1, h2⟩ := C80_relative_accuracy (rate := rate) h hd hy.dt_pos hk hmin
  refine ⟨_, C80_share hc hb hr hy hk.le h20, h1, fun lo hi hb => ?_⟩
  obtain ⟨h3, h4⟩ := C80_between (rate := rate) h hd hy.dt_pos hk hb
  rw [abs_le] at h2
  norm_num at h2 ⊢
  constructor <;> linarith [h2.1, h2.2]

open Ex in
/-- A concrete case: the run of the example, from 2020 to 2140. -/
example : ∃ count m, StrictMono count ∧ buildModel count m0 = .ok m ∧
    ∃ s, calibrationShare (saveOutput m p0 (fun _ => none) σ0) (3 / 100) = .ok s ∧ 0 ≤ s := by
  obtain ⟨count, hc, m, inst, hb, hi, hf⟩ := sol0
  obtain ⟨s, h1, h2, -⟩ := C80_reported (units := fun _ => none) (rate := 3 / 100) (k := 0) hc hb
    (by show ["A", "B"].Nodup; decide) p0_plain sol0 (admissible (by norm_num) (by norm_num)).econData
    (by show 0 < 3; omega) (by norm_num [ex, Params.year]) (by norm_num [ex])
  exact ⟨count, m, hc, hb, s, h1, h2⟩

open Ex in
/-- … and one whose grid does not contain the year 2020. -/
example (m : AbstractModel) : calibrationShare (saveOutput m { p0 with beginyear := 2025 } (fun _ => none) σ0) (3 / 100) =
    .error .keyError := by
  refine C80_no_2020 ⟨by norm_num [ex], by norm_num [ex], by norm_num [ex, Params.year], fun t _ =>
    ⟨202500 + 4000 * t, by simp only [ex, Params.year]; push_cast; ring⟩⟩ fun t ht => ?_
  simp only [ex, Params.year]
  have : (0 : ℝ) ≤ t := Nat.cast_nonneg t
  push_cast
  intro h
  linarith

open Ex in
/-- … the path without abatement: the share is zero. -/
example (w : WelfareModule) (o : ObjectiveModule) := C80_no_costs (p := free) (k := 0) (rate := 3 / 100) (σ := σZero w o)
  fun t _ _ r _ => free_cost_zero w o t r

open Ex in
/-- … which is not higher than the share of the path that abates half of the emissions. -/
example (w : WelfareModule) (o : ObjectiveModule) := C80_compare (p := free) (k := 0) (rate := 3 / 100) (σ := σZero w o)
  (free_sol .nodamage w o mild_half) free_admissible.econData rfl rfl free_admissible.dt_pos (by show 0 < 3; omega)
  (fun t ht _ => List.sum_le_sum fun r hr => by
    rw [free_cost_zero]; exact (free_cons (free_sol .nodamage w o mild_half) ht hr).2)
  (fun t ht _ => List.sum_nonneg fun x hx => by
    obtain ⟨r, hr, rfl⟩ := List.mem_map.1 hx
    exact (free_cons (free_sol .nodamage w o mild_half) ht hr).2)
  (fun t ht _ => List.sum_le_sum fun r hr => by
    rw [free_gross (free_sol .nodamage w o mild_half) ht hr, free_gross (free_sol .nodamage w o mild_zero) ht hr])

end Mimosa
