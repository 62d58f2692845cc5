import Verif.Scc
import Verif.Props.Emissions
import Verif.Props.Climate
import Verif.Props.ExamplesFree
import Verif.Props.Optimum

/-!
# C90: the stand-alone damage calculation agrees with the model

`calculateDamages` of `Scc.lean` and the constraints of the model are two implementations of the same climate and damage
equations.
-/

namespace Mimosa
open Damages

variable {md : Modules} {p : Params} {σ : Env}

/-- A table with the values of a function of year and region. -/
def Spec.table (p : Params) (f : ℕ → String → ℝ) : List (String × List ℝ) :=
  p.regions.map fun r => (r, (List.range (p.tf + 1)).map fun t => f t r)

/-- All functional forms of the damages are known. -/
def Spec.FormsKnown (p : Params) (d : DamageCoeffs) : Prop :=
  ∀ r ∈ p.regions, strContains "Linear" (d.form r) = true ∨ strContains "Quadratic" (d.form r) = true ∨
    strContains "Logistic" (d.form r) = true

namespace Scc

theorem mapM_ok {α β : Type} {f : α → Except Err β} {g : α → β} {l : List α} (h : ∀ a ∈ l, f a = .ok (g a)) :
    l.mapM f = .ok (l.map g) := by
  induction l with
  | nil => rfl
  | cons a l ih =>
    rw [List.mapM_cons, h a (by simp), ih fun b hb => h b (by simp [hb])]
    rfl

theorem mapM_error {α β : Type} {f : α → Except Err β} {e : Err} {l : List α} (h : ∀ a ∈ l, f a = .error e ∨ ∃ b, f a = .ok b)
    (hx : ∃ a ∈ l, f a = .error e) : l.mapM f = .error e := by
  induction l with
  | nil => obtain ⟨a, ha, _⟩ := hx; cases ha
  | cons a l ih =>
    rw [List.mapM_cons]
    rcases h a (by simp) with ha | ⟨b, hb⟩
    · rw [ha]; rfl
    · rw [hb]
      have : ∃ a ∈ l, f a = .error e := by
        obtain ⟨c, hc, he⟩ := hx
        rcases List.mem_cons.1 hc with rfl | hc
        · rw [hb] at he; cases he
        · exact ⟨c, hc, he⟩
      show (l.mapM f >>= fun bs => pure (b :: bs)) = _
      rw [ih (fun c hc => h c (by simp [hc])) this]
      rfl

theorem damage_fct_ok {d : DamageCoeffs} {r : String} (h : strContains "Linear" (d.form r) = true ∨
    strContains "Quadratic" (d.form r) = true ∨ strContains "Logistic" (d.form r) = true) (x x0 : ℝ) :
    damage_fct x x0 d r = .ok (formVal x d r - formVal x0 d r) := by
  unfold damage_fct
  rw [functional_form_real, functional_form_real, if_pos h, if_pos h]

theorem damage_fct_error {d : DamageCoeffs} {r : String} (h : ¬ (strContains "Linear" (d.form r) = true ∨
    strContains "Quadratic" (d.form r) = true ∨ strContains "Logistic" (d.form r) = true)) (x x0 : ℝ) :
    damage_fct x x0 d r = .error .notImplemented := by
  unfold damage_fct
  rw [functional_form_real, functional_form_real, if_neg h]

theorem damageTable_ok {d : DamageCoeffs} (h : Spec.FormsKnown p d) (x : ℕ → ℝ) :
    damageTable p x d = .ok (Spec.table p fun t r => p.damage_scale_factor * (formVal (x t) d r - formVal (x 0) d r)) := by
  unfold damageTable Spec.table
  refine mapM_ok fun r hr => ?_
  rw [mapM_ok (g := fun t => p.damage_scale_factor * (formVal (x t) d r - formVal (x 0) d r))]
  · rfl
  · intro t _
    rw [damage_fct_ok (h r hr)]
    rfl

theorem damageTable_error {d : DamageCoeffs} (h : ¬ Spec.FormsKnown p d) (x : ℕ → ℝ) :
    damageTable p x d = .error .notImplemented := by
  unfold Spec.FormsKnown at h
  push Not at h
  obtain ⟨r, hr, h1⟩ := h
  have key : ∀ q, ((steps p).mapM fun t => (damage_fct (x t) (x 0) d q).map fun v => p.damage_scale_factor * v).map
      (fun row => (q, row)) = .error .notImplemented ∨ ∃ b, ((steps p).mapM fun t =>
        (damage_fct (x t) (x 0) d q).map fun v => p.damage_scale_factor * v).map (fun row => (q, row)) = .ok b := by
    intro q
    by_cases hq : strContains "Linear" (d.form q) = true ∨ strContains "Quadratic" (d.form q) = true ∨
        strContains "Logistic" (d.form q) = true
    · right
      rw [mapM_ok (g := fun t => p.damage_scale_factor * (formVal (x t) d q - formVal (x 0) d q))]
      · exact ⟨_, rfl⟩
      · intro t _; rw [damage_fct_ok hq]; rfl
    · left
      rw [mapM_error (e := .notImplemented)]
      · rfl
      · intro t _; left; rw [damage_fct_error hq]; rfl
      · exact ⟨0, by simp [steps], by rw [damage_fct_error hq]; rfl⟩
  refine mapM_error (fun q _ => key q) ⟨r, hr, ?_⟩
  rw [mapM_error (e := .notImplemented)]
  · rfl
  · intro t _; left; rw [damage_fct_error (by simpa using h1)]; rfl
  · exact ⟨0, by simp [steps], by rw [damage_fct_error (by simpa using h1)]; rfl⟩

theorem upTo_eq (hdt : 0 < p.dt) {k : ℕ} (hk : k ≤ p.tf) [DecidablePred fun s : ℕ => p.year s ≤ p.year k] :
    ((steps p).filter fun s : ℕ => decide (p.year s ≤ p.year k)) = List.range (k + 1) := by
  have h1 : ∀ s : ℕ, decide (p.year s ≤ p.year k) = decide (s < k + 1) := by
    intro s
    rw [decide_eq_decide, Nat.lt_succ_iff]
    unfold Params.year
    push_cast
    constructor
    · intro h
      have : (s : ℝ) * p.dt ≤ k * p.dt := by linarith
      exact_mod_cast le_of_mul_le_mul_right this hdt
    · intro h
      have : (s : ℝ) * p.dt ≤ k * p.dt := mul_le_mul_of_nonneg_right (by exact_mod_cast h) hdt.le
      linarith
  simp only [h1]
  unfold steps
  have : p.tf + 1 = (k + 1) + (p.tf - k) := by omega
  rw [this, List.range_add, List.filter_append, List.filter_eq_self.2, List.filter_eq_nil_iff.2, List.append_nil]
  · intro a ha
    obtain ⟨b, _, rfl⟩ := List.mem_map.1 ha
    simp
    omega
  · intro a ha
    simpa using ha

theorem trapz_range (f x : ℕ → ℝ) (n : ℕ) : Params.trapz ((List.range (n + 1)).map f) ((List.range (n + 1)).map x) =
    ∑ j ∈ Finset.range n, (x (j + 1) - x j) * (f (j + 1) + f j) / 2 := by
  induction n generalizing f x with
  | zero => simp [Params.trapz]
  | succ n ih =>
    rw [Finset.sum_range_succ', List.range_succ_eq_map, List.range_succ_eq_map]
    simp only [List.map_cons, List.map_map, Params.trapz]
    have := ih (fun j => f (j + 1)) (fun j => x (j + 1))
    rw [List.range_succ_eq_map] at this
    simp only [List.map_cons, List.map_map] at this
    rw [add_comm]
    congr 1

theorem cumulativeOf_eq (hdt : 0 < p.dt) (W : ℕ → ℝ) {k : ℕ} (hk : k ≤ p.tf) :
    cumulativeOf p W k = ∑ s ∈ Finset.range k, p.dt * (W (s + 1) + W s) / 2 := by
  unfold cumulativeOf
  simp only
  rw [upTo_eq hdt hk, trapz_range (x := fun s : ℕ => p.year s)]
  refine Finset.sum_congr rfl fun s _ => ?_
  unfold Params.year
  push_cast
  ring

theorem seaOf_eq (h : Solution md p σ) {T : ℕ → ℝ} (hT : ∀ t ≤ p.tf, T t = σ.G .temperature t) {t : ℕ} (ht : t ≤ p.tf) :
    seaOf p T t = (σ.G .slr_thermal t, σ.G .slr_cumgsic t, σ.G .slr_cumgis t) := by
  have e := h.eqs.slr
  induction t with
  | zero => rw [e.thermal_init, e.gsic_init, e.gis_init]; rfl
  | succ t ih =>
    rw [seaOf, ih (by omega), hT t (by omega), e.thermal t ht, e.gsic t ht, e.gis t ht]
    rfl

theorem zip_table (f : ℝ → ℝ → ℝ) (a b : ℕ → String → ℝ) :
    cellwise f (Spec.table p a) (Spec.table p b) = Spec.table p fun t r => f (a t r) (b t r) := by
  unfold cellwise Spec.table
  rw [List.zipWith_map, List.zipWith_self]
  simp [List.zipWith_map, List.zipWith_self]

theorem table_congr {f g : ℕ → String → ℝ} (h : ∀ t ≤ p.tf, ∀ r ∈ p.regions, f t r = g t r) : Spec.table p f = Spec.table p g := by
  unfold Spec.table
  refine List.map_congr_left fun r hr => ?_
  rw [List.map_congr_left]
  intro t ht
  exact h t (by simpa [Nat.lt_succ_iff] using ht) r hr

end Scc

/-! ## C90 -/

/-- **C90.** For the emissions of a solution of the model (trapezoid rule), the stand-alone calculation gives the world
emissions and the temperature of that solution in every year. -/
theorem C90_same_climate (hdt : 0 < p.dt) (htz : p.cumulative_emissions_trapz = true) (h : Solution md p σ)
    {E : ℕ → String → ℝ} (hE : ∀ t ≤ p.tf, ∀ r ∈ p.regions, E t r = σ.R .regional_emissions t r) {out : Scc.Output}
    (ho : Scc.calculateDamages p (some E) = .ok out) :
    out.regional_emissions = Spec.table p (σ.R .regional_emissions ·) ∧
    out.global_emissions = (List.range (p.tf + 1)).map (fun t => σ.G .global_emissions t) ∧
    out.temperature = (List.range (p.tf + 1)).map (fun t => σ.G .temperature t) := by
  have hW : ∀ t ≤ p.tf, Scc.worldOf p E t = σ.G .global_emissions t := by
    intro t ht
    rw [C23_global_is_sum h ht]
    unfold Scc.worldOf
    rw [List.map_congr_left fun r hr => hE t ht r hr]
  have hT : ∀ t ≤ p.tf, Scc.temperatureOf p (Scc.worldOf p E) t = σ.G .temperature t := by
    intro t ht
    unfold Scc.temperatureOf
    rw [Scc.cumulativeOf_eq hdt _ ht, h.eqs.emissions.temperature t ht, C24_trapezoidal h htz ht]
    congr 2
    refine Finset.sum_congr rfl fun s hs => ?_
    have := Finset.mem_range.1 hs
    rw [hW _ (by omega), hW _ (by omega)]
  unfold Scc.calculateDamages at ho
  simp only [Option.getD_some] at ho
  cases h1 : Scc.damageTable p (fun t => Scc.temperatureOf p (Scc.worldOf p E) t - 0.6) p.noslr with
  | error e => rw [h1] at ho; cases ho
  | ok dT =>
    cases h2 : Scc.damageTable p (Scc.slrOf p (Scc.temperatureOf p (Scc.worldOf p E))) p.slr with
    | error e => rw [h1, h2] at ho; cases ho
    | ok dS =>
      rw [h1, h2] at ho
      injection ho with ho
      subst ho
      refine ⟨Scc.table_congr hE, ?_, ?_⟩
      · exact List.map_congr_left fun t ht => hW t (by simpa [Scc.steps, Nat.lt_succ_iff] using ht)
      · exact List.map_congr_left fun t ht => hT t (by simpa [Scc.steps, Nat.lt_succ_iff] using ht)

/-- **C90.** For the emissions of a solution with COACCH damages (trapezoid rule), the stand-alone calculation runs through
and gives the damages of that solution, from temperature, from sea-level rise and in total, for every region and year.
In absolute terms they refer to the baseline GDP. -/
theorem C90_same_damages (hdt : 0 < p.dt) (htz : p.cumulative_emissions_trapz = true) (hco : md.damage = .COACCH)
    (h : Solution md p σ) {E : ℕ → String → ℝ} (hE : ∀ t ≤ p.tf, ∀ r ∈ p.regions, E t r = σ.R .regional_emissions t r) :
    ∃ out, Scc.calculateDamages p (some E) = .ok out ∧
      out.damages_temperature = Spec.table p (σ.R .damage_costs_non_slr ·) ∧
      out.damages_slr = Spec.table p (σ.R .damage_costs_slr ·) ∧
      out.damages_total = Spec.table p (σ.R .damage_costs ·) ∧
      out.damages_absolute = Spec.table p fun t r => σ.R .damage_costs t r * p.baseline_GDP t r := by
  have hc : CoacchEqs p σ := by have := h.eqs.damages; rw [hco] at this; exact this
  have hk : Spec.FormsKnown p p.noslr ∧ Spec.FormsKnown p p.slr := by
    constructor <;> intro r hr
    · have := (hc.noslr 0 (Nat.zero_le _) r hr).1
      unfold FormOk at this
      tauto
    · have := (hc.slr 0 (Nat.zero_le _) r hr).1
      unfold FormOk at this
      tauto
  have hW : ∀ t ≤ p.tf, Scc.worldOf p E t = σ.G .global_emissions t := by
    intro t ht
    rw [C23_global_is_sum h ht]
    unfold Scc.worldOf
    rw [List.map_congr_left fun r hr => hE t ht r hr]
  have hT : ∀ t ≤ p.tf, Scc.temperatureOf p (Scc.worldOf p E) t = σ.G .temperature t := by
    intro t ht
    unfold Scc.temperatureOf
    rw [Scc.cumulativeOf_eq hdt _ ht, h.eqs.emissions.temperature t ht, C24_trapezoidal h htz ht]
    congr 2
    refine Finset.sum_congr rfl fun s hs => ?_
    have := Finset.mem_range.1 hs
    rw [hW _ (by omega), hW _ (by omega)]
  have hT0 : σ.G .temperature 0 = p.T0 := by
    have := h.eqs.emissions.temperature 0 (Nat.zero_le _)
    rw [this, h.eqs.emissions.cumulative_init]
    ring
  have hS : ∀ t ≤ p.tf, Scc.slrOf p (Scc.temperatureOf p (Scc.worldOf p E)) t = σ.G .total_SLR t := by
    intro t ht
    unfold Scc.slrOf
    rw [Scc.seaOf_eq h hT ht, h.eqs.slr.total t ht]
  have dT : Spec.table p (fun t r => p.damage_scale_factor *
        (formVal (Scc.temperatureOf p (Scc.worldOf p E) t - 0.6) p.noslr r -
          formVal (Scc.temperatureOf p (Scc.worldOf p E) 0 - 0.6) p.noslr r)) = Spec.table p (σ.R .damage_costs_non_slr ·) :=
    Scc.table_congr fun t ht r hr => by
      rw [(hc.noslr t ht r hr).2.2, hT t ht, hT 0 (Nat.zero_le _), hT0]
  have dS : Spec.table p (fun t r => p.damage_scale_factor *
        (formVal (Scc.slrOf p (Scc.temperatureOf p (Scc.worldOf p E)) t) p.slr r -
          formVal (Scc.slrOf p (Scc.temperatureOf p (Scc.worldOf p E)) 0) p.slr r)) = Spec.table p (σ.R .damage_costs_slr ·) :=
    Scc.table_congr fun t ht r hr => by
      rw [(hc.slr t ht r hr).2.2, hS t ht, hS 0 (Nat.zero_le _)]
  have hsum : Scc.cellwise (· + ·) (Spec.table p (σ.R .damage_costs_non_slr ·)) (Spec.table p (σ.R .damage_costs_slr ·)) =
      Spec.table p (σ.R .damage_costs ·) := by
    rw [Scc.zip_table]
    exact Scc.table_congr fun t ht r hr => (hc.total t ht r hr).symm
  unfold Scc.calculateDamages
  simp only [Option.getD_some]
  rw [Scc.damageTable_ok hk.1, Scc.damageTable_ok hk.2, dT, dS]
  refine ⟨_, rfl, rfl, rfl, hsum, ?_⟩
  show Scc.cellwise (· * ·) (Scc.cellwise (· + ·) _ _) (Spec.table p p.baseline_GDP) = _
  rw [hsum, Scc.zip_table]

/-- **C90.** Without given emissions the calculation uses the baseline: it then gives the damages of every solution
without abatement (exogenous baseline emissions). -/
theorem C90_baseline (hex : p.use_carbon_intensity_for_baseline = false) (h : Solution md p σ)
    (ha : ∀ t ≤ p.tf, ∀ r ∈ p.regions, σ.R .relative_abatement t r = 0) :
    Scc.calculateDamages p none = Scc.calculateDamages p (some p.baseline_emissions) ∧
    ∀ t ≤ p.tf, ∀ r ∈ p.regions, p.baseline_emissions t r = σ.R .regional_emissions t r := by
  refine ⟨rfl, fun t ht r hr => ?_⟩
  rcases Nat.eq_zero_or_pos t with rfl | h0
  · rw [(C32_emissions h).1 r hr]
  · rw [C23_abated_baseline h ht h0 hr, (C23_baseline h ht hr).1 hex, ha t ht r hr]
    simp

/-- **C90.** With the trapezoid rule switched off in the model the two differ: the stand-alone calculation still uses it,
and its temperature exceeds that of the model by the warming from half a step of the emissions saved since the first
year. -/
theorem C90_without_trapezoid (hdt : 0 < p.dt) (htz : p.cumulative_emissions_trapz = false) (h : Solution md p σ)
    {E : ℕ → String → ℝ} (hE : ∀ t ≤ p.tf, ∀ r ∈ p.regions, E t r = σ.R .regional_emissions t r) {out : Scc.Output}
    (ho : Scc.calculateDamages p (some E) = .ok out) :
    out.temperature = (List.range (p.tf + 1)).map fun t => σ.G .temperature t +
      p.TCRE * (p.dt / 2 * (σ.G .global_emissions 0 - σ.G .global_emissions t)) := by
  have hW : ∀ t ≤ p.tf, Scc.worldOf p E t = σ.G .global_emissions t := by
    intro t ht
    rw [C23_global_is_sum h ht]
    unfold Scc.worldOf
    rw [List.map_congr_left fun r hr => hE t ht r hr]
  have hC : ∀ t ≤ p.tf, ∑ s ∈ Finset.range t, p.dt * (Scc.worldOf p E (s + 1) + Scc.worldOf p E s) / 2 =
      σ.G .cumulative_emissions t + p.dt / 2 * (σ.G .global_emissions 0 - σ.G .global_emissions t) := by
    intro t ht
    induction t with
    | zero => rw [h.eqs.emissions.cumulative_init]; simp
    | succ t ih =>
      rw [Finset.sum_range_succ, ih (by omega), h.eqs.emissions.cumulative t ht, htz, hW _ ht, hW t (by omega)]
      simp only [Bool.false_eq_true, if_false]
      ring
  have hT : ∀ t ≤ p.tf, Scc.temperatureOf p (Scc.worldOf p E) t = σ.G .temperature t +
      p.TCRE * (p.dt / 2 * (σ.G .global_emissions 0 - σ.G .global_emissions t)) := by
    intro t ht
    unfold Scc.temperatureOf
    rw [Scc.cumulativeOf_eq hdt _ ht, hC t ht, h.eqs.emissions.temperature t ht]
    ring
  unfold Scc.calculateDamages at ho
  simp only [Option.getD_some] at ho
  cases h1 : Scc.damageTable p (fun t => Scc.temperatureOf p (Scc.worldOf p E) t - 0.6) p.noslr with
  | error e => rw [h1] at ho; cases ho
  | ok dT =>
    cases h2 : Scc.damageTable p (Scc.slrOf p (Scc.temperatureOf p (Scc.worldOf p E))) p.slr with
    | error e => rw [h1, h2] at ho; cases ho
    | ok dS =>
      rw [h1, h2] at ho
      injection ho with ho
      subst ho
      exact List.map_congr_left fun t ht => hT t (by simpa [Scc.steps, Nat.lt_succ_iff] using ht)

/-- **C90.** It raises `NotImplementedError` exactly if the functional form of some region's damages is unknown, whatever the
emissions; otherwise it returns. -/
theorem C90_raises_iff (E : Option (ℕ → String → ℝ)) :
    (Scc.calculateDamages p E = .error .notImplemented ↔ ¬ (Spec.FormsKnown p p.noslr ∧ Spec.FormsKnown p p.slr)) ∧
    ((∃ out, Scc.calculateDamages p E = .ok out) ↔ Spec.FormsKnown p p.noslr ∧ Spec.FormsKnown p p.slr) := by
  unfold Scc.calculateDamages
  simp only
  by_cases h1 : Spec.FormsKnown p p.noslr
  · rw [Scc.damageTable_ok h1]
    by_cases h2 : Spec.FormsKnown p p.slr
    · rw [Scc.damageTable_ok h2]
      simp [Except.bind, h1, h2]
    · rw [Scc.damageTable_error h2]
      simp [Except.bind, h2]
  · rw [Scc.damageTable_error h1]
    simp [Except.bind, h1]

namespace Ex

/-- The solution that abates half: the stand-alone calculation gives its damages … -/
example (w : WelfareModule) (o : ObjectiveModule) : ∃ σ out, Solution (md0 .COACCH w o) free σ ∧
    σ.R .relative_abatement 1 "A" = 1 / 2 ∧ Scc.calculateDamages free (some fun t r => σ.R .regional_emissions t r) = .ok out ∧
    out.damages_total = Spec.table free (σ.R .damage_costs ·) ∧
    out.temperature = (List.range 4).map fun t => σ.G .temperature t := by
  have h := free_sol .COACCH w o mild_half
  obtain ⟨out, ho, -, -, h3, -⟩ := C90_same_damages (by norm_num [free, ex]) rfl rfl h (fun _ _ _ _ => rfl)
  refine ⟨_, out, h, ?_, ho, h3, (C90_same_climate (by norm_num [free, ex]) rfl h (fun _ _ _ _ => rfl) ho).2.2⟩
  show half 1 "A" = 1 / 2
  norm_num [half]

/-- … and without given emissions those of the baseline. -/
example (w : WelfareModule) (o : ObjectiveModule) : ∃ σ out, Solution (md0 .COACCH w o) free σ ∧
    Scc.calculateDamages free none = .ok out ∧ out.damages_total = Spec.table free (σ.R .damage_costs ·) := by
  have h := free_sol .COACCH w o mild_zero
  obtain ⟨h1, h2⟩ := C90_baseline rfl h fun t ht r hr => rfl
  obtain ⟨out, ho, -, -, h3, -⟩ := C90_same_damages (by norm_num [free, ex]) rfl rfl h h2
  exact ⟨_, out, h, h1.trans ho, h3⟩

end Ex
end Mimosa
