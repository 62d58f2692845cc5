import Verif.Props.Names
import Verif.Props.NoDamage
import Verif.Props.Optimum
import Verif.Props.ExamplesCI

/-! # Concrete cases for C76 -/

namespace Mimosa.Ex
variable (w : WelfareModule) (o : ObjectiveModule)

/-- New names. -/
def toNorth (r : String) : String := if r = "A" then "North" else "South"

/-- The data of the example under new names, the regions in the other order. -/
noncomputable def northSouth (p : Params) : Params := { p with
  regions := ["South", "North"]
  noslr := ⟨fun r => if r = "North" then "Robust-Linear" else "Robust-Quadratic", fun _ => 1, fun _ => 1,
    fun _ => 1, fun _ => 1⟩
  slr := ⟨fun r => if r = "North" then "Robust-Linear" else "Robust-Logistic", fun _ => 1, fun _ => 1,
    fun _ => 1, fun _ => 1⟩ }

theorem northSouth_renamed : Spec.Renamed toNorth free (northSouth free) where
  names := by
    show List.Perm ["South", "North"] (["A", "B"].map toNorth)
    have : ["A", "B"].map toNorth = ["North", "South"] := by decide
    rw [this]; exact List.Perm.swap _ _ []
  distinct := by
    intro r hr s hs
    have hr : r = "A" ∨ r = "B" := by simpa [free, ex] using hr
    have hs : s = "A" ∨ s = "B" := by simpa [free, ex] using hs
    rcases hr with rfl | rfl <;> rcases hs with rfl | rfl <;> decide
  same := by
    intro r hr
    have hr : r = "A" ∨ r = "B" := by simpa [free, ex] using hr
    refine ⟨fun _ _ => rfl, fun _ _ => rfl, fun _ _ => rfl, ⟨?_, rfl, rfl, rfl, rfl⟩, ⟨?_, rfl, rfl, rfl, rfl⟩,
      ⟨rfl, rfl, rfl⟩, ⟨rfl, rfl, rfl⟩, ⟨rfl, rfl, rfl⟩, rfl, rfl⟩ <;> rcases hr with rfl | rfl <;> rfl

/-- A solution with damages and abatement, under the new names. -/
example : ∃ σ τ, Solution (md0 .COACCH w o) free σ ∧ σ.R .relative_abatement 1 "A" = 1 / 2 ∧
    Spec.SameValues toNorth free σ τ ∧ Solution (md0 .COACCH w o) (free.withRegions (northSouth free)) τ := by
  have h := free_sol .COACCH w o mild_half
  have hv : Spec.SameValues toNorth free ((Path.x half).env (md0 .COACCH w o) free)
      ⟨((Path.x half).env (md0 .COACCH w o) free).g, fun v t s =>
        ((Path.x half).env (md0 .COACCH w o) free).r v t (if s = "North" then "A" else "B")⟩ := by
    refine ⟨fun v t _ r hr => ?_, fun _ _ _ => rfl⟩
    have hr : r = "A" ∨ r = "B" := by simpa [free, ex] using hr
    rcases hr with rfl | rfl <;> rfl
  exact ⟨_, _, h, by show half 1 "A" = _; norm_num [half], hv, (C76_region_names northSouth_renamed hv).1.2 h⟩

/-- An optimum, under the new names. -/
example : ∃ τ, Optimal (md0 .nodamage w .utility) (free.withRegions (northSouth free)) τ := by
  have hv : Spec.SameValues toNorth free (σZero w .utility)
      ⟨(σZero w .utility).g, fun v t s => (σZero w .utility).r v t (if s = "North" then "A" else "B")⟩ := by
    refine ⟨fun v t _ r hr => ?_, fun _ _ _ => rfl⟩
    have hr : r = "A" ∨ r = "B" := by simpa [free, ex] using hr
    rcases hr with rfl | rfl <;> rfl
  exact ⟨_, (C76_optimal northSouth_renamed hv).2 (free_optimal w)⟩

/-- Data and values outside the run do not matter. -/
example := C76_unused_data (md := md0 .nodamage w .utility) (p := free) (σ := σZero w .utility) (τ := σZero w .utility)
  (q := { free with population := fun t r => if t ≤ 3 ∧ (r = "A" ∨ r = "B") then 1 else 0 }) rfl
  (fun r hr => by
    have hr : r = "A" ∨ r = "B" := by simpa [free, ex] using hr
    refine ⟨fun t ht => ?_, fun _ _ => rfl, fun _ _ => rfl, ⟨rfl, rfl, rfl, rfl, rfl⟩, ⟨rfl, rfl, rfl, rfl, rfl⟩,
      ⟨rfl, rfl, rfl⟩, ⟨rfl, rfl, rfl⟩, ⟨rfl, rfl, rfl⟩, rfl, rfl⟩
    have ht : t ≤ 3 := ht
    simp [ht, hr, free, ex])
  (fun _ _ _ => rfl) (fun _ _ _ _ _ => rfl)

/-! Twins: the example without damages, with equal damage coefficients. -/

/-- Equal damage coefficients in all regions. -/
noncomputable def even : Params := { free with
  noslr := ⟨fun _ => "Robust-Linear", fun _ => 1, fun _ => 1, fun _ => 1, fun _ => 1⟩
  slr := ⟨fun _ => "Robust-Linear", fun _ => 1, fun _ => 1, fun _ => 1, fun _ => 1⟩ }

theorem even_twins (p : Params) (h1 : p.regions = ["A", "B"]) (h2 : ∀ t, p.population t "B" = p.population t "A")
    (h3 : ∀ t, p.baseline_GDP t "B" = p.baseline_GDP t "A") (h4 : ∀ t, p.baseline_emissions t "B" = p.baseline_emissions t "A")
    (h5 : p.MAC_scaling_factor "B" = p.MAC_scaling_factor "A")
    (h6 : p.init_capitalstock_factor "B" = p.init_capitalstock_factor "A") : Spec.Twins (p.withDamages even) "A" "B" where
  nodup := by show p.regions.Nodup; rw [h1]; decide
  left := by show _ ∈ p.regions; rw [h1]; decide
  right := by show _ ∈ p.regions; rw [h1]; decide
  same := ⟨fun t _ => h2 t, fun t _ => h3 t, fun t _ => h4 t, ⟨rfl, rfl, rfl, rfl, rfl⟩, ⟨rfl, rfl, rfl, rfl, rfl⟩,
    ⟨rfl, rfl, rfl⟩, ⟨rfl, rfl, rfl⟩, ⟨rfl, rfl, rfl⟩, h5, h6⟩

theorem free_twins : Spec.Twins (free.withDamages even) "A" "B" :=
  even_twins free rfl (fun _ => rfl) (fun _ => rfl) (fun _ => rfl) rfl rfl
theorem freeCI_twins : Spec.Twins (freeCI.withDamages even) "A" "B" :=
  even_twins freeCI rfl (fun _ => rfl) (fun _ => rfl) (fun _ => rfl) rfl rfl

theorem even_sol : Solution (md0 .nodamage w o) (free.withDamages even) (σHalf w o) :=
  C70_settings_unused even (free_sol .nodamage w o mild_half) rfl

theorem even_optimal : Optimal (md0 .nodamage w .utility) (free.withDamages even) (σZero w .utility) :=
  ⟨C70_settings_unused even (free_optimal w).1 rfl, fun τ h =>
    (free_optimal w).2 τ (C70_settings_unused (p := free.withDamages even) free h rfl)⟩

example : Solution (md0 .nodamage w o) (free.withDamages even) ((σHalf w o).exchange "A" "B") :=
  (C76_exchange free_twins).1.2 (even_sol w o)

example {t : ℕ} (ht : t ≤ 3) := C76_twins free_twins (even_sol w o) rfl (fun _ _ => rfl) ht

/-- The optimal abatement is unique (zero). -/
example {t : ℕ} (ht : t ≤ 3) : (σZero w .utility).R .relative_abatement t "A" = (σZero w .utility).R .relative_abatement t "B" := by
  refine C76_unique_optimum free_twins (even_optimal w) (fun τ h s hs r hr => ?_) ht
  have h' : Optimal (md0 .nodamage w .utility) free τ := ⟨C70_settings_unused (p := free.withDamages even) free h.1 rfl,
    fun ρ hρ => h.2 ρ (C70_settings_unused even hρ rfl)⟩
  have key := (C66_baseline_run (md := md0 .nodamage w .utility) free_admissible ⟨fun _ => .inl rfl, fun _ => rfl, by simp [free, ex]⟩
    (by norm_num [free, ex]) rfl free_ordinary (by simp [md0]) (by norm_num [free, ex]) (by norm_num [free, ex])
    (by norm_num [free, ex]) (.inl rfl) (fun _ => free_baseline) (by simp [free, ex])).2
  have z : ∀ {σ : Env}, Optimal (md0 .nodamage w .utility) free σ → σ.R .relative_abatement s r = 0 := by
    intro σ hσ
    rcases Nat.eq_zero_or_pos s with rfl | h0
    · exact (C32_no_abatement hσ.1 ⟨by norm_num [free, ex], by norm_num [free, ex], by norm_num [free, ex], by norm_num [free, ex]⟩ hr).1
    · exact (key σ hσ s hs h0 r hr).2.2.1
  rw [z (free_optimal w), z h']

/-- With the carbon-intensity baseline. -/
example : ∃ σ, Solution (md0 .nodamage w o) (freeCI.withDamages even) σ ∧ σ.R .relative_abatement 1 "A" = 1 / 2 ∧
    σ.R .GDP_net 2 "A" = σ.R .GDP_net 2 "B" := by
  obtain ⟨Kf, hU⟩ := favourable_exists (g := 1 / 10) freeCI_admissible
  obtain ⟨σ, h, ha⟩ := C49_path_feasible_carbon_intensity (md := md0 .nodamage w o) freeCI_admissible freeCI_ordinary
    (by norm_num) hU (limitsCI _ rfl) rfl (by simp [md0]) (Or.inl rfl)
  have h1 := C70_settings_unused even h rfl
  refine ⟨σ, h1, by rw [ha]; norm_num [half], (C76_twins_economy freeCI_twins h1 { freeCI_admissible with }
    ⟨(freeCI_ordinary (md := md0 .nodamage w o)).TCRE_nonneg, (freeCI_ordinary (md := md0 .nodamage w o)).lbd_le, (freeCI_ordinary (md := md0 .nodamage w o)).gamma_nonneg, (freeCI_ordinary (md := md0 .nodamage w o)).scaling_nonneg,
      (freeCI_ordinary (md := md0 .nodamage w o)).baseline_nonneg, fun h => by cases h⟩ rfl rfl rfl ⟨fun t _ r _ => ?_, fun _ t ht r hr => ?_⟩
    (fun t _ => by rw [ha, ha]; rfl) (t := 2) (by show 2 ≤ 3; norm_num)).2.2.2.2.1⟩
  · rw [ha]; unfold half; split <;> norm_num
  · have : σ.R .damage_costs t r = 0 := h.eqs.damages t ht r hr
    rw [this]; exact zero_le_one
end Mimosa.Ex
