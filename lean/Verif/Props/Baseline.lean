import Verif.Props.SimulationConfig
import Verif.Props.Existence
import Verif.Props.ExistenceCI
import Verif.Props.ExamplesFree
import Verif.Props.Emissions
import Verif.Props.Mitigation

/-!
# C78: a simulated run without abatement is the baseline

`run_baseline.py` (repository root) imposes `relative_abatement = 0` for all regions in simulation mode.
-/

namespace Mimosa

variable {X : SimWorld} {md : Modules} {m : AbstractModel} {p : Params} {σ : Env}
  {count count' : ℕ → ℕ} {inst inst' : AbstractModel.Instance}

/-! ## Specification -/

/-- scipy's spline through points that are all on the axis is the axis. -/
def Spec.KeepsZero (spline : List (ℚ × ℚ) → Except Err (ℝ → ℝ)) : Prop :=
  ∀ pts f, (∀ a ∈ pts, a.2 = 0) → spline pts = .ok f → ∀ x, f x = 0

/-- A table of zeros: at least four years in increasing order, one row for each region of the model. -/
structure Spec.ZeroTable (p : Params) (T : SimTable) : Prop where
  years : T.years.Pairwise (· < ·)
  enough : 4 ≤ T.years.length
  regions : ∀ r ∈ p.regions, ∃ row ∈ T.rows, row.1 = r
  cells : ∀ row ∈ T.rows, row.2 = T.years.map fun _ => 0

/-- The settings of run_baseline.py:14-20: the relative abatement is imposed, from a dictionary of zeros; nothing is
deactivated. -/
structure Spec.NoPolicyRun (X : SimWorld) (p : Params) (s : SimSettings) : Prop where
  on : s.on = true
  fixed : ∃ d T, s.fixed = [("relative_abatement", .data d)] ∧ X.frame d = .ok T ∧ Spec.ZeroTable p T
  disabled : s.disabled = []

/-! ## The imposed curve is zero -/

theorem lastTwo_zero : {l : List ℚ} → 2 ≤ l.length → lastTwo (l.map fun _ => (0 : ℚ)) = some (0, 0)
  | [], h => by simp at h
  | [_], h => by simp at h
  | [_, _], _ => rfl
  | _ :: b :: c :: l, _ => by
    simp only [List.map_cons, lastTwo]
    exact lastTwo_zero (l := b :: c :: l) (by simp)

theorem lastTwo_some : {l : List ℚ} → 2 ≤ l.length → ∃ a b, lastTwo l = some (a, b)
  | [], h => by simp at h
  | [_], h => by simp at h
  | [a, b], _ => ⟨a, b, rfl⟩
  | _ :: b :: c :: l, _ => by
    simp only [lastTwo]
    exact lastTwo_some (l := b :: c :: l) (by simp)

theorem extrapLoop_zero (stab : ℚ) : (t : ℚ) → (extra : List ℚ) → extrapLoop 0 stab t 0 extra = extra.map fun _ => 0
  | _, [] => rfl
  | t, s :: l => by
    have h0 : extrapChange 0 stab t = 0 := by simp [extrapChange]
    simp only [extrapLoop, h0, List.map_cons, zero_mul, add_zero, extrapLoop_zero stab s l]

theorem extrapolate_zero {years extra : List ℚ} (h : 2 ≤ years.length) :
    extrapolate (years.map fun _ => 0) years extra = .ok ((years ++ extra).map fun _ => 0) := by
  obtain ⟨a, b, hab⟩ := lastTwo_some h
  unfold extrapolate
  rw [lastTwo_zero h, hab]
  simp [extrapLoop_zero]

theorem zero_points {years : List ℚ} : ∀ a ∈ years.zip (years.map fun _ => (0 : ℚ)), a.2 = 0 := by
  intro a ha
  have := (List.of_mem_zip ha).2
  simpa using (List.mem_map.1 this).choose_spec.2.symm

theorem Spec.ZeroTable.two {T : SimTable} (hT : Spec.ZeroTable p T) : 2 ≤ T.years.length := by have := hT.enough; omega

theorem imposed_zero {name : String} {d : Val} {T : SimTable} {region : String} {f : ℝ → ℝ}
    (hX : Spec.KeepsZero X.spline) (hT : Spec.ZeroTable p T) (hd : X.frame d = .ok T)
    (hi : Imposed X name (.data d) region f) (x : ℝ) : f x = 0 := by
  obtain ⟨T', values, last, ext, h1, ⟨pre, post, h2, -⟩, h3, h4, h5⟩ := hi
  have h1' : X.frame d = .ok T' := h1
  rw [hd, Except.ok.injEq] at h1'
  subst h1'
  have hv : values = T.years.map fun _ => 0 := hT.cells (region, values) (by rw [h2]; simp)
  rw [hv, extrapolate_zero hT.two, Except.ok.injEq] at h4
  subst h4
  exact hX _ _ zero_points h5 x

theorem simExtraYears_pairwise {years : List ℚ} {last : ℚ} (hy : years.Pairwise (· < ·))
    (hl : years.getLast? = some last) : (years ++ simExtraYears last).Pairwise (· < ·) :=
  simExtraYears_increasing hy hl

theorem zero_row {T : SimTable} (hS : BuildsSplines X.spline) (hT : Spec.ZeroTable p T) {row : String × List ℚ}
    (hr : row ∈ T.rows) : ∃ last ext f, T.years.getLast? = some last ∧
      extrapolate row.2 T.years (simExtraYears last) = .ok ext ∧
      X.spline ((T.years ++ simExtraYears last).zip ext) = .ok f := by
  have hne : T.years ≠ [] := by rintro h; have := hT.enough; rw [h] at this; simp at this
  obtain ⟨last, hl⟩ : ∃ last, T.years.getLast? = some last := ⟨_, List.getLast?_eq_getLast_of_ne_nil hne⟩
  obtain ⟨f, hf⟩ := hS ((T.years ++ simExtraYears last).zip ((T.years ++ simExtraYears last).map fun _ => 0))
    (by rw [List.map_fst_zip (by simp)]; exact simExtraYears_pairwise hT.years hl)
    (by have := hT.enough; simp; omega)
  exact ⟨last, _, f, hl, by rw [hT.cells row hr]; exact extrapolate_zero hT.two, hf⟩

theorem last_row_exists {β : Type} : {rows : List (String × β)} → {r : String} → (∃ row ∈ rows, row.1 = r) →
    ∃ v, LastRow rows r v
  | [], r, ⟨row, h, _⟩ => by cases h
  | (n, v) :: rows, r, h => by
    by_cases hc : ∃ row ∈ rows, row.1 = r
    · obtain ⟨w, hw⟩ := last_row_exists hc
      exact ⟨w, lastRow_cons.2 (.inl hw)⟩
    · obtain ⟨row, hm, hn⟩ := h
      rcases List.mem_cons.1 hm with rfl | hm
      · exact ⟨_, [], rows, by rw [← hn]; rfl, fun e he heq => hc ⟨e, he, heq⟩⟩
      · exact absurd ⟨row, hm, hn⟩ hc

theorem zero_imposed {name : String} {d : Val} {T : SimTable} (hS : BuildsSplines X.spline)
    (hT : Spec.ZeroTable p T) (hd : X.frame d = .ok T) {r : String} (hr : r ∈ p.regions) :
    ∃ f, Imposed X name (.data d) r f := by
  obtain ⟨v, hv⟩ := last_row_exists (hT.regions r hr)
  obtain ⟨last, ext, f, h1, h2, h3⟩ := zero_row hS hT (row := (r, v)) (by
    obtain ⟨pre, post, h, -⟩ := hv
    rw [h]
    simp)
  exact ⟨f, T, v, last, ext, hd, hv, h1, h2, h3⟩

/-! ## C78 -/

/-- **C78.** The run of run_baseline.py is accepted, and every path without abatement that the model allows is a
feasible point of it. -/
theorem C78_run_exists {s : SimSettings} (hZ : Spec.KeepsZero X.spline) (hS : BuildsSplines X.spline)
    (hrun : Spec.NoPolicyRun X p s) (hc : StrictMono count) (hc' : StrictMono count')
    (hlater : ∀ i < m.constraints.length, ∀ j, count i < count' j) (hb : buildModel count md = .ok m)
    (hi : m.createInstance p = .ok inst) :
    ∃ inst', simulationMode X count' m s inst = .ok inst' ∧ ∀ σ, inst.Feasible σ →
      (∀ t ≤ p.tf, ∀ r ∈ p.regions, σ.R .relative_abatement t r = 0) → inst'.Feasible σ := by
  obtain ⟨d, T, hfix, hd, hT⟩ := hrun.fixed
  obtain ⟨inst', h'⟩ := (C46_accepted_iff (X := X) (s := s) hc hc' hlater hb hi hrun.on (by simp [hrun.disabled])).2 (by
    rw [hfix, hrun.disabled]
    refine ⟨?_, by simp⟩
    intro e he
    obtain rfl : e = ("relative_abatement", .data d) := by simpa using he
    refine ⟨⟨T, hd, ?_, fun e he => zero_row hS hT he⟩, .inl ⟨.relative_abatement, rfl, rfl, fun r hr => zero_imposed hS hT hd hr⟩⟩
    rintro h
    have := hT.enough
    rw [h] at this
    simp at this)
  refine ⟨inst', h', fun σ hf h0 => C46_only_relaxes h' hrun.on (by simp [hrun.disabled]) hf ?_⟩
  intro e he
  rw [hfix] at he
  obtain rfl : e = ("relative_abatement", .data d) := by simpa using he
  rw [(createInstance_fields hi).1]
  constructor
  · intro v hv t ht r hr
    obtain rfl : v = .relative_abatement := RVar.name_inj hv
    obtain ⟨f, hf⟩ := zero_imposed (name := "relative_abatement") hS hT hd hr
    refine ⟨f, hf, ?_⟩
    rw [imposed_zero hZ hT hd hf, show σ.r .relative_abatement t r = 0 from h0 t ht r hr]
    norm_num
  · intro v hv
    exact absurd hv (GVar.name_ne v .relative_abatement)

/-- **C78.** In such a run every feasible point is a solution of the model that abates at most 0.1 % anywhere: the
emissions of every region differ from its baseline by at most 0.1 % of it. -/
theorem C78_near_baseline {s : SimSettings} (hZ : Spec.KeepsZero X.spline) (hrun : Spec.NoPolicyRun X p s)
    (hc : StrictMono count) (hb : buildModel count md = .ok m) (hi : m.createInstance p = .ok inst)
    (h : simulationMode X count' m s inst = .ok inst') (hf : inst'.Feasible σ) :
    Solution md p σ ∧ ∀ t ≤ p.tf, ∀ r ∈ p.regions,
      0 ≤ σ.R .relative_abatement t r ∧ σ.R .relative_abatement t r ≤ 1 / 1000 ∧
      (0 < t → |σ.R .regional_emissions t r - σ.R .baseline t r| ≤ |σ.R .baseline t r| / 1000) := by
  have hsol := C46_solution hc hb hi h hrun.disabled hf
  obtain ⟨d, T, hfix, hd, hT⟩ := hrun.fixed
  obtain ⟨-, -, hfx⟩ := (C46_feasible_iff h hrun.on (by simp [hrun.disabled])).1 hf
  have hF := (hfx _ (by rw [hfix]; exact List.mem_cons_self)).1 .relative_abatement rfl
  rw [(createInstance_fields hi).1] at hF
  refine ⟨hsol, fun t ht r hr => ?_⟩
  obtain ⟨f, h1, h2⟩ := hF t ht r hr
  rw [imposed_zero hZ hT hd h1, sub_zero] at h2
  have h3 : |σ.R .relative_abatement t r| ≤ 1 / 1000 := h2
  have h4 := hsol.abatement_bounds ht hr
  refine ⟨h4.1, (abs_le.1 h3).2, fun h0 => ?_⟩
  rw [C23_abated_baseline hsol ht h0 hr, show (1 - σ.R .relative_abatement t r) * σ.R .baseline t r - σ.R .baseline t r =
    -(σ.R .relative_abatement t r * σ.R .baseline t r) by ring, abs_neg, abs_mul]
  have := mul_le_mul_of_nonneg_right h3 (abs_nonneg (σ.R .baseline t r))
  linarith

/-- **C78.** Carbon prices and abatement costs of such a run are at most those of abating 0.1 %. -/
theorem C78_negligible_costs {s : SimSettings} (hZ : Spec.KeepsZero X.spline) (hrun : Spec.NoPolicyRun X p s)
    (hc : StrictMono count) (hb : buildModel count md = .ok m) (hi : m.createInstance p = .ok inst)
    (h : simulationMode X count' m s inst = .ok inst') (hf : inst'.Feasible σ)
    (hlot : -1 < p.LOT_rate) (hg : 0 ≤ p.MAC_gamma) (hbeta : 0 ≤ p.MAC_beta) {t : ℕ} (ht : t ≤ p.tf) {r : String}
    (hr : r ∈ p.regions) (hs : 0 ≤ p.MAC_scaling_factor r) (hE : 0 ≤ σ.R .baseline t r) :
    σ.R .carbonprice t r ≤ σ.G .learning_factor t * p.MAC_scaling_factor r * p.MAC_gamma * (1 / 1000) ^ p.MAC_beta ∧
    σ.R .area_under_MAC t r ≤ σ.G .learning_factor t * p.MAC_scaling_factor r * p.MAC_gamma *
      (1 / 1000) ^ (p.MAC_beta + 1) / (p.MAC_beta + 1) * σ.R .baseline t r ∧
    (md.trade = .notrade → σ.R .mitigation_costs t r = σ.R .area_under_MAC t r) := by
  obtain ⟨hsol, hall⟩ := C78_near_baseline hZ hrun hc hb hi h hf
  obtain ⟨h1, h2, -⟩ := hall t ht r hr
  have hL := C31_positive hsol hlot ht
  have hk : 0 ≤ σ.G .learning_factor t * p.MAC_scaling_factor r * p.MAC_gamma :=
    mul_nonneg (mul_nonneg hL.2.2.le hs) hg
  refine ⟨?_, ?_, fun htr => ?_⟩
  · rw [(hsol.eqs.mitigation.carbonprice t ht r hr).2]
    exact mul_le_mul_of_nonneg_left (Real.rpow_le_rpow h1 h2 hbeta) hk
  · rw [(hsol.eqs.mitigation.area t ht r hr).2]
    refine mul_le_mul_of_nonneg_right ?_ hE
    exact div_le_div_of_nonneg_right (mul_le_mul_of_nonneg_left (Real.rpow_le_rpow h1 h2 (by linarith)) hk) (by linarith)
  · rw [(hsol.eqs.mitigation.area t ht r hr).2, (hsol.eqs.mitigation.mitigation_costs t ht r hr).2, htr, costBalanceVal]
    simp

/-- **C78.** With exogenous baseline emissions, cumulative emissions are at most 0.1 % below, and the temperature at most
0.1 % of its rise below, those of the path without any abatement, and never above them. -/
theorem C78_temperature {s : SimSettings} (hZ : Spec.KeepsZero X.spline) (hrun : Spec.NoPolicyRun X p s)
    (hc : StrictMono count) (hb : buildModel count md = .ok m) (hi : m.createInstance p = .ok inst)
    (h : simulationMode X count' m s inst = .ok inst') (hf : inst'.Feasible σ)
    (hex : p.use_carbon_intensity_for_baseline = false) (hdt : 0 ≤ p.dt) (hT : 0 ≤ p.TCRE)
    (hE : ∀ t ≤ p.tf, ∀ r ∈ p.regions, 0 ≤ p.baseline_emissions t r) {md₀ : Modules} {σ₀ : Env}
    (h₀ : Solution md₀ p σ₀) (hzero : ∀ t ≤ p.tf, ∀ r ∈ p.regions, σ₀.R .relative_abatement t r = 0) {t : ℕ}
    (ht : t ≤ p.tf) :
    (999 / 1000 * σ₀.G .cumulative_emissions t ≤ σ.G .cumulative_emissions t ∧
      σ.G .cumulative_emissions t ≤ σ₀.G .cumulative_emissions t) ∧
    σ₀.G .temperature t - (σ₀.G .temperature t - p.T0) / 1000 ≤ σ.G .temperature t ∧
      σ.G .temperature t ≤ σ₀.G .temperature t := by
  obtain ⟨hsol, hall⟩ := C78_near_baseline hZ hrun hc hb hi h hf
  have hem : ∀ t ≤ p.tf, 999 / 1000 * σ₀.G .global_emissions t ≤ σ.G .global_emissions t ∧
      σ.G .global_emissions t ≤ σ₀.G .global_emissions t := by
    intro t ht
    rw [C23_global_is_sum hsol ht, C23_global_is_sum h₀ ht]
    have key : ∀ r ∈ p.regions, 999 / 1000 * σ₀.R .regional_emissions t r ≤ σ.R .regional_emissions t r ∧
        σ.R .regional_emissions t r ≤ σ₀.R .regional_emissions t r := by
      intro r hr
      have hnn := hE t ht r hr
      rcases Nat.eq_zero_or_pos t with rfl | h0
      · rw [hsol.eqs.emissions.regional_emissions_init r hr, h₀.eqs.emissions.regional_emissions_init r hr]
        constructor <;> linarith
      · rw [C23_abated_baseline hsol ht h0 hr, C23_abated_baseline h₀ ht h0 hr, hzero t ht r hr,
          (C23_baseline hsol ht hr).1 hex, (C23_baseline h₀ ht hr).1 hex]
        obtain ⟨a1, a2, -⟩ := hall t ht r hr
        constructor <;> nlinarith
    constructor
    · have := sumR_le (p := p) fun r hr => (key r hr).1
      rw [sumR_mul_left] at this
      exact this
    · exact sumR_le (p := p) fun r hr => (key r hr).2
  have hcum : ∀ t ≤ p.tf, 999 / 1000 * σ₀.G .cumulative_emissions t ≤ σ.G .cumulative_emissions t ∧
      σ.G .cumulative_emissions t ≤ σ₀.G .cumulative_emissions t := by
    intro t
    induction t with
    | zero =>
      intro _
      rw [hsol.eqs.emissions.cumulative_init, h₀.eqs.emissions.cumulative_init]
      norm_num
    | succ t ih =>
      intro ht
      obtain ⟨i1, i2⟩ := ih (by omega)
      obtain ⟨a1, a2⟩ := hem (t + 1) ht
      obtain ⟨b1, b2⟩ := hem t (by omega)
      rw [hsol.eqs.emissions.cumulative t ht, h₀.eqs.emissions.cumulative t ht]
      have m1 := mul_le_mul_of_nonneg_left a1 hdt
      have m2 := mul_le_mul_of_nonneg_left a2 hdt
      have m3 := mul_le_mul_of_nonneg_left b1 hdt
      have m4 := mul_le_mul_of_nonneg_left b2 hdt
      split <;> constructor <;> nlinarith
  obtain ⟨c1, c2⟩ := hcum t ht
  refine ⟨⟨c1, c2⟩, ?_⟩
  rw [hsol.eqs.emissions.temperature t ht, h₀.eqs.emissions.temperature t ht]
  have m1 := mul_le_mul_of_nonneg_left c1 hT
  have m2 := mul_le_mul_of_nonneg_left c2 hT
  constructor <;> linarith

/-- **C78.** From the configuration: if the user's settings switch simulation mode on and impose a dictionary of zeros
on the relative abatement (run_baseline.py), the simulation settings of the run are those above. -/
theorem C78_configured {B : Builtins} {uni : Char → Bool} {user params : Val} {tree : Py Parser} (hu : user.WF)
    (h : mimosaParams B uni DefaultYaml.entries user = .ok (params, tree)) {d : Val} {T : SimTable}
    (hS : Spec.SimulationConfigured user [("relative_abatement", .data d)] []) (hd : X.frame d = .ok T)
    (hT : Spec.ZeroTable p T) : ∃ s, readSimulation params = .ok s ∧ Spec.NoPolicyRun X p s :=
  ⟨_, C46_on hu h hS, rfl, ⟨d, T, rfl, hd, hT⟩, rfl⟩

/-! ## A concrete case -/

open Ex

theorem exampleSpline_zero : Spec.KeepsZero exampleSpline := by
  intro pts f h hf x
  unfold exampleSpline at hf
  split at hf
  · cases hf
    simp only
    split
    · rename_i a ha
      rw [h a (List.mem_of_find?_eq_some ha)]
      simp
    · rfl
  · cases hf

/-- The table of zeros for the two regions of the example. -/
def zeroTable : SimTable := ⟨[2020, 2060, 2100, 2140], [("A", [0, 0, 0, 0]), ("B", [0, 0, 0, 0])]⟩

noncomputable def zeroWorld : SimWorld := ⟨fun _ => none, fun _ => .ok zeroTable, exampleSpline⟩

def zeroSettings : SimSettings := ⟨true, [("relative_abatement", .data zeroAbatement)], []⟩

theorem zeroTable_ok : Spec.ZeroTable free zeroTable where
  years := by simp [zeroTable]; norm_num
  enough := by simp [zeroTable]
  regions := by
    intro r hr
    have : r = "A" ∨ r = "B" := by simpa [free, ex] using hr
    rcases this with rfl | rfl <;> simp [zeroTable]
  cells := by
    intro row hr
    simp only [zeroTable, List.mem_cons, List.not_mem_nil, or_false] at hr
    rcases hr with rfl | rfl <;> rfl

def isNull : Val → Bool
  | .atom .null => true
  | _ => false

/-- The settings of run_baseline.py as a configuration. -/
def baselineUser : Val := exDict
  [("emissions", exDict [("carbonbudget", .atom (.bool false))]),
   ("simulation", exDict
    [("simulationmode", .atom (.bool true)), ("constraint_variables", exDict [("relative_abatement", zeroAbatement)])])]

theorem baselineUser_configured : Spec.SimulationConfigured baselineUser [("relative_abatement", .data zeroAbatement)] [] where
  on := ⟨_, .inl rfl, by simp [WrittenTrue]⟩
  variables_given := ⟨_, .inl rfl, .inr rfl⟩
  names := by decide
  sources := by
    intro e he d hd
    obtain rfl : e = _ := by simpa using he
    cases hd
    rfl
  plain := by
    intro e he
    obtain rfl : e = _ := by simpa using he
    exact zeroDict_plain _ _
  constraints_given := by
    obtain ⟨u, h1, h2⟩ := effective_default (user := baselineUser)
      (ks := [.str "simulation", .str "deactivated_constraints"]) isNull (by decide +kernel) rfl
    refine ⟨u, h1, .inl ⟨?_, rfl⟩⟩
    unfold isNull at h2
    split at h2
    · rfl
    · cases h2

example : baselineUser.WF ∧ ∃ params tree s, mimosaParams exampleBuiltins (fun _ => false) DefaultYaml.entries
    baselineUser = .ok (params, tree) ∧ readSimulation params = .ok s ∧ Spec.NoPolicyRun zeroWorld free s := by
  have hu : baselineUser.WF := by
    simp [baselineUser, zeroAbatement, zeroDict, exDict, Py.WF, Py.WFDict, Dict.keys]
  have key : (match mimosaParams exampleBuiltins (fun _ => false) DefaultYaml.entries baselineUser with
    | .ok _ => true
    | .error _ => false) = true := by decide +kernel
  split at key
  · rename_i r hr
    obtain ⟨s, h1, h2⟩ := C78_configured hu hr baselineUser_configured (X := zeroWorld) rfl zeroTable_ok
    exact ⟨hu, r.1, r.2, s, hr, h1, h2⟩
  · cases key

theorem zeroRun : Spec.NoPolicyRun zeroWorld free zeroSettings :=
  ⟨rfl, ⟨zeroAbatement, zeroTable, rfl, rfl, zeroTable_ok⟩, rfl⟩

/-- The simulated run exists, the path without abatement is one of its feasible points. -/
example (w : WelfareModule) (o : ObjectiveModule) : ∃ count m inst count' inst', StrictMono count ∧
    buildModel count (md0 .COACCH w o) = .ok m ∧ m.createInstance free = .ok inst ∧
    simulationMode zeroWorld count' m zeroSettings inst = .ok inst' ∧ ∃ σ, inst'.Feasible σ ∧
      999 / 1000 * 20 ≤ σ.R .regional_emissions 2 "A" := by
  have hsol := free_sol .COACCH w o mild_zero
  obtain ⟨count, hc, m, inst, hb, hi, hf⟩ := hsol
  obtain ⟨inst', h', hall⟩ := C78_run_exists (count' := fun j => count m.constraints.length + 1 + j) exampleSpline_zero
    exampleSpline_builds zeroRun hc (fun i j hij => by show _ + i < _ + j; omega)
    (fun i hi j => by have := hc hi; omega) hb hi
  have hfz := hall _ hf fun t _ r _ => rfl
  refine ⟨count, m, inst, _, inst', hc, hb, hi, h', _, hfz, ?_⟩
  obtain ⟨hsol, hnb⟩ := C78_near_baseline exampleSpline_zero zeroRun hc hb hi h' hfz
  have h3 := (hnb 2 (by simp [free, ex]) "A" (by simp [free, ex])).2.2 (by norm_num)
  have h4 := (C23_baseline hsol (t := 2) (by simp [free, ex]) (r := "A") (by simp [free, ex])).1 rfl
  have h5 : free.baseline_emissions 2 "A" = 20 := by norm_num [free, ex]
  rw [h4, h5] at h3
  have := (abs_le.1 h3).1
  norm_num at this ⊢
  linarith

end Mimosa
