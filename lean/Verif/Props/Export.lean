import Verif.Export.Save
import Verif.Lib.Scope
import Verif.Lib.Example2
import Verif.Props.Scenario
import Verif.Props.Simulation

/-!
# C47: the saved output table
-/

namespace Mimosa

variable {md : Modules} {m : AbstractModel} {p : Params} {σ : Env} {units : String → Option (List Char)} {count : ℕ → ℕ}

/-! ## Printed numbers -/

theorem roundHalfEven_error (x : ℝ) : |(roundHalfEven x : ℝ) - x| ≤ 1 / 2 := by
  have h0 := Int.floor_le x
  have h1 := Int.lt_floor_add_one x
  unfold roundHalfEven
  rw [abs_le]
  split_ifs <;> push_cast <;> constructor <;> linarith

theorem roundHalfEven_int (k : ℤ) : roundHalfEven (k : ℝ) = k := by
  unfold roundHalfEven
  simp

theorem roundHalfEven_mono {x y : ℝ} (h : x ≤ y) : roundHalfEven x ≤ roundHalfEven y := by
  have hf : ⌊x⌋ ≤ ⌊y⌋ := Int.floor_mono h
  rcases hf.lt_or_eq with hlt | heq
  · have h1 : roundHalfEven x ≤ ⌊x⌋ + 1 := by unfold roundHalfEven; split_ifs <;> omega
    have h2 : ⌊y⌋ ≤ roundHalfEven y := by unfold roundHalfEven; split_ifs <;> omega
    omega
  · unfold roundHalfEven
    rw [heq]
    split_ifs <;> first | omega | linarith

theorem print6g_zero : print6g 0 = 0 := by simp [print6g]

theorem print6g_cast {x : ℝ} (hx : x ≠ 0) :
    ((print6g x : ℚ) : ℝ) = roundHalfEven (x / (10 : ℝ) ^ lastDigit x) * (10 : ℝ) ^ lastDigit x := by
  unfold print6g
  rw [if_neg hx]
  push_cast
  rfl

theorem print6g_error {x : ℝ} (hx : x ≠ 0) : |(print6g x : ℝ) - x| ≤ (10 : ℝ) ^ lastDigit x / 2 := by
  have hpos : (0 : ℝ) < (10 : ℝ) ^ lastDigit x := zpow_pos (by norm_num) _
  rw [print6g_cast hx]
  have e : (roundHalfEven (x / (10 : ℝ) ^ lastDigit x) : ℝ) * (10 : ℝ) ^ lastDigit x - x =
      (roundHalfEven (x / (10 : ℝ) ^ lastDigit x) - x / (10 : ℝ) ^ lastDigit x) * (10 : ℝ) ^ lastDigit x := by
    field_simp
  rw [e, abs_mul, abs_of_pos hpos]
  have := roundHalfEven_error (x / (10 : ℝ) ^ lastDigit x)
  nlinarith

/-- **C47.** Every saved number is the value to six significant digits: it is wrong by at most 5 units in the sixth
place after the leading digit. -/
theorem C47_accuracy (x : ℝ) : |(print6g x : ℝ) - x| ≤ 5 / 1000000 * |x| := by
  by_cases hx : x = 0
  · simp [hx, print6g_zero]
  have h1 := print6g_error hx
  have h2 : (10 : ℝ) ^ Int.log 10 |x| ≤ |x| := Int.zpow_log_le_self (by norm_num) (abs_pos.2 hx)
  have h3 : (10 : ℝ) ^ lastDigit x = (10 : ℝ) ^ Int.log 10 |x| / 100000 := by
    unfold lastDigit
    rw [zpow_sub₀ (by norm_num)]
    norm_num
  rw [h3] at h1
  linarith

/-- **C47.** Zero is saved as zero, and signs are kept. -/
theorem C47_sign (x : ℝ) : (0 < x → 0 < print6g x) ∧ (x < 0 → print6g x < 0) ∧ print6g 0 = 0 := by
  have h := abs_le.1 (C47_accuracy x)
  refine ⟨fun hx => ?_, fun hx => ?_, print6g_zero⟩
  · rw [abs_of_pos hx] at h
    have : (0 : ℝ) < print6g x := by linarith [h.1]
    exact_mod_cast this
  · rw [abs_of_neg hx] at h
    have : (print6g x : ℝ) < 0 := by linarith [h.2]
    exact_mod_cast this

theorem log10_of {x : ℝ} {k : ℕ} (h1 : (10 : ℝ) ^ k ≤ |x|) (h2 : |x| < (10 : ℝ) ^ (k + 1)) : Int.log 10 |x| = k := by
  have hx : 0 < |x| := lt_of_lt_of_le (by positivity) h1
  refine le_antisymm ?_ ?_
  · have : Int.log 10 |x| < (k : ℤ) + 1 := by
      rw [← Int.lt_zpow_iff_log_lt (by norm_num) hx]
      exact_mod_cast h2
    omega
  · rw [← Int.zpow_le_iff_le_log (by norm_num) hx]
    exact_mod_cast h1

/-- Numbers below 1000 are saved to within half a thousandth. -/
theorem print6g_small {x : ℝ} (h : |x| < 1000) : |(print6g x : ℝ) - x| ≤ 1 / 2000 := by
  by_cases hx : x = 0
  · simp [hx, print6g_zero]
  have hp := abs_pos.2 hx
  have h1 : Int.log 10 |x| < 3 := by
    rw [← Int.lt_zpow_iff_log_lt (by norm_num) hp]
    norm_num
    exact h
  have h2 : (10 : ℝ) ^ lastDigit x ≤ (10 : ℝ) ^ (-3 : ℤ) :=
    zpow_le_zpow_right₀ (by norm_num) (by unfold lastDigit; omega)
  have := print6g_error hx
  norm_num at h2 this ⊢
  linarith

/-- Numbers from 1000 to 10000 (such as years) are saved with two decimals. -/
theorem print6g_year {x : ℝ} (h1 : 1000 ≤ x) (h2 : x < 10000) :
    print6g x = (roundHalfEven (100 * x) : ℚ) / 100 := by
  have hx : x ≠ 0 := by linarith
  have ha : |x| = x := abs_of_pos (by linarith)
  have hl : lastDigit x = -2 := by
    unfold lastDigit
    rw [log10_of (k := 3) (by rw [ha]; norm_num; exact h1) (by rw [ha]; norm_num; exact h2)]
    norm_num
  unfold print6g
  rw [if_neg hx, hl]
  have : x / (10 : ℝ) ^ (-2 : ℤ) = 100 * x := by norm_num; ring
  rw [this]
  norm_num
  ring

/-- **C47.** A year with at most two decimals is its own column header. -/
theorem C47_year_exact {x : ℝ} (h1 : 1000 ≤ x) (h2 : x < 10000) {k : ℤ} (hk : 100 * x = k) :
    (print6g x : ℝ) = x := by
  rw [print6g_year h1 h2, hk, roundHalfEven_int]
  push_cast
  linarith

theorem print6g_year_lt {x y : ℝ} (h1 : 1000 ≤ x) (h2 : y < 10000) (h : x + 2 / 100 ≤ y) : print6g x < print6g y := by
  rw [print6g_year h1 (by linarith), print6g_year (by linarith) h2]
  have hx := abs_le.1 (roundHalfEven_error (100 * x))
  have hy := abs_le.1 (roundHalfEven_error (100 * y))
  have : (roundHalfEven (100 * x) : ℝ) < roundHalfEven (100 * y) := by linarith [hx.2, hy.1]
  have : roundHalfEven (100 * x) < roundHalfEven (100 * y) := by exact_mod_cast this
  have : (roundHalfEven (100 * x) : ℚ) < roundHalfEven (100 * y) := by exact_mod_cast this
  linarith

/-! ## The columns -/

/-- **C47.** There is one year column per time step, and the headers are strictly increasing (so they are distinct),
for years between 1000 and 9999 and steps of at least 0.02 years. -/
theorem C47_headers (hd : 2 / 100 ≤ p.dt) (h1 : 1000 ≤ p.beginyear) (h2 : p.year p.tf < 10000) :
    (saveOutput m p units σ).years.length = p.tf + 1 ∧ (saveOutput m p units σ).years.Pairwise (· < ·) := by
  constructor
  · simp [saveOutput, Params.steps]
  · simp only [saveOutput, Params.steps, List.pairwise_map]
    refine List.pairwise_lt_range.imp_of_mem ?_
    intro a b ha hb hab
    rw [List.mem_range] at ha hb
    have hab' : (a : ℝ) + 1 ≤ b := by exact_mod_cast hab
    have hbt : (b : ℝ) ≤ p.tf := by exact_mod_cast Nat.lt_succ_iff.1 hb
    refine print6g_year_lt ?_ ?_ ?_ <;> simp only [Params.year] at * <;> push_cast at * <;>
      nlinarith [Nat.cast_nonneg (α := ℝ) a]

/-! ## The rows -/

theorem mem_rows {row : SavedRow} (hb : buildModel count md = .ok m) : row ∈ (saveOutput m p units σ).rows ↔
    (∃ v : RVar, md.declaresR v = true ∧ ∃ r ∈ p.regions, row = ⟨v.name, r, getUnit (units v.name),
      p.steps.map fun t : ℕ => print6g (σ.r v t r)⟩) ∨
    (∃ v : GVar, md.declaresG v = true ∧ row = ⟨v.name, "Global", getUnit (units v.name),
      p.steps.map fun t : ℕ => print6g (σ.g v t)⟩) ∨
    (∃ d ∈ allParams md, d.dims = .overTR ∧ ∃ r ∈ p.regions, row = ⟨d.name, r, getUnit (units d.name),
      p.steps.map fun t : ℕ => print6g (trParam p d.name t r)⟩) := by
  obtain ⟨hv, hp, -⟩ := buildModel_vars hb
  simp only [saveOutput, List.mem_append, List.mem_flatMap, List.mem_filter]
  rw [← or_assoc]
  refine or_congr ?_ ?_
  · constructor
    · rintro ⟨d, hd, h⟩
      cases d with
      | global v lb ub =>
        simp only [varToRows, List.mem_singleton] at h
        exact .inr ⟨v, (declaresG_iff_mem hv v).2 ⟨lb, ub, hd⟩, h⟩
      | regional v lb ub =>
        simp only [varToRows, List.mem_map] at h
        obtain ⟨r, hr, rfl⟩ := h
        exact .inl ⟨v, (declaresR_iff_mem hv v).2 ⟨lb, ub, hd⟩, r, hr, rfl⟩
    · rintro (⟨v, hd, r, hr, rfl⟩ | ⟨v, hd, rfl⟩)
      · obtain ⟨lb, ub, h⟩ := (declaresR_iff_mem hv v).1 hd
        exact ⟨_, h, List.mem_map.2 ⟨r, hr, rfl⟩⟩
      · obtain ⟨lb, ub, h⟩ := (declaresG_iff_mem hv v).1 hd
        exact ⟨_, h, List.mem_singleton.2 rfl⟩
  · rw [hp]
    constructor
    · rintro ⟨d, ⟨hd, ht⟩, h⟩
      simp only [paramToRows, List.mem_map] at h
      obtain ⟨r, hr, rfl⟩ := h
      refine ⟨d, hd, ?_, r, hr, rfl⟩
      revert ht
      cases d.dims <;> simp [Dims.isTR]
    · rintro ⟨d, hd, ht, r, hr, rfl⟩
      exact ⟨d, ⟨hd, by rw [ht]; rfl⟩, List.mem_map.2 ⟨r, hr, rfl⟩⟩

theorem cells_at (f : ℕ → ℚ) {t : ℕ} (ht : t ≤ p.tf) : (p.steps.map f)[t]? = some (f t) := by
  simp [Params.steps, Nat.lt_succ_of_le ht]

/-- **C47.** Each regional variable of the model has a row for every region, with its values in the order of the
columns. -/
theorem C47_regional_row (hb : buildModel count md = .ok m) {v : RVar} (hv : md.declaresR v = true) {r : String}
    (hr : r ∈ p.regions) : ∃ row ∈ (saveOutput m p units σ).rows, row.variableName = v.name ∧ row.region = r ∧
      row.cells.length = p.tf + 1 ∧ ∀ t ≤ p.tf, row.cells[t]? = some (print6g (σ.r v t r)) :=
  ⟨_, (mem_rows hb).2 (.inl ⟨v, hv, r, hr, rfl⟩), rfl, rfl, by simp [Params.steps], fun t ht => cells_at _ ht⟩

/-- **C47.** Each global variable of the model has a row with region "Global". -/
theorem C47_global_row (hb : buildModel count md = .ok m) {v : GVar} (hv : md.declaresG v = true) :
    ∃ row ∈ (saveOutput m p units σ).rows, row.variableName = v.name ∧ row.region = "Global" ∧
      row.cells.length = p.tf + 1 ∧ ∀ t ≤ p.tf, row.cells[t]? = some (print6g (σ.g v t)) :=
  ⟨_, (mem_rows hb).2 (.inr (.inl ⟨v, hv, rfl⟩)), rfl, rfl, by simp [Params.steps], fun t ht => cells_at _ ht⟩

/-- **C47.** The three data series (and likewise every other parameter over time and regions) have a row for every
region. -/
theorem C47_data_rows (hb : buildModel count md = .ok m) {r : String} (hr : r ∈ p.regions) :
    (∃ row ∈ (saveOutput m p units σ).rows, row.variableName = "population" ∧ row.region = r ∧
      row.cells.length = p.tf + 1 ∧ ∀ t ≤ p.tf, row.cells[t]? = some (print6g (p.population t r))) ∧
    (∃ row ∈ (saveOutput m p units σ).rows, row.variableName = "baseline_GDP" ∧ row.region = r ∧
      row.cells.length = p.tf + 1 ∧ ∀ t ≤ p.tf, row.cells[t]? = some (print6g (p.baseline_GDP t r))) ∧
    (∃ row ∈ (saveOutput m p units σ).rows, row.variableName = "baseline_emissions" ∧ row.region = r ∧
      row.cells.length = p.tf + 1 ∧ ∀ t ≤ p.tf, row.cells[t]? = some (print6g (p.baseline_emissions t r))) := by
  have key : ∀ d ∈ allParams md, d.dims = .overTR → ∃ row ∈ (saveOutput m p units σ).rows, row.variableName = d.name ∧
      row.region = r ∧ row.cells.length = p.tf + 1 ∧ ∀ t ≤ p.tf, row.cells[t]? = some (print6g (trParam p d.name t r)) :=
    fun d hd ht => ⟨_, (mem_rows hb).2 (.inr (.inr ⟨d, hd, ht, r, hr, rfl⟩)), rfl, rfl, by simp [Params.steps],
      fun t ht => cells_at _ ht⟩
  refine ⟨key ⟨"population", .overTR, .str "timeandregional::population"⟩ ?_ rfl,
    key ⟨"baseline_GDP", .overTR, .str "timeandregional::GDP"⟩ ?_ rfl,
    key ⟨"baseline_emissions", .overTR, .str "timeandregional::emissions"⟩ ?_ rfl⟩ <;>
  exact List.mem_append_left _ (by simp [baseParams])

/-- There is a row of that name for the region, showing the values `f 0, ..., f tf` in the order of the columns. -/
def Spec.HasRow (p : Params) (rows : List SavedRow) (name r : String) (f : ℕ → ℝ) : Prop :=
  ∃ row ∈ rows, row.variableName = name ∧ row.region = r ∧ row.cells.length = p.tf + 1 ∧
    ∀ t ≤ p.tf, row.cells[t]? = some (print6g (f t))

/-- **C47.** The parameters that the model computes from the data are saved with the values that are used in the
equations: cumulative baseline emissions, the carbon intensity of the baseline, the two allowance shares (`C43` says
what they are) and total factor productivity; and so are the trade balances and transfers of a model without them,
which are zero. -/
theorem C47_computed_rows (hb : buildModel count md = .ok m) {r : String} (hr : r ∈ p.regions) :
    let rows := (saveOutput m p units σ).rows
    Spec.HasRow p rows "cumulative_baseline_emissions" r (fun t => ∑ s ∈ Finset.range t,
      p.dt * (p.baseline_emissions (s + 1) r + p.baseline_emissions s r) / 2) ∧
    Spec.HasRow p rows "baseline_carbon_intensity" r (fun t => p.baseline_emissions t r / p.baseline_GDP t r) ∧
    Spec.HasRow p rows "percapconv_share_pop" r
      (fun t => p.population t r / (p.regions.map fun s => p.population t s).sum) ∧
    Spec.HasRow p rows "percapconv_share" r (fun t => p.percapconv_share t r) ∧
    Spec.HasRow p rows "TFP" r (fun t => get_TFP_value p t r) ∧
    (md.trade = .notrade → Spec.HasRow p rows "import_export_emission_reduction_balance" r (fun _ => 0) ∧
      Spec.HasRow p rows "import_export_mitigation_cost_balance" r (fun _ => 0)) ∧
    (md.transfer = .notransfer → Spec.HasRow p rows "financial_transfer" r (fun _ => 0) ∧
      Spec.HasRow p rows "rel_financial_transfer" r (fun _ => 0)) := by
  intro rows
  have key : ∀ d ∈ allParams md, d.dims = .overTR → ∀ f : ℕ → ℝ, (∀ t, trParam p d.name t r = f t) →
      Spec.HasRow p rows d.name r f := fun d hd ht f hf =>
    ⟨_, (mem_rows hb).2 (.inr (.inr ⟨d, hd, ht, r, hr, rfl⟩)), rfl, rfl, by simp [Params.steps],
      fun t ht => by rw [← hf]; exact cells_at _ ht⟩
  have inC : ∀ (c : Component) (d : ParamDecl), c ∈ components md → d ∈ c.params → d ∈ allParams md := fun c d hc hd =>
    List.mem_append_right _ (List.mem_flatMap.2 ⟨c, hc, hd⟩)
  refine ⟨?_, ?_, ?_, ?_, ?_, fun htr => ?_, fun hf => ?_⟩
  · refine key ⟨"cumulative_baseline_emissions", .overTR, .none⟩
      (inC Emissions.component _ (by simp [components]) (by simp [Emissions.component])) rfl _ fun t => ?_
    have e : trParam p "cumulative_baseline_emissions" t r = p.cumulative_baseline_emissions t r := by
      simp [trParam]
    rw [e, cumulative_baseline_eq]
  · refine key ⟨"baseline_carbon_intensity", .overTR, .none⟩
      (inC Emissions.component _ (by simp [components]) (by simp [Emissions.component])) rfl _ fun t => ?_
    simp [trParam, Params.baseline_carbon_intensity]
  · refine key ⟨"percapconv_share_pop", .overTR, .none⟩
      (inC (EffortSharing.component md.transfer) _ (by simp [components]) (by simp [EffortSharing.component])) rfl _
      fun t => ?_
    simp [trParam, Params.percapconv_share_pop]
  · refine key ⟨"percapconv_share", .overTR, .none⟩
      (inC (EffortSharing.component md.transfer) _ (by simp [components]) (by simp [EffortSharing.component])) rfl _
      fun t => ?_
    simp [trParam]
  · refine key ⟨"TFP", .overTR, .none⟩
      (inC (CobbDouglas.component md.transfer) _ (by simp [components]) (by simp [CobbDouglas.component])) rfl _
      fun t => ?_
    simp [trParam]
  · refine ⟨key ⟨"import_export_emission_reduction_balance", .overTR, .none⟩
      (inC (EmissionTrade.component md.trade) _ (by simp [components])
        (by simp [EmissionTrade.component, EmissionTrade.notrade, htr])) rfl _ fun t => ?_,
      key ⟨"import_export_mitigation_cost_balance", .overTR, .none⟩
      (inC (EmissionTrade.component md.trade) _ (by simp [components])
        (by simp [EmissionTrade.component, EmissionTrade.notrade, htr])) rfl _ fun t => ?_⟩ <;> simp [trParam]
  · refine ⟨key ⟨"financial_transfer", .overTR, .none⟩
      (inC (FinTransfer.component md.transfer) _ (by simp [components])
        (by simp [FinTransfer.component, FinTransfer.notransfer, hf])) rfl _ fun t => ?_,
      key ⟨"rel_financial_transfer", .overTR, .none⟩
      (inC (FinTransfer.component md.transfer) _ (by simp [components])
        (by simp [FinTransfer.component, FinTransfer.notransfer, hf])) rfl _ fun t => ?_⟩ <;> simp [trParam]

/-- **C47.** Nothing else is saved: every row belongs to a regional variable and a region, a global variable, or a
parameter over time and regions and a region. -/
theorem C47_nothing_else (hb : buildModel count md = .ok m) {row : SavedRow}
    (h : row ∈ (saveOutput m p units σ).rows) :
    row.cells.length = p.tf + 1 ∧
    ((∃ v : RVar, md.declaresR v = true ∧ row.variableName = v.name ∧ row.region ∈ p.regions ∧
        ∀ t ≤ p.tf, row.cells[t]? = some (print6g (σ.r v t row.region))) ∨
      (∃ v : GVar, md.declaresG v = true ∧ row.variableName = v.name ∧ row.region = "Global" ∧
        ∀ t ≤ p.tf, row.cells[t]? = some (print6g (σ.g v t))) ∨
      (∃ d ∈ allParams md, d.dims = .overTR ∧ row.variableName = d.name ∧ row.region ∈ p.regions ∧
        ∀ t ≤ p.tf, row.cells[t]? = some (print6g (trParam p d.name t row.region)))) := by
  rcases (mem_rows hb).1 h with ⟨v, hv, r, hr, rfl⟩ | ⟨v, hv, rfl⟩ | ⟨d, hd, ht, r, hr, rfl⟩
  · exact ⟨by simp [Params.steps], .inl ⟨v, hv, rfl, hr, fun t ht => cells_at _ ht⟩⟩
  · exact ⟨by simp [Params.steps], .inr (.inl ⟨v, hv, rfl, rfl, fun t ht => cells_at _ ht⟩)⟩
  · exact ⟨by simp [Params.steps], .inr (.inr ⟨d, hd, ht, rfl, hr, fun t ht => cells_at _ ht⟩)⟩

/-- The names of everything that is saved. -/
noncomputable def savedNames (md : Modules) : List String :=
  (allVars md).map VarDecl.name ++ ((allParams md).filter fun d => d.dims.isTR).map (·.name)

theorem savedNames_nodup (h : md.trade ≠ .globalcostpool) : (savedNames md).Nodup := by
  obtain ⟨d, t, f, w, o⟩ := md
  have hw : (Welfare.component w).vars.map VarDecl.name = (Welfare.component .cost_minimising).vars.map VarDecl.name ∧
      ((Welfare.component w).params.filter fun d => d.dims.isTR) =
        (Welfare.component .cost_minimising).params.filter fun d => d.dims.isTR := by cases w <;> exact ⟨rfl, rfl⟩
  have ho : (Objective.component o).vars.map VarDecl.name = (Objective.component .utility).vars.map VarDecl.name ∧
      ((Objective.component o).params.filter fun d => d.dims.isTR) =
        (Objective.component .utility).params.filter fun d => d.dims.isTR := by cases o <;> exact ⟨rfl, rfl⟩
  have : savedNames ⟨d, t, f, w, o⟩ = savedNames ⟨d, t, f, .cost_minimising, .utility⟩ := by
    simp only [savedNames, allVars, allParams, components, List.flatMap_cons, List.flatMap_nil, List.map_append,
      List.filter_append, hw.1, hw.2,
      ho.1, ho.2]
  rw [this]
  cases t
  · cases d <;> cases f <;> decide +kernel
  · exact absurd rfl h
  · cases d <;> cases f <;> decide +kernel

/-- **C47.** No two rows have the same variable and region. -/
theorem C47_unique (hc : StrictMono count) (hb : buildModel count md = .ok m) (hr : p.regions.Nodup) :
    ((saveOutput m p units σ).rows.map fun row => (row.variableName, row.region)).Nodup := by
  have hn := savedNames_nodup ((buildModel_isOk hc md).1 ⟨m, hb⟩)
  obtain ⟨hv, hp, -⟩ := buildModel_vars hb
  have e : (saveOutput m p units σ).rows.map (fun row => (row.variableName, row.region)) =
      (((allVars md).map fun d : VarDecl => (d.name, match d with | .regional _ _ _ => p.regions | .global _ _ _ => ["Global"])) ++
        ((allParams md).filter fun d : ParamDecl => d.dims.isTR).map fun d : ParamDecl => (d.name, p.regions)).flatMap
        fun x : String × List String => x.2.map fun r => (x.1, r) := by
    rw [saveOutput, hv, hp]
    simp only [List.map_append, List.map_flatMap, List.flatMap_append, List.flatMap_map]
    congr 1
    · refine List.flatMap_congr fun d _ => ?_
      cases d <;> simp [varToRows, VarDecl.name]
    · refine List.flatMap_congr fun d _ => ?_
      simp [paramToRows]
  rw [e]
  have gen : ∀ L : List (String × List String), (L.map (·.1)).Nodup → (∀ x ∈ L, x.2.Nodup) →
      (L.flatMap fun x => x.2.map fun r => (x.1, r)).Nodup := by
    intro L
    induction L with
    | nil => intro _ _; simp
    | cons x L ih =>
      intro h1 h2
      rw [List.map_cons, List.nodup_cons] at h1
      rw [List.flatMap_cons, List.nodup_append]
      refine ⟨(h2 x List.mem_cons_self).map fun a b h => (Prod.mk.inj h).2, ih h1.2 fun y hy => h2 y (List.mem_cons_of_mem _ hy), ?_⟩
      rintro a ha b hb rfl
      obtain ⟨r, -, rfl⟩ := List.mem_map.1 ha
      obtain ⟨y, hy, hb⟩ := List.mem_flatMap.1 hb
      obtain ⟨r', -, h⟩ := List.mem_map.1 hb
      exact h1.1 (List.mem_map.2 ⟨y, hy, (Prod.mk.inj h).1⟩)
  refine gen _ ?_ ?_
  · rw [List.map_append, List.map_map, List.map_map]
    exact hn
  · intro x hx
    rcases List.mem_append.1 hx with hx | hx
    · obtain ⟨d, -, rfl⟩ := List.mem_map.1 hx
      cases d
      · exact List.nodup_singleton _
      · exact hr
    · obtain ⟨d, -, rfl⟩ := List.mem_map.1 hx
      exact hr

/-! ## With MIMOSA's configuration -/

section
variable {B : Builtins} {uni : Char → Bool} {F : RegionalFiles} {W : DataWorld} {user params : Val} {c : DataCache}
  {tree : Py Parser} {entries : List (String × IData)}

def isIntRange (lo hi : ℤ) : Parser → Bool
  | .int b l h => !b.canBeFalse && decide (l = .fin lo) && decide (h = .fin hi)
  | _ => false

theorem int_range (hu : user.WF) (h : mimosaParams B uni DefaultYaml.entries user = .ok (params, tree)) {ks : List Key}
    {lo up i : ℤ} (ht : parserTest ks (isIntRange lo up) = true) (hi : getNested ks params = .ok (.atom (.int i))) :
    lo ≤ i ∧ i ≤ up := by
  obtain ⟨p, hp, hq⟩ := parserTest_spec ht
  unfold isIntRange at hq
  split at hq
  swap
  · cases hq
  rename_i b l h'
  simp only [Bool.and_eq_true, decide_eq_true_eq, Bool.not_eq_true'] at hq
  obtain ⟨⟨hb, rfl⟩, rfl⟩ := hq
  obtain ⟨u, v, hv, hk, -⟩ := final_parsed hu h hp
  have hcf : Parser.checkFalse b u = false := by
    rw [← Bool.not_eq_true, checkFalse_iff]; simp [hb]
  simp only [Parser.parse, hcf, Bool.false_eq_true, if_false] at hv
  split at hv
  · cases hv
  split at hv
  · cases hv
  rename_i hbound
  cases hv
  rw [hi] at hk
  cases hk
  simp only [Parser.outOfBounds, PyFloat.lt, Bool.or_eq_true, decide_eq_true_eq, not_or, not_lt] at hbound
  exact_mod_cast hbound

/-- **C47.** Whatever the user's time settings: the saved table has one column per time step, with strictly increasing
headers. -/
theorem C47_config_headers (hu : user.WF) (S : Setup B uni F W user c params tree md entries)
    (hcm : NoCustom user gridNames) :
    (saveOutput m (paramsOf entries) units σ).years.length = (paramsOf entries).tf + 1 ∧
    (saveOutput m (paramsOf entries) units σ).years.Pairwise (· < ·) := by
  obtain ⟨τ, regions, h1, -, h3, h4, h5, -⟩ := grid_params hu S hcm
  have hdt := dt_range hu S.config h1
  have hs : (1900 ≤ τ.start ∧ τ.start ≤ 2100) ∧ 1901 ≤ τ.stop ∧ τ.stop ≤ 2300 := by
    unfold readTime at h1
    split at h1
    · rename_i a b q g1 g2 g3
      cases h1
      exact ⟨int_range (lo := 1900) (up := 2100) hu S.config (by decide +kernel) g1,
        int_range (lo := 1901) (up := 2300) hu S.config (by decide +kernel) g2⟩
    all_goals cases h1
  have hdt' : (1 / 2 : ℝ) ≤ τ.dt ∧ (τ.dt : ℝ) ≤ 20 := by
    constructor
    · have := hdt.1; have h : ((1 / 2 : ℚ) : ℝ) ≤ τ.dt := by exact_mod_cast this
      push_cast at h; exact h
    · exact_mod_cast hdt.2
  have hs1 : (1900 : ℝ) ≤ τ.start := by exact_mod_cast hs.1.1
  have hs2 : (τ.start : ℝ) ≤ 2100 := by exact_mod_cast hs.1.2
  refine C47_headers (by rw [h4]; linarith [hdt'.1]) ?_ ?_
  · rw [h3]; push_cast; linarith
  · rw [Params.year, h3, h4, h5]
    push_cast
    by_cases hz : τ.tf ≤ 0
    · rw [Int.toNat_of_nonpos hz]; push_cast; linarith
    · have htf : ((τ.tf.toNat : ℕ) : ℤ) = τ.tf := Int.toNat_of_nonneg (by omega)
      have h6 : (τ.tf : ℚ) < ((τ.stop : ℚ) - τ.start) / τ.dt + 1 := by
        rw [tf_eq]; exact Int.ceil_lt_add_one _
      have hpos : (0 : ℚ) < τ.dt := by linarith [hdt.1]
      have h7 : (τ.tf : ℚ) * τ.dt < (τ.stop - τ.start) + τ.dt := by
        have := mul_lt_mul_of_pos_right h6 hpos
        rwa [add_mul, div_mul_cancel₀ _ hpos.ne', one_mul] at this
      have h8 : (τ.stop : ℚ) ≤ 2300 := by exact_mod_cast hs.2.2
      have h9 : (τ.start : ℚ) + τ.tf * τ.dt < 10000 := by linarith [hdt.2]
      have h10 : ((τ.start : ℚ) : ℝ) + (τ.tf : ℚ) * τ.dt < 10000 := by exact_mod_cast h9
      have h11 : ((τ.tf.toNat : ℕ) : ℝ) = ((τ.tf : ℚ) : ℝ) := by
        have : ((τ.tf.toNat : ℕ) : ℝ) = (((τ.tf.toNat : ℕ) : ℤ) : ℝ) := by push_cast; rfl
        rw [this, htf]; push_cast; rfl
      push_cast at h10 h11
      rw [h11]
      linarith

/-- The regions of a configuration are distinct. -/
theorem config_regions_nodup (hu : user.WF) (S : Setup B uni F W user c params tree md entries)
    (hcm : NoCustom user gridNames) : (paramsOf entries).regions.Nodup := by
  obtain ⟨τ, regions, -, h2, -, -, -, h6⟩ := grid_params hu S hcm
  obtain ⟨d, -, -, -, hwf⟩ := mimosaParams_spec hu S.config
  rw [h6]
  unfold regionNames at h2
  split at h2
  · cases h2
  · rename_i d hd
    cases h2
    have hw : (Py.dict d : Val).WF := getNested_wf hwf hd
    simp only [Py.WF] at hw
    have hk := hw.1
    clear hd hw hwf h6
    induction d with
    | nil => simp
    | cons e d ih =>
      simp only [Dict.keys, List.map_cons, List.nodup_cons] at hk
      have ih' := ih hk.2
      cases he : e.1 with
      | int i => simpa [List.filterMap_cons, he] using ih'
      | str s =>
        simp only [List.filterMap_cons, he, List.nodup_cons]
        refine ⟨fun hm => hk.1 ?_, ih'⟩
        obtain ⟨e', h1, h2⟩ := List.mem_filterMap.1 hm
        refine List.mem_map.2 ⟨e', h1, ?_⟩
        rw [he]
        revert h2
        cases e'.1 <;> simp
  · cases h2

/-- **C47.** In a saved table of a configured model no two rows have the same variable and region. -/
theorem C47_config_unique (hu : user.WF) (S : Setup B uni F W user c params tree md entries)
    (hcm : NoCustom user gridNames) (hc : StrictMono count) (hb : buildModel count md = .ok m) :
    ((saveOutput m (paramsOf entries) units σ).rows.map fun row => (row.variableName, row.region)).Nodup :=
  C47_unique hc hb (config_regions_nodup hu S hcm)
end

end Mimosa
