import Verif.Props.Export

/-!
# C58: replaying a saved run in simulation mode
-/

namespace Mimosa

variable {X : SimWorld} {md : Modules} {m : AbstractModel} {p : Params} {σ : Env} {units : String → Option (List Char)}
  {count count' : ℕ → ℕ} {s : SimSettings} {inst inst' : AbstractModel.Instance} {file : String}

/-- scipy's spline can be built for at least four points with strictly increasing years. -/
def BuildsSplines (spline : List (ℚ × ℚ) → Except Err (ℝ → ℝ)) : Prop :=
  ∀ pts : List (ℚ × ℚ), (pts.map (·.1)).Pairwise (· < ·) → 4 ≤ pts.length → ∃ f, spline pts = .ok f

/-- The years of the run have at most two decimals and four digits before the decimal point. -/
structure PlainYears (p : Params) : Prop where
  dt_pos : 0 < p.dt
  first : 1000 ≤ p.beginyear
  last : p.year p.tf < 10000
  decimals : ∀ t : ℕ, t ≤ p.tf → ∃ k : ℤ, 100 * p.year t = k

/-- Every value of the variable called `name` is below 1000 (in absolute value). -/
def Below1000 (p : Params) (σ : Env) (name : String) : Prop :=
  (∀ v : RVar, v.name = name → ∀ t : ℕ, t ≤ p.tf → ∀ r ∈ p.regions, |σ.r v t r| < 1000) ∧
  (∀ v : GVar, v.name = name → ∀ t : ℕ, t ≤ p.tf → |σ.g v t| < 1000)

/-- The model has a variable called `name`. -/
def HasVariable (md : Modules) (name : String) : Prop :=
  (∃ v : RVar, v.name = name ∧ md.declaresR v = true) ∨ ∃ v : GVar, v.name = name ∧ md.declaresG v = true

theorem lastRow_of_mem {β : Type} {rows : List (String × β)} (hn : (rows.map (·.1)).Nodup) {r : String} {x : β}
    (h : (r, x) ∈ rows) : LastRow rows r x := by
  obtain ⟨pre, post, rfl⟩ := List.append_of_mem h
  refine ⟨pre, post, rfl, fun e he heq => ?_⟩
  simp only [List.map_append, List.map_cons, List.nodup_append, List.nodup_cons] at hn
  exact hn.2.1.1 (List.mem_map.2 ⟨e, he, heq⟩)

theorem PlainYears.year_range (h : PlainYears p) {t : ℕ} (ht : t ≤ p.tf) : 1000 ≤ p.year t ∧ p.year t < 10000 := by
  have h1 := h.first
  have h2 := h.last
  have h3 := h.dt_pos
  have ht' : (t : ℝ) ≤ p.tf := by exact_mod_cast ht
  have ht0 : (0 : ℝ) ≤ t := Nat.cast_nonneg t
  simp only [Params.year] at *
  push_cast at *
  constructor <;> nlinarith

theorem PlainYears.header (h : PlainYears p) {t : ℕ} (ht : t ≤ p.tf) : (print6g (p.year t) : ℝ) = p.year t := by
  obtain ⟨k, hk⟩ := h.decimals t ht
  obtain ⟨h1, h2⟩ := h.year_range ht
  exact C47_year_exact h1 h2 hk

theorem PlainYears.increasing (h : PlainYears p) : (saveOutput m p units σ).years.Pairwise (· < ·) := by
  simp only [saveOutput, Params.steps, List.pairwise_map]
  refine List.pairwise_lt_range.imp_of_mem ?_
  intro a b ha hb hab
  rw [List.mem_range] at ha hb
  have e1 := h.header (Nat.lt_succ_iff.1 ha)
  have e2 := h.header (Nat.lt_succ_iff.1 hb)
  have hab' : (a : ℝ) < b := by exact_mod_cast hab
  have : (print6g (p.year a) : ℝ) < print6g (p.year b) := by
    rw [e1, e2]
    have := h.dt_pos
    simp only [Params.year]
    push_cast
    nlinarith
  exact_mod_cast this

theorem simExtraYears_increasing {years : List ℚ} {last : ℚ} (hy : years.Pairwise (· < ·))
    (hl : years.getLast? = some last) : (years ++ simExtraYears last).Pairwise (· < ·) := by
  rw [List.pairwise_append]
  refine ⟨hy, ?_, ?_⟩
  · simp only [simExtraYears, TimeParams.arange, List.pairwise_map]
    refine List.pairwise_lt_range.imp fun {a b} hab => ?_
    have : (a : ℚ) < b := by exact_mod_cast hab
    linarith
  · intro a ha b hb
    simp only [simExtraYears, TimeParams.arange, List.mem_map] at hb
    obtain ⟨i, -, rfl⟩ := hb
    have hle : a ≤ last := by
      obtain ⟨l, rfl⟩ := List.getLast?_eq_some_iff.1 hl
      rcases List.mem_append.1 ha with h | h
      · exact ((List.pairwise_append.1 hy).2.2 a h last (by simp)).le
      · simp only [List.mem_singleton] at h; exact h.le
    have : (0 : ℚ) ≤ i := Nat.cast_nonneg i
    linarith

/-- The rows of one variable in a saved file have distinct regions. -/
theorem selected_nodup (hc : StrictMono count) (hb : buildModel count md = .ok m) (hr : p.regions.Nodup)
    (name : String) : ((selectVariable name (saveOutput m p units σ)).rows.map (·.1)).Nodup := by
  have h := C47_unique (units := units) (σ := σ) hc hb hr
  generalize (saveOutput m p units σ) = f at *
  obtain ⟨years, rows⟩ := f
  simp only [selectVariable] at *
  induction rows with
  | nil => simp
  | cons x rows ih =>
    rw [List.map_cons, List.nodup_cons] at h
    by_cases hx : x.variableName = name
    · rw [List.filter_cons_of_pos (by simpa using hx), List.map_cons, List.map_cons, List.nodup_cons]
      refine ⟨fun hm => h.1 ?_, ih h.2⟩
      rw [List.map_map] at hm
      obtain ⟨y, hy, he⟩ := List.mem_map.1 hm
      obtain ⟨hy1, hy2⟩ := List.mem_filter.1 hy
      refine List.mem_map.2 ⟨y, hy1, ?_⟩
      have hy3 : y.variableName = name := by simpa using hy2
      have he' : y.region = x.region := he
      rw [hy3, hx, he']
    · rw [List.filter_cons_of_neg (by simpa using hx)]
      exact ih h.2

theorem selected_row {f : SavedFile} {row : SavedRow} (h : row ∈ f.rows) :
    (row.region, row.cells) ∈ (selectVariable row.variableName f).rows :=
  List.mem_map.2 ⟨row, List.mem_filter.2 ⟨h, by simp⟩, rfl⟩

/-- **C58.** A saved run can be replayed: imposing saved variables whose values are below 1000, any run that was
feasible in the optimisation is accepted and feasible in simulation mode, whatever named constraints are deactivated. -/
theorem C58_replay (hX : PassesThrough X.spline) (hS : BuildsSplines X.spline) (hc : StrictMono count)
    (hc' : StrictMono count') (hlater : ∀ i < m.constraints.length, ∀ j, count i < count' j)
    (hb : buildModel count md = .ok m) (hi : m.createInstance p = .ok inst) (hf : inst.Feasible σ)
    (hy : PlainYears p) (htf : 3 ≤ p.tf) (hr : p.regions.Nodup)
    (hfile : X.csv file = some (saveOutput m p units σ)) (hon : s.on = true)
    (hfixed : ∀ e ∈ s.fixed, e.2 = .path file ∧ HasVariable md e.1 ∧ Below1000 p σ e.1)
    (hdis : ∀ n ∈ s.disabled, (∀ k : ℕ, n ≠ toString k) ∧ "constraint_" ++ n ∈ inst.active.map (·.1)) :
    ∃ inst', simulationMode X count' m s inst = .ok inst' ∧ inst'.Feasible σ := by
  have hsrc : ∀ name, SourceTable X name (.path file) (selectVariable name (saveOutput m p units σ)) :=
    fun name => ⟨_, hfile, rfl, rfl⟩
  have hylen : ∀ name, (selectVariable name (saveOutput m p units σ)).years.length = p.tf + 1 := by
    intro name; simp [selectVariable, saveOutput, Params.steps]
  have hlast : ∃ last, (saveOutput m p units σ).years.getLast? = some last := by
    cases h : (saveOutput m p units σ).years.getLast? with
    | some l => exact ⟨l, rfl⟩
    | none =>
      rw [List.getLast?_eq_none_iff] at h
      have := hylen ""
      simp only [selectVariable] at this
      rw [h] at this
      simp at this
  obtain ⟨last, hlast⟩ := hlast
  have hinc := simExtraYears_increasing (hy.increasing (m := m) (units := units) (σ := σ)) hlast
  have hcurve : ∀ values : List ℚ, values.length = p.tf + 1 → ∃ ext f,
      extrapolate values (saveOutput m p units σ).years (simExtraYears last) = .ok ext ∧
      X.spline (((saveOutput m p units σ).years ++ simExtraYears last).zip ext) = .ok f := by
    intro values hv
    have hyl := hylen ""
    simp only [selectVariable] at hyl
    obtain ⟨ext, hext⟩ := (C11_defined values (saveOutput m p units σ).years (simExtraYears last)).2 (by omega)
    obtain ⟨-, hl⟩ := C11_keeps_input _ _ _ _ hext
    have hzl : ((saveOutput m p units σ).years ++ simExtraYears last).length = ext.length := by
      simp [hl, hv, hyl]
    obtain ⟨f, hf⟩ := hS (((saveOutput m p units σ).years ++ simExtraYears last).zip ext)
      (by rw [List.map_fst_zip hzl.le]; exact hinc)
      (by rw [List.length_zip, ← hzl, List.length_append, hyl]; omega)
    exact ⟨ext, f, hext, hf⟩
  have hcell : ∀ row ∈ (saveOutput m p units σ).rows, row.cells.length = p.tf + 1 :=
    fun row h => (C47_nothing_else hb h).1
  have himp : ∀ row ∈ (saveOutput m p units σ).rows, ∃ f, Imposed X row.variableName (.path file) row.region f ∧
      ∀ t ≤ p.tf, ∀ q, row.cells[t]? = some q → f (p.year t) = q := by
    intro row hrow
    obtain ⟨ext, f, h1, h2⟩ := hcurve row.cells (hcell row hrow)
    have hl := lastRow_of_mem (selected_nodup (units := units) (σ := σ) hc hb hr row.variableName) (selected_row hrow)
    have himp : Imposed X row.variableName (.path file) row.region f :=
      ⟨selectVariable row.variableName (saveOutput m p units σ), row.cells, last, ext, hsrc _, hl, hlast, h1, h2⟩
    refine ⟨f, himp, fun t ht q hq => ?_⟩
    have hlt : t < (selectVariable row.variableName (saveOutput m p units σ)).years.length := by rw [hylen]; omega
    have := imposed_at hX himp (hsrc _) hl (by rw [hylen]; exact hcell row hrow) hlt
    rw [show ((selectVariable row.variableName (saveOutput m p units σ)).years[t] : ℚ) = print6g (p.year t) by
      simp [selectVariable, saveOutput, Params.steps], hy.header ht] at this
    rw [this]
    rw [List.getElem?_eq_some_iff] at hq
    obtain ⟨hq1, hq2⟩ := hq
    exact congrArg _ hq2
  obtain ⟨inst', h'⟩ := (C46_accepted_iff (X := X) (s := s) hc hc' hlater hb hi hon fun n hn => (hdis n hn).1).2 ⟨by
    intro e he
    obtain ⟨h1, h2, -⟩ := hfixed e he
    rw [h1]
    constructor
    · refine ⟨_, hsrc e.1, ?_, ?_⟩
      · intro h0
        have := hylen e.1
        rw [h0] at this
        simp at this
      · intro x hx
        obtain ⟨row, hrow, rfl⟩ := List.mem_map.1 hx
        obtain ⟨ext, f, h3, h4⟩ := hcurve row.cells (hcell row (List.mem_filter.1 hrow).1)
        exact ⟨last, ext, f, hlast, h3, h4⟩
    · rcases h2 with ⟨v, hv, hd⟩ | ⟨v, hv, hd⟩
      · refine .inl ⟨v, hv, hd, fun r hr => ?_⟩
        obtain ⟨row, hrow, e1, e2, -⟩ := C47_regional_row (units := units) (σ := σ) hb hd hr
        obtain ⟨f, hf, -⟩ := himp row hrow
        rw [e1, e2, hv] at hf
        exact ⟨f, hf⟩
      · obtain ⟨row, hrow, e1, e2, -⟩ := C47_global_row (p := p) (units := units) (σ := σ) hb hd
        obtain ⟨f, hf, -⟩ := himp row hrow
        rw [e1, e2, hv] at hf
        exact .inr ⟨v, hv, hd, f, hf⟩, fun n hn => (hdis n hn).2⟩
  refine ⟨inst', h', C46_only_relaxes h' hon (fun n hn => (hdis n hn).1) hf ?_⟩
  intro e he
  obtain ⟨h1, h2, h3⟩ := hfixed e he
  rw [(createInstance_fields hi).1, h1]
  constructor
  · intro v hv t ht r hr
    have hd : md.declaresR v = true := by
      rcases h2 with ⟨w, hw, hd⟩ | ⟨w, hw, -⟩
      · obtain rfl := RVar.name_inj (hw.trans hv.symm); exact hd
      · exact absurd (hw.trans hv.symm) (GVar.name_ne w v)
    obtain ⟨row, hrow, e1, e2, -, e3⟩ := C47_regional_row (units := units) (σ := σ) hb hd hr
    obtain ⟨f, hf, hfy⟩ := himp row hrow
    rw [e1, e2, hv] at hf
    refine ⟨f, hf, ?_⟩
    rw [hfy t ht _ (e3 t ht), abs_sub_comm]
    linarith [print6g_small (h3.1 v hv t ht r hr)]
  · intro v hv t ht
    have hd : md.declaresG v = true := by
      rcases h2 with ⟨w, hw, -⟩ | ⟨w, hw, hd⟩
      · exact absurd (hv.trans hw.symm) (GVar.name_ne v w)
      · obtain rfl := GVar.name_inj (hw.trans hv.symm); exact hd
    obtain ⟨row, hrow, e1, e2, -, e3⟩ := C47_global_row (p := p) (units := units) (σ := σ) hb hd
    obtain ⟨f, hf, hfy⟩ := himp row hrow
    rw [e1, e2, hv] at hf
    refine ⟨f, hf, ?_⟩
    rw [hfy t ht _ (e3 t ht), abs_sub_comm]
    linarith [print6g_small (h3.2 v hv t ht)]

/-- **C58.** The limit of 1000 matters: a run with a saved value that changed by more than 0.001 when it was written
with six digits is infeasible when that variable is imposed. -/
theorem C58_lost_digits (hX : PassesThrough X.spline) (hc : StrictMono count) (hb : buildModel count md = .ok m)
    (hi : m.createInstance p = .ok inst) (hy : PlainYears p) (hr : p.regions.Nodup)
    (hfile : X.csv file = some (saveOutput m p units σ)) (hon : s.on = true)
    (hnum : ∀ n ∈ s.disabled, ∀ k : ℕ, n ≠ toString k) (h : simulationMode X count' m s inst = .ok inst')
    {v : RVar} (hv : md.declaresR v = true) (hm : (v.name, .path file) ∈ s.fixed) {t : ℕ} (ht : t ≤ p.tf) {r : String}
    (hrr : r ∈ p.regions) (hlost : 1 / 1000 < |(print6g (σ.r v t r) : ℝ) - σ.r v t r|) : ¬ inst'.Feasible σ := by
  intro hf
  obtain ⟨-, -, h3⟩ := (C46_feasible_iff h hon hnum).1 hf
  have hF := h3 _ hm
  rw [(createInstance_fields hi).1] at hF
  obtain ⟨row, hrow, e1, e2, e3, e4⟩ := C47_regional_row (units := units) (σ := σ) hb hv hrr
  have hl := lastRow_of_mem (selected_nodup (units := units) (σ := σ) hc hb hr row.variableName) (selected_row hrow)
  rw [e1, e2] at hl
  have hylen : (selectVariable v.name (saveOutput m p units σ)).years.length = p.tf + 1 := by
    simp [selectVariable, saveOutput, Params.steps]
  have hlt : t < (selectVariable v.name (saveOutput m p units σ)).years.length := by omega
  have := C46_regional_data_year hX hF (T := selectVariable v.name (saveOutput m p units σ)) ⟨_, hfile, rfl, rfl⟩ hrr hl
    (by rw [hylen, e3]) hlt ht (by
      rw [show ((selectVariable v.name (saveOutput m p units σ)).years[t] : ℚ) = print6g (p.year t) by
        simp [selectVariable, saveOutput, Params.steps], hy.header ht])
  have hq := e4 t ht
  rw [List.getElem?_eq_some_iff] at hq
  obtain ⟨hq1, hq2⟩ := hq
  rw [hq2, abs_sub_comm] at this
  linarith

/-- **C58.** Such values exist just above 1000: 2345.678 is saved as 2345.68. -/
theorem C58_lost_example : print6g 2345.678 = 2345.68 ∧ 1 / 1000 < |(print6g 2345.678 : ℝ) - 2345.678| := by
  have h : print6g 2345.678 = 2345.68 := by
    rw [print6g_year (by norm_num) (by norm_num)]
    have : roundHalfEven (100 * 2345.678) = 234568 := by
      have hf : ⌊(100 * 2345.678 : ℝ)⌋ = 234567 := by rw [Int.floor_eq_iff]; norm_num
      unfold roundHalfEven
      rw [hf]
      norm_num
    rw [this]
    norm_num
  refine ⟨h, ?_⟩
  rw [h, abs_of_pos] <;> norm_num

/-! ## A concrete case -/

open Ex

theorem exampleSpline_builds : BuildsSplines exampleSpline := by
  intro pts h _
  have hn : (pts.map (·.1)).Nodup := h.imp fun hab => hab.ne
  unfold exampleSpline
  rw [if_pos hn]
  exact ⟨_, rfl⟩

theorem p0_plain : PlainYears p0 where
  dt_pos := by norm_num [ex]
  first := by norm_num [ex]
  last := by norm_num [ex, Params.year]
  decimals t _ := ⟨202000 + 4000 * t, by simp only [ex, Params.year]; push_cast; ring⟩

/-- The run of the example is saved and replayed: its abatement and its temperature are imposed, the carbon budget is
deactivated. -/
example : ∃ count m inst, StrictMono count ∧ buildModel count m0 = .ok m ∧ m.createInstance p0 = .ok inst ∧
    ∃ count' inst', simulationMode ⟨fun _ => some (saveOutput m p0 (fun _ => none) σ0), fun _ => .error .valueError,
        exampleSpline⟩ count' m ⟨true, [("relative_abatement", .path "a.csv"), ("temperature", .path "a.csv")],
        ["carbon_budget"]⟩ inst = .ok inst' ∧ inst'.Feasible σ0 := by
  obtain ⟨count, hc, m, inst, hb, hi, hf⟩ := sol0
  refine ⟨count, m, inst, hc, hb, hi, fun j => count m.constraints.length + 1 + j, ?_⟩
  refine C58_replay (file := "a.csv") (units := fun _ => none) (σ := σ0) exampleSpline_passes exampleSpline_builds hc
    (fun i j hij => by show _ + i < _ + j; omega) (fun i hi j => by have := hc hi; omega) hb hi hf p0_plain
    (by show 3 ≤ 3; omega) (by show ["A", "B"].Nodup; decide) rfl rfl ?_ ?_
  · intro e he
    simp only [List.mem_cons, List.not_mem_nil, or_false] at he
    rcases he with rfl | rfl
    · refine ⟨rfl, .inl ⟨.relative_abatement, rfl, rfl⟩, ?_, ?_⟩
      · intro v hv t ht r hr
        obtain rfl : v = .relative_abatement := RVar.name_inj hv
        have : σ0.r .relative_abatement t r = aPath t := rfl
        rw [this, abs_lt]
        have := aPath_range t
        constructor <;> linarith
      · intro v hv
        exact absurd hv (GVar.name_ne v .relative_abatement)
    · refine ⟨rfl, .inr ⟨.temperature, rfl, rfl⟩, ?_, ?_⟩
      · intro v hv
        exact absurd hv.symm (GVar.name_ne .temperature v)
      · intro v hv t ht
        obtain rfl : v = .temperature := GVar.name_inj hv
        have h := temp_range (regime := "noregime") (al := 3 / 10) (conv := none) (x0 fun _ => 0) ⟨rfl, rfl⟩ t ht
        have e : σ0.g .temperature t = (x0 fun _ => 0).temp p0 t := rfl
        rw [e, abs_lt]
        constructor <;> linarith [h.1, h.2]
  · intro n hn
    obtain rfl : n = "carbon_budget" := by simpa using hn
    refine ⟨fun k => notNumeral_ne (by decide +kernel) k, ?_⟩
    rw [active_names hb hi]
    refine mem_namesFrom_of_mem ?_
    rw [optNames_eq]
    refine List.mem_flatMap.2 ⟨Emissions.component, by simp [components], ?_⟩
    decide +kernel

/-- The saved table of the example: distinct increasing headers, and a row for the consumption of region A. -/
example (m : AbstractModel) (count : ℕ → ℕ) (hb : buildModel count m0 = .ok m) :
    (saveOutput m p0 (fun _ => none) σ0).years.Pairwise (· < ·) ∧
    ∃ row ∈ (saveOutput m p0 (fun _ => none) σ0).rows, row.variableName = "consumption" ∧ row.region = "A" := by
  refine ⟨(C47_headers ?_ ?_ ?_).2, ?_⟩
  · norm_num [ex]
  · norm_num [ex]
  · norm_num [ex, Params.year]
  · obtain ⟨row, h, h1, h2, -⟩ := C47_regional_row (p := p0) (σ := σ0) (units := fun _ => none) hb (v := .consumption) rfl
      (r := "A") (by simp [ex])
    exact ⟨row, h, h1, h2⟩

end Mimosa
