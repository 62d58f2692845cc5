import Verif.Data.Regional
import Mathlib.Algebra.BigOperators.Group.List.Basic
import Mathlib.Tactic.NormNum

/-!
# C16: region mapping averages the contributing regions; C17: per-region overrides
-/

namespace Mimosa

/-! ## C16 -/

/-- Specification: the cells of the data rows that the conversion table sends to `region`, one for each conversion
row (input region, `region`). -/
def contributions (T : ParamTable) (M : List (Option String × Option String)) (region col : String) : List Cell :=
  T.rows.flatMap fun row => (M.filter fun m => decide (m = (some row.1, some region))).map fun _ => row.2 col

/-- Specification: the average of some numbers, NaN if there are none. -/
def average : List ℚ → Cell
  | [] => .empty
  | q :: qs => .num ((q :: qs).sum / (q :: qs).length)

theorem cellNums_append (a b : List Cell) : cellNums (a ++ b) = cellNums a ++ cellNums b := by
  simp [cellNums]

theorem cellNums_perm {a b : List Cell} (h : a.Perm b) : (cellNums a).Perm (cellNums b) := h.filterMap _

theorem cellMean_eq_average (cells : List Cell) : cellMean cells = average (cellNums cells) := by
  unfold cellMean
  cases h : cellNums cells with
  | nil => rfl
  | cons q qs => rfl

theorem average_perm {a b : List ℚ} (h : a.Perm b) : average a = average b := by
  cases a with
  | nil => rw [List.nil_perm.1 h]
  | cons x xs =>
    cases b with
    | nil => exact absurd h.symm (by simp)
    | cons y ys =>
      simp only [average]
      rw [h.sum_eq, h.length_eq]

/-- The merged rows before sorting. -/
def mergedUnsorted (T : ParamTable) (M : List (Option String × Option String)) : List MergedRow :=
  (T.rows.flatMap fun row =>
    match M.filter fun m => decide (m.1 = some row.1) with
    | [] => [⟨some row.1, none, row.2⟩]
    | ms => ms.map fun m => (⟨some row.1, m.2, row.2⟩ : MergedRow)) ++
  (M.filter fun m => T.rows.all fun row => decide (m.1 ≠ some row.1)).map
    fun m => (⟨m.1, m.2, fun _ => .empty⟩ : MergedRow)

theorem mergeRegions_perm (T : ParamTable) (M : List (Option String × Option String)) :
    (mergeRegions T M).Perm (mergedUnsorted T M) := List.mergeSort_perm _ _

/-- The cells of the merged rows that go to `region`. -/
theorem merged_cells (T : ParamTable) (M : List (Option String × Option String)) (region col : String) :
    ∃ n, ((mergedUnsorted T M).filter fun row => decide (row.target = some region)).map (fun row => row.cells col) =
      contributions T M region col ++ List.replicate n Cell.empty := by
  refine ⟨((M.filter fun m => T.rows.all fun row => decide (m.1 ≠ some row.1)).filter
    fun m => decide (m.2 = some region)).length, ?_⟩
  unfold mergedUnsorted contributions
  rw [List.filter_append, List.map_append]
  congr 1
  · rw [List.filter_flatMap, List.map_flatMap]
    congr 1
    funext row
    have hsplit : (M.filter fun m => decide (m = (some row.1, some region))) =
        (M.filter fun m => decide (m.1 = some row.1)).filter fun m => decide (m.2 = some region) := by
      rw [List.filter_filter]
      apply List.filter_congr
      intro m _
      rw [Bool.eq_iff_iff]
      simp [Prod.ext_iff, and_comm]
    rw [hsplit]
    split
    · rename_i h; simp [h]
    · rename_i ms hne
      generalize M.filter (fun m => decide (m.1 = some row.1)) = l
      rw [List.filter_map, List.map_map]
      rfl
  · rw [List.filter_map, List.map_map, List.eq_replicate_iff]
    constructor
    · rw [List.length_map]; rfl
    · intro c hc
      simp only [List.mem_map, Function.comp_apply] at hc
      obtain ⟨_, _, rfl⟩ := hc
      rfl

theorem cellNums_replicate (n : ℕ) : cellNums (List.replicate n Cell.empty) = [] := by
  induction n with
  | zero => rfl
  | succ n ih => simpa [List.replicate_succ, cellNums] using ih

theorem merged_nums (T : ParamTable) (M : List (Option String × Option String)) (region col : String) :
    (cellNums (((mergeRegions T M).filter fun row => decide (row.target = some region)).map
      fun row => row.cells col)).Perm (cellNums (contributions T M region col)) := by
  obtain ⟨n, hn⟩ := merged_cells T M region col
  have h1 := cellNums_perm (((mergeRegions_perm T M).filter fun row => decide (row.target = some region)).map
    fun row => row.cells col)
  rw [hn, cellNums_append, cellNums_replicate, List.append_nil] at h1
  exact h1

/-- The output regions of a mapping: the ones some conversion row names (given some data row, or not). -/
theorem mem_targets (T : ParamTable) (M : List (Option String × Option String)) (region : String) :
    region ∈ targets (mergeRegions T M) ↔ ∃ m ∈ M, m.2 = some region := by
  unfold targets
  rw [List.mem_dedup, List.mem_filterMap]
  constructor
  · rintro ⟨row, hrow, ht⟩
    rw [(mergeRegions_perm T M).mem_iff] at hrow
    unfold mergedUnsorted at hrow
    rw [List.mem_append, List.mem_flatMap, List.mem_map] at hrow
    rcases hrow with ⟨d, _, hd⟩ | ⟨m, hm, rfl⟩
    · split at hd
      · rw [List.mem_singleton] at hd
        subst hd
        cases ht
      · rename_i ms hne
        rw [List.mem_map] at hd
        obtain ⟨m, hm, rfl⟩ := hd
        exact ⟨m, List.mem_of_mem_filter hm, ht⟩
    · exact ⟨m, List.mem_of_mem_filter hm, ht⟩
  · rintro ⟨m, hm, ht⟩
    by_cases h : T.rows.all fun row => decide (m.1 ≠ some row.1)
    · refine ⟨⟨m.1, m.2, fun _ => .empty⟩, ?_, ht⟩
      rw [(mergeRegions_perm T M).mem_iff]
      unfold mergedUnsorted
      rw [List.mem_append, List.mem_map]
      exact .inr ⟨m, List.mem_filter.2 ⟨hm, h⟩, rfl⟩
    · rw [List.all_eq_true] at h
      push Not at h
      obtain ⟨d, hd, hne⟩ := h
      have hne : m.1 = some d.1 := by simpa using hne
      refine ⟨⟨some d.1, m.2, d.2⟩, ?_, ht⟩
      rw [(mergeRegions_perm T M).mem_iff]
      unfold mergedUnsorted
      rw [List.mem_append, List.mem_flatMap]
      refine .inl ⟨d, hd, ?_⟩
      have hmem : m ∈ M.filter fun m => decide (m.1 = some d.1) := List.mem_filter.2 ⟨hm, by simpa using hne⟩
      split
      · rename_i h; rw [h] at hmem; simp at hmem
      · rw [List.mem_map]
        exact ⟨m, hmem, rfl⟩

theorem filter_region {f : String → String → Cell} {l : List String} (hl : l.Nodup) {region : String} (h : region ∈ l) :
    (l.map fun r => (r, f r)).filter (fun row => decide (row.1 = region)) = [(region, f region)] := by
  induction l with
  | nil => simp at h
  | cons a l ih =>
    rw [List.nodup_cons] at hl
    by_cases ha : a = region
    · subst ha
      have : (l.map fun r => (r, f r)).filter (fun row => decide (row.1 = a)) = [] := by
        rw [List.filter_eq_nil_iff]
        intro row hrow
        obtain ⟨r, hr, rfl⟩ := List.mem_map.1 hrow
        simp only [decide_eq_true_eq]
        rintro rfl
        exact hl.1 hr
      simp [this]
    · have hmem : region ∈ l := by
        rcases List.mem_cons.1 h with rfl | h
        · exact absurd rfl ha
        · exact h
      have := ih hl.2 hmem
      simp [ha, this]

theorem containerGet_mapped (B : Builtins) (T : ParamTable) (M : List (Option String × Option String))
    (param region : String) (hp : param ∈ T.columns) (hr : ∃ m ∈ M, m.2 = some region) :
    containerGet B (mapRegions T M) param region = .ok (cellVal B
      (let cells := ((mergeRegions T M).filter fun row => decide (row.target = some region)).map
        fun row => row.cells param
      if T.numeric param then cellMean cells else cellFirst cells)) := by
  have hmem := (mem_targets T M region).2 hr
  have hnd : (targets (mergeRegions T M)).Nodup := List.nodup_dedup _
  have hrows := filter_region (f := fun region col =>
      let cells := ((mergeRegions T M).filter fun row => decide (row.target = some region)).map
        fun row => row.cells col
      if T.numeric col then cellMean cells else cellFirst cells) hnd hmem
  unfold containerGet mapRegions
  simp only [if_pos hp]
  rw [hrows]

/-- **C16.** In a converted file, each output region gets, for a numeric parameter, the mean of the non-missing
values of the input regions mapped to it (once per conversion row); NaN if there are none. -/
theorem C16_mean (B : Builtins) (T : ParamTable) (M : List (Option String × Option String))
    (param region : String) (hp : param ∈ T.columns) (hr : ∃ m ∈ M, m.2 = some region)
    (hnum : ∀ row ∈ T.rows, ∀ s, row.2 param ≠ .text s) :
    containerGet B (mapRegions T M) param region =
      .ok (cellVal B (average (cellNums (contributions T M region param)))) := by
  have hn : T.numeric param = true := by
    unfold ParamTable.numeric
    rw [List.all_eq_true]
    intro row hrow
    split
    · rename_i s hs; exact absurd hs (hnum row hrow s)
    · rfl
  rw [containerGet_mapped B T M param region hp hr]
  simp only [hn, if_true]
  rw [cellMean_eq_average, average_perm (merged_nums T M region param)]

/-- Without repeated rows in the conversion table, each input region mapped to the output region counts once. -/
theorem contributions_nodup (T : ParamTable) (M : List (Option String × Option String)) (hM : M.Nodup)
    (region col : String) : contributions T M region col =
      (T.rows.filter fun row => decide ((some row.1, some region) ∈ M)).map fun row => row.2 col := by
  unfold contributions
  have key : ∀ row : String × (String → Cell),
      ((M.filter fun m => decide (m = (some row.1, some region))).map fun _ => row.2 col) =
      if (some row.1, some region) ∈ M then [row.2 col] else [] := by
    intro row
    have h1 : (M.filter fun m => decide (m = (some row.1, some region))) =
        List.replicate (M.count (some row.1, some region)) (some row.1, some region) :=
      List.filter_eq (some row.1, some region)
    rw [h1, List.map_replicate]
    split
    · rename_i h; rw [List.count_eq_one_of_mem hM h]; rfl
    · rename_i h; rw [List.count_eq_zero_of_not_mem h]; rfl
  simp only [key]
  induction T.rows with
  | nil => rfl
  | cons row rows ih =>
    rw [List.flatMap_cons, ih, List.filter_cons]
    split
    · rename_i h; simp [h]
    · rename_i h; simp [h]

/-- **C16.** With a conversion table without repeated rows: the mean over the rows of the file whose region is
mapped to the output region, ignoring missing values. -/
theorem C16_mean_of_regions (B : Builtins) (T : ParamTable) (M : List (Option String × Option String))
    (hM : M.Nodup) (param region : String) (hp : param ∈ T.columns) (hr : ∃ m ∈ M, m.2 = some region)
    (hnum : ∀ row ∈ T.rows, ∀ s, row.2 param ≠ .text s) :
    containerGet B (mapRegions T M) param region = .ok (cellVal B (average (cellNums
      ((T.rows.filter fun row => decide ((some row.1, some region) ∈ M)).map fun row => row.2 param)))) := by
  rw [C16_mean B T M param region hp hr hnum, contributions_nodup T M hM]

/-- **C16.** A region that the conversion table does not name as output region is a `KeyError`. -/
theorem C16_unmapped (B : Builtins) (T : ParamTable) (M : List (Option String × Option String))
    (param region : String) (hr : ¬ ∃ m ∈ M, m.2 = some region) :
    containerGet B (mapRegions T M) param region = .error .keyError := by
  have hno : region ∉ targets (mergeRegions T M) := fun h => hr ((mem_targets T M region).1 h)
  unfold containerGet mapRegions
  split
  · have : ∀ f : String → String → Cell, ((targets (mergeRegions T M)).map fun r => (r, f r)).filter
        (fun row => decide (row.1 = region)) = [] := by
      intro f
      rw [List.filter_eq_nil_iff]
      intro row hrow
      obtain ⟨r, hr', rfl⟩ := List.mem_map.1 hrow
      simp only [decide_eq_true_eq]
      rintro rfl
      exact hno hr'
    simp only
    rw [this]
  · rfl

/-- **C16.** Rows of the file whose region is mapped to another region, or to nothing, do not matter. -/
theorem C16_irrelevant_rows (B : Builtins) (T T' : ParamTable) (M : List (Option String × Option String))
    (param region : String) (hp : param ∈ T.columns) (hp' : param ∈ T'.columns) (hr : ∃ m ∈ M, m.2 = some region)
    (hnum : ∀ row ∈ T.rows, ∀ s, row.2 param ≠ .text s) (hnum' : ∀ row ∈ T'.rows, ∀ s, row.2 param ≠ .text s)
    (hsame : (T.rows.filter fun row => decide ((some row.1, some region) ∈ M)) =
      (T'.rows.filter fun row => decide ((some row.1, some region) ∈ M))) :
    containerGet B (mapRegions T M) param region = containerGet B (mapRegions T' M) param region := by
  rw [C16_mean B T M param region hp hr hnum, C16_mean B T' M param region hp' hr hnum']
  have key : ∀ U : ParamTable, contributions U M region param =
      (U.rows.filter fun row => decide ((some row.1, some region) ∈ M)).flatMap fun row =>
        (M.filter fun m => decide (m = (some row.1, some region))).map fun _ => row.2 param := by
    intro U
    unfold contributions
    induction U.rows with
    | nil => rfl
    | cons row rows ih =>
      rw [List.flatMap_cons, ih, List.filter_cons]
      split
      · rw [List.flatMap_cons]
      · rename_i h
        have : (M.filter fun m => decide (m = (some row.1, some region))) = [] := by
          rw [List.filter_eq_nil_iff]
          intro m hm
          simp only [decide_eq_true_eq]
          rintro rfl
          exact h (by simpa using hm)
        rw [this]; rfl
  rw [key T, key T', hsame]

/-- The order of the merged rows: by input region, NaN last. -/
def keyLe (a b : MergedRow) : Bool := match a.key, b.key with
  | some x, some y => decide (x ≤ y)
  | none, some _ => false
  | _, none => true

theorem keyLe_trans (a b c : MergedRow) (h1 : keyLe a b = true) (h2 : keyLe b c = true) : keyLe a c = true := by
  unfold keyLe at *
  cases ha : a.key <;> cases hb : b.key <;> cases hc : c.key <;> simp_all
  exact String.le_trans h1 h2

theorem keyLe_total (a b : MergedRow) : (keyLe a b || keyLe b a) = true := by
  unfold keyLe
  cases ha : a.key <;> cases hb : b.key <;> simp
  exact String.le_total _ _

theorem mergeRegions_sorted (T : ParamTable) (M : List (Option String × Option String)) :
    (mergeRegions T M).Pairwise fun a b => keyLe a b = true :=
  List.pairwise_mergeSort keyLe_trans keyLe_total _

/-- A row of the file that the conversion table sends to `region`, with a non-missing value. -/
def Contributes (T : ParamTable) (M : List (Option String × Option String)) (region col : String)
    (row : String × (String → Cell)) : Prop :=
  row ∈ T.rows ∧ (some row.1, some region) ∈ M ∧ row.2 col ≠ .empty

theorem merged_mem (T : ParamTable) (M : List (Option String × Option String)) (region col : String) (m : MergedRow) :
    (m ∈ mergeRegions T M ∧ m.target = some region ∧ m.cells col ≠ .empty) ↔
      ∃ row, Contributes T M region col row ∧ m = ⟨some row.1, some region, row.2⟩ := by
  rw [(mergeRegions_perm T M).mem_iff]
  unfold mergedUnsorted Contributes
  rw [List.mem_append, List.mem_flatMap, List.mem_map]
  constructor
  · rintro ⟨⟨d, hd, hm⟩ | ⟨x, _, rfl⟩, ht, hc⟩
    · split at hm
      · rw [List.mem_singleton] at hm
        subst hm
        cases ht
      · rename_i ms hne
        rw [List.mem_map] at hm
        obtain ⟨x, hx, rfl⟩ := hm
        obtain ⟨hxM, hx1⟩ := List.mem_filter.1 hx
        simp only at ht hc
        have hx1 : x.1 = some d.1 := by simpa using hx1
        refine ⟨d, ⟨hd, ?_, hc⟩, by rw [ht]⟩
        rw [← hx1, ← ht]
        exact hxM
    · exact absurd rfl hc
  · rintro ⟨d, ⟨hd, hM, hc⟩, rfl⟩
    refine ⟨.inl ⟨d, hd, ?_⟩, rfl, hc⟩
    have hmem : (some d.1, some region) ∈ M.filter fun m => decide (m.1 = some d.1) :=
      List.mem_filter.2 ⟨hM, by simp⟩
    split
    · rename_i h; rw [h] at hmem; simp at hmem
    · rw [List.mem_map]
      exact ⟨_, hmem, rfl⟩

/-- **C16.** For a parameter with text values (such as the functional form of the damages) the output region gets
the first non-missing value of the input regions mapped to it, in the alphabetical order of the input regions
(pandas sorts an outer join), and NaN if there is none. -/
theorem C16_first (B : Builtins) (T : ParamTable) (M : List (Option String × Option String))
    (param region : String) (hp : param ∈ T.columns) (hr : ∃ m ∈ M, m.2 = some region)
    (htext : ∃ row ∈ T.rows, ∃ s, row.2 param = .text s) :
    (∃ row, Contributes T M region param row ∧ (∀ row', Contributes T M region param row' → row.1 ≤ row'.1) ∧
      containerGet B (mapRegions T M) param region = .ok (cellVal B (row.2 param))) ∨
    ((∀ row, ¬ Contributes T M region param row) ∧
      containerGet B (mapRegions T M) param region = .ok (.atom (.float .nan))) := by
  have hn : T.numeric param = false := by
    unfold ParamTable.numeric
    rw [List.all_eq_false]
    obtain ⟨row, hrow, s, hs⟩ := htext
    exact ⟨row, hrow, by simp [hs]⟩
  rw [containerGet_mapped B T M param region hp hr]
  simp only [hn, Bool.false_eq_true, if_false]
  have hsorted := (mergeRegions_sorted T M).filter fun row => decide (row.target = some region)
  have hmem : ∀ m, (m ∈ (mergeRegions T M).filter (fun row => decide (row.target = some region)) ∧
      m.cells param ≠ .empty) ↔ ∃ row, Contributes T M region param row ∧ m = ⟨some row.1, some region, row.2⟩ := by
    intro m
    rw [← merged_mem, List.mem_filter, decide_eq_true_eq, and_assoc]
  generalize (mergeRegions T M).filter (fun row => decide (row.target = some region)) = l at *
  -- the first non-missing entry of a sorted list
  have key : ∀ l : List MergedRow, l.Pairwise (fun a b => keyLe a b = true) →
      (∃ m ∈ l, m.cells param ≠ .empty ∧ (∀ m' ∈ l, m'.cells param ≠ .empty → keyLe m m' = true) ∧
        cellFirst (l.map fun row => row.cells param) = m.cells param) ∨
      ((∀ m ∈ l, m.cells param = .empty) ∧ cellFirst (l.map fun row => row.cells param) = .empty) := by
    intro l hl
    induction l with
    | nil => exact .inr ⟨by simp, rfl⟩
    | cons a l ih =>
      rw [List.pairwise_cons] at hl
      by_cases ha : a.cells param = .empty
      · have hc : cellFirst ((a :: l).map fun row => row.cells param) = cellFirst (l.map fun row => row.cells param) := by
          simp [cellFirst, ha]
        rw [hc]
        rcases ih hl.2 with ⟨m, hm, h1, h2, h3⟩ | ⟨h1, h2⟩
        · refine .inl ⟨m, List.mem_cons_of_mem _ hm, h1, ?_, h3⟩
          intro m' hm' hne
          rcases List.mem_cons.1 hm' with rfl | hm'
          · exact absurd ha hne
          · exact h2 m' hm' hne
        · refine .inr ⟨?_, h2⟩
          intro m hm
          rcases List.mem_cons.1 hm with rfl | hm
          · exact ha
          · exact h1 m hm
      · refine .inl ⟨a, by simp, ha, ?_, by simp [cellFirst, ha]⟩
        intro m' hm' _
        rcases List.mem_cons.1 hm' with rfl | hm'
        · have := keyLe_total m' m'; simpa using this
        · exact hl.1 m' hm'
  rcases key l hsorted with ⟨m, hm, h1, h2, h3⟩ | ⟨h1, h2⟩
  · left
    obtain ⟨row, hrow, rfl⟩ := (hmem m).1 ⟨hm, h1⟩
    refine ⟨row, hrow, ?_, by rw [h3]⟩
    intro row' hrow'
    obtain ⟨ha, hb⟩ := (hmem _).2 ⟨row', hrow', rfl⟩
    have := h2 _ ha hb
    simpa [keyLe] using this
  · right
    refine ⟨?_, by rw [h2]; rfl⟩
    intro row hrow
    obtain ⟨ha, hb⟩ := (hmem _).2 ⟨row, hrow, rfl⟩
    exact hb (h1 _ ha)

/-- Two input regions A, B go to X, C goes to Y; D goes nowhere. -/
def exampleMap : List (Option String × Option String) :=
  [(some "A", some "X"), (some "B", some "X"), (some "C", some "Y"), (some "E", some "Y")]

def exampleTable : ParamTable where
  columns := ["kappa", "form"]
  rows := [("A", fun c => if c = "kappa" then .num 1 else .text "Linear"),
    ("B", fun c => if c = "kappa" then .num 4 else .text "Quadratic"),
    ("C", fun c => if c = "kappa" then .empty else .empty),
    ("D", fun c => if c = "kappa" then .num 100 else .text "Linear")]

example : cellNums (contributions exampleTable exampleMap "X" "kappa") = [1, 4] ∧
    average [1, 4] = .num (5 / 2) := by
  constructor
  · decide +kernel
  · norm_num [average]

example (B : Builtins) : containerGet B (mapRegions exampleTable exampleMap) "kappa" "X" =
    .ok (.atom (.float (.fin (5 / 2)))) := by
  rw [C16_mean B _ _ _ _ (by decide) ⟨(some "A", some "X"), by decide, rfl⟩ (by
    simp [exampleTable])]
  have : cellNums (contributions exampleTable exampleMap "X" "kappa") = [1, 4] := by decide +kernel
  rw [this]
  norm_num [average, cellVal]

/-- The hypotheses of `C16_first` are met. -/
example : (∃ row ∈ exampleTable.rows, ∃ s, row.2 "form" = .text s) ∧
    Contributes exampleTable exampleMap "X" "form" ("A", fun c => if c = "kappa" then .num 1 else .text "Linear") :=
  ⟨⟨_, List.mem_cons_self, "Linear", by simp⟩, List.mem_cons_self, by decide, by simp⟩

/-- **C16.** With equal region types, the file is used as it is. -/
theorem C16_same_type (T : ParamTable) (type : String) (ms : Mappers) : newContainer T type type ms = .ok T := by
  simp [newContainer]

/-- **C16.** With different region types, the conversion table configured for the two types (in either order) is
used, the last one if there are several; without one, construction raises a `KeyError`. -/
theorem C16_mapper (T : ParamTable) (typeIn typeOut : String) (hne : typeIn ≠ typeOut) (ms : Mappers) :
    (∀ pre C post, ms = pre ++ ((typeIn, typeOut), C) :: post → (∀ m ∈ post, m.1 ≠ (typeIn, typeOut)) →
      newContainer T typeIn typeOut ms = .ok (mapRegions T (C.pairs typeIn typeOut))) ∧
    ((∀ m ∈ ms, m.1 ≠ (typeIn, typeOut)) → newContainer T typeIn typeOut ms = .error .keyError) := by
  unfold newContainer Mappers.find
  rw [if_neg hne]
  constructor
  · rintro pre C post rfl hpost
    have : post.reverse.find? (fun m => decide (m.1 = (typeIn, typeOut))) = none := by
      rw [List.find?_eq_none]
      intro m hm
      simpa using hpost m (by simpa using hm)
    simp [List.find?_append, this]
  · intro h
    have : ms.reverse.find? (fun m => decide (m.1 = (typeIn, typeOut))) = none := by
      rw [List.find?_eq_none]
      intro m hm
      simpa using h m (by simpa using hm)
    rw [this]

/-- **C16.** A configured conversion table serves both directions. -/
theorem C16_both_directions (F : RegionalFiles) (confs : List Val) (ms : Mappers) (h : createMappers F confs = .ok ms)
    (a b : String) (C : ConvTable) (hm : ((a, b), C) ∈ ms) : ((b, a), C) ∈ ms ∧ a ∈ C.columns ∧ b ∈ C.columns := by
  induction confs generalizing ms with
  | nil => cases h; simp at hm
  | cons conf rest ih =>
    unfold createMappers at h
    split at h
    · cases h
    · cases h
    · cases h
    · split at h
      · cases h
      · rename_i t1 t2 file h1 h2 h3 _ D hD
        unfold newMapper at h
        split at h
        · cases h
        · rename_i D' hD'
          split at hD'
          · rename_i hcols
            cases hD'
            split at h
            · cases h
            · rename_i ms' hms'
              cases h
              simp only [List.mem_cons, Prod.mk.injEq] at hm ⊢
              rcases hm with ⟨⟨rfl, rfl⟩, rfl⟩ | ⟨⟨rfl, rfl⟩, rfl⟩ | hm
              · exact ⟨.inr (.inl ⟨⟨rfl, rfl⟩, rfl⟩), hcols⟩
              · exact ⟨.inl ⟨⟨rfl, rfl⟩, rfl⟩, hcols.symm⟩
              · obtain ⟨h1, h2⟩ := ih ms' hms' hm
                exact ⟨.inr (.inr h1), h2⟩
          · cases hD'

/-- The entry of a configured region mapping. -/
def Spec.MappingEntry (conf : Val) (key value : String) : Prop :=
  getNested [.str key] conf = .ok (.atom (.str value))

theorem strItem_ok {key s : String} {v : Val} : strItem key v = .ok s ↔ Spec.MappingEntry v key s := by
  unfold strItem Spec.MappingEntry
  constructor
  · intro h
    split at h
    · cases h
    · rename_i s' hs; cases h; exact hs
    · cases h
  · intro h; rw [h]

/-- **C16.** The conversion tables are those of `regionsmappings`: each entry gives the table in its file for the
conversion between its two region types, in both directions, and there are no others. -/
theorem C16_tables (F : RegionalFiles) (confs : List Val) (ms : Mappers) (h : createMappers F confs = .ok ms)
    (a b : String) (C : ConvTable) : ((a, b), C) ∈ ms ↔ ∃ conf ∈ confs, ∃ file,
      Spec.MappingEntry conf "conversiontable" file ∧ F.conversions file = some C ∧
      (Spec.MappingEntry conf "regionstype1" a ∧ Spec.MappingEntry conf "regionstype2" b ∨
       Spec.MappingEntry conf "regionstype1" b ∧ Spec.MappingEntry conf "regionstype2" a) := by
  induction confs generalizing ms with
  | nil => cases h; simp
  | cons conf rest ih =>
    unfold createMappers at h
    split at h
    · cases h
    · cases h
    · cases h
    · split at h
      · cases h
      · rename_i t1 t2 file h1 h2 h3 _ D hD
        unfold newMapper at h
        split at h
        · cases h
        · rename_i D' hD'
          split at hD'
          · cases hD'
            split at h
            · cases h
            · rename_i ms' hms'
              cases h
              rw [strItem_ok] at h1 h2 h3
              have u1 : ∀ s, Spec.MappingEntry conf "regionstype1" s ↔ s = t1 := fun s => by
                unfold Spec.MappingEntry at *; rw [h1]; simp [eq_comm]
              have u2 : ∀ s, Spec.MappingEntry conf "regionstype2" s ↔ s = t2 := fun s => by
                unfold Spec.MappingEntry at *; rw [h2]; simp [eq_comm]
              have u3 : ∀ s, Spec.MappingEntry conf "conversiontable" s ↔ s = file := fun s => by
                unfold Spec.MappingEntry at *; rw [h3]; simp [eq_comm]
              simp only [List.mem_cons, Prod.mk.injEq, ih ms' hms', exists_eq_or_imp, u1, u2, u3, exists_eq_left, hD,
                Option.some.injEq]
              constructor
              · rintro (⟨⟨rfl, rfl⟩, rfl⟩ | ⟨⟨rfl, rfl⟩, rfl⟩ | h)
                · exact .inl ⟨rfl, .inl ⟨rfl, rfl⟩⟩
                · exact .inl ⟨rfl, .inr ⟨rfl, rfl⟩⟩
                · exact .inr h
              · rintro (⟨rfl, ⟨rfl, rfl⟩ | ⟨rfl, rfl⟩⟩ | h)
                · exact .inl ⟨⟨rfl, rfl⟩, rfl⟩
                · exact .inr (.inl ⟨⟨rfl, rfl⟩, rfl⟩)
                · exact .inr (.inr h)
          · cases hD'

example (F : RegionalFiles) (C : ConvTable) (hC : F.conversions "c.csv" = some C)
    (h : "A" ∈ C.columns ∧ "B" ∈ C.columns) :
    ∃ ms, createMappers F [.dict [(.str "regionstype1", .atom (.str "A")), (.str "regionstype2", .atom (.str "B")),
      (.str "conversiontable", .atom (.str "c.csv"))]] = .ok ms ∧ (("B", "A"), C) ∈ ms := by
  refine ⟨[(("A", "B"), C), (("B", "A"), C)], ?_, by simp⟩
  have e1 : strItem "regionstype1" (.dict [(.str "regionstype1", .atom (.str "A")), (.str "regionstype2", .atom (.str "B")),
    (.str "conversiontable", .atom (.str "c.csv"))]) = .ok "A" := rfl
  have e2 : strItem "regionstype2" (.dict [(.str "regionstype1", .atom (.str "A")), (.str "regionstype2", .atom (.str "B")),
    (.str "conversiontable", .atom (.str "c.csv"))]) = .ok "B" := rfl
  have e3 : strItem "conversiontable" (.dict [(.str "regionstype1", .atom (.str "A")), (.str "regionstype2", .atom (.str "B")),
    (.str "conversiontable", .atom (.str "c.csv"))]) = .ok "c.csv" := rfl
  simp [createMappers, e1, e2, e3, hC, newMapper, h]

/-! ## C17 -/

variable (B : Builtins)

/-- **C17.** A value written under `params["regions"][region][category][name]` is the value of the parameter,
whatever the file says (even without a file for the category). -/
theorem C17_override_wins (s : RegionalStore) (category param region : String) (v : Val)
    (h : getNested [.str "regions", .str region, .str category, .str param] s.params = .ok v) :
    s.getRegional B category param region = .ok v := by
  unfold RegionalStore.getRegional
  rw [h]

theorem getNested_err {α : Type} (ks : List Key) : ∀ (v : Py α) (e : Err), getNested ks v = .error e →
    e = .keyError ∨ e = .typeError := by
  induction ks with
  | nil => intro v e h; cases h
  | cons k ks ih =>
    intro v e h
    cases v with
    | atom a => cases h; exact .inr rfl
    | list l => cases h; exact .inr rfl
    | dict d =>
      unfold getNested at h
      split at h
      · exact ih _ _ h
      · cases h; exact .inl rfl

/-- **C17.** Without such a value, the parameter is read from the file of its category. -/
theorem C17_file_otherwise (s : RegionalStore) (category param region : String)
    (h : ¬ ∃ v, getNested [.str "regions", .str region, .str category, .str param] s.params = .ok v) :
    (∀ T, Dict.lookup (.str category) s.categories = some T →
      s.getRegional B category param region = containerGet B T param region) ∧
    (Dict.lookup (.str category) s.categories = none → s.getRegional B category param region = .error .keyError) := by
  unfold RegionalStore.getRegional
  cases hg : getNested [.str "regions", .str region, .str category, .str param] s.params with
  | ok v => exact absurd ⟨v, hg⟩ h
  | error e =>
    rcases getNested_err _ _ _ hg with rfl | rfl
    · exact ⟨fun T hT => by simp [hT], fun hn => by simp [hn]⟩
    · exact ⟨fun T hT => by simp [hT], fun hn => by simp [hn]⟩

theorem forRegions_ok {β : Type} {f : String → Except Err β} : {rs : List String} → {l : List (String × β)} →
    forRegions f rs = .ok l → l.map (·.1) = rs ∧ ∀ r v, (r, v) ∈ l → f r = .ok v
  | [], l, h => by cases h; simp
  | r :: rs, l, h => by
    unfold forRegions at h
    split at h
    · cases h
    · rename_i v hv
      split at h
      · cases h
      · rename_i l' hl'
        cases h
        obtain ⟨h1, h2⟩ := forRegions_ok hl'
        refine ⟨by simp [h1], ?_⟩
        intro r' v' hrv
        rcases List.mem_cons.1 hrv with heq | hrv
        · cases heq; exact hv
        · exact h2 r' v' hrv

/-- **C17.** If construction does not raise, each region of the model gets exactly one value: its override, or else
the file's value. -/
theorem C17_every_region (s : RegionalStore) (category param : String) (l : List (String × Val))
    (h : s.get B category param = .ok l) (regions : List String) (hr : regionNames s.params = .ok regions) :
    l.map (·.1) = regions ∧ ∀ r v, (r, v) ∈ l →
      (getNested [.str "regions", .str r, .str category, .str param] s.params = .ok v ∨
       ((¬ ∃ w, getNested [.str "regions", .str r, .str category, .str param] s.params = .ok w) ∧
        ∃ T, Dict.lookup (.str category) s.categories = some T ∧ containerGet B T param r = .ok v)) := by
  unfold RegionalStore.get at h
  rw [hr] at h
  simp only at h
  obtain ⟨h1, h2⟩ := forRegions_ok h
  refine ⟨h1, ?_⟩
  intro r v hrv
  have h3 := h2 r v hrv
  by_cases hov : ∃ w, getNested [.str "regions", .str r, .str category, .str param] s.params = .ok w
  · obtain ⟨w, hw⟩ := hov
    rw [C17_override_wins B s category param r w hw] at h3
    cases h3
    exact .inl hw
  · obtain ⟨ha, hb⟩ := C17_file_otherwise B s category param r hov
    cases hl : Dict.lookup (.str category) s.categories with
    | none => rw [hb hl] at h3; cases h3
    | some T => exact .inr ⟨hov, T, rfl, by rw [← ha T hl]; exact h3⟩

/-- **C17.** The categories are those of the configuration, and the file of each is the configured one, converted to
the model's regions. -/
theorem C17_categories (F : RegionalFiles) (params : Val) (s : RegionalStore) (h : newRegionalStore F params = .ok s) :
    s.params = params ∧ ∃ typeOut confs files ms, strItem "regionstype" params = .ok typeOut ∧
      getNested [.str "regionsmappings"] params = .ok (.list confs) ∧ createMappers F confs = .ok ms ∧
      getNested [.str "regional_parameter_files"] params = .ok (.dict files) ∧
      s.categories.map (·.1) = files.map (·.1) ∧
      ∀ category T, (category, T) ∈ s.categories → ∃ info file typeIn raw, (category, info) ∈ files ∧
        strItem "filename" info = .ok file ∧ strItem "regionstype" info = .ok typeIn ∧
        F.params file = some raw ∧ newContainer raw typeIn typeOut ms = .ok T := by
  unfold newRegionalStore at h
  split at h
  · rename_i typeOut confs files h1 h2 h3
    split at h
    · cases h
    · rename_i ms hms
      split at h
      · cases h
      · rename_i cs hcs
        cases h
        refine ⟨rfl, typeOut, confs, files, ms, h1, h2, hms, h3, ?_⟩
        clear h3
        simp only
        induction files generalizing cs with
        | nil => cases hcs; simp
        | cons f rest ih =>
          obtain ⟨category, info⟩ := f
          unfold createCategories at hcs
          split at hcs
          · cases hcs
          · cases hcs
          · rename_i file typeIn hf ht
            split at hcs
            · cases hcs
            · rename_i raw hraw
              split at hcs
              · cases hcs
              · rename_i T' hT'
                split at hcs
                · cases hcs
                · rename_i cs' hcs'
                  cases hcs
                  refine ⟨by simp [(ih cs' hcs').1], ?_⟩
                  intro c T hc
                  rcases List.mem_cons.1 hc with heq | hc
                  · cases heq
                    exact ⟨info, file, typeIn, raw, by simp, hf, ht, hraw, hT'⟩
                  · obtain ⟨i, fl, ti, rw', ha, hb⟩ := (ih cs' hcs').2 c T hc
                    exact ⟨i, fl, ti, rw', List.mem_cons_of_mem _ ha, hb⟩
  · cases h
  · cases h
  · cases h
  · cases h

end Mimosa
