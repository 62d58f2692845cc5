import Verif.Props.TimeGrid
import Verif.Props.Extrapolation

/-!
# C14: the data-store cache is transparent; C15: exactly one row or an exception; C13: data at model years
-/

namespace Mimosa
variable {W : DataWorld}

/-! ## C15 -/

/-- Specification: the row answers the query (`region` is the name to look for in the file). -/
def RowMatches (row : DataRow) (model scenario region var : String) : Prop :=
  row.model = model ∧ row.scenario = scenario ∧ row.region = region ∧ row.var = var

instance (row : DataRow) (a b c d : String) : Decidable (RowMatches row a b c d) := by
  unfold RowMatches; infer_instance

/-- Specification: the region name looked up in the file: one trailing `#` is dropped. -/
def FileRegion (region fileRegion : String) : Prop :=
  region = fileRegion ++ "#" ∨ (region ≠ "" ∧ (∀ r, region ≠ r ++ "#") ∧ region = fileRegion)

theorem dataRegion_iff (region r : String) : dataRegion region = .ok r ↔ FileRegion region r := by
  unfold dataRegion FileRegion
  have hinj : ∀ a b : String, a = b ↔ a.toList = b.toList := fun a b => (String.toList_inj).symm
  constructor
  · intro h
    split at h
    · cases h
    · rename_i c cs hrev
      have hl : region.toList = cs.reverse ++ [c] := by
        have := congrArg List.reverse hrev
        simpa using this
      split at h
      · rename_i hc
        cases h
        left
        rw [hinj]; simp [hl, hc]
      · rename_i hc
        cases h
        right
        refine ⟨?_, ?_, rfl⟩
        · rintro rfl; simp at hl
        · intro r' hr'
          have : region.toList = r'.toList ++ ['#'] := by rw [hr']; simp
          rw [hl] at this
          have := congrArg List.getLast? this
          simp at this
          exact hc this
  · rintro (h | ⟨hne, hno, rfl⟩)
    · subst h
      simp
    · split
      · rename_i hrev
        exfalso; apply hne
        rw [hinj]
        simpa using hrev
      · rename_i c cs hrev
        have hl : region.toList = cs.reverse ++ [c] := by
          have := congrArg List.reverse hrev
          simpa using this
        rw [if_neg]
        rintro rfl
        apply hno (String.ofList cs.reverse)
        rw [hinj]; simp [hl]

theorem selectRow_iff (T : DataTable) (k : DataKey) (s : Selected) :
    selectRow T k = .ok s ↔ ∃ region row, FileRegion k.region region ∧
      T.rows.filter (fun row => RowMatches row k.model k.scenario region k.var) = [row] ∧
      s = ⟨T.years, row.values, row.unit⟩ := by
  have hf : ∀ region, (T.rows.filter fun row => decide (row.model = k.model) && decide (row.scenario = k.scenario) &&
        decide (row.region = region) && decide (row.var = k.var)) =
      T.rows.filter (fun row => RowMatches row k.model k.scenario region k.var) := by
    intro region
    apply List.filter_congr
    intro row _
    rw [Bool.eq_iff_iff]
    simp only [RowMatches, Bool.and_eq_true, decide_eq_true_eq, and_assoc]
    exact decide_eq_true_iff.symm
  unfold selectRow
  constructor
  · intro h
    split at h
    · cases h
    · rename_i region hreg
      split at h
      · rename_i row hrow
        cases h
        exact ⟨region, row, (dataRegion_iff _ _).1 hreg, by rw [← hf]; exact hrow, rfl⟩
      · cases h
  · rintro ⟨region, row, hreg, hrow, rfl⟩
    rw [(dataRegion_iff _ _).2 hreg, ← hf] at *
    simp [hrow]

theorem selectRow_region_eq {region r r' : String} (h : FileRegion region r) (h' : FileRegion region r') : r = r' := by
  rw [← dataRegion_iff] at h h'
  rw [h] at h'; cases h'; rfl

/-! ## The cache invariant -/

/-- What the caches hold is what the files say. -/
def CacheOk (W : DataWorld) (c : DataCache) : Prop :=
  ∀ f T, c.databases f = some T → W.files f = some T ∧
    ∃ m, c.cached f = some m ∧ ∀ k s, m k = some s → selectRow T k = .ok s

theorem cacheOk_empty : CacheOk W DataCache.empty := by
  intro f T h; simp [DataCache.empty] at h

theorem selectDatabase_spec {c : DataCache} (hc : CacheOk W c) (file : String) :
    CacheOk W (selectDatabase W file c).1 ∧
    ((∃ T, W.files file = some T ∧ (selectDatabase W file c).2 = .ok () ∧
        (selectDatabase W file c).1.databases file = some T) ∨
     (W.files file = none ∧ (selectDatabase W file c).2 = .error .exception)) := by
  unfold selectDatabase
  cases hd : c.databases file with
  | some T =>
    exact ⟨hc, .inl ⟨T, (hc file T hd).1, rfl, hd⟩⟩
  | none =>
    cases hf : W.files file with
    | none => exact ⟨hc, .inr ⟨rfl, rfl⟩⟩
    | some T =>
      refine ⟨?_, .inl ⟨T, rfl, rfl, by simp⟩⟩
      intro f T' hT'
      by_cases hff : f = file
      · subst hff
        simp only [Function.update_self, Option.some.injEq] at hT'
        subst hT'
        exact ⟨hf, fun _ => none, by simp only [Function.update_self], by intro k s h; cases h⟩
      · simp only [Function.update_of_ne hff] at hT' ⊢
        exact hc f T' hT'

theorem getCached_spec {c : DataCache} (hc : CacheOk W c) (info : VarInfo) (region : String) {T : DataTable}
    (hT : c.databases info.file = some T) :
    CacheOk W (getCached info region c).1 ∧ (getCached info region c).1.databases = c.databases ∧
    (getCached info region c).2 = selectRow T ⟨info.model, info.scenario, region, info.var⟩ := by
  obtain ⟨hf, m, hm, hs⟩ := hc _ _ hT
  unfold getCached
  simp only [hm]
  cases hk : m ⟨info.model, info.scenario, region, info.var⟩ with
  | some s => exact ⟨hc, rfl, (hs _ _ hk).symm⟩
  | none =>
    simp only [hT]
    cases hsel : selectRow T ⟨info.model, info.scenario, region, info.var⟩ with
    | error e => exact ⟨hc, rfl, rfl⟩
    | ok s =>
      refine ⟨?_, rfl, rfl⟩
      intro f T' hT'
      by_cases hff : f = info.file
      · subst hff
        have : T' = T := by rw [hT] at hT'; exact (Option.some.inj hT').symm
        subst this
        refine ⟨hf, Function.update m ⟨info.model, info.scenario, region, info.var⟩ (some s),
          by simp only [Function.update_self], ?_⟩
        intro k s' hks
        by_cases hkk : k = ⟨info.model, info.scenario, region, info.var⟩
        · subst hkk
          rw [Function.update_self] at hks
          cases hks
          exact hsel
        · rw [Function.update_of_ne hkk] at hks
          exact hs k s' hks
      · obtain ⟨h1, m', h2, h3⟩ := hc f T' hT'
        exact ⟨h1, m', by simp only [Function.update_of_ne hff]; exact h2, h3⟩

/-- Specification without caches: one series. -/
def freshSeries (W : DataWorld) (T : DataTable) (info : VarInfo) (years : List ℚ) (region : String) :
    Except Err (List (ℚ × ℚ)) :=
  match selectRow T ⟨info.model, info.scenario, region, info.var⟩ with
  | .error e => .error e
  | .ok s => processData W info years s

/-- Specification without caches: all regions of one variable. -/
def freshRegions (W : DataWorld) (T : DataTable) (info : VarInfo) (years : List ℚ) :
    List String → Except Err RegionSeries
  | [] => .ok []
  | region :: rest => match freshSeries W T info years region with
    | .error e => .error e
    | .ok pts => match freshRegions W T info years rest with
      | .error e => .error e
      | .ok m => .ok ((region, pts) :: m)

/-- Specification without caches: all variables. -/
def freshAll (W : DataWorld) (years : List ℚ) (regions : List String) :
    List (String × VarInfo) → Except Err (List (String × RegionSeries))
  | [] => .ok []
  | (name, info) :: rest => match W.files info.file with
    | none => .error .exception
    | some T => match freshRegions W T info years regions with
      | .error e => .error e
      | .ok m => match freshAll W years regions rest with
        | .error e => .error e
        | .ok ms => .ok ((name, m) :: ms)

theorem getData_spec {c : DataCache} (hc : CacheOk W c) (info : VarInfo) (years : List ℚ) (region : String)
    {T : DataTable} (hT : c.databases info.file = some T) :
    CacheOk W (getData W info years region c).1 ∧ (getData W info years region c).1.databases = c.databases ∧
    (getData W info years region c).2 = freshSeries W T info years region := by
  obtain ⟨h1, h2, h3⟩ := getCached_spec hc info region hT
  unfold getData freshSeries
  rw [← h3]
  generalize getCached info region c = g at *
  obtain ⟨c', res⟩ := g
  cases res <;> exact ⟨h1, h2, rfl⟩

theorem createDataValues_spec (info : VarInfo) (years : List ℚ) {T : DataTable} :
    (regions : List String) → ∀ {c : DataCache}, CacheOk W c → c.databases info.file = some T →
    CacheOk W (createDataValues W info years regions c).1 ∧
    (createDataValues W info years regions c).2 = freshRegions W T info years regions
  | [], c, hc, _ => ⟨hc, rfl⟩
  | region :: rest, c, hc, hT => by
    obtain ⟨h1, h2, h3⟩ := getData_spec hc info years region hT
    unfold createDataValues freshRegions
    rw [← h3]
    generalize getData W info years region c = g at *
    obtain ⟨c', res⟩ := g
    cases res with
    | error e => exact ⟨h1, rfl⟩
    | ok pts =>
      have ih := createDataValues_spec info years rest h1 (T := T) (by rw [h2]; exact hT)
      simp only
      rw [← ih.2]
      generalize createDataValues W info years rest c' = g' at *
      obtain ⟨c'', res'⟩ := g'
      cases res' <;> exact ⟨ih.1, rfl⟩

theorem createAll_spec (years : List ℚ) (regions : List String) :
    (vars : List (String × VarInfo)) → ∀ {c : DataCache}, CacheOk W c →
    CacheOk W (createAll W years regions vars c).1 ∧
    (createAll W years regions vars c).2 = freshAll W years regions vars
  | [], c, hc => ⟨hc, rfl⟩
  | (name, info) :: rest, c, hc => by
    obtain ⟨h1, h2⟩ := selectDatabase_spec hc info.file
    unfold createAll freshAll
    generalize selectDatabase W info.file c = g at *
    obtain ⟨c', res⟩ := g
    rcases h2 with ⟨T, hT, hok, hdb⟩ | ⟨hT, herr⟩
    · simp only at hok hdb
      subst hok
      obtain ⟨h3, h4⟩ := createDataValues_spec info years regions h1 hdb
      simp only [hT]
      rw [← h4]
      generalize createDataValues W info years regions c' = g' at *
      obtain ⟨c'', res'⟩ := g'
      cases res' with
      | error e => exact ⟨h3, rfl⟩
      | ok m =>
        have ih := createAll_spec years regions rest h3
        simp only
        rw [← ih.2]
        generalize createAll W years regions rest c'' = g'' at *
        obtain ⟨c''', res''⟩ := g''
        cases res'' <;> exact ⟨ih.1, rfl⟩
    · simp only at herr
      subst herr
      rw [hT]
      exact ⟨h1, rfl⟩

theorem newDataStore_spec (sp : StoreParams) {c : DataCache} (hc : CacheOk W c) :
    CacheOk W (newDataStore W sp c).1 ∧
    (newDataStore W sp c).2 = (match freshAll W sp.time.dataYears sp.regions sp.vars with
      | .error e => .error e
      | .ok m => .ok ⟨m⟩) := by
  obtain ⟨h1, h2⟩ := createAll_spec sp.time.dataYears sp.regions sp.vars hc
  unfold newDataStore
  rw [← h2]
  generalize createAll W sp.time.dataYears sp.regions sp.vars c = g at *
  obtain ⟨c', res⟩ := g
  cases res <;> exact ⟨h1, rfl⟩

/-! ## C14 -/

/-- The caches after the process has constructed data stores for `history` (successfully or not), oldest first. -/
def afterHistory (W : DataWorld) (history : List StoreParams) : DataCache :=
  history.foldl (fun c sp => (newDataStore W sp c).1) DataCache.empty

theorem afterHistory_ok (history : List StoreParams) : CacheOk W (afterHistory W history) := by
  unfold afterHistory
  suffices ∀ c, CacheOk W c → CacheOk W (history.foldl (fun c sp => (newDataStore W sp c).1) c) from
    this _ cacheOk_empty
  induction history with
  | nil => exact fun c hc => hc
  | cons sp rest ih => exact fun c hc => ih _ (newDataStore_spec sp hc).1

/-- **C14.** After any history of earlier models in the process – successful or failed – constructing a data store
gives the same store, or raises the same exception, as in a fresh process (as long as the files do not change). -/
theorem C14_cache_transparent (W : DataWorld) (history : List StoreParams) (sp : StoreParams) :
    (newDataStore W sp (afterHistory W history)).2 = (newDataStore W sp DataCache.empty).2 := by
  rw [(newDataStore_spec sp (afterHistory_ok history)).2, (newDataStore_spec sp cacheOk_empty).2]

/-- **C14** for the queries of the constructed stores. -/
theorem C14_queries (W : DataWorld) (history : List StoreParams) (sp : StoreParams) (d d' : DataStore)
    (h : (newDataStore W sp (afterHistory W history)).2 = .ok d)
    (h' : (newDataStore W sp DataCache.empty).2 = .ok d') (year : ℚ) (region name : String) :
    d.interpData year region name = d'.interpData year region name := by
  rw [C14_cache_transparent, h'] at h
  cases h
  rfl

/-! ## C15 -/

theorem freshRegions_get {T : DataTable} {info : VarInfo} {years : List ℚ} : {regions : List String} →
    {m : RegionSeries} → freshRegions W T info years regions = .ok m →
    m.map (·.1) = regions ∧ ∀ region pts, (region, pts) ∈ m → freshSeries W T info years region = .ok pts
  | [], m, h => by cases h; simp
  | region :: rest, m, h => by
    unfold freshRegions at h
    split at h
    · cases h
    · rename_i pts hpts
      split at h
      · cases h
      · rename_i m' hm'
        cases h
        obtain ⟨h1, h2⟩ := freshRegions_get hm'
        refine ⟨by simp [h1], ?_⟩
        intro r p hrp
        rcases List.mem_cons.1 hrp with heq | hrp
        · cases heq; exact hpts
        · exact h2 r p hrp

theorem freshAll_get {years : List ℚ} {regions : List String} : {vars : List (String × VarInfo)} →
    {ms : List (String × RegionSeries)} → freshAll W years regions vars = .ok ms →
    ms.map (·.1) = vars.map (·.1) ∧ ∀ name m, (name, m) ∈ ms → ∃ info T, (name, info) ∈ vars ∧
      W.files info.file = some T ∧ freshRegions W T info years regions = .ok m
  | [], ms, h => by cases h; simp
  | (name, info) :: rest, ms, h => by
    unfold freshAll at h
    split at h
    · cases h
    · rename_i T hT
      split at h
      · cases h
      · rename_i m hm
        split at h
        · cases h
        · rename_i ms' hms'
          cases h
          obtain ⟨h1, h2⟩ := freshAll_get hms'
          refine ⟨by simp [h1], ?_⟩
          intro n m' hn
          rcases List.mem_cons.1 hn with heq | hn
          · cases heq; exact ⟨info, T, by simp, hT, hm⟩
          · obtain ⟨info', T', h3, h4⟩ := h2 n m' hn
            exact ⟨info', T', List.mem_cons_of_mem _ h3, h4⟩

/-- Specification: exactly one row of the table answers the query. -/
def UniqueRow (T : DataTable) (model scenario region var : String) (row : DataRow) : Prop :=
  T.rows.filter (fun row => RowMatches row model scenario region var) = [row]

/-- **C15.** In every state of the caches that a process can reach, a query on an opened file returns the data of
the unique matching row, and it raises when there is no matching row or more than one. -/
theorem C15_unique_row (W : DataWorld) (history : List StoreParams) (info : VarInfo) (T : DataTable)
    (hT : (afterHistory W history).databases info.file = some T) (region fileRegion : String)
    (hr : FileRegion region fileRegion) :
    (∀ row, UniqueRow T info.model info.scenario fileRegion info.var row →
      (getCached info region (afterHistory W history)).2 = .ok ⟨T.years, row.values, row.unit⟩) ∧
    ((¬ ∃ row, UniqueRow T info.model info.scenario fileRegion info.var row) →
      (getCached info region (afterHistory W history)).2 = .error .exception) := by
  obtain ⟨-, -, h⟩ := getCached_spec (afterHistory_ok history) info region hT
  rw [h]
  constructor
  · intro row hrow
    rw [selectRow_iff]
    exact ⟨fileRegion, row, hr, hrow, rfl⟩
  · intro hno
    cases hs : selectRow T ⟨info.model, info.scenario, region, info.var⟩ with
    | ok s =>
      rw [selectRow_iff] at hs
      obtain ⟨r, row, h1, h2, -⟩ := hs
      rw [selectRow_region_eq h1 hr] at h2
      exact absurd ⟨row, h2⟩ hno
    | error e =>
      unfold selectRow at hs
      rw [(dataRegion_iff _ _).2 hr] at hs
      simp only at hs
      split at hs
      · cases hs
      · cases hs; rfl

/-- **C15.** The table of an opened file is the file's table. -/
theorem C15_table (W : DataWorld) (history : List StoreParams) (file : String) (T : DataTable)
    (hT : (afterHistory W history).databases file = some T) : W.files file = some T :=
  (afterHistory_ok history file T hT).1

/-- **C15.** `R#` reads the row of `R`. -/
theorem C15_hash_alias (W : DataWorld) (history : List StoreParams) (info : VarInfo) (T : DataTable)
    (hT : (afterHistory W history).databases info.file = some T) (region : String)
    (hne : region ≠ "") (hno : ∀ r, region ≠ r ++ "#") :
    (getCached info (region ++ "#") (afterHistory W history)).2 =
      (getCached info region (afterHistory W history)).2 := by
  obtain ⟨-, -, h1⟩ := getCached_spec (afterHistory_ok history) info (region ++ "#") hT
  obtain ⟨-, -, h2⟩ := getCached_spec (afterHistory_ok history) info region hT
  rw [h1, h2]
  unfold selectRow
  rw [(dataRegion_iff _ _).2 (.inl rfl), (dataRegion_iff region region).2 (.inr ⟨hne, hno, rfl⟩)]

/-- **C15.** Constructing a store succeeds only if every requested series has exactly one row. -/
theorem C15_store_rows (W : DataWorld) (history : List StoreParams) (sp : StoreParams) (d : DataStore)
    (h : (newDataStore W sp (afterHistory W history)).2 = .ok d) (name : String) (info : VarInfo)
    (hinfo : (name, info) ∈ sp.vars) (region : String) (hr : region ∈ sp.regions) :
    ∃ T fileRegion row, W.files info.file = some T ∧ FileRegion region fileRegion ∧
      UniqueRow T info.model info.scenario fileRegion info.var row := by
  rw [(newDataStore_spec sp (afterHistory_ok history)).2] at h
  split at h
  · cases h
  · rename_i ms hms
    clear h
    generalize sp.vars = vars at hinfo hms
    induction vars generalizing ms with
    | nil => simp at hinfo
    | cons v rest ih =>
      obtain ⟨n, i⟩ := v
      unfold freshAll at hms
      split at hms
      · cases hms
      · rename_i T hT
        split at hms
        · cases hms
        · rename_i m hm
          split at hms
          · cases hms
          · rename_i ms' hms'
            rcases List.mem_cons.1 hinfo with heq | hinfo
            · cases heq
              obtain ⟨h1, h2⟩ := freshRegions_get hm
              have : region ∈ m.map (·.1) := by rw [h1]; exact hr
              obtain ⟨⟨r, pts⟩, hmem, rfl⟩ := List.mem_map.1 this
              have h3 := h2 r pts hmem
              unfold freshSeries at h3
              split at h3
              · cases h3
              · rename_i s hs
                rw [selectRow_iff] at hs
                obtain ⟨fr, row, ha, hb, -⟩ := hs
                exact ⟨T, fr, row, hT, ha, hb⟩
            · exact ih ms' hinfo hms'

/-! ## C13 -/

/-- Specification: the years after 2100 for which data are invented: 2110, 2120, …, 2250. -/
def laterYears : List ℚ := (List.range 15).map fun k => 2110 + 10 * (k : ℚ)

/-- Specification: `ys` are the numbers `xs`, given in `unit`, converted to the requested unit by the unit library;
without a requested unit they are unchanged. -/
def Converted (P : Pint) (unit : String) (target : Option String) (xs ys : List ℚ) : Prop :=
  match target with
  | none => ys = xs
  | some u => List.Forall₂
      (fun x y => P.convNum x (customReplace unit.toList) (parseDefaultUnits (customReplace u.toList)) = .ok y) xs ys

/-- Specification: `ext` is `values` (at `years`) followed by values for `laterYears`; from one year to the next it
grows at the rate of growth between the last two data points, reduced linearly to nothing in 2150. -/
def Continued (values years ext : List ℚ) : Prop :=
  ext.take values.length = values ∧ ext.length = values.length + 15 ∧
  (values.length = years.length → ∀ i, years.length ≤ i + 1 → i + 1 < years.length + 15 →
    ext.getD (i + 1) 0 = ext.getD i 0 +
      lastRate values years * max 0 (1 - ((years ++ laterYears).getD i 0 - 2100) / 50)
        * ((years ++ laterYears).getD (i + 1) 0 - (years ++ laterYears).getD i 0))

/-- Specification of what the store computes for one series: the values of the only row of the file for that model,
scenario, region and variable, converted to the requested unit, continued to 2250, and evaluated by the cubic spline. -/
def ComputedValue (W : DataWorld) (info : VarInfo) (region : String) (year v : ℚ) : Prop :=
  ∃ T fileRegion row values ext, W.files info.file = some T ∧ FileRegion region fileRegion ∧
    T.rows.filter (fun row => RowMatches row info.model info.scenario fileRegion info.var) = [row] ∧
    Converted W.pint row.unit info.unit row.values values ∧ Continued values T.years ext ∧
    W.cubic ((T.years ++ laterYears).zip ext) year = .ok v

theorem extraYears_eq : extraYears = laterYears := by decide +kernel

theorem convertAll_spec {unit u : String} : {xs ys : List ℚ} → convertAll W unit u xs = .ok ys →
    List.Forall₂ (fun x y => W.pint.convNum x (customReplace unit.toList)
      (parseDefaultUnits (customReplace u.toList)) = .ok y) xs ys
  | [], ys, h => by cases h; exact .nil
  | x :: xs, ys, h => by
    unfold convertAll at h
    split at h
    · cases h
    · rename_i y hy
      split at h
      · cases h
      · rename_i ys' hys
        cases h
        exact .cons hy (convertAll_spec hys)

theorem convertUnit_spec {info : VarInfo} {s : Selected} {values : List ℚ} (h : convertUnit W info s = .ok values) :
    Converted W.pint s.unit info.unit s.values values := by
  unfold convertUnit at h
  unfold Converted
  split at h
  · rename_i hu; rw [hu]; cases h; rfl
  · rename_i u hu; rw [hu]; exact convertAll_spec h

theorem extrapolate_spec {values years ext : List ℚ} (h : extrapolate values years extraYears = .ok ext) :
    Continued values years ext := by
  obtain ⟨h1, h2⟩ := C11_keeps_input _ _ _ _ h
  refine ⟨h1, by rw [h2]; rfl, fun hl i hi hi' => ?_⟩
  rw [← extraYears_eq]
  exact C11_step values years extraYears ext hl h i hi (by simpa [extraYears] using hi')

/-- What a successfully built store holds. -/
theorem store_series (history : List StoreParams) {sp : StoreParams} {d : DataStore}
    (h : (newDataStore W sp (afterHistory W history)).2 = .ok d)
    {name region : String} (hname : name ∈ sp.vars.map (·.1)) (hregion : region ∈ sp.regions) :
    ∃ info T s values ext ys, (name, info) ∈ sp.vars ∧ W.files info.file = some T ∧
      selectRow T ⟨info.model, info.scenario, region, info.var⟩ = .ok s ∧ convertUnit W info s = .ok values ∧
      extrapolate values s.years extraYears = .ok ext ∧
      evalAll (W.cubic ((s.years ++ extraYears).zip ext)) sp.time.dataYears = .ok ys ∧
      ∀ year, d.interpData year region name = npInterp year (sp.time.dataYears.zip ys) := by
  rw [(newDataStore_spec sp (afterHistory_ok history)).2] at h
  split at h
  · cases h
  · rename_i ms hms
    cases h
    obtain ⟨h1, h2⟩ := freshAll_get hms
    obtain ⟨m, hm⟩ := strLookup_of_mem (d := ms) (by rw [h1]; exact hname)
    obtain ⟨info, T, hin, hT, hreg⟩ := h2 name m (strLookup_mem hm)
    obtain ⟨h3, h4⟩ := freshRegions_get hreg
    obtain ⟨pts, hpts⟩ := strLookup_of_mem (d := m) (by rw [h3]; exact hregion)
    have h5 := h4 region pts (strLookup_mem hpts)
    unfold freshSeries at h5
    split at h5
    · cases h5
    · rename_i s hs
      unfold processData at h5
      split at h5
      · cases h5
      · rename_i values hvalues
        split at h5
        · cases h5
        · rename_i ext hext
          split at h5
          · cases h5
          · rename_i ys hys
            cases h5
            refine ⟨info, T, s, values, ext, ys, hin, hT, hs, hvalues, hext, hys, ?_⟩
            intro year
            unfold DataStore.interpData
            rw [hm]
            simp only [hpts]

/-- **C13.** For a store built on any accepted time grid (`dt` between 0.5 and 20 years; anything up to 50 works),
`interp_data` at a model year returns exactly the value the store computed for that year: the second, linear,
interpolation introduces no error. -/
theorem C13_interp_exact (W : DataWorld) (history : List StoreParams) (sp : StoreParams) (d : DataStore)
    (h : (newDataStore W sp (afterHistory W history)).2 = .ok d)
    (hdt : 0 < sp.time.dt) (hdt' : sp.time.dt ≤ 50)
    (name region : String) (hname : name ∈ sp.vars.map (·.1)) (hregion : region ∈ sp.regions)
    (t : ℕ) (ht : (t : ℤ) ≤ sp.time.tf) :
    ∃ info v, (name, info) ∈ sp.vars ∧ ComputedValue W info region (sp.time.year t) v ∧
      d.interpData (sp.time.year t) region name = .ok v := by
  obtain ⟨info, T, s, values, ext, ys, hin, hT, hs, hvalues, hext, hys, hq⟩ := store_series history h hname hregion
  obtain ⟨hl, hi⟩ := evalAll_ok hys
  have hlt : (t : ℚ) < ((sp.time.stop : ℚ) + 50 - sp.time.start) / sp.time.dt := by
    have h6 := Int.ceil_lt_add_one (((sp.time.stop : ℚ) - sp.time.start) / sp.time.dt)
    rw [← tf_eq] at h6
    have h7 : (t : ℚ) ≤ sp.time.tf := by exact_mod_cast ht
    have h8 : (1 : ℚ) ≤ 50 / sp.time.dt := by rw [le_div_iff₀ hdt]; linarith
    have h9 : ((sp.time.stop : ℚ) + 50 - sp.time.start) / sp.time.dt
        = ((sp.time.stop : ℚ) - sp.time.start) / sp.time.dt + 50 / sp.time.dt := by ring
    linarith
  have hget := arange_get sp.time.start (sp.time.stop + 50) sp.time.dt t hlt
  obtain ⟨v, hv, hfv⟩ := hi t _ hget
  have hyear : sp.time.year t = sp.time.start + t * sp.time.dt := by
    simp [TimeParams.year]
  rw [selectRow_iff] at hs
  obtain ⟨fr, row, hfr, hrow, rfl⟩ := hs
  refine ⟨info, v, hin, ⟨T, fr, row, values, ext, hT, hfr, hrow, convertUnit_spec hvalues, extrapolate_spec hext,
    by rw [hyear, ← extraYears_eq]; exact hfv⟩, ?_⟩
  rw [hq]
  have hmem : (sp.time.year t, v) ∈ (sp.time.dataYears).zip ys := by
    rw [hyear, List.mem_iff_getElem?]
    exact ⟨t, by rw [List.getElem?_zip_eq_some]; exact ⟨hget, hv⟩⟩
  exact npInterp_node (arange_increasing _ _ _ hdt ys) hmem

/-- **C13.** Configurations whose period ends more than one step after 2200 are accepted (`time.end` may be up to
2300) but no data store can be built for them: the spline is evaluated beyond 2250, where `scipy` raises. -/
theorem C13_late_end_raises (W : DataWorld)
    (hW : ∀ pts x, (∀ q ∈ pts, q.1 < x) → ∃ e, W.cubic pts x = .error e)
    (hfiles : ∀ f T, W.files f = some T → ∀ y ∈ T.years, y ≤ 2250)
    (history : List StoreParams) (sp : StoreParams) (hdt : 0 < sp.time.dt) (hstart : sp.time.start ≤ sp.time.stop)
    (hend : (2200 : ℚ) + sp.time.dt < sp.time.stop)
    (hvars : sp.vars ≠ []) (hregions : sp.regions ≠ []) (d : DataStore) :
    (newDataStore W sp (afterHistory W history)).2 ≠ .ok d := by
  intro h
  obtain ⟨⟨name, i⟩, vs, hv⟩ := List.exists_cons_of_ne_nil hvars
  obtain ⟨region, rs, hr⟩ := List.exists_cons_of_ne_nil hregions
  obtain ⟨info, T, s, values, ext, ys, hin, hT, hs, hvalues, hext, hys, hq⟩ :=
    store_series history h (name := name) (region := region) (by simp [hv]) (by simp [hr])
  -- the last data year
  have hst : (sp.time.start : ℚ) ≤ sp.time.stop := by exact_mod_cast hstart
  set n := ⌈((sp.time.stop : ℚ) + 50 - sp.time.start) / sp.time.dt⌉ with hn
  have hnpos : 0 < n := by
    rw [hn, Int.ceil_pos]; apply div_pos _ hdt; linarith
  have hn1 : (n : ℚ) < ((sp.time.stop : ℚ) + 50 - sp.time.start) / sp.time.dt + 1 := Int.ceil_lt_add_one _
  have hn2 : ((sp.time.stop : ℚ) + 50 - sp.time.start) / sp.time.dt ≤ n := Int.le_ceil _
  obtain ⟨k, hk⟩ : ∃ k : ℕ, (k : ℤ) = n - 1 := ⟨(n - 1).toNat, by omega⟩
  have hkq : (k : ℚ) = n - 1 := by exact_mod_cast hk
  have hget := arange_get sp.time.start (sp.time.stop + 50) sp.time.dt k (by linarith)
  have hbig : (2250 : ℚ) < sp.time.start + k * sp.time.dt := by
    rw [div_le_iff₀ hdt] at hn2
    rw [hkq]
    nlinarith
  have hsy : s.years = T.years := by
    rw [selectRow_iff] at hs
    obtain ⟨_, _, _, _, rfl⟩ := hs
    rfl
  obtain ⟨e, he⟩ := evalAll_fails (f := W.cubic ((s.years ++ extraYears).zip ext))
    (xs := sp.time.dataYears) ⟨_, List.mem_of_getElem? hget, hW _ _ (by
      intro q hq
      have := List.of_mem_zip hq
      rcases List.mem_append.1 this.1 with h' | h'
      · have := hfiles _ _ hT q.1 (by rw [← hsy]; exact h'); linarith
      · have : q.1 ≤ 2250 := by
          simp only [extraYears, List.mem_cons, List.not_mem_nil, or_false] at h'
          rcases h' with h' | h' | h' | h' | h' | h' | h' | h' | h' | h' | h' | h' | h' | h' | h' <;>
            rw [h'] <;> norm_num
        linarith)⟩
  rw [he] at hys
  cases hys

/-- **C13.** If moreover the spline passes through its points, then in a model year for which the file has a column
the model gets the file's value, converted to the requested unit. -/
theorem C13_data_year (W : DataWorld) (hW : ∀ pts x y e, (x, y) ∈ pts → W.cubic pts x = .ok e → e = y)
    (history : List StoreParams) (sp : StoreParams) (d : DataStore)
    (h : (newDataStore W sp (afterHistory W history)).2 = .ok d)
    (hdt : 0 < sp.time.dt) (hdt' : sp.time.dt ≤ 50)
    (name region : String) (hname : name ∈ sp.vars.map (·.1)) (hregion : region ∈ sp.regions)
    (t : ℕ) (ht : (t : ℤ) ≤ sp.time.tf) :
    ∃ info T fileRegion row values, (name, info) ∈ sp.vars ∧ W.files info.file = some T ∧
      FileRegion region fileRegion ∧
      T.rows.filter (fun row => RowMatches row info.model info.scenario fileRegion info.var) = [row] ∧
      Converted W.pint row.unit info.unit row.values values ∧
      ∀ (i : ℕ) v, T.years[i]? = some (sp.time.year t) → values[i]? = some v →
        d.interpData (sp.time.year t) region name = .ok v := by
  obtain ⟨info, v, hin, ⟨T, fr, row, values, ext, hT, hfr, hrow, hval, ⟨htake, -, -⟩, hcub⟩, hres⟩ :=
    C13_interp_exact W history sp d h hdt hdt' name region hname hregion t ht
  refine ⟨info, T, fr, row, values, hin, hT, hfr, hrow, hval, ?_⟩
  intro i w hi hw
  have hmem : (sp.time.year t, w) ∈ (T.years ++ laterYears).zip ext := by
    have hlt : i < values.length := by
      by_contra hge
      rw [List.getElem?_eq_none (by omega)] at hw
      cases hw
    rw [List.mem_iff_getElem?]
    refine ⟨i, ?_⟩
    rw [List.getElem?_zip_eq_some]
    refine ⟨?_, ?_⟩
    · rw [List.getElem?_append_left]
      · exact hi
      · by_contra hge
        rw [List.getElem?_eq_none (by omega)] at hi
        cases hi
    · rw [← hw]
      conv_rhs => rw [← htake]
      rw [List.getElem?_take, if_pos hlt]
  rw [hres, hW _ _ _ _ hmem hcub]

/-! ## A concrete store -/

/-- A file with one row for `World`, and an identity unit library; the "spline" looks the year up. -/
def exampleWorld : DataWorld where
  files f := if f = "data.csv" then some ⟨[2090, 2100],
    [⟨"IMAGE", "SSP2", "World", "Population", "million", [10, 12]⟩,
     ⟨"IMAGE", "SSP2", "World", "GDP", "USD2005", [1, 2]⟩]⟩ else none
  cubic pts x := match pts.find? (fun q => decide (q.1 = x)) with
    | some q => .ok q.2
    | none => .error .valueError
  pint := ⟨fun _ _ => .ok (.fin 1), fun x _ _ => .ok x⟩

def exampleStoreParams : StoreParams :=
  ⟨⟨2090, 2120, 10⟩, ["World#"], [("population", ⟨"data.csv", "IMAGE", "SSP2", "Population", none⟩)]⟩

/-- The store of `exampleStoreParams` exists and answers a query, also after an earlier failed construction. -/
theorem C13_example : ∃ d, (newDataStore exampleWorld exampleStoreParams (afterHistory exampleWorld
      [⟨⟨2090, 2300, 10⟩, ["World"], [("gdp", ⟨"data.csv", "IMAGE", "SSP2", "GDP", none⟩)]⟩])).2 = .ok d ∧
    d.interpData 2110 "World#" "population" = .ok 14 := by
  refine ⟨⟨[("population", [("World#", [(2090, 10), (2100, 12), (2110, 14), (2120, 78/5), (2130, 84/5),
    (2140, 88/5), (2150, 18), (2160, 18)])])]⟩, ?_, ?_⟩
  · rw [C14_cache_transparent]
    decide +kernel
  · decide +kernel

example : FileRegion "World#" "World" := .inl rfl

end Mimosa
