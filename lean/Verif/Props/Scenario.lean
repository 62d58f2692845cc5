import Verif.Props.Settings
import Verif.Props.Initial

/-!
# C57: the chosen SSP scenario drives all three baseline series
-/

namespace Mimosa

variable {B : Builtins} {uni : Char → Bool} {F : RegionalFiles} {W : DataWorld} {user params : Val} {c : DataCache}
  {tree : Py Parser} {md : Modules} {entries : List (String × IData)} {σ : Env}

/-- The parsed value of a parameter before references are resolved. -/
theorem checked_value {d : List (Key × Val)} (hc : checkParams B DefaultYaml.entries user = .ok (.dict d, tree))
    {ks : List Key} {p : Parser} (hp : HasParser DefaultYaml.entries ks p) {u : Val} (he : Effective user ks u) :
    ∃ v, p.parse B u = .ok v ∧ getNested ks (.dict d) = .ok v := by
  obtain ⟨node, hn, hcr⟩ := hp
  obtain ⟨p', v, hc', h1, hor⟩ := C02_values default_ok hc hn
  rw [hcr, Except.ok.injEq] at hc'
  subst hc'
  refine ⟨v, ?_, h1⟩
  rcases hor with ⟨u', hu', hv⟩ | ⟨hu', hv⟩
  · rcases he with he | ⟨he, -⟩
    · rw [he] at hu'; cases hu'; exact hv
    · rw [he] at hu'; cases hu'
  · rcases he with he | ⟨-, node', hn', rfl⟩
    · rw [he] at hu'; cases hu'
    · have h3 := hn.at_path
      rw [hn'.at_path] at h3
      cases h3
      exact hv

/-! ## The time step -/

def isDt : Parser → Bool
  | .float b lo hi => !b.canBeFalse && decide (lo = .fin (1 / 2)) && decide (hi = .fin 20)
  | _ => false

/-- The time step is between half a year and 20 years. -/
theorem dt_range (hu : user.WF) (h : mimosaParams B uni DefaultYaml.entries user = .ok (params, tree)) {τ : TimeParams}
    (hτ : readTime params = .ok τ) : 1 / 2 ≤ τ.dt ∧ τ.dt ≤ 20 := by
  obtain ⟨p, hp, hq⟩ := parserTest_spec (ks := [.str "time", .str "dt"]) (q := isDt) (by decide +kernel)
  unfold isDt at hq
  split at hq
  swap
  · cases hq
  rename_i b lo hi
  simp only [Bool.and_eq_true, decide_eq_true_eq, Bool.not_eq_true'] at hq
  obtain ⟨⟨hb, rfl⟩, rfl⟩ := hq
  obtain ⟨u, v, hv, hk, -⟩ := final_parsed hu h hp
  have hcf : Parser.checkFalse b u = false := by
    rw [← Bool.not_eq_true, checkFalse_iff]; simp [hb]
  simp only [Parser.parse, hcf, Bool.false_eq_true, if_false] at hv
  split at hv
  · cases hv
  rename_i f hf
  split at hv
  · cases hv
  rename_i hbound
  cases hv
  unfold readTime at hτ
  split at hτ
  · rename_i a b q h1 h2 h3
    cases hτ
    rw [h3] at hk
    cases hk
    simp only [Parser.outOfBounds, PyFloat.lt, Bool.or_eq_true, decide_eq_true_eq, not_or, not_lt] at hbound
    exact hbound
  all_goals cases hτ

/-! ## Input variables -/

theorem readVars_mem {name : String} {info : VarInfo} : {d : List (Key × Val)} → {l : List (String × VarInfo)} →
    readVars d = .ok l → (name, info) ∈ l → ∃ v, (Key.str name, v) ∈ d ∧ readVarInfo v = .ok info
  | [], l, h, hm => by cases h; cases hm
  | (.int _, _) :: _, l, h, hm => by cases h
  | (.str n, v) :: rest, l, h, hm => by
    unfold readVars at h
    split at h
    · cases h
    rename_i i hi
    split at h
    · cases h
    rename_i l' hl'
    cases h
    rcases List.mem_cons.1 hm with e | hm
    · cases e
      exact ⟨v, List.mem_cons_self, hi⟩
    · obtain ⟨v', h1, h2⟩ := readVars_mem hl' hm
      exact ⟨v', List.mem_cons_of_mem _ h1, h2⟩

theorem readVars_name {name : String} {v : Val} : {d : List (Key × Val)} → {l : List (String × VarInfo)} →
    readVars d = .ok l → (Key.str name, v) ∈ d → name ∈ l.map (·.1)
  | [], l, h, hm => by cases hm
  | (.int _, _) :: _, l, h, hm => by cases h
  | (.str n, w) :: rest, l, h, hm => by
    unfold readVars at h
    split at h
    · cases h
    rename_i i hi
    split at h
    · cases h
    rename_i l' hl'
    cases h
    rcases List.mem_cons.1 hm with e | hm
    · cases e
      simp
    · have := readVars_name hl' hm
      simp only [List.map_cons, List.mem_cons]
      exact .inr this

def isPlainSource : Parser → Bool
  | .datasource b .ident .ident => !b.canBeFalse
  | _ => false

/-- The default data source of a variable. -/
def isSource (var unit : String) : Val → Bool
  | .dict [(.str "variable", .atom (.str v)), (.str "unit", .atom (.str u)), (.str "scenario", .atom (.str s)),
      (.str "model", .atom (.str m)), (.str "file", .atom (.str f))] =>
    decide (v = var) && decide (u = unit) && decide (s = "{SSP}-Ref-SPA0-V17") && decide (m = "IMAGE") &&
      decide (f = "inputdata/data/data_IMAGE_SSP.csv")
  | _ => false

def isSsp : Parser → Bool
  | .enum b l => !b.canBeFalse && l.all fun v => match v with
    | .atom (.str s) => decide (s ∈ ["SSP1", "SSP2", "SSP3", "SSP4", "SSP5"])
    | _ => false
  | _ => false

/-- The SSP of the configuration is one of the five, and appears unchanged in the final configuration. -/
theorem ssp_value {d : List (Key × Val)} (hc : checkParams B DefaultYaml.entries user = .ok (.dict d, tree)) {u : Val}
    (he : Effective user [.str "SSP"] u) : ∃ s ∈ ["SSP1", "SSP2", "SSP3", "SSP4", "SSP5"], u = .atom (.str s) ∧
      getNested [.str "SSP"] (.dict d) = .ok (.atom (.str s)) := by
  obtain ⟨p, hp, hq⟩ := parserTest_spec (ks := [.str "SSP"]) (q := isSsp) (by decide +kernel)
  unfold isSsp at hq
  split at hq
  swap
  · cases hq
  rename_i b l
  simp only [Bool.and_eq_true, Bool.not_eq_true', List.all_eq_true] at hq
  obtain ⟨hb, hl⟩ := hq
  obtain ⟨v, hv, hg⟩ := checked_value hc hp he
  have hcf : Parser.checkFalse b u = false := by
    rw [← Bool.not_eq_true, checkFalse_iff]; simp [hb]
  simp only [Parser.parse, hcf, Bool.false_eq_true, if_false] at hv
  split at hv
  swap
  · cases hv
  rename_i hin
  cases hv
  obtain ⟨w, hw, heq⟩ := List.any_eq_true.1 hin
  have hw' := hl w hw
  split at hw'
  swap
  · cases hw'
  rename_i s
  simp only [decide_eq_true_eq] at hw'
  refine ⟨s, hw', ?_⟩
  have : u = .atom (.str s) := by
    cases u with
    | atom a =>
      cases a with
      | str s' =>
        simp only [Val.eq, Scalar.eq, Scalar.num?, decide_eq_true_eq] at heq
        rw [← heq]
      | _ => simp [Val.eq, Scalar.eq, Scalar.num?] at heq
    | list l => simp [Val.eq] at heq
    | dict d => simp [Val.eq] at heq
  exact ⟨this, this ▸ hg⟩

/-- The data source of a series that the user did not change, in the final configuration. -/
theorem source_value (hu : user.WF) (h : mimosaParams B uni DefaultYaml.entries user = .ok (params, tree))
    {n var unit : String} (hnb1 : '{' ∉ var.toList) (hnb2 : '{' ∉ unit.toList)
    (hp : parserTest [.str "input", .str "variables", .str n] isPlainSource = true)
    (hd : defTest [.str "input", .str "variables", .str n] (isSource var unit) = true)
    (hun : getNested [.str "input", .str "variables", .str n] user = .error .keyError) {u : Val}
    (he : Effective user [.str "SSP"] u) : ∃ ssp ∈ ["SSP1", "SSP2", "SSP3", "SSP4", "SSP5"], u = .atom (.str ssp) ∧
      ∃ v, getNested [.str "input", .str "variables", .str n] params = .ok v ∧
      readVarInfo v = .ok ⟨"inputdata/data/data_IMAGE_SSP.csv", "IMAGE", ssp ++ "-Ref-SPA0-V17", var, some unit⟩ := by
  obtain ⟨d, hc, hwf, hpv, -⟩ := mimosaParams_spec hu h
  obtain ⟨ssp, hm, rfl, hssp⟩ := ssp_value hc he
  refine ⟨ssp, hm, rfl, ?_⟩
  obtain ⟨w, hw, hsrc⟩ := effective_default _ hd hun
  obtain ⟨p, hp, hq⟩ := parserTest_spec hp
  unfold isPlainSource at hq
  split at hq
  swap
  · cases hq
  rename_i b
  obtain ⟨v, hv, hg⟩ := checked_value hc hp hw
  unfold isSource at hsrc
  split at hsrc
  swap
  · cases hsrc
  rename_i a1 a2 a3 a4 a5
  simp only [Bool.and_eq_true, decide_eq_true_eq] at hsrc
  obtain ⟨⟨⟨⟨rfl, rfl⟩, rfl⟩, rfl⟩, rfl⟩ := hsrc
  have hcf : Parser.checkFalse b (.dict [(.str "variable", .atom (.str a1)), (.str "unit", .atom (.str a2)),
      (.str "scenario", .atom (.str "{SSP}-Ref-SPA0-V17")), (.str "model", .atom (.str "IMAGE")),
      (.str "file", .atom (.str "inputdata/data/data_IMAGE_SSP.csv"))]) = false := by
    rw [← Bool.not_eq_true, checkFalse_iff]; simp [WrittenFalse]
  obtain rfl : v = .dict [(.str "variable", .atom (.str a1)), (.str "unit", .atom (.str a2)),
      (.str "scenario", .atom (.str "{SSP}-Ref-SPA0-V17")), (.str "model", .atom (.str "IMAGE")),
      (.str "file", .atom (.str "inputdata/data/data_IMAGE_SSP.csv"))] := by
    simp only [Parser.parse, hcf, Bool.false_eq_true, if_false] at hv
    exact (Except.ok.inj hv).symm
  have hleaf : ∀ k s, getNested [.str k] (.dict [(.str "variable", .atom (.str a1)), (.str "unit", .atom (.str a2)),
      (.str "scenario", .atom (.str "{SSP}-Ref-SPA0-V17")), (.str "model", .atom (.str "IMAGE")),
      (.str "file", .atom (.str "inputdata/data/data_IMAGE_SSP.csv"))] : Val) = .ok (.atom (.str s)) →
      getNested [.str "input", .str "variables", .str n, .str k] (.dict d) = .ok (.atom (.str s)) := fun k s hk =>
    (getNested_snoc (k := .str k) hg).trans hk
  have hfinal : ∀ k s, '{' ∉ s.toList →
      getNested [.str "input", .str "variables", .str n, .str k] (.dict d) = .ok (.atom (.str s)) →
      getNested [.str "input", .str "variables", .str n, .str k] params = .ok (.atom (.str s)) := by
    intro k s hs hk
    refine C08_unresolved_unchanged hwf hpv hk fun m hm => ?_
    rw [← C08_references_found, findRefs_noBrace hs] at hm
    cases hm
  have hscen : getNested [.str "input", .str "variables", .str n, .str "scenario"] params =
      .ok (.atom (.str (ssp ++ "-Ref-SPA0-V17"))) := by
    have hnb : '{' ∉ ssp.toList := by
      simp only [List.mem_cons, List.not_mem_nil, or_false] at hm
      rcases hm with rfl | rfl | rfl | rfl | rfl <;> decide
    have := C08_substituted_plain_partial (pre := []) (m := "SSP".toList) (post := "-Ref-SPA0-V17".toList) hwf hpv
      (hleaf "scenario" _ rfl) (by simp) (by decide) (by decide)
      (by intro c hc; revert c; simp [refChar, isWordChar]) (o := ssp) hssp
      (fun m' hm' => by rw [← C08_references_found, findRefs_noBrace hnb] at hm'; cases hm')
    rw [this]
    simp
  have hsame := C08_same_paths hwf hpv [.str "input", .str "variables", .str n]
  rw [hg] at hsame
  have hdict : ∃ e, getNested [.str "input", .str "variables", .str n] params = .ok (.dict e) := by
    generalize getNested [.str "input", .str "variables", .str n] params = r at hsame
    cases hsame with
    | dict _ e => exact ⟨e, rfl⟩
    | same => exact ⟨_, rfl⟩
  obtain ⟨e, he'⟩ := hdict
  have hsub : ∀ k, getNested [.str k] (.dict e) = getNested [.str "input", .str "variables", .str n, .str k] params :=
    fun k => (getNested_snoc (k := .str k) he').symm
  refine ⟨_, he', ?_⟩
  unfold readVarInfo strItem
  rw [hsub, hsub, hsub, hsub, hsub, hfinal "file" _ (by decide) (hleaf _ _ rfl),
    hfinal "model" _ (by decide) (hleaf _ _ rfl), hscen, hfinal "variable" _ ?_ (hleaf _ _ rfl),
    hfinal "unit" _ ?_ (hleaf _ _ rfl)]
  · exact hnb2
  · exact hnb1

/-! ## C57 -/

/-- A time-and-region parameter of the model: its value at each time step and region is the one that the data store
computes. -/
theorem series_value (hu : user.WF) {history : List StoreParams}
    (S : Setup B uni F W user (afterHistory W history) params tree md entries) {n var unit name : String}
    (hnb1 : '{' ∉ var.toList) (hnb2 : '{' ∉ unit.toList)
    (hp : parserTest [.str "input", .str "variables", .str n] isPlainSource = true)
    (hd : defTest [.str "input", .str "variables", .str n] (isSource var unit) = true)
    (hun : getNested [.str "input", .str "variables", .str n] user = .error .keyError) {ssp : String}
    (he : Effective user [.str "SSP"] (.atom (.str ssp)))
    (hdecl : (⟨name, .overTR, .str ("timeandregional::" ++ n)⟩ : ParamDecl) ∈ allParams md)
    (hn : ':' ∉ n.toList) (hgrid : name ∉ gridNames) (hcomb : name ∉ combinedNames) (hcm : NoCustom user [name]) :
    ∃ τ regions, readTime params = .ok τ ∧ regionNames params = .ok regions ∧
      ∀ t : ℕ, t ≤ τ.tf → ∀ r ∈ regions, ∃ v, ComputedValue W
        ⟨"inputdata/data/data_IMAGE_SSP.csv", "IMAGE", ssp ++ "-Ref-SPA0-V17", var, some unit⟩ r (τ.year t) v ∧
        seriesNum entries name t r = v := by
  obtain ⟨d, hc, hwf0, hpv, hwf⟩ := mimosaParams_spec hu S.config
  have hno : NotOverridden params name :=
    ⟨hgrid, fun v => hcm.key hu S.config (by simp) v, fun _ => hcomb⟩
  obtain ⟨sp, ds, l, hsp, hds, hl, hall, hval⟩ := C18_timeandregional (name := n) hwf S.inst (declared_of_mem hdecl) hno hn
    (by simp [DocIs])
  obtain ⟨ssp', -, hs', v, hv, hinfo⟩ := source_value hu S.config hnb1 hnb2 hp hd hun he
  simp only [Py.atom.injEq, Scalar.str.injEq] at hs'
  subst hs'
  unfold readStoreParams at hsp
  split at hsp
  · cases hsp
  · cases hsp
  · cases hsp
  · rename_i τ regions dv hτ hreg hvars
    split at hsp
    · cases hsp
    rename_i vars hrv
    cases hsp
    refine ⟨τ, regions, hτ, hreg, fun t ht r hr => ?_⟩
    have hlook : Dict.lookup (.str n) dv = some v := by
      have h1 := (getNested_snoc (k := .str n) hvars).symm.trans hv
      simp only [getNested] at h1
      split at h1
      · rename_i x hx; cases h1; exact hx
      · cases h1
    have hname : n ∈ vars.map (·.1) := readVars_name hrv (Dict.mem_of_lookup hlook)
    have hdt := dt_range hu S.config hτ
    obtain ⟨info, q, hin, hcv, hiq⟩ := C13_interp_exact W history ⟨τ, regions, vars⟩ ds hds
      (by show 0 < τ.dt; linarith) (by show τ.dt ≤ 50; linarith) n r hname hr t ht
    obtain ⟨v', hv', hinfo'⟩ := readVars_mem hrv hin
    have hwfd := getNested_wf hwf hvars
    obtain rfl : v' = v := by
      have := Dict.lookup_of_mem hwfd.1 hv'
      rw [hlook] at this
      exact (Option.some.inj this).symm
    rw [hinfo, Except.ok.injEq] at hinfo'
    subst hinfo'
    refine ⟨q, hcv, ?_⟩
    obtain ⟨q', hq'⟩ := hall t (by
      simp only [TimeParams.steps, List.mem_range]
      have h2 : τ.tf = τ.numYears - 1 := rfl
      omega) r hr
    have hl' : instanceValue name entries = some (.timeRegional l) := hl
    simp only [seriesNum, hl']
    split
    · rename_i e hfind
      have h1 := List.find?_some hfind
      have h2 := List.mem_of_find?_eq_some hfind
      simp only [decide_eq_true_eq] at h1
      obtain ⟨e1, e2⟩ := e
      simp only at h1
      subst h1
      have h3 := (hval _ _ _ h2).2.2
      rw [hiq] at h3
      cases h3
      rfl
    · rename_i hfind
      have := List.find?_eq_none.1 hfind _ hq'
      simp at this
  · cases hsp

/-- **C57.** With the configured data sources unchanged, the population, baseline GDP and baseline emissions that the
model uses at time step `t` in region `r` are the values of the series `…-Ref-SPA0-V17` of the chosen SSP (converted to
the model's units, extended to 2250 and interpolated) in the year of that time step; all three are from the same SSP. -/
theorem C57_ssp (hu : user.WF) {history : List StoreParams}
    (S : Setup B uni F W user (afterHistory W history) params tree md entries)
    (hcm : NoCustom user ["population", "baseline_GDP", "baseline_emissions"])
    (hun : ∀ n ∈ ["GDP", "emissions", "population"],
      getNested [.str "input", .str "variables", .str n] user = .error .keyError)
    {ssp : String} (he : Effective user [.str "SSP"] (.atom (.str ssp))) :
    ∃ τ regions, readTime params = .ok τ ∧ regionNames params = .ok regions ∧
      ∀ t : ℕ, t ≤ τ.tf → ∀ r ∈ regions, ∃ pop gdp em : ℚ,
        ComputedValue W ⟨"inputdata/data/data_IMAGE_SSP.csv", "IMAGE", ssp ++ "-Ref-SPA0-V17", "Population",
          some "population_unit"⟩ r (τ.year t) pop ∧
        ComputedValue W ⟨"inputdata/data/data_IMAGE_SSP.csv", "IMAGE", ssp ++ "-Ref-SPA0-V17", "GDP|PPP",
          some "currency_unit"⟩ r (τ.year t) gdp ∧
        ComputedValue W ⟨"inputdata/data/data_IMAGE_SSP.csv", "IMAGE", ssp ++ "-Ref-SPA0-V17", "Emissions|CO2",
          some "emissionsrate_unit"⟩ r (τ.year t) em ∧
        (paramsOf entries).population t r = pop ∧ (paramsOf entries).baseline_GDP t r = gdp ∧
        (paramsOf entries).baseline_emissions t r = em := by
  obtain ⟨τ, regions, h1, h2, h3⟩ := series_value (n := "population") (name := "population") (var := "Population")
    (unit := "population_unit") hu S (by decide) (by decide) (by decide +kernel) (by decide +kernel) (hun _ (by simp)) he
    (List.mem_append_left _ (by simp [baseParams])) (by decide) (by decide) (by decide)
    (fun n hn => hcm n (by simp at hn; simp [hn]))
  obtain ⟨τ', regions', h1', h2', h4⟩ := series_value (n := "GDP") (name := "baseline_GDP") (var := "GDP|PPP")
    (unit := "currency_unit") hu S (by decide) (by decide) (by decide +kernel) (by decide +kernel) (hun _ (by simp)) he
    (List.mem_append_left _ (by simp [baseParams])) (by decide) (by decide) (by decide)
    (fun n hn => hcm n (by simp at hn; simp [hn]))
  rw [h1] at h1'; cases h1'
  rw [h2] at h2'; cases h2'
  obtain ⟨τ', regions', h1', h2', h5⟩ := series_value (n := "emissions") (name := "baseline_emissions")
    (var := "Emissions|CO2") (unit := "emissionsrate_unit") hu S (by decide) (by decide) (by decide +kernel)
    (by decide +kernel) (hun _ (by simp)) he (List.mem_append_left _ (by simp [baseParams])) (by decide) (by decide)
    (by decide) (fun n hn => hcm n (by simp at hn; simp [hn]))
  rw [h1] at h1'; cases h1'
  rw [h2] at h2'; cases h2'
  refine ⟨τ, regions, h1, h2, fun t ht r hr => ?_⟩
  obtain ⟨pop, hp, ep⟩ := h3 t ht r hr
  obtain ⟨gdp, hg, eg⟩ := h4 t ht r hr
  obtain ⟨em, hm, em'⟩ := h5 t ht r hr
  exact ⟨pop, gdp, em, hp, hg, hm, ep, eg, em'⟩

/-- **C57.** Hence the first-year emissions of every solution are the SSP's data for the start year, and they add up to
the global emissions. -/
theorem C57_initial_emissions (hu : user.WF) {history : List StoreParams}
    (S : Setup B uni F W user (afterHistory W history) params tree md entries)
    (hsol : Solution md (paramsOf entries) σ)
    (hcm : NoCustom user ("population" :: "baseline_GDP" :: "baseline_emissions" :: gridNames))
    (hun : ∀ n ∈ ["GDP", "emissions", "population"],
      getNested [.str "input", .str "variables", .str n] user = .error .keyError)
    {ssp : String} (he : Effective user [.str "SSP"] (.atom (.str ssp))) :
    ∃ τ regions, readTime params = .ok τ ∧ regionNames params = .ok regions ∧ (0 ≤ τ.tf → ∃ em : String → ℚ,
      (∀ r ∈ regions, ComputedValue W ⟨"inputdata/data/data_IMAGE_SSP.csv", "IMAGE", ssp ++ "-Ref-SPA0-V17",
        "Emissions|CO2", some "emissionsrate_unit"⟩ r τ.start (em r) ∧ σ.R .regional_emissions 0 r = em r) ∧
      σ.G .global_emissions 0 = (regions.map fun r => (em r : ℝ)).sum) := by
  obtain ⟨τ, regions, h1, h2, h3⟩ := C57_ssp hu S (fun n hn => hcm n (by
    simp only [List.mem_cons, List.not_mem_nil, or_false] at hn
    rcases hn with rfl | rfl | rfl <;> simp)) hun he
  obtain ⟨τ', regions', h1', h2', -, -, -, h6⟩ := grid_params hu S fun n hn => hcm n (by simp [hn])
  rw [h1] at h1'; cases h1'
  rw [h2] at h2'; cases h2'
  refine ⟨τ, regions, h1, h2, fun htf => ?_⟩
  have h4 : ∀ r, ∃ q : ℚ, r ∈ regions → ComputedValue W ⟨"inputdata/data/data_IMAGE_SSP.csv", "IMAGE",
      ssp ++ "-Ref-SPA0-V17", "Emissions|CO2", some "emissionsrate_unit"⟩ r τ.start q ∧
      (paramsOf entries).baseline_emissions 0 r = q := by
    intro r
    by_cases hr : r ∈ regions
    · obtain ⟨pop, gdp, em, -, -, hm, -, -, e⟩ := h3 0 (by exact_mod_cast htf) r hr
      exact ⟨em, fun _ => ⟨by simpa [TimeParams.year] using hm, e⟩⟩
    · exact ⟨0, fun h => absurd h hr⟩
  choose em hem using h4
  obtain ⟨c1, c2, -⟩ := C32_emissions hsol
  rw [h6] at c1 c2
  refine ⟨em, fun r hr => ⟨(hem r hr).1, by rw [c1 r hr, (hem r hr).2]⟩, ?_⟩
  rw [c2]
  congr 1
  exact List.map_congr_left fun r hr => (hem r hr).2

/-- The hypotheses hold for the configuration of `exampleSetup`, which leaves SSP and the data sources at their
defaults. -/
example : (∀ n ∈ ["GDP", "emissions", "population"],
      getNested [.str "input", .str "variables", .str n] exampleUser = .error .keyError) ∧
    Effective exampleUser [.str "SSP"] (.atom (.str "SSP2")) := by
  refine ⟨?_, ?_⟩
  · simp only [List.mem_cons, List.not_mem_nil, or_false]
    rintro n (rfl | rfl | rfl) <;> rfl
  · obtain ⟨u, h1, h2⟩ := effective_default (user := exampleUser) (ks := [.str "SSP"]) (valIsStr "SSP2")
      (by decide +kernel) rfl
    unfold valIsStr at h2
    split at h2
    · simp only [decide_eq_true_eq] at h2
      subst h2
      exact h1
    · cases h2

end Mimosa
