import Verif.Lib.RunFacts
import Verif.Props.Emissions

/-!
# C50: a configured carbon budget reaches the optimisation
-/

namespace Mimosa

variable {B : Builtins} {uni : Char → Bool} {F : RegionalFiles} {W : DataWorld} {user params : Val} {c : DataCache}
  {tree : Py Parser} {md : Modules} {entries : List (String × IData)} {σ : Env}

/-- The user's configuration has no custom mapping for these names. -/
def NoCustom (user : Val) (names : List String) : Prop :=
  ∀ n ∈ names, ∀ v, getNested [.str "simulation", .str "custom_mapping", .str n] user ≠ .ok v

theorem NoCustom.key (hu : user.WF) (h : mimosaParams B uni DefaultYaml.entries user = .ok (params, tree))
    {names : List String} (hn : NoCustom user names) {n : String} (hm : n ∈ names) (v : Val) :
    ¬ CustomKey params n v := by
  intro hk
  obtain ⟨u, hu'⟩ := customKey_user hu h hk
  exact hn n hm u hu'

/-! ## Optional quantities -/

theorem quantity_at {ks : List String} {unit : String}
    (ht : parserTest (ks.map Key.str) (isQuantity unit) = true) : ∃ b : ParserBase, b.canBeFalse = true ∧
    HasParser DefaultYaml.entries (ks.map Key.str) (.quantity b (.atom (.str unit))) := by
  obtain ⟨p, hp, hq⟩ := parserTest_spec ht
  unfold isQuantity at hq
  split at hq
  · rename_i b u
    simp only [Bool.and_eq_true, decide_eq_true_eq] at hq
    obtain ⟨h1, rfl⟩ := hq
    exact ⟨b, h1, hp⟩
  · cases hq

/-- What an optional quantity of the configuration becomes in the model. -/
theorem optional_quantity (hu : user.WF) (S : Setup B uni F W user c params tree md entries) {ks : List String}
    (hne : ks ≠ []) (hpl : ∀ k ∈ ks, PlainKey k) {unit : String}
    (ht : parserTest (ks.map Key.str) (isQuantity unit) = true) {d : ParamDecl} (hd : d ∈ allParams md)
    (hdoc : DocIs B params d ("::".toList ++ dotted ks)) (hgrid : d.name ∉ gridNames)
    (hcomb : d.name ∉ combinedNames) (hcm : NoCustom user [d.name]) {u : Val}
    (he : Effective user (ks.map Key.str) u) (hr : NoRefs u) :
    (¬ WrittenFalse u → ∃ x, W.pint.conv (customReplace (pyStr B u).toList) (targetUnit unit.toList) = .ok x ∧
      scalarOf entries d.name = some (.atom (.float x))) ∧
    (WrittenFalse u → scalarOf entries d.name = some (.atom (.bool false))) := by
  obtain ⟨b, hb, hp⟩ := quantity_at ht
  obtain ⟨dd, hc, -, -, hwf⟩ := mimosaParams_spec hu S.config
  obtain ⟨v, hv, hfin, htree⟩ := final_value hu S.config hp he
  have hno : NotOverridden params d.name :=
    ⟨hgrid, fun v => hcm.key hu S.config (by simp) v, fun _ => hcomb⟩
  obtain ⟨v1, parser, hv1, hp1, -, hq⟩ := C18_scalar hwf S.inst (declared_of_mem hd) hno hne hpl hdoc
  rw [htree] at hp1
  simp only [Except.ok.injEq, Py.atom.injEq] at hp1
  obtain ⟨w, hw, hi⟩ := hq b _ hp1.symm
  constructor
  · intro hoff
    have hcf : Parser.checkFalse b u = false := by
      rw [← Bool.not_eq_true, checkFalse_iff]; exact fun h => hoff h.2
    simp only [Parser.parse, hcf, Bool.false_eq_true, if_false] at hv
    obtain rfl : v = u := by
      split at hv
      · cases hv; rfl
      · cases hv
    rw [hfin hr, Except.ok.injEq] at hv1
    subst hv1
    unfold quant2 at hw
    rw [if_neg (by
      simp only [Bool.true_and]
      split
      · exact absurd (by simp [WrittenFalse]) hoff
      · simp)] at hw
    split at hw
    · cases hw
    · rename_i x hx
      cases hw
      exact ⟨x, hx, by simp only [scalarOf, hi]⟩
  · intro hoff
    have hv' : (Parser.quantity b (.atom (.str unit))).parse B u = .ok Val.false :=
      (C06_false_iff _ _).2 (Or.inl ⟨hb, hoff⟩)
    rw [hv, Except.ok.injEq] at hv'
    subst hv'
    rw [hfin ⟨rfl, by simp [Val.false]⟩, Except.ok.injEq] at hv1
    subst hv1
    unfold quant2 Val.false at hw
    simp only [Bool.true_and, if_true, Except.ok.injEq] at hw
    subst hw
    simp only [scalarOf, hi]

/-! ## The time grid -/

theorem grid_params (hu : user.WF) (S : Setup B uni F W user c params tree md entries)
    (hcm : NoCustom user gridNames) : ∃ τ regions, readTime params = .ok τ ∧ regionNames params = .ok regions ∧
      (paramsOf entries).beginyear = τ.start ∧ (paramsOf entries).dt = τ.dt ∧
      (paramsOf entries).tf = τ.tf.toNat ∧ (paramsOf entries).regions = regions := by
  obtain ⟨dd, hc, -, -, hwf⟩ := mimosaParams_spec hu S.config
  have key : ∀ n ∈ gridNames, ∃ τ regions, readTime params = .ok τ ∧ regionNames params = .ok regions ∧
      ∀ v, (n, v) ∈ gridValue τ regions → instanceValue n entries = some v := by
    intro n hn
    obtain ⟨τ, regions, h1, h2, -⟩ := C18_grid (v := .names []) hwf S.inst fun v => hcm.key hu S.config hn v
    refine ⟨τ, regions, h1, h2, fun v => ?_⟩
    obtain ⟨τ', regions', h1', h2', h3⟩ := C18_grid (v := v) hwf S.inst fun v => hcm.key hu S.config hn v
    rw [h1] at h1'; rw [h2] at h2'
    cases h1'; cases h2'
    exact h3
  obtain ⟨τ, regions, h1, h2, -⟩ := key "dt" (by decide)
  have key' : ∀ n v, n ∈ gridNames → (n, v) ∈ gridValue τ regions → instanceValue n entries = some v := by
    intro n v hn hm
    obtain ⟨τ', regions', h1', h2', h3⟩ := key n hn
    rw [h1] at h1'; rw [h2] at h2'
    cases h1'; cases h2'
    exact h3 v hm
  refine ⟨τ, regions, h1, h2, ?_, ?_, ?_, ?_⟩
  · have := key' "beginyear" _ (by decide) (by simp only [gridValue]; exact List.mem_cons_self)
    simp [paramsOf, numOf, scalarOf, this, Val.num]
  · have := key' "dt" (.scalar (.atom (.float (.fin τ.dt)))) (by decide) (by simp [gridValue])
    simp [paramsOf, numOf, scalarOf, this, Val.num]
  · have := key' "tf" (.scalar (.atom (.int τ.tf))) (by decide) (by simp [gridValue])
    simp [paramsOf, intOf, scalarOf, this]
  · have := key' "regions" (.names regions) (by decide) (by simp [gridValue])
    simp [paramsOf, namesOf, this]

/-! ## C50 -/

theorem budget_mem : (⟨"budget", .scalar, .str "::emissions.carbonbudget"⟩ : ParamDecl) ∈ allParams md :=
  List.mem_append_right _ (List.mem_flatMap.2 ⟨Emissions.component, by simp [components], by simp [Emissions.component]⟩)

/-- **C50.** If the configuration has `emissions: carbonbudget: u` (not one of the values for "off", and no
reference), then Pint converts `u` to some number of GtCO2, and every solution of the model built from the
configuration keeps the cumulative emissions below that number at every model year from 2100 on. -/
theorem C50_budget (hu : user.WF) (S : Setup B uni F W user c params tree md entries)
    (hsol : Solution md (paramsOf entries) σ) (hcm : NoCustom user ("budget" :: gridNames)) {u : Val}
    (he : Effective user [.str "emissions", .str "carbonbudget"] u) (hoff : ¬ WrittenFalse u) (hr : NoRefs u) :
    ∃ x τ, W.pint.conv (customReplace (pyStr B u).toList) "(GtCO2)".toList = .ok x ∧ readTime params = .ok τ ∧
      ∀ q, x = .fin q → ∀ t : ℕ, t ≤ τ.tf → (2100 : ℚ) ≤ τ.start + t * τ.dt → σ.G .cumulative_emissions t ≤ q := by
  obtain ⟨x, hx, hs⟩ := (optional_quantity (ks := ["emissions", "carbonbudget"]) hu S (by simp)
    (by unfold PlainKey; decide) (unit := "emissions_unit") (by decide +kernel) budget_mem
    (by simp only [DocIs]; decide) (by decide) (by decide) (fun n hn => hcm n (by simp at hn; simp [hn])) he hr).1 hoff
  obtain ⟨τ, regions, h1, -, h3, h4, h5, -⟩ := grid_params hu S fun n hn => hcm n (by simp [hn])
  have htu : targetUnit "emissions_unit".toList = "(GtCO2)".toList := by decide +kernel
  rw [htu] at hx
  refine ⟨x, τ, hx, h1, ?_⟩
  rintro q rfl t ht hy
  refine C26_budget hsol (b := q) ?_ (t := t) ?_ ?_
  · simp only [paramsOf, optOf, hs, Val.num]
  · rw [h5]; omega
  · rw [h3, h4]; exact_mod_cast hy

/-- **C50.** Written as "off", the budget is not imposed. -/
theorem C50_budget_off (hu : user.WF) (S : Setup B uni F W user c params tree md entries)
    (hcm : NoCustom user ["budget"]) {u : Val}
    (he : Effective user [.str "emissions", .str "carbonbudget"] u) (hoff : WrittenFalse u) :
    (paramsOf entries).budget = none := by
  have hr : NoRefs u := by
    rcases hoff with rfl | rfl | rfl | rfl | rfl | rfl <;> exact ⟨rfl, by simp⟩
  have hs := (optional_quantity (ks := ["emissions", "carbonbudget"]) hu S (by simp)
    (by unfold PlainKey; decide) (unit := "emissions_unit") (by decide +kernel) budget_mem
    (by simp only [DocIs]; decide) (by decide) (by decide) hcm he hr).2 hoff
  simp only [paramsOf, optOf, hs]

/-! ## A concrete case: MIMOSA's own default configuration with a budget of 600 GtCO2 -/

/-- One region, four time steps after 2020, a budget; everything else is MIMOSA's default configuration (COACCH
damages). -/
def exampleUser : Val := exDict
  [("time", exDict [("start", .atom (.int 2020)), ("end", .atom (.int 2100)), ("dt", .atom (.int 20))]),
   ("emissions", exDict [("carbonbudget", exStr "600 GtCO2")]),
   ("regions", exDict [("USA", .atom .null)]),
   ("regionsmappings", .list []),
   ("regional_parameter_files", exDict
     [("economics", exDict [("filename", exStr "eco.csv"), ("regionstype", exStr "IMAGE26")]),
      ("MAC", exDict [("filename", exStr "mac.csv"), ("regionstype", exStr "IMAGE26")]),
      ("COACCH", exDict [("filename", exStr "coacch.csv"), ("regionstype", exStr "IMAGE26")]),
      ("mortality", exDict [("filename", exStr "mort.csv"), ("regionstype", exStr "IMAGE26")])])]

/-- Every regional file has all columns that the model asks for. -/
def exampleColumns : List String :=
  ["init_capital_factor", "kappa_rel_abatement_0.75_2050", "NoSLR_form", "NoSLR_b1", "NoSLR_b2", "NoSLR_b3", "NoSLR_a (q=1.5)",
   "SLR-Ad_form", "SLR-Ad_b1", "SLR-Ad_b2", "SLR-Ad_b3", "SLR-Ad_a (q=1.5)",
   "oldest_a", "oldest_b", "oldest_c", "older_a", "older_b", "older_c", "young_a", "young_b", "young_c"]

def exampleFiles2 : RegionalFiles where
  params _ := some ⟨exampleColumns, [("USA", fun col => if col = "NoSLR_form" ∨ col = "SLR-Ad_form" then .text "Linear"
    else .num 2)]⟩
  conversions _ := none

def exampleRow (var : String) : DataRow := ⟨"IMAGE", "SSP2-Ref-SPA0-V17", "USA", var, "unit", [10, 12]⟩

def exampleWorld2 : DataWorld where
  files _ := some ⟨[2020, 2100], ["GDP|PPP", "Emissions|CO2", "Population"].map exampleRow⟩
  cubic _ x := .ok (x / 200)
  pint := ⟨fun _ _ => .ok (.fin 600), fun x _ _ => .ok x⟩

theorem exampleSetup : ∃ params tree md entries, Setup exampleBuiltins (fun _ => false) exampleFiles2 exampleWorld2
    exampleUser (afterHistory exampleWorld2 []) params tree md entries ∧ (paramsOf entries).budget = some 600 ∧
    (paramsOf entries).tf = 4 ∧ (paramsOf entries).regions = ["USA"] := by
  have key : (match mimosaParams exampleBuiltins (fun _ => false) DefaultYaml.entries exampleUser with
      | .error _ => false
      | .ok (params, tree) => match readModules params with
        | .error _ => false
        | .ok md => match instantiate exampleBuiltins exampleFiles2 exampleWorld2 (allParams md) params tree
            (afterHistory exampleWorld2 []) with
          | .error _ => false
          | .ok entries => (match scalarOf entries "budget" with
              | some (.atom (.float (.fin q))) => decide (q = 600)
              | _ => false) && decide (intOf entries "tf" = 4) && decide (namesOf entries "regions" = ["USA"])) = true := by
    decide +kernel
  split at key
  · cases key
  rename_i params tree h1
  split at key
  · cases key
  rename_i md h2
  split at key
  · cases key
  rename_i entries h3
  simp only [Bool.and_eq_true, decide_eq_true_eq] at key
  obtain ⟨⟨k1, k2⟩, k3⟩ := key
  refine ⟨params, tree, md, entries, ⟨h1, h2, h3⟩, ?_, by simp [paramsOf, k2], by simp [paramsOf, k3]⟩
  split at k1
  · rename_i q hq
    simp only [decide_eq_true_eq] at k1
    subst k1
    simp [paramsOf, optOf, hq, Val.num]
  · cases k1

example : exampleUser.WF := by
  simp [exampleUser, exDict, exStr, Py.WF, Py.WFDict, Py.WFList, Dict.keys]

example : NoCustom exampleUser ("budget" :: gridNames) := by
  intro n _ v h
  have : getNested [.str "simulation", .str "custom_mapping", .str n] exampleUser = .error .keyError := rfl
  rw [this] at h
  cases h

example : getNested [.str "emissions", .str "carbonbudget"] exampleUser = .ok (exStr "600 GtCO2") ∧
    ¬ WrittenFalse (exStr "600 GtCO2") ∧ NoRefs (exStr "600 GtCO2") := by
  refine ⟨rfl, by simp [WrittenFalse, exStr], rfl, ?_⟩
  rintro s hs
  simp only [exStr, Py.atom.injEq, Scalar.str.injEq] at hs
  subst hs
  decide

end Mimosa
