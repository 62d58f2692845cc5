import Verif.Props.ConfigModules
import Verif.Props.Settings
import Verif.Props.Export
import Verif.Props.Climate

/-!
# C69: the regional coefficients of the equations are those of the configured regional files
-/

set_option linter.unusedSimpArgs false

namespace Mimosa
open Damages

variable {B : Builtins} {uni : Char → Bool} {F : RegionalFiles} {W : DataWorld} {user params : Val} {c : DataCache}
  {tree : Py Parser} {md : Modules} {entries : List (String × IData)} {σ : Env}

/-! ## Specification -/

/-- The choices of the configuration that select a column: `economics - MAC - regional calibration factor`,
`economics - damages - quantile` (as printed) and `economics - damages - coacch_slr_withadapt`. -/
structure Spec.Choices where
  calibration : String
  quantile : String
  adaptation : Bool

namespace Spec.Choices
variable (C : Spec.Choices)
/-- `Ad` or `NoAd` -/
def adapt : String := if C.adaptation then "Ad" else "NoAd"
end Spec.Choices

/-- The configuration makes these choices. -/
structure Spec.Chosen (B : Builtins) (user : Val) (C : Spec.Choices) : Prop where
  calibration : Effective user [.str "economics", .str "MAC", .str "regional calibration factor"]
    (.atom (.str C.calibration))
  quantile : ∃ u, Effective user [.str "economics", .str "damages", .str "quantile"] u ∧ NoRefs u ∧
    C.quantile = pyStr B u ∧ ':' ∉ C.quantile.toList
  adaptation : ∃ u, Effective user [.str "economics", .str "damages", .str "coacch_slr_withadapt"] u ∧
    if C.adaptation then WrittenTrue u else WrittenFalse u

/-- The regional numbers of the model: name, category and column, and the place where the equations use it. -/
def Spec.regionalNumbers (C : Spec.Choices) : List (String × String × String × (Params → String → ℝ)) :=
  [("init_capitalstock_factor", "economics", "init_capital_factor", fun p r => p.init_capitalstock_factor r),
   ("MAC_scaling_factor", "MAC", C.calibration, fun p r => p.MAC_scaling_factor r),
   ("damage_noslr_b1", "COACCH", "NoSLR_b1", fun p r => p.noslr.b1 r),
   ("damage_noslr_b2", "COACCH", "NoSLR_b2", fun p r => p.noslr.b2 r),
   ("damage_noslr_b3", "COACCH", "NoSLR_b3", fun p r => p.noslr.b3 r),
   ("damage_noslr_a", "COACCH", "NoSLR_a (q=" ++ C.quantile ++ ")", fun p r => p.noslr.a r),
   ("damage_slr_b1", "COACCH", "SLR-" ++ C.adapt ++ "_b1", fun p r => p.slr.b1 r),
   ("damage_slr_b2", "COACCH", "SLR-" ++ C.adapt ++ "_b2", fun p r => p.slr.b2 r),
   ("damage_slr_b3", "COACCH", "SLR-" ++ C.adapt ++ "_b3", fun p r => p.slr.b3 r),
   ("damage_slr_a", "COACCH", "SLR-" ++ C.adapt ++ "_a (q=" ++ C.quantile ++ ")", fun p r => p.slr.a r),
   ("mortality_param_oldest_a", "mortality", "oldest_a", fun p r => p.mortality_oldest.a r),
   ("mortality_param_oldest_b", "mortality", "oldest_b", fun p r => p.mortality_oldest.b r),
   ("mortality_param_oldest_c", "mortality", "oldest_c", fun p r => p.mortality_oldest.c r),
   ("mortality_param_older_a", "mortality", "older_a", fun p r => p.mortality_older.a r),
   ("mortality_param_older_b", "mortality", "older_b", fun p r => p.mortality_older.b r),
   ("mortality_param_older_c", "mortality", "older_c", fun p r => p.mortality_older.c r),
   ("mortality_param_young_a", "mortality", "young_a", fun p r => p.mortality_young.a r),
   ("mortality_param_young_b", "mortality", "young_b", fun p r => p.mortality_young.b r),
   ("mortality_param_young_c", "mortality", "young_c", fun p r => p.mortality_young.c r)]

/-- The two functional forms. -/
def Spec.regionalTexts (C : Spec.Choices) : List (String × String × String × (Params → String → String)) :=
  [("damage_noslr_form", "COACCH", "NoSLR_form", fun p r => p.noslr.form r),
   ("damage_slr_form", "COACCH", "SLR-" ++ C.adapt ++ "_form", fun p r => p.slr.form r)]

/-- Switched on. -/
def Spec.CombinedOn (user : Val) : Prop :=
  ∃ u, Effective user [.str "economics", .str "damages", .str "coacch_combined_slr_nonslr_damages"] u ∧ WrittenTrue u
def Spec.CombinedOff (user : Val) : Prop :=
  ∃ u, Effective user [.str "economics", .str "damages", .str "coacch_combined_slr_nonslr_damages"] u ∧ WrittenFalse u

/-! ## Reading the final configuration -/

/-- A switch of the configuration. -/
theorem bool_final (hu : user.WF) (h : mimosaParams B uni DefaultYaml.entries user = .ok (params, tree))
    {ks : List Key} (ht : parserTest ks isBool = true) {u : Val} (he : Effective user ks u) :
    (WrittenTrue u → getNested ks params = .ok (.atom (.bool true))) ∧
    (WrittenFalse u → getNested ks params = .ok (.atom (.bool false))) := by
  obtain ⟨p, hp, hq⟩ := parserTest_spec ht
  unfold isBool at hq
  split at hq
  · rename_i b
    obtain ⟨v, hv, hfin, -⟩ := final_value hu h hp he
    obtain ⟨h1, h2, -⟩ := C05_bool (B := B) (b := b) u
    constructor
    · intro hw
      rw [h1 hw] at hv
      cases hv
      exact hfin ⟨rfl, by simp⟩
    · intro hw
      rw [h2 hw] at hv
      cases hv
      exact hfin ⟨rfl, by simp⟩
  · cases hq

def isPlainEnum : Parser → Bool
  | .enum b _ => !b.canBeFalse
  | _ => false

/-- A choice from a list. -/
theorem enum_final (hu : user.WF) (h : mimosaParams B uni DefaultYaml.entries user = .ok (params, tree))
    {ks : List Key} (ht : parserTest ks isPlainEnum = true) {u : Val} (he : Effective user ks u) (hr : NoRefs u) :
    getNested ks params = .ok u := by
  obtain ⟨p, hp, hq⟩ := parserTest_spec ht
  unfold isPlainEnum at hq
  split at hq
  · rename_i b l
    simp only [Bool.not_eq_true'] at hq
    obtain ⟨v, hv, hfin, -⟩ := final_value hu h hp he
    simp only [Parser.parse] at hv
    rw [if_neg (by
      intro hf
      rw [((checkFalse_iff b u).1 hf).1] at hq
      cases hq)] at hv
    split at hv
    · cases hv; exact hfin hr
    · cases hv
  · cases hq

theorem effective_unique {ks : List Key} {u v : Val} (h : Effective user ks u) (h' : Effective user ks v) : u = v := by
  rcases h with h | ⟨h, node, hn, rfl⟩ <;> rcases h' with h' | ⟨h', node', hn', rfl⟩
  · rw [h] at h'; cases h'; rfl
  · rw [h] at h'; cases h'
  · rw [h] at h'; cases h'
  · have := hn.at_path
    rw [hn'.at_path] at this
    cases this; rfl

/-- The three choices in the final configuration. -/
theorem chosen_final (hu : user.WF) (h : mimosaParams B uni DefaultYaml.entries user = .ok (params, tree))
    {C : Spec.Choices} (hC : Spec.Chosen B user C) :
    getNested [.str "economics", .str "MAC", .str "regional calibration factor"] params =
      .ok (.atom (.str C.calibration)) ∧
    (∃ u, getNested [.str "economics", .str "damages", .str "quantile"] params = .ok u ∧ pyStr B u = C.quantile) ∧
    getNested [.str "economics", .str "damages", .str "coacch_slr_withadapt"] params =
      .ok (.atom (.bool C.adaptation)) := by
  refine ⟨?_, ?_, ?_⟩
  · obtain ⟨s, he, hs⟩ := name_effective hu h
      (ks := [.str "economics", .str "MAC", .str "regional calibration factor"]) (by decide +kernel)
    rw [effective_unique hC.calibration he]
    exact hs
  · obtain ⟨u, he, hr, hq, -⟩ := hC.quantile
    exact ⟨u, enum_final hu h (by decide +kernel) he hr, hq.symm⟩
  · obtain ⟨u, he, ha⟩ := hC.adaptation
    obtain ⟨h1, h2⟩ := bool_final hu h (ks := [.str "economics", .str "damages", .str "coacch_slr_withadapt"])
      (by decide +kernel) he
    cases hA : C.adaptation with
    | true => rw [hA, if_pos rfl] at ha; exact h1 ha
    | false => rw [hA, if_neg (by simp)] at ha; exact h2 ha

theorem combined_off (hu : user.WF) (h : mimosaParams B uni DefaultYaml.entries user = .ok (params, tree))
    (ho : Spec.CombinedOff user) : ¬ CombinedDamages params := by
  obtain ⟨u, he, hw⟩ := ho
  rintro ⟨-, v, hv, ht⟩
  rw [(bool_final hu h (by decide +kernel) he).2 hw] at hv
  cases hv
  cases ht

theorem combined_on (hu : user.WF) (S : Setup B uni F W user c params tree md entries) (hd : md.damage = .COACCH)
    (ho : Spec.CombinedOn user) : CombinedDamages params := by
  obtain ⟨u, he, hw⟩ := ho
  obtain ⟨s, he', hs⟩ := name_effective hu S.config (ks := [.str "model", .str "damage module"]) (by decide +kernel)
  have := effective_unique he' (C67_modules hu S).1
  rw [hd] at this
  rw [this] at hs
  exact ⟨hs, _, (bool_final hu S.config (by decide +kernel) he).1 hw, rfl⟩

/-! ## One regional parameter -/

theorem regionItem_mem {name : String} {l : List (String × Val)} (hi : instanceValue name entries = some (.regional l))
    (hn : (l.map (·.1)).Nodup) {r : String} (hr : r ∈ l.map (·.1)) :
    ∃ v, (r, v) ∈ l ∧ regionItem entries name r = some v := by
  obtain ⟨⟨r', v⟩, hm, rfl⟩ := List.mem_map.1 hr
  refine ⟨v, hm, ?_⟩
  unfold regionItem
  rw [hi]
  simp only
  cases hf : l.find? fun e => decide (e.1 = r') with
  | none =>
    rw [List.find?_eq_none] at hf
    simpa using hf _ hm
  | some e =>
    have h1 := List.find?_some hf
    have h2 := List.mem_of_find?_eq_some hf
    simp only [decide_eq_true_eq] at h1
    have : e = (r', v) := List.inj_on_of_nodup_map hn h2 hm h1
    rw [this]; rfl

theorem regional_value (hu : user.WF) (S : Setup B uni F W user c params tree md entries)
    {d : ParamDecl} (hd : d ∈ allParams md) (hg : d.name ∉ gridNames) (hcm : NoCustom user (d.name :: gridNames))
    (hcomb : CombinedDamages params → d.name ∉ combinedNames) {cat col : String} (hcat : PlainKey cat)
    (hcol : ':' ∉ col.toList) (hdoc : DocIs B params d ("regional::".toList ++ cat.toList ++ '.' :: col.toList)) :
    ∃ rs, newRegionalStore F params = .ok rs ∧ ∀ r ∈ (paramsOf entries).regions,
      ∃ v, rs.getRegional B cat col r = .ok v ∧ regionItem entries d.name r = some v := by
  obtain ⟨dd, -, -, -, hwf⟩ := mimosaParams_spec hu S.config
  have hno : NotOverridden params d.name := ⟨hg, fun v => hcm.key hu S.config (by simp) v, hcomb⟩
  have hcm' : NoCustom user gridNames := fun n hn => hcm n (by simp [hn])
  obtain ⟨rs, regions, l, hrs, hreg, hi, hl, hv⟩ := C18_regional hwf S.inst (declared_of_mem hd) hno hcat hcol hdoc
  obtain ⟨τ, regions', -, h2, -, -, -, h6⟩ := grid_params hu S hcm'
  have hnd := config_regions_nodup hu S hcm'
  rw [h2] at hreg
  cases hreg
  rw [h6] at hnd ⊢
  refine ⟨rs, hrs, fun r hr => ?_⟩
  obtain ⟨v, hm, hv'⟩ := regionItem_mem hi (by rw [hl]; exact hnd) (by rw [hl]; exact hr)
  exact ⟨v, hv r v hm, hv'⟩

theorem damage_mem (hd : md.damage = .COACCH) {d : ParamDecl} (h : d ∈ Damages.coacch.params) : d ∈ allParams md := by
  refine List.mem_append_right _ (List.mem_flatMap.2 ⟨damageComponent md.damage, by simp [components], ?_⟩)
  rw [hd]; exact h

def isColonFree : Parser → Bool
  | .enum b l => !b.canBeFalse && l.all fun
    | .atom (.str s) => decide (':' ∉ s.toList)
    | _ => false
  | _ => false

theorem name_no_colon (hu : user.WF) (h : mimosaParams B uni DefaultYaml.entries user = .ok (params, tree))
    {ks : List Key} (ht : parserTest ks isColonFree = true) {s : String} (he : Effective user ks (.atom (.str s))) :
    ':' ∉ s.toList := by
  obtain ⟨p, hp, hq⟩ := parserTest_spec ht
  unfold isColonFree at hq
  split at hq
  · rename_i b l
    simp only [Bool.and_eq_true, Bool.not_eq_true', List.all_eq_true] at hq
    obtain ⟨hb, hl⟩ := hq
    obtain ⟨v, hv, -, -⟩ := final_value hu h hp he
    simp only [Parser.parse] at hv
    rw [if_neg (by
      intro hf
      rw [((checkFalse_iff b _).1 hf).1] at hb
      cases hb)] at hv
    split at hv
    · rename_i hin
      simp only [Val.isIn, List.any_eq_true] at hin
      obtain ⟨a, ha, hau⟩ := hin
      rw [valEq_str] at hau
      subst hau
      simpa using hl _ ha
    · cases hv
  · cases hq

/-- The doc string of each regional parameter names its column. -/
theorem regional_decl (hu : user.WF) (S : Setup B uni F W user c params tree md entries)
    {C : Spec.Choices} (hC : Spec.Chosen B user C) {name cat col : String}
    (hrow : (∃ f, (name, cat, col, f) ∈ Spec.regionalNumbers C) ∨ ∃ f, (name, cat, col, f) ∈ Spec.regionalTexts C)
    (hd : md.damage = .COACCH ∨ cat = "economics" ∨ cat = "MAC") :
    ∃ d ∈ allParams md, d.name = name ∧ d.name ∉ gridNames ∧ PlainKey cat ∧ ':' ∉ col.toList ∧
      DocIs B params d ("regional::".toList ++ cat.toList ++ '.' :: col.toList) := by
  obtain ⟨hcal, ⟨u, hu', hq⟩, had⟩ := chosen_final hu S.config hC
  obtain ⟨-, -, -, -, hqc⟩ := hC.quantile
  have hcc := name_no_colon hu S.config (by decide +kernel) hC.calibration
  have inC : ∀ (c : Component) (d : ParamDecl), c ∈ components md → d ∈ c.params → d ∈ allParams md := fun c d hc hd =>
    List.mem_append_right _ (List.mem_flatMap.2 ⟨c, hc, hd⟩)
  have hslr : ∀ n, slrParamName params n = .ok ("regional::COACCH.SLR-" ++ C.adapt ++ "_" ++ n) := fun n => by
    simp [slrParamName, had, Spec.Choices.adapt]
  have hsq : showNested (pyStr B) ["economics", "damages", "quantile"] params = .ok C.quantile := by
    simp [showNested, hu', hq]
  have hsc : showNested (pyStr B) ["economics", "MAC", "regional calibration factor"] params = .ok C.calibration := by
    simp [showNested, hcal, pyStr]
  have hac : ':' ∉ C.adapt.toList := by unfold Spec.Choices.adapt; split <;> decide
  have dam : ∀ {d : ParamDecl}, d ∈ Damages.coacch.params → cat ≠ "economics" → cat ≠ "MAC" → d ∈ allParams md :=
    fun h h1 h2 => damage_mem (hd.resolve_right (by simp [h1, h2])) h
  rcases hrow with ⟨f, hrow⟩ | ⟨f, hrow⟩
  · simp only [Spec.regionalNumbers, List.mem_cons, Prod.mk.injEq, List.not_mem_nil, or_false] at hrow
    rcases hrow with ⟨rfl, rfl, rfl, -⟩ | ⟨rfl, rfl, rfl, -⟩ | ⟨rfl, rfl, rfl, -⟩ | ⟨rfl, rfl, rfl, -⟩ | ⟨rfl, rfl, rfl, -⟩ | ⟨rfl, rfl, rfl, -⟩ | ⟨rfl, rfl, rfl, -⟩ | ⟨rfl, rfl, rfl, -⟩ | ⟨rfl, rfl, rfl, -⟩ | ⟨rfl, rfl, rfl, -⟩ | ⟨rfl, rfl, rfl, -⟩ | ⟨rfl, rfl, rfl, -⟩ | ⟨rfl, rfl, rfl, -⟩ | ⟨rfl, rfl, rfl, -⟩ | ⟨rfl, rfl, rfl, -⟩ | ⟨rfl, rfl, rfl, -⟩ | ⟨rfl, rfl, rfl, -⟩ | ⟨rfl, rfl, rfl, -⟩ | ⟨rfl, rfl, rfl, -⟩
    · exact ⟨⟨"init_capitalstock_factor", .overR, .str "regional::economics.init_capital_factor"⟩, inC (CobbDouglas.component md.transfer) _ (by simp [components]) (by simp [CobbDouglas.component]), rfl, by decide, ⟨by decide, by decide⟩, by decide,
        by simp only [DocIs]; decide⟩
    · refine ⟨(Mitigation.component md.trade).params[2]'(by simp [Mitigation.component]), inC (Mitigation.component md.trade) _ (by simp [components])
        (List.getElem_mem _), rfl, by show "MAC_scaling_factor" ∉ gridNames; decide, ⟨by decide, by decide⟩, hcc, ?_⟩
      refine ⟨"regional::MAC." ++ C.calibration, ?_, by simp [String.toList_append]⟩
      show (match showNested (pyStr B) ["economics", "MAC", "regional calibration factor"] params with
        | .ok s => Except.ok ("regional::MAC." ++ s)
        | .error e => .error e) = _
      rw [hsc]
    · exact ⟨⟨"damage_noslr_b1", .overR, .str "regional::COACCH.NoSLR_b1"⟩, dam (by simp [Damages.coacch]) (by decide) (by decide), rfl, by decide, ⟨by decide, by decide⟩, by decide,
        by simp only [DocIs]; decide⟩
    · exact ⟨⟨"damage_noslr_b2", .overR, .str "regional::COACCH.NoSLR_b2"⟩, dam (by simp [Damages.coacch]) (by decide) (by decide), rfl, by decide, ⟨by decide, by decide⟩, by decide,
        by simp only [DocIs]; decide⟩
    · exact ⟨⟨"damage_noslr_b3", .overR, .str "regional::COACCH.NoSLR_b3"⟩, dam (by simp [Damages.coacch]) (by decide) (by decide), rfl, by decide, ⟨by decide, by decide⟩, by decide,
        by simp only [DocIs]; decide⟩
    · refine ⟨Damages.coacch.params[5]'(by simp [Damages.coacch]), dam (List.getElem_mem _) (by decide) (by decide), rfl, by decide,
        ⟨by decide, by decide⟩, by simp [hqc], ?_⟩
      refine ⟨"regional::COACCH.NoSLR_a (q=" ++ C.quantile ++ ")", ?_, by simp [String.toList_append]⟩
      show (match showNested (pyStr B) ["economics", "damages", "quantile"] params with
        | .ok q => Except.ok ("regional::COACCH.NoSLR_a (q=" ++ q ++ ")")
        | .error e => .error e) = _
      rw [hsq]
    · refine ⟨Damages.coacch.params[7]'(by simp [Damages.coacch]), dam (List.getElem_mem _) (by decide) (by decide), rfl, by decide,
        ⟨by decide, by decide⟩, by simp [hac, hqc], _, hslr "b1", by simp [String.toList_append]⟩
    · refine ⟨Damages.coacch.params[8]'(by simp [Damages.coacch]), dam (List.getElem_mem _) (by decide) (by decide), rfl, by decide,
        ⟨by decide, by decide⟩, by simp [hac, hqc], _, hslr "b2", by simp [String.toList_append]⟩
    · refine ⟨Damages.coacch.params[9]'(by simp [Damages.coacch]), dam (List.getElem_mem _) (by decide) (by decide), rfl, by decide,
        ⟨by decide, by decide⟩, by simp [hac, hqc], _, hslr "b3", by simp [String.toList_append]⟩
    · refine ⟨Damages.coacch.params[10]'(by simp [Damages.coacch]), dam (List.getElem_mem _) (by decide) (by decide), rfl, by decide,
        ⟨by decide, by decide⟩, by simp [hac, hqc], ?_⟩
      refine ⟨"regional::COACCH.SLR-" ++ C.adapt ++ "_" ++ ("a (q=" ++ C.quantile ++ ")"), ?_, by simp [String.toList_append]⟩
      show (match showNested (pyStr B) ["economics", "damages", "quantile"] params with
        | .ok q => slrParamName params ("a (q=" ++ q ++ ")")
        | .error e => .error e) = _
      rw [hsq]
      exact hslr _
    · exact ⟨⟨"mortality_param_oldest_a", .overR, .str "regional::mortality.oldest_a"⟩, dam (by simp [Damages.coacch]) (by decide) (by decide), rfl, by decide, ⟨by decide, by decide⟩, by decide,
        by simp only [DocIs]; decide⟩
    · exact ⟨⟨"mortality_param_oldest_b", .overR, .str "regional::mortality.oldest_b"⟩, dam (by simp [Damages.coacch]) (by decide) (by decide), rfl, by decide, ⟨by decide, by decide⟩, by decide,
        by simp only [DocIs]; decide⟩
    · exact ⟨⟨"mortality_param_oldest_c", .overR, .str "regional::mortality.oldest_c"⟩, dam (by simp [Damages.coacch]) (by decide) (by decide), rfl, by decide, ⟨by decide, by decide⟩, by decide,
        by simp only [DocIs]; decide⟩
    · exact ⟨⟨"mortality_param_older_a", .overR, .str "regional::mortality.older_a"⟩, dam (by simp [Damages.coacch]) (by decide) (by decide), rfl, by decide, ⟨by decide, by decide⟩, by decide,
        by simp only [DocIs]; decide⟩
    · exact ⟨⟨"mortality_param_older_b", .overR, .str "regional::mortality.older_b"⟩, dam (by simp [Damages.coacch]) (by decide) (by decide), rfl, by decide, ⟨by decide, by decide⟩, by decide,
        by simp only [DocIs]; decide⟩
    · exact ⟨⟨"mortality_param_older_c", .overR, .str "regional::mortality.older_c"⟩, dam (by simp [Damages.coacch]) (by decide) (by decide), rfl, by decide, ⟨by decide, by decide⟩, by decide,
        by simp only [DocIs]; decide⟩
    · exact ⟨⟨"mortality_param_young_a", .overR, .str "regional::mortality.young_a"⟩, dam (by simp [Damages.coacch]) (by decide) (by decide), rfl, by decide, ⟨by decide, by decide⟩, by decide,
        by simp only [DocIs]; decide⟩
    · exact ⟨⟨"mortality_param_young_b", .overR, .str "regional::mortality.young_b"⟩, dam (by simp [Damages.coacch]) (by decide) (by decide), rfl, by decide, ⟨by decide, by decide⟩, by decide,
        by simp only [DocIs]; decide⟩
    · exact ⟨⟨"mortality_param_young_c", .overR, .str "regional::mortality.young_c"⟩, dam (by simp [Damages.coacch]) (by decide) (by decide), rfl, by decide, ⟨by decide, by decide⟩, by decide,
        by simp only [DocIs]; decide⟩
  · simp only [Spec.regionalTexts, List.mem_cons, Prod.mk.injEq, List.not_mem_nil, or_false] at hrow
    rcases hrow with ⟨rfl, rfl, rfl, -⟩ | ⟨rfl, rfl, rfl, -⟩
    · exact ⟨⟨"damage_noslr_form", .overR, .str "regional::COACCH.NoSLR_form"⟩, dam (by simp [Damages.coacch]) (by decide) (by decide), rfl, by decide, ⟨by decide, by decide⟩, by decide,
        by simp only [DocIs]; decide⟩
    · refine ⟨Damages.coacch.params[6]'(by simp [Damages.coacch]), dam (List.getElem_mem _) (by decide) (by decide), rfl, by decide,
        ⟨by decide, by decide⟩, by simp [hac, hqc], _, hslr "form", by simp [String.toList_append]⟩

/-! ## C69 -/

/-- The custom mapping of the configuration does not replace these parameters, the time grid or the regions. -/
abbrev Spec.Unmapped (user : Val) (names : List String) : Prop := NoCustom user (names ++ gridNames)

/-- **C69.** Each regional number in the equations is, in every region, the value of the configured regional parameter
(`C17` says which that is): initial capital, the level of the MAC curve in the column chosen as calibration factor,
the coefficients of the temperature damages and of the sea-level damages with or without adaptation, the damage factor
of the chosen quantile, and the mortality coefficients. -/
theorem C69_numbers (hu : user.WF) (S : Setup B uni F W user c params tree md entries) {C : Spec.Choices}
    (hC : Spec.Chosen B user C) (hoff : Spec.CombinedOff user) {name cat col : String} {f : Params → String → ℝ}
    (hrow : (name, cat, col, f) ∈ Spec.regionalNumbers C) (hd : md.damage = .COACCH ∨ cat = "economics" ∨ cat = "MAC")
    (hcm : Spec.Unmapped user [name]) : ∃ rs, newRegionalStore F params = .ok rs ∧
      ∀ r ∈ (paramsOf entries).regions, ∃ v, rs.getRegional B cat col r = .ok v ∧
        ∀ x, Val.num v = some x → f (paramsOf entries) r = x := by
  obtain ⟨d, hd, rfl, hg, hcat, hcol, hdoc⟩ := regional_decl hu S hC (.inl ⟨f, hrow⟩) hd
  obtain ⟨rs, hrs, h⟩ := regional_value hu S hd hg hcm (fun h => absurd h (combined_off hu S.config hoff)) hcat hcol hdoc
  refine ⟨rs, hrs, fun r hr => ?_⟩
  obtain ⟨v, hv, hi⟩ := h r hr
  refine ⟨v, hv, fun x hx => ?_⟩
  have hf : f (paramsOf entries) r = regionNum entries d.name r := by
    generalize d.name = n at *
    simp only [Spec.regionalNumbers, List.mem_cons, Prod.mk.injEq, List.not_mem_nil, or_false] at hrow
    rcases hrow with ⟨rfl, -, -, rfl⟩ | ⟨rfl, -, -, rfl⟩ | ⟨rfl, -, -, rfl⟩ | ⟨rfl, -, -, rfl⟩ | ⟨rfl, -, -, rfl⟩ |
      ⟨rfl, -, -, rfl⟩ | ⟨rfl, -, -, rfl⟩ | ⟨rfl, -, -, rfl⟩ | ⟨rfl, -, -, rfl⟩ | ⟨rfl, -, -, rfl⟩ | ⟨rfl, -, -, rfl⟩ |
      ⟨rfl, -, -, rfl⟩ | ⟨rfl, -, -, rfl⟩ | ⟨rfl, -, -, rfl⟩ | ⟨rfl, -, -, rfl⟩ | ⟨rfl, -, -, rfl⟩ | ⟨rfl, -, -, rfl⟩ |
      ⟨rfl, -, -, rfl⟩ | ⟨rfl, -, -, rfl⟩ <;> rfl
  rw [hf, regionNum, hi]
  simp [hx]

/-- **C69.** So are the two functional forms of the damage functions. -/
theorem C69_forms (hu : user.WF) (S : Setup B uni F W user c params tree md entries) {C : Spec.Choices}
    (hC : Spec.Chosen B user C) (hoff : Spec.CombinedOff user) {name cat col : String} {f : Params → String → String}
    (hrow : (name, cat, col, f) ∈ Spec.regionalTexts C) (hd : md.damage = .COACCH)
    (hcm : Spec.Unmapped user [name]) : ∃ rs, newRegionalStore F params = .ok rs ∧
      ∀ r ∈ (paramsOf entries).regions, ∃ v, rs.getRegional B cat col r = .ok v ∧
        ∀ s, v = .atom (.str s) → f (paramsOf entries) r = s := by
  obtain ⟨d, hd, rfl, hg, hcat, hcol, hdoc⟩ := regional_decl hu S hC (.inr ⟨f, hrow⟩) (.inl hd)
  obtain ⟨rs, hrs, h⟩ := regional_value hu S hd hg hcm (fun h => absurd h (combined_off hu S.config hoff)) hcat hcol hdoc
  refine ⟨rs, hrs, fun r hr => ?_⟩
  obtain ⟨v, hv, hi⟩ := h r hr
  refine ⟨v, hv, ?_⟩
  rintro s rfl
  have hf : f (paramsOf entries) r = regionText entries d.name r := by
    generalize d.name = n at *
    simp only [Spec.regionalTexts, List.mem_cons, Prod.mk.injEq, List.not_mem_nil, or_false] at hrow
    rcases hrow with ⟨rfl, -, -, rfl⟩ | ⟨rfl, -, -, rfl⟩ <;> rfl
  rw [hf, regionText, hi]

/-- The values of the columns with the combined coefficients for the chosen quantile and adaptation. -/
structure Spec.CombinedCoefficients (B : Builtins) (rs : RegionalStore) (C : Spec.Choices) (r : String) (b1 b2 : ℝ) :
    Prop where
  b1 : ∃ v, rs.getRegional B "COACCH" ("combined_b1_" ++ C.adapt ++ "-q" ++ C.quantile) r = .ok v ∧ Val.num v = some b1
  b2 : ∃ v, rs.getRegional B "COACCH" ("combined_b2_" ++ C.adapt ++ "-q" ++ C.quantile) r = .ok v ∧ Val.num v = some b2

/-- **C69.** With `coacch_combined_slr_nonslr_damages` switched on there are no separate damages of sea-level rise, and
the damages are the quadratic function of temperature with the combined coefficients of the chosen quantile, with or
without adaptation, relative to the first year, whatever the other damage settings and the custom mapping say. -/
theorem C69_combined (hu : user.WF) (S : Setup B uni F W user c params tree md entries) {C : Spec.Choices}
    (hC : Spec.Chosen B user C) (hd : md.damage = .COACCH) (hon : Spec.CombinedOn user)
    (hcm : NoCustom user gridNames) : ∃ rs, newRegionalStore F params = .ok rs ∧
      ∀ σ, Solution md (paramsOf entries) σ → ∀ t ≤ (paramsOf entries).tf, ∀ r ∈ (paramsOf entries).regions,
        ∀ b1 b2, Spec.CombinedCoefficients B rs C r b1 b2 →
        σ.R .damage_costs_slr t r = 0 ∧
        σ.R .damage_costs t r = (paramsOf entries).damage_scale_factor / 100 *
          (b1 * (σ.G .temperature t - 0.6) + b2 * (σ.G .temperature t - 0.6) ^ 2
            - (b1 * ((paramsOf entries).T0 - 0.6) + b2 * ((paramsOf entries).T0 - 0.6) ^ 2)) := by
  obtain ⟨-, ⟨u, hu', hq⟩, had⟩ := chosen_final hu S.config hC
  obtain ⟨rs, regions, q, wa, l1, l2, hrs, hreg, hqq, hwa, h1, h2, hi1, hi2, hconst⟩ :=
    C18_combined S.inst (combined_on hu S hd hon)
  rw [had] at hwa
  cases hwa
  have eq : pyStr B q = C.quantile := by
    rcases hqq with h | ⟨h, -⟩
    · rw [hu'] at h; cases h; exact hq
    · rw [hu'] at h; cases h
  have en : ∀ k : String, k ++ ("_" ++ (if Val.truthy (.atom (.bool C.adaptation)) then "Ad" else "NoAd") ++ "-q" ++
      pyStr B q) = k ++ "_" ++ C.adapt ++ "-q" ++ C.quantile := fun k => by
    cases hA : C.adaptation <;> simp [eq, Spec.Choices.adapt, Val.truthy, String.append_assoc, hA]
  rw [en] at h1 h2
  obtain ⟨τ, regions', -, hreg', -, -, -, h6⟩ := grid_params hu S hcm
  have hnd := config_regions_nodup hu S hcm
  rw [hreg] at hreg'
  cases hreg'
  rw [h6] at hnd
  have hrp : rs.params = params := (C17_categories F params rs hrs).1
  have hmap : ∀ col l, rs.get B "COACCH" col = .ok l → l.map (·.1) = regions ∧
      ∀ r v, (r, v) ∈ l → rs.getRegional B "COACCH" col r = .ok v := by
    intro col l hl
    unfold RegionalStore.get at hl
    rw [hrp, hreg] at hl
    exact forRegions_ok hl
  refine ⟨rs, hrs, fun σ h t ht r hr b1 b2 hb => ?_⟩
  have hr' : r ∈ regions := h6 ▸ hr
  have num : ∀ name col l b, instanceValue name entries = some (.regional l) → rs.get B "COACCH" col = .ok l →
      (∃ v, rs.getRegional B "COACCH" col r = .ok v ∧ Val.num v = some b) → regionNum entries name r = b := by
    rintro name col l b hi hl ⟨v, hv, hb⟩
    obtain ⟨e1, e2⟩ := hmap col l hl
    obtain ⟨v', hm, hv'⟩ := regionItem_mem hi (by rw [e1]; exact hnd) (by rw [e1]; exact hr')
    rw [e2 r v' hm] at hv
    cases hv
    simp [regionNum, hv', hb]
  have item : ∀ name v, (name, v) ∈ ([("damage_noslr_form", .str "Robust-Quadratic"), ("damage_noslr_b3", .int 0),
          ("damage_noslr_a", .int 1), ("damage_slr_form", .str "Robust-Linear"), ("damage_slr_b1", .int 0),
          ("damage_slr_b2", .int 0), ("damage_slr_b3", .int 0), ("damage_slr_a", .int 0)] : List (String × Scalar)) →
        ∀ s ∈ regions, regionItem entries name s = some (.atom v) := by
    intro name v hm s hs
    have hi := hconst name v hm
    have e1 : (regions.map fun r => (r, (Py.atom v : Val))).map (·.1) = regions := by simp [Function.comp_def]
    obtain ⟨v', hm', hv'⟩ := regionItem_mem hi (by rw [e1]; exact hnd) (by rw [e1]; exact hs)
    simp only [List.mem_map, Prod.mk.injEq] at hm'
    obtain ⟨-, -, -, rfl⟩ := hm'
    exact hv'
  have f1 : (paramsOf entries).noslr.form r = "Robust-Quadratic" := by
    show regionText entries "damage_noslr_form" r = _
    rw [regionText, item "damage_noslr_form" (.str "Robust-Quadratic") (by simp) r hr']
  have f2 : (paramsOf entries).noslr.a r = 1 := by
    show regionNum entries "damage_noslr_a" r = _
    rw [regionNum, item "damage_noslr_a" (.int 1) (by simp) r hr']
    simp [Val.num]
  have f3 : ∀ s ∈ (paramsOf entries).regions, (paramsOf entries).slr.form s = "Robust-Linear" ∧
      (paramsOf entries).slr.a s = 0 := by
    intro s hs
    rw [h6] at hs
    constructor
    · show regionText entries "damage_slr_form" s = _
      rw [regionText, item "damage_slr_form" (.str "Robust-Linear") (by simp) s hs]
    · show regionNum entries "damage_slr_a" s = _
      rw [regionNum, item "damage_slr_a" (.int 0) (by simp) s hs]
      simp [Val.num]
  have g1 : (paramsOf entries).noslr.b1 r = b1 := num "damage_noslr_b1" _ l1 b1 hi1 h1 hb.b1
  have g2 : (paramsOf entries).noslr.b2 r = b2 := num "damage_noslr_b2" _ l2 b2 hi2 h2 hb.b2
  obtain ⟨z, e⟩ := C40_combined h hd f3 ht hr
  refine ⟨z, ?_⟩
  rw [e, (C40_temperature_damages h hd ht hr).2 f1, f2, g1, g2]
  ring

/-- **C18.** Nothing is set that the model does not declare (its parameters and the two index sets), except what the
custom mapping of the configuration names. -/
theorem C18_nothing_undeclared (hu : user.WF) (S : Setup B uni F W user c params tree md entries)
    {name : String} {v : IData} (he : (name, v) ∈ entries) :
    name ∈ (allParams md).map (·.name) ∨ name = "t" ∨ name = "regions" ∨ ∃ w, CustomKey params name w := by
  obtain ⟨dd, -, -, -, hwf⟩ := mimosaParams_spec hu S.config
  obtain ⟨rs, sp, ds, X, docs, custom, coacch, hrs, hsp, hds, hX, hdocs, hcv, rfl, hnc, hcn, hco⟩ :=
    instantiate_spec S.inst
  have hXp : X.params = params := by rw [hX]
  simp only [List.mem_append] at he
  rcases he with ((he | he) | he) | he
  · obtain ⟨d, hd, hn, -⟩ := (docValues_spec X hdocs).1 _ _ he
    exact .inl (List.mem_map.2 ⟨d, hd, hn⟩)
  · have hb : ∀ n ∈ ["beginyear", "dt", "tf", "year2100"], n ∈ (allParams md).map (·.name) := by
      intro n hn
      simp only [allParams, List.map_append, List.mem_append]
      refine .inl ?_
      revert n
      decide
    have := manual_names X _ he
    simp only [gridNames, List.mem_cons, List.not_mem_nil, or_false] at this
    rcases this with h | h | h | h | h | h
    · exact .inl (hb _ (by simp [h]))
    · exact .inl (hb _ (by simp [h]))
    · exact .inl (hb _ (by simp [h]))
    · exact .inr (.inl h)
    · exact .inl (hb _ (by simp [h]))
    · exact .inr (.inr (.inl h))
  · obtain ⟨w, -, hw⟩ := (mem_customValues X hcv (hXp ▸ hwf)).1 he
    exact .inr (.inr (.inr ⟨w, hXp ▸ hw⟩))
  · by_cases hcd : CombinedDamages params
    · refine .inl ?_
      have hd : md.damage = .COACCH := by
        obtain ⟨s, he', hs⟩ := name_effective hu S.config (ks := [.str "model", .str "damage module"]) (by decide +kernel)
        have hq := effective_unique he' (C67_modules hu S).1
        rw [hcd.1] at hs
        cases hs
        cases hm : md.damage <;> rw [hm] at hq <;> simp_all [Spec.damageName]
      have : ∀ n ∈ combinedNames, n ∈ Damages.coacch.params.map (·.name) := by decide
      obtain ⟨d, hd', hn⟩ := List.mem_map.1 (this _ (hcn _ he))
      exact List.mem_map.2 ⟨d, damage_mem hd hd', hn⟩
    · rw [hnc hcd] at he
      simp at he

/-! ## A concrete case -/

/-- The example of C50 with all choices written out. -/
def choicesUser (combined : Bool) : Val := exDict
  [("time", exDict [("start", .atom (.int 2020)), ("end", .atom (.int 2100)), ("dt", .atom (.int 20))]),
   ("economics", exDict
     [("MAC", exDict [("regional calibration factor", exStr "kappa_rel_abatement_0.5_2050")]),
      ("damages", exDict [("quantile", .atom (.float (.fin (95 / 100)))), ("coacch_slr_withadapt", exStr "no"),
        ("coacch_combined_slr_nonslr_damages", .atom (.bool combined))])]),
   ("regions", exDict [("USA", .atom .null), ("CAN", .atom .null)]),
   ("regionsmappings", .list []),
   ("regional_parameter_files", exDict
     [("economics", exDict [("filename", exStr "eco.csv"), ("regionstype", exStr "IMAGE26")]),
      ("MAC", exDict [("filename", exStr "mac.csv"), ("regionstype", exStr "IMAGE26")]),
      ("COACCH", exDict [("filename", exStr "coacch.csv"), ("regionstype", exStr "IMAGE26")]),
      ("mortality", exDict [("filename", exStr "mort.csv"), ("regionstype", exStr "IMAGE26")])])]

/-- The example's builtins; this word is not a number. -/
def choicesBuiltins : Builtins :=
  { exampleBuiltins with floatOfStr := fun s => if s = "Robust-Linear" then none else exampleBuiltins.floatOfStr s }

def choices : Spec.Choices := ⟨"kappa_rel_abatement_0.5_2050", "1.5", false⟩

def choicesFiles : RegionalFiles where
  params _ := some ⟨["init_capital_factor", "kappa_rel_abatement_0.5_2050", "NoSLR_form", "NoSLR_b1", "NoSLR_b2",
      "NoSLR_b3", "NoSLR_a (q=1.5)", "SLR-NoAd_form", "SLR-NoAd_b1", "SLR-NoAd_b2", "SLR-NoAd_b3", "SLR-NoAd_a (q=1.5)",
      "combined_b1_NoAd-q1.5", "combined_b2_NoAd-q1.5",
      "oldest_a", "oldest_b", "oldest_c", "older_a", "older_b", "older_c", "young_a", "young_b", "young_c"],
    ["USA", "CAN"].map fun r => (r, fun col =>
      if col = "NoSLR_form" ∨ col = "SLR-NoAd_form" then .text "Robust-Linear"
      else if col = "combined_b1_NoAd-q1.5" then .num (if r = "USA" then 1 / 2 else 1 / 3) else .num 2)⟩
  conversions _ := none

def choicesWorld : DataWorld where
  files _ := some ⟨[2020, 2100], ["GDP|PPP", "Emissions|CO2", "Population"].flatMap fun var =>
    ["USA", "CAN"].map fun r => ⟨"IMAGE", "SSP2-Ref-SPA0-V17", r, var, "unit", [10, 12]⟩⟩
  cubic _ x := .ok (x / 200)
  pint := ⟨fun _ _ => .ok (.fin 600), fun x _ _ => .ok x⟩

/-- The number in a cell. -/
def cellIs (q : ℚ) : Except Err Val → Bool
  | .ok (.atom (.float (.fin x))) => decide (x = q)
  | _ => false
def textIs (t : String) : Except Err Val → Bool
  | .ok (.atom (.str s)) => decide (s = t)
  | _ => false

theorem cellIs_spec {q : ℚ} {e : Except Err Val} (h : cellIs q e = true) : e = .ok (.atom (.float (.fin q))) := by
  unfold cellIs at h
  split at h
  · simp only [decide_eq_true_eq] at h; rw [h]
  · cases h
theorem textIs_spec {t : String} {e : Except Err Val} (h : textIs t e = true) : e = .ok (.atom (.str t)) := by
  unfold textIs at h
  split at h
  · simp only [decide_eq_true_eq] at h; rw [h]
  · cases h

theorem choicesSetup (combined : Bool) : ∃ params tree md entries rs, Setup choicesBuiltins (fun _ => false) choicesFiles
    choicesWorld (choicesUser combined) (afterHistory choicesWorld []) params tree md entries ∧
    (paramsOf entries).regions = ["USA", "CAN"] ∧ newRegionalStore choicesFiles params = .ok rs ∧
    rs.getRegional choicesBuiltins "MAC" "kappa_rel_abatement_0.5_2050" "CAN" = .ok (.atom (.float (.fin 2))) ∧
    rs.getRegional choicesBuiltins "COACCH" "SLR-NoAd_form" "CAN" = .ok (.atom (.str "Robust-Linear")) ∧
    rs.getRegional choicesBuiltins "COACCH" "combined_b1_NoAd-q1.5" "CAN" = .ok (.atom (.float (.fin (1 / 3)))) ∧
    rs.getRegional choicesBuiltins "COACCH" "combined_b2_NoAd-q1.5" "CAN" = .ok (.atom (.float (.fin 2))) := by
  have key : (match mimosaParams choicesBuiltins (fun _ => false) DefaultYaml.entries (choicesUser combined) with
      | .error _ => false
      | .ok (params, tree) => match readModules params with
        | .error _ => false
        | .ok md => match instantiate choicesBuiltins choicesFiles choicesWorld (allParams md) params tree
            (afterHistory choicesWorld []) with
          | .error _ => false
          | .ok entries => match newRegionalStore choicesFiles params with
            | .error _ => false
            | .ok rs => decide (namesOf entries "regions" = ["USA", "CAN"]) &&
              cellIs 2 (rs.getRegional choicesBuiltins "MAC" "kappa_rel_abatement_0.5_2050" "CAN") &&
              textIs "Robust-Linear" (rs.getRegional choicesBuiltins "COACCH" "SLR-NoAd_form" "CAN") &&
              cellIs (1 / 3) (rs.getRegional choicesBuiltins "COACCH" "combined_b1_NoAd-q1.5" "CAN") &&
              cellIs 2 (rs.getRegional choicesBuiltins "COACCH" "combined_b2_NoAd-q1.5" "CAN")) = true := by
    cases combined <;> decide +kernel
  split at key
  · cases key
  rename_i params tree h1
  split at key
  · cases key
  rename_i md h2
  split at key
  · cases key
  rename_i entries h3
  split at key
  · cases key
  rename_i rs h4
  simp only [Bool.and_eq_true, decide_eq_true_eq] at key
  obtain ⟨⟨⟨⟨k1, k2⟩, k3⟩, k4⟩, k5⟩ := key
  exact ⟨params, tree, md, entries, rs, ⟨h1, h2, h3⟩, by simp [paramsOf, k1], h4, cellIs_spec k2, textIs_spec k3,
    cellIs_spec k4, cellIs_spec k5⟩

theorem choicesUser_wf (combined : Bool) : (choicesUser combined).WF := by
  simp [choicesUser, exDict, exStr, Py.WF, Py.WFDict, Py.WFList, Dict.keys]

theorem choices_chosen (combined : Bool) : Spec.Chosen choicesBuiltins (choicesUser combined) choices where
  calibration := .inl rfl
  quantile := ⟨_, .inl rfl, ⟨rfl, by simp⟩, rfl, by decide⟩
  adaptation := ⟨_, .inl rfl, by simp [choices, WrittenFalse, exStr]⟩

theorem choices_unmapped (combined : Bool) (names : List String) : NoCustom (choicesUser combined) names := by
  intro n _ v h
  cases h

/-- The chosen column of the MAC file is the one in the equations. -/
example : ∃ params tree md entries, Setup choicesBuiltins (fun _ => false) choicesFiles choicesWorld (choicesUser false)
    (afterHistory choicesWorld []) params tree md entries ∧ (paramsOf entries).MAC_scaling_factor "CAN" = 2 ∧
    (paramsOf entries).slr.form "CAN" = "Robust-Linear" := by
  obtain ⟨params, tree, md, entries, rs, S, hr, hrs, k1, k2, -⟩ := choicesSetup false
  have hu := choicesUser_wf false
  have hd : md.damage = .COACCH := (C67_defaults hu S).1 rfl
  have hoff : Spec.CombinedOff (choicesUser false) := ⟨_, .inl rfl, by simp [WrittenFalse]⟩
  obtain ⟨rs₁, hrs₁, h₁⟩ := C69_numbers hu S (choices_chosen false) hoff (name := "MAC_scaling_factor") (cat := "MAC")
    (col := "kappa_rel_abatement_0.5_2050") (f := fun p r => p.MAC_scaling_factor r) (by simp [Spec.regionalNumbers, choices])
    (.inl hd) (choices_unmapped _ _)
  obtain ⟨rs₂, hrs₂, h₂⟩ := C69_forms hu S (choices_chosen false) hoff (name := "damage_slr_form") (cat := "COACCH")
    (col := "SLR-NoAd_form") (f := fun p r => p.slr.form r) (by simp [Spec.regionalTexts, choices, Spec.Choices.adapt])
    hd (choices_unmapped _ _)
  rw [hrs] at hrs₁ hrs₂
  cases hrs₁
  cases hrs₂
  obtain ⟨v, hv, hx⟩ := h₁ "CAN" (by simp [hr])
  obtain ⟨v', hv', hx'⟩ := h₂ "CAN" (by simp [hr])
  rw [k1] at hv
  rw [k2] at hv'
  cases hv
  cases hv'
  exact ⟨params, tree, md, entries, S, hx 2 (by simp [Val.num]), hx' _ rfl⟩

/-- With the combined function, damages in Canada follow its coefficients 1/3 and 2. -/
example : ∃ params tree md entries, Setup choicesBuiltins (fun _ => false) choicesFiles choicesWorld (choicesUser true)
    (afterHistory choicesWorld []) params tree md entries ∧ ∀ σ, Solution md (paramsOf entries) σ →
      ∀ t ≤ (paramsOf entries).tf, σ.R .damage_costs t "CAN" = (paramsOf entries).damage_scale_factor / 100 *
        (1 / 3 * (σ.G .temperature t - 0.6) + 2 * (σ.G .temperature t - 0.6) ^ 2
          - (1 / 3 * ((paramsOf entries).T0 - 0.6) + 2 * ((paramsOf entries).T0 - 0.6) ^ 2)) := by
  obtain ⟨params, tree, md, entries, rs, S, hr, hrs, -, -, k3, k4⟩ := choicesSetup true
  have hu := choicesUser_wf true
  have hd : md.damage = .COACCH := (C67_defaults hu S).1 rfl
  obtain ⟨rs₁, hrs₁, h₁⟩ := C69_combined hu S (choices_chosen true) hd ⟨_, .inl rfl, by simp [WrittenTrue]⟩
    (choices_unmapped _ _)
  rw [hrs] at hrs₁
  cases hrs₁
  refine ⟨params, tree, md, entries, S, fun σ h t ht => ?_⟩
  have := (h₁ σ h t ht "CAN" (by simp [hr]) (1 / 3) 2 ⟨⟨_, k3, by simp [Val.num]⟩, ⟨_, k4, by simp [Val.num]⟩⟩).2
  exact this

/-- Everything set in the example run is declared. -/
example : ∃ params tree md entries, Setup choicesBuiltins (fun _ => false) choicesFiles choicesWorld (choicesUser true)
    (afterHistory choicesWorld []) params tree md entries ∧ ∀ e ∈ entries,
      e.1 ∈ (allParams md).map (·.name) ∨ e.1 = "t" ∨ e.1 = "regions" := by
  obtain ⟨params, tree, md, entries, rs, S, -⟩ := choicesSetup true
  have hu := choicesUser_wf true
  refine ⟨params, tree, md, entries, S, fun e he => ?_⟩
  rcases C18_nothing_undeclared hu S (name := e.1) (v := e.2) he with h | h | h | ⟨w, hw⟩
  · exact .inl h
  · exact .inr (.inl h)
  · exact .inr (.inr h)
  · exact absurd hw ((choices_unmapped true [e.1]).key hu S.config (by simp) w)

end Mimosa
