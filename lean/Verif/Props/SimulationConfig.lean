import Verif.Props.Simulation
import Verif.Props.RoundTrip
import Verif.Props.Scenario
import Verif.Props.RegionalSettings
import Verif.Props.ConfigStable

/-!
# C46: the simulation settings of a configuration reach the model; C08: sections without references are unchanged
-/

namespace Mimosa

variable {B : Builtins} {uni : Char → Bool} {user params : Val} {tree : Py Parser}

/-! ## Sections without references -/

/-- No text in the value, at any depth, contains an opening brace.  (Texts inside lists are never substituted.) -/
def Spec.NoBraces (v : Val) : Prop := ∀ js s, getNested js v = .ok (.atom (.str s)) → '{' ∉ s.toList

theorem refLeaf_noBrace {v v' : Val} {leaf : List Key × Val} (hb : ∀ s, leaf.2 = .atom (.str s) → '{' ∉ s.toList)
    (h : refLeaf uni v leaf = .ok v') : v' = v := by
  unfold refLeaf at h
  split at h
  · next s he =>
    rw [findRefs_noBrace (hb s he)] at h
    cases h
    rfl
  · cases h
    rfl

theorem refLeaves_section {ks : List Key} {w : Val} (hw : Spec.NoBraces w) : {L : List (List Key × Val)} →
    PathsApart (L.map (·.1)) → {v v' : Val} → (∀ leaf ∈ L, getNested leaf.1 v = .ok leaf.2 ∧ leaf.2.isDict = false) →
    getNested ks v = .ok w → refLeaves uni L v = .ok v' → getNested ks v' = .ok w
  | [], _, v, v', _, hk, h => by cases h; exact hk
  | leaf :: L, hL, v, v', hs, hk, h => by
    have hp := List.pairwise_cons.1 hL
    unfold refLeaves at h
    split at h
    · cases h
    · next v1 h1 =>
      obtain ⟨hl, hd⟩ := hs leaf List.mem_cons_self
      have a2 := (refLeaf_spec hl h1).2
      have hs1 : ∀ l ∈ L, getNested l.1 v1 = .ok l.2 ∧ l.2.isDict = false := by
        intro l hm
        have hap := hp.1 l.1 (List.mem_map_of_mem hm)
        obtain ⟨g1, g2⟩ := hs l (List.mem_cons_of_mem _ hm)
        exact ⟨by rw [a2 l.1 hap.1 hap.2]; exact g1, g2⟩
      refine refLeaves_section hw hp.2 hs1 ?_ h
      by_cases c1 : leaf.1 <+: ks
      · obtain ⟨js, rfl⟩ := c1
        rw [getNested_append, hl] at hk
        have hk' : getNested js leaf.2 = .ok w := hk
        cases js with
        | nil =>
          simp only [getNested, Except.ok.injEq] at hk'
          subst hk'
          rw [refLeaf_noBrace (fun s hs' => hw [] s (by rw [hs']; rfl)) h1, List.append_nil]
          exact hl
        | cons j js =>
          exfalso
          cases hv : leaf.2 with
          | dict d => rw [hv] at hd; simp [Py.isDict] at hd
          | atom a => rw [hv] at hk'; simp [getNested] at hk'
          | list l => rw [hv] at hk'; simp [getNested] at hk'
      · by_cases c2 : ks <+: leaf.1
        · obtain ⟨js, hj⟩ := c2
          rw [← hj, getNested_append, hk] at hl
          have hl' : getNested js w = .ok leaf.2 := hl
          rw [refLeaf_noBrace (fun s hs' => hw js s (by rw [hl', hs'])) h1]
          exact hk
        · rw [a2 ks c1 c2]
          exact hk

/-- **C08.** A section (or value) in which no text contains a brace is unchanged: same keys, same order, same
values. -/
theorem C08_section_unchanged {d : List (Key × Val)} {result : Val} (hwf : (Py.dict d).WF)
    (h : parseParamValues uni (.dict d) = .ok result) {ks : List Key} {w : Val}
    (hk : getNested ks (.dict d) = .ok w) (hw : Spec.NoBraces w) : getNested ks result = .ok w := by
  simp only [parseParamValues, leaves] at h
  refine refLeaves_section hw (pathsApart_leaves hwf.1 hwf.2) (fun leaf hl => ?_) hk h
  have := (mem_plain_leaves hwf (ks := leaf.1) (w := leaf.2)).1 hl
  exact ⟨this.2.1, this.2.2⟩

/-- The final value of a parameter whose parsed value contains no braces (also if it is a dictionary). -/
theorem final_section (hu : user.WF) (h : mimosaParams B uni DefaultYaml.entries user = .ok (params, tree))
    {ks : List Key} {p : Parser} (hp : HasParser DefaultYaml.entries ks p) {u : Val} (he : Effective user ks u) :
    ∃ v, p.parse B u = .ok v ∧ (Spec.NoBraces v → getNested ks params = .ok v) := by
  obtain ⟨d, hc, hwf, hpv, -⟩ := mimosaParams_spec hu h
  obtain ⟨v, hv, hg⟩ := checked_value hc hp he
  exact ⟨v, hv, fun hb => C08_section_unchanged hwf hpv hg hb⟩

/-! ## The simulation settings -/

/-- How a source of values is written in the configuration: the path of a file, or a dictionary. -/
def SimSource.written : SimSource → Val
  | .path s => .atom (.str s)
  | .data d => d

/-- The configuration switches simulation mode on, lists the variables `fixed` with their sources and the constraints
`disabled` (an empty list may also be left out). -/
structure Spec.SimulationConfigured (user : Val) (fixed : List (String × SimSource)) (disabled : List String) : Prop where
  on : ∃ u, Effective user [.str "simulation", .str "simulationmode"] u ∧ WrittenTrue u
  variables_given : ∃ u, Effective user [.str "simulation", .str "constraint_variables"] u ∧
    (u = .atom .null ∧ fixed = [] ∨ u = .dict (fixed.map fun e => (.str e.1, e.2.written)))
  names : (fixed.map (·.1)).Nodup
  sources : ∀ e ∈ fixed, ∀ d, e.2 = .data d → d.isDict = true
  plain : ∀ e ∈ fixed, Spec.NoBraces e.2.written
  constraints_given : ∃ u, Effective user [.str "simulation", .str "deactivated_constraints"] u ∧
    (u = .atom .null ∧ disabled = [] ∨ u = .list (disabled.map fun n => .atom (.str n)))

theorem noBraces_atom {a : Scalar} (h : ∀ s, a = .str s → '{' ∉ s.toList) : Spec.NoBraces (.atom a) := by
  intro js s hj
  cases js with
  | nil =>
    simp only [getNested, Except.ok.injEq, Py.atom.injEq] at hj
    exact h s hj
  | cons j js => simp [getNested] at hj

theorem noBraces_dict {d : List (Key × Val)} (h : ∀ e ∈ d, Spec.NoBraces e.2) : Spec.NoBraces (.dict d) := by
  intro js s hj
  cases js with
  | nil => simp [getNested] at hj
  | cons j js =>
    simp only [getNested] at hj
    split at hj
    · next v hl => exact h _ (Dict.mem_of_lookup hl) js s hj
    · cases hj

theorem readSources_written : {fixed : List (String × SimSource)} →
    (∀ e ∈ fixed, ∀ d, e.2 = .data d → d.isDict = true) →
    readSources (fixed.map fun e => (.str e.1, e.2.written)) = .ok fixed
  | [], _ => rfl
  | (n, s) :: fixed, h => by
    have ih := readSources_written (fixed := fixed) fun e he => h e (List.mem_cons_of_mem _ he)
    simp only [List.map_cons, readSources, ih]
    cases s with
    | path q => rfl
    | data d =>
      have := h (n, .data d) List.mem_cons_self d rfl
      cases d with
      | dict e => rfl
      | atom a => simp [Py.isDict] at this
      | list l => simp [Py.isDict] at this

theorem readNames_written : (disabled : List String) →
    readNames (disabled.map fun n => .atom (.str n)) = .ok disabled
  | [] => rfl
  | n :: l => by simp only [List.map_cons, readNames, readNames_written l]

def isSimDict : Parser → Bool
  | .dict b (.str k) (.strOrPlainDict v) => !b.canBeFalse && !k.canBeFalse && !v.canBeFalse
  | _ => false

def isNameList : Parser → Bool
  | .list b (.str k) => !b.canBeFalse && !k.canBeFalse
  | _ => false

theorem checkFalse_off {b : ParserBase} (hb : b.canBeFalse = false) (v : Val) : Parser.checkFalse b v = false := by
  simp [Parser.checkFalse, hb]

theorem parseNames {b : ParserBase} (hb : b.canBeFalse = false) : (l : List String) →
    Parser.parseList ((Parser.str b).parse B) (l.map fun n => .atom (.str n)) = .ok (l.map fun n => .atom (.str n))
  | [] => rfl
  | n :: l => by
    simp only [List.map_cons, Parser.parseList, parseNames hb l]
    simp [Parser.parse, Parser.checkFalse, hb, pyStr]

/-- **C46.** A configuration with simulation mode on: exactly the listed variables are imposed, from exactly the listed
files or dictionaries, and exactly the listed constraints are deactivated. -/
theorem C46_on (hu : user.WF) (h : mimosaParams B uni DefaultYaml.entries user = .ok (params, tree))
    {fixed : List (String × SimSource)} {disabled : List String} (hS : Spec.SimulationConfigured user fixed disabled) :
    readSimulation params = .ok ⟨true, fixed, disabled⟩ := by
  obtain ⟨u, he, hut⟩ := hS.on
  have h1 := (bool_final hu h (by decide +kernel) he).1 hut
  have h2 : getNested [.str "simulation", .str "constraint_variables"] params =
      .ok (.dict (fixed.map fun e => (.str e.1, e.2.written))) := by
    obtain ⟨u, he, hval⟩ := hS.variables_given
    obtain ⟨p, hp, hq⟩ := parserTest_spec (ks := [.str "simulation", .str "constraint_variables"]) (q := isSimDict)
      (by decide +kernel)
    obtain ⟨v, hv, hfin⟩ := final_section hu h hp he
    unfold isSimDict at hq
    split at hq
    swap
    · cases hq
    rename_i b k w
    simp only [Bool.and_eq_true, Bool.not_eq_true'] at hq
    obtain ⟨⟨hb, hk⟩, hw⟩ := hq
    obtain rfl : v = .dict (fixed.map fun e => (.str e.1, e.2.written)) := by
      rcases hval with ⟨rfl, rfl⟩ | rfl
      · rw [Parser.parse, checkFalse_off hb, if_neg Bool.false_ne_true] at hv
        exact (Except.ok.inj hv).symm
      · rw [Parser.parse, checkFalse_off hb, if_neg Bool.false_ne_true] at hv
        rw [parseDict_fixed (acc := [])] at hv
        · exact (Except.ok.inj hv).symm
        · rintro e' he'
          obtain ⟨e, hm, rfl⟩ := List.mem_map.1 he'
          refine ⟨⟨.atom (.str e.1), ?_, rfl⟩, ?_⟩
          · simp [Parser.keyVal, Parser.parse, Parser.checkFalse, hk, pyStr]
          · obtain ⟨n, s⟩ := e
            cases s with
            | path q => simp [SimSource.written, Parser.parse, Parser.checkFalse, hw, Py.isDict, pyStr]
            | data d =>
              have := hS.sources _ hm d rfl
              simp [SimSource.written, Parser.parse, Parser.checkFalse, hw, this]
        · simp only [List.nil_append, Dict.keys, List.map_map]
          have := hS.names
          rw [List.Nodup, List.pairwise_map] at this ⊢
          exact this.imp fun hne heq => hne (by simpa using heq)
    refine hfin (noBraces_dict fun e' he' => ?_)
    obtain ⟨e, hm, rfl⟩ := List.mem_map.1 he'
    exact hS.plain e hm
  have h3 : getNested [.str "simulation", .str "deactivated_constraints"] params =
      .ok (.list (disabled.map fun n => .atom (.str n))) := by
    obtain ⟨u, he, hval⟩ := hS.constraints_given
    obtain ⟨p, hp, hq⟩ := parserTest_spec (ks := [.str "simulation", .str "deactivated_constraints"]) (q := isNameList)
      (by decide +kernel)
    obtain ⟨v, hv, hfin, -⟩ := final_value hu h hp he
    unfold isNameList at hq
    split at hq
    swap
    · cases hq
    rename_i b k
    simp only [Bool.and_eq_true, Bool.not_eq_true'] at hq
    obtain ⟨hb, hk⟩ := hq
    obtain rfl : v = .list (disabled.map fun n => .atom (.str n)) := by
      rcases hval with ⟨rfl, rfl⟩ | rfl
      · rw [Parser.parse, checkFalse_off hb, if_neg Bool.false_ne_true] at hv
        exact (Except.ok.inj hv).symm
      · rw [Parser.parse, checkFalse_off hb, if_neg Bool.false_ne_true] at hv
        rw [parseNames hk] at hv
        exact (Except.ok.inj hv).symm
    exact hfin ⟨rfl, by simp⟩
  unfold readSimulation
  rw [h1, h2, h3]
  simp only
  rw [readSources_written hS.sources, readNames_written]

/-! ## A concrete case: the settings of run_baseline.py, a second variable from a file, and a deactivated constraint -/

/-- `{year: {region: 0.0 for region in regions} for year in years}`, run_baseline.py:15-18. -/
def zeroDict (years : List ℤ) (regions : List String) : Val :=
  .dict (years.map fun y => (.int y, .dict (regions.map fun r => (.str r, .atom (.float (.fin 0))))))

theorem zeroDict_plain (years : List ℤ) (regions : List String) : Spec.NoBraces (zeroDict years regions) := by
  refine noBraces_dict fun e he => ?_
  obtain ⟨y, -, rfl⟩ := List.mem_map.1 he
  refine noBraces_dict fun e he => ?_
  obtain ⟨r, -, rfl⟩ := List.mem_map.1 he
  exact noBraces_atom fun s hs => by cases hs

def zeroAbatement : Val := zeroDict [2020, 2060, 2100, 2140] ["A", "B"]

def simulationUser : Val := exDict
  [("simulation", exDict
    [("simulationmode", .atom (.bool true)),
     ("constraint_variables", exDict [("relative_abatement", zeroAbatement), ("temperature", exStr "output/run1.csv")]),
     ("deactivated_constraints", .list [exStr "carbon_budget"])])]

theorem simulationUser_configured : Spec.SimulationConfigured simulationUser
    [("relative_abatement", .data zeroAbatement), ("temperature", .path "output/run1.csv")] ["carbon_budget"] where
  on := ⟨_, .inl rfl, by simp [WrittenTrue]⟩
  variables_given := ⟨_, .inl rfl, .inr rfl⟩
  names := by decide
  sources := by
    intro e he d hd
    simp only [List.mem_cons, List.not_mem_nil, or_false] at he
    rcases he with rfl | rfl
    · cases hd; rfl
    · cases hd
  plain := by
    intro e he js s hj
    simp only [List.mem_cons, List.not_mem_nil, or_false] at he
    rcases he with rfl | rfl
    · exact zeroDict_plain _ _ js s hj
    · exact noBraces_atom (fun s hs => by cases hs; decide) js s hj
  constraints_given := ⟨_, .inl rfl, .inr rfl⟩

example : simulationUser.WF ∧ ∃ params tree, mimosaParams exampleBuiltins (fun _ => false) DefaultYaml.entries
    simulationUser = .ok (params, tree) ∧
    readSimulation params = .ok ⟨true, [("relative_abatement", .data zeroAbatement),
      ("temperature", .path "output/run1.csv")], ["carbon_budget"]⟩ := by
  have hu : simulationUser.WF := by
    simp [simulationUser, zeroAbatement, zeroDict, exDict, exStr, Py.WF, Py.WFDict, Py.WFList, Dict.keys]
  have key : (match mimosaParams exampleBuiltins (fun _ => false) DefaultYaml.entries simulationUser with
    | .ok _ => true
    | .error _ => false) = true := by decide +kernel
  split at key
  · rename_i r hr
    exact ⟨hu, r.1, r.2, hr, C46_on hu hr simulationUser_configured⟩
  · cases key

end Mimosa
