import Verif.Data.Run
import Verif.Props.Instantiate
import Verif.Props.References
import Verif.Props.ConfigValues

/-!
# From the user's configuration to the instance data
-/

namespace Mimosa

variable {B : Builtins} {uni : Char → Bool} {F : RegionalFiles} {W : DataWorld} {user params : Val} {c : DataCache}
  {tree : Py Parser} {md : Modules} {entries : List (String × IData)}

/-! ## The parameters of the model -/

/-- The names of the parameters of all modules together. -/
noncomputable def everyName : List String :=
  baseParams.map (·.name) ++ ([Emissions.component.params.map (·.name), SeaLevelRise.component.params.map (·.name),
    Damages.coacch.params.map (·.name), (Mitigation.component .notrade).params.map (·.name),
    ["import_export_emission_reduction_balance", "import_export_mitigation_cost_balance", "min_rel_payment_level",
      "max_rel_payment_level"],
    ["financial_transfer", "rel_financial_transfer"],
    (EffortSharing.component .notransfer).params.map (·.name),
    (CobbDouglas.component .notransfer).params.map (·.name), ["elasmu", "inequal_aversion"], ["PRTP"]]).flatten

theorem everyName_nodup : everyName.Nodup := by decide +kernel

theorem allParams_nodup (md : Modules) : ((allParams md).map (·.name)).Nodup := by
  refine everyName_nodup.sublist ?_
  unfold allParams everyName components
  rw [List.map_append]
  refine (List.Sublist.refl _).append ?_
  simp only [List.flatMap_cons, List.flatMap_nil, List.map_append, List.flatten_cons, List.flatten_nil, List.map_nil]
  obtain ⟨d, t, f, w, o⟩ := md
  dsimp only
  refine (List.Sublist.refl _).append <| (List.Sublist.refl _).append <| List.Sublist.append ?_ <|
    List.Sublist.append ?_ <| List.Sublist.append ?_ <| List.Sublist.append ?_ <| List.Sublist.append ?_ <|
    List.Sublist.append ?_ <| List.Sublist.append ?_ <| List.Sublist.append ?_ <| List.Sublist.refl _
  · cases d <;> decide +kernel
  · cases t <;> exact List.Sublist.refl _
  · cases t <;> decide +kernel
  · cases f <;> decide +kernel
  · cases f <;> exact List.Sublist.refl _
  · cases f <;> exact List.Sublist.refl _
  · cases w <;> decide +kernel
  · cases o <;> decide +kernel

theorem declared_of_mem {d : ParamDecl} (h : d ∈ allParams md) : Declared (allParams md) d := by
  refine ⟨h, fun d' hd' hn => ?_⟩
  exact List.inj_on_of_nodup_map (allParams_nodup md) hd' h hn

/-! ## Well-formedness of the final configuration -/

theorem refLoop_wf {keys : List Key} {node : String} : {ms : List (List Char)} → {v v' : Val} → v.WF →
    refLoop keys node ms v = .ok v' → v'.WF
  | [], v, v', hv, h => by cases h; exact hv
  | m :: ms, v, v', hv, h => by
    unfold refLoop at h
    split at h
    · exact refLoop_wf hv h
    · cases h
    · split at h
      · cases h
      · rename_i v1 hv1
        exact refLoop_wf (setNested_wf (by simp [Py.WF]) hv hv1) h
    · cases h

theorem refLeaves_wf : {L : List (List Key × Val)} → {v v' : Val} → v.WF → refLeaves uni L v = .ok v' → v'.WF
  | [], v, v', hv, h => by cases h; exact hv
  | leaf :: L, v, v', hv, h => by
    unfold refLeaves at h
    split at h
    · cases h
    · rename_i v1 hv1
      refine refLeaves_wf ?_ h
      unfold refLeaf at hv1
      split at hv1
      · exact refLoop_wf hv hv1
      · cases hv1; exact hv

theorem mimosaParams_spec (hu : user.WF) (h : mimosaParams B uni DefaultYaml.entries user = .ok (params, tree)) :
    ∃ d, checkParams B DefaultYaml.entries user = .ok (.dict d, tree) ∧ (Py.dict d).WF ∧
      parseParamValues uni (.dict d) = .ok params ∧ params.WF := by
  unfold mimosaParams at h
  split at h
  · cases h
  rename_i parsed tree' hc
  split at h
  · cases h
  rename_i params' hp
  cases h
  obtain ⟨hwf, hd⟩ := parseParams_wf default_ok hu (checkParams_ok hc).1
  cases parsed with
  | atom a => simp [Py.isDict] at hd
  | list l => simp [Py.isDict] at hd
  | dict d =>
    refine ⟨d, hc, hwf, hp, ?_⟩
    unfold parseParamValues at hp
    split at hp
    · cases hp
    · exact refLeaves_wf hwf hp

/-! ## The value of one parameter of the configuration -/

/-- A text without an opening brace has no references. -/
theorem findRefs_noBrace {s : List Char} (h : '{' ∉ s) : findRefs uni none s = [] := by
  induction s with
  | nil => rfl
  | cons x s ih =>
    simp only [List.mem_cons, not_or] at h
    simp only [findRefs]
    rw [if_neg fun e => h.1 e.symm, ih h.2]

/-- Not a section, and (if it is a text) without references. -/
def NoRefs (v : Val) : Prop := v.isDict = false ∧ ∀ s, v = .atom (.str s) → '{' ∉ s.toList

/-- The value that the configuration gives to a parameter: the user's, or the default if the user did not mention
it. -/
def Effective (user : Val) (ks : List Key) (u : Val) : Prop :=
  getNested ks user = .ok u ∨
  getNested ks user = .error .keyError ∧ ∃ node, IsParam DefaultYaml.entries ks node ∧ u = defaultOf node

/-- The final value of a parameter is the parsed effective value; and the parser tree has its parser. -/
theorem final_value (hu : user.WF) (h : mimosaParams B uni DefaultYaml.entries user = .ok (params, tree))
    {ks : List Key} {p : Parser} (hp : HasParser DefaultYaml.entries ks p) {u : Val} (he : Effective user ks u) :
    ∃ v, p.parse B u = .ok v ∧ (NoRefs v → getNested ks params = .ok v) ∧ getNested ks tree = .ok (.atom p) := by
  obtain ⟨d, hc, hwf, hpv, -⟩ := mimosaParams_spec hu h
  obtain ⟨node, hn, hcr⟩ := hp
  obtain ⟨p', v, hc', h1, hor⟩ := C02_values default_ok hc hn
  rw [hcr, Except.ok.injEq] at hc'
  subst hc'
  have hv : p.parse B u = .ok v := by
    rcases hor with ⟨u', hu', hv⟩ | ⟨hu', hv⟩
    · rcases he with he | ⟨he, -⟩
      · rw [he] at hu'; cases hu'; exact hv
      · rw [he] at hu'; cases hu'
    · rcases he with he | ⟨-, node', hn', rfl⟩
      · rw [he] at hu'; cases hu'
      · have h3 := hn.at_path
        rw [hn'.at_path] at h3
        cases h3
        exact hv
  obtain ⟨p', v', hc', -, -, ht⟩ := parseParams_at default_ok (checkParams_ok hc).1 ((isParam_iff default_ok).1 hn)
  rw [hcr] at hc'
  cases hc'
  refine ⟨v, hv, fun hr => ?_, ht⟩
  by_cases hs : ∃ s, v = .atom (.str s)
  · obtain ⟨s, rfl⟩ := hs
    refine C08_unresolved_unchanged hwf hpv h1 fun m hm => ?_
    rw [← C08_references_found, findRefs_noBrace (hr.2 s rfl)] at hm
    cases hm
  · exact C08_non_string_unchanged hwf hpv h1 hr.1 fun s hs' => hs ⟨s, hs'⟩

/-- Conversely: the final value of a parameter comes out of its parser, up to references. -/
theorem final_parsed (hu : user.WF) (h : mimosaParams B uni DefaultYaml.entries user = .ok (params, tree))
    {ks : List Key} {p : Parser} (hp : HasParser DefaultYaml.entries ks p) :
    ∃ u v, p.parse B u = .ok v ∧ SameKind (.ok v) (getNested ks params) ∧ getNested ks tree = .ok (.atom p) := by
  obtain ⟨d, hc, hwf, hpv, -⟩ := mimosaParams_spec hu h
  obtain ⟨u, v, hv, hpu⟩ := parsed_by default_ok hc hp
  obtain ⟨node, hn, hcr⟩ := hp
  obtain ⟨p', v', hc', -, -, ht⟩ := parseParams_at default_ok (checkParams_ok hc).1 ((isParam_iff default_ok).1 hn)
  rw [hcr] at hc'
  cases hc'
  have := C08_same_paths hwf hpv ks
  rw [hv] at this
  exact ⟨u, v, hpu, this, ht⟩

/-! ## Parsers of the default configuration -/

/-- The definition of the parameter at a path. -/
def defAt (ks : List Key) : Option (List Key × Val) := (paramDefs DefaultYaml.entries).find? fun l => decide (l.1 = ks)

/-- A test on the parser at a path. -/
def parserTest (ks : List Key) (q : Parser → Bool) : Bool :=
  match defAt ks with
  | some l => match Parser.create l.2 with
    | .ok p => q p
    | .error _ => false
  | none => false

theorem parserTest_spec {ks : List Key} {q : Parser → Bool} (h : parserTest ks q = true) :
    ∃ p, HasParser DefaultYaml.entries ks p ∧ q p = true := by
  unfold parserTest at h
  split at h
  · rename_i l hl
    split at h
    · rename_i p hp
      unfold defAt at hl
      have h1 := List.find?_some hl
      have h2 := List.mem_of_find?_eq_some hl
      simp only [decide_eq_true_eq] at h1
      subst h1
      exact ⟨p, ⟨l.2, (isParam_iff default_ok).2 h2, hp⟩, h⟩
    · cases h
  · cases h

/-- A test on the definition at a path. -/
def defTest (ks : List Key) (q : Val → Bool) : Bool :=
  match defAt ks with
  | some l => q (defaultOf l.2)
  | none => false

theorem defTest_spec {ks : List Key} {q : Val → Bool} (h : defTest ks q = true) {node : Val}
    (hn : IsParam DefaultYaml.entries ks node) : q (defaultOf node) = true := by
  unfold defTest at h
  split at h
  · rename_i l hl
    unfold defAt at hl
    have h1 := List.find?_some hl
    have h2 := List.mem_of_find?_eq_some hl
    simp only [decide_eq_true_eq] at h1
    have h3 := ((isParam_iff default_ok).2 (show (l.1, l.2) ∈ _ from h2)).at_path
    rw [h1, hn.at_path] at h3
    cases h3
    exact h
  · cases h

def isQuantity (unit : String) : Parser → Bool
  | .quantity b (.atom (.str u)) => b.canBeFalse && decide (u = unit)
  | _ => false

def isFreeDict : Parser → Bool
  | .dict b .ident .ident => !b.canBeFalse
  | _ => false

theorem customMapping_parser : ∃ b, b.canBeFalse = false ∧
    HasParser DefaultYaml.entries [.str "simulation", .str "custom_mapping"] (.dict b .ident .ident) := by
  obtain ⟨p, hp, hq⟩ := parserTest_spec (ks := [.str "simulation", .str "custom_mapping"]) (q := isFreeDict)
    (by decide +kernel)
  unfold isFreeDict at hq
  split at hq
  · rename_i b
    exact ⟨b, by simpa using hq, hp⟩
  · cases hq

theorem getNested_snoc {α : Type} {ks : List Key} {k : Key} {v w : Py α} (h : getNested ks v = .ok w) :
    getNested (ks ++ [k]) v = getNested [k] w := by
  induction ks generalizing v with
  | nil => cases h; rfl
  | cons k' ks ih =>
    cases v with
    | atom a => simp [getNested] at h
    | list a => simp [getNested] at h
    | dict d =>
      simp only [getNested, List.cons_append] at h ⊢
      split at h
      · rename_i x hx
        exact ih h
      · cases h

theorem keyVal_valKey (k : Key) : Parser.valKey (Parser.keyVal k) = .ok k := by cases k <;> rfl

/-- A name in the final custom mapping is one that the user put there. -/
theorem customKey_user (hu : user.WF) (h : mimosaParams B uni DefaultYaml.entries user = .ok (params, tree))
    {name : String} {v : Val} (hk : CustomKey params name v) :
    ∃ u, getNested [.str "simulation", .str "custom_mapping", .str name] user = .ok u := by
  obtain ⟨d, hc, hwf, hpv, -⟩ := mimosaParams_spec hu h
  obtain ⟨b, hb, hp⟩ := customMapping_parser
  obtain ⟨node, hn, hcr⟩ := hp
  have hsame := C08_same_paths hwf hpv [.str "simulation", .str "custom_mapping", .str name]
  unfold CustomKey at hk
  rw [hk] at hsame
  obtain ⟨v0, hv0⟩ : ∃ v0, getNested [.str "simulation", .str "custom_mapping", .str name] (.dict d) = .ok v0 := by
    generalize getNested [.str "simulation", .str "custom_mapping", .str name] (Py.dict d) = r at hsame
    cases r with
    | ok v0 => exact ⟨v0, rfl⟩
    | error e => cases hsame
  obtain ⟨p', w, hc', hw, hor⟩ := C02_values default_ok hc hn
  rw [hcr, Except.ok.injEq] at hc'
  subst hc'
  have hsn := getNested_snoc (k := .str name) hw
  simp only [List.cons_append, List.nil_append] at hsn
  rw [hv0] at hsn
  have key : ∀ u0, (Parser.dict b .ident .ident).parse B u0 = .ok w → ∃ d0 u, u0 = .dict d0 ∧ (.str name, u) ∈ d0 := by
    intro u0 hp0
    rcases (C05_dict (by simp [hb])).1 w hp0 with ⟨d0, d', rfl, rfl, h1, -⟩ | ⟨rfl, rfl⟩
    · simp only [getNested] at hsn
      split at hsn
      · rename_i x hx
        obtain ⟨k0, x0, kv, hm, hkv, hvk, -⟩ := h1 _ _ hx
        simp only [Parser.parse, Except.ok.injEq] at hkv
        subst hkv
        rw [keyVal_valKey, Except.ok.injEq] at hvk
        subst hvk
        exact ⟨d0, x0, rfl, hm⟩
      · cases hsn
    · simp [getNested] at hsn
  rcases hor with ⟨u0, hu0, hp0⟩ | ⟨hu0, hp0⟩
  · obtain ⟨d0, u, rfl, hm⟩ := key u0 hp0
    have hd0 := getNested_wf hu hu0
    refine ⟨u, ?_⟩
    have := getNested_snoc (k := .str name) hu0
    simp only [List.cons_append, List.nil_append] at this
    rw [this]
    simp [getNested, Dict.lookup_of_mem hd0.1 hm]
  · obtain ⟨d0, u, hd0, hm⟩ := key _ hp0
    exfalso
    have := defTest_spec (ks := [.str "simulation", .str "custom_mapping"])
      (q := fun v => match v with | .atom .null => true | _ => false) (by decide +kernel) hn
    rw [hd0] at this
    simp at this

end Mimosa
