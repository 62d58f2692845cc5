import Verif.Lib.Flatten

/-! # Facts about `check_params` -/

namespace Mimosa

/-- Specification: `ks` is the path of a parameter of the configuration template `default`, with definition
`node`: the first node on the way down that is not a dictionary or has a key `type`. -/
structure IsParam (default : List (Key × Val)) (ks : List Key) (node : Val) : Prop where
  ne : ks ≠ []
  at_path : getNested ks (.dict default) = .ok node
  is_param : isParamNode node = true
  first : ∀ js, js <+: ks → js ≠ ks → js ≠ [] → ∀ x, getNested js (.dict default) = .ok x → isParamNode x = false

theorem isLeaf_isParamNode (ks : List Key) (v : Val) : isLeaf (fun _ v => isParamNode v) ks v = isParamNode v := by
  cases v <;> rfl

theorem isParam_iff {default : List (Key × Val)} (hD : DefaultOk default) {ks : List Key} {node : Val} :
    IsParam default ks node ↔ (ks, node) ∈ paramDefs default := by
  unfold paramDefs
  rw [mem_leavesDict _ default hD.nodup hD.wf]
  simp only [isLeaf_isParamNode]
  constructor
  · rintro ⟨h1, h2, h3, h4⟩
    exact ⟨ks, h1, by simp, h2, h3, h4⟩
  · rintro ⟨rel, h1, rfl, h2, h3, h4⟩
    exact ⟨h1, h2, h3, h4⟩

section
variable {B : Builtins} {default : List (Key × Val)} {user parsed : Val} {tree : Py Parser}

theorem checkParams_ok (h : checkParams B default user = .ok (parsed, tree)) :
    parseParams B default user = .ok (parsed, tree) ∧ checkObsolete user parsed tree = .ok () := by
  unfold checkParams at h
  split at h
  · simp at h
  · next p t hp =>
    split at h
    · simp at h
    · next u hu =>
      simp only [Except.ok.injEq, Prod.mk.injEq] at h
      obtain ⟨rfl, rfl⟩ := h
      exact ⟨hp, hu⟩

theorem checkParams_of (h1 : parseParams B default user = .ok (parsed, tree))
    (h2 : checkObsolete user parsed tree = .ok ()) : checkParams B default user = .ok (parsed, tree) := by
  simp only [checkParams, h1, h2]

theorem checkObsolete_ok (h : checkObsolete user parsed tree = .ok ()) :
    ∃ names known, flattenNames tree user = .ok names ∧ flattenNames tree parsed = .ok known ∧
      ∀ n ∈ names, n ∈ known := by
  unfold checkObsolete at h
  split at h
  · simp at h
  · next names hn =>
    split at h
    · simp at h
    · next known hk =>
      split at h
      · next hall =>
        refine ⟨names, known, hn, hk, ?_⟩
        intro n hn
        have := List.all_eq_true.1 hall n hn
        simpa using this
      · simp at h

theorem checkObsolete_of {names known : List String} (h1 : flattenNames tree user = .ok names)
    (h2 : flattenNames tree parsed = .ok known) (h3 : ∀ n ∈ names, n ∈ known) :
    checkObsolete user parsed tree = .ok () := by
  simp only [checkObsolete, h1, h2]
  rw [if_pos]
  exact List.all_eq_true.2 fun n hn => by simpa using h3 n hn

theorem flattenNames_dict {v : Val} {names : List String} (h : flattenNames tree v = .ok names) :
    ∃ d, v = .dict d ∧ flattenDict tree [] d = .ok names := by
  cases v with
  | atom a => simp [flattenNames] at h
  | list l => simp [flattenNames] at h
  | dict d => exact ⟨d, rfl, h⟩

/-! ## The parser tree at parameter paths -/

theorem parserType_at (hD : DefaultOk default) (h : parseParams B default user = .ok (parsed, tree))
    {ks : List Key} {node : Val} (hm : (ks, node) ∈ paramDefs default) :
    ∃ p, Parser.create node = .ok p ∧ getNested ks tree = .ok (.atom p) ∧ parserType tree ks = .ok (some p.base.type) := by
  obtain ⟨p, v, h1, -, -, h4⟩ := parseParams_at hD h hm
  exact ⟨p, h1, h4, by simp only [parserType, h4]⟩

theorem parserType_above (hD : DefaultOk default) (h : parseParams B default user = .ok (parsed, tree))
    {ks js : List Key} {node : Val} (hm : (ks, node) ∈ paramDefs default) (h1 : js <+: ks) (h2 : js ≠ ks) :
    parserType tree js = .ok none := by
  obtain ⟨e, he⟩ := parseParams_tree_section hD h hm h1 h2
  simp only [parserType, he]

theorem parserType_below (hD : DefaultOk default) (h : parseParams B default user = .ok (parsed, tree))
    {ks js : List Key} {node : Val} (hm : (ks, node) ∈ paramDefs default) (h1 : ks <+: js) (h2 : js ≠ ks) :
    parserType tree js = .error .typeError := by
  obtain ⟨p, -, hp, -⟩ := parserType_at hD h hm
  obtain ⟨r, rfl⟩ := h1
  cases r with
  | nil => simp at h2
  | cons k r => simp only [parserType, getNested_append, hp, getNested]

/-- A path at which the parser type is `dict` or `datasource` is a parameter path. -/
theorem param_of_crit (hD : DefaultOk default) (h : parseParams B default user = .ok (parsed, tree))
    {js : List Key} (hne : js ≠ []) {v : Val} (hc : flatCrit tree js v = true) : ∃ node, (js, node) ∈ paramDefs default := by
  unfold flatCrit at hc
  split at hc
  · next ty hty =>
    have hty' : ty ≠ none := by
      rintro rfl
      simp at hc
    have hg : ∃ p, getNested js tree = .ok (.atom p) := by
      unfold parserType at hty
      split at hty
      · next p hp => exact ⟨p, hp⟩
      · simp only [Except.ok.injEq] at hty; exact absurd hty.symm hty'
      · simp only [Except.ok.injEq] at hty; exact absurd hty.symm hty'
      · simp at hty
    obtain ⟨p, hp⟩ := hg
    obtain ⟨⟨ks, node⟩, hm, hp'⟩ := parseParams_tree_only h hne hp
    by_cases e : ks = js
    · exact ⟨node, e ▸ hm⟩
    · rcases hp' with hp' | hp'
      · rw [parserType_above hD h hm hp' (Ne.symm e)] at hty
        simp only [Except.ok.injEq] at hty
        exact absurd hty.symm hty'
      · rw [parserType_below hD h hm hp' (Ne.symm e)] at hty
        simp at hty
  · simp at hc

/-- The leaves `flatten` finds in the parsed configuration are parameter paths. -/
theorem parsed_leaf (hD : DefaultOk default) (h : parseParams B default user = .ok (parsed, tree))
    {d : List (Key × Val)} (hd : parsed = .dict d) (hwf : parsed.WF) {js : List Key} {x : Val}
    (hm : (js, x) ∈ flatLeaves tree d) (hty : ∃ ty, parserType tree js = .ok ty) : ∃ node, (js, node) ∈ paramDefs default := by
  subst hd
  obtain ⟨rel, hne, rfl, hg, hl, -⟩ := (mem_leavesDict _ d hwf.1 hwf.2 _ _ _).1 hm
  rename' js => rel
  obtain ⟨⟨ks, node⟩, hmk, hp⟩ := parseParams_only h hne hg
  by_cases e : ks = rel
  · exact ⟨node, e ▸ hmk⟩
  · rcases hp with hp | hp
    · obtain ⟨e', he'⟩ := parseParams_section hD h hmk hp (Ne.symm e)
      rw [hg, Except.ok.injEq] at he'
      subst he'
      simp only [isLeaf] at hl
      exact param_of_crit hD h hne hl
    · rw [parserType_below hD h hmk hp (Ne.symm e)] at hty
      obtain ⟨ty, hty⟩ := hty
      simp at hty

end

/-! ## The parsed configuration is well-formed -/

section
variable {α : Type}

theorem wfDict_insert {k : Key} {v : Py α} {d : List (Key × Py α)} (hv : v.WF) (hd : Py.WFDict d) :
    Py.WFDict (Dict.insert k v d) := by
  induction d with
  | nil => exact ⟨hv, trivial⟩
  | cons e d ih =>
    obtain ⟨k', v'⟩ := e
    simp only [Dict.insert]
    split
    · exact ⟨hv, hd.2⟩
    · exact ⟨hd.1, ih hd.2⟩

theorem wf_of_lookup {k : Key} {v : Py α} {d : List (Key × Py α)} (hd : Py.WFDict d) (h : Dict.lookup k d = some v) :
    v.WF := wf_of_mem hd (Dict.mem_of_lookup h)

theorem getNested_wf {ks : List Key} {v w : Py α} (hv : v.WF) (h : getNested ks v = .ok w) : w.WF := by
  induction ks generalizing v with
  | nil => simp only [getNested, Except.ok.injEq] at h; exact h ▸ hv
  | cons k ks ih =>
    cases v with
    | atom a => simp [getNested] at h
    | list l => simp [getNested] at h
    | dict d =>
      simp only [getNested] at h
      split at h
      · next x hx => exact ih (wf_of_lookup hv.2 hx) h
      · simp at h

theorem setNested_wf {ks : List Key} {v d d' : Py α} (hv : v.WF) (hd : d.WF) (h : setNested ks v d = .ok d') :
    d'.WF := by
  induction ks generalizing d d' with
  | nil => simp [setNested] at h
  | cons k ks ih =>
    cases d with
    | atom a => cases ks <;> simp [setNested] at h
    | list l => cases ks <;> simp [setNested] at h
    | dict e =>
      cases ks with
      | nil =>
        simp only [setNested, Except.ok.injEq] at h
        subst h
        exact ⟨Dict.nodup_insert hd.1, wfDict_insert hv hd.2⟩
      | cons k' ks =>
        simp only [setNested] at h
        split at h
        · next sub hs =>
          simp only [Except.ok.injEq] at h
          subst h
          refine ⟨Dict.nodup_insert hd.1, wfDict_insert (ih ?_ hs) hd.2⟩
          cases hl : Dict.lookup k e with
          | none => simp [Py.WF, Py.WFDict, Dict.keys]
          | some x => exact wf_of_lookup hd.2 hl
        · simp at h

end

theorem parseList_wf {f : Val → Except Err Val} (hf : ∀ v w, v.WF → f v = .ok w → w.WF) {l l' : List Val}
    (hl : Py.WFList l) (h : Parser.parseList f l = .ok l') : Py.WFList l' := by
  induction l generalizing l' with
  | nil => simp only [Parser.parseList, Except.ok.injEq] at h; subst h; trivial
  | cons v l ih =>
    simp only [Parser.parseList] at h
    split at h
    · simp at h
    · next w hw =>
      split at h
      · simp at h
      · next ws hws =>
        simp only [Except.ok.injEq] at h
        subst h
        exact ⟨hf v w hl.1 hw, ih hl.2 hws⟩

theorem parseDict_wf {fk fv : Val → Except Err Val} (hf : ∀ v w, v.WF → fv v = .ok w → w.WF)
    {d acc d' : List (Key × Val)} (hd : Py.WFDict d) (ha : (Dict.keys acc).Nodup ∧ Py.WFDict acc)
    (h : Parser.parseDict fk fv acc d = .ok d') : (Dict.keys d').Nodup ∧ Py.WFDict d' := by
  induction d generalizing acc with
  | nil => simp only [Parser.parseDict, Except.ok.injEq] at h; subst h; exact ha
  | cons e d ih =>
    obtain ⟨k, v⟩ := e
    simp only [Parser.parseDict] at h
    split at h
    · simp at h
    · split at h
      · simp at h
      · next w hw =>
        split at h
        · simp at h
        · exact ih hd.2 ⟨Dict.nodup_insert ha.1, wfDict_insert (hf v w hd.1 hw) ha.2⟩ h

theorem parse_wf (B : Builtins) : ∀ (p : Parser) (v w : Val), v.WF → p.parse B v = .ok w → w.WF := by
  intro p
  induction p with
  | ident => intro v w hv h; simp only [Parser.parse, Except.ok.injEq] at h; exact h ▸ hv
  | str b =>
    intro v w hv h
    simp only [Parser.parse] at h
    split at h <;> (simp only [Except.ok.injEq] at h; subst h; trivial)
  | strOrPlainDict b =>
    intro v w hv h
    simp only [Parser.parse] at h
    split at h
    · simp only [Except.ok.injEq] at h; subst h; trivial
    · split at h <;> (simp only [Except.ok.injEq] at h; subst h; first | exact hv | trivial)
  | bool b =>
    intro v w hv h
    simp only [Parser.parse] at h
    split at h
    · simp only [Except.ok.injEq] at h; subst h; trivial
    · split at h
      · simp only [Except.ok.injEq] at h; subst h; trivial
      · split at h
        · simp only [Except.ok.injEq] at h; subst h; trivial
        · simp at h
  | float b lo hi =>
    intro v w hv h
    simp only [Parser.parse] at h
    split at h
    · simp only [Except.ok.injEq] at h; subst h; trivial
    · split at h
      · simp at h
      · split at h
        · simp at h
        · simp only [Except.ok.injEq] at h; subst h; trivial
  | int b lo hi =>
    intro v w hv h
    simp only [Parser.parse] at h
    split at h
    · simp only [Except.ok.injEq] at h; subst h; trivial
    · split at h
      · simp at h
      · split at h
        · simp at h
        · simp only [Except.ok.injEq] at h; subst h; trivial
  | enum b allowed =>
    intro v w hv h
    simp only [Parser.parse] at h
    split at h
    · simp only [Except.ok.injEq] at h; subst h; trivial
    · split at h
      · simp only [Except.ok.injEq] at h; subst h; exact hv
      · simp at h
  | quantity b u =>
    intro v w hv h
    simp only [Parser.parse] at h
    split at h
    · simp only [Except.ok.injEq] at h; subst h; trivial
    · split at h
      · simp only [Except.ok.injEq] at h; subst h; exact hv
      · simp at h
  | list b values ih =>
    intro v w hv h
    simp only [Parser.parse] at h
    split at h
    · simp only [Except.ok.injEq] at h; subst h; trivial
    · split at h
      · next l =>
        split at h
        · simp at h
        · next l' hl' =>
          simp only [Except.ok.injEq] at h
          subst h
          exact parseList_wf ih hv hl'
      · simp only [Except.ok.injEq] at h; subst h; trivial
      · simp at h
  | dict b keys values _ ih =>
    intro v w hv h
    simp only [Parser.parse] at h
    split at h
    · simp only [Except.ok.injEq] at h; subst h; trivial
    · split at h
      · next d =>
        split at h
        · simp at h
        · next d' hd' =>
          simp only [Except.ok.injEq] at h
          subst h
          exact parseDict_wf ih hv.2 (acc := []) ⟨by simp [Dict.keys], trivial⟩ hd'
      · simp only [Except.ok.injEq] at h; subst h; exact ⟨by simp [Dict.keys], trivial⟩
      · simp at h
  | datasource b keys values _ ih =>
    intro v w hv h
    simp only [Parser.parse] at h
    split at h
    · simp only [Except.ok.injEq] at h; subst h; trivial
    · split at h
      · next d =>
        split at h
        · simp at h
        · next d' hd' =>
          split at h
          · simp only [Except.ok.injEq] at h
            subst h
            exact parseDict_wf ih hv.2 (acc := []) ⟨by simp [Dict.keys], trivial⟩ hd'
          · simp at h
      · simp at h

/-- The default value stored by a parser is the entry `default` of the definition (or `None`). -/
theorem create_default {node : Val} {p : Parser} (h : Parser.create node = .ok p) :
    ∃ d t, node = .dict d ∧ Dict.lookup (.str "type") d = some (.atom (.str t)) ∧ p.base = Parser.mkBase t d := by
  cases node with
  | atom a => simp [Parser.create] at h
  | list l => simp [Parser.create] at h
  | dict d =>
    simp only [Parser.create, Parser.mk] at h
    split at h
    · simp at h
    · next t ht =>
      refine ⟨d, t, rfl, ht, ?_⟩
      repeat' split at h
      all_goals first
        | (simp only [Except.ok.injEq] at h; subst h; rfl)
        | simp at h
    · simp at h
    · simp at h

theorem default_wf {node : Val} {p : Parser} (h : Parser.create node = .ok p) (hwf : node.WF) : p.base.default.WF := by
  obtain ⟨d, t, rfl, -, hb⟩ := create_default h
  rw [hb]
  simp only [Parser.mkBase, Parser.getKey]
  cases hl : Dict.lookup (.str "default") d with
  | none => trivial
  | some v => exact wf_of_lookup hwf.2 hl

theorem setAll_wf {α : Type} {L : List (List Key × Py α)} {d d' : Py α} (hL : ∀ e ∈ L, e.2.WF) (hd : d.WF)
    (h : setAll L d = .ok d') : d'.WF := by
  induction L generalizing d with
  | nil => simp only [setAll, Except.ok.injEq] at h; exact h ▸ hd
  | cons e L ih =>
    obtain ⟨ks, v⟩ := e
    simp only [setAll] at h
    split at h
    · simp at h
    · next x hx => exact ih (fun e he => hL e (by simp [he])) (setNested_wf (hL (ks, v) (by simp)) hd hx) h

theorem paramDefs_wf {default : List (Key × Val)} (hD : DefaultOk default) {ks : List Key} {node : Val}
    (h : (ks, node) ∈ paramDefs default) : node.WF :=
  getNested_wf (v := .dict default) ⟨hD.nodup, hD.wf⟩ ((isParam_iff hD).2 h).at_path

theorem setAll_dict {α : Type} {L : List (List Key × Py α)} {d d' : Py α} (hd : d.isDict = true)
    (h : setAll L d = .ok d') : d'.isDict = true := by
  induction L generalizing d with
  | nil => simp only [setAll, Except.ok.injEq] at h; exact h ▸ hd
  | cons e L ih =>
    obtain ⟨ks, v⟩ := e
    simp only [setAll] at h
    split at h
    · simp at h
    · next x hx => exact ih (setNested_isDict hx) h

theorem forall₂_zip_mem {β γ : Type} {P : β → γ → Prop} {L : List β} {R : List γ} (h : List.Forall₂ P L R)
    {x : β × γ} (hx : x ∈ L.zip R) : x.1 ∈ L ∧ P x.1 x.2 := by
  induction h with
  | nil => simp at hx
  | cons hd _ ih =>
    simp only [List.zip_cons_cons, List.mem_cons] at hx
    rcases hx with rfl | hx
    · exact ⟨by simp, hd⟩
    · exact ⟨by simp [(ih hx).1], (ih hx).2⟩

/-- The parsed configuration is a dictionary with pairwise different keys everywhere. -/
theorem parseParams_wf {B : Builtins} {default : List (Key × Val)} {user parsed : Val} {tree : Py Parser}
    (hD : DefaultOk default) (hu : user.WF) (h : parseParams B default user = .ok (parsed, tree)) :
    parsed.WF ∧ parsed.isDict = true := by
  obtain ⟨R, hR, h2, -⟩ := parseSteps_spec h
  refine ⟨setAll_wf ?_ (by exact ⟨by simp [Dict.keys], trivial⟩) h2, setAll_dict rfl h2⟩
  intro e he
  rw [← List.map_uncurry_zip_eq_zipWith] at he
  obtain ⟨⟨leaf, r⟩, hz, rfl⟩ := List.mem_map.1 he
  obtain ⟨hm, hl⟩ := forall₂_zip_mem hR hz
  obtain ⟨ks, node⟩ := leaf
  obtain ⟨p, v⟩ := r
  obtain ⟨p', v', h1, h3, -, -⟩ := parseParams_at hD h hm
  simp only [parseLeaf, h1, h3, Except.ok.injEq, Prod.mk.injEq] at hl
  obtain ⟨rfl, rfl⟩ := hl
  show v'.WF
  unfold Parser.get at h3
  split at h3
  · next x hx => exact parse_wf B _ x _ (getNested_wf hu hx) h3
  · exact parse_wf B _ _ _ (default_wf h1 (paramDefs_wf hD hm)) h3
  · simp at h3

end Mimosa
