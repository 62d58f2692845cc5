import Verif.Lib.CheckFacts
import Verif.Config.DefaultYaml

/-!
# C01, C02: unknown parameters are rejected; accepted configurations are complete
-/

namespace Mimosa

section
variable {B : Builtins} {default : List (Key × Val)} {user parsed : Val} {tree : Py Parser}

/-! ## C02 -/

/-- The value of a parameter the user did not mention: the entry `default` of its definition, `None` if there
is none. -/
def defaultOf : Val → Val
  | .dict d => (Dict.lookup (.str "default") d).getD (.atom .null)
  | _ => .atom .null

/-- Each parameter of the template has a value in the result: the user's value, parsed by the parser of the
definition, if the user gave one; otherwise the parsed default. -/
theorem C02_values (hD : DefaultOk default) (h : checkParams B default user = .ok (parsed, tree))
    {ks : List Key} {node : Val} (hp : IsParam default ks node) :
    ∃ p v, Parser.create node = .ok p ∧ getNested ks parsed = .ok v ∧
      ((∃ u, getNested ks user = .ok u ∧ p.parse B u = .ok v) ∨
       (getNested ks user = .error .keyError ∧ p.parse B (defaultOf node) = .ok v)) := by
  obtain ⟨h1, -⟩ := checkParams_ok h
  obtain ⟨p, v, hc, hg, hv, -⟩ := parseParams_at hD h1 ((isParam_iff hD).1 hp)
  refine ⟨p, v, hc, hv, ?_⟩
  unfold Parser.get at hg
  split at hg
  · next u hu => exact Or.inl ⟨u, hu, hg⟩
  · next hu =>
    refine Or.inr ⟨hu, ?_⟩
    obtain ⟨d, t, rfl, -, hb⟩ := create_default hc
    rw [hb] at hg
    exact hg
  · simp at hg

/-- The result has no other parameters: every path in it leads to a parameter (it is a section containing the
parameter) or lies inside the value of one. -/
theorem C02_nothing_else (hD : DefaultOk default) (h : checkParams B default user = .ok (parsed, tree))
    {js : List Key} (hne : js ≠ []) {x : Val} (hx : getNested js parsed = .ok x) :
    ∃ ks node, IsParam default ks node ∧ (js <+: ks ∨ ks <+: js) := by
  obtain ⟨h1, -⟩ := checkParams_ok h
  obtain ⟨⟨ks, node⟩, hm, hp⟩ := parseParams_only h1 hne hx
  exact ⟨ks, node, (isParam_iff hD).2 hm, hp⟩

/-- The sections above a parameter are dictionaries, so the parameters keep the nesting of the template. -/
theorem C02_sections (hD : DefaultOk default) (h : checkParams B default user = .ok (parsed, tree))
    {ks js : List Key} {node : Val} (hp : IsParam default ks node) (h1 : js <+: ks) (h2 : js ≠ ks) :
    ∃ e, getNested js parsed = .ok (.dict e) :=
  parseParams_section hD (checkParams_ok h).1 ((isParam_iff hD).1 hp) h1 h2

/-- The result is determined by the parameters: two results that agree on every parameter agree at every
path that leads to or into a parameter. -/
theorem C02_value_unique (hD : DefaultOk default) (h : checkParams B default user = .ok (parsed, tree))
    {ks : List Key} {node : Val} (hp : IsParam default ks node) {p : Parser} (hc : Parser.create node = .ok p)
    {u v : Val} (hu : getNested ks user = .ok u) (hv : p.parse B u = .ok v) : getNested ks parsed = .ok v := by
  obtain ⟨p', v', hc', hg, hor⟩ := C02_values hD h hp
  rw [hc, Except.ok.injEq] at hc'
  subst hc'
  rcases hor with ⟨u', hu', hv'⟩ | ⟨hu', -⟩
  · rw [hu, Except.ok.injEq] at hu'
    subst hu'
    rw [hv, Except.ok.injEq] at hv'
    rw [hg, hv']
  · rw [hu] at hu'; simp at hu'

/-- A parameter whose value does not parse is an error: nothing is silently replaced. -/
theorem C02_bad_value_rejected (hD : DefaultOk default) {ks : List Key} {node : Val} (hp : IsParam default ks node)
    {p : Parser} (hc : Parser.create node = .ok p) {u : Val} (hu : getNested ks user = .ok u) {e : Err}
    (he : p.parse B u = .error e) : ∃ e', checkParams B default user = .error e' := by
  cases h : checkParams B default user with
  | error e' => exact ⟨e', rfl⟩
  | ok r =>
    obtain ⟨parsed, tree⟩ := r
    obtain ⟨p', v', hc', hg, hor⟩ := C02_values hD h hp
    rw [hc, Except.ok.injEq] at hc'
    subst hc'
    rcases hor with ⟨u', hu', hv'⟩ | ⟨hu', -⟩
    · rw [hu, Except.ok.injEq] at hu'
      subst hu'
      rw [he] at hv'; simp at hv'
    · rw [hu] at hu'; simp at hu'

/-! ## C01 -/

/-- The joined name of every leaf of an accepted user configuration is the joined name of a parameter. -/
theorem accepted_names (hD : DefaultOk default) (hu : user.WF) (h : checkParams B default user = .ok (parsed, tree))
    {d : List (Key × Val)} (hd : user = .dict d) {js : List Key} {x : Val} (hm : (js, x) ∈ flatLeaves tree d) :
    ∃ n ks node, joinKeys js = .ok n ∧ IsParam default ks node ∧ joinKeys ks = .ok n := by
  obtain ⟨h1, h2⟩ := checkParams_ok h
  obtain ⟨names, known, hn, hk, hsub⟩ := checkObsolete_ok h2
  subst hd
  have s1 := flattenDict_spec tree d [] names hn
  obtain ⟨n, hz, hj, -⟩ := forall₂_mem_left s1 hm
  have hn' : n ∈ names := (List.of_mem_zip hz).2
  obtain ⟨d', hd', hk'⟩ := flattenNames_dict hk
  have s2 := flattenDict_spec tree d' [] known hk'
  obtain ⟨⟨ks, y⟩, hz', hjk, hty⟩ := forall₂_mem_right s2 (hsub n hn')
  have hl : (ks, y) ∈ flatLeaves tree d' := (List.of_mem_zip hz').1
  obtain ⟨node, hm'⟩ := parsed_leaf hD h1 hd' (parseParams_wf hD hu h1).1 hl hty
  exact ⟨n, ks, node, hj, (isParam_iff hD).2 hm', hjk⟩

/-- **What an accepted configuration contains.**  Every value (that is not a dictionary) the user wrote, at
any depth, is at a path whose keys, joined by `" - "`, spell the joined name of a parameter – or it lies inside
a dictionary at such a path. -/
theorem C01_only_known_names (hD : DefaultOk default) (hu : user.WF)
    (h : checkParams B default user = .ok (parsed, tree)) {ks : List Key} (hne : ks ≠ []) {w : Val}
    (hw : getNested ks user = .ok w) (hnd : w.isDict = false) :
    ∃ js qs node n, js <+: ks ∧ joinKeys js = .ok n ∧ IsParam default qs node ∧ joinKeys qs = .ok n := by
  obtain ⟨-, h2⟩ := checkParams_ok h
  obtain ⟨names, known, hn, -, -⟩ := checkObsolete_ok h2
  obtain ⟨d, rfl, -⟩ := flattenNames_dict hn
  have hl : isLeaf (flatCrit tree) ks w = true := by
    cases w with
    | dict e => simp [Py.isDict] at hnd
    | atom a => rfl
    | list l => rfl
  obtain ⟨js, x, hm, hp⟩ := leaf_above hu.1 hu.2 hne hw hl
  obtain ⟨n, qs, node, h1, h2, h3⟩ := accepted_names hD hu h rfl hm
  exact ⟨js, qs, node, n, hp, h1, h2, h3⟩

/-- **Unknown parameters are rejected**, for paths whose keys contain no dash (and a template whose keys
contain none; the default configuration is one, see `default_noDash`).  In an accepted configuration every
value the user wrote is the value of a parameter of the template, or lies inside the value of a parameter of
type `dict` or `datasource`.

What is missing: keys containing a dash.  There the claim is false, see `C01_dash_key_accepted`. -/
theorem C01_only_known_paths_partial (hD : DefaultOk default) (hu : user.WF)
    (hdash : ∀ ks node, IsParam default ks node → ∀ k ∈ ks, NoDash k)
    (h : checkParams B default user = .ok (parsed, tree)) {ks : List Key} (hne : ks ≠ []) (hks : ∀ k ∈ ks, NoDash k)
    {w : Val} (hw : getNested ks user = .ok w) (hnd : w.isDict = false) :
    (∃ node, IsParam default ks node) ∨
    ∃ js node p, js <+: ks ∧ IsParam default js node ∧ Parser.create node = .ok p ∧
      (p.base.type = "dict" ∨ p.base.type = "datasource") := by
  obtain ⟨h1, h2⟩ := checkParams_ok h
  obtain ⟨names, known, hn, -, -⟩ := checkObsolete_ok h2
  obtain ⟨d, rfl, -⟩ := flattenNames_dict hn
  have hl : isLeaf (flatCrit tree) ks w = true := by
    cases w with
    | dict e => simp [Py.isDict] at hnd
    | atom a => rfl
    | list l => rfl
  obtain ⟨js, x, hm, hp⟩ := leaf_above hu.1 hu.2 hne hw hl
  obtain ⟨n, qs, node, j1, j2, j3⟩ := accepted_names hD hu h rfl hm
  obtain ⟨rel, hrne, hrel, hg, hlf, -⟩ := (mem_leavesDict _ d hu.1 hu.2 _ _ _).1 hm
  rw [List.nil_append] at hrel
  subst hrel
  have e : js = qs := joinKeys_inj hrne j2.ne (fun k hk => hks k (hp.subset hk)) (hdash qs node j2) j1 j3
  subst e
  by_cases hjk : js = ks
  · subst hjk
    exact Or.inl ⟨node, j2⟩
  · right
    obtain ⟨p, hc, -, hty⟩ := parserType_at hD h1 ((isParam_iff hD).1 j2)
    refine ⟨js, node, p, hp, j2, hc, ?_⟩
    obtain ⟨r, rfl⟩ := hp
    rw [getNested_append, hg] at hw
    cases r with
    | nil => simp at hjk
    | cons k r =>
      cases x with
      | atom a => simp [getNested] at hw
      | list l => simp [getNested] at hw
      | dict e =>
        simp only [isLeaf, flatCrit, hty] at hlf
        simpa using hlf

/-- The same as a rejection: a value at a path that is no parameter and not inside one makes `check_params`
raise.  (Partial for the same reason.) -/
theorem C01_unknown_path_rejected_partial (hD : DefaultOk default) (hu : user.WF)
    (hdash : ∀ ks node, IsParam default ks node → ∀ k ∈ ks, NoDash k)
    {ks : List Key} (hne : ks ≠ []) (hks : ∀ k ∈ ks, NoDash k)
    {w : Val} (hw : getNested ks user = .ok w) (hnd : w.isDict = false)
    (hunk : ∀ js node, IsParam default js node → ¬ js <+: ks) :
    ∃ e, checkParams B default user = .error e := by
  cases h : checkParams B default user with
  | error e => exact ⟨e, rfl⟩
  | ok r =>
    obtain ⟨parsed, tree⟩ := r
    rcases C01_only_known_paths_partial hD hu hdash h hne hks hw hnd with ⟨node, hp⟩ | ⟨js, node, p, hp, hq, -⟩
    · exact absurd (List.prefix_refl ks) (hunk ks node hp)
    · exact absurd hp (hunk js node hq)

end

/-! ## The default configuration -/

/-- Boolean form of `WF`. -/
def nodupKeys (d : List (Key × Val)) : Bool := decide (Dict.keys d).Nodup

mutual
def wfB : Val → Bool
  | .atom _ => true
  | .list l => wfListB l
  | .dict d => nodupKeys d && wfDictB d
def wfListB : List Val → Bool
  | [] => true
  | v :: l => wfB v && wfListB l
def wfDictB : List (Key × Val) → Bool
  | [] => true
  | (_, v) :: d => wfB v && wfDictB d
end

mutual
theorem wfB_iff : ∀ v : Val, wfB v = true → v.WF
  | .atom _, _ => trivial
  | .list l, h => wfListB_iff l h
  | .dict d, h => by
    simp only [wfB, Bool.and_eq_true, nodupKeys, decide_eq_true_eq] at h
    exact ⟨h.1, wfDictB_iff d h.2⟩
theorem wfListB_iff : ∀ l : List Val, wfListB l = true → Py.WFList l
  | [], _ => trivial
  | v :: l, h => by
    simp only [wfListB, Bool.and_eq_true] at h
    exact ⟨wfB_iff v h.1, wfListB_iff l h.2⟩
theorem wfDictB_iff : ∀ d : List (Key × Val), wfDictB d = true → Py.WFDict d
  | [], _ => trivial
  | (k, v) :: d, h => by
    simp only [wfDictB, Bool.and_eq_true] at h
    exact ⟨wfB_iff v h.1, wfDictB_iff d h.2⟩
end

/-- `config_default.yaml` is a real dictionary (no key occurs twice in a section). -/
theorem default_ok : DefaultOk DefaultYaml.entries :=
  ⟨of_decide_eq_true (by decide +kernel), wfDictB_iff _ (by decide +kernel)⟩

theorem default_noDash_aux :
    ((paramDefs DefaultYaml.entries).all fun l => l.1.all fun k => decide (NoDash k)) = true := by decide +kernel

/-- No key of `config_default.yaml` on the way to a parameter contains a dash. -/
theorem default_noDash (ks : List Key) (node : Val) (h : IsParam DefaultYaml.entries ks node) :
    ∀ k ∈ ks, NoDash k := by
  intro k hk
  have := List.all_eq_true.1 default_noDash_aux (ks, node) ((isParam_iff default_ok).1 h)
  simpa using List.all_eq_true.1 this k hk

/-- Built-in functions for the examples: `float("3")` etc. of any string are 3, Pint accepts everything. -/
def exampleBuiltins : Builtins where
  strOf _ := "1.5"
  strOf_not_word := by intro v; decide
  floatOfStr s := if s = "0.0" then some (.fin 0) else if s = "nan" then some .nan else some (.fin 3)
  intOfStr _ := some 3
  quant _ _ := some (.fin 1)

def okB {ε γ : Type} : Except ε γ → Bool
  | .ok _ => true
  | .error _ => false

theorem okB_iff {ε γ : Type} {x : Except ε γ} (h : okB x = true) : ∃ r, x = .ok r := by
  cases x with
  | ok r => exact ⟨r, rfl⟩
  | error e => simp [okB] at h

/-- The default configuration itself (`load_params()`) is accepted: every default value satisfies its own
definition. -/
theorem C02_default_config_accepted :
    ∃ r, checkParams exampleBuiltins DefaultYaml.entries (.dict []) = .ok r := okB_iff (by decide +kernel)

/-- A user configuration with nested sections, a list, a data source and a `dict` parameter is accepted. -/
example : ∃ r, checkParams exampleBuiltins DefaultYaml.entries
    (.dict [(.str "SSP", .atom (.str "SSP3")),
      (.str "emissions", .dict [(.str "carbonbudget", .atom (.str "500 GtCO2"))]),
      (.str "time", .dict [(.str "end", .atom (.int 2150))])]) = .ok r := okB_iff (by decide +kernel)

/-- A misspelled parameter is rejected with `RuntimeWarning`. -/
example : checkParams exampleBuiltins DefaultYaml.entries
    (.dict [(.str "emissions", .dict [(.str "carbonbugdet", .atom (.str "500 GtCO2"))])]) =
      .error .runtimeWarning := by
  have h : (match checkParams exampleBuiltins DefaultYaml.entries
    (.dict [(.str "emissions", .dict [(.str "carbonbugdet", .atom (.str "500 GtCO2"))])]) with
      | .error e => decide (e = .runtimeWarning)
      | .ok _ => false) = true := by decide +kernel
  revert h
  generalize checkParams exampleBuiltins DefaultYaml.entries _ = x
  intro h
  cases x with
  | ok r => simp at h
  | error e => simp only [decide_eq_true_eq] at h; rw [h]

/-- **A key that contains the separator is accepted although it is no parameter**: the user wrote the *top-level*
key `"emissions - carbonbudget"`; nothing is raised and the value is ignored. -/
theorem C01_dash_key_accepted :
    (∃ r, checkParams exampleBuiltins DefaultYaml.entries
      (.dict [(.str "emissions - carbonbudget", .atom (.str "500 GtCO2"))]) = .ok r) ∧
    (∀ node, ¬ IsParam DefaultYaml.entries [.str "emissions - carbonbudget"] node) := by
  refine ⟨okB_iff (by decide +kernel), ?_⟩
  intro node hp
  have := default_noDash _ _ hp (.str "emissions - carbonbudget") (by simp)
  exact absurd this (by decide)

/-- An unknown section that contains no values (an empty dictionary) is not noticed either. -/
theorem C01_empty_section_accepted :
    ∃ r, checkParams exampleBuiltins DefaultYaml.entries (.dict [(.str "no such section", .dict [])]) = .ok r :=
  okB_iff (by decide +kernel)

end Mimosa
