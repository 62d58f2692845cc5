import Verif.Props.ConfigValues

/-!
# C09: parsing depends only on the value at each path, not on the order of keys
-/

namespace Mimosa

section
variable {B : Builtins} {default : List (Key × Val)}

/-- Specification: two user configurations give the same values at the same paths. -/
structure SameValues (default : List (Key × Val)) (u u' : Val) : Prop where
  /-- The same value at every parameter of the template (or absent from both). -/
  params : ∀ ks node, IsParam default ks node → getNested ks u = getNested ks u'
  /-- The same values (that are not sections) at all paths, known or not. -/
  values : ∀ ks w, w.isDict = false → (getNested ks u = .ok w ↔ getNested ks u' = .ok w)

theorem SameValues.symm {u u' : Val} (h : SameValues default u u') : SameValues default u' u :=
  ⟨fun ks node hp => (h.params ks node hp).symm, fun ks w hw => (h.values ks w hw).symm⟩

theorem parseParams_congr (hD : DefaultOk default) {u u' : Val} (h : SameValues default u u') :
    parseParams B default u = parseParams B default u' := by
  refine parseSteps_congr ?_
  rintro ⟨ks, node⟩ hm p hp
  show p.get B u ks = p.get B u' ks
  unfold Parser.get
  rw [h.params ks node ((isParam_iff hD).2 hm)]

theorem getNested_error {α : Type} {ks : List Key} {v : Py α} {e : Err} (h : getNested ks v = .error e) :
    e = .keyError ∨ ∃ js, js <+: ks ∧ js ≠ ks ∧ ∃ x, getNested js v = .ok x ∧ x.isDict = false := by
  induction ks generalizing v with
  | nil => simp [getNested] at h
  | cons k ks ih =>
    cases v with
    | atom a => exact Or.inr ⟨[], List.nil_prefix, by simp, .atom a, rfl, rfl⟩
    | list l => exact Or.inr ⟨[], List.nil_prefix, by simp, .list l, rfl, rfl⟩
    | dict d =>
      simp only [getNested] at h
      split at h
      · next v hv =>
        rcases ih h with rfl | ⟨js, h1, h2, x, hx, hd⟩
        · exact Or.inl rfl
        · exact Or.inr ⟨k :: js, List.cons_prefix_cons.2 ⟨rfl, h1⟩, by simpa using h2, x, by simp only [getNested, hv, hx], hd⟩
      · simp only [Except.error.injEq] at h
        exact Or.inl h.symm

/-- A leaf of `u` (in the sense of `check_obsolete_params`) has the same value in `u'`. -/
theorem leaf_value_congr (hD : DefaultOk default) {u u' user parsed : Val} {tree : Py Parser}
    (hp : parseParams B default user = .ok (parsed, tree)) (h : SameValues default u u') {ks : List Key}
    (hne : ks ≠ []) {w : Val} (hw : getNested ks u = .ok w) (hl : isLeaf (flatCrit tree) ks w = true) :
    getNested ks u' = .ok w := by
  by_cases hd : w.isDict = true
  · cases w with
    | atom a => simp [Py.isDict] at hd
    | list l => simp [Py.isDict] at hd
    | dict d =>
      simp only [isLeaf] at hl
      obtain ⟨node, hm⟩ := param_of_crit hD hp hne hl
      rw [← h.params ks node ((isParam_iff hD).2 hm)]
      exact hw
  · exact (h.values ks w (by simpa using hd)).1 hw

/-- The set of leaves is the same. -/
theorem leaves_congr (hD : DefaultOk default) {d d' : List (Key × Val)} {user parsed : Val} {tree : Py Parser}
    (hwf : (Py.dict d).WF) (hwf' : (Py.dict d').WF)
    (hp : parseParams B default user = .ok (parsed, tree)) (h : SameValues default (.dict d) (.dict d')) {ks : List Key}
    {w : Val} (hm : (ks, w) ∈ flatLeaves tree d) : (ks, w) ∈ flatLeaves tree d' := by
  obtain ⟨rel, hne, hrel, hg, hl, hv⟩ := (mem_leavesDict _ d hwf.1 hwf.2 _ _ _).1 hm
  rw [List.nil_append] at hrel
  subst hrel
  refine (mem_leavesDict _ d' hwf'.1 hwf'.2 _ _ _).2 ⟨ks, hne, by simp, leaf_value_congr hD hp h hne hg hl, hl, ?_⟩
  intro js h1 h2 h3 x hx
  by_contra hc
  rw [Bool.not_eq_false, List.nil_append] at hc
  have hx' := leaf_value_congr hD hp h.symm h3 hx hc
  have := hv js h1 h2 h3 x hx'
  rw [List.nil_append] at this
  rw [this] at hc
  simp at hc

theorem flatten_congr (hD : DefaultOk default) {d d' : List (Key × Val)} {user parsed : Val} {tree : Py Parser}
    (hwf : (Py.dict d).WF) (hwf' : (Py.dict d').WF)
    (hp : parseParams B default user = .ok (parsed, tree)) (h : SameValues default (.dict d) (.dict d'))
    {names : List String} (hn : flattenDict tree [] d = .ok names) :
    ∃ names', flattenDict tree [] d' = .ok names' ∧ ∀ n ∈ names', n ∈ names := by
  have hok : ∃ names', flattenDict tree [] d' = .ok names' := by
    refine flattenDict_ok tree d' hwf'.1 hwf'.2 [] ?_
    intro rel hne w hw hv
    rw [List.nil_append]
    -- every existing path above a leaf, or leaf, has a parser type
    refine ⟨?_, ?_⟩
    · -- if walking to `rel` passed through a parser, the parameter value would be the same dictionary in `d`
      by_cases hb : ∃ ks node, IsParam default ks node ∧ ks <+: rel ∧ rel ≠ ks
      · obtain ⟨ks, node, hpk, hpre, hne2⟩ := hb
        obtain ⟨r, rfl⟩ := hpre
        have hksp := h.params ks node hpk
        have hw' : getNested (ks ++ r) (.dict d) = .ok w := by
          rw [getNested_append, hksp, ← getNested_append]; exact hw
        refine (flattenDict_visited tree d hwf.1 hwf.2 [] names hn (ks ++ r) hne w hw' ?_)
        intro js h1 h2 h3 x hx
        by_contra hc
        rw [Bool.not_eq_false, List.nil_append] at hc
        have hx' := leaf_value_congr hD hp h h3 hx hc
        have := hv js h1 h2 h3 x hx'
        rw [List.nil_append] at this
        rw [this] at hc
        simp at hc
      · push Not at hb
        cases ht : getNested rel tree with
        | ok y =>
          cases y with
          | atom p => exact ⟨_, by simp only [parserType, ht]; rfl⟩
          | list l => exact ⟨none, by simp only [parserType, ht]⟩
          | dict e => exact ⟨none, by simp only [parserType, ht]⟩
        | error e =>
          rcases getNested_error ht with rfl | ⟨js, h1, h2, x, hx, hxd⟩
          · exact ⟨none, by simp only [parserType, ht]⟩
          · exfalso
            obtain ⟨R, -, -, hset⟩ := parseSteps_spec hp
            by_cases hj : js = []
            · subst hj
              have := setAll_dict rfl hset
              simp only [getNested, Except.ok.injEq] at hx
              subst hx
              simp [this] at hxd
            · obtain ⟨⟨ks, node⟩, hmk, hor⟩ := parseParams_tree_only hp hj hx
              by_cases he : js = ks
              · subst he
                exact h2 (hb js node ((isParam_iff hD).2 hmk) h1).symm
              · rcases hor with hor | hor
                · obtain ⟨e', he'⟩ := parseParams_tree_section hD hp hmk hor he
                  rw [hx, Except.ok.injEq] at he'
                  subst he'
                  simp [Py.isDict] at hxd
                · exact he (by
                    have := hb ks node ((isParam_iff hD).2 hmk) (hor.trans h1)
                    rw [this] at h1
                    exact h1.eq_of_length_le hor.length_le)
    · intro hl
      have hw' := leaf_value_congr hD hp h.symm hne hw hl
      have hm : (rel, w) ∈ flatLeaves tree d' := (mem_leavesDict _ d' hwf'.1 hwf'.2 _ _ _).2 ⟨rel, hne, by simp, hw, hl, hv⟩
      have hm' := leaves_congr hD hwf' hwf hp h.symm hm
      obtain ⟨n, -, hj, -⟩ := forall₂_mem_left (flattenDict_spec tree d [] names hn) hm'
      exact ⟨n, hj⟩
  obtain ⟨names', hn'⟩ := hok
  refine ⟨names', hn', ?_⟩
  intro n hmem
  obtain ⟨⟨ks, w⟩, hz, hj, -⟩ := forall₂_mem_right (flattenDict_spec tree d' [] names' hn') hmem
  have hm' := leaves_congr hD hwf' hwf hp h.symm (List.of_mem_zip hz).1
  obtain ⟨n', hz', hj', -⟩ := forall₂_mem_left (flattenDict_spec tree d [] names hn) hm'
  simp only at hj hj'
  rw [hj, Except.ok.injEq] at hj'
  subst hj'
  exact (List.of_mem_zip hz').2

/-- **The order of keys does not matter**: two user configurations with the same values at the same paths are
accepted together, with the same result. -/
theorem C09_same_values_same_result (hD : DefaultOk default) {d d' : List (Key × Val)} (hwf : (Py.dict d).WF)
    (hwf' : (Py.dict d').WF) (h : SameValues default (.dict d) (.dict d')) (r : Val × Py Parser) :
    checkParams B default (.dict d) = .ok r ↔ checkParams B default (.dict d') = .ok r := by
  have main : ∀ {d d' : List (Key × Val)}, (Py.dict d).WF → (Py.dict d').WF → SameValues default (.dict d) (.dict d') →
      checkParams B default (.dict d) = .ok r → checkParams B default (.dict d') = .ok r := by
    intro d d' hwf hwf' h hc
    obtain ⟨parsed, tree⟩ := r
    obtain ⟨h1, h2⟩ := checkParams_ok hc
    obtain ⟨names, known, hn, hk, hsub⟩ := checkObsolete_ok h2
    obtain ⟨names', hn', hsub'⟩ := flatten_congr hD hwf hwf' h1 h hn
    refine checkParams_of ((parseParams_congr hD h).symm.trans h1) (checkObsolete_of (names := names') hn' hk ?_)
    intro n hn
    exact hsub n (hsub' n hn)
  exact ⟨main hwf hwf' h, main hwf' hwf h.symm⟩

/-- Permuting the entries of the user's top-level dictionary. -/
theorem C09_permute_top (hD : DefaultOk default) {d d' : List (Key × Val)} (hwf : (Py.dict d).WF)
    (hperm : d.Perm d') (r : Val × Py Parser) :
    checkParams B default (.dict d) = .ok r ↔ checkParams B default (.dict d') = .ok r := by
  have hnd' : (Dict.keys d').Nodup := (hperm.map (Prod.fst)).nodup_iff.1 hwf.1
  have hl : ∀ k, Dict.lookup k d = Dict.lookup k d' := by
    intro k
    cases h : Dict.lookup k d with
    | some v => exact (Dict.lookup_of_mem hnd' (hperm.subset (Dict.mem_of_lookup h))).symm
    | none =>
      cases h' : Dict.lookup k d' with
      | none => rfl
      | some v => rw [Dict.lookup_of_mem hwf.1 (hperm.symm.subset (Dict.mem_of_lookup h'))] at h; simp at h
  have hg : ∀ ks, ks ≠ [] → getNested ks (.dict d) = getNested ks (.dict d') := by
    intro ks hne
    cases ks with
    | nil => exact absurd rfl hne
    | cons k ks => simp only [getNested, hl]
  have hwfd : ∀ (d : List (Key × Val)), (∀ e ∈ d, e.2.WF) → Py.WFDict d := by
    intro d
    induction d with
    | nil => intro _; trivial
    | cons e d ih => intro h; exact ⟨h e (by simp), ih fun e he => h e (by simp [he])⟩
  refine C09_same_values_same_result hD hwf ⟨hnd', hwfd d' fun e he => ?_⟩ ⟨fun ks node hp => hg ks hp.ne, ?_⟩ r
  · exact wf_of_mem (k := e.1) hwf.2 (hperm.symm.subset he)
  · intro ks w hw
    by_cases hne : ks = []
    · subst hne
      simp only [getNested, Except.ok.injEq]
      constructor <;> (rintro rfl; simp [Py.isDict] at hw)
    · rw [hg ks hne]

/-- Permuting the entries of a section: replacing the section at key `k` by one with the same values. -/
theorem C09_permute_section (hD : DefaultOk default) {d : List (Key × Val)} (hwf : (Py.dict d).WF) {k : Key}
    {s s' : List (Key × Val)} (hk : Dict.lookup k d = some (.dict s)) (hperm : s.Perm s')
    (hsec : ∀ node, ¬ IsParam default [k] node) (r : Val × Py Parser) :
    checkParams B default (.dict d) = .ok r ↔
      checkParams B default (.dict (Dict.insert k (.dict s') d)) = .ok r := by
  have hwfs : (Py.dict s).WF := wf_of_lookup hwf.2 hk
  have hnd' : (Dict.keys s').Nodup := (hperm.map (Prod.fst)).nodup_iff.1 hwfs.1
  have hl : ∀ k, Dict.lookup k s = Dict.lookup k s' := by
    intro k
    cases h : Dict.lookup k s with
    | some v => exact (Dict.lookup_of_mem hnd' (hperm.subset (Dict.mem_of_lookup h))).symm
    | none =>
      cases h' : Dict.lookup k s' with
      | none => rfl
      | some v => rw [Dict.lookup_of_mem hwfs.1 (hperm.symm.subset (Dict.mem_of_lookup h'))] at h; simp at h
  have hwfd : ∀ (d : List (Key × Val)), (∀ e ∈ d, e.2.WF) → Py.WFDict d := by
    intro d
    induction d with
    | nil => intro _; trivial
    | cons e d ih => intro h; exact ⟨h e (by simp), ih fun e he => h e (by simp [he])⟩
  have hwfs' : (Py.dict s').WF :=
    ⟨hnd', hwfd s' fun e he => wf_of_mem (k := e.1) hwfs.2 (hperm.symm.subset he)⟩
  have hg : ∀ ks, ks ≠ [] → ks ≠ [k] →
      getNested ks (.dict d) = getNested ks (.dict (Dict.insert k (.dict s') d)) := by
    intro ks hne hne'
    cases ks with
    | nil => exact absurd rfl hne
    | cons j js =>
      by_cases hj : k = j
      · subst hj
        cases js with
        | nil => exact absurd rfl hne'
        | cons i is => simp only [getNested, Dict.lookup_insert_self, hk, hl]
      · simp only [getNested, Dict.lookup_insert_ne hj]
  refine C09_same_values_same_result hD hwf ⟨Dict.nodup_insert hwf.1, wfDict_insert hwfs' hwf.2⟩
    ⟨fun ks node hp => hg ks hp.ne (by rintro rfl; exact hsec node hp), ?_⟩ r
  intro ks w hw
  by_cases hne : ks = []
  · subst hne
    simp only [getNested, Except.ok.injEq]
    constructor <;> (rintro rfl; simp [Py.isDict] at hw)
  · by_cases hne' : ks = [k]
    · subst hne'
      simp only [getNested, hk, Dict.lookup_insert_self, Except.ok.injEq]
      constructor <;> (rintro rfl; simp [Py.isDict] at hw)
    · rw [hg ks hne hne']

end

/-- Writing `time` before `SSP` or after it gives the same parameters. -/
example (r : Val × Py Parser) :
    checkParams exampleBuiltins DefaultYaml.entries (.dict [(.str "SSP", .atom (.str "SSP3")),
      (.str "time", .dict [(.str "end", .atom (.int 2150))])]) = .ok r ↔
    checkParams exampleBuiltins DefaultYaml.entries (.dict [(.str "time", .dict [(.str "end", .atom (.int 2150))]),
      (.str "SSP", .atom (.str "SSP3"))]) = .ok r :=
  C09_permute_top default_ok (wfB_iff _ (by decide)) (List.Perm.swap _ _ _) r

end Mimosa
