import Verif.Lib.Nested

/-! # Facts about `parse_params` and `check_obsolete_params` -/

namespace Mimosa
variable {α : Type}

/-! ## Repeated `set_nested` -/

/-- `set_nested` for each pair, in order. -/
def setAll : List (List Key × Py α) → Py α → Except Err (Py α)
  | [], d => .ok d
  | (ks, v) :: rest, d => match setNested ks v d with
    | .error e => .error e
    | .ok d' => setAll rest d'

/-- Pairwise no path is a prefix of another one. -/
def PathsApart (L : List (List Key)) : Prop := L.Pairwise fun a b => ¬ a <+: b ∧ ¬ b <+: a

theorem pathsApart_leaves {crit : List Key → Py α → Bool} {d : List (Key × Py α)} (hnd : (Dict.keys d).Nodup)
    (hwf : Py.WFDict d) : PathsApart ((leavesDict crit [] d).map (·.1)) := by
  have h := leavesDict_nodup crit d hnd hwf []
  refine List.Pairwise.imp_of_mem ?_ h
  intro a b ha hb hab
  obtain ⟨⟨ks, w⟩, m1, rfl⟩ := List.mem_map.1 ha
  obtain ⟨⟨js, x⟩, m2, rfl⟩ := List.mem_map.1 hb
  exact ⟨fun h' => hab (leaves_antichain crit hnd hwf m1 m2 h'),
    fun h' => hab (leaves_antichain crit hnd hwf m2 m1 h').symm⟩

theorem setAll_get_other {L : List (List Key × Py α)} {d d' : Py α} (h : setAll L d = .ok d') {js : List Key}
    (hjs : ∀ e ∈ L, ¬ e.1 <+: js ∧ ¬ js <+: e.1) : getNested js d' = getNested js d := by
  induction L generalizing d with
  | nil => simp only [setAll, Except.ok.injEq] at h; rw [h]
  | cons e L ih =>
    obtain ⟨ks, v⟩ := e
    simp only [setAll] at h
    split at h
    · simp at h
    · next d1 hd1 =>
      rw [ih h fun e he => hjs e (List.mem_cons_of_mem _ he)]
      have := hjs (ks, v) (by simp)
      exact setNested_get_other hd1 this.1 this.2

theorem setAll_get {L : List (List Key × Py α)} (hL : PathsApart (L.map (·.1))) {d d' : Py α}
    (h : setAll L d = .ok d') {ks : List Key} {v : Py α} (hm : (ks, v) ∈ L) : getNested ks d' = .ok v := by
  induction L generalizing d with
  | nil => simp at hm
  | cons e L ih =>
    obtain ⟨ks1, v1⟩ := e
    have hp := List.pairwise_cons.1 hL
    simp only [setAll] at h
    split at h
    · simp at h
    · next d1 hd1 =>
      rcases List.mem_cons.1 hm with hm | hm
      · cases hm
        rw [setAll_get_other h fun e he => ?_]
        · exact setNested_get hd1
        · exact (hp.1 e.1 (List.mem_map.2 ⟨e, he, rfl⟩)).symm
      · exact ih hp.2 h hm

/-- Starting from the empty dictionary, every path in the result lies along one of the assigned paths. -/
theorem setAll_only {L : List (List Key × Py α)} {d d' : Py α} (h : setAll L d = .ok d') {js : List Key} {x : Py α}
    (hx : getNested js d' = .ok x) : (∃ e ∈ L, js <+: e.1 ∨ e.1 <+: js) ∨ getNested js d = .ok x := by
  by_cases hc : ∃ e ∈ L, js <+: e.1 ∨ e.1 <+: js
  · exact Or.inl hc
  · right
    push Not at hc
    rw [← hx, setAll_get_other h fun e he => (hc e he).symm]

theorem setAll_prefix {L : List (List Key × Py α)} (hL : PathsApart (L.map (·.1))) {d d' : Py α}
    (h : setAll L d = .ok d') {ks js : List Key} {v : Py α} (hm : (ks, v) ∈ L) (h1 : js <+: ks) (h2 : js ≠ ks) :
    ∃ e, getNested js d' = .ok (.dict e) := by
  have hg := setAll_get hL h hm
  obtain ⟨r, rfl⟩ := h1
  rw [getNested_append] at hg
  cases hj : getNested js d' with
  | error e => rw [hj] at hg; simp at hg
  | ok w =>
    rw [hj] at hg
    simp only at hg
    cases r with
    | nil => simp at h2
    | cons k r =>
      cases w with
      | dict e => exact ⟨e, rfl⟩
      | atom a => simp [getNested] at hg
      | list l => simp [getNested] at hg

/-- `set_nested` never fails while assigning paths of which none is a prefix of another. -/
theorem setAll_ok {L : List (List Key × Py α)} (hL : PathsApart (L.map (·.1))) (hne : ∀ e ∈ L, e.1 ≠ [])
    {d : Py α} (hd : ∀ e ∈ L, ∀ js, js <+: e.1 → js ≠ e.1 →
      (∃ x, getNested js d = .ok (.dict x)) ∨ getNested js d = .error .keyError) :
    ∃ d', setAll L d = .ok d' := by
  induction L generalizing d with
  | nil => exact ⟨d, rfl⟩
  | cons e L ih =>
    obtain ⟨ks, v⟩ := e
    have hp := List.pairwise_cons.1 hL
    obtain ⟨d1, hd1⟩ := setNested_ok (hne (ks, v) (by simp)) v d (hd (ks, v) (by simp))
    have := ih hp.2 (fun e he => hne e (List.mem_cons_of_mem _ he)) (d := d1) ?_
    · obtain ⟨d', hd'⟩ := this
      exact ⟨d', by simp [setAll, hd1, hd']⟩
    · intro e he js h1 h2
      have hap := hp.1 e.1 (List.mem_map.2 ⟨e, he, rfl⟩)
      by_cases hjk : js <+: ks
      · by_cases hjk' : js = ks
        · subst hjk'; exact absurd h1 hap.1
        · exact Or.inl (setNested_get_prefix hd1 hjk hjk')
      · have hkj : ¬ ks <+: js := fun h => hap.1 (h.trans h1)
        rw [setNested_get_other hd1 hkj hjk]
        exact hd e (List.mem_cons_of_mem _ he) js h1 h2

/-! ## `parse_params` -/

/-- The parser and the parsed value of one parameter definition. -/
def parseLeaf (B : Builtins) (user : Val) (leaf : List Key × Val) : Except Err (Parser × Val) :=
  match Parser.create leaf.2 with
  | .error e => .error e
  | .ok p => match p.get B user leaf.1 with
    | .error e => .error e
    | .ok v => .ok (p, v)

theorem parseSteps_spec {B : Builtins} {user : Val} {L : List (List Key × Val)} {st st' : Val × Py Parser}
    (h : parseSteps B user L st = .ok st') :
    ∃ R : List (Parser × Val), List.Forall₂ (fun leaf r => parseLeaf B user leaf = .ok r) L R ∧
      setAll (List.zipWith (fun leaf r => (leaf.1, r.2)) L R) st.1 = .ok st'.1 ∧
      setAll (List.zipWith (fun leaf r => (leaf.1, Py.atom r.1)) L R) st.2 = .ok st'.2 := by
  induction L generalizing st with
  | nil => simp only [parseSteps, Except.ok.injEq] at h; exact ⟨[], .nil, by simp [setAll, h], by simp [setAll, h]⟩
  | cons leaf L ih =>
    simp only [parseSteps] at h
    split at h
    · simp at h
    · next st1 hst1 =>
      obtain ⟨R, h1, h2, h3⟩ := ih h
      unfold parseStep at hst1
      split at hst1
      · simp at hst1
      · next p hp =>
        split at hst1
        · simp at hst1
        · next tree ht =>
          split at hst1
          · simp at hst1
          · next v hv =>
            split at hst1
            · simp at hst1
            · next parsed hpd =>
              simp only [Except.ok.injEq] at hst1
              subst hst1
              refine ⟨(p, v) :: R, .cons (by simp [parseLeaf, hp, hv]) h1, ?_, ?_⟩
              · simpa [setAll, hpd] using h2
              · simpa [setAll, ht] using h3

theorem forall₂_mem_left {β γ : Type} {P : β → γ → Prop} {L : List β} {R : List γ} (h : List.Forall₂ P L R)
    {a : β} (ha : a ∈ L) : ∃ b, (a, b) ∈ L.zip R ∧ P a b := by
  induction h with
  | nil => simp at ha
  | cons hd _ ih =>
    rcases List.mem_cons.1 ha with rfl | ha
    · exact ⟨_, by simp, hd⟩
    · obtain ⟨b, hb, hP⟩ := ih ha
      exact ⟨b, by simp [hb], hP⟩

theorem map_fst_zipWith {β γ δ ε : Type} {P : β × δ → γ → Prop} {L : List (β × δ)} {R : List γ}
    (h : List.Forall₂ P L R) (f : γ → ε) :
    (List.zipWith (fun leaf r => (leaf.1, f r)) L R).map (·.1) = L.map (·.1) := by
  induction h with
  | nil => rfl
  | cons _ _ ih => simp [ih]

theorem mem_zipWith {β γ δ ε : Type} {L : List (β × δ)} {R : List γ} {a : β × δ} {b : γ} (h : (a, b) ∈ L.zip R)
    (f : γ → ε) : (a.1, f b) ∈ List.zipWith (fun leaf r => (leaf.1, f r)) L R := by
  induction L generalizing R with
  | nil => simp at h
  | cons x L ih =>
    cases R with
    | nil => simp at h
    | cons y R =>
      simp only [List.zip_cons_cons, List.mem_cons] at h
      rcases h with h | h
      · cases h; simp
      · simp [ih h]

/-- Well-formed default configuration: no dictionary has a key twice. -/
structure DefaultOk (default : List (Key × Val)) : Prop where
  nodup : (Dict.keys default).Nodup
  wf : Py.WFDict default

section
variable {B : Builtins} {default : List (Key × Val)} {user parsed : Val} {tree : Py Parser}

theorem DefaultOk.apart (hD : DefaultOk default) : PathsApart ((paramDefs default).map (·.1)) :=
  pathsApart_leaves hD.nodup hD.wf

theorem DefaultOk.path_ne (hD : DefaultOk default) {ks : List Key} {node : Val} (h : (ks, node) ∈ paramDefs default) :
    ks ≠ [] := by
  obtain ⟨rel, hne, he, -⟩ := (mem_leavesDict _ default hD.nodup hD.wf _ _ _).1 h
  simpa [he] using hne

/-- What `parse_params` stores at each parameter path. -/
theorem parseParams_at (hD : DefaultOk default) (h : parseParams B default user = .ok (parsed, tree))
    {ks : List Key} {node : Val} (hm : (ks, node) ∈ paramDefs default) :
    ∃ p v, Parser.create node = .ok p ∧ p.get B user ks = .ok v ∧ getNested ks parsed = .ok v ∧
      getNested ks tree = .ok (.atom p) := by
  obtain ⟨R, h1, h2, h3⟩ := parseSteps_spec h
  obtain ⟨⟨p, v⟩, hz, hl⟩ := forall₂_mem_left h1 hm
  have e1 := setAll_get (by rw [map_fst_zipWith h1 (fun r => r.2)]; exact hD.apart) h2
    (mem_zipWith hz fun r => r.2)
  have e2 := setAll_get (by rw [map_fst_zipWith h1 (fun r => Py.atom r.1)]; exact hD.apart) h3
    (mem_zipWith hz fun r => Py.atom r.1)
  simp only at e1 e2
  unfold parseLeaf at hl
  split at hl
  · simp at hl
  · next p' hp' =>
    split at hl
    · simp at hl
    · next v' hv' =>
      simp only [Except.ok.injEq, Prod.mk.injEq] at hl
      obtain ⟨rfl, rfl⟩ := hl
      exact ⟨p', v', hp', hv', e1, e2⟩

theorem mem_zipWith_fst {β γ δ ε : Type} {L : List (β × δ)} {R : List γ} {f : γ → ε} {x : β × ε}
    (h : x ∈ List.zipWith (fun leaf r => (leaf.1, f r)) L R) : ∃ a ∈ L, a.1 = x.1 := by
  induction L generalizing R with
  | nil => simp at h
  | cons a L ih =>
    cases R with
    | nil => simp at h
    | cons y R =>
      simp only [List.zipWith_cons_cons, List.mem_cons] at h
      rcases h with rfl | h
      · exact ⟨a, by simp, rfl⟩
      · obtain ⟨b, hb, he⟩ := ih h
        exact ⟨b, by simp [hb], he⟩

/-- The result has no other paths. -/
theorem parseParams_only (h : parseParams B default user = .ok (parsed, tree)) {js : List Key} {x : Val}
    (hne : js ≠ []) (hx : getNested js parsed = .ok x) :
    ∃ leaf ∈ paramDefs default, js <+: leaf.1 ∨ leaf.1 <+: js := by
  obtain ⟨R, h1, h2, h3⟩ := parseSteps_spec h
  rcases setAll_only h2 hx with ⟨e, he, hp⟩ | hx
  · obtain ⟨a, ha, hae⟩ := mem_zipWith_fst he
    exact ⟨a, ha, hae ▸ hp⟩
  · rw [getNested_empty hne] at hx; simp at hx

/-- Sections (proper prefixes of parameter paths) are dictionaries. -/
theorem parseParams_section (hD : DefaultOk default) (h : parseParams B default user = .ok (parsed, tree))
    {ks js : List Key} {node : Val} (hm : (ks, node) ∈ paramDefs default) (h1 : js <+: ks) (h2 : js ≠ ks) :
    ∃ e, getNested js parsed = .ok (.dict e) := by
  obtain ⟨R, hR, hp, -⟩ := parseSteps_spec h
  obtain ⟨⟨p, v⟩, hz, hl⟩ := forall₂_mem_left hR hm
  exact setAll_prefix (by rw [map_fst_zipWith hR (fun r => r.2)]; exact hD.apart) hp
    (mem_zipWith hz fun r => r.2) h1 h2

/-- The same for the parser tree. -/
theorem parseParams_tree_section (hD : DefaultOk default) (h : parseParams B default user = .ok (parsed, tree))
    {ks js : List Key} {node : Val} (hm : (ks, node) ∈ paramDefs default) (h1 : js <+: ks) (h2 : js ≠ ks) :
    ∃ e, getNested js tree = .ok (.dict e) := by
  obtain ⟨R, hR, -, hp⟩ := parseSteps_spec h
  obtain ⟨⟨p, v⟩, hz, hl⟩ := forall₂_mem_left hR hm
  exact setAll_prefix (by rw [map_fst_zipWith hR (fun r => Py.atom r.1)]; exact hD.apart) hp
    (mem_zipWith hz fun r => Py.atom r.1) h1 h2

theorem parseParams_tree_only (h : parseParams B default user = .ok (parsed, tree)) {js : List Key} {x : Py Parser}
    (hne : js ≠ []) (hx : getNested js tree = .ok x) :
    ∃ leaf ∈ paramDefs default, js <+: leaf.1 ∨ leaf.1 <+: js := by
  obtain ⟨R, h1, h2, h3⟩ := parseSteps_spec h
  rcases setAll_only h3 hx with ⟨e, he, hp⟩ | hx
  · obtain ⟨a, ha, hae⟩ := mem_zipWith_fst he
    exact ⟨a, ha, hae ▸ hp⟩
  · rw [getNested_empty hne] at hx; simp at hx

/-- `parse_params` succeeds when every parameter does. -/
theorem parseParams_ok (hD : DefaultOk default)
    (h : ∀ leaf ∈ paramDefs default, ∃ r, parseLeaf B user leaf = .ok r) :
    ∃ r, parseParams B default user = .ok r := by
  have hR : ∃ R : List (Parser × Val), List.Forall₂ (fun leaf r => parseLeaf B user leaf = .ok r) (paramDefs default) R := by
    generalize paramDefs default = L at h
    induction L with
    | nil => exact ⟨[], .nil⟩
    | cons a L ih =>
      obtain ⟨r, hr⟩ := h a (by simp)
      obtain ⟨R, hR⟩ := ih fun l hl => h l (by simp [hl])
      exact ⟨r :: R, .cons hr hR⟩
  obtain ⟨R, hR⟩ := hR
  have key : ∀ {γ : Type} (f : Parser × Val → Py γ), ∃ d', setAll (List.zipWith (fun leaf r => (leaf.1, f r)) (paramDefs default) R)
      (.dict []) = .ok d' := by
    intro γ f
    refine setAll_ok (by rw [map_fst_zipWith hR f]; exact hD.apart) ?_ ?_
    · intro e he
      obtain ⟨a, ha, hae⟩ := mem_zipWith_fst he
      rw [← hae]; exact hD.path_ne ha
    · intro e _ js _ _
      by_cases hj : js = []
      · exact Or.inl ⟨[], by simp [hj]⟩
      · exact Or.inr (getNested_empty hj)
  obtain ⟨d1, hd1⟩ := key fun r => r.2
  obtain ⟨d2, hd2⟩ := key fun r => Py.atom r.1
  refine ⟨(d1, d2), ?_⟩
  have main : ∀ (L : List (List Key × Val)) (R : List (Parser × Val)) (st : Val × Py Parser),
      List.Forall₂ (fun leaf r => parseLeaf B user leaf = .ok r) L R →
      setAll (List.zipWith (fun leaf r => (leaf.1, r.2)) L R) st.1 = .ok d1 →
      setAll (List.zipWith (fun leaf r => (leaf.1, Py.atom r.1)) L R) st.2 = .ok d2 →
      parseSteps B user L st = .ok (d1, d2) := by
    intro L R st hF
    induction hF generalizing st with
    | nil =>
      intro a b
      simp only [List.zipWith_nil_left, setAll, Except.ok.injEq] at a b
      simp [parseSteps, ← a, ← b]
    | @cons leaf r L R hl _ ih =>
      intro a b
      obtain ⟨p, v⟩ := r
      simp only [List.zipWith_cons_cons, setAll] at a b
      unfold parseLeaf at hl
      split at hl
      · simp at hl
      · next p' hp' =>
        split at hl
        · simp at hl
        · next v' hv' =>
          simp only [Except.ok.injEq, Prod.mk.injEq] at hl
          obtain ⟨rfl, rfl⟩ := hl
          split at a
          · simp at a
          · next x hx =>
            split at b
            · simp at b
            · next y hy =>
              simp only [parseSteps, parseStep, hp', hy, hv', hx]
              exact ih (x, y) a b
  exact main _ R _ hR hd1 hd2

/-- `parse_params` only looks at the user's values at the parameter paths. -/
theorem parseSteps_congr {user' : Val} {L : List (List Key × Val)} {st : Val × Py Parser}
    (h : ∀ leaf ∈ L, ∀ p, Parser.create leaf.2 = .ok p → p.get B user leaf.1 = p.get B user' leaf.1) :
    parseSteps B user L st = parseSteps B user' L st := by
  induction L generalizing st with
  | nil => rfl
  | cons leaf L ih =>
    have hs : parseStep B user st leaf = parseStep B user' st leaf := by
      unfold parseStep
      cases hp : Parser.create leaf.2 with
      | error e => rfl
      | ok p => simp only [h leaf (by simp) p hp]
    simp only [parseSteps, hs]
    split
    · rfl
    · exact ih fun l hl => h l (by simp [hl])

end

end Mimosa
