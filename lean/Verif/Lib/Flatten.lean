import Verif.Lib.ConfigFacts

/-! # Facts about `flatten` (nested_dict.py:14-33) and `" - ".join` -/

namespace Mimosa

/-- The criterion of parseconfig.py:52-62 on a dictionary: it is a leaf iff its parser is of type `dict` or
`datasource`. -/
def flatCrit (tree : Py Parser) (keys : List Key) (_ : Val) : Bool :=
  match parserType tree keys with
  | .ok ty => decide (ty = some "dict" ∨ ty = some "datasource")
  | .error _ => false

/-- The leaves `flatten` finds. -/
def flatLeaves (tree : Py Parser) (d : List (Key × Val)) : List (List Key × Val) := leavesDict (flatCrit tree) [] d

theorem forall₂_append {β γ : Type} {P : β → γ → Prop} {L L' : List β} {R R' : List γ} (h : List.Forall₂ P L R)
    (h' : List.Forall₂ P L' R') : List.Forall₂ P (L ++ L') (R ++ R') := by
  induction h with
  | nil => exact h'
  | cons hd _ ih => exact .cons hd ih

theorem forall₂_mem_right {β γ : Type} {P : β → γ → Prop} {L : List β} {R : List γ} (h : List.Forall₂ P L R)
    {b : γ} (hb : b ∈ R) : ∃ a, (a, b) ∈ L.zip R ∧ P a b := by
  induction h with
  | nil => simp at hb
  | cons hd _ ih =>
    rcases List.mem_cons.1 hb with rfl | hb
    · exact ⟨_, by simp, hd⟩
    · obtain ⟨a, ha, hP⟩ := ih hb
      exact ⟨a, by simp [ha], hP⟩

mutual
theorem flattenNode_spec (tree : Py Parser) : ∀ (v : Val) (keys : List Key) (names : List String),
    flattenNode tree keys v = .ok names →
    List.Forall₂ (fun leaf n => joinKeys leaf.1 = .ok n ∧ ∃ ty, parserType tree leaf.1 = .ok ty)
      (leavesNode (flatCrit tree) keys v) names
  | .atom a, keys, names, h => by
    simp only [flattenNode] at h
    split at h
    · simp at h
    · next ty hty =>
      split at h
      · simp at h
      · next s hs =>
        simp only [Except.ok.injEq] at h
        subst h
        exact .cons ⟨hs, ty, hty⟩ .nil
  | .list l, keys, names, h => by
    simp only [flattenNode] at h
    split at h
    · simp at h
    · next ty hty =>
      split at h
      · simp at h
      · next s hs =>
        simp only [Except.ok.injEq] at h
        subst h
        exact .cons ⟨hs, ty, hty⟩ .nil
  | .dict d, keys, names, h => by
    simp only [flattenNode] at h
    split at h
    · simp at h
    · next ty hty =>
      have hc : ∀ v, flatCrit tree keys v = decide (ty = some "dict" ∨ ty = some "datasource") := by
        intro v; simp only [flatCrit, hty]
      split at h
      · next ht =>
        split at h
        · simp at h
        · next s hs =>
          simp only [Except.ok.injEq] at h
          subst h
          simp only [leavesNode, hc, decide_eq_true ht, if_true]
          exact .cons ⟨hs, ty, hty⟩ .nil
      · next ht =>
        simp only [leavesNode, hc, decide_eq_false ht]
        exact flattenDict_spec tree d keys names h
theorem flattenDict_spec (tree : Py Parser) : ∀ (d : List (Key × Val)) (curr : List Key) (names : List String),
    flattenDict tree curr d = .ok names →
    List.Forall₂ (fun leaf n => joinKeys leaf.1 = .ok n ∧ ∃ ty, parserType tree leaf.1 = .ok ty)
      (leavesDict (flatCrit tree) curr d) names
  | [], curr, names, h => by
    simp only [flattenDict, Except.ok.injEq] at h
    subst h
    exact .nil
  | (k, v) :: d, curr, names, h => by
    simp only [flattenDict] at h
    split at h
    · simp at h
    · next a ha =>
      split at h
      · simp at h
      · next b hb =>
        simp only [Except.ok.injEq] at h
        subst h
        exact forall₂_append (flattenNode_spec tree v _ a ha) (flattenDict_spec tree d curr b hb)
end

mutual
/-- Every node visited by `flatten` has a parser type (no walk through a parser object). -/
theorem flattenNode_visited (tree : Py Parser) : ∀ (v : Val) (_ : v.WF) (keys : List Key) (names : List String),
    flattenNode tree keys v = .ok names → ∀ rel w, getNested rel v = .ok w →
    (∀ js, js <+: rel → js ≠ rel → ∀ x, getNested js v = .ok x → isLeaf (flatCrit tree) (keys ++ js) x = false) →
    ∃ ty, parserType tree (keys ++ rel) = .ok ty
  | .atom a, _, keys, names, h, rel, w, hw, _ => by
    cases rel with
    | nil =>
      simp only [flattenNode] at h
      split at h
      · simp at h
      · next ty hty => exact ⟨ty, by simpa using hty⟩
    | cons k rel => simp [getNested] at hw
  | .list l, _, keys, names, h, rel, w, hw, _ => by
    cases rel with
    | nil =>
      simp only [flattenNode] at h
      split at h
      · simp at h
      · next ty hty => exact ⟨ty, by simpa using hty⟩
    | cons k rel => simp [getNested] at hw
  | .dict d, hwf, keys, names, h, rel, w, hw, hv => by
    simp only [flattenNode] at h
    split at h
    · simp at h
    · next ty hty =>
      cases rel with
      | nil => exact ⟨ty, by simpa using hty⟩
      | cons k rel =>
        have h0 := hv [] List.nil_prefix (by simp) (.dict d) rfl
        have hc : ∀ v, flatCrit tree keys v = decide (ty = some "dict" ∨ ty = some "datasource") := by
          intro v; simp only [flatCrit, hty]
        simp only [isLeaf, List.append_nil, hc, decide_eq_false_iff_not] at h0
        rw [if_neg h0] at h
        exact flattenDict_visited tree d hwf.1 hwf.2 keys names h (k :: rel) (by simp) w hw
          fun js h1 h2 h3 x hx => hv js h1 h2 x hx
theorem flattenDict_visited (tree : Py Parser) : ∀ (d : List (Key × Val)) (_ : (Dict.keys d).Nodup)
    (_ : Py.WFDict d) (curr : List Key) (names : List String),
    flattenDict tree curr d = .ok names → ∀ rel, rel ≠ [] → ∀ w, getNested rel (.dict d) = .ok w →
    (∀ js, js <+: rel → js ≠ rel → js ≠ [] → ∀ x, getNested js (.dict d) = .ok x →
      isLeaf (flatCrit tree) (curr ++ js) x = false) →
    ∃ ty, parserType tree (curr ++ rel) = .ok ty
  | [], _, _, curr, names, h, rel, hne, w, hw, _ => by
    rw [getNested_empty hne] at hw
    simp at hw
  | (k, v) :: d, hnd, hwf, curr, names, h, rel, hne, w, hw, hv => by
    simp only [flattenDict] at h
    split at h
    · simp at h
    · next a ha =>
      split at h
      · simp at h
      · next b hb =>
        cases rel with
        | nil => exact absurd rfl hne
        | cons k' rel =>
          by_cases hk : k = k'
          · subst hk
            have e : ∀ js, getNested (k :: js) (.dict ((k, v) :: d)) = getNested js v := by
              intro js; simp [getNested, Dict.lookup]
            rw [e] at hw
            have := flattenNode_visited tree v hwf.1 _ a ha rel w hw ?_
            · simpa using this
            · intro js h1 h2 x hx
              have := hv (k :: js) (List.cons_prefix_cons.2 ⟨rfl, h1⟩) (by simpa using h2) (by simp) x (by rw [e]; exact hx)
              simpa using this
          · have e : ∀ js, getNested (k' :: js) (.dict ((k, v) :: d)) = getNested (k' :: js) (.dict d) := by
              intro js; simp [getNested, Dict.lookup, hk]
            rw [e] at hw
            refine flattenDict_visited tree d (List.nodup_cons.1 hnd).2 hwf.2 curr b hb (k' :: rel) (by simp) w hw ?_
            intro js h1 h2 h3 x hx
            cases js with
            | nil => exact absurd rfl h3
            | cons j js =>
              obtain ⟨rfl, -⟩ := List.cons_prefix_cons.1 h1
              exact hv (j :: js) h1 h2 h3 x (by rw [e]; exact hx)
end

mutual
/-- Conversely: if every node has a parser type and every leaf a name, `flatten` succeeds. -/
theorem flattenNode_ok (tree : Py Parser) : ∀ (v : Val) (_ : v.WF) (keys : List Key),
    (∀ rel w, getNested rel v = .ok w →
      (∀ js, js <+: rel → js ≠ rel → ∀ x, getNested js v = .ok x → isLeaf (flatCrit tree) (keys ++ js) x = false) →
      (∃ ty, parserType tree (keys ++ rel) = .ok ty) ∧
        (isLeaf (flatCrit tree) (keys ++ rel) w = true → ∃ s, joinKeys (keys ++ rel) = .ok s)) →
    ∃ names, flattenNode tree keys v = .ok names
  | .atom a, _, keys, h => by
    obtain ⟨⟨ty, hty⟩, hs⟩ := h [] _ rfl (fun js h1 h2 => absurd (List.prefix_nil.1 h1) h2)
    rw [List.append_nil] at hty hs
    obtain ⟨s, hs⟩ := hs rfl
    exact ⟨[s], by simp only [flattenNode, hty, hs]⟩
  | .list l, _, keys, h => by
    obtain ⟨⟨ty, hty⟩, hs⟩ := h [] _ rfl (fun js h1 h2 => absurd (List.prefix_nil.1 h1) h2)
    rw [List.append_nil] at hty hs
    obtain ⟨s, hs⟩ := hs rfl
    exact ⟨[s], by simp only [flattenNode, hty, hs]⟩
  | .dict d, hwf, keys, h => by
    obtain ⟨⟨ty, hty⟩, hs⟩ := h [] _ rfl (fun js h1 h2 => absurd (List.prefix_nil.1 h1) h2)
    rw [List.append_nil] at hty hs
    have hc : ∀ v, flatCrit tree keys v = decide (ty = some "dict" ∨ ty = some "datasource") := by
      intro v; simp only [flatCrit, hty]
    by_cases ht : ty = some "dict" ∨ ty = some "datasource"
    · obtain ⟨s, hs⟩ := hs (by simp only [isLeaf, hc, decide_eq_true ht])
      exact ⟨[s], by simp only [flattenNode, hty, hs, if_pos ht]⟩
    · obtain ⟨n, hn⟩ := flattenDict_ok tree d hwf.1 hwf.2 keys (by
        intro rel hne w hw hv
        refine h rel w hw ?_
        intro js h1 h2 x hx
        by_cases h3 : js = []
        · subst h3
          simp only [getNested, Except.ok.injEq] at hx
          subst hx
          simp only [isLeaf, List.append_nil, hc, decide_eq_false ht]
        · exact hv js h1 h2 h3 x hx)
      exact ⟨n, by simp only [flattenNode, hty, if_neg ht, hn]⟩
theorem flattenDict_ok (tree : Py Parser) : ∀ (d : List (Key × Val)) (_ : (Dict.keys d).Nodup)
    (_ : Py.WFDict d) (curr : List Key),
    (∀ rel, rel ≠ [] → ∀ w, getNested rel (.dict d) = .ok w →
      (∀ js, js <+: rel → js ≠ rel → js ≠ [] → ∀ x, getNested js (.dict d) = .ok x →
        isLeaf (flatCrit tree) (curr ++ js) x = false) →
      (∃ ty, parserType tree (curr ++ rel) = .ok ty) ∧
        (isLeaf (flatCrit tree) (curr ++ rel) w = true → ∃ s, joinKeys (curr ++ rel) = .ok s)) →
    ∃ names, flattenDict tree curr d = .ok names
  | [], _, _, curr, _ => ⟨[], rfl⟩
  | (k, v) :: d, hnd, hwf, curr, h => by
    have e : ∀ js, getNested (k :: js) (.dict ((k, v) :: d)) = getNested js v := by
      intro js; simp [getNested, Dict.lookup]
    obtain ⟨a, ha⟩ := flattenNode_ok tree v hwf.1 (curr ++ [k]) (by
      intro rel w hw hv
      have := h (k :: rel) (by simp) w (by rw [e]; exact hw) ?_
      · simpa using this
      · intro js h1 h2 h3 x hx
        cases js with
        | nil => exact absurd rfl h3
        | cons j js =>
          obtain ⟨rfl, h1'⟩ := List.cons_prefix_cons.1 h1
          have := hv js h1' (by simpa using h2) x (by rw [← e]; exact hx)
          simpa using this)
    have hk : k ∉ Dict.keys d := (List.nodup_cons.1 hnd).1
    obtain ⟨b, hb⟩ := flattenDict_ok tree d (List.nodup_cons.1 hnd).2 hwf.2 curr (by
      intro rel hne w hw hv
      cases rel with
      | nil => exact absurd rfl hne
      | cons k' rel =>
        have hkk : ¬ k = k' := by
          rintro rfl
          simp only [getNested, Dict.lookup_eq_none.2 hk] at hw
          simp at hw
        have e' : ∀ js, getNested (k' :: js) (.dict ((k, v) :: d)) = getNested (k' :: js) (.dict d) := by
          intro js; simp [getNested, Dict.lookup, hkk]
        refine h (k' :: rel) hne w (by rw [e']; exact hw) ?_
        intro js h1 h2 h3 x hx
        cases js with
        | nil => exact absurd rfl h3
        | cons j js =>
          obtain ⟨rfl, -⟩ := List.cons_prefix_cons.1 h1
          exact hv (j :: js) h1 h2 h3 x (by rw [← e']; exact hx))
    exact ⟨a ++ b, by simp only [flattenDict, ha, hb]⟩
end

/-- Every value that is a leaf is at or below a leaf that `flatten` reports. -/
theorem leaf_above {α : Type} {crit : List Key → Py α → Bool} {d : List (Key × Py α)} (hnd : (Dict.keys d).Nodup)
    (hwf : Py.WFDict d) {ks : List Key} {w : Py α} (hne : ks ≠ []) (hw : getNested ks (.dict d) = .ok w)
    (hl : isLeaf crit ks w = true) : ∃ js x, (js, x) ∈ leavesDict crit [] d ∧ js <+: ks := by
  by_cases h : ∃ js, js <+: ks ∧ js ≠ ks ∧ js ≠ [] ∧ ∃ x, getNested js (.dict d) = .ok x ∧ isLeaf crit js x = true
  · obtain ⟨js, h1, h2, h3, x, hx, hlx⟩ := h
    have hlt : js.length < ks.length := by
      rcases Nat.lt_or_ge js.length ks.length with h | h
      · exact h
      · exact absurd (h1.eq_of_length_le h) h2
    obtain ⟨js', x', hm, hp⟩ := leaf_above hnd hwf h3 hx hlx
    exact ⟨js', x', hm, hp.trans h1⟩
  · push Not at h
    refine ⟨ks, w, (mem_leavesDict crit d hnd hwf [] ks w).2 ⟨ks, hne, by simp, hw, hl, ?_⟩, List.prefix_refl ks⟩
    intro js h1 h2 h3 x hx
    have := h js h1 h2 h3 x hx
    simpa using this
termination_by ks.length

/-! ## `" - ".join` is injective on keys without `-` -/

/-- A string key without the character `-`. -/
def NoDash : Key → Prop
  | .str s => '-' ∉ s.toList
  | .int _ => False

instance : DecidablePred NoDash := fun k => by
  cases k <;> unfold NoDash <;> infer_instance

/-- The joined name as characters. -/
theorem joinKeys_cons {k : Key} {ks : List Key} (hne : ks ≠ []) {n : String} (h : joinKeys (k :: ks) = .ok n) :
    ∃ s m, k = .str s ∧ joinKeys ks = .ok m ∧ n.toList = s.toList ++ ' ' :: '-' :: ' ' :: m.toList := by
  cases ks with
  | nil => exact absurd rfl hne
  | cons k' ks =>
    cases k with
    | int i => simp [joinKeys] at h
    | str s =>
      simp only [joinKeys] at h
      split at h
      · next rest hr =>
        simp only [Except.ok.injEq] at h
        refine ⟨s, rest, rfl, hr, ?_⟩
        rw [← h]
        simp [String.toList_append]
      · simp at h

theorem joinKeys_single {k : Key} {n : String} (h : joinKeys [k] = .ok n) : k = .str n := by
  cases k with
  | int i => simp [joinKeys] at h
  | str s => simp only [joinKeys, Except.ok.injEq] at h; rw [h]

theorem append_dash_inj {a b x y : List Char} (ha : '-' ∉ a) (hb : '-' ∉ b)
    (h : a ++ ' ' :: '-' :: x = b ++ ' ' :: '-' :: y) : a = b ∧ x = y := by
  induction a generalizing b with
  | nil =>
    cases b with
    | nil => simpa using h
    | cons c b =>
      cases b with
      | nil => simp at h
      | cons c' b =>
        simp only [List.nil_append, List.cons_append, List.cons.injEq] at h
        obtain ⟨-, rfl, -⟩ := h
        simp at hb
  | cons c a ih =>
    cases b with
    | nil =>
      cases a with
      | nil => simp at h
      | cons c' a =>
        simp only [List.nil_append, List.cons_append, List.cons.injEq] at h
        obtain ⟨-, rfl, -⟩ := h
        simp at ha
    | cons c' b =>
      simp only [List.cons_append, List.cons.injEq] at h
      obtain ⟨rfl, h⟩ := h
      obtain ⟨rfl, rfl⟩ := ih (fun hc => ha (List.mem_cons_of_mem _ hc)) (fun hc => hb (List.mem_cons_of_mem _ hc)) h
      exact ⟨rfl, rfl⟩

theorem joinKeys_inj {ks js : List Key} (hks : ks ≠ []) (hjs : js ≠ []) (h1 : ∀ k ∈ ks, NoDash k)
    (h2 : ∀ k ∈ js, NoDash k) {n : String} (hk : joinKeys ks = .ok n) (hj : joinKeys js = .ok n) : ks = js := by
  induction ks generalizing js n with
  | nil => exact absurd rfl hks
  | cons k ks ih =>
    cases js with
    | nil => exact absurd rfl hjs
    | cons j js =>
      by_cases ek : ks = [] <;> by_cases ej : js = []
      · subst ek ej
        rw [joinKeys_single hk, joinKeys_single hj]
      · subst ek
        obtain ⟨s, m, rfl, hm, hn⟩ := joinKeys_cons ej hj
        have hk' := joinKeys_single hk
        have := h1 k (by simp)
        rw [hk'] at this
        simp only [NoDash, hn] at this
        simp at this
      · subst ej
        obtain ⟨s, m, rfl, hm, hn⟩ := joinKeys_cons ek hk
        have hj' := joinKeys_single hj
        have := h2 j (by simp)
        rw [hj'] at this
        simp only [NoDash, hn] at this
        simp at this
      · obtain ⟨s, m, rfl, hm, hn⟩ := joinKeys_cons ek hk
        obtain ⟨s', m', rfl, hm', hn'⟩ := joinKeys_cons ej hj
        have d1 : '-' ∉ s.toList := h1 (.str s) (by simp)
        have d2 : '-' ∉ s'.toList := h2 (.str s') (by simp)
        obtain ⟨e1, e2⟩ := append_dash_inj d1 d2 (hn.symm.trans hn')
        have e1' : s = s' := String.ext e1
        simp only [List.cons.injEq, true_and] at e2
        have e2' : m = m' := String.ext e2
        subst e1' e2'
        rw [ih ek ej (fun k hk => h1 k (by simp [hk])) (fun k hk => h2 k (by simp [hk])) hm hm']

end Mimosa
