import Verif.Lib.Flatten

/-!
# C07: nested dictionary access

`set_nested`, `get_nested` and `flatten` of `mimosa/common/config/utils/nested_dict.py`, for every nested
dictionary, path and value.
-/

namespace Mimosa
variable {α : Type}

/-- After `set_nested(d, keys, v)`, `get_nested(d, keys)` is `v`. -/
theorem C07_get_after_set {ks : List Key} {v d d' : Py α} (h : setNested ks v d = .ok d') :
    getNested ks d' = .ok v := setNested_get h

/-- … and below `keys` the dictionary looks like `v`. -/
theorem C07_get_below_set {ks js : List Key} {v d d' : Py α} (h : setNested ks v d = .ok d') :
    getNested (ks ++ js) d' = getNested js v := by
  rw [getNested_append, setNested_get h]

/-- … and every path that neither extends `keys` nor is a prefix of it is unchanged (including: absent paths
stay absent, with the same error). -/
theorem C07_get_other {ks js : List Key} {v d d' : Py α} (h : setNested ks v d = .ok d')
    (h1 : ¬ ks <+: js) (h2 : ¬ js <+: ks) : getNested js d' = getNested js d := setNested_get_other h h1 h2

/-- … and every proper prefix of `keys` is a dictionary afterwards. -/
theorem C07_prefix_is_dict {ks js : List Key} {v d d' : Py α} (h : setNested ks v d = .ok d')
    (h1 : js <+: ks) (h2 : js ≠ ks) : ∃ e, getNested js d' = .ok (.dict e) := setNested_get_prefix h h1 h2

/-- `set_nested` succeeds exactly when there is at least one key and no proper prefix of the path holds
something that is not a dictionary. -/
theorem C07_set_succeeds_iff {ks : List Key} {v d : Py α} :
    (∃ d', setNested ks v d = .ok d') ↔
      ks ≠ [] ∧ ∀ js, js <+: ks → js ≠ ks → ∀ x, getNested js d = .ok x → x.isDict = true := by
  constructor
  · rintro ⟨d', h⟩
    refine ⟨by rintro rfl; simp [setNested] at h, ?_⟩
    intro js h1 h2 x hx
    induction ks generalizing d d' js with
    | nil => simp [setNested] at h
    | cons k ks ih =>
      cases d with
      | atom a => cases ks <;> simp [setNested] at h
      | list l => cases ks <;> simp [setNested] at h
      | dict e =>
        cases js with
        | nil =>
          simp only [getNested, Except.ok.injEq] at hx
          subst hx; rfl
        | cons j js =>
          obtain ⟨rfl, h1'⟩ := List.cons_prefix_cons.1 h1
          cases ks with
          | nil => exact absurd (by rw [List.prefix_nil.1 h1']) h2
          | cons k' ks =>
            simp only [setNested] at h
            split at h
            · next sub hs =>
              simp only [getNested] at hx
              cases hl : Dict.lookup j e with
              | none => simp [hl] at hx
              | some u =>
                simp only [hl, Option.getD_some] at hx hs
                exact ih sub hs js h1' (by simpa using h2) hx
            · simp at h
  · rintro ⟨hne, h⟩
    refine setNested_ok hne v d ?_
    intro js h1 h2
    cases hg : getNested js d with
    | ok x =>
      have := h js h1 h2 x hg
      cases x with
      | dict e => exact Or.inl ⟨e, rfl⟩
      | atom a => simp [Py.isDict] at this
      | list l => simp [Py.isDict] at this
    | error e =>
      right
      have aux : ∀ (js : List Key) (d : Py α), (∀ is, is <+: js → is ≠ js → ∀ x, getNested is d = .ok x → x.isDict = true) →
          ∀ e, getNested js d = .error e → e = .keyError := by
        intro js
        induction js with
        | nil => intro d _ e he; simp [getNested] at he
        | cons j js ih =>
          intro d hd e he
          have h0 := hd [] List.nil_prefix (by simp) d rfl
          cases d with
          | atom a => simp [Py.isDict] at h0
          | list l => simp [Py.isDict] at h0
          | dict d =>
            simp only [getNested] at he
            cases hl : Dict.lookup j d with
            | none => simp only [hl, Except.error.injEq] at he; exact he.symm
            | some u =>
              simp only [hl] at he
              refine ih u ?_ e he
              intro is i1 i2 x hx
              refine hd (j :: is) (List.cons_prefix_cons.2 ⟨rfl, i1⟩) (by simpa using i2) x ?_
              simp only [getNested, hl]; exact hx
      rw [aux js d (fun is i1 i2 x hx => h is (i1.trans h1) (by
        rintro rfl
        exact i2 (i1.eq_of_length_le h1.length_le)) x hx) e hg]

/-- The leaves of a dictionary, as a specification: the paths of at least one key that hold a value which is
not a dictionary. -/
def IsPlainLeaf (d : List (Key × Py α)) (ks : List Key) (w : Py α) : Prop :=
  ks ≠ [] ∧ getNested ks (.dict d) = .ok w ∧ w.isDict = false

theorem mem_plain_leaves {d : List (Key × Py α)} (hwf : (Py.dict d).WF) {ks : List Key} {w : Py α} :
    (ks, w) ∈ leavesDict (fun _ w => !w.isDict) [] d ↔ IsPlainLeaf d ks w := by
  have hl : ∀ (ks : List Key) (x : Py α), isLeaf (fun _ w => !w.isDict) ks x = !x.isDict := by
    intro ks x; cases x <;> rfl
  rw [mem_leavesDict _ d hwf.1 hwf.2]
  constructor
  · rintro ⟨rel, hne, rfl, hg, hlf, -⟩
    rw [hl] at hlf
    exact ⟨by simpa using hne, by simpa using hg, by simpa using hlf⟩
  · rintro ⟨hne, hg, hlf⟩
    refine ⟨ks, hne, by simp, hg, by rw [hl, hlf]; rfl, ?_⟩
    intro js h1 h2 h3 x hx
    rw [hl]
    obtain ⟨r, rfl⟩ := h1
    rw [getNested_append, hx] at hg
    cases r with
    | nil => simp at h2
    | cons k r =>
      cases x with
      | atom a => simp [getNested] at hg
      | list l => simp [getNested] at hg
      | dict e => rfl

theorem flattenCollect_spec {L : List (List Key × Py α)} {acc f : List (Key × Py α)} (h : flattenCollect L acc = .ok f) :
    (∀ e ∈ L, ∃ n, joinKeys e.1 = .ok n ∧ (Dict.lookup (.str n) f).isSome) ∧
    (∀ k w, Dict.lookup k acc = some w → (Dict.lookup k f).isSome) ∧
    (∀ k w, Dict.lookup k f = some w →
      (∃ e ∈ L, ∃ n, joinKeys e.1 = .ok n ∧ k = .str n ∧ w = e.2) ∨ Dict.lookup k acc = some w) := by
  induction L generalizing acc with
  | nil =>
    simp only [flattenCollect, Except.ok.injEq] at h
    subst h
    exact ⟨by simp, fun k w h => by simp [h], fun k w h => Or.inr h⟩
  | cons e L ih =>
    obtain ⟨ks, w⟩ := e
    simp only [flattenCollect] at h
    split at h
    · simp at h
    · next n hn =>
      obtain ⟨i1, i2, i3⟩ := ih h
      refine ⟨?_, ?_, ?_⟩
      · intro e he
        rcases List.mem_cons.1 he with rfl | he
        · exact ⟨n, hn, i2 _ w (Dict.lookup_insert_self _ _ _)⟩
        · exact i1 e he
      · intro k x hx
        by_cases hk : Key.str n = k
        · subst hk; exact i2 _ w (Dict.lookup_insert_self _ _ _)
        · exact i2 k x (by rw [Dict.lookup_insert_ne hk]; exact hx)
      · intro k x hx
        rcases i3 k x hx with ⟨e, he, n', h1, h2, h3⟩ | hx'
        · exact Or.inl ⟨e, by simp [he], n', h1, h2, h3⟩
        · by_cases hk : Key.str n = k
          · subst hk
            rw [Dict.lookup_insert_self, Option.some.injEq] at hx'
            exact Or.inl ⟨(ks, w), by simp, n, hn, rfl, hx'.symm⟩
          · rw [Dict.lookup_insert_ne hk] at hx'
            exact Or.inr hx'

/-- Every entry of `flatten(d)` is a leaf of `d` under its joined name. -/
theorem C07_flatten_sound {d f : List (Key × Py α)} (hwf : (Py.dict d).WF) (h : flatten (.dict d) = .ok f) {k : Key} {w : Py α}
    (hk : Dict.lookup k f = some w) :
    ∃ ks n, IsPlainLeaf d ks w ∧ joinKeys ks = .ok n ∧ k = .str n := by
  simp only [flatten, leaves] at h
  rcases (flattenCollect_spec h).2.2 k w hk with ⟨e, he, n, h1, h2, h3⟩ | h'
  · obtain ⟨ks, x⟩ := e
    subst h3
    exact ⟨ks, n, (mem_plain_leaves hwf).1 he, h1, h2⟩
  · simp [Dict.lookup] at h'

/-- Every leaf of `d` has its joined name in `flatten(d)`. -/
theorem C07_flatten_complete {d f : List (Key × Py α)} (hwf : (Py.dict d).WF) (h : flatten (.dict d) = .ok f) {ks : List Key}
    {w : Py α} (hl : IsPlainLeaf d ks w) : ∃ n, joinKeys ks = .ok n ∧ (Dict.lookup (.str n) f).isSome := by
  simp only [flatten, leaves] at h
  exact (flattenCollect_spec h).1 (ks, w) ((mem_plain_leaves hwf).2 hl)

/-- If no key contains a dash, `flatten(d)` maps the joined name of `ks` to `w` exactly when `w` is the leaf of
`d` at `ks`. -/
theorem C07_flatten_exact {d f : List (Key × Py α)} (hwf : (Py.dict d).WF) (h : flatten (.dict d) = .ok f)
    (hdash : ∀ ks w, IsPlainLeaf d ks w → ∀ k ∈ ks, NoDash k) {ks : List Key} {n : String} (hn : joinKeys ks = .ok n)
    (hne : ks ≠ []) (hks : ∀ k ∈ ks, NoDash k) (w : Py α) :
    Dict.lookup (.str n) f = some w ↔ IsPlainLeaf d ks w := by
  constructor
  · intro hf
    obtain ⟨js, m, hl, hm, hk⟩ := C07_flatten_sound hwf h hf
    simp only [Key.str.injEq] at hk
    subst hk
    rwa [joinKeys_inj hne hl.1 hks (hdash js w hl) hn hm]
  · intro hl
    obtain ⟨m, hm, hs⟩ := C07_flatten_complete hwf h hl
    rw [hn, Except.ok.injEq] at hm
    subst hm
    obtain ⟨x, hx⟩ := Option.isSome_iff_exists.1 hs
    obtain ⟨js, m, hl', hm, hk⟩ := C07_flatten_sound hwf h hx
    simp only [Key.str.injEq] at hk
    subst hk
    have e := joinKeys_inj hne hl'.1 hks (hdash js x hl') hn hm
    subst e
    have := hl.2.1.symm.trans hl'.2.1
    simp only [Except.ok.injEq] at this
    rw [hx, this]

/-- The traversal calls the leaf function on each leaf exactly once. -/
theorem C07_each_leaf_once {d : List (Key × Py α)} (hwf : (Py.dict d).WF) :
    ((leavesDict (fun _ w => !w.isDict) [] d).map (·.1)).Nodup := leavesDict_nodup _ d hwf.1 hwf.2 []

/-! ## Examples -/

/-- `set_nested` creates the missing dictionaries; the sibling keeps its value. -/
example : ∃ d' : Val, setNested [.str "a", .str "b"] (.atom (.int 5)) (.dict [(.str "c", .atom (.int 1))]) = .ok d' ∧
    getNested [.str "a", .str "b"] d' = .ok (.atom (.int 5)) ∧ getNested [.str "c"] d' = .ok (.atom (.int 1)) :=
  ⟨_, rfl, rfl, rfl⟩

/-- `set_nested` fails on a scalar in the way. -/
example : setNested [.str "a", .str "b"] (.atom (.int 5)) (.dict [(.str "a", .atom (.int 1))]) =
    (.error .typeError : Except Err Val) := rfl

/-- A concrete dictionary meets the hypotheses of the flatten theorems. -/
example : flatten (.dict [(.str "a", .dict [(.str "b", .atom 1), (.str "c", .list [])]), (.str "d", .atom 2)] : Py ℕ) =
    .ok [(.str "a - b", .atom 1), (.str "a - c", .list []), (.str "d", .atom 2)] := rfl
example : (Py.dict [(.str "a", .dict [(.str "b", .atom 1), (.str "c", .list [])]), (.str "d", .atom 2)] : Py ℕ).WF := by
  simp [Py.WF, Py.WFDict, Py.WFList, Dict.keys]

/-- Joined names are ambiguous when a key contains `" - "`: one of the two leaves is lost. -/
theorem C07_flatten_collision :
    flatten (.dict [(.str "a", .dict [(.str "b", .atom 1)]), (.str "a - b", .atom 2)] : Py ℕ) =
      .ok [(.str "a - b", .atom 2)] := rfl

end Mimosa
