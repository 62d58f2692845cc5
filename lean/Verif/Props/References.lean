import Verif.Config.Refs
import Verif.Props.ConfigStable
import Verif.Props.Nested

/-!
# C08: references between parameters are substituted
-/

namespace Mimosa
variable {uni : Char → Bool}

/-! ## Which references are found -/

theorem refChar_brace : refChar uni '{' = false ∧ refChar uni '}' = false := by
  constructor <;> simp [refChar, isWordChar]

/-- Specification: `m` is written in braces somewhere in `s`. -/
def Mentions (uni : Char → Bool) (s m : List Char) : Prop :=
  m ≠ [] ∧ (∀ c ∈ m, refChar uni c = true) ∧ ∃ pre post, s = pre ++ '{' :: (m ++ '}' :: post)

theorem findRefs_spec (s : List Char) :
    (∀ m, m ∈ findRefs uni none s ↔ Mentions uni s m) ∧
    (∀ acc, (∀ c ∈ acc, refChar uni c = true) → ∀ m, m ∈ findRefs uni (some acc) s ↔
      Mentions uni s m ∨ (m ≠ [] ∧ (∀ c ∈ m, refChar uni c = true) ∧ ∃ r post, s = r ++ '}' :: post ∧ m = acc.reverse ++ r)) := by
  induction s with
  | nil =>
    constructor
    · intro m
      simp only [findRefs, List.not_mem_nil, false_iff]
      rintro ⟨-, -, pre, post, h⟩
      simp at h
    · intro acc _ m
      simp only [findRefs, List.not_mem_nil, false_iff]
      rintro (⟨-, -, pre, post, h⟩ | ⟨-, -, r, post, h, -⟩) <;> simp at h
  | cons c s ih =>
    obtain ⟨ih1, ih2⟩ := ih
    -- mentions of `c :: s`
    have hment : ∀ m, Mentions uni (c :: s) m ↔
        Mentions uni s m ∨ (c = '{' ∧ m ≠ [] ∧ (∀ x ∈ m, refChar uni x = true) ∧ ∃ post, s = m ++ '}' :: post) := by
      intro m
      constructor
      · rintro ⟨h1, h2, pre, post, h⟩
        cases pre with
        | nil =>
          simp only [List.nil_append, List.cons.injEq] at h
          exact Or.inr ⟨h.1, h1, h2, post, h.2⟩
        | cons x pre =>
          simp only [List.cons_append, List.cons.injEq] at h
          exact Or.inl ⟨h1, h2, pre, post, h.2⟩
      · rintro (⟨h1, h2, pre, post, h⟩ | ⟨rfl, h1, h2, post, h⟩)
        · exact ⟨h1, h2, c :: pre, post, by simp [h]⟩
        · exact ⟨h1, h2, [], post, by simp [h]⟩
    have hopen : ∀ m, m ∈ findRefs uni (some []) s ↔
        Mentions uni s m ∨ (m ≠ [] ∧ (∀ x ∈ m, refChar uni x = true) ∧ ∃ post, s = m ++ '}' :: post) := by
      intro m
      rw [ih2 [] (by simp) m]
      refine or_congr Iff.rfl ⟨?_, ?_⟩
      · rintro ⟨h1, h2, r, post, h, rfl⟩
        exact ⟨h1, h2, post, by simpa using h⟩
      · rintro ⟨h1, h2, post, h⟩
        exact ⟨h1, h2, m, post, h, by simp⟩
    constructor
    · intro m
      simp only [findRefs]
      split
      · next hc => rw [hopen, hment]; simp [hc]
      · next hc => rw [ih1, hment]; simp [hc]
    · intro acc hacc m
      have hcont : ∀ r post, c :: s = r ++ '}' :: post →
          (c = '}' ∧ r = [] ∧ s = post) ∨ (∃ r', r = c :: r' ∧ s = r' ++ '}' :: post) := by
        intro r post h
        cases r with
        | nil => simp only [List.nil_append, List.cons.injEq] at h; exact Or.inl ⟨h.1, rfl, h.2⟩
        | cons x r =>
          simp only [List.cons_append, List.cons.injEq] at h
          exact Or.inr ⟨r, by rw [h.1], h.2⟩
      simp only [findRefs]
      split
      · next hc =>
        subst hc
        rw [hopen, hment]
        constructor
        · rintro (h | h)
          · exact Or.inl (Or.inl h)
          · exact Or.inl (Or.inr ⟨rfl, h⟩)
        · rintro ((h | ⟨-, h⟩) | ⟨h1, h2, r, post, h, rfl⟩)
          · exact Or.inl h
          · exact Or.inr h
          · rcases hcont r post h with ⟨hb, -, -⟩ | ⟨r', rfl, -⟩
            · simp at hb
            · have := h2 '{' (by simp)
              rw [refChar_brace.1] at this; simp at this
      · next hc =>
        split
        · next hc' =>
          subst hc'
          have hm : ∀ m, Mentions uni ('}' :: s) m ↔ Mentions uni s m := by
            intro m; rw [hment]; simp
          have hr : ∀ m, (m ≠ [] ∧ (∀ x ∈ m, refChar uni x = true) ∧ ∃ r post, '}' :: s = r ++ '}' :: post ∧ m = acc.reverse ++ r) ↔
              (m ≠ [] ∧ m = acc.reverse) := by
            intro m
            constructor
            · rintro ⟨h1, h2, r, post, h, rfl⟩
              rcases hcont r post h with ⟨-, rfl, -⟩ | ⟨r', rfl, -⟩
              · exact ⟨h1, by simp⟩
              · have := h2 '}' (by simp)
                rw [refChar_brace.2] at this; simp at this
            · rintro ⟨h1, rfl⟩
              exact ⟨h1, fun x hx => hacc x (by simpa using hx), [], s, by simp, by simp⟩
          rw [hm, hr]
          split
          · next ha =>
            subst ha
            rw [ih1]
            constructor
            · exact Or.inl
            · rintro (h | ⟨h1, h2⟩)
              · exact h
              · simp [h2] at h1
          · next ha =>
            rw [List.mem_cons, ih1]
            constructor
            · rintro (rfl | h)
              · exact Or.inr ⟨by simpa using ha, rfl⟩
              · exact Or.inl h
            · rintro (h | ⟨-, h⟩)
              · exact Or.inr h
              · exact Or.inl h
        · next hc' =>
          have hm : ∀ m, Mentions uni (c :: s) m ↔ Mentions uni s m := by
            intro m; rw [hment]; simp [hc]
          rw [hm]
          split
          · next hcl =>
            rw [ih2 (c :: acc) (by
              intro x hx
              rcases List.mem_cons.1 hx with rfl | hx
              · exact hcl
              · exact hacc x hx) m]
            refine or_congr Iff.rfl ⟨?_, ?_⟩
            · rintro ⟨h1, h2, r, post, h, rfl⟩
              exact ⟨h1, h2, c :: r, post, by simp [h], by simp⟩
            · rintro ⟨h1, h2, r, post, h, rfl⟩
              rcases hcont r post h with ⟨hb, -, -⟩ | ⟨r', rfl, h'⟩
              · exact absurd hb hc'
              · exact ⟨h1, h2, r', post, h', by simp⟩
          · next hcl =>
            rw [ih1]
            constructor
            · exact Or.inl
            · rintro (h | ⟨h1, h2, r, post, h, rfl⟩)
              · exact h
              · rcases hcont r post h with ⟨hb, -, -⟩ | ⟨r', rfl, h'⟩
                · exact absurd hb hc'
                · have := h2 c (by simp)
                  exact absurd this hcl

/-- The references found in a string are exactly the names written in braces. -/
theorem C08_references_found (s m : List Char) : m ∈ findRefs uni none s ↔ Mentions uni s m := (findRefs_spec s).1 m

/-! ## `str.replace` -/

theorem refReplace_skip (old new : List Char) (n : ℕ) (s : List Char) (h : n ≤ s.length) :
    replaceAll old new n s = replaceAll old new 0 (s.drop n) := by
  induction s generalizing n with
  | nil =>
    simp only [List.length_nil, Nat.le_zero] at h
    subst h
    rfl
  | cons c s ih =>
    cases n with
    | zero => rfl
    | succ n =>
      simp only [replaceAll, List.drop_succ_cons]
      exact ih n (by simpa using h)

/-- Text without the occurrence is left alone. -/
theorem refReplace_none (old new : List Char) (s : List Char) (h : ∀ t, t <:+ s → t ≠ [] → ¬ old <+: t) :
    replaceAll old new 0 s = s := by
  induction s with
  | nil => rfl
  | cons c s ih =>
    have h0 : ¬ old.isPrefixOf (c :: s) = true := by
      rw [List.isPrefixOf_iff_prefix]
      exact h (c :: s) (List.suffix_refl _) (by simp)
    simp only [replaceAll, h0, Bool.false_eq_true, if_false]
    rw [ih fun t ht => h t (ht.trans (List.suffix_cons c s))]

theorem refReplace_hit (old new post : List Char) (hold : old ≠ []) :
    replaceAll old new 0 (old ++ post) = new ++ replaceAll old new 0 post := by
  cases old with
  | nil => exact absurd rfl hold
  | cons c old =>
    have h0 : (c :: old).isPrefixOf (c :: (old ++ post)) = true := by
      rw [List.isPrefixOf_iff_prefix]; exact ⟨post, by simp⟩
    show replaceAll (c :: old) new 0 (c :: (old ++ post)) = _
    simp only [replaceAll, h0, if_true]
    rw [refReplace_skip _ _ _ _ (by simp)]
    simp

theorem refReplace_pre (old new pre s : List Char) (h : ∀ c ∈ pre, old.head? ≠ some c) (hold : old ≠ []) :
    replaceAll old new 0 (pre ++ s) = pre ++ replaceAll old new 0 s := by
  induction pre with
  | nil => rfl
  | cons c pre ih =>
    have h0 : ¬ old.isPrefixOf (c :: (pre ++ s)) = true := by
      rw [List.isPrefixOf_iff_prefix]
      rintro ⟨t, ht⟩
      cases old with
      | nil => exact hold rfl
      | cons x old =>
        simp only [List.cons_append, List.cons.injEq] at ht
        exact h c (by simp) (by simp [ht.1])
    simp only [List.cons_append, replaceAll, h0, Bool.false_eq_true, if_false, List.cons_append, List.cons.injEq, true_and]
    exact ih fun c hc => h c (by simp [hc])

/-- A string with exactly one reference: the braces and the name are replaced, the rest stays. -/
theorem substRef_single {pre m post other : List Char} (h1 : '{' ∉ pre) (h2 : '{' ∉ post) :
    substRef (pre ++ '{' :: (m ++ '}' :: post)) m other = pre ++ other ++ post := by
  unfold substRef
  rw [refReplace_pre _ _ _ _ (by
    intro c hc h
    simp only [List.head?_cons, Option.some.injEq] at h
    exact h1 (h ▸ hc)) (by simp)]
  have e : '{' :: (m ++ '}' :: post) = ('{' :: (m ++ ['}'])) ++ post := by simp
  rw [e, refReplace_hit _ _ _ (by simp), refReplace_none]
  · simp
  · rintro t ht hne ⟨r, rfl⟩
    exact h2 (ht.subset (by simp))

/-! ## The effect on the parameters -/

/-- Same kind of result: the same error, both sections, both strings, or the same value. -/
inductive SameKind : Except Err Val → Except Err Val → Prop
  | dict (d d' : List (Key × Val)) : SameKind (.ok (.dict d)) (.ok (.dict d'))
  | str (s s' : String) : SameKind (.ok (.atom (.str s))) (.ok (.atom (.str s')))
  | same (r : Except Err Val) : SameKind r r

theorem SameKind.trans {a b c : Except Err Val} (h : SameKind a b) (h' : SameKind b c) : SameKind a c := by
  cases h with
  | dict d d' => cases h' <;> constructor
  | str s s' => cases h' <;> constructor
  | same => exact h'

/-- `v` and `v'` have the same paths, with the same kind of value. -/
def SameShape (v v' : Val) : Prop := ∀ js, SameKind (getNested js v) (getNested js v')

theorem SameShape.trans {a b c : Val} (h : SameShape a b) (h' : SameShape b c) : SameShape a c :=
  fun js => (h js).trans (h' js)

theorem sameShape_set {ks : List Key} {s s' : String} {v v' : Val} (hs : getNested ks v = .ok (.atom (.str s)))
    (h : setNested ks (.atom (.str s')) v = .ok v') : SameShape v v' := by
  intro js
  by_cases h1 : ks <+: js
  · obtain ⟨r, rfl⟩ := h1
    rw [getNested_append, getNested_append, hs, setNested_get h]
    cases r with
    | nil => exact .str s s'
    | cons k r => exact .same _
  · by_cases h2 : js <+: ks
    · have hne : js ≠ ks := by rintro rfl; exact h1 (List.prefix_refl _)
      obtain ⟨e, he⟩ := setNested_get_prefix h h2 hne
      rw [he]
      have : ∃ e', getNested js v = .ok (.dict e') := by
        obtain ⟨r, rfl⟩ := h2
        rw [getNested_append] at hs
        cases hj : getNested js v with
        | error e => rw [hj] at hs; simp at hs
        | ok x =>
          rw [hj] at hs
          cases r with
          | nil => simp at hne
          | cons k r =>
            cases x with
            | dict e' => exact ⟨e', rfl⟩
            | atom a => simp [getNested] at hs
            | list l => simp [getNested] at hs
      obtain ⟨e', he'⟩ := this
      rw [he']
      exact .dict _ _
    · rw [setNested_get_other h h1 h2]
      exact .same _

/-- What the loop over the matches of one leaf does: nothing outside the leaf; at the leaf the node with one of
the resolved references substituted, or nothing if none resolves. -/
theorem refLoop_spec {keys : List Key} {node : String} {ms : List (List Char)} {v v' : Val} {s : String}
    (hs : getNested keys v = .ok (.atom (.str s))) (h : refLoop keys node ms v = .ok v') :
    SameShape v v' ∧ (∀ js, ¬ keys <+: js → ¬ js <+: keys → getNested js v' = getNested js v) := by
  induction ms generalizing v s with
  | nil =>
    simp only [refLoop, Except.ok.injEq] at h
    subst h
    exact ⟨fun js => .same _, fun js _ _ => rfl⟩
  | cons m ms ih =>
    simp only [refLoop] at h
    split at h
    · exact ih hs h
    · simp at h
    · next other ho =>
      split at h
      · simp at h
      · next v1 h1 =>
        obtain ⟨i1, i2⟩ := ih (setNested_get h1) h
        refine ⟨(sameShape_set hs h1).trans i1, ?_⟩
        intro js a b
        rw [i2 js a b, setNested_get_other h1 a b]
    · simp at h

/-- A reference resolves when its path is present. -/
theorem refLoop_unchanged {keys : List Key} {node : String} {ms : List (List Char)} {v v' : Val}
    (hk : ∀ m ∈ ms, getNested (refPath m) v = .error .keyError) (h : refLoop keys node ms v = .ok v') : v' = v := by
  induction ms with
  | nil => simp only [refLoop, Except.ok.injEq] at h; exact h.symm
  | cons m ms ih =>
    simp only [refLoop, hk m (by simp)] at h
    exact ih (fun m hm => hk m (by simp [hm])) h

theorem refLeaf_spec {v v' : Val} {leaf : List Key × Val} (hs : getNested leaf.1 v = .ok leaf.2)
    (h : refLeaf uni v leaf = .ok v') :
    SameShape v v' ∧ (∀ js, ¬ leaf.1 <+: js → ¬ js <+: leaf.1 → getNested js v' = getNested js v) := by
  unfold refLeaf at h
  split at h
  · next s he => exact refLoop_spec (by rw [hs, he]) h
  · simp only [Except.ok.injEq] at h
    subst h
    exact ⟨fun js => .same _, fun js _ _ => rfl⟩

/-- The whole traversal: same shape; each leaf is processed once, in a state in which the leaves before it are
final and it and the leaves after it are original. -/
theorem refLeaves_spec {L : List (List Key × Val)} (hL : PathsApart (L.map (·.1))) {v v' : Val}
    (hs : ∀ leaf ∈ L, getNested leaf.1 v = .ok leaf.2) (h : refLeaves uni L v = .ok v') :
    SameShape v v' ∧
    (∀ js, (∀ leaf ∈ L, ¬ leaf.1 <+: js ∧ ¬ js <+: leaf.1) → getNested js v' = getNested js v) ∧
    ∀ leaf ∈ L, ∃ w w', refLeaf uni w leaf = .ok w' ∧ getNested leaf.1 w = .ok leaf.2 ∧
      getNested leaf.1 v' = getNested leaf.1 w' ∧ SameShape v w ∧
      (∀ other ∈ L, getNested other.1 w = getNested other.1 v ∨ getNested other.1 w = getNested other.1 v') ∧
      ∀ js, (∀ leaf ∈ L, ¬ leaf.1 <+: js ∧ ¬ js <+: leaf.1) → getNested js w = getNested js v := by
  induction L generalizing v with
  | nil =>
    simp only [refLeaves, Except.ok.injEq] at h
    subst h
    exact ⟨fun js => .same _, fun _ _ => rfl, by simp⟩
  | cons leaf L ih =>
    have hp := List.pairwise_cons.1 hL
    have hapart : ∀ l ∈ L, ¬ leaf.1 <+: l.1 ∧ ¬ l.1 <+: leaf.1 := fun l hl => hp.1 l.1 (List.mem_map_of_mem hl)
    simp only [refLeaves] at h
    split at h
    · simp at h
    · next v1 h1 =>
      obtain ⟨a1, a2⟩ := refLeaf_spec (hs leaf (by simp)) h1
      have hs1 : ∀ l ∈ L, getNested l.1 v1 = .ok l.2 := by
        intro l hl
        rw [a2 l.1 (hapart l hl).1 (hapart l hl).2]
        exact hs l (by simp [hl])
      obtain ⟨i1, i2, i3⟩ := ih hp.2 hs1 h
      refine ⟨a1.trans i1, ?_, ?_⟩
      · intro js hj
        rw [i2 js fun l hl => hj l (by simp [hl]), a2 js (hj leaf (by simp)).1 (hj leaf (by simp)).2]
      · intro l hl
        rcases List.mem_cons.1 hl with rfl | hl
        · refine ⟨v, v1, h1, hs l (by simp), ?_, fun js => .same _, fun _ _ => Or.inl rfl, fun _ _ => rfl⟩
          exact i2 l.1 fun l' hl' => ⟨(hapart l' hl').2, (hapart l' hl').1⟩
        · obtain ⟨w, w', b1, b2, b3, b4, b5, b6⟩ := i3 l hl
          refine ⟨w, w', b1, b2, b3, a1.trans b4, ?_, ?_⟩
          rotate_left
          · intro js hj
            rw [b6 js fun l hl => hj l (by simp [hl]), a2 js (hj leaf (by simp)).1 (hj leaf (by simp)).2]
          intro o ho
          rcases List.mem_cons.1 ho with rfl | ho
          · right
            -- the first leaf: unchanged since it was processed
            have e1 : getNested o.1 v' = getNested o.1 v1 :=
              i2 o.1 fun l' hl' => ⟨(hapart l' hl').2, (hapart l' hl').1⟩
            have e2 : getNested o.1 w = getNested o.1 v1 :=
              b6 o.1 fun l' hl' => ⟨(hapart l' hl').2, (hapart l' hl').1⟩
            rw [e1, e2]
          · rcases b5 o ho with e | e
            · left; rw [e, a2 o.1 (hapart o ho).1 (hapart o ho).2]
            · exact Or.inr e

section
variable {d : List (Key × Val)} {result : Val}

theorem refs_setup (hwf : (Py.dict d).WF) (h : parseParamValues uni (.dict d) = .ok result) :
    SameShape (.dict d) result ∧
    ∀ ks w, IsPlainLeaf d ks w → ∃ x x', refLeaf uni x (ks, w) = .ok x' ∧ getNested ks x = .ok w ∧
      getNested ks result = getNested ks x' ∧ SameShape (.dict d) x ∧
      ∀ js o, IsPlainLeaf d js o → getNested js x = .ok o ∨ getNested js x = getNested js result := by
  simp only [parseParamValues, leaves] at h
  obtain ⟨h1, -, h3⟩ := refLeaves_spec (pathsApart_leaves hwf.1 hwf.2)
    (fun leaf hl => ((mem_plain_leaves hwf (ks := leaf.1) (w := leaf.2)).1 hl).2.1) h
  refine ⟨h1, ?_⟩
  intro ks w hl
  obtain ⟨x, x', b1, b2, b3, b4, b5, -⟩ := h3 (ks, w) ((mem_plain_leaves hwf).2 hl)
  refine ⟨x, x', b1, b2, b3, b4, ?_⟩
  intro js o ho
  rcases b5 (js, o) ((mem_plain_leaves hwf).2 ho) with e | e
  · left; rw [e]; exact ho.2.1
  · exact Or.inr e

/-- **No parameter is added or removed**: every path exists before iff it exists after (missing paths give the
same error); sections stay sections, strings stay strings, and every other value is unchanged. -/
theorem C08_same_paths (hwf : (Py.dict d).WF) (h : parseParamValues uni (.dict d) = .ok result) (js : List Key) :
    SameKind (getNested js (.dict d)) (getNested js result) := (refs_setup hwf h).1 js

/-- A value that is not a string is unchanged. -/
theorem C08_non_string_unchanged (hwf : (Py.dict d).WF) (h : parseParamValues uni (.dict d) = .ok result)
    {ks : List Key} {w : Val} (hw : getNested ks (.dict d) = .ok w) (hd : w.isDict = false)
    (hs : ∀ s, w ≠ .atom (.str s)) : getNested ks result = .ok w := by
  have := C08_same_paths hwf h ks
  rw [hw] at this
  generalize getNested ks result = r at this
  cases this with
  | dict e e' => simp [Py.isDict] at hd
  | str s s' => exact absurd rfl (hs s)
  | same => rfl

/-- The path of a string is a leaf. -/
theorem plainLeaf_of_string {ks : List Key} {s : String} (hs : getNested ks (.dict d) = .ok (.atom (.str s))) :
    IsPlainLeaf d ks (.atom (.str s)) :=
  ⟨by rintro rfl; simp [getNested] at hs, hs, rfl⟩

/-- A string without references, or with references to unknown parameters only, is unchanged. -/
theorem C08_unresolved_unchanged (hwf : (Py.dict d).WF) (h : parseParamValues uni (.dict d) = .ok result)
    {ks : List Key} {s : String} (hs : getNested ks (.dict d) = .ok (.atom (.str s)))
    (hm : ∀ m, Mentions uni s.toList m → getNested (refPath m) (.dict d) = .error .keyError) :
    getNested ks result = .ok (.atom (.str s)) := by
  obtain ⟨x, x', b1, b2, b3, b4, -⟩ := (refs_setup hwf h).2 ks _ (plainLeaf_of_string hs)
  simp only [refLeaf] at b1
  have hx : x' = x := by
    refine refLoop_unchanged ?_ b1
    intro m hmem
    have h1 := hm m ((C08_references_found _ _).1 hmem)
    have h2 := b4 (refPath m)
    rw [h1] at h2
    generalize getNested (refPath m) x = r at h2
    cases h2
    rfl
  rw [b3, hx, b2]

/-- **A reference is substituted.**  A string with one reference `{m}` to a path that holds a string becomes the
string with `{m}` replaced by a value of that parameter: its original or its final value (they differ only if
the referenced string contains references itself, and then it depends on the order in the file).

What is missing: strings with several references, where the claim is false (`C08_only_last_reference`); what
holds for them is `C08_one_reference_substituted`. -/
theorem C08_substituted_partial (hwf : (Py.dict d).WF) (h : parseParamValues uni (.dict d) = .ok result)
    {ks : List Key} {pre m post : List Char}
    (hs : getNested ks (.dict d) = .ok (.atom (.str (String.ofList (pre ++ '{' :: (m ++ '}' :: post))))))
    (hpre : '{' ∉ pre ∧ '}' ∉ pre) (hpost : '{' ∉ post ∧ '}' ∉ post)
    (hm : m ≠ []) (hmc : ∀ c ∈ m, refChar uni c = true) {o : String}
    (ho : getNested (refPath m) (.dict d) = .ok (.atom (.str o))) :
    ∃ o', (getNested (refPath m) (.dict d) = .ok (.atom (.str o')) ∨ getNested (refPath m) result = .ok (.atom (.str o'))) ∧
      getNested ks result = .ok (.atom (.str (String.ofList (pre ++ o'.toList ++ post)))) := by
  obtain ⟨x, x', b1, b2, b3, b4, b5⟩ := (refs_setup hwf h).2 ks _ (plainLeaf_of_string hs)
  have hbm : '{' ∉ m ∧ '}' ∉ m := by
    constructor <;> intro hc
    · have := hmc _ hc; rw [refChar_brace.1] at this; simp at this
    · have := hmc _ hc; rw [refChar_brace.2] at this; simp at this
  -- the only reference is `m`
  have hout : ∀ p : List Char, '{' ∉ p → ∀ t, findRefs uni none (p ++ t) = findRefs uni none t := by
    intro p
    induction p with
    | nil => intro _ t; rfl
    | cons c p ih =>
      intro hp t
      have hc : ¬ c = '{' := fun e => hp (by simp [e])
      simp only [List.cons_append, findRefs, hc, if_false]
      exact ih (fun hh => hp (by simp [hh])) t
  have hin : ∀ (r acc t : List Char), (∀ c ∈ r, refChar uni c = true) → '{' ∉ r → '}' ∉ r →
      findRefs uni (some acc) (r ++ t) = findRefs uni (some (r.reverse ++ acc)) t := by
    intro r
    induction r with
    | nil => intro acc t _ _ _; rfl
    | cons c r ih =>
      intro acc t h1 h2 h3
      have c1 : ¬ c = '{' := fun e => h2 (by simp [e])
      have c2 : ¬ c = '}' := fun e => h3 (by simp [e])
      simp only [List.cons_append, findRefs, c1, c2, if_false, h1 c (by simp), if_true]
      rw [ih _ _ (fun x hx => h1 x (by simp [hx])) (fun hh => h2 (by simp [hh])) (fun hh => h3 (by simp [hh]))]
      simp
  have hrefs : findRefs uni none (pre ++ '{' :: (m ++ '}' :: post)) = [m] := by
    rw [hout pre hpre.1]
    simp only [findRefs, if_true]
    rw [hin m [] _ hmc hbm.1 hbm.2]
    have e1 : ¬ m.reverse ++ [] = [] := by simpa using hm
    have e2 : findRefs uni none post = [] := by
      have := hout post hpost.1 []
      simpa [findRefs] using this
    have e3 : ¬ '}' = '{' := by decide
    simp only [findRefs, e1, e3, if_false, if_true, e2]
    simp
  simp only [refLeaf, String.toList_ofList, hrefs, refLoop] at b1
  have hk := b4 (refPath m)
  rw [ho] at hk
  obtain ⟨o', ho'⟩ : ∃ o', getNested (refPath m) x = .ok (.atom (.str o')) := by
    generalize getNested (refPath m) x = r at hk
    cases hk with
    | str s s' => exact ⟨s', rfl⟩
    | same => exact ⟨o, rfl⟩
  rw [ho'] at b1
  simp only at b1
  split at b1
  · simp at b1
  · next y hy =>
    simp only [Except.ok.injEq] at b1
    subst b1
    refine ⟨o', ?_, ?_⟩
    · rcases b5 _ _ (plainLeaf_of_string ho) with e | e
      · left; rw [ho, ← e, ho']
      · right; rw [← e, ho']
    · rw [b3, setNested_get hy, substRef_single hpre.1 hpost.1]

/-- If the referenced string contains no references itself, the result is determined: `{m}` is replaced by that
string. -/
theorem C08_substituted_plain_partial (hwf : (Py.dict d).WF) (h : parseParamValues uni (.dict d) = .ok result)
    {ks : List Key} {pre m post : List Char}
    (hs : getNested ks (.dict d) = .ok (.atom (.str (String.ofList (pre ++ '{' :: (m ++ '}' :: post))))))
    (hpre : '{' ∉ pre ∧ '}' ∉ pre) (hpost : '{' ∉ post ∧ '}' ∉ post)
    (hm : m ≠ []) (hmc : ∀ c ∈ m, refChar uni c = true) {o : String}
    (ho : getNested (refPath m) (.dict d) = .ok (.atom (.str o))) (hno : ∀ m', ¬ Mentions uni o.toList m') :
    getNested ks result = .ok (.atom (.str (String.ofList (pre ++ o.toList ++ post)))) := by
  obtain ⟨o', hor, hr⟩ := C08_substituted_partial hwf h hs hpre hpost hm hmc ho
  have hfin := C08_unresolved_unchanged hwf h ho fun m' hm' => absurd hm' (hno m')
  have : o' = o := by
    rcases hor with e | e
    · rw [ho] at e; simpa using e.symm
    · rw [hfin] at e; simpa using e.symm
  rw [hr, this]

/-- The loop over the matches: nothing resolves and nothing changes, or exactly one of the resolving references
is substituted (in all its occurrences) in the original string. -/
theorem refLoop_one {keys : List Key} {node : String} {ms : List (List Char)} {v v' : Val}
    {s : String} (hs : getNested keys v = .ok (.atom (.str s))) (h : refLoop keys node ms v = .ok v') :
    ((∀ m ∈ ms, getNested (refPath m) v = .error .keyError) ∧ v' = v) ∨
    ∃ m ∈ ms, ∃ o, (refPath m ≠ keys → getNested (refPath m) v = .ok (.atom (.str o))) ∧
      getNested keys v' = .ok (.atom (.str (String.ofList (substRef node.toList m o.toList)))) := by
  induction ms generalizing v s with
  | nil =>
    simp only [refLoop, Except.ok.injEq] at h
    exact Or.inl ⟨by simp, h.symm⟩
  | cons m ms ih =>
    simp only [refLoop] at h
    split at h
    · next hk =>
      rcases ih hs h with ⟨h1, h2⟩ | ⟨m', hm', o, h1, h2⟩
      · left
        refine ⟨?_, h2⟩
        intro m' hm'
        rcases List.mem_cons.1 hm' with rfl | hm'
        · exact hk
        · exact h1 m' hm'
      · exact Or.inr ⟨m', by simp [hm'], o, h1, h2⟩
    · simp at h
    · next other ho =>
      split at h
      · simp at h
      · next v1 h1 =>
        right
        rcases ih (setNested_get h1) h with ⟨-, rfl⟩ | ⟨m', hm', o, e1, e2⟩
        · exact ⟨m, by simp, other, fun _ => ho, setNested_get h1⟩
        · refine ⟨m', by simp [hm'], o, ?_, e2⟩
          intro hne
          have e3 := e1 hne
          have n1 : ¬ keys <+: refPath m' := by
            rintro ⟨r, hr⟩
            rw [← hr, getNested_append, setNested_get h1] at e3
            cases r with
            | nil => simp at hr; exact hne hr.symm
            | cons k r => simp [getNested] at e3
          have n2 : ¬ refPath m' <+: keys := by
            intro hp
            obtain ⟨e, he⟩ := setNested_get_prefix h1 hp hne
            rw [e3] at he
            simp at he
          rw [← setNested_get_other h1 n1 n2]
          exact e3
    · simp at h

/-- **With several references**: a string that mentions a known parameter comes out as the original string with
*one* of its resolvable references substituted (in all its occurrences); in particular nothing else in it
changes. -/
theorem C08_one_reference_substituted (hwf : (Py.dict d).WF) (h : parseParamValues uni (.dict d) = .ok result)
    {ks : List Key} {s : String} (hs : getNested ks (.dict d) = .ok (.atom (.str s))) :
    getNested ks result = .ok (.atom (.str s)) ∨
    ∃ m o, Mentions uni s.toList m ∧
      (refPath m ≠ ks → getNested (refPath m) (.dict d) = .ok (.atom (.str o)) ∨
        getNested (refPath m) result = .ok (.atom (.str o))) ∧
      getNested ks result = .ok (.atom (.str (String.ofList (substRef s.toList m o.toList)))) := by
  obtain ⟨x, x', b1, b2, b3, b4, b5⟩ := (refs_setup hwf h).2 ks _ (plainLeaf_of_string hs)
  simp only [refLeaf] at b1
  rcases refLoop_one b2 b1 with ⟨-, rfl⟩ | ⟨m, hm, o, h1, h2⟩
  · left; rw [b3, b2]
  · right
    refine ⟨m, o, (C08_references_found _ _).1 hm, ?_, by rw [b3, h2]⟩
    intro hne
    have e := h1 hne
    have hk := b4 (refPath m)
    rw [e] at hk
    have : ∃ o0, getNested (refPath m) (.dict d) = .ok (.atom (.str o0)) := by
      generalize getNested (refPath m) (.dict d) = r at hk
      cases hk with
      | str s s' => exact ⟨s, rfl⟩
      | same => exact ⟨o, rfl⟩
    obtain ⟨o0, ho0⟩ := this
    rcases b5 _ _ (plainLeaf_of_string ho0) with e' | e'
    · left; rw [ho0, ← e', e]
    · right; rw [← e', e]

/-- If no string mentions a known parameter that is not a string, the substitution succeeds … -/
theorem refLoop_ok {keys : List Key} {node : String} {ms : List (List Char)} {v : Val} {s : String}
    (hs : getNested keys v = .ok (.atom (.str s)))
    (hm : ∀ m ∈ ms, getNested (refPath m) v = .error .keyError ∨ ∃ o, getNested (refPath m) v = .ok (.atom (.str o))) :
    ∃ v', refLoop keys node ms v = .ok v' := by
  induction ms generalizing v s with
  | nil => exact ⟨v, rfl⟩
  | cons m ms ih =>
    rcases hm m (by simp) with hk | ⟨o, hk⟩
    · obtain ⟨v', hv'⟩ := ih hs fun m hm' => hm m (by simp [hm'])
      exact ⟨v', by simp only [refLoop, hk, hv']⟩
    · obtain ⟨v1, hv1⟩ := (C07_set_succeeds_iff (v := .atom (.str (String.ofList (substRef node.toList m o.toList))))).2 (show keys ≠ [] ∧ ∀ js, js <+: keys → js ≠ keys → ∀ x, getNested js v = .ok x → x.isDict = true from by
        refine ⟨?_, ?_⟩
        · rintro rfl
          simp only [getNested, Except.ok.injEq] at hs
          subst hs
          cases hr : refPath m with
          | nil =>
            have : (splitDash [] m) ≠ [] := by
              have aux : ∀ (s acc : List Char), splitDash acc s ≠ [] := by
                intro s acc
                fun_induction splitDash acc s <;> simp_all
              exact aux m []
            simp [refPath] at hr
            exact this hr
          | cons k r => rw [hr] at hk; simp [getNested] at hk
        · intro js h1 h2 x hx
          obtain ⟨r, rfl⟩ := h1
          rw [getNested_append, hx] at hs
          cases r with
          | nil => simp at h2
          | cons k r =>
            cases x with
            | dict e => rfl
            | atom a => simp [getNested] at hs
            | list l => simp [getNested] at hs)
      obtain ⟨v', hv'⟩ := ih (setNested_get hv1) (by
        intro m' hm'
        have hsh := sameShape_set hs hv1 (refPath m')
        rcases hm m' (by simp [hm']) with e | ⟨o', e⟩
        · left
          rw [e] at hsh
          generalize getNested (refPath m') v1 = r at hsh
          cases hsh
          rfl
        · right
          rw [e] at hsh
          generalize getNested (refPath m') v1 = r at hsh
          cases hsh with
          | str s s' => exact ⟨s', rfl⟩
          | same => exact ⟨o', rfl⟩)
      exact ⟨v', by simp only [refLoop, hk, hv1, hv']⟩

/-- **Success**: if every reference is unknown or names a string, `parse_param_values` does not raise. -/
theorem C08_succeeds (hwf : (Py.dict d).WF)
    (hm : ∀ ks s, getNested ks (.dict d) = .ok (.atom (.str s)) → ∀ m, Mentions uni s.toList m →
      getNested (refPath m) (.dict d) = .error .keyError ∨ ∃ o, getNested (refPath m) (.dict d) = .ok (.atom (.str o))) :
    ∃ result, parseParamValues uni (.dict d) = .ok result := by
  have main : ∀ (L : List (List Key × Val)), PathsApart (L.map (·.1)) → ∀ v : Val, SameShape (.dict d) v →
      (∀ leaf ∈ L, getNested leaf.1 v = .ok leaf.2) → (∀ leaf ∈ L, getNested leaf.1 (.dict d) = .ok leaf.2) →
      ∃ r, refLeaves uni L v = .ok r := by
    intro L
    induction L with
    | nil => intro _ v _ _ _; exact ⟨v, rfl⟩
    | cons leaf L ih =>
      intro hL v hsh hs hs0
      have hp := List.pairwise_cons.1 hL
      have hstep : ∃ v1, refLeaf uni v leaf = .ok v1 := by
        unfold refLeaf
        split
        · next s he =>
          have hs' : getNested leaf.1 v = .ok (.atom (.str s)) := by rw [hs leaf (by simp), he]
          have hs0' : getNested leaf.1 (.dict d) = .ok (.atom (.str s)) := by rw [hs0 leaf (by simp), he]
          refine refLoop_ok hs' ?_
          intro m hmem
          have hk := hsh (refPath m)
          rcases hm leaf.1 s hs0' m ((C08_references_found _ _).1 hmem) with e | ⟨o, e⟩
          · left
            rw [e] at hk
            generalize getNested (refPath m) v = r at hk
            cases hk
            rfl
          · right
            rw [e] at hk
            generalize getNested (refPath m) v = r at hk
            cases hk with
            | str s s' => exact ⟨s', rfl⟩
            | same => exact ⟨o, rfl⟩
        · exact ⟨v, rfl⟩
      obtain ⟨v1, hv1⟩ := hstep
      obtain ⟨a1, a2⟩ := refLeaf_spec (hs leaf (by simp)) hv1
      obtain ⟨r, hr⟩ := ih hp.2 v1 (hsh.trans a1) (by
        intro l hl
        have := hp.1 l.1 (List.mem_map_of_mem hl)
        rw [a2 l.1 this.1 this.2]
        exact hs l (by simp [hl])) (fun l hl => hs0 l (by simp [hl]))
      exact ⟨r, by simp only [refLeaves, hv1, hr]⟩
  simp only [parseParamValues, leaves]
  have hleaf : ∀ leaf ∈ leavesDict (fun _ w => !w.isDict) [] d, getNested leaf.1 (.dict d) = .ok leaf.2 :=
    fun leaf hl => ((mem_plain_leaves hwf (ks := leaf.1) (w := leaf.2)).1 hl).2.1
  exact main _ (pathsApart_leaves hwf.1 hwf.2) _ (fun js => .same _) hleaf hleaf

end

/-! ## Examples and limits -/

/-- `{SSP}` in the scenario of a data source. -/
example : parseParamValues (fun _ => false) (.dict [(.str "SSP", .atom (.str "SSP2")),
    (.str "input", .dict [(.str "scenario", .atom (.str "{SSP}-base"))])]) =
    .ok (.dict [(.str "SSP", .atom (.str "SSP2")), (.str "input", .dict [(.str "scenario", .atom (.str "SSP2-base"))])]) := by
  rfl

/-- A nested reference. -/
example : refPath "emissions - carbonbudget".toList = [.str "emissions", .str "carbonbudget"] := rfl

/-- **With several references only the last one is substituted** (the loop starts from the original string each
time), although the documentation promises a substitution for each. -/
theorem C08_only_last_reference :
    parseParamValues (fun _ => false) (.dict [(.str "a", .atom (.str "x")), (.str "b", .atom (.str "y")),
      (.str "c", .atom (.str "{a}-{b}"))]) =
    .ok (.dict [(.str "a", .atom (.str "x")), (.str "b", .atom (.str "y")), (.str "c", .atom (.str "{a}-y"))]) := rfl

/-- A reference to a parameter that is not a string is a `TypeError`. -/
theorem C08_number_reference_typeError :
    parseParamValues (fun _ => false) (.dict [(.str "a", .atom (.int 3)), (.str "c", .atom (.str "{a}"))]) =
    .error .typeError := rfl


/-- MIMOSA's own default configuration goes through `check_params` and `parse_param_values`. -/
example : ∃ r, mimosaParams exampleBuiltins (fun _ => false) DefaultYaml.entries (.dict []) = .ok r :=
  okB_iff (by decide +kernel)

/-- `MIMOSA(load_params(u))` has the same parameters as `MIMOSA(u)` (same exception as in
`C03_check_twice_default_partial`). -/
theorem C03_mimosa_of_load_params_partial {B : Builtins} {user parsed : Val} {tree : Py Parser}
    (h : checkParams B DefaultYaml.entries user = .ok (parsed, tree))
    (hz : ∀ ks p v, HasParser DefaultYaml.entries ks p → p.base.canBeFalse = true → getNested ks parsed = .ok v →
      ¬ IsZero v) :
    mimosaParams B uni DefaultYaml.entries parsed = mimosaParams B uni DefaultYaml.entries user := by
  simp only [mimosaParams, h, C03_check_twice_default_partial h hz]

end Mimosa
