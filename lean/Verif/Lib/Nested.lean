import Verif.Config.ParseConfig
import Mathlib.Data.List.Infix
import Mathlib.Tactic.Common

/-! # Facts about nested dictionaries -/

namespace Mimosa
variable {α : Type}

namespace Dict
variable {β : Type}

@[simp] theorem lookup_nil (k : Key) : lookup k ([] : List (Key × β)) = none := rfl
theorem lookup_cons (k k' : Key) (v : β) (d : List (Key × β)) :
    lookup k ((k', v) :: d) = if k' = k then some v else lookup k d := rfl

theorem lookup_insert_self (k : Key) (v : β) (d : List (Key × β)) : lookup k (insert k v d) = some v := by
  induction d with
  | nil => simp [insert, lookup]
  | cons e d ih =>
    obtain ⟨k', v'⟩ := e
    by_cases h : k' = k
    · subst h; simp [insert, lookup]
    · simp [insert, lookup, h, ih]

theorem lookup_insert_ne {k k' : Key} (h : k ≠ k') (v : β) (d : List (Key × β)) :
    lookup k' (insert k v d) = lookup k' d := by
  induction d with
  | nil => simp [insert, lookup, h]
  | cons e d ih =>
    obtain ⟨k'', v''⟩ := e
    by_cases h1 : k'' = k
    · subst h1; simp [insert, lookup, h]
    · simp [insert, lookup, h1, ih]

theorem lookup_insert (k k' : Key) (v : β) (d : List (Key × β)) :
    lookup k' (insert k v d) = if k = k' then some v else lookup k' d := by
  split
  · next h => subst h; exact lookup_insert_self k v d
  · next h => exact lookup_insert_ne h v d

theorem lookup_eq_none {k : Key} {d : List (Key × β)} : lookup k d = none ↔ k ∉ keys d := by
  induction d with
  | nil => simp [keys]
  | cons e d ih =>
    obtain ⟨k', v'⟩ := e
    rw [lookup_cons]
    by_cases h : k' = k
    · simp [h, keys]
    · simp only [h, if_false, ih, keys, List.map_cons, List.mem_cons, not_or]
      exact ⟨fun h' => ⟨fun h2 => h h2.symm, h'⟩, fun h' => h'.2⟩

theorem mem_of_lookup {k : Key} {v : β} {d : List (Key × β)} (h : lookup k d = some v) : (k, v) ∈ d := by
  induction d with
  | nil => simp at h
  | cons e d ih =>
    obtain ⟨k', v'⟩ := e
    rw [lookup_cons] at h
    split at h
    · next hk => subst hk; simp_all
    · exact List.mem_cons_of_mem _ (ih h)

theorem lookup_of_mem {k : Key} {v : β} {d : List (Key × β)} (hd : (keys d).Nodup) (h : (k, v) ∈ d) :
    lookup k d = some v := by
  induction d with
  | nil => simp at h
  | cons e d ih =>
    obtain ⟨k', v'⟩ := e
    simp only [keys, List.map_cons, List.nodup_cons] at hd
    rw [lookup_cons]
    rcases List.mem_cons.1 h with h | h
    · cases h; simp
    · have : k' ≠ k := fun hk => hd.1 (by subst hk; exact List.mem_map.2 ⟨_, h, rfl⟩)
      rw [if_neg this]; exact ih hd.2 h

theorem mem_iff_lookup {k : Key} {v : β} {d : List (Key × β)} (hd : (keys d).Nodup) :
    (k, v) ∈ d ↔ lookup k d = some v := ⟨lookup_of_mem hd, mem_of_lookup⟩

theorem keys_insert (k : Key) (v : β) (d : List (Key × β)) :
    keys (insert k v d) = if k ∈ keys d then keys d else keys d ++ [k] := by
  induction d with
  | nil => simp [insert, keys]
  | cons e d ih =>
    obtain ⟨k', v'⟩ := e
    by_cases h : k' = k
    · subst h; simp [insert, keys]
    · have ih' : keys (insert k v d) = if k ∈ keys d then keys d else keys d ++ [k] := ih
      have h' : k ≠ k' := fun hk => h hk.symm
      simp only [insert, h, if_false]
      show k' :: keys (insert k v d) = _
      rw [ih']
      have : (k ∈ keys ((k', v') :: d)) ↔ k ∈ keys d := by simp [keys, h']
      simp only [this]
      split <;> simp [keys]

theorem mem_keys_insert {k k' : Key} {v : β} {d : List (Key × β)} :
    k' ∈ keys (insert k v d) ↔ k' = k ∨ k' ∈ keys d := by
  rw [keys_insert]
  split
  · next h => exact ⟨Or.inr, fun h' => h'.elim (fun e => e ▸ h) id⟩
  · simp [or_comm]

theorem nodup_insert {k : Key} {v : β} {d : List (Key × β)} (hd : (keys d).Nodup) :
    (keys (insert k v d)).Nodup := by
  rw [keys_insert]
  split
  · exact hd
  · next h => exact List.nodup_append.2 ⟨hd, by simp, fun a ha b hb hab => h (by rw [List.mem_singleton.1 hb] at hab; exact hab ▸ ha)⟩

/-- Assigning a new key appends. -/
theorem insert_of_notMem {k : Key} {v : β} {d : List (Key × β)} (h : k ∉ keys d) : insert k v d = d ++ [(k, v)] := by
  induction d with
  | nil => rfl
  | cons e d ih =>
    obtain ⟨k', v'⟩ := e
    simp only [keys, List.map_cons, List.mem_cons, not_or] at h
    have h' : ¬ k' = k := fun hk => h.1 hk.symm
    simp [insert, h', ih h.2]

end Dict

/-! ## get and set -/

@[simp] theorem getNested_nil (v : Py α) : getNested [] v = .ok v := by cases v <;> rfl

theorem getNested_append (ks js : List Key) (v : Py α) :
    getNested (ks ++ js) v = match getNested ks v with
      | .ok w => getNested js w
      | .error e => .error e := by
  induction ks generalizing v with
  | nil => simp
  | cons k ks ih =>
    cases v with
    | atom a => rfl
    | list l => rfl
    | dict d =>
      simp only [List.cons_append, getNested]
      cases Dict.lookup k d with
      | none => rfl
      | some w => exact ih w

theorem setNested_get {ks : List Key} {v d d' : Py α} (h : setNested ks v d = .ok d') :
    getNested ks d' = .ok v := by
  induction ks generalizing d d' with
  | nil => simp [setNested] at h
  | cons k ks ih =>
    cases d with
    | atom a => cases ks <;> simp [setNested] at h
    | list l => cases ks <;> simp [setNested] at h
    | dict d =>
      cases ks with
      | nil =>
        simp only [setNested, Except.ok.injEq] at h
        subst h
        simp [getNested, Dict.lookup_insert_self]
      | cons k' ks =>
        simp only [setNested] at h
        split at h
        · next sub hs =>
          simp only [Except.ok.injEq] at h
          subst h
          simp only [getNested, Dict.lookup_insert_self]
          exact ih hs
        · simp at h

theorem setNested_isDict {ks : List Key} {v d d' : Py α} (h : setNested ks v d = .ok d') : d'.isDict = true := by
  cases ks with
  | nil => simp [setNested] at h
  | cons k ks =>
    cases d with
    | atom a => cases ks <;> simp [setNested] at h
    | list l => cases ks <;> simp [setNested] at h
    | dict d =>
      cases ks with
      | nil => simp only [setNested, Except.ok.injEq] at h; subst h; rfl
      | cons k' ks =>
        simp only [setNested] at h
        split at h
        · simp only [Except.ok.injEq] at h; subst h; rfl
        · simp at h

theorem getNested_empty {js : List Key} (h : js ≠ []) : getNested js (.dict [] : Py α) = .error .keyError := by
  cases js with
  | nil => exact absurd rfl h
  | cons k js => rfl

theorem setNested_get_other {ks js : List Key} {v d d' : Py α} (h : setNested ks v d = .ok d')
    (h1 : ¬ ks <+: js) (h2 : ¬ js <+: ks) : getNested js d' = getNested js d := by
  induction ks generalizing d d' js with
  | nil => exact absurd List.nil_prefix h1
  | cons k ks ih =>
    cases js with
    | nil => exact absurd List.nil_prefix h2
    | cons j js =>
      cases d with
      | atom a => cases ks <;> simp [setNested] at h
      | list l => cases ks <;> simp [setNested] at h
      | dict d =>
        by_cases hkj : k = j
        · subst hkj
          have h1' : ¬ ks <+: js := fun h' => h1 (List.cons_prefix_cons.2 ⟨rfl, h'⟩)
          have h2' : ¬ js <+: ks := fun h' => h2 (List.cons_prefix_cons.2 ⟨rfl, h'⟩)
          cases ks with
          | nil => exact absurd List.nil_prefix h1'
          | cons k' ks =>
            simp only [setNested] at h
            split at h
            · next sub hs =>
              simp only [Except.ok.injEq] at h
              subst h
              simp only [getNested, Dict.lookup_insert_self]
              have := ih hs h1' h2'
              rw [this]
              cases hl : Dict.lookup k d with
              | some w => simp
              | none =>
                simp only [Option.getD_none]
                exact getNested_empty (fun hj => h2' (hj ▸ List.nil_prefix))
            · simp at h
        · cases ks with
          | nil =>
            simp only [setNested, Except.ok.injEq] at h
            subst h
            simp [getNested, Dict.lookup_insert_ne hkj]
          | cons k' ks =>
            simp only [setNested] at h
            split at h
            · next sub hs =>
              simp only [Except.ok.injEq] at h
              subst h
              simp [getNested, Dict.lookup_insert_ne hkj]
            · simp at h

/-- Setting a path makes every proper prefix a dictionary. -/
theorem setNested_get_prefix {ks js : List Key} {v d d' : Py α} (h : setNested ks v d = .ok d')
    (h1 : js <+: ks) (h2 : js ≠ ks) : ∃ e, getNested js d' = .ok (.dict e) := by
  induction ks generalizing d d' js with
  | nil => exact absurd (List.prefix_nil.1 h1) h2
  | cons k ks ih =>
    cases js with
    | nil =>
      have := setNested_isDict h
      cases d' with
      | dict e => exact ⟨e, rfl⟩
      | atom a => simp [Py.isDict] at this
      | list l => simp [Py.isDict] at this
    | cons j js =>
      obtain ⟨rfl, hj⟩ := List.cons_prefix_cons.1 h1
      have hne : js ≠ ks := fun e => h2 (by rw [e])
      cases d with
      | atom a => cases ks <;> simp [setNested] at h
      | list l => cases ks <;> simp [setNested] at h
      | dict d =>
        cases ks with
        | nil => exact absurd (List.prefix_nil.1 hj) hne
        | cons k' ks =>
          simp only [setNested] at h
          split at h
          · next sub hs =>
            simp only [Except.ok.injEq] at h
            subst h
            simp only [getNested, Dict.lookup_insert_self]
            exact ih hs hj hne
          · simp at h

/-- When `set_nested` succeeds: the path is not empty and every proper prefix that exists is a dictionary. -/
theorem setNested_ok {ks : List Key} (hne : ks ≠ []) (v d : Py α)
    (h : ∀ js, js <+: ks → js ≠ ks → (∃ e, getNested js d = .ok (.dict e)) ∨ getNested js d = .error .keyError) :
    ∃ d', setNested ks v d = .ok d' := by
  induction ks generalizing d with
  | nil => exact absurd rfl hne
  | cons k ks ih =>
    have h0 := h [] List.nil_prefix (by simp)
    simp only [getNested_nil] at h0
    rcases h0 with ⟨e, he⟩ | h0
    · simp only [Except.ok.injEq] at he
      subst he
      cases ks with
      | nil => exact ⟨_, rfl⟩
      | cons k' ks =>
        have hsub : ∃ d', setNested (k' :: ks) v ((Dict.lookup k e).getD (.dict [])) = .ok d' := by
          apply ih (by simp)
          intro js hjs hj
          cases hl : Dict.lookup k e with
          | some w =>
            have := h (k :: js) (List.cons_prefix_cons.2 ⟨rfl, hjs⟩) (by simpa using hj)
            simpa [getNested, hl] using this
          | none =>
            simp only [Option.getD_none]
            by_cases hj0 : js = []
            · left; exact ⟨[], by simp [hj0]⟩
            · right; exact getNested_empty hj0
        obtain ⟨d', hd'⟩ := hsub
        exact ⟨.dict (Dict.insert k d' e), by simp [setNested, hd']⟩
    · simp at h0

/-! ## Leaves -/

theorem wf_of_mem {k : Key} {v : Py α} {d : List (Key × Py α)} (h : Py.WFDict d) (hm : (k, v) ∈ d) : v.WF := by
  induction d with
  | nil => simp at hm
  | cons e d ih =>
    obtain ⟨k', v'⟩ := e
    simp only [Py.WFDict] at h
    rcases List.mem_cons.1 hm with hm | hm
    · cases hm; exact h.1
    · exact ih h.2 hm

section leaves
variable (crit : List Key → Py α → Bool)

/-- A node at which the traversal stops: not a dictionary, or accepted by the criterion. -/
def isLeaf (ks : List Key) : Py α → Bool
  | .dict d => crit ks (.dict d)
  | _ => true

mutual
theorem mem_leavesNode : ∀ (v : Py α) (_ : v.WF) (curr ks : List Key) (w : Py α),
    (ks, w) ∈ leavesNode crit curr v ↔ ∃ rel, ks = curr ++ rel ∧ getNested rel v = .ok w ∧
      isLeaf crit ks w = true ∧ ∀ js, js <+: rel → js ≠ rel → ∀ x, getNested js v = .ok x →
        isLeaf crit (curr ++ js) x = false
  | .atom a, _, curr, ks, w => by
    simp only [leavesNode, List.mem_singleton, Prod.mk.injEq]
    constructor
    · rintro ⟨rfl, rfl⟩
      exact ⟨[], by simp, rfl, rfl, fun js h1 h2 => absurd (List.prefix_nil.1 h1) h2⟩
    · rintro ⟨rel, rfl, h2, -, -⟩
      cases rel with
      | nil => simp at h2; simp [h2]
      | cons k rel => simp [getNested] at h2
  | .list l, _, curr, ks, w => by
    simp only [leavesNode, List.mem_singleton, Prod.mk.injEq]
    constructor
    · rintro ⟨rfl, rfl⟩
      exact ⟨[], by simp, rfl, rfl, fun js h1 h2 => absurd (List.prefix_nil.1 h1) h2⟩
    · rintro ⟨rel, rfl, h2, -, -⟩
      cases rel with
      | nil => simp at h2; simp [h2]
      | cons k rel => simp [getNested] at h2
  | .dict d, hwf, curr, ks, w => by
    simp only [leavesNode]
    split
    · next hc =>
      simp only [List.mem_singleton, Prod.mk.injEq]
      constructor
      · rintro ⟨rfl, rfl⟩
        exact ⟨[], by simp, rfl, hc, fun js h1 h2 => absurd (List.prefix_nil.1 h1) h2⟩
      · rintro ⟨rel, rfl, h2, -, h4⟩
        cases rel with
        | nil => simp at h2; simp [h2]
        | cons k rel =>
          have := h4 [] List.nil_prefix (by simp) (.dict d) rfl
          simp [isLeaf, hc] at this
    · next hc =>
      rw [mem_leavesDict d hwf.1 hwf.2 curr ks w]
      constructor
      · rintro ⟨rel, hne, rfl, h2, h3, h4⟩
        refine ⟨rel, rfl, h2, h3, fun js h1 h2' x hx => ?_⟩
        by_cases hj : js = []
        · subst hj
          simp only [getNested_nil, Except.ok.injEq] at hx
          subst hx
          simpa [isLeaf] using hc
        · exact h4 js h1 h2' hj x hx
      · rintro ⟨rel, rfl, h2, h3, h4⟩
        refine ⟨rel, ?_, rfl, h2, h3, fun js h1 h2' _ => h4 js h1 h2'⟩
        rintro rfl
        simp only [getNested_nil, Except.ok.injEq] at h2
        subst h2
        simp only [List.append_nil] at h3
        exact hc h3
theorem mem_leavesDict : ∀ (d : List (Key × Py α)) (_ : (Dict.keys d).Nodup) (_ : Py.WFDict d)
    (curr ks : List Key) (w : Py α),
    (ks, w) ∈ leavesDict crit curr d ↔ ∃ rel, rel ≠ [] ∧ ks = curr ++ rel ∧ getNested rel (.dict d) = .ok w ∧
      isLeaf crit ks w = true ∧ ∀ js, js <+: rel → js ≠ rel → js ≠ [] → ∀ x, getNested js (.dict d) = .ok x →
        isLeaf crit (curr ++ js) x = false
  | [], _, _, curr, ks, w => by
    simp only [leavesDict, List.not_mem_nil, false_iff]
    rintro ⟨rel, hne, -, h2, -⟩
    rw [getNested_empty hne] at h2
    exact absurd h2 (by simp)
  | (k, v) :: d, hnd, hwf, curr, ks, w => by
    have hnd' : (Dict.keys d).Nodup := (List.nodup_cons.1 hnd).2
    have hk : k ∉ Dict.keys d := (List.nodup_cons.1 hnd).1
    rw [leavesDict, List.mem_append, mem_leavesNode v hwf.1, mem_leavesDict d hnd' hwf.2]
    constructor
    · rintro (⟨rel, rfl, h2, h3, h4⟩ | ⟨rel, hne, rfl, h2, h3, h4⟩)
      · refine ⟨k :: rel, by simp, by simp, by simpa [getNested, Dict.lookup_cons] using h2, h3, ?_⟩
        intro js h1 h2' hj x hx
        cases js with
        | nil => exact absurd rfl hj
        | cons j js =>
          obtain ⟨rfl, hp⟩ := List.cons_prefix_cons.1 h1
          have := h4 js hp (fun e => h2' (by rw [e])) x (by simpa [getNested, Dict.lookup_cons] using hx)
          simpa using this
      · cases rel with
        | nil => exact absurd rfl hne
        | cons r rel =>
          have hrk : k ≠ r := by
            rintro rfl
            rw [getNested, Dict.lookup_eq_none.2 hk] at h2
            simp at h2
          refine ⟨r :: rel, by simp, rfl, by simpa [getNested, Dict.lookup_cons, hrk] using h2, h3, ?_⟩
          intro js h1 h2' hj x hx
          cases js with
          | nil => exact absurd rfl hj
          | cons j js =>
            have := List.cons_prefix_cons.1 h1
            obtain ⟨rfl, hp⟩ := this
            exact h4 (j :: js) h1 h2' hj x (by simpa [getNested, Dict.lookup_cons, hrk] using hx)
    · rintro ⟨rel, hne, rfl, h2, h3, h4⟩
      cases rel with
      | nil => exact absurd rfl hne
      | cons r rel =>
        by_cases hrk : k = r
        · subst hrk
          left
          refine ⟨rel, by simp, by simpa [getNested, Dict.lookup_cons] using h2, h3, fun js h1 h2' x hx => ?_⟩
          have := h4 (k :: js) (List.cons_prefix_cons.2 ⟨rfl, h1⟩) (by simpa using h2') (by simp) x
            (by simpa [getNested, Dict.lookup_cons] using hx)
          simpa using this
        · right
          refine ⟨r :: rel, by simp, rfl, by simpa [getNested, Dict.lookup_cons, hrk] using h2, h3, ?_⟩
          intro js h1 h2' hj x hx
          cases js with
          | nil => exact absurd rfl hj
          | cons j js =>
            obtain ⟨rfl, hp⟩ := List.cons_prefix_cons.1 h1
            exact h4 (j :: js) h1 h2' hj x (by simpa [getNested, Dict.lookup_cons, hrk] using hx)
end

mutual
theorem leavesNode_nodup : ∀ (v : Py α) (_ : v.WF) (curr : List Key),
    ((leavesNode crit curr v).map (·.1)).Nodup
  | .atom a, _, curr => by simp [leavesNode]
  | .list l, _, curr => by simp [leavesNode]
  | .dict d, hwf, curr => by
    simp only [leavesNode]
    split
    · simp
    · exact leavesDict_nodup d hwf.1 hwf.2 curr
theorem leavesDict_nodup : ∀ (d : List (Key × Py α)) (_ : (Dict.keys d).Nodup) (_ : Py.WFDict d) (curr : List Key),
    ((leavesDict crit curr d).map (·.1)).Nodup
  | [], _, _, curr => by simp [leavesDict]
  | (k, v) :: d, hnd, hwf, curr => by
    have hnd' : (Dict.keys d).Nodup := (List.nodup_cons.1 hnd).2
    have hk : k ∉ Dict.keys d := (List.nodup_cons.1 hnd).1
    rw [leavesDict, List.map_append, List.nodup_append]
    refine ⟨leavesNode_nodup v hwf.1 _, leavesDict_nodup d hnd' hwf.2 curr, ?_⟩
    rintro ks h1 js h2 rfl
    obtain ⟨⟨ks1, w⟩, m1, e1⟩ := List.mem_map.1 h1
    obtain ⟨⟨ks2, x⟩, m2, e2⟩ := List.mem_map.1 h2
    simp only at e1 e2
    obtain ⟨rel, he1, -⟩ := (mem_leavesNode crit v hwf.1 _ _ _).1 m1
    obtain ⟨rel', hne, he2, h3, -⟩ := (mem_leavesDict crit d hnd' hwf.2 _ _ _).1 m2
    have he : curr ++ [k] ++ rel = curr ++ rel' := by rw [← he1, ← he2, e1, e2]
    cases rel' with
    | nil => exact hne rfl
    | cons r rel' =>
      have : k = r := by
        rw [List.append_assoc] at he
        have := List.append_cancel_left he
        simp at this
        exact this.1
      subst this
      rw [getNested, Dict.lookup_eq_none.2 hk] at h3
      simp at h3
end

/-- Different leaf paths are never prefixes of each other. -/
theorem leaves_antichain {d : List (Key × Py α)} (hnd : (Dict.keys d).Nodup) (hwf : Py.WFDict d)
    {ks js : List Key} {w x : Py α} (h1 : (ks, w) ∈ leavesDict crit [] d) (h2 : (js, x) ∈ leavesDict crit [] d)
    (hp : ks <+: js) : ks = js := by
  obtain ⟨rel, hne, he, h3, h4, -⟩ := (mem_leavesDict crit d hnd hwf _ _ _).1 h1
  obtain ⟨rel', hne', he', h3', h4', h5⟩ := (mem_leavesDict crit d hnd hwf _ _ _).1 h2
  simp only [List.nil_append] at he he'
  subst he he'
  by_contra hk
  have := h5 _ hp hk hne w h3
  rw [List.nil_append, h4] at this
  exact absurd this (by simp)

end leaves
end Mimosa
