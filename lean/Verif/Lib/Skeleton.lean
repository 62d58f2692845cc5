import Verif.Lib.CheckFacts

/-! # Dictionaries up to their leaves -/

namespace Mimosa

mutual
/-- Forget everything but the dictionaries and the order of their keys. -/
def skel : Val → Py Unit
  | .dict d => .dict (skelDict d)
  | .atom _ => .atom ()
  | .list _ => .atom ()
def skelDict : List (Key × Val) → List (Key × Py Unit)
  | [] => []
  | (k, v) :: d => (k, skel v) :: skelDict d
end

theorem skel_plain {v : Val} (h : v.isDict = false) : skel v = .atom () := by
  cases v <;> first | rfl | cases h

theorem lookup_skel (k : Key) : (d : List (Key × Val)) → Dict.lookup k (skelDict d) = (Dict.lookup k d).map skel
  | [] => rfl
  | (k', v) :: d => by
    simp only [skelDict, Dict.lookup]
    split
    · rfl
    · exact lookup_skel k d

theorem insert_skel (k : Key) (v : Val) : (d : List (Key × Val)) →
    skelDict (Dict.insert k v d) = Dict.insert k (skel v) (skelDict d)
  | [] => rfl
  | (k', w) :: d => by
    simp only [skelDict, Dict.insert]
    split
    · rfl
    · simp only [skelDict, insert_skel k v d]

theorem keys_skel : (d : List (Key × Val)) → Dict.keys (skelDict d) = Dict.keys d
  | [] => rfl
  | (k, v) :: d => by
    have := keys_skel d
    simp only [Dict.keys] at this ⊢
    simp [skelDict, this]

theorem getNested_skel {ks : List Key} {v w : Val} (h : getNested ks v = .ok w) :
    getNested ks (skel v) = .ok (skel w) := by
  induction ks generalizing v with
  | nil => simp only [getNested, Except.ok.injEq] at h ⊢; rw [h]
  | cons k ks ih =>
    cases v with
    | atom a => simp [getNested] at h
    | list l => simp [getNested] at h
    | dict d =>
      simp only [getNested] at h
      simp only [skel, getNested, lookup_skel]
      cases hl : Dict.lookup k d with
      | none => rw [hl] at h; cases h
      | some x => rw [hl] at h; exact ih h

theorem setNested_skel {ks : List Key} {x v v' : Val} (h : setNested ks x v = .ok v') :
    setNested ks (skel x) (skel v) = .ok (skel v') := by
  induction ks generalizing v v' with
  | nil => simp [setNested] at h
  | cons k ks ih =>
    cases v with
    | atom a => cases ks <;> simp [setNested] at h
    | list l => cases ks <;> simp [setNested] at h
    | dict d =>
      cases ks with
      | nil =>
        simp only [setNested, Except.ok.injEq] at h
        subst h
        simp [setNested, skel, insert_skel]
      | cons k' ks =>
        simp only [setNested] at h
        split at h
        · next sub hs =>
          simp only [Except.ok.injEq] at h
          subst h
          have := ih hs
          have e : skel ((Dict.lookup k d).getD (.dict [])) = (Dict.lookup k (skelDict d)).getD (.dict []) := by
            rw [lookup_skel]
            cases Dict.lookup k d <;> rfl
          rw [e] at this
          simp only [skel, setNested, this, insert_skel]
        · cases h

theorem setAll_skel {L : List (List Key × Val)} {v v' : Val} (h : setAll L v = .ok v') :
    setAll (L.map fun e => (e.1, skel e.2)) (skel v) = .ok (skel v') := by
  induction L generalizing v with
  | nil => simp only [setAll, Except.ok.injEq] at h; subst h; rfl
  | cons e L ih =>
    obtain ⟨ks, x⟩ := e
    simp only [setAll] at h
    split at h
    · cases h
    · next v1 h1 =>
      simp only [List.map_cons, setAll, setNested_skel h1]
      exact ih h

section
variable {α : Type}

theorem insert_same {k : Key} {v : Py α} : {d : List (Key × Py α)} → Dict.lookup k d = some v → Dict.insert k v d = d
  | [], h => by cases h
  | (k', w) :: d, h => by
    simp only [Dict.lookup] at h
    simp only [Dict.insert]
    split at h
    · next e => cases h; rw [if_pos e, e]
    · next e => rw [if_neg e, insert_same h]

/-- Assigning the value that is there changes nothing. -/
theorem setNested_same {ks : List Key} (hne : ks ≠ []) {v x : Py α} (h : getNested ks v = .ok x) :
    setNested ks x v = .ok v := by
  induction ks generalizing v with
  | nil => exact absurd rfl hne
  | cons k ks ih =>
    cases v with
    | atom a => simp [getNested] at h
    | list l => simp [getNested] at h
    | dict d =>
      simp only [getNested] at h
      cases hl : Dict.lookup k d with
      | none => rw [hl] at h; cases h
      | some y =>
        rw [hl] at h
        cases ks with
        | nil =>
          simp only [getNested, Except.ok.injEq] at h
          subst h
          simp [setNested, insert_same hl]
        | cons k' ks =>
          simp only [setNested, hl, Option.getD_some, ih (by simp) h, insert_same hl]
end

/-- Replacing a leaf keeps the skeleton. -/
theorem setNested_leaf_skel {ks : List Key} {v v' x y : Val} (h : getNested ks v = .ok x) (hx : x.isDict = false)
    (hy : y.isDict = false) (hs : setNested ks y v = .ok v') : skel v' = skel v := by
  have hne : ks ≠ [] := by rintro rfl; simp [setNested] at hs
  have h1 := setNested_skel hs
  have h2 := setNested_same hne (getNested_skel h)
  rw [skel_plain hx] at h2
  rw [skel_plain hy, h2] at h1
  exact (Except.ok.inj h1).symm

mutual
/-- Two values with the same skeleton and the same leaves are equal. -/
theorem skel_ext : (a b : Val) → a.WF → skel a = skel b →
    (∀ js x, getNested js a = .ok x → x.isDict = false → getNested js b = .ok x) → a = b
  | .atom x, b, _, hs, h => by
    have := h [] (.atom x) rfl rfl
    simpa [getNested] using this.symm
  | .list l, b, _, hs, h => by
    have := h [] (.list l) rfl rfl
    simpa [getNested] using this.symm
  | .dict d, .atom _, _, hs, _ => by cases hs
  | .dict d, .list _, _, hs, _ => by cases hs
  | .dict d, .dict d', hwf, hs, h => by
    simp only [skel, Py.dict.injEq] at hs
    have hk : Dict.keys d = Dict.keys d' := by rw [← keys_skel d, hs, keys_skel]
    rw [skelDict_ext d d' hwf.1 hwf.2 hs fun k v hv js x hx hd => ?_]
    have := h (k :: js) x (by simp only [getNested, hv]; exact hx) hd
    simp only [getNested] at this
    cases hl : Dict.lookup k d' with
    | none => rw [hl] at this; cases this
    | some w => rw [hl] at this; exact ⟨w, rfl, this⟩
theorem skelDict_ext : (d d' : List (Key × Val)) → (Dict.keys d).Nodup → Py.WFDict d → skelDict d = skelDict d' →
    (∀ k v, Dict.lookup k d = some v → ∀ js x, getNested js v = .ok x → x.isDict = false →
      ∃ w, Dict.lookup k d' = some w ∧ getNested js w = .ok x) → d = d'
  | [], [], _, _, _, _ => rfl
  | [], _ :: _, _, _, hs, _ => by cases hs
  | _ :: _, [], _, _, hs, _ => by cases hs
  | (k, v) :: d, (k', v') :: d', hn, hwf, hs, h => by
    simp only [skelDict, List.cons.injEq, Prod.mk.injEq] at hs
    obtain ⟨⟨rfl, hv⟩, hd⟩ := hs
    simp only [Dict.keys, List.map_cons, List.nodup_cons] at hn
    have hk : k ∉ Dict.keys d' := by
      rw [← keys_skel d', ← hd, keys_skel]; exact hn.1
    have e1 : v = v' := skel_ext v v' hwf.1 hv fun js x hx hd => by
      obtain ⟨w, hw, h'⟩ := h k v (by simp [Dict.lookup]) js x hx hd
      simp only [Dict.lookup, if_true, Option.some.injEq] at hw
      rw [hw]; exact h'
    have e2 : d = d' := skelDict_ext d d' hn.2 hwf.2 hd fun k₁ v₁ hv₁ js x hx hd => by
      have hne : k₁ ≠ k := by
        rintro rfl
        exact hn.1 (List.mem_map.2 ⟨_, Dict.mem_of_lookup hv₁, rfl⟩)
      obtain ⟨w, hw, h'⟩ := h k₁ v₁ (by simp only [Dict.lookup, if_neg hne.symm, hv₁]) js x hx hd
      simp only [Dict.lookup, if_neg hne.symm] at hw
      exact ⟨w, hw, h'⟩
    rw [e1, e2]
end

mutual
/-- The names of the parameters only depend on the skeleton. -/
theorem flattenNode_skel (tree : Py Parser) : (keys : List Key) → (a b : Val) → skel a = skel b →
    flattenNode tree keys a = flattenNode tree keys b
  | keys, .dict d, .dict d', h => by
    simp only [skel, Py.dict.injEq] at h
    simp only [flattenNode, flattenDict_skel tree keys d d' h]
  | keys, .dict d, .atom a, h => by cases h
  | keys, .dict d, .list a, h => by cases h
  | keys, .atom a, .dict d, h => by cases h
  | keys, .list a, .dict d, h => by cases h
  | keys, .atom a, .atom b, _ => by simp only [flattenNode]
  | keys, .atom a, .list b, _ => by simp only [flattenNode]
  | keys, .list a, .atom b, _ => by simp only [flattenNode]
  | keys, .list a, .list b, _ => by simp only [flattenNode]
theorem flattenDict_skel (tree : Py Parser) : (curr : List Key) → (d d' : List (Key × Val)) → skelDict d = skelDict d' →
    flattenDict tree curr d = flattenDict tree curr d'
  | curr, [], [], _ => rfl
  | curr, [], _ :: _, h => by cases h
  | curr, _ :: _, [], h => by cases h
  | curr, (k, v) :: d, (k', v') :: d', h => by
    simp only [skelDict, List.cons.injEq, Prod.mk.injEq] at h
    obtain ⟨⟨rfl, hv⟩, hd⟩ := h
    simp only [flattenDict, flattenNode_skel tree _ v v' hv, flattenDict_skel tree curr d d' hd]
end

theorem flattenNames_skel (tree : Py Parser) {a b : Val} (h : skel a = skel b) : flattenNames tree a = flattenNames tree b := by
  cases a with
  | dict d => cases b with
    | dict d' =>
      simp only [skel, Py.dict.injEq] at h
      exact flattenDict_skel tree [] d d' h
    | atom _ => cases h
    | list _ => cases h
  | atom _ => cases b with
    | dict d' => cases h
    | atom _ => rfl
    | list _ => rfl
  | list _ => cases b with
    | dict d' => cases h
    | atom _ => rfl
    | list _ => rfl

end Mimosa
