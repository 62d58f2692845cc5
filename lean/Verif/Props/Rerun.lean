import Verif.Lib.Skeleton
import Verif.Props.Session
import Verif.Props.SimulationConfig

/-!
# C79: a saved run can be repeated from its parameter file

`save()` writes the parameters beside the results (`….csv.params.json`). Passing what is read from that file to
`MIMOSA(...)` gives the same parameters again, hence the same model.
-/

namespace Mimosa

variable {B : Builtins} {uni : Char → Bool} {user parsed params : Val} {tree : Py Parser} {default : List (Key × Val)}

/-! ## Specification -/

mutual
/-- All dictionaries have texts as keys. -/
def Spec.TextKeys : Val → Prop
  | .atom _ => True
  | .list l => Spec.TextKeysList l
  | .dict d => Spec.TextKeysDict d
def Spec.TextKeysList : List Val → Prop
  | [] => True
  | v :: l => Spec.TextKeys v ∧ Spec.TextKeysList l
def Spec.TextKeysDict : List (Key × Val) → Prop
  | [] => True
  | (k, v) :: d => (∃ s, k = .str s) ∧ Spec.TextKeys v ∧ Spec.TextKeysDict d
end

/-- The types of parameters whose texts are not restricted: text, file path, and dictionaries and data sources with
such values (or values without a type). -/
def Spec.freeText : Parser → Bool
  | .ident => true
  | .str b | .strOrPlainDict b => !b.canBeFalse
  | .dict b _ values | .datasource b _ values => !b.canBeFalse && Spec.freeText values
  | _ => false

/-- References are used in free texts only: the values of all other parameters contain no opening brace. -/
def Spec.ReferencesInTexts (default : List (Key × Val)) (parsed : Val) : Prop :=
  ∀ ks p v, HasParser default ks p → Spec.freeText p = false → getNested ks parsed = .ok v → Spec.NoBraces v

/-- A text contains no opening brace, or one reference, to a text without opening braces. -/
def Spec.SimpleReferences (uni : Char → Bool) (parsed : Val) : Prop :=
  ∀ ks s, getNested ks parsed = .ok (.atom (.str s)) → '{' ∉ s.toList ∨
    ∃ pre m post o, s.toList = pre ++ '{' :: (m ++ '}' :: post) ∧ ('{' ∉ pre ∧ '}' ∉ pre) ∧ ('{' ∉ post ∧ '}' ∉ post) ∧
      m ≠ [] ∧ (∀ c ∈ m, refChar uni c = true) ∧ getNested (refPath m) parsed = .ok (.atom (.str o)) ∧ '{' ∉ o.toList

/-- No optional number came out as zero (see C03: a second check would turn it into `False`). -/
def Spec.NoOptionalZero (default : List (Key × Val)) (parsed : Val) : Prop :=
  ∀ ks p v, HasParser default ks p → p.base.canBeFalse = true → getNested ks parsed = .ok v → ¬ IsZero v

/-! ## JSON -/

theorem jsonLoadDict_append : (d : List (String × Json)) → (acc : List (Key × Val)) →
    (Dict.keys acc ++ d.map fun e => Key.str e.1).Nodup →
    jsonLoadDict acc d = acc ++ d.map fun e => (.str e.1, jsonLoad e.2)
  | [], acc, _ => by simp [jsonLoadDict]
  | (k, v) :: d, acc, h => by
    have hk : Key.str k ∉ Dict.keys acc := by
      intro hk
      rw [List.nodup_append] at h
      exact h.2.2 _ hk (.str k) (by simp) rfl
    rw [jsonLoadDict, Dict.insert_of_notMem hk, jsonLoadDict_append d]
    · simp
    · simpa [Dict.keys] using h

mutual
/-- Reading what was written gives the same value. -/
theorem json_roundtrip : (v : Val) → v.WF → Spec.TextKeys v → jsonLoad (jsonDump v) = v
  | .atom .null, _, _ => rfl
  | .atom (.bool _), _, _ => rfl
  | .atom (.int _), _, _ => rfl
  | .atom (.float _), _, _ => rfl
  | .atom (.str _), _, _ => rfl
  | .list l, hw, ht => by
    rw [jsonDump, jsonLoad, json_roundtripList l hw ht]
  | .dict d, hw, ht => by
    obtain ⟨h1, h2⟩ := json_roundtripDict d hw.2 ht
    rw [jsonDump, jsonLoad, jsonLoadDict_append _ _ (by rw [h1]; simpa [Dict.keys] using hw.1), h2]
    rfl
theorem json_roundtripList : (l : List Val) → Py.WFList l → Spec.TextKeysList l → jsonLoadList (jsonDumpList l) = l
  | [], _, _ => rfl
  | v :: l, hw, ht => by
    rw [jsonDumpList, jsonLoadList, json_roundtrip v hw.1 ht.1, json_roundtripList l hw.2 ht.2]
theorem json_roundtripDict : (d : List (Key × Val)) → Py.WFDict d → Spec.TextKeysDict d →
    ((jsonDumpDict d).map fun e => Key.str e.1) = Dict.keys d ∧
    ((jsonDumpDict d).map fun e => (Key.str e.1, jsonLoad e.2)) = d
  | [], _, _ => ⟨rfl, rfl⟩
  | (k, v) :: d, hw, ht => by
    obtain ⟨⟨s, rfl⟩, hv, hd⟩ := ht
    obtain ⟨h1, h2⟩ := json_roundtripDict d hw.2 hd
    rw [jsonDumpDict, List.map_cons, List.map_cons, h1, h2, json_roundtrip v hw.1 hv]
    exact ⟨rfl, rfl⟩
end

/-- **C79.** Reading a parameter file gives what was written. -/
theorem C79_file_roundtrip (hv : params.WF) (ht : Spec.TextKeys params) : jsonLoad (jsonDump params) = params :=
  json_roundtrip params hv ht

/-! ## References: skeleton and settling -/

theorem refLoop_skel {keys : List Key} {node : String} {ms : List (List Char)} {v v' : Val} {s : String}
    (hs : getNested keys v = .ok (.atom (.str s))) (h : refLoop keys node ms v = .ok v') : skel v' = skel v := by
  induction ms generalizing v s with
  | nil => simp only [refLoop, Except.ok.injEq] at h; rw [h]
  | cons m ms ih =>
    simp only [refLoop] at h
    split at h
    · exact ih hs h
    · cases h
    · split at h
      · cases h
      · next v1 h1 => rw [ih (setNested_get h1) h, setNested_leaf_skel hs rfl rfl h1]
    · cases h

theorem refLeaves_skel {L : List (List Key × Val)} (hL : PathsApart (L.map (·.1))) {v v' : Val}
    (hs : ∀ leaf ∈ L, getNested leaf.1 v = .ok leaf.2) (h : refLeaves uni L v = .ok v') : skel v' = skel v := by
  induction L generalizing v with
  | nil => simp only [refLeaves, Except.ok.injEq] at h; rw [h]
  | cons leaf L ih =>
    have hp := List.pairwise_cons.1 hL
    simp only [refLeaves] at h
    split at h
    · cases h
    · next v1 h1 =>
      obtain ⟨-, a2⟩ := refLeaf_spec (hs leaf (by simp)) h1
      rw [ih hp.2 (fun l hl => ?_) h]
      · unfold refLeaf at h1
        split at h1
        · next s he => exact refLoop_skel (by rw [hs leaf (by simp), he]) h1
        · simp only [Except.ok.injEq] at h1; rw [h1]
      · have := hp.1 l.1 (List.mem_map_of_mem hl)
        rw [a2 l.1 this.1 this.2]
        exact hs l (by simp [hl])

theorem refs_skel {d : List (Key × Val)} (hwf : (Py.dict d).WF) (h : parseParamValues uni (.dict d) = .ok params) :
    skel params = skel (.dict d) := by
  simp only [parseParamValues, leaves] at h
  exact refLeaves_skel (pathsApart_leaves hwf.1 hwf.2)
    (fun leaf hl => ((mem_plain_leaves hwf (ks := leaf.1) (w := leaf.2)).1 hl).2.1) h

theorem refLoop_unresolved {keys : List Key} {node : String} {ms : List (List Char)} {v : Val}
    (hk : ∀ m ∈ ms, getNested (refPath m) v = .error .keyError) : refLoop keys node ms v = .ok v := by
  induction ms with
  | nil => rfl
  | cons m ms ih =>
    simp only [refLoop, hk m (by simp)]
    exact ih fun m hm => hk m (by simp [hm])

/-- Without references nothing happens. -/
theorem refs_none {d : List (Key × Val)} (hwf : (Py.dict d).WF)
    (h : ∀ ks s, getNested ks (.dict d) = .ok (.atom (.str s)) → '{' ∉ s.toList) :
    parseParamValues uni (.dict d) = .ok (.dict d) := by
  simp only [parseParamValues, leaves]
  have : ∀ L : List (List Key × Val), (∀ leaf ∈ L, getNested leaf.1 (.dict d) = .ok leaf.2) →
      refLeaves uni L (.dict d) = .ok (.dict d) := by
    intro L
    induction L with
    | nil => intro _; rfl
    | cons leaf L ih =>
      intro hL
      have e : refLeaf uni (.dict d) leaf = .ok (.dict d) := by
        unfold refLeaf
        split
        · next s he =>
          refine refLoop_unresolved fun m hm => ?_
          obtain ⟨-, -, pre, post, e⟩ := (C08_references_found _ _).1 hm
          refine absurd ?_ (h leaf.1 s (by rw [hL leaf (by simp), he]))
          rw [e]; simp
        · rfl
      rw [refLeaves, e]
      exact ih fun l hl => hL l (by simp [hl])
  exact this _ fun leaf hl => ((mem_plain_leaves hwf (ks := leaf.1) (w := leaf.2)).1 hl).2.1

/-- After simple references are replaced, no braces are left. -/
theorem refs_settled {d : List (Key × Val)} (hwf : (Py.dict d).WF) (h : parseParamValues uni (.dict d) = .ok params)
    (hs : Spec.SimpleReferences uni (.dict d)) {ks : List Key} {s : String}
    (hk : getNested ks params = .ok (.atom (.str s))) : '{' ∉ s.toList := by
  have hsame := C08_same_paths hwf h ks
  rw [hk] at hsame
  have : ∃ s', getNested ks (.dict d) = .ok (.atom (.str s')) := by
    generalize getNested ks (.dict d) = r at hsame
    cases hsame with
    | str s' _ => exact ⟨s', rfl⟩
    | same => exact ⟨s, rfl⟩
  obtain ⟨s', hs'⟩ := this
  rcases hs ks s' hs' with hb | ⟨pre, m, post, o, e, hpre, hpost, hm, hmc, ho, hbo⟩
  · have := C08_unresolved_unchanged hwf h hs' fun m hm => by
      obtain ⟨-, -, pre, post, e⟩ := hm
      exact absurd (by rw [e]; simp) hb
    rw [hk] at this
    cases this
    exact hb
  · have e' : s' = String.ofList (pre ++ '{' :: (m ++ '}' :: post)) := by rw [← e, String.ofList_toList]
    rw [e'] at hs'
    have := C08_substituted_plain_partial hwf h hs' hpre hpost hm hmc ho fun m' hm' => by
      obtain ⟨-, -, a, b, e⟩ := hm'
      exact absurd (by rw [e]; simp) hbo
    rw [hk] at this
    cases this
    simp only [String.toList_ofList, List.mem_append, not_or]
    exact ⟨⟨hpre.1, hbo⟩, hpost.1⟩

/-! ## Checking the final parameters -/

theorem SameShape.getNested {a b : Val} (h : SameShape a b) {ks : List Key} {v w : Val}
    (ha : Mimosa.getNested ks a = .ok v) (hb : Mimosa.getNested ks b = .ok w) : SameShape v w := fun js => by
  have := h (ks ++ js)
  rwa [getNested_append, getNested_append, ha, hb] at this

/-- Replacing texts within the value of a free-text parameter leaves a value its parser does not change. -/
theorem freeText_reparse (B : Builtins) : ∀ p : Parser, Spec.freeText p = true → p.plainElements = true →
    ∀ u v v' : Val, p.parse B u = .ok v → SameShape v v' → skel v' = skel v → p.parse B v' = .ok v' := by
  have hdict : ∀ (k values : Parser), k.noOptionalNumber = true → values.noOptionalNumber = true →
      (∀ u v v' : Val, values.parse B u = .ok v → SameShape v v' → skel v' = skel v → values.parse B v' = .ok v') →
      ∀ d0 d d' : List (Key × Val), Parser.parseDict (k.parse B) (values.parse B) [] d0 = .ok d →
      SameShape (.dict d) (.dict d') → skelDict d' = skelDict d →
      Parser.parseDict (k.parse B) (values.parse B) [] d' = .ok d' := by
    intro k values hk hv ih d0 d d' h0 hs hsk
    obtain ⟨hf, hnd⟩ := parseDict_entriesFixed
      (fun k1 kv k' h1 h2 => parse_key_idem (fun v w h => parse_idem B k (Parser.noOptionalNumber_plain hk) v w h (Or.inl hk)) h1 h2)
      (fun v w h => parse_idem B values (Parser.noOptionalNumber_plain hv) v w h (Or.inl hv))
      (acc := []) (by intro e he; cases he) (by simp [Dict.keys]) h0
    have hkeys : Dict.keys d' = Dict.keys d := by rw [← keys_skel d', hsk, keys_skel]
    have hnd' : (Dict.keys d').Nodup := by rw [hkeys]; exact hnd
    refine parseDict_fixed (acc := []) ?_ (by simpa using hnd')
    intro e he
    obtain ⟨k1, w'⟩ := e
    have hl' := Dict.lookup_of_mem hnd' he
    have hl : (Dict.lookup k1 d).map skel = some (skel w') := by
      rw [← lookup_skel, ← hsk, lookup_skel, hl']; rfl
    cases hw : Dict.lookup k1 d with
    | none => rw [hw] at hl; cases hl
    | some w =>
      rw [hw] at hl
      obtain ⟨a1, a2⟩ := hf (k1, w) (Dict.mem_of_lookup hw)
      refine ⟨a1, ih w w w' a2 ?_ (Option.some.inj hl).symm⟩
      exact hs.getNested (ks := [k1]) (by simp [getNested, hw]) (by simp [getNested, hl'])
  intro p
  induction p with
  | ident => intro _ _ u v v' _ _ _; rfl
  | str b =>
    intro hf _ u v v' h hs hsk
    have hb : b.canBeFalse = false := by simpa [Spec.freeText] using hf
    simp only [Parser.parse, Parser.checkFalse, hb, Bool.false_and, Bool.false_eq_true, if_false, Except.ok.injEq] at h ⊢
    subst h
    have := hs []
    simp only [getNested] at this
    cases this <;> rfl
  | strOrPlainDict b =>
    intro hf _ u v v' h hs hsk
    have hb : b.canBeFalse = false := by simpa [Spec.freeText] using hf
    simp only [Parser.parse, Parser.checkFalse, hb, Bool.false_and, Bool.false_eq_true, if_false] at h ⊢
    have h0 := hs []
    simp only [getNested] at h0
    by_cases hd : u.isDict = true
    · rw [if_pos hd, Except.ok.injEq] at h
      subst h
      rw [if_pos]
      cases h0 <;> first | rfl | exact hd
    · rw [if_neg hd, Except.ok.injEq] at h
      subst h
      cases h0 <;> rfl
  | dict b k values _ ih =>
    intro hf hpl u v v' h hs hsk
    obtain ⟨hb, hfv⟩ : b.canBeFalse = false ∧ Spec.freeText values = true := by simpa [Spec.freeText] using hf
    obtain ⟨hk, hv⟩ : k.noOptionalNumber = true ∧ values.noOptionalNumber = true := by
      simpa [Parser.plainElements] using hpl
    have hc : ∀ x, Parser.checkFalse b x = false := fun x => by simp [Parser.checkFalse, hb]
    have key : ∀ d0 d, Parser.parseDict (k.parse B) (values.parse B) [] d0 = .ok d → v = .dict d →
        (Parser.dict b k values).parse B v' = .ok v' := by
      rintro d0 d h0 rfl
      cases v' with
      | atom a => cases hsk
      | list l => cases hsk
      | dict d' =>
        have := hdict k values hk hv (fun u v v' => ih hfv (Parser.noOptionalNumber_plain hv) u v v') d0 d d' h0 hs
          (by simpa [skel] using hsk)
        simp only [Parser.parse, hc, Bool.false_eq_true, if_false, this]
    simp only [Parser.parse, hc, Bool.false_eq_true, if_false] at h
    split at h
    · split at h
      · cases h
      · next d' hd' => exact key _ _ hd' (Except.ok.inj h).symm
    · exact key [] [] rfl (Except.ok.inj h).symm
    · cases h
  | datasource b k values _ ih =>
    intro hf hpl u v v' h hs hsk
    obtain ⟨hb, hfv⟩ : b.canBeFalse = false ∧ Spec.freeText values = true := by simpa [Spec.freeText] using hf
    obtain ⟨hk, hv⟩ : k.noOptionalNumber = true ∧ values.noOptionalNumber = true := by
      simpa [Parser.plainElements] using hpl
    have hc : ∀ x, Parser.checkFalse b x = false := fun x => by simp [Parser.checkFalse, hb]
    simp only [Parser.parse, hc, Bool.false_eq_true, if_false] at h
    split at h
    · split at h
      · cases h
      · next d hd =>
        split at h
        · next hall =>
          obtain rfl := Except.ok.inj h
          cases v' with
          | atom a => cases hsk
          | list l => cases hsk
          | dict d' =>
            have hsk' : skelDict d' = skelDict d := by simpa [skel] using hsk
            have := hdict k values hk hv (fun u v v' => ih hfv (Parser.noOptionalNumber_plain hv) u v v') _ d d' hd hs hsk'
            refine datasource_ok (hc _) this ?_
            rw [← hall]
            congr 1
            funext x
            have e : (Dict.lookup (.str x) d').map skel = (Dict.lookup (.str x) d).map skel := by
              rw [← lookup_skel, ← lookup_skel, hsk']
            rw [← Option.isSome_map (f := skel), e, Option.isSome_map]
        · cases h
    · cases h
  | _ => intro hf; simp [Spec.freeText] at hf

theorem zipWith_eq {β γ γ' δ : Type} {P : β → γ → Prop} {Q : β → γ' → Prop} {f : β → γ → δ} {g : β → γ' → δ} {L : List β}
    {R : List γ} {S : List γ'} (h1 : List.Forall₂ P L R) (h2 : List.Forall₂ Q L S)
    (h : ∀ a ∈ L, ∀ r s, P a r → Q a s → f a r = g a s) : List.zipWith f L R = List.zipWith g L S := by
  induction h1 generalizing S with
  | nil => simp
  | cons hp _ ih =>
    cases h2 with
    | cons hq hq' =>
      rw [List.zipWith_cons_cons, List.zipWith_cons_cons, h _ (by simp) _ _ hp hq, ih hq' fun a ha => h a (by simp [ha])]

/-- The final parameters, checked again, come out unchanged. -/
theorem checked_final {d : List (Key × Val)} (hD : DefaultOk default)
    (hpl : ∀ ks p, HasParser default ks p → p.plainElements = true)
    (hc : checkParams B default user = .ok (.dict d, tree)) (hwf : (Py.dict d).WF)
    (h : parseParamValues uni (.dict d) = .ok params) (hpw : params.WF)
    (hr : Spec.ReferencesInTexts default (.dict d)) (hz : Spec.NoOptionalZero default (.dict d)) :
    checkParams B default params = .ok (params, tree) := by
  have hskel := refs_skel hwf h
  have hshape : SameShape (.dict d) params := C08_same_paths hwf h
  have A : ∀ ks p, HasParser default ks p → ∃ v', getNested ks params = .ok v' ∧ p.parse B v' = .ok v' := by
    intro ks p hp
    obtain ⟨u, v, hv, hu⟩ := parsed_by hD hc hp
    by_cases hf : Spec.freeText p = true
    · have : ∃ v', getNested ks params = .ok v' := by
        have := hshape ks
        rw [hv] at this
        generalize getNested ks params = r at this
        cases this <;> exact ⟨_, rfl⟩
      obtain ⟨v', hv'⟩ := this
      refine ⟨v', hv', freeText_reparse B p hf (hpl ks p hp) u v v' hu (hshape.getNested hv hv') ?_⟩
      have a := getNested_skel hv
      have b := getNested_skel hv'
      rw [hskel, a] at b
      exact (Except.ok.inj b).symm
    · refine ⟨v, C08_section_unchanged hwf h hv (hr ks p v hp (by simpa using hf) hv), ?_⟩
      exact parse_idem B p (hpl ks p hp) u v hu (Or.inr fun hh => hz ks p v hp hh.1 hv hh.2)
  have A' : ∀ leaf ∈ paramDefs default, ∃ p v', Parser.create leaf.2 = .ok p ∧ getNested leaf.1 params = .ok v' ∧
      parseLeaf B params leaf = .ok (p, v') := by
    rintro ⟨ks, node⟩ hl
    obtain ⟨p, v, hcr, -⟩ := parseParams_at hD (checkParams_ok hc).1 hl
    obtain ⟨v', h1, h2⟩ := A ks p ⟨node, (isParam_iff hD).2 hl, hcr⟩
    refine ⟨p, v', hcr, h1, ?_⟩
    simp only [parseLeaf, hcr, Parser.get, h1, h2]
  obtain ⟨⟨parsed', tree'⟩, hp'⟩ := parseParams_ok (B := B) (user := params) hD fun leaf hl => by
    obtain ⟨p, v', -, -, e⟩ := A' leaf hl
    exact ⟨_, e⟩
  obtain ⟨R, hR, s1, t1⟩ := parseSteps_spec (checkParams_ok hc).1
  obtain ⟨R', hR', s2, t2⟩ := parseSteps_spec hp'
  have ht : tree' = tree := by
    rw [zipWith_eq hR' hR (g := fun leaf r => (leaf.1, Py.atom r.1))] at t2
    · rw [t1] at t2; exact (Except.ok.inj t2).symm
    · intro leaf hl r s h1 h2
      unfold parseLeaf at h1 h2
      repeat' split at h1
      all_goals cases h1
      repeat' split at h2
      all_goals cases h2
      simp_all
  have hs' : skel parsed' = skel (.dict d) := by
    have k1 := setAll_skel s1
    have k2 := setAll_skel s2
    rw [List.map_zipWith] at k1 k2
    rw [zipWith_eq hR' hR (g := fun leaf r => (leaf.1, skel r.2))] at k2
    · rw [k1] at k2; exact (Except.ok.inj k2).symm
    · intro leaf hl r s h1 h2
      obtain ⟨p, v', hcr, hg, e⟩ := A' leaf hl
      rw [e] at h1
      obtain rfl := Except.ok.inj h1
      obtain ⟨p2, v2, hcr2, hget, hg2, -⟩ := parseParams_at hD (checkParams_ok hc).1 (ks := leaf.1) (node := leaf.2) hl
      have : parseLeaf B user leaf = .ok (p2, v2) := by simp only [parseLeaf, hcr2, hget]
      rw [this] at h2
      obtain rfl := Except.ok.inj h2
      have a := getNested_skel hg
      have b := getNested_skel hg2
      rw [hskel, b] at a
      dsimp only
      rw [Except.ok.inj a]
  obtain ⟨hw', -⟩ := parseParams_wf hD hpw hp'
  have heq : parsed' = params := by
    refine skel_ext _ _ hw' (hs'.trans hskel.symm) fun js x hx hnd => ?_
    have hap : PathsApart ((List.zipWith (fun leaf r => (leaf.1, r.2)) (paramDefs default) R').map (·.1)) := by
      rw [map_fst_zipWith hR' (fun r => r.2)]; exact hD.apart
    have hat : ∀ e ∈ List.zipWith (fun leaf r => (leaf.1, r.2)) (paramDefs default) R',
        getNested e.1 parsed' = getNested e.1 params := by
      intro e he
      have h1 := setAll_get hap s2 he
      rw [h1]
      rw [← List.map_uncurry_zip_eq_zipWith] at he
      obtain ⟨⟨leaf, r⟩, hm, rfl⟩ := List.mem_map.1 he
      have hl := (List.of_mem_zip hm).1
      obtain ⟨p, v', hcr, hg, e⟩ := A' leaf hl
      obtain ⟨p2, v2, hcr2, hget, hg2, -⟩ := parseParams_at hD hp' (ks := leaf.1) (node := leaf.2) hl
      have : parseLeaf B params leaf = .ok (p2, v2) := by simp only [parseLeaf, hcr2, hget]
      rw [e] at this
      cases this
      rw [← h1]
      exact hg2.trans hg.symm
    have below : ∀ e ∈ List.zipWith (fun leaf r => (leaf.1, r.2)) (paramDefs default) R', e.1 <+: js →
        getNested js params = .ok x := by
      rintro e he ⟨t, rfl⟩
      rw [getNested_append, hat e he, ← getNested_append] at hx
      exact hx
    rcases setAll_only s2 hx with ⟨e, he, hpre | hpre⟩ | hempty
    · by_cases hje : js = e.1
      · exact below e he (hje ▸ List.prefix_refl _)
      · obtain ⟨q, hq⟩ := setAll_prefix hap s2 he hpre hje
        rw [hq] at hx
        cases hx
        cases hnd
    · exact below e he hpre
    · cases js with
      | nil => cases hempty; cases hnd
      | cons k ks => simp [getNested, Dict.lookup] at hempty
  subst heq ht
  obtain ⟨names, known, -, hk, -⟩ := checkObsolete_ok (checkParams_ok hc).2
  rw [← flattenNames_skel tree' hskel] at hk
  exact checkParams_of hp' (checkObsolete_of hk hk fun n hn => hn)

/-! ## The theorems -/

/-- What is needed for a parameter file to stand for the configuration it came from. -/
structure Spec.Repeatable (uni : Char → Bool) (default : List (Key × Val)) (parsed : Val) : Prop where
  texts : Spec.ReferencesInTexts default parsed
  simple : Spec.SimpleReferences uni parsed
  zero : Spec.NoOptionalZero default parsed

/-- **C79.** The final parameters, written to a parameter file and read again, are a valid configuration, and its final
parameters (and their types) are the same. -/
theorem C79_parameters (hu : user.WF) (h : mimosaParams B uni DefaultYaml.entries user = .ok (params, tree))
    (hr : ∀ parsed tree', checkParams B DefaultYaml.entries user = .ok (parsed, tree') →
      Spec.Repeatable uni DefaultYaml.entries parsed) (ht : Spec.TextKeys params) :
    mimosaParams B uni DefaultYaml.entries (jsonLoad (jsonDump params)) = .ok (params, tree) := by
  obtain ⟨d, hc, hwf, hp, hpw⟩ := mimosaParams_spec hu h
  have R := hr _ _ hc
  rw [json_roundtrip params hpw ht]
  have h1 := checked_final default_ok default_plainElements hc hwf hp hpw R.texts R.zero
  obtain ⟨-, hd⟩ := parseParams_wf default_ok hpw (checkParams_ok h1).1
  cases params with
  | atom a => cases hd
  | list l => cases hd
  | dict d' =>
    have h2 : parseParamValues uni (.dict d') = .ok (.dict d') :=
      refs_none hpw fun ks s hk => refs_settled hwf hp R.simple hk
    simp only [mimosaParams, h1, h2]

/-- **C79.** Hence the repeated run has the same modules and the same data: whatever `create_instance` got from the
original configuration, it gets from the parameter file. -/
theorem C79_same_model {F : RegionalFiles} {W : DataWorld} {c : DataCache} {md : Modules} {entries : List (String × IData)}
    (hu : user.WF) (S : Setup B uni F W user c params tree md entries)
    (hr : ∀ parsed tree', checkParams B DefaultYaml.entries user = .ok (parsed, tree') →
      Spec.Repeatable uni DefaultYaml.entries parsed) (ht : Spec.TextKeys params)
    {params' : Val} {tree' : Py Parser} {md' : Modules} {entries' : List (String × IData)} :
    Setup B uni F W (jsonLoad (jsonDump params)) c params' tree' md' entries' ↔
      params' = params ∧ tree' = tree ∧ md' = md ∧ entries' = entries := by
  have h := C79_parameters hu S.config hr ht
  constructor
  · intro S'
    have h1 := S'.config
    rw [h] at h1
    cases h1
    have h2 := S'.modules
    rw [S.modules] at h2
    cases h2
    have h3 := S'.inst
    rw [S.inst] at h3
    cases h3
    exact ⟨rfl, rfl, rfl, rfl⟩
  · rintro ⟨rfl, rfl, rfl, rfl⟩
    exact ⟨h, S.modules, S.inst⟩

/-- **C79.** After any history of calls on the model, every complete parameter file can be used to repeat the run. -/
theorem C79_from_file {F : RegionalFiles} {W : DataWorld} {c : DataCache} {md : Modules} {entries : List (String × IData)}
    (hu : user.WF) (S : Setup B uni F W user c params tree md entries)
    (hr : ∀ parsed tree', checkParams B DefaultYaml.entries user = .ok (parsed, tree') →
      Spec.Repeatable uni DefaultYaml.entries parsed) (ht : Spec.TextKeys params)
    {M : SessionModel} (hM : M.config = params) {values : Env} {calls : List Call} {q : String} {j : Json}
    (hf : ((Session.init values).run M calls).paramFiles q = some (.complete j)) :
    Setup B uni F W (jsonLoad j) c params tree md entries := by
  rw [C48_param_file values hf, hM]
  exact (C79_same_model hu S hr ht).2 ⟨rfl, rfl, rfl, rfl⟩

/-! ## Checking the hypotheses of a concrete configuration -/

/-- No opening brace in the text that the value is, if it is one. -/
def leafNoBrace : Val → Bool
  | .atom (.str s) => !s.toList.contains '{'
  | _ => true

/-- No opening brace in the value. -/
def noBracesB : Val → Bool
  | .dict d => (leavesDict (fun _ v => !v.isDict) [] d).all fun l => leafNoBrace l.2
  | v => leafNoBrace v

/-- The text has one reference, to a text without opening braces. -/
def simpleTextB (uni : Char → Bool) (parsed : Val) (s : List Char) : Bool :=
  let pre := s.takeWhile fun c => c ≠ '{'
  let rest := (s.dropWhile fun c => c ≠ '{').drop 1
  let m := rest.takeWhile fun c => c ≠ '}'
  let post := (rest.dropWhile fun c => c ≠ '}').drop 1
  decide (s = pre ++ '{' :: (m ++ '}' :: post)) && (!pre.contains '{' && !pre.contains '}') &&
    (!post.contains '{' && !post.contains '}') && !m.isEmpty && m.all (refChar uni) &&
    match getNested (refPath m) parsed with
    | .ok (.atom (.str o)) => !o.toList.contains '{'
    | _ => false

def simpleB (uni : Char → Bool) : Val → Bool
  | .dict d => (leavesDict (fun _ v => !v.isDict) [] d).all fun l => match l.2 with
    | .atom (.str s) => !s.toList.contains '{' || simpleTextB uni (.dict d) s.toList
    | _ => true
  | _ => false

def isZeroB : Val → Bool
  | .atom (.int i) => decide (i = 0)
  | .atom (.float (.fin q)) => decide (q = 0)
  | _ => false

def parserOkB (parsed : Val) (ks : List Key) (p : Parser) : Bool := match getNested ks parsed with
  | .ok v => (Spec.freeText p || noBracesB v) && !(p.base.canBeFalse && isZeroB v)
  | .error _ => true

def repeatableB (uni : Char → Bool) (default : List (Key × Val)) (parsed : Val) : Bool :=
  simpleB uni parsed && (paramDefs default).all fun l => parserB (parserOkB parsed l.1) (Parser.create l.2)

theorem noBracesB_spec {v : Val} (hv : v.WF) (h : noBracesB v = true) : Spec.NoBraces v := by
  intro js s hs
  cases v with
  | atom a =>
    cases js with
    | nil =>
      simp only [getNested, Except.ok.injEq, Py.atom.injEq] at hs
      subst hs
      simpa [noBracesB, leafNoBrace] using h
    | cons k js => simp [getNested] at hs
  | list l =>
    cases js with
    | nil => simp [getNested] at hs
    | cons k js => simp [getNested] at hs
  | dict d =>
    have hne : js ≠ [] := by rintro rfl; simp [getNested] at hs
    have hm := (mem_plain_leaves hv).2 ⟨hne, hs, rfl⟩
    have := List.all_eq_true.1 h _ hm
    simpa [leafNoBrace] using this

theorem simpleB_spec {parsed : Val} (hv : parsed.WF) (h : simpleB uni parsed = true) : Spec.SimpleReferences uni parsed := by
  intro ks s hs
  cases parsed with
  | atom a => cases h
  | list l => cases h
  | dict d =>
    have hne : ks ≠ [] := by rintro rfl; simp [getNested] at hs
    have hm := (mem_plain_leaves hv).2 ⟨hne, hs, rfl⟩
    have := List.all_eq_true.1 h _ hm
    simp only [Bool.or_eq_true] at this
    rcases this with hb | hb
    · exact Or.inl (by simpa using hb)
    · right
      simp only [simpleTextB, Bool.and_eq_true, decide_eq_true_eq] at hb
      obtain ⟨⟨⟨⟨⟨h1, h2, h3⟩, h4, h5⟩, h6⟩, h7⟩, h8⟩ := hb
      split at h8
      · next o ho =>
        refine ⟨_, _, _, o, h1, ⟨?_, ?_⟩, ⟨?_, ?_⟩, ?_, fun c hc => List.all_eq_true.1 h7 c hc, ho, ?_⟩
        · simpa using h2
        · simpa using h3
        · simpa using h4
        · simpa using h5
        · intro e; rw [e] at h6; simp at h6
        · simpa using h8
      · cases h8

theorem repeatableB_spec {parsed : Val} (hD : DefaultOk default) (hv : parsed.WF)
    (h : repeatableB uni default parsed = true) : Spec.Repeatable uni default parsed := by
  simp only [repeatableB, Bool.and_eq_true] at h
  have key : ∀ ks p v, HasParser default ks p → getNested ks parsed = .ok v →
      (Spec.freeText p || noBracesB v) = true ∧ (!(p.base.canBeFalse && isZeroB v)) = true := by
    rintro ks p v ⟨node, hn, hc⟩ hg
    have := List.all_eq_true.1 h.2 (ks, node) ((isParam_iff hD).1 hn)
    dsimp only at this
    rw [hc] at this
    simpa only [parserB, parserOkB, hg, Bool.and_eq_true] using this
  refine ⟨fun ks p v hp hf hg => ?_, simpleB_spec hv h.1, fun ks p v hp hf hg hz => ?_⟩
  · have := (key ks p v hp hg).1
    rw [hf, Bool.false_or] at this
    exact noBracesB_spec (getNested_wf hv hg) this
  · have := (key ks p v hp hg).2
    rw [hf] at this
    rcases hz with rfl | rfl <;> simp [isZeroB] at this

mutual
def textKeysB : Val → Bool
  | .atom _ => true
  | .list l => textKeysListB l
  | .dict d => textKeysDictB d
def textKeysListB : List Val → Bool
  | [] => true
  | v :: l => textKeysB v && textKeysListB l
def textKeysDictB : List (Key × Val) → Bool
  | [] => true
  | (k, v) :: d => (match k with | .str _ => true | .int _ => false) && textKeysB v && textKeysDictB d
end

mutual
theorem textKeysB_spec : (v : Val) → textKeysB v = true → Spec.TextKeys v
  | .atom _, _ => trivial
  | .list l, h => textKeysListB_spec l h
  | .dict d, h => textKeysDictB_spec d h
theorem textKeysListB_spec : (l : List Val) → textKeysListB l = true → Spec.TextKeysList l
  | [], _ => trivial
  | v :: l, h => by
    simp only [textKeysListB, Bool.and_eq_true] at h
    exact ⟨textKeysB_spec v h.1, textKeysListB_spec l h.2⟩
theorem textKeysDictB_spec : (d : List (Key × Val)) → textKeysDictB d = true → Spec.TextKeysDict d
  | [], _ => trivial
  | (k, v) :: d, h => by
    simp only [textKeysDictB, Bool.and_eq_true] at h
    refine ⟨?_, textKeysB_spec v h.1.2, textKeysDictB_spec d h.2⟩
    cases k with
    | str s => exact ⟨s, rfl⟩
    | int i => cases h.1.1
end

/-! ## Concrete cases -/

/-- The hypotheses of C79 hold for the configuration of `exampleSetup`. -/
theorem exampleUser_repeatable :
    (∀ parsed tree, checkParams exampleBuiltins DefaultYaml.entries exampleUser = .ok (parsed, tree) →
      Spec.Repeatable (fun _ => false) DefaultYaml.entries parsed) ∧
    ∀ params tree, mimosaParams exampleBuiltins (fun _ => false) DefaultYaml.entries exampleUser = .ok (params, tree) →
      Spec.TextKeys params := by
  have hu : exampleUser.WF := by simp [exampleUser, exDict, exStr, Py.WF, Py.WFDict, Py.WFList, Dict.keys]
  constructor
  · intro parsed tree h
    have key : (match checkParams exampleBuiltins DefaultYaml.entries exampleUser with
      | .ok r => repeatableB (fun _ => false) DefaultYaml.entries r.1
      | .error _ => false) = true := by decide +kernel
    rw [h] at key
    exact repeatableB_spec default_ok (parseParams_wf default_ok hu (checkParams_ok h).1).1 key
  · intro params tree h
    have key : (match mimosaParams exampleBuiltins (fun _ => false) DefaultYaml.entries exampleUser with
      | .ok r => textKeysB r.1
      | .error _ => false) = true := by decide +kernel
    rw [h] at key
    exact textKeysB_spec _ key

/-- A concrete case: the configuration of `exampleSetup`, saved and repeated. -/
example : ∃ params tree md entries,
    Setup exampleBuiltins (fun _ => false) exampleFiles2 exampleWorld2 exampleUser (afterHistory exampleWorld2 [])
      params tree md entries ∧
    Setup exampleBuiltins (fun _ => false) exampleFiles2 exampleWorld2 (jsonLoad (jsonDump params))
      (afterHistory exampleWorld2 []) params tree md entries := by
  have hu : exampleUser.WF := by simp [exampleUser, exDict, exStr, Py.WF, Py.WFDict, Py.WFList, Dict.keys]
  obtain ⟨params, tree, md, entries, S, -⟩ := exampleSetup
  exact ⟨params, tree, md, entries, S, (C79_same_model hu S exampleUser_repeatable.1
    (exampleUser_repeatable.2 _ _ S.config)).2 ⟨rfl, rfl, rfl, rfl⟩⟩

/-- … from the file written by `save` after a solve. -/
example (v : Env) : ∃ params tree md entries j,
    Setup exampleBuiltins (fun _ => false) exampleFiles2 exampleWorld2 exampleUser (afterHistory exampleWorld2 [])
      params tree md entries ∧
    ((Session.init v).run { exampleSession with config := params } [.solve (exampleSolve .ok σ0),
      .save ⟨some "run1", "output", false, "", .ok (), .ok ()⟩]).paramFiles "output/run1.csv.params.json" =
        some (.complete j) ∧
    Setup exampleBuiltins (fun _ => false) exampleFiles2 exampleWorld2 (jsonLoad j)
      (afterHistory exampleWorld2 []) params tree md entries := by
  have hu : exampleUser.WF := by simp [exampleUser, exDict, exStr, Py.WF, Py.WFDict, Py.WFList, Dict.keys]
  obtain ⟨params, tree, md, entries, S, -⟩ := exampleSetup
  have hf := C48_param_file_written (M := { exampleSession with config := params })
    (s := (Session.init v).run { exampleSession with config := params } [.solve (exampleSolve .ok σ0)])
    (c := ⟨some "run1", "output", false, "", .ok (), .ok ()⟩) rfl
    (q := "output/run1.csv") ⟨rfl, "run1", .inl rfl, .inr ⟨rfl, rfl⟩⟩
  exact ⟨params, tree, md, entries, _, S, hf, C79_from_file hu S exampleUser_repeatable.1
    (exampleUser_repeatable.2 _ _ S.config) (M := { exampleSession with config := params }) rfl
    (calls := [.solve (exampleSolve .ok σ0), .save ⟨some "run1", "output", false, "", .ok (), .ok ()⟩]) hf⟩

/-- A configuration with two references in one text. -/
def twoReferencesUser : Val := exDict
  [("input", exDict [("variables", exDict [("GDP", exDict
    [("variable", exStr "GDP|PPP"), ("unit", exStr "currency_unit"), ("scenario", exStr "{SSP}-{model - damage module}"),
     ("model", exStr "IMAGE"), ("file", exStr "data.csv")])])])]

/-- **C79 needs simple references**: with two references in one text, the first run replaces the last one, the repeated
run the other one (see C08). -/
theorem C79_two_references : ∃ params tree params' tree',
    mimosaParams exampleBuiltins (fun _ => false) DefaultYaml.entries twoReferencesUser = .ok (params, tree) ∧
    mimosaParams exampleBuiltins (fun _ => false) DefaultYaml.entries (jsonLoad (jsonDump params)) = .ok (params', tree') ∧
    getNested [.str "input", .str "variables", .str "GDP", .str "scenario"] params = .ok (.atom (.str "{SSP}-COACCH")) ∧
    getNested [.str "input", .str "variables", .str "GDP", .str "scenario"] params' = .ok (.atom (.str "SSP2-COACCH")) := by
  have key : (match mimosaParams exampleBuiltins (fun _ => false) DefaultYaml.entries twoReferencesUser with
      | .error _ => false
      | .ok (params, _) =>
        match mimosaParams exampleBuiltins (fun _ => false) DefaultYaml.entries (jsonLoad (jsonDump params)) with
        | .error _ => false
        | .ok (params', _) =>
          (match getNested [.str "input", .str "variables", .str "GDP", .str "scenario"] params with
            | .ok (.atom (.str s)) => decide (s = "{SSP}-COACCH")
            | _ => false) &&
          (match getNested [.str "input", .str "variables", .str "GDP", .str "scenario"] params' with
            | .ok (.atom (.str s)) => decide (s = "SSP2-COACCH")
            | _ => false)) = true := by decide +kernel
  split at key
  · cases key
  · next params tree h1 =>
    split at key
    · cases key
    · next params' tree' h2 =>
      rw [Bool.and_eq_true] at key
      obtain ⟨k1, k2⟩ := key
      refine ⟨params, tree, params', tree', h1, h2, ?_, ?_⟩
      · split at k1
        · next s hs => rw [hs, of_decide_eq_true k1]
        · cases k1
      · split at k2
        · next s hs => rw [hs, of_decide_eq_true k2]
        · cases k2

/-- **C79 needs texts as keys**: integer keys (the years of simulation data) come back as texts. -/
theorem C79_integer_keys :
    jsonLoad (jsonDump (.dict [(.int 2020, .dict [(.str "A", .atom (.float (.fin 0)))])])) =
      .dict [(.str "2020", .dict [(.str "A", .atom (.float (.fin 0)))])] := rfl

end Mimosa
