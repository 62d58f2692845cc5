import Verif.Config.Units
import Verif.Lib.Replace

/-!
# C10: unit aliases are fully expanded; C51: units in the output are printed per year
-/

namespace Mimosa

/-! ## C10 -/

/-- Specification: the names of the default units, and the word `year`. -/
def unitAliases : List String :=
  ["currency_unit", "emissionsrate_unit", "emissions_unit", "temperature_unit", "population_unit"]

/-- Specification: the full expansion of one word of a unit string. -/
def unitExpansion (w : List Char) : List Char :=
  if w = "currency_unit".toList then "(trillion USD2005/yr)".toList
  else if w = "emissionsrate_unit".toList then "((GtCO2)/yr)".toList
  else if w = "emissions_unit".toList then "(GtCO2)".toList
  else if w = "temperature_unit".toList then "(delta_degC)".toList
  else if w = "population_unit".toList then "(billion)".toList
  else if w = "year".toList then "yr".toList
  else w

theorem repl_gone (w new s : List Char) (hne : w ≠ []) (h : Separated w new) :
    ¬ w <:+: replaceAll w new 0 s :=
  (replaceAll_replaced hne new s).gone h hne

theorem repl_keeps_gone {w old new s : List Char} (hne : w ≠ []) (ho : old ≠ []) (h : Separated w new)
    (hs : ¬ w <:+: s) : ¬ w <:+: replaceAll old new 0 s :=
  fun h' => hs ((replaceAll_replaced ho new s).infix h hne h')

theorem parseDefaultUnits_eq (s : List Char) : parseDefaultUnits s =
    replaceAll "year".toList "yr".toList 0
     (replaceAll "population_unit".toList "(billion)".toList 0
      (replaceAll "temperature_unit".toList "(delta_degC)".toList 0
       (replaceAll "emissions_unit".toList "(GtCO2)".toList 0
        (replaceAll "emissionsrate_unit".toList "(emissions_unit/yr)".toList 0
         (replaceAll "currency_unit".toList "(trillion USD2005/yr)".toList 0 s))))) := rfl

/-- **C10.** Whatever the unit string, the string handed to Pint by `quant.unit` contains none of the default-unit
names and not the word `year`. -/
theorem C10_no_alias_left (unit : List Char) :
    (∀ a ∈ unitAliases, ¬ a.toList <:+: unitString unit) ∧ ¬ "year".toList <:+: unitString unit := by
  unfold unitString
  rw [parseDefaultUnits_eq]
  constructor
  · intro a ha
    simp only [unitAliases, List.mem_cons, List.not_mem_nil, or_false] at ha
    rcases ha with rfl | rfl | rfl | rfl | rfl
    · refine repl_keeps_gone (by decide) (by decide) (by decide) ?_
      refine repl_keeps_gone (by decide) (by decide) (by decide) ?_
      refine repl_keeps_gone (by decide) (by decide) (by decide) ?_
      refine repl_keeps_gone (by decide) (by decide) (by decide) ?_
      refine repl_keeps_gone (by decide) (by decide) (by decide) ?_
      exact repl_gone _ _ _ (by decide) (by decide)
    · refine repl_keeps_gone (by decide) (by decide) (by decide) ?_
      refine repl_keeps_gone (by decide) (by decide) (by decide) ?_
      refine repl_keeps_gone (by decide) (by decide) (by decide) ?_
      refine repl_keeps_gone (by decide) (by decide) (by decide) ?_
      exact repl_gone _ _ _ (by decide) (by decide)
    · refine repl_keeps_gone (by decide) (by decide) (by decide) ?_
      refine repl_keeps_gone (by decide) (by decide) (by decide) ?_
      refine repl_keeps_gone (by decide) (by decide) (by decide) ?_
      exact repl_gone _ _ _ (by decide) (by decide)
    · refine repl_keeps_gone (by decide) (by decide) (by decide) ?_
      refine repl_keeps_gone (by decide) (by decide) (by decide) ?_
      exact repl_gone _ _ _ (by decide) (by decide)
    · refine repl_keeps_gone (by decide) (by decide) (by decide) ?_
      exact repl_gone _ _ _ (by decide) (by decide)
  · exact repl_gone _ _ _ (by decide) (by decide)

/-- **C10** for the target unit of `quant(value, unit)`. -/
theorem C10_no_alias_left_in_target (unit : List Char) :
    (∀ a ∈ unitAliases, ¬ a.toList <:+: targetUnit unit) ∧ ¬ "year".toList <:+: targetUnit unit :=
  C10_no_alias_left (customReplace unit)

/-- A character that separates the words of a unit string: not a letter or an underscore. -/
def UnitSep (c : Char) : Prop := isLetter c = false ∧ c ≠ '_'

theorem not_mem_of_unitSep {c : Char} (h : UnitSep c) {w : List Char}
    (hw : ∀ d ∈ w, isLetter d = true ∨ d = '_') : c ∉ w := by
  intro hc
  rcases hw c hc with h' | h'
  · rw [h.1] at h'; cases h'
  · exact h.2 h'

theorem parseDefaultUnits_sep {c : Char} (h : UnitSep c) (a b : List Char) :
    parseDefaultUnits (a ++ c :: b) = parseDefaultUnits a ++ c :: parseDefaultUnits b := by
  have hs : ∀ w : List Char, (∀ d ∈ w, isLetter d = true ∨ d = '_') → c ∉ w := fun w hw => not_mem_of_unitSep h hw
  rw [parseDefaultUnits_eq, parseDefaultUnits_eq, parseDefaultUnits_eq,
    replaceAll_sep (by decide) _ (hs _ (by decide)), replaceAll_sep (by decide) _ (hs _ (by decide)),
    replaceAll_sep (by decide) _ (hs _ (by decide)), replaceAll_sep (by decide) _ (hs _ (by decide)),
    replaceAll_sep (by decide) _ (hs _ (by decide)), replaceAll_sep (by decide) _ (hs _ (by decide))]

/-- A plain word of a unit string: it contains no alias and no `year`. -/
def PlainUnit (w : List Char) : Prop := (∀ a ∈ unitAliases, ¬ a.toList <:+: w) ∧ ¬ "year".toList <:+: w

instance (w : List Char) : Decidable (PlainUnit w) := by unfold PlainUnit; infer_instance

/-- A word of a unit string: a default-unit name, `year`, or a plain word. -/
def UnitWord (w : List Char) : Prop := (∃ a ∈ unitAliases, w = a.toList) ∨ w = "year".toList ∨ PlainUnit w

theorem parseDefaultUnits_plain {w : List Char} (h : PlainUnit w) : parseDefaultUnits w = w := by
  have ha := h.1
  simp only [unitAliases, List.forall_mem_cons, List.not_mem_nil, IsEmpty.forall_iff, implies_true,
    and_true] at ha
  rw [parseDefaultUnits_eq, replaceAll_none _ ha.1, replaceAll_none _ ha.2.1, replaceAll_none _ ha.2.2.1,
    replaceAll_none _ ha.2.2.2.1, replaceAll_none _ ha.2.2.2.2, replaceAll_none _ h.2]

theorem parseDefaultUnits_word {w : List Char} (h : UnitWord w) : parseDefaultUnits w = unitExpansion w := by
  rcases h with ⟨a, ha, rfl⟩ | rfl | h
  · simp only [unitAliases, List.mem_cons, List.not_mem_nil, or_false] at ha
    rcases ha with rfl | rfl | rfl | rfl | rfl <;> decide
  · decide
  · rw [parseDefaultUnits_plain h]
    have ha := h.1
    simp only [unitAliases, List.forall_mem_cons, List.not_mem_nil, IsEmpty.forall_iff, implies_true,
      and_true] at ha
    unfold unitExpansion
    rw [if_neg, if_neg, if_neg, if_neg, if_neg, if_neg]
    · rintro rfl; exact h.2 (List.infix_refl _)
    · rintro rfl; exact ha.2.2.2.2 (List.infix_refl _)
    · rintro rfl; exact ha.2.2.2.1 (List.infix_refl _)
    · rintro rfl; exact ha.2.2.1 (List.infix_refl _)
    · rintro rfl; exact ha.2.1 (List.infix_refl _)
    · rintro rfl; exact ha.1 (List.infix_refl _)

/-- The unit string consisting of the words and separators `(w₁, c₁), …` and the final word. -/
def unitText (f : List Char → List Char) (ws : List (List Char × Char)) (last : List Char) : List Char :=
  ws.foldr (fun p s => f p.1 ++ p.2 :: s) (f last)

/-- **C10.** Each word of a unit string is replaced by its full expansion, and nothing else is changed: for every
sequence of words separated by characters other than letters and underscores (`*`, `/`, blanks, brackets,
digits …). -/
theorem C10_words_expanded (ws : List (List Char × Char)) (last : List Char)
    (hw : ∀ p ∈ ws, UnitWord p.1) (hl : UnitWord last) (hc : ∀ p ∈ ws, UnitSep p.2) :
    unitString (unitText id ws last) = unitText unitExpansion ws last := by
  unfold unitString unitText
  induction ws with
  | nil => exact parseDefaultUnits_word hl
  | cons p ws ih =>
    simp only [List.foldr_cons, id_eq] at ih ⊢
    rw [parseDefaultUnits_sep (hc p (by simp)), parseDefaultUnits_word (hw p (by simp)),
      ih (fun q hq => hw q (by simp [hq])) (fun q hq => hc q (by simp [hq]))]

/-- The case of `config_default.yaml:95`, the unit of the abatement cost coefficient. -/
example : unitString "currency_unit/emissionsrate_unit".toList =
    "(trillion USD2005/yr)/((GtCO2)/yr)".toList := by decide

example : ∃ ws last, unitText id ws last = "currency_unit/emissionsrate_unit".toList ∧
    (∀ p ∈ ws, UnitWord p.1) ∧ UnitWord last ∧ (∀ p ∈ ws, UnitSep p.2) :=
  ⟨[("currency_unit".toList, '/')], "emissionsrate_unit".toList, by decide,
    by simp [UnitWord, unitAliases], by simp [UnitWord, unitAliases], by simp [UnitSep, isLetter]⟩

example : PlainUnit "GtCO2".toList := by decide
example : UnitSep '*' ∧ UnitSep ' ' ∧ UnitSep '(' ∧ UnitSep '2' := by simp [UnitSep, isLetter]

/-- `custom_replace`: neither `US$` nor `t CO2` is left in a unit. -/
theorem C10_custom_replaced (unit : List Char) :
    ¬ "US$".toList <:+: customReplace unit ∧ ¬ "t CO2".toList <:+: customReplace unit := by
  unfold customReplace
  constructor
  · refine repl_keeps_gone (by decide) (by decide) (by decide) ?_
    exact repl_gone _ _ _ (by decide) (by decide)
  · exact repl_gone _ _ _ (by decide) (by decide)

/-- `quant(value, unit)` with the value `False` is `False`, everything else is what Pint says about the value text
and the expanded target unit. -/
theorem C10_quant (B : Builtins) (P : Pint) (v : Val) (unit : List Char) :
    (v = .false → quant2 B P true v unit = .ok .false) ∧
    (v ≠ .false → ∀ x, P.conv (customReplace (pyStr B v).toList) (targetUnit unit) = .ok x →
      quant2 B P true v unit = .ok (.atom (.float x))) := by
  constructor
  · rintro rfl; rfl
  · intro h x hx
    unfold quant2
    rw [hx, if_neg]
    simp only [Bool.true_and, Bool.not_eq_true]
    split
    · exact absurd rfl h
    · rfl

/-! ## C51 -/

/-- The places of C51: the text after `/a` does not start with a letter. -/
def EndsWord (q : List Char) : Prop := ∀ c q', q = c :: q' → ¬ (('a' ≤ c ∧ c ≤ 'z') ∨ ('A' ≤ c ∧ c ≤ 'Z'))

theorem noLetterNext_iff (q : List Char) : noLetterNext q = true ↔ EndsWord q := by
  cases q with
  | nil => simp [noLetterNext, EndsWord]
  | cons c q =>
    simp only [noLetterNext, isLetter, EndsWord, List.cons.injEq, Bool.not_eq_true', Bool.or_eq_false_iff,
      Bool.and_eq_false_iff, decide_eq_false_iff_not]
    constructor
    · rintro h d q' ⟨rfl, rfl⟩; tauto
    · intro h
      have := h c q ⟨rfl, rfl⟩
      tauto

theorem subAnnum_hit {q : List Char} (h : EndsWord q) :
    subAnnum ('/' :: 'a' :: q) = '/' :: 'y' :: 'r' :: subAnnum q := by
  rw [subAnnum, if_pos ((noLetterNext_iff q).2 h)]

theorem subAnnum_keep {c : Char} {s : List Char} (h : ∀ q, c :: s = '/' :: 'a' :: q → ¬ EndsWord q) :
    subAnnum (c :: s) = c :: subAnnum s := by
  by_cases hc : ∃ q, c :: s = '/' :: 'a' :: q
  · obtain ⟨q, heq⟩ := hc
    have hq := h q heq
    rw [← noLetterNext_iff] at hq
    obtain ⟨rfl, rfl⟩ : c = '/' ∧ s = 'a' :: q := by simpa using heq
    have h2 : subAnnum ('a' :: q) = 'a' :: subAnnum q := by
      rw [subAnnum.eq_2]
      intro s' hs'
      cases hs'
    rw [h2, subAnnum, if_neg hq]
  · rw [subAnnum.eq_2]
    intro q h1 h2
    exact hc ⟨q, by rw [h1, h2]⟩

/-- **C51.** `/a` is rewritten to `/yr` wherever it is not followed by a letter. -/
theorem C51_rewritten (p q : List Char) (hq : EndsWord q) :
    getUnit (some (p ++ '/' :: 'a' :: q)) = getUnit (some p) ++ '/' :: 'y' :: 'r' :: getUnit (some q) := by
  simp only [getUnit, Option.getD_some]
  match p with
  | [] => simpa [subAnnum] using subAnnum_hit hq
  | c :: p =>
    by_cases h : ∃ p', c :: p = '/' :: 'a' :: p' ∧ EndsWord p'
    · obtain ⟨p', hp, he⟩ := h
      obtain ⟨rfl, rfl⟩ : c = '/' ∧ p = 'a' :: p' := by simpa using hp
      have := C51_rewritten p' q hq
      simp only [getUnit, Option.getD_some] at this
      rw [subAnnum_hit he, List.cons_append, List.cons_append, subAnnum_hit, this]
      · rfl
      · intro d q' hd
        cases p' with
        | nil => cases hd; decide
        | cons e p' =>
          obtain ⟨rfl, -⟩ : e = d ∧ _ := by simpa using hd
          exact he _ p' rfl
    · have := C51_rewritten p q hq
      simp only [getUnit, Option.getD_some] at this
      rw [List.cons_append, subAnnum_keep, subAnnum_keep, this, List.cons_append]
      · intro p' hp he; exact h ⟨p', hp, he⟩
      · intro p' hp he
        cases p with
        | nil => cases hp
        | cons d p =>
          simp only [List.cons_append, List.cons.injEq] at hp
          obtain ⟨rfl, rfl, rfl⟩ := hp
          refine h ⟨p, rfl, ?_⟩
          intro e p' hep
          exact he e (p' ++ '/' :: 'a' :: q) (by rw [hep]; rfl)
termination_by p.length

/-- **C51.** Nothing else is changed. -/
theorem C51_unchanged (s : List Char) (h : ∀ p q, s = p ++ '/' :: 'a' :: q → ¬ EndsWord q) :
    getUnit (some s) = s := by
  simp only [getUnit, Option.getD_some]
  induction s with
  | nil => rfl
  | cons c s ih =>
    rw [subAnnum_keep (fun q hq => h [] q hq), ih]
    intro p q hs
    exact h (c :: p) q (by rw [hs]; rfl)

theorem subAnnum_clean (s : List Char) : ∀ p q, subAnnum s = p ++ '/' :: 'a' :: q → ¬ EndsWord q := by
  match s with
  | [] => intro p q h; simp [subAnnum] at h
  | c :: s =>
    by_cases h : ∃ p', c :: s = '/' :: 'a' :: p' ∧ EndsWord p'
    · obtain ⟨p', hp, he⟩ := h
      obtain ⟨rfl, rfl⟩ : c = '/' ∧ s = 'a' :: p' := by simpa using hp
      rw [subAnnum_hit he]
      intro p q hpq
      match p, hpq with
      | [], hpq => simp at hpq
      | [_], hpq => simp at hpq
      | [_, _], hpq => simp at hpq
      | _ :: _ :: _ :: p, hpq =>
        simp only [List.cons_append, List.cons.injEq] at hpq
        exact subAnnum_clean p' p q hpq.2.2.2
    · have hc : ∀ q, c :: s = '/' :: 'a' :: q → ¬ EndsWord q := fun q hq he => h ⟨q, hq, he⟩
      rw [subAnnum_keep hc]
      intro p q hpq
      cases p with
      | nil =>
        simp only [List.nil_append, List.cons.injEq] at hpq
        obtain ⟨rfl, hs⟩ := hpq
        -- the result starts with `a`, hence so does the rest of the text
        cases s with
        | nil => simp [subAnnum] at hs
        | cons d s =>
          have hd : subAnnum (d :: s) = d :: subAnnum s ∨ d = '/' := by
            by_cases hd : d = '/'
            · exact .inr hd
            · left; apply subAnnum_keep; intro q hq; cases hq; exact absurd rfl hd
          rcases hd with hd | rfl
          · rw [hd] at hs
            obtain ⟨rfl, rfl⟩ : d = 'a' ∧ subAnnum s = q := by simpa using hs
            have hn := hc s rfl
            intro he
            apply hn
            intro e s' hs'
            subst hs'
            by_cases hl : (('a' ≤ e ∧ e ≤ 'z') ∨ ('A' ≤ e ∧ e ≤ 'Z'))
            · have : subAnnum (e :: s') = e :: subAnnum s' := by
                apply subAnnum_keep
                intro q hq
                cases hq
                exact absurd hl (by decide)
              exact he e (subAnnum s') this
            · exact hl
          · have : ∃ u, subAnnum ('/' :: s) = '/' :: u := by
              unfold subAnnum
              split
              · split
                · exact ⟨_, rfl⟩
                · exact ⟨_, rfl⟩
              · rename_i heq; cases heq; exact ⟨_, rfl⟩
              · rename_i heq; cases heq
            obtain ⟨u, hu⟩ := this
            rw [hu] at hs
            simp at hs
      | cons d p =>
        simp only [List.cons_append, List.cons.injEq] at hpq
        exact subAnnum_clean s p q hpq.2
termination_by s.length

/-- **C51.** No `/a` that is not followed by a letter is left. -/
theorem C51_none_left (u : Option (List Char)) (p q : List Char) (h : getUnit u = p ++ '/' :: 'a' :: q) :
    ¬ EndsWord q :=
  subAnnum_clean _ p q h

/-- **C51.** Applying it twice changes nothing. -/
theorem C51_idempotent (u : Option (List Char)) : getUnit (some (getUnit u)) = getUnit u :=
  C51_unchanged _ (C51_none_left u)

example : getUnit (some "GtCO2/a".toList) = "GtCO2/yr".toList := by decide
example : getUnit (some "kg/atm/a*m".toList) = "kg/atm/yr*m".toList := by decide
example : EndsWord "".toList ∧ EndsWord "*m".toList ∧ ¬ EndsWord "tm".toList := by
  rw [← noLetterNext_iff, ← noLetterNext_iff, ← noLetterNext_iff]; decide

end Mimosa
