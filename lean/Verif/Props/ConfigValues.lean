import Mathlib.Data.EReal.Basic
import Verif.Props.ConfigParams

/-!
# C04, C05, C06: what an accepted parameter value looks like
-/

namespace Mimosa

/-! ## Specification of "written as false" and of bounds -/

/-- The ways of writing "off": `0` (int or float), `False`, `"False"`, `"false"`, `"no"`. -/
def WrittenFalse (v : Val) : Prop :=
  v = .atom (.int 0) ∨ v = .atom (.float (.fin 0)) ∨ v = .atom (.bool false) ∨ v = .atom (.str "False") ∨
    v = .atom (.str "false") ∨ v = .atom (.str "no")

/-- The ways of writing "on": `1` (int or float), `True`, `"True"`, `"true"`, `"yes"`. -/
def WrittenTrue (v : Val) : Prop :=
  v = .atom (.int 1) ∨ v = .atom (.float (.fin 1)) ∨ v = .atom (.bool true) ∨ v = .atom (.str "True") ∨
    v = .atom (.str "true") ∨ v = .atom (.str "yes")

theorem isFalsy_iff (v : Val) : isFalsy v = true ↔ WrittenFalse v := by
  unfold isFalsy Val.isIn WrittenFalse
  cases v with
  | list l => simp [Val.eq]
  | dict d => simp [Val.eq]
  | atom a =>
    cases a with
    | null => simp [Val.eq, Scalar.eq, Scalar.num?]
    | bool b => cases b <;> simp [Val.eq, Scalar.eq, Scalar.num?, PyFloat.eq]
    | int i => simp [Val.eq, Scalar.eq, Scalar.num?, PyFloat.eq, eq_comm]
    | float f => cases f <;> simp [Val.eq, Scalar.eq, Scalar.num?, PyFloat.eq, eq_comm]
    | str s =>
      simp only [List.any_cons, List.any_nil, Val.eq, Scalar.eq, Scalar.num?]
      simp [eq_comm (a := s)]

theorem isTruthy_iff (v : Val) : isTruthy v = true ↔ WrittenTrue v := by
  unfold isTruthy Val.isIn WrittenTrue
  cases v with
  | list l => simp [Val.eq]
  | dict d => simp [Val.eq]
  | atom a =>
    cases a with
    | null => simp [Val.eq, Scalar.eq, Scalar.num?]
    | bool b => cases b <;> simp [Val.eq, Scalar.eq, Scalar.num?, PyFloat.eq]
    | int i => simp [Val.eq, Scalar.eq, Scalar.num?, PyFloat.eq, eq_comm]
    | float f => cases f <;> simp [Val.eq, Scalar.eq, Scalar.num?, PyFloat.eq, eq_comm]
    | str s =>
      simp only [List.any_cons, List.any_nil, Val.eq, Scalar.eq, Scalar.num?]
      simp [eq_comm (a := s)]

theorem checkFalse_iff (b : ParserBase) (v : Val) :
    Parser.checkFalse b v = true ↔ b.canBeFalse = true ∧ WrittenFalse v := by
  simp [Parser.checkFalse, isFalsy_iff]

/-- The extended real number a float denotes; `nan` denotes none. -/
noncomputable def PyFloat.toEReal : PyFloat → Option EReal
  | .fin q => some (((q : ℚ) : ℝ) : EReal)
  | .inf => some ⊤
  | .ninf => some ⊥
  | .nan => none

/-- `lo ≤ f ≤ hi` as extended real numbers; a bound `nan` excludes nothing. -/
def InBounds (f lo hi : PyFloat) : Prop :=
  ∀ x, f.toEReal = some x → (∀ a, lo.toEReal = some a → a ≤ x) ∧ (∀ b, hi.toEReal = some b → x ≤ b)

theorem lt_iff_toEReal (f g : PyFloat) :
    f.lt g = true ↔ ∃ x y, f.toEReal = some x ∧ g.toEReal = some y ∧ x < y := by
  cases f <;> cases g <;>
    simp [PyFloat.lt, PyFloat.toEReal, EReal.coe_lt_coe_iff, EReal.coe_lt_top, EReal.bot_lt_coe]

theorem outOfBounds_iff (f lo hi : PyFloat) : Parser.outOfBounds f lo hi = false ↔ InBounds f lo hi := by
  have h : Parser.outOfBounds f lo hi = true ↔ ¬ InBounds f lo hi := by
    simp only [Parser.outOfBounds, Bool.or_eq_true, lt_iff_toEReal, InBounds]
    constructor
    · rintro (⟨x, y, hx, hy, hlt⟩ | ⟨x, y, hx, hy, hlt⟩) hb
      · exact absurd ((hb x hx).1 y hy) (not_le.2 hlt)
      · exact absurd ((hb y hy).2 x hx) (not_le.2 hlt)
    · intro hb
      push Not at hb
      obtain ⟨x, hx, hb⟩ := hb
      by_cases h1 : ∀ a, lo.toEReal = some a → a ≤ x
      · obtain ⟨b, hb, hlt⟩ := hb h1
        exact Or.inr ⟨b, x, hb, hx, hlt⟩
      · push Not at h1
        obtain ⟨a, ha, hlt⟩ := h1
        exact Or.inl ⟨x, a, hx, ha, hlt⟩
  rw [← Bool.not_eq_true, h, not_not]

section
variable {B : Builtins} {default : List (Key × Val)} {user parsed : Val} {tree : Py Parser}

/-- The parser of a parameter. -/
def HasParser (default : List (Key × Val)) (ks : List Key) (p : Parser) : Prop :=
  ∃ node, IsParam default ks node ∧ Parser.create node = .ok p

/-- The value of a parameter comes out of its parser. -/
theorem parsed_by (hD : DefaultOk default) (h : checkParams B default user = .ok (parsed, tree)) {ks : List Key}
    {p : Parser} (hp : HasParser default ks p) : ∃ u v, getNested ks parsed = .ok v ∧ p.parse B u = .ok v := by
  obtain ⟨node, hn, hc⟩ := hp
  obtain ⟨p', v, hc', hv, hor⟩ := C02_values hD h hn
  rw [hc, Except.ok.injEq] at hc'
  subst hc'
  rcases hor with ⟨u, -, hu⟩ | ⟨-, hu⟩
  · exact ⟨u, v, hv, hu⟩
  · exact ⟨_, v, hv, hu⟩

/-! ## C04 -/

/-- After `check_params` an integer parameter holds an integer within its bounds, or `False` if it may. -/
theorem C04_int_in_bounds (hD : DefaultOk default) (h : checkParams B default user = .ok (parsed, tree))
    {ks : List Key} {b : ParserBase} {lo hi : PyFloat} (hp : HasParser default ks (.int b lo hi)) :
    (∃ i : ℤ, getNested ks parsed = .ok (.atom (.int i)) ∧ InBounds (.fin i) lo hi) ∨
    (b.canBeFalse = true ∧ getNested ks parsed = .ok (.atom (.bool false))) := by
  obtain ⟨u, v, hv, hu⟩ := parsed_by hD h hp
  rw [hv]
  simp only [Parser.parse] at hu
  split at hu
  · next hc =>
    simp only [Except.ok.injEq] at hu
    exact Or.inr ⟨((checkFalse_iff b u).1 hc).1, by rw [← hu]; rfl⟩
  · split at hu
    · simp at hu
    · next i hi' =>
      split at hu
      · simp at hu
      · next ho =>
        simp only [Except.ok.injEq] at hu
        exact Or.inl ⟨i, by rw [hu], (outOfBounds_iff _ _ _).1 (by simpa using ho)⟩

/-- The same for a float parameter: the value is a float; *if it is a number* it is within the bounds.

What is missing from C04: `nan` passes every bounds check, see `C04_nan_accepted`. -/
theorem C04_float_in_bounds_partial (hD : DefaultOk default) (h : checkParams B default user = .ok (parsed, tree))
    {ks : List Key} {b : ParserBase} {lo hi : PyFloat} (hp : HasParser default ks (.float b lo hi)) :
    (∃ f : PyFloat, getNested ks parsed = .ok (.atom (.float f)) ∧ InBounds f lo hi) ∨
    (b.canBeFalse = true ∧ getNested ks parsed = .ok (.atom (.bool false))) := by
  obtain ⟨u, v, hv, hu⟩ := parsed_by hD h hp
  rw [hv]
  simp only [Parser.parse] at hu
  split at hu
  · next hc =>
    simp only [Except.ok.injEq] at hu
    exact Or.inr ⟨((checkFalse_iff b u).1 hc).1, by rw [← hu]; rfl⟩
  · split at hu
    · simp at hu
    · next f hf =>
      split at hu
      · simp at hu
      · next ho =>
        simp only [Except.ok.injEq] at hu
        exact Or.inl ⟨f, by rw [hu], (outOfBounds_iff _ _ _).1 (by simpa using ho)⟩

/-- For finite values this is the inequality of rational numbers. -/
theorem InBounds_fin {q lo hi : ℚ} : InBounds (.fin q) (.fin lo) (.fin hi) ↔ lo ≤ q ∧ q ≤ hi := by
  simp [InBounds, PyFloat.toEReal, EReal.coe_le_coe_iff]

/-- A number outside the bounds is rejected: `ValueError` from the parser (unless it is `0` and the parameter
may be false). -/
theorem C04_out_of_bounds_valueError {b : ParserBase} {lo hi : PyFloat} {a : Scalar} {f : PyFloat}
    (ha : a.num? = some f) (hb : ¬ InBounds f lo hi) (hf : ¬ (b.canBeFalse = true ∧ WrittenFalse (.atom a))) :
    (Parser.float b lo hi).parse B (.atom a) = .error .valueError ∧
    (∀ i : ℤ, f = .fin i → (Parser.int b lo hi).parse B (.atom a) = .error .valueError) := by
  have hc : Parser.checkFalse b (.atom a) = false := by
    rw [← Bool.not_eq_true, checkFalse_iff]; exact hf
  have ho : Parser.outOfBounds f lo hi = true := by
    rw [← Bool.not_eq_false, outOfBounds_iff]; exact hb
  have hfl : pyFloat B (.atom a) = .ok f := by
    cases a <;> simp only [Scalar.num?, Option.some.injEq, reduceCtorEq] at ha <;> subst ha <;> rfl
  refine ⟨by simp [Parser.parse, hc, hfl, ho], ?_⟩
  rintro i rfl
  have hin : pyInt B (.atom a) = .ok i := by
    cases a with
    | null => simp [Scalar.num?] at ha
    | str s => simp [Scalar.num?] at ha
    | bool b =>
      simp only [Scalar.num?, Option.some.injEq, PyFloat.fin.injEq] at ha
      simp only [pyInt, Except.ok.injEq]
      have : ((if b = true then 1 else 0 : ℤ) : ℚ) = (i : ℚ) := by rw [← ha]; split <;> simp
      exact_mod_cast this
    | int j =>
      simp only [Scalar.num?, Option.some.injEq, PyFloat.fin.injEq] at ha
      simp only [pyInt, Except.ok.injEq]
      exact_mod_cast ha
    | float g =>
      simp only [Scalar.num?, Option.some.injEq] at ha
      subst ha
      simp only [pyInt, truncRat, Except.ok.injEq]
      split <;> simp [Rat.ceil]
  simp [Parser.parse, hc, hin, ho]

/-- … and hence the whole configuration. -/
theorem C04_out_of_bounds_rejected (hD : DefaultOk default) {ks : List Key} {b : ParserBase} {lo hi : PyFloat}
    (hp : HasParser default ks (.float b lo hi)) {a : Scalar} {f : PyFloat} (hu : getNested ks user = .ok (.atom a))
    (ha : a.num? = some f) (hb : ¬ InBounds f lo hi) (hf : ¬ (b.canBeFalse = true ∧ WrittenFalse (.atom a))) :
    ∃ e, checkParams B default user = .error e := by
  obtain ⟨node, hn, hc⟩ := hp
  exact C02_bad_value_rejected hD hn hc hu (C04_out_of_bounds_valueError ha hb hf).1

/-- The same for an integer parameter. -/
theorem C04_out_of_bounds_int_rejected (hD : DefaultOk default) {ks : List Key} {b : ParserBase} {lo hi : PyFloat}
    (hp : HasParser default ks (.int b lo hi)) {i : ℤ} (hu : getNested ks user = .ok (.atom (.int i)))
    (hb : ¬ InBounds (.fin i) lo hi) (hf : ¬ (b.canBeFalse = true ∧ i = 0)) :
    ∃ e, checkParams B default user = .error e := by
  obtain ⟨node, hn, hc⟩ := hp
  refine C02_bad_value_rejected hD hn hc hu ((C04_out_of_bounds_valueError (a := .int i) (f := .fin i) rfl hb ?_).2 i rfl)
  rintro ⟨h1, h2⟩
  refine hf ⟨h1, ?_⟩
  simpa [WrittenFalse] using h2

/-- A value that is not a number is rejected too: `None`, lists and dictionaries (with `TypeError`). -/
theorem C04_not_a_number_rejected {b : ParserBase} {lo hi : PyFloat} {v : Val}
    (hv : v = .atom .null ∨ (∃ l, v = .list l) ∨ v.isDict = true) :
    (∃ e, (Parser.float b lo hi).parse B v = .error e) ∧ (∃ e, (Parser.int b lo hi).parse B v = .error e) := by
  have hc : Parser.checkFalse b v = false := by
    rw [← Bool.not_eq_true, checkFalse_iff]
    rintro ⟨-, h⟩
    rcases hv with rfl | ⟨l, rfl⟩ | hd
    · simp [WrittenFalse] at h
    · simp [WrittenFalse] at h
    · rcases h with rfl | rfl | rfl | rfl | rfl | rfl <;> simp [Py.isDict] at hd
  have hfl : pyFloat B v = .error .typeError ∧ pyInt B v = .error .typeError := by
    rcases hv with rfl | ⟨l, rfl⟩ | hd
    · exact ⟨rfl, rfl⟩
    · exact ⟨rfl, rfl⟩
    · cases v with
      | dict d => exact ⟨rfl, rfl⟩
      | atom a => simp [Py.isDict] at hd
      | list l => simp [Py.isDict] at hd
  exact ⟨⟨_, by simp only [Parser.parse, hc, hfl.1]; rfl⟩, ⟨_, by simp only [Parser.parse, hc, hfl.2]; rfl⟩⟩

/-- **`nan` is accepted by every float parameter**, whatever its bounds. -/
theorem C04_nan_accepted (b : ParserBase) (lo hi : PyFloat) :
    (Parser.float b lo hi).parse B (.atom (.float .nan)) = .ok (.atom (.float .nan)) := by
  have hc : Parser.checkFalse b (.atom (.float .nan)) = false := by
    rw [← Bool.not_eq_true, checkFalse_iff]
    rintro ⟨-, h⟩
    simp [WrittenFalse] at h
  have ho : Parser.outOfBounds .nan lo hi = false := by
    rw [outOfBounds_iff]; intro x hx; simp [PyFloat.toEReal] at hx
  simp [Parser.parse, hc, pyFloat, ho]

/-! ## C05 -/

/-- An enum parameter holds one of its allowed values (`==` in Python), or `False` if it may. -/
theorem C05_enum (hD : DefaultOk default) (h : checkParams B default user = .ok (parsed, tree))
    {ks : List Key} {b : ParserBase} {allowed : List Val} (hp : HasParser default ks (.enum b allowed)) :
    ∃ v, getNested ks parsed = .ok v ∧
      ((∃ a ∈ allowed, Val.eq a v = true) ∨ (b.canBeFalse = true ∧ v = .atom (.bool false))) := by
  obtain ⟨u, v, hv, hu⟩ := parsed_by hD h hp
  refine ⟨v, hv, ?_⟩
  simp only [Parser.parse] at hu
  split at hu
  · next hc =>
    simp only [Except.ok.injEq] at hu
    exact Or.inr ⟨((checkFalse_iff b u).1 hc).1, by rw [← hu]; rfl⟩
  · split at hu
    · next hin =>
      simp only [Except.ok.injEq] at hu
      subst hu
      left
      simpa [Val.isIn] using hin
    · simp at hu

/-- If the allowed values are strings, the value is literally one of them. -/
theorem C05_enum_string (hD : DefaultOk default) (h : checkParams B default user = .ok (parsed, tree))
    {ks : List Key} {b : ParserBase} {names : List String}
    (hp : HasParser default ks (.enum b (names.map fun s => .atom (.str s)))) :
    (∃ s ∈ names, getNested ks parsed = .ok (.atom (.str s))) ∨
      (b.canBeFalse = true ∧ getNested ks parsed = .ok (.atom (.bool false))) := by
  obtain ⟨v, hv, hor⟩ := C05_enum hD h hp
  rcases hor with ⟨a, ha, he⟩ | ⟨h1, rfl⟩
  · left
    obtain ⟨s, hs, rfl⟩ := List.mem_map.1 ha
    refine ⟨s, hs, ?_⟩
    cases v with
    | list l => simp [Val.eq] at he
    | dict d => simp [Val.eq] at he
    | atom a =>
      cases a with
      | str t =>
        simp only [Val.eq, Scalar.eq, Scalar.num?, Scalar.str.injEq, decide_eq_true_eq] at he
        rw [hv, he]
      | null => simp [Val.eq, Scalar.eq, Scalar.num?] at he
      | bool b => simp [Val.eq, Scalar.eq, Scalar.num?] at he
      | int i => simp [Val.eq, Scalar.eq, Scalar.num?] at he
      | float f => simp [Val.eq, Scalar.eq, Scalar.num?] at he
  · exact Or.inr ⟨h1, hv⟩

/-- A value that is not among the allowed ones raises `ValueError`. -/
theorem C05_enum_rejects {b : ParserBase} {allowed : List Val} {v : Val} (hv : ∀ a ∈ allowed, Val.eq a v = false)
    (hf : ¬ (b.canBeFalse = true ∧ WrittenFalse v)) :
    (Parser.enum b allowed).parse B v = .error .valueError := by
  have hc : Parser.checkFalse b v = false := by
    rw [← Bool.not_eq_true, checkFalse_iff]; exact hf
  have hi : v.isIn allowed = false := by
    simpa [Val.isIn] using hv
  simp [Parser.parse, hc, hi]

/-- A Boolean parameter holds `True` or `False`: `True` if the user wrote a true word, `False` if a false one. -/
theorem C05_bool {b : ParserBase} (v : Val) :
    (WrittenTrue v → (Parser.bool b).parse B v = .ok (.atom (.bool true))) ∧
    (WrittenFalse v → (Parser.bool b).parse B v = .ok (.atom (.bool false))) ∧
    (¬ WrittenTrue v → ¬ WrittenFalse v → (Parser.bool b).parse B v = .error .valueError) := by
  have excl : WrittenTrue v → ¬ WrittenFalse v := by
    rintro (rfl | rfl | rfl | rfl | rfl | rfl) <;> simp [WrittenFalse]
  refine ⟨?_, ?_, ?_⟩
  · intro ht
    have hc : Parser.checkFalse b v = false := by
      rw [← Bool.not_eq_true, checkFalse_iff]; exact fun h => excl ht h.2
    simp [Parser.parse, hc, (isTruthy_iff v).2 ht]
  · intro hf
    have ht : isTruthy v = false := by
      rw [← Bool.not_eq_true, isTruthy_iff]; exact fun h => excl h hf
    simp only [Parser.parse, ht, (isFalsy_iff v).2 hf]
    split <;> simp [Val.false]
  · intro ht hf
    have ht' : isTruthy v = false := by
      rw [← Bool.not_eq_true, isTruthy_iff]; exact ht
    have hf' : isFalsy v = false := by
      rw [← Bool.not_eq_true, isFalsy_iff]; exact hf
    simp [Parser.parse, ht', hf', Parser.checkFalse]

/-- After `check_params` a Boolean parameter is `True` or `False`. -/
theorem C05_bool_value (hD : DefaultOk default) (h : checkParams B default user = .ok (parsed, tree))
    {ks : List Key} {b : ParserBase} (hp : HasParser default ks (.bool b)) :
    ∃ t : Bool, getNested ks parsed = .ok (.atom (.bool t)) := by
  obtain ⟨u, v, hv, hu⟩ := parsed_by hD h hp
  obtain ⟨h1, h2, h3⟩ := C05_bool (B := B) (b := b) u
  by_cases ht : WrittenTrue u
  · rw [h1 ht, Except.ok.injEq] at hu
    exact ⟨true, by rw [hv, hu]⟩
  · by_cases hf : WrittenFalse u
    · rw [h2 hf, Except.ok.injEq] at hu
      exact ⟨false, by rw [hv, hu]⟩
    · rw [h3 ht hf] at hu; simp at hu

theorem parseList_forall₂ {f : Val → Except Err Val} {l l' : List Val} (h : Parser.parseList f l = .ok l') :
    List.Forall₂ (fun a b => f a = .ok b) l l' := by
  induction l generalizing l' with
  | nil => simp only [Parser.parseList, Except.ok.injEq] at h; subst h; exact .nil
  | cons v l ih =>
    simp only [Parser.parseList] at h
    split at h
    · simp at h
    · next w hw =>
      split at h
      · simp at h
      · next ws hws =>
        simp only [Except.ok.injEq] at h
        subst h
        exact .cons hw (ih hws)

/-- A list parameter: a list is parsed element by element by the element parser; `None` is the empty list;
anything else (not written as false for a parameter that may be false) raises `ValueError`. -/
theorem C05_list {b : ParserBase} {p : Parser} {v : Val} (hf : ¬ (b.canBeFalse = true ∧ WrittenFalse v)) :
    (∀ w, (Parser.list b p).parse B v = .ok w →
      (∃ l l', v = .list l ∧ w = .list l' ∧ List.Forall₂ (fun a c => p.parse B a = .ok c) l l') ∨
      (v = .atom .null ∧ w = .list [])) ∧
    ((¬ ∃ l, v = .list l) → v ≠ .atom .null → (Parser.list b p).parse B v = .error .valueError) := by
  have hc : Parser.checkFalse b v = false := by
    rw [← Bool.not_eq_true, checkFalse_iff]; exact hf
  constructor
  · intro w hw
    simp only [Parser.parse, hc, Bool.false_eq_true, if_false] at hw
    split at hw
    · next l =>
      split at hw
      · simp at hw
      · next l' hl' =>
        simp only [Except.ok.injEq] at hw
        exact Or.inl ⟨l, l', rfl, hw.symm, parseList_forall₂ hl'⟩
    · simp only [Except.ok.injEq] at hw
      exact Or.inr ⟨rfl, hw.symm⟩
    · simp at hw
  · intro h1 h2
    simp only [Parser.parse, hc, Bool.false_eq_true, if_false]
    split
    · next l => exact absurd ⟨l, rfl⟩ h1
    · exact absurd rfl h2
    · rfl

theorem parseDict_spec {fk fv : Val → Except Err Val} {d acc d' : List (Key × Val)}
    (h : Parser.parseDict fk fv acc d = .ok d') :
    (∀ k w, Dict.lookup k d' = some w → Dict.lookup k acc = some w ∨
      ∃ k0 v0 kv, (k0, v0) ∈ d ∧ fk (Parser.keyVal k0) = .ok kv ∧ Parser.valKey kv = .ok k ∧ fv v0 = .ok w) ∧
    (∀ k, (Dict.lookup k acc).isSome → (Dict.lookup k d').isSome) ∧
    (∀ k0 v0, (k0, v0) ∈ d → ∃ kv k w, fk (Parser.keyVal k0) = .ok kv ∧ Parser.valKey kv = .ok k ∧ fv v0 = .ok w ∧
      (Dict.lookup k d').isSome) := by
  induction d generalizing acc with
  | nil =>
    simp only [Parser.parseDict, Except.ok.injEq] at h
    subst h
    exact ⟨fun k w h => Or.inl h, fun k h => h, by simp⟩
  | cons e d ih =>
    obtain ⟨k0, v0⟩ := e
    simp only [Parser.parseDict] at h
    split at h
    · simp at h
    · next kv hkv =>
      split at h
      · simp at h
      · next w0 hw0 =>
        split at h
        · simp at h
        · next k' hk' =>
          obtain ⟨i1, i2, i3⟩ := ih h
          refine ⟨?_, ?_, ?_⟩
          · intro k w hw
            rcases i1 k w hw with hl | ⟨a, b, c, h1, h2⟩
            · by_cases hk : k' = k
              · subst hk
                rw [Dict.lookup_insert_self, Option.some.injEq] at hl
                subst hl
                exact Or.inr ⟨k0, v0, kv, by simp, hkv, hk', hw0⟩
              · rw [Dict.lookup_insert_ne hk] at hl
                exact Or.inl hl
            · exact Or.inr ⟨a, b, c, by simp [h1], h2⟩
          · intro k hk
            refine i2 k ?_
            by_cases hkk : k' = k
            · subst hkk; simp [Dict.lookup_insert_self]
            · rwa [Dict.lookup_insert_ne hkk]
          · intro a b hab
            rcases List.mem_cons.1 hab with hab | hab
            · cases hab
              exact ⟨kv, k', w0, hkv, hk', hw0, i2 k' (by simp [Dict.lookup_insert_self])⟩
            · exact i3 a b hab

/-- A dictionary parameter: every entry of the result is an entry of the user's dictionary with key and value
parsed by the element parsers; every entry of the user's dictionary is parsed; anything but a dictionary or
`None` raises `ValueError`. -/
theorem C05_dict {b : ParserBase} {pk pv : Parser} {v : Val} (hf : ¬ (b.canBeFalse = true ∧ WrittenFalse v)) :
    (∀ w, (Parser.dict b pk pv).parse B v = .ok w →
      (∃ d d', v = .dict d ∧ w = .dict d' ∧
        (∀ k x, Dict.lookup k d' = some x → ∃ k0 x0 kv, (k0, x0) ∈ d ∧ pk.parse B (Parser.keyVal k0) = .ok kv ∧
          Parser.valKey kv = .ok k ∧ pv.parse B x0 = .ok x) ∧
        (∀ k0 x0, (k0, x0) ∈ d → ∃ kv k x, pk.parse B (Parser.keyVal k0) = .ok kv ∧ Parser.valKey kv = .ok k ∧
          pv.parse B x0 = .ok x ∧ (Dict.lookup k d').isSome)) ∨
      (v = .atom .null ∧ w = .dict [])) ∧
    (v.isDict = false → v ≠ .atom .null → (Parser.dict b pk pv).parse B v = .error .valueError) := by
  have hc : Parser.checkFalse b v = false := by
    rw [← Bool.not_eq_true, checkFalse_iff]; exact hf
  constructor
  · intro w hw
    simp only [Parser.parse, hc, Bool.false_eq_true, if_false] at hw
    split at hw
    · next d =>
      split at hw
      · simp at hw
      · next d' hd' =>
        simp only [Except.ok.injEq] at hw
        obtain ⟨s1, -, s3⟩ := parseDict_spec hd'
        refine Or.inl ⟨d, d', rfl, hw.symm, ?_, s3⟩
        intro k x hx
        rcases s1 k x hx with hl | hr
        · simp [Dict.lookup] at hl
        · exact hr
    · simp only [Except.ok.injEq] at hw
      exact Or.inr ⟨rfl, hw.symm⟩
    · simp at hw
  · intro h1 h2
    simp only [Parser.parse, hc, Bool.false_eq_true, if_false]
    split
    · simp [Py.isDict] at h1
    · exact absurd rfl h2
    · rfl

/-- A data source is a dictionary with the five keys `variable`, `unit`, `scenario`, `model`, `file`, each entry
parsed; anything else raises. -/
theorem C05_datasource {b : ParserBase} {pk pv : Parser} {v : Val} (hf : ¬ (b.canBeFalse = true ∧ WrittenFalse v)) :
    (∀ w, (Parser.datasource b pk pv).parse B v = .ok w →
      ∃ d d', v = .dict d ∧ w = .dict d' ∧
        (∀ k ∈ ["variable", "unit", "scenario", "model", "file"], (Dict.lookup (.str k) d').isSome) ∧
        (∀ k x, Dict.lookup k d' = some x → ∃ k0 x0 kv, (k0, x0) ∈ d ∧ pk.parse B (Parser.keyVal k0) = .ok kv ∧
          Parser.valKey kv = .ok k ∧ pv.parse B x0 = .ok x)) ∧
    (v.isDict = false → (Parser.datasource b pk pv).parse B v = .error .valueError) := by
  have hc : Parser.checkFalse b v = false := by
    rw [← Bool.not_eq_true, checkFalse_iff]; exact hf
  constructor
  · intro w hw
    simp only [Parser.parse, hc, Bool.false_eq_true, if_false] at hw
    split at hw
    · next d =>
      split at hw
      · simp at hw
      · next d' hd' =>
        split at hw
        · next hall =>
          simp only [Except.ok.injEq] at hw
          obtain ⟨s1, -, s3⟩ := parseDict_spec hd'
          refine ⟨d, d', rfl, hw.symm, ?_, ?_⟩
          · intro k hk
            exact List.all_eq_true.1 hall k hk
          · intro k x hx
            rcases s1 k x hx with hl | hr
            · simp [Dict.lookup] at hl
            · exact hr
        · simp at hw
    · simp at hw
  · intro h1
    simp only [Parser.parse, hc, Bool.false_eq_true, if_false]
    split
    · simp [Py.isDict] at h1
    · rfl

/-! ## C06 -/

/-- **When a parameter is switched off.**  A value is parsed to `False` exactly when the definition says
`can_be_false` and the user wrote a false word; or it is a Boolean parameter written as false; or the value is
`False` itself and an enum lists it, Pint accepts it as a quantity, or there is no parser (element of an
untyped list). -/
theorem C06_false_iff (p : Parser) (v : Val) :
    p.parse B v = .ok (.atom (.bool false)) ↔
      (p.base.canBeFalse = true ∧ WrittenFalse v) ∨
      (∃ b, p = .bool b ∧ WrittenFalse v) ∨
      (v = .atom (.bool false) ∧
        (p = .ident ∨ (∃ b l, p = .enum b l ∧ ∃ a ∈ l, Val.eq a (.atom (.bool false)) = true) ∨
          ∃ b u, p = .quantity b u ∧ (B.quant (.atom (.bool false)) u).isSome)) := by
  by_cases hf : p.base.canBeFalse = true ∧ WrittenFalse v
  · have hc : Parser.checkFalse p.base v = true := (checkFalse_iff _ _).2 hf
    have hne : p ≠ .ident := by rintro rfl; simp [Parser.base] at hf
    refine iff_of_true ?_ (Or.inl hf)
    cases p <;> first
      | exact absurd rfl hne
      | (simp only [Parser.base] at hc; simp only [Parser.parse, hc, if_true]; rfl)
  · have hc : Parser.checkFalse p.base v = false := by
      rw [← Bool.not_eq_true, checkFalse_iff]; exact hf
    simp only [hf, false_or]
    cases p with
    | ident => simp [Parser.parse]
    | str b =>
      simp only [Parser.base] at hc
      simp [Parser.parse, hc]
    | strOrPlainDict b =>
      simp only [Parser.base] at hc
      simp only [Parser.parse, hc]
      split
      · contradiction
      · split
        · next hd =>
          cases v with
          | dict d => simp
          | atom a => simp [Py.isDict] at hd
          | list l => simp [Py.isDict] at hd
        · simp
    | bool b =>
      obtain ⟨h1, h2, h3⟩ := C05_bool (B := B) (b := b) v
      by_cases ht : WrittenTrue v
      · rw [h1 ht]
        simp only [Except.ok.injEq, Py.atom.injEq, Scalar.bool.injEq, Bool.true_eq_false, Parser.bool.injEq,
          exists_eq_left', reduceCtorEq, false_and, exists_false, or_false, and_false, false_iff]
        rcases ht with rfl | rfl | rfl | rfl | rfl | rfl <;> simp [WrittenFalse]
      · by_cases hw : WrittenFalse v
        · rw [h2 hw]
          simp [hw]
        · rw [h3 ht hw]
          simp [hw]
    | float b lo hi =>
      simp only [Parser.base] at hc
      simp only [Parser.parse, hc]
      split
      · contradiction
      · split
        · simp
        · split <;> simp
    | int b lo hi =>
      simp only [Parser.base] at hc
      simp only [Parser.parse, hc]
      split
      · contradiction
      · split
        · simp
        · split <;> simp
    | enum b l =>
      simp only [Parser.base] at hc
      simp only [Parser.parse, hc]
      split
      · contradiction
      · split
        · next hin =>
          simp only [Except.ok.injEq, reduceCtorEq, false_and, exists_false, false_or, or_false, Parser.enum.injEq]
          constructor
          · rintro rfl
            exact ⟨rfl, b, l, ⟨rfl, rfl⟩, by simpa [Val.isIn] using hin⟩
          · exact fun h => h.1
        · next hin =>
          simp only [reduceCtorEq, false_and, exists_false, false_or, or_false, Parser.enum.injEq, false_iff]
          rintro ⟨rfl, b', l', ⟨rfl, rfl⟩, hex⟩
          exact hin (by simpa [Val.isIn] using hex)
    | quantity b u =>
      simp only [Parser.base] at hc
      simp only [Parser.parse, hc]
      split
      · contradiction
      · split
        · next q hq =>
          simp only [Except.ok.injEq, reduceCtorEq, false_and, exists_false, false_or, Parser.quantity.injEq]
          constructor
          · rintro rfl
            exact ⟨rfl, b, u, ⟨rfl, rfl⟩, by simp [hq]⟩
          · exact fun h => h.1
        · next hq =>
          simp only [reduceCtorEq, false_and, exists_false, false_or, Parser.quantity.injEq, false_iff]
          rintro ⟨rfl, b', u', ⟨rfl, rfl⟩, hex⟩
          simp [hq] at hex
    | list b p =>
      simp only [Parser.base] at hc
      simp only [Parser.parse, hc]
      split
      · contradiction
      · split
        · split <;> simp
        · simp
        · simp
    | dict b k p =>
      simp only [Parser.base] at hc
      simp only [Parser.parse, hc]
      split
      · contradiction
      · split
        · split <;> simp
        · simp
        · simp
    | datasource b k p =>
      simp only [Parser.base] at hc
      simp only [Parser.parse, hc]
      split
      · contradiction
      · split
        · split
          · simp
          · split <;> simp
        · simp

/-- Numbers and strings that are not declared `can_be_false` never become `False`: `0` stays the number 0. -/
theorem C06_not_silently_off {p : Parser} (hb : p.base.canBeFalse = false)
    (hp : (∃ b lo hi, p = .float b lo hi) ∨ (∃ b lo hi, p = .int b lo hi) ∨ (∃ b, p = .str b)) (v : Val) :
    p.parse B v ≠ .ok (.atom (.bool false)) := by
  rw [Ne, C06_false_iff]
  rw [hb]
  rcases hp with ⟨b, lo, hi, rfl⟩ | ⟨b, lo, hi, rfl⟩ | ⟨b, rfl⟩ <;> simp

/-- For a parameter that may be false, `0` *is* off: the number 0 cannot be given as a number. -/
theorem C06_zero_is_off {p : Parser} (hb : p.base.canBeFalse = true) :
    p.parse B (.atom (.int 0)) = .ok (.atom (.bool false)) := by
  rw [C06_false_iff]
  exact Or.inl ⟨hb, Or.inl rfl⟩

end

/-! ## The hypotheses hold for the default configuration -/

theorem hasParser_example (ks : List Key) (h : ((paramDefs DefaultYaml.entries).any fun l =>
    l.1 == ks && okB (Parser.create l.2)) = true) : ∃ p, HasParser DefaultYaml.entries ks p := by
  obtain ⟨l, hl, he⟩ := List.any_eq_true.1 h
  simp only [Bool.and_eq_true, beq_iff_eq] at he
  obtain ⟨p, hp⟩ := okB_iff he.2
  exact ⟨p, l.2, (isParam_iff default_ok).2 (he.1 ▸ hl), hp⟩

/-- `time - dt`: a float parameter with bounds. -/
example : ∃ p, HasParser DefaultYaml.entries [.str "time", .str "dt"] p := hasParser_example _ (by decide +kernel)

/-- `emissions - carbonbudget`: may be false. -/
example : ∃ p, HasParser DefaultYaml.entries [.str "emissions", .str "carbonbudget"] p :=
  hasParser_example _ (by decide +kernel)

example : (Parser.float ⟨"float", .atom (.int 5), false⟩ (.fin 0) .inf).parse exampleBuiltins (.atom (.int (-1))) =
    .error .valueError := by
  refine (C04_out_of_bounds_valueError (f := .fin (-1)) (by simp [Scalar.num?]) ?_ (by simp)).1
  intro h
  have := (h _ rfl).1 _ rfl
  rw [EReal.coe_le_coe_iff] at this
  norm_num at this

end Mimosa
