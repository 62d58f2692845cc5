import Verif.Props.ConfigValues

/-!
# C03, C09: checking twice changes nothing; the order of keys does not matter
-/

namespace Mimosa

/-! ## C03 -/

mutual
/-- No numeric parser that may be false occurs as an element parser (of list elements, dictionary keys or
values).  True of the default configuration, see `default_plainElements`. -/
def Parser.plainElements : Parser → Bool
  | .list _ p => p.noOptionalNumber
  | .dict _ k p => k.noOptionalNumber && p.noOptionalNumber
  | .datasource _ k p => k.noOptionalNumber && p.noOptionalNumber
  | _ => true
/-- … nor at the top. -/
def Parser.noOptionalNumber : Parser → Bool
  | .float b _ _ => !b.canBeFalse
  | .int b _ _ => !b.canBeFalse
  | .list _ p => p.noOptionalNumber
  | .dict _ k p => k.noOptionalNumber && p.noOptionalNumber
  | .datasource _ k p => k.noOptionalNumber && p.noOptionalNumber
  | _ => true
end

theorem Parser.noOptionalNumber_plain {p : Parser} (h : p.noOptionalNumber = true) : p.plainElements = true := by
  cases p <;> first | rfl | exact h

/-- The number zero, as an int or a float (but not `False`). -/
def IsZero (v : Val) : Prop := v = .atom (.int 0) ∨ v = .atom (.float (.fin 0))

theorem toString_int_not_word (i : ℤ) : toString i ∉ ["False", "false", "no"] := by
  intro h
  have hc : ∀ c ∈ (toString i).toList, c = '-' ∨ c.isDigit = true := by
    cases i with
    | ofNat n =>
      intro c hc
      have : (toString (Int.ofNat n)).toList = Nat.toDigits 10 n := by
        show (Int.repr (Int.ofNat n)).toList = _
        simp [Int.repr, Nat.repr]
      rw [this] at hc
      exact Or.inr (Nat.isDigit_of_mem_toDigits (by omega) (by omega) hc)
    | negSucc n =>
      intro c hc
      have : (toString (Int.negSucc n)).toList = '-' :: (Nat.toDigits 10 (n + 1)) := by
        simp [toString, Int.repr, String.toList_append]
      rw [this] at hc
      rcases List.mem_cons.1 hc with rfl | hc
      · exact Or.inl rfl
      · exact Or.inr (Nat.isDigit_of_mem_toDigits (by omega) (by omega) hc)
  simp only [List.mem_cons, List.not_mem_nil, or_false] at h
  rcases h with h | h | h
  · rw [h] at hc; have := hc 'F' (by decide); revert this; decide
  · rw [h] at hc; have := hc 'f' (by decide); revert this; decide
  · rw [h] at hc; have := hc 'n' (by decide); revert this; decide

theorem pyStr_not_false {B : Builtins} {v : Val} (h : ¬ WrittenFalse v) : ¬ WrittenFalse (.atom (.str (pyStr B v))) := by
  have key : ∀ s : String, s ∉ ["False", "false", "no"] → ¬ WrittenFalse (.atom (.str s)) := by
    intro s hs hw
    refine hs ?_
    simpa [WrittenFalse] using hw
  cases v with
  | list l => exact key _ (B.strOf_not_word _)
  | dict d => exact key _ (B.strOf_not_word _)
  | atom a =>
    cases a with
    | null => exact key "None" (by decide)
    | bool b =>
      cases b
      · exact absurd (by simp [WrittenFalse]) h
      · exact key "True" (by decide)
    | int i => exact key _ (toString_int_not_word i)
    | float f => exact key _ (B.strOf_not_word _)
    | str s => exact h

/-- Reparsing a value that is not written as false and for which no parser-specific change happens. -/
theorem checkFalse_eq_false {b : ParserBase} {v : Val} (h : ¬ (b.canBeFalse = true ∧ WrittenFalse v)) :
    Parser.checkFalse b v = false := by
  rw [← Bool.not_eq_true, checkFalse_iff]; exact h

theorem checkFalse_false {b : ParserBase} (h : b.canBeFalse = true) : Parser.checkFalse b .false = true :=
  (checkFalse_iff b _).2 ⟨h, by simp [WrittenFalse, Val.false]⟩

theorem parseList_idem {f : Val → Except Err Val} (hf : ∀ v w, f v = .ok w → f w = .ok w) {l l' : List Val}
    (h : Parser.parseList f l = .ok l') : Parser.parseList f l' = .ok l' := by
  induction l generalizing l' with
  | nil => simp only [Parser.parseList, Except.ok.injEq] at h; subst h; rfl
  | cons v l ih =>
    simp only [Parser.parseList] at h
    split at h
    · simp at h
    · next w hw =>
      split at h
      · simp at h
      · next ws hws =>
        simp only [Except.ok.injEq] at h
        subst h
        simp only [Parser.parseList, hf v w hw, ih hws]

/-- The entries of a dictionary that are left unchanged by the element parsers. -/
def EntriesFixed (fk fv : Val → Except Err Val) (d : List (Key × Val)) : Prop :=
  ∀ e ∈ d, (∃ kv, fk (Parser.keyVal e.1) = .ok kv ∧ Parser.valKey kv = .ok e.1) ∧ fv e.2 = .ok e.2

theorem entriesFixed_insert {fk fv : Val → Except Err Val} {d : List (Key × Val)} {k : Key} {w : Val}
    (hd : EntriesFixed fk fv d) (hk : ∃ kv, fk (Parser.keyVal k) = .ok kv ∧ Parser.valKey kv = .ok k)
    (hw : fv w = .ok w) : EntriesFixed fk fv (Dict.insert k w d) := by
  induction d with
  | nil =>
    intro e he
    simp only [Dict.insert, List.mem_singleton] at he
    subst he
    exact ⟨hk, hw⟩
  | cons e d ih =>
    obtain ⟨k', w'⟩ := e
    have hd' : EntriesFixed fk fv d := fun e he => hd e (by simp [he])
    simp only [Dict.insert]
    split
    · next hkk =>
      subst hkk
      intro e he
      rcases List.mem_cons.1 he with rfl | he
      · exact ⟨hk, hw⟩
      · exact hd' e he
    · intro e he
      rcases List.mem_cons.1 he with rfl | he
      · exact hd _ (by simp)
      · exact ih hd' e he

theorem parseDict_fixed {fk fv : Val → Except Err Val} {d acc : List (Key × Val)} (hd : EntriesFixed fk fv d)
    (hnd : (Dict.keys (acc ++ d)).Nodup) : Parser.parseDict fk fv acc d = .ok (acc ++ d) := by
  induction d generalizing acc with
  | nil => simp [Parser.parseDict]
  | cons e d ih =>
    obtain ⟨k, v⟩ := e
    obtain ⟨⟨kv, h1, h2⟩, h3⟩ := hd (k, v) (by simp)
    have hk : k ∉ Dict.keys acc := by
      intro hk
      simp only [Dict.keys, List.map_append, List.map_cons, List.nodup_append] at hnd
      exact hnd.2.2 k (by simpa [Dict.keys] using hk) k (by simp) rfl
    simp only [Parser.parseDict, h1, h2, h3]
    rw [Dict.insert_of_notMem hk, ih (fun e he => hd e (by simp [he])) (by simpa using hnd)]
    simp

theorem parseDict_entriesFixed {fk fv : Val → Except Err Val}
    (hk : ∀ k kv k', fk (Parser.keyVal k) = .ok kv → Parser.valKey kv = .ok k' →
      ∃ kv', fk (Parser.keyVal k') = .ok kv' ∧ Parser.valKey kv' = .ok k')
    (hv : ∀ v w, fv v = .ok w → fv w = .ok w) {d acc d' : List (Key × Val)} (hacc : EntriesFixed fk fv acc)
    (hnd : (Dict.keys acc).Nodup) (h : Parser.parseDict fk fv acc d = .ok d') :
    EntriesFixed fk fv d' ∧ (Dict.keys d').Nodup := by
  induction d generalizing acc with
  | nil => simp only [Parser.parseDict, Except.ok.injEq] at h; subst h; exact ⟨hacc, hnd⟩
  | cons e d ih =>
    obtain ⟨k, v⟩ := e
    simp only [Parser.parseDict] at h
    split at h
    · simp at h
    · next kv hkv =>
      split at h
      · simp at h
      · next w hw =>
        split at h
        · simp at h
        · next k' hk' =>
          exact ih (entriesFixed_insert hacc (hk k kv k' hkv hk') (hv v w hw)) (Dict.nodup_insert hnd) h

/-- A key that came out of a key parser goes through it unchanged. -/
theorem parse_key_idem {B : Builtins} {p : Parser} (hidem : ∀ v w, p.parse B v = .ok w → p.parse B w = .ok w)
    {k k' : Key} {kv : Val} (h1 : p.parse B (Parser.keyVal k) = .ok kv) (h2 : Parser.valKey kv = .ok k') :
    ∃ kv', p.parse B (Parser.keyVal k') = .ok kv' ∧ Parser.valKey kv' = .ok k' := by
  have h3 := hidem _ _ h1
  unfold Parser.valKey at h2
  split at h2
  · simp only [Except.ok.injEq] at h2
    subst h2
    exact ⟨_, h3, rfl⟩
  · simp only [Except.ok.injEq] at h2
    subst h2
    exact ⟨_, h3, rfl⟩
  · next b =>
    simp only [Except.ok.injEq] at h2
    subst h2
    cases b with
    | false =>
      refine ⟨.atom (.bool false), ?_, rfl⟩
      rw [C06_false_iff] at h1 ⊢
      rcases h1 with ⟨h, -⟩ | ⟨b, rfl, -⟩ | ⟨h, -⟩
      · exact Or.inl ⟨h, by simp [WrittenFalse, Parser.keyVal]⟩
      · exact Or.inr (Or.inl ⟨b, rfl, by simp [WrittenFalse, Parser.keyVal]⟩)
      · cases k <;> simp [Parser.keyVal] at h
    | true =>
      refine ⟨.atom (.bool true), ?_, rfl⟩
      have hnf : ∀ b : ParserBase, Parser.checkFalse b (Parser.keyVal (.int (if (true : Bool) = true then 1 else 0))) = false :=
        fun b => checkFalse_eq_false (by simp [WrittenFalse, Parser.keyVal])
      cases p with
      | bool b => exact (C05_bool _).1 (by simp [WrittenTrue, Parser.keyVal])
      | ident => cases k <;> simp [Parser.parse, Parser.keyVal] at h1
      | str b => simp only [Parser.parse] at h1; split at h1 <;> simp [Val.false] at h1
      | strOrPlainDict b =>
        simp only [Parser.parse] at h1
        split at h1
        · simp [Val.false] at h1
        · split at h1
          · cases k <;> simp [Parser.keyVal] at h1
          · simp at h1
      | float b lo hi =>
        simp only [Parser.parse] at h1
        repeat' split at h1
        all_goals simp [Val.false] at h1
      | int b lo hi =>
        simp only [Parser.parse] at h1
        repeat' split at h1
        all_goals simp [Val.false] at h1
      | enum b l =>
        simp only [Parser.parse] at h1
        split at h1
        · simp [Val.false] at h1
        · split at h1
          · cases k <;> simp [Parser.keyVal] at h1
          · simp at h1
      | quantity b u =>
        simp only [Parser.parse] at h1
        split at h1
        · simp [Val.false] at h1
        · split at h1
          · cases k <;> simp [Parser.keyVal] at h1
          · simp at h1
      | list b p =>
        simp only [Parser.parse] at h1
        repeat' split at h1
        all_goals simp [Val.false] at h1
      | dict b k p =>
        simp only [Parser.parse] at h1
        repeat' split at h1
        all_goals simp [Val.false] at h1
      | datasource b k p =>
        simp only [Parser.parse] at h1
        repeat' split at h1
        all_goals simp [Val.false] at h1
  · simp at h2

theorem datasource_ok {B : Builtins} {b : ParserBase} {k p : Parser} {d d' : List (Key × Val)}
    (hc : Parser.checkFalse b (.dict d) = false)
    (hd : Parser.parseDict (k.parse B) (p.parse B) [] d = .ok d')
    (hall : (Parser.datasourceKeys.all fun k => (Dict.lookup (.str k) d').isSome) = true) :
    (Parser.datasource b k p).parse B (.dict d) = .ok (.dict d') := by
  simp [Parser.parse, hc, hd, hall]

/-- **Parsing is idempotent**: a parsed value parses to itself, unless it is the number zero of a numeric
parameter that may be false. -/
theorem parse_idem (B : Builtins) : ∀ (p : Parser), p.plainElements = true → ∀ (v w : Val), p.parse B v = .ok w →
    (p.noOptionalNumber = true ∨ ¬ (p.base.canBeFalse = true ∧ IsZero w)) → p.parse B w = .ok w := by
  have cf : ∀ (p : Parser) (v : Val), p ≠ .ident → Parser.checkFalse p.base v = true → p.parse B .false = .ok .false := by
    intro p v hne hc
    have := ((checkFalse_iff _ _).1 hc).1
    exact (C06_false_iff p _).2 (Or.inl ⟨this, by simp [WrittenFalse, Val.false]⟩)
  intro p
  induction p with
  | ident => intro _ v w h _; rfl
  | str b =>
    intro _ v w h _
    by_cases hc : Parser.checkFalse b v = true
    · simp only [Parser.parse, hc, if_true, Except.ok.injEq] at h
      subst h
      exact cf (.str b) v (by simp) hc
    · simp only [Parser.parse, hc, Bool.false_eq_true, if_false, Except.ok.injEq] at h
      subst h
      rw [checkFalse_iff] at hc
      have : Parser.checkFalse b (.atom (.str (pyStr B v))) = false := by
        refine checkFalse_eq_false ?_
        rintro ⟨h1, h2⟩
        exact pyStr_not_false (fun hv => hc ⟨h1, hv⟩) h2
      simp only [Parser.parse, this, Bool.false_eq_true, if_false]
      rfl
  | strOrPlainDict b =>
    intro _ v w h _
    by_cases hc : Parser.checkFalse b v = true
    · simp only [Parser.parse, hc, if_true, Except.ok.injEq] at h
      subst h
      exact cf (.strOrPlainDict b) v (by simp) hc
    · by_cases hd : v.isDict = true
      · simp only [Parser.parse, hc, hd, if_true, Bool.false_eq_true, if_false, Except.ok.injEq] at h
        subst h
        simp only [Parser.parse, hc, hd, if_true, Bool.false_eq_true, if_false]
      · simp only [Parser.parse, hc, hd, Bool.false_eq_true, if_false, Except.ok.injEq] at h
        subst h
        rw [checkFalse_iff] at hc
        have : Parser.checkFalse b (.atom (.str (pyStr B v))) = false := by
          refine checkFalse_eq_false ?_
          rintro ⟨h1, h2⟩
          exact pyStr_not_false (fun hv => hc ⟨h1, hv⟩) h2
        simp only [Parser.parse, this, Bool.false_eq_true, if_false, Py.isDict]
        rfl
  | bool b =>
    intro _ v w h _
    obtain ⟨h1, h2, h3⟩ := C05_bool (B := B) (b := b) v
    by_cases ht : WrittenTrue v
    · rw [h1 ht, Except.ok.injEq] at h
      subst h
      exact (C05_bool _).1 (by simp [WrittenTrue])
    · by_cases hf : WrittenFalse v
      · rw [h2 hf, Except.ok.injEq] at h
        subst h
        exact (C05_bool _).2.1 (by simp [WrittenFalse])
      · rw [h3 ht hf] at h; simp at h
  | float b lo hi =>
    intro _ v w h hz
    by_cases hc : Parser.checkFalse b v = true
    · simp only [Parser.parse, hc, if_true, Except.ok.injEq] at h
      subst h
      exact cf (.float b lo hi) v (by simp) hc
    · simp only [Parser.parse, hc, Bool.false_eq_true, if_false] at h
      split at h
      · simp at h
      · next f hf =>
        split at h
        · simp at h
        · next ho =>
          simp only [Except.ok.injEq] at h
          subst h
          have : Parser.checkFalse b (.atom (.float f)) = false := by
            refine checkFalse_eq_false ?_
            rintro ⟨h1, h2⟩
            rcases hz with hz | hz
            · simp [Parser.noOptionalNumber, h1] at hz
            · refine hz ⟨h1, ?_⟩
              simpa [WrittenFalse, IsZero] using h2
          simp only [Parser.parse, this, Bool.false_eq_true, if_false, pyFloat, ho]
  | int b lo hi =>
    intro _ v w h hz
    by_cases hc : Parser.checkFalse b v = true
    · simp only [Parser.parse, hc, if_true, Except.ok.injEq] at h
      subst h
      exact cf (.int b lo hi) v (by simp) hc
    · simp only [Parser.parse, hc, Bool.false_eq_true, if_false] at h
      split at h
      · simp at h
      · next f hf =>
        split at h
        · simp at h
        · next ho =>
          simp only [Except.ok.injEq] at h
          subst h
          have : Parser.checkFalse b (.atom (.int f)) = false := by
            refine checkFalse_eq_false ?_
            rintro ⟨h1, h2⟩
            rcases hz with hz | hz
            · simp [Parser.noOptionalNumber, h1] at hz
            · refine hz ⟨h1, ?_⟩
              simpa [WrittenFalse, IsZero] using h2
          simp only [Parser.parse, this, Bool.false_eq_true, if_false, pyInt, ho]
  | enum b l =>
    intro _ v w h _
    by_cases hc : Parser.checkFalse b v = true
    · simp only [Parser.parse, hc, if_true, Except.ok.injEq] at h
      subst h
      exact cf (.enum b l) v (by simp) hc
    · have h' := h
      simp only [Parser.parse, hc, Bool.false_eq_true, if_false] at h
      split at h
      · simp only [Except.ok.injEq] at h
        subst h
        exact h'
      · simp at h
  | quantity b u =>
    intro _ v w h _
    by_cases hc : Parser.checkFalse b v = true
    · simp only [Parser.parse, hc, if_true, Except.ok.injEq] at h
      subst h
      exact cf (.quantity b u) v (by simp) hc
    · have h' := h
      simp only [Parser.parse, hc, Bool.false_eq_true, if_false] at h
      split at h
      · simp only [Except.ok.injEq] at h
        subst h
        exact h'
      · simp at h
  | list b p ih =>
    intro hp v w h _
    have hn : p.noOptionalNumber = true := hp
    by_cases hc : Parser.checkFalse b v = true
    · simp only [Parser.parse, hc, if_true, Except.ok.injEq] at h
      subst h
      exact cf (.list b p) v (by simp) hc
    · have nf : ∀ l, Parser.checkFalse b (.list l) = false :=
        fun l => checkFalse_eq_false (by simp [WrittenFalse])
      simp only [Parser.parse, hc, Bool.false_eq_true, if_false] at h
      split at h
      · split at h
        · simp at h
        · next l' hl' =>
          simp only [Except.ok.injEq] at h
          subst h
          have := parseList_idem (fun v w h => ih (Parser.noOptionalNumber_plain hn) v w h (Or.inl hn)) hl'
          simp only [Parser.parse, nf, Bool.false_eq_true, if_false, this]
      · simp only [Except.ok.injEq] at h
        subst h
        simp only [Parser.parse, nf, Bool.false_eq_true, if_false, Parser.parseList]
      · simp at h
  | dict b k p ihk ih =>
    intro hp v w h _
    simp only [Parser.plainElements, Bool.and_eq_true] at hp
    by_cases hc : Parser.checkFalse b v = true
    · simp only [Parser.parse, hc, if_true, Except.ok.injEq] at h
      subst h
      exact cf (.dict b k p) v (by simp) hc
    · have nf : ∀ d, Parser.checkFalse b (.dict d) = false :=
        fun d => checkFalse_eq_false (by simp [WrittenFalse])
      simp only [Parser.parse, hc, Bool.false_eq_true, if_false] at h
      split at h
      · split at h
        · simp at h
        · next d' hd' =>
          simp only [Except.ok.injEq] at h
          subst h
          have hfix := parseDict_entriesFixed
            (fun _ _ _ h1 h2 => parse_key_idem
              (fun v w h => ihk (Parser.noOptionalNumber_plain hp.1) v w h (Or.inl hp.1)) h1 h2)
            (fun v w h => ih (Parser.noOptionalNumber_plain hp.2) v w h (Or.inl hp.2))
            (acc := []) (by intro e he; simp at he) (by simp [Dict.keys]) hd'
          have := parseDict_fixed (acc := []) hfix.1 (by simpa using hfix.2)
          simp only [Parser.parse, nf, Bool.false_eq_true, if_false, this, List.nil_append]
      · simp only [Except.ok.injEq] at h
        subst h
        simp only [Parser.parse, nf, Bool.false_eq_true, if_false, Parser.parseDict]
      · simp at h
  | datasource b k p ihk ih =>
    intro hp v w h _
    simp only [Parser.plainElements, Bool.and_eq_true] at hp
    by_cases hc : Parser.checkFalse b v = true
    · simp only [Parser.parse, hc, if_true, Except.ok.injEq] at h
      subst h
      exact cf (.datasource b k p) v (by simp) hc
    · have nf : ∀ d, Parser.checkFalse b (.dict d) = false :=
        fun d => checkFalse_eq_false (by simp [WrittenFalse])
      simp only [Parser.parse, hc, Bool.false_eq_true, if_false] at h
      split at h
      · split at h
        · simp at h
        · next d' hd' =>
          split at h
          · next hall =>
            simp only [Except.ok.injEq] at h
            subst h
            have hfix := parseDict_entriesFixed
              (fun _ _ _ h1 h2 => parse_key_idem
                (fun v w h => ihk (Parser.noOptionalNumber_plain hp.1) v w h (Or.inl hp.1)) h1 h2)
              (fun v w h => ih (Parser.noOptionalNumber_plain hp.2) v w h (Or.inl hp.2))
              (acc := []) (by intro e he; simp at he) (by simp [Dict.keys]) hd'
            have := parseDict_fixed (acc := []) hfix.1 (by simpa using hfix.2)
            exact datasource_ok (nf _) (by rw [this, List.nil_append]) hall
          · simp at h
      · simp at h

section
variable {B : Builtins} {default : List (Key × Val)} {user parsed : Val} {tree : Py Parser}

/-- **Checking a checked configuration changes nothing**: if `check_params(u)` returns `p`, then
`check_params(p)` returns `p` (and the same parsers), for every template without optional numbers as element
types, provided no numeric parameter that may be false came out as the number zero.

What is missing: that last case; there the claim is false, see `C03_zero_becomes_false`. -/
theorem C03_check_twice_partial (hD : DefaultOk default)
    (hel : ∀ ks p, HasParser default ks p → p.plainElements = true)
    (h : checkParams B default user = .ok (parsed, tree))
    (hz : ∀ ks p v, HasParser default ks p → p.base.canBeFalse = true → getNested ks parsed = .ok v → ¬ IsZero v) :
    checkParams B default parsed = .ok (parsed, tree) := by
  obtain ⟨h1, h2⟩ := checkParams_ok h
  obtain ⟨names, known, hn, hk, hsub⟩ := checkObsolete_ok h2
  refine checkParams_of ?_ (checkObsolete_of hk hk fun n hn => hn)
  rw [← h1]
  refine (parseSteps_congr ?_).symm
  rintro ⟨ks, node⟩ hm p hp
  obtain ⟨p', v, hp', hg, hv, -⟩ := parseParams_at hD h1 hm
  rw [hp, Except.ok.injEq] at hp'
  subst hp'
  have hpar : HasParser default ks p := ⟨node, (isParam_iff hD).2 hm, hp⟩
  obtain ⟨u, v', hv', hu⟩ := parsed_by hD h hpar
  rw [hv, Except.ok.injEq] at hv'
  subst hv'
  have hidem := parse_idem B p (hel ks p hpar) u v hu (Or.inr fun hc => hz ks p v hpar hc.1 hv hc.2)
  show p.get B user ks = p.get B parsed ks
  rw [hg]
  simp only [Parser.get, hv, hidem]

/-- Without `can_be_false` numbers at all, there is nothing to exclude. -/
theorem C03_check_twice_no_optional (hD : DefaultOk default)
    (hel : ∀ ks p, HasParser default ks p → p.noOptionalNumber = true)
    (h : checkParams B default user = .ok (parsed, tree)) :
    checkParams B default parsed = .ok (parsed, tree) := by
  obtain ⟨h1, h2⟩ := checkParams_ok h
  obtain ⟨names, known, hn, hk, hsub⟩ := checkObsolete_ok h2
  refine checkParams_of ?_ (checkObsolete_of hk hk fun n hn => hn)
  rw [← h1]
  refine (parseSteps_congr ?_).symm
  rintro ⟨ks, node⟩ hm p hp
  obtain ⟨p', v, hp', hg, hv, -⟩ := parseParams_at hD h1 hm
  rw [hp, Except.ok.injEq] at hp'
  subst hp'
  have hpar : HasParser default ks p := ⟨node, (isParam_iff hD).2 hm, hp⟩
  obtain ⟨u, v', hv', hu⟩ := parsed_by hD h hpar
  rw [hv, Except.ok.injEq] at hv'
  subst hv'
  have hidem := parse_idem B p (Parser.noOptionalNumber_plain (hel ks p hpar)) u v hu (Or.inl (hel ks p hpar))
  show p.get B user ks = p.get B parsed ks
  rw [hg]
  simp only [Parser.get, hv, hidem]

end

def parserB (q : Parser → Bool) : Except Err Parser → Bool
  | .ok p => q p
  | .error _ => true

theorem default_plainElements_aux :
    ((paramDefs DefaultYaml.entries).all fun l => parserB Parser.plainElements (Parser.create l.2)) = true := by
  decide +kernel

/-- The default configuration has no optional numbers inside lists or dictionaries. -/
theorem default_plainElements (ks : List Key) (p : Parser) (h : HasParser DefaultYaml.entries ks p) :
    p.plainElements = true := by
  obtain ⟨node, hn, hc⟩ := h
  have := List.all_eq_true.1 default_plainElements_aux (ks, node) ((isParam_iff default_ok).1 hn)
  simpa [hc, parserB] using this

/-- For MIMOSA's own template: `MIMOSA(load_params(u))` checks a configuration that does not change. -/
theorem C03_check_twice_default_partial {B : Builtins} {user parsed : Val} {tree : Py Parser}
    (h : checkParams B DefaultYaml.entries user = .ok (parsed, tree))
    (hz : ∀ ks p v, HasParser DefaultYaml.entries ks p → p.base.canBeFalse = true → getNested ks parsed = .ok v →
      ¬ IsZero v) : checkParams B DefaultYaml.entries parsed = .ok (parsed, tree) :=
  C03_check_twice_partial default_ok default_plainElements h hz

/-- **Counterexample**: a parameter that may be false, given as the string `"0.0"`, is `0.0` after the first
check and `False` after the second: "rate zero" becomes "no rate". -/
theorem C03_zero_becomes_false (b : ParserBase) (hb : b.canBeFalse = true) :
    (Parser.float b .ninf .inf).parse exampleBuiltins (.atom (.str "0.0")) = .ok (.atom (.float (.fin 0))) ∧
    (Parser.float b .ninf .inf).parse exampleBuiltins (.atom (.float (.fin 0))) = .ok (.atom (.bool false)) := by
  constructor
  · have hc : Parser.checkFalse b (.atom (.str "0.0")) = false :=
      checkFalse_eq_false (by simp [WrittenFalse])
    have hf : pyFloat exampleBuiltins (.atom (.str "0.0")) = .ok (.fin 0) := rfl
    have ho : Parser.outOfBounds (.fin 0) .ninf .inf = false := rfl
    simp only [Parser.parse, hc, hf, ho, Bool.false_eq_true, if_false]
  · exact (C06_false_iff _ _).2 (Or.inl ⟨hb, by simp [WrittenFalse]⟩)


/-- The same on MIMOSA's own template, with `emissions: inertia: regional: "0.0"`. -/
theorem C03_zero_becomes_false_default :
    ∃ parsed tree parsed' tree',
      checkParams exampleBuiltins DefaultYaml.entries (.dict [(.str "emissions", .dict [(.str "inertia",
        .dict [(.str "regional", .atom (.str "0.0"))])])]) = .ok (parsed, tree) ∧
      checkParams exampleBuiltins DefaultYaml.entries parsed = .ok (parsed', tree') ∧
      getNested [.str "emissions", .str "inertia", .str "regional"] parsed = .ok (.atom (.float (.fin 0))) ∧
      getNested [.str "emissions", .str "inertia", .str "regional"] parsed' = .ok (.atom (.bool false)) := by
  have key : (match checkParams exampleBuiltins DefaultYaml.entries (.dict [(.str "emissions", .dict [(.str "inertia",
        .dict [(.str "regional", .atom (.str "0.0"))])])]) with
      | .error _ => false
      | .ok (parsed, _) => match checkParams exampleBuiltins DefaultYaml.entries parsed with
        | .error _ => false
        | .ok (parsed', _) =>
          (match getNested [.str "emissions", .str "inertia", .str "regional"] parsed with
            | .ok (.atom (.float (.fin q))) => decide (q = 0)
            | _ => false) &&
          (match getNested [.str "emissions", .str "inertia", .str "regional"] parsed' with
            | .ok (.atom (.bool b)) => !b
            | _ => false)) = true := by decide +kernel
  split at key
  · simp at key
  · next parsed tree h1 =>
    split at key
    · simp at key
    · next parsed' tree' h2 =>
      rw [Bool.and_eq_true] at key
      obtain ⟨k1, k2⟩ := key
      refine ⟨parsed, tree, parsed', tree', h1, h2, ?_, ?_⟩
      · split at k1
        · next q hq => rw [hq, of_decide_eq_true k1]
        · simp at k1
      · split at k2
        · next b hb => rw [hb]; simp at k2; rw [k2]
        · simp at k2

/-- The hypotheses of `C03_check_twice_default_partial` hold for the default configuration (`user = {}`): no
parameter that may be false is the number zero. -/
example : ∃ parsed tree, checkParams exampleBuiltins DefaultYaml.entries (.dict []) = .ok (parsed, tree) ∧
    ∀ ks p v, HasParser DefaultYaml.entries ks p → p.base.canBeFalse = true → getNested ks parsed = .ok v →
      ¬ IsZero v := by
  have key : (match checkParams exampleBuiltins DefaultYaml.entries (.dict []) with
      | .error _ => false
      | .ok (parsed, _) => (paramDefs DefaultYaml.entries).all fun l =>
        parserB (fun p => !p.base.canBeFalse || (match getNested l.1 parsed with
          | .ok (.atom (.int i)) => decide (i ≠ 0)
          | .ok (.atom (.float (.fin q))) => decide (q ≠ 0)
          | _ => true)) (Parser.create l.2)) = true := by decide +kernel
  split at key
  · simp at key
  · next parsed tree h1 =>
    refine ⟨parsed, tree, h1, ?_⟩
    rintro ks p v ⟨node, hn, hc⟩ hb hv hz
    have := List.all_eq_true.1 key (ks, node) ((isParam_iff default_ok).1 hn)
    simp only [hc, parserB, hb, hv, Bool.not_true, Bool.false_or] at this
    rcases hz with rfl | rfl <;> simp at this

end Mimosa
