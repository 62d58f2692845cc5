import Verif.Sim.Simulation
import Verif.Lib.Names
import Verif.Lib.Example2
import Verif.Props.Extrapolation
import Verif.Props.Settings

/-!
# C46: simulation mode
-/

namespace Mimosa

variable {X : SimWorld} {count : ℕ → ℕ} {m : AbstractModel} {s : SimSettings} {inst inst' : AbstractModel.Instance}
  {σ : Env} {p : Params}

/-! ## Specification -/

/-- The table from which a variable's imposed values are taken. -/
def SourceTable (X : SimWorld) (name : String) : SimSource → SimTable → Prop
  | .path f, T => ∃ file, X.csv f = some file ∧ T.years = file.years ∧
      T.rows = (file.rows.filter fun r => decide (r.variableName = name)).map fun r => (r.region, r.cells)
  | .data d, T => X.frame d = .ok T

/-- The row of a region (the last one, should there be several). -/
def LastRow {β : Type} (rows : List (String × β)) (region : String) (values : β) : Prop :=
  ∃ pre post, rows = pre ++ (region, values) :: post ∧ ∀ e ∈ post, e.1 ≠ region

/-- `f` is the curve imposed on variable `name` in a region: the spline through the data and their extension in steps
of five years to 2150. -/
def Imposed (X : SimWorld) (name : String) (src : SimSource) (region : String) (f : ℝ → ℝ) : Prop :=
  ∃ T values last ext, SourceTable X name src T ∧ LastRow T.rows region values ∧ T.years.getLast? = some last ∧
    extrapolate values T.years (simExtraYears last) = .ok ext ∧
    X.spline ((T.years ++ simExtraYears last).zip ext) = .ok f

/-- `σ` keeps the variable called `name` within 0.001 of the imposed values. -/
def Fixed (X : SimWorld) (p : Params) (σ : Env) (name : String) (src : SimSource) : Prop :=
  (∀ v : RVar, v.name = name → ∀ t : ℕ, t ≤ p.tf → ∀ r ∈ p.regions, ∃ f, Imposed X name src r f ∧
    |σ.r v t r - f (p.year t)| ≤ 1 / 1000) ∧
  (∀ v : GVar, v.name = name → ∀ t : ℕ, t ≤ p.tf → ∃ f, Imposed X name src "Global" f ∧
    |σ.g v t - f (p.year t)| ≤ 1 / 1000)

/-- `years` are the five-yearly steps after `last`, in order, as long as they are before 2151. -/
def Spec.ExtensionYears (last : ℚ) (years : List ℚ) : Prop :=
  years.Pairwise (· < ·) ∧ ∀ y, y ∈ years ↔ ∃ k : ℕ, y = last + 5 * (k + 1) ∧ y < 2151

/-- **C46.** The imposed curve is extended by five-yearly steps until 2150. -/
theorem C46_extension_years (last : ℚ) : Spec.ExtensionYears last (simExtraYears last) := by
  constructor
  · simp only [simExtraYears, TimeParams.arange, List.pairwise_map]
    refine List.pairwise_lt_range.imp fun {a b} hab => ?_
    have : (a : ℚ) < b := by exact_mod_cast hab
    linarith
  · intro y
    simp only [simExtraYears, TimeParams.arange, List.mem_map, List.mem_range]
    constructor
    · rintro ⟨i, hi, rfl⟩
      have h1 : (i : ℤ) < ⌈(2151 - (last + 5)) / 5⌉ := by omega
      have h2 := Int.lt_ceil.1 h1
      push_cast at h2
      rw [lt_div_iff₀ (by norm_num)] at h2
      exact ⟨i, by ring, by linarith⟩
    · rintro ⟨k, rfl, hk⟩
      refine ⟨k, ?_, by ring⟩
      have h1 : (k : ℤ) < ⌈(2151 - (last + 5)) / 5⌉ := by
        rw [Int.lt_ceil, lt_div_iff₀ (by norm_num)]
        push_cast
        linarith
      omega

example : simExtraYears 2131 = [2136, 2141, 2146] := by decide +kernel
example : simExtraYears 2130 = [2135, 2140, 2145, 2150] := by decide +kernel

/-! ## Names -/

theorem RVar.name_inj {v w : RVar} (h : v.name = w.name) : v = w := by
  cases v <;> cases w <;> first | rfl | (exact absurd h (by decide))

theorem GVar.name_inj {v w : GVar} (h : v.name = w.name) : v = w := by
  cases v <;> cases w <;> first | rfl | (exact absurd h (by decide))

theorem GVar.name_ne (v : GVar) (w : RVar) : v.name ≠ w.name := by
  cases v <;> cases w <;> decide

/-! ## Interpolated data -/

theorem simGet_cons (r region : String) (f : ℝ → ℝ) (I : List (String × (ℝ → ℝ))) :
    simGet ((r, f) :: I) region = match simGet I region with
      | .ok g => .ok g
      | .error e => if r = region then .ok f else .error e := by
  unfold simGet
  simp only [List.reverse_cons, List.find?_append]
  cases h : I.reverse.find? fun e => decide (e.1 = region) with
  | some e => simp
  | none =>
    simp only [Option.none_or, List.find?_cons, List.find?_nil]
    by_cases hr : r = region <;> simp [hr]

theorem lastRow_cons {β : Type} {rows : List (String × β)} {r region : String} {x values : β} :
    LastRow ((r, x) :: rows) region values ↔
      LastRow rows region values ∨ (r = region ∧ x = values ∧ ∀ e ∈ rows, e.1 ≠ region) := by
  constructor
  · rintro ⟨pre, post, h, hn⟩
    cases pre with
    | nil =>
      simp only [List.nil_append, List.cons.injEq, Prod.mk.injEq] at h
      obtain ⟨⟨rfl, rfl⟩, rfl⟩ := h
      exact .inr ⟨rfl, rfl, hn⟩
    | cons a pre =>
      simp only [List.cons_append, List.cons.injEq] at h
      exact .inl ⟨pre, post, h.2, hn⟩
  · rintro (⟨pre, post, rfl, hn⟩ | ⟨rfl, rfl, hn⟩)
    · exact ⟨(r, x) :: pre, post, rfl, hn⟩
    · exact ⟨[], rows, rfl, hn⟩

theorem simGet_spec {spline : List (ℚ × ℚ) → Except Err (ℝ → ℝ)} {years : List ℚ} {region : String} :
    {rows : List (String × List ℚ)} → {I : List (String × (ℝ → ℝ))} → interpRows spline years rows = .ok I →
    (∀ f, simGet I region = .ok f ↔ ∃ values, LastRow rows region values ∧ interpRow spline years values = .ok f) ∧
    ((∀ f, simGet I region ≠ .ok f) ↔ ∀ e ∈ rows, e.1 ≠ region)
  | [], I, h => by
    cases h
    simp [simGet, LastRow]
  | (r, values) :: rest, I, h => by
    unfold interpRows at h
    split at h
    · cases h
    rename_i f hf
    split at h
    · cases h
    rename_i l hl
    cases h
    obtain ⟨ih1, ih2⟩ := simGet_spec (region := region) hl
    rw [simGet_cons]
    cases hg : simGet l region with
    | ok g =>
      have hne : ¬ ∀ e ∈ rest, e.1 ≠ region := fun hc => ih2.2 hc g hg
      constructor
      · intro f'
        rw [show ((match Except.ok g with | .ok g => .ok g | .error e => if r = region then .ok f else .error e) =
          (Except.ok f' : Except Err (ℝ → ℝ))) ↔ simGet l region = .ok f' by rw [hg], ih1]
        constructor
        · rintro ⟨v, h1, h2⟩; exact ⟨v, lastRow_cons.2 (.inl h1), h2⟩
        · rintro ⟨v, h1, h2⟩
          rcases lastRow_cons.1 h1 with h1 | ⟨-, -, h1⟩
          · exact ⟨v, h1, h2⟩
          · exact absurd h1 hne
      · simp only [List.mem_cons, forall_eq_or_imp]
        constructor
        · intro hc; exact absurd rfl (hc g)
        · intro hc; exact absurd hc.2 hne
    | error e =>
      have hall : ∀ e ∈ rest, e.1 ≠ region := ih2.1 fun f hc => by rw [hg] at hc; cases hc
      have hno : ∀ v, ¬ LastRow rest region v := by
        rintro v ⟨pre, post, rfl, -⟩
        exact hall _ (List.mem_append_right _ List.mem_cons_self) rfl
      by_cases hr : r = region
      · subst hr
        constructor
        · intro f'
          simp only [if_true, Except.ok.injEq]
          constructor
          · rintro rfl; exact ⟨values, lastRow_cons.2 (.inr ⟨rfl, rfl, hall⟩), hf⟩
          · rintro ⟨v, h1, h2⟩
            rcases lastRow_cons.1 h1 with h1 | ⟨-, rfl, -⟩
            · exact absurd h1 (hno v)
            · rw [hf] at h2; exact Except.ok.inj h2
        · simp
      · simp only [hr, if_false]
        constructor
        · intro f'
          constructor
          · intro hc; cases hc
          · rintro ⟨v, h1, -⟩
            rcases lastRow_cons.1 h1 with h1 | ⟨h1, -, -⟩
            · exact absurd h1 (hno v)
            · exact absurd h1 hr
        · simp only [List.mem_cons, forall_eq_or_imp]
          simp [hr]
          exact fun a b hab => hall _ hab

/-- The curve that the code looks up is the imposed one. -/
theorem simGet_imposed {name region : String} {src : SimSource} {I : List (String × (ℝ → ℝ))}
    (h : getInterpData X name src = .ok I) (f : ℝ → ℝ) : simGet I region = .ok f ↔ Imposed X name src region f := by
  have key : ∀ T, interpolatingData X.spline T = .ok I → SourceTable X name src T →
      (∀ T', SourceTable X name src T' → T' = T) → (simGet I region = .ok f ↔ Imposed X name src region f) := by
    intro T hT hs hu
    unfold interpolatingData at hT
    split at hT
    · cases hT
    rw [(simGet_spec hT).1 f]
    constructor
    · rintro ⟨values, h1, h2⟩
      unfold interpRow at h2
      split at h2
      · cases h2
      rename_i last hlast
      split at h2
      · cases h2
      rename_i ext hext
      exact ⟨T, values, last, ext, hs, h1, hlast, hext, h2⟩
    · rintro ⟨T', values, last, ext, h1, h2, h3, h4, h5⟩
      obtain rfl := hu T' h1
      exact ⟨values, h2, by simp [interpRow, h3, h4, h5]⟩
  cases src with
  | data d =>
    simp only [getInterpData] at h
    split at h
    · cases h
    rename_i T hT
    refine key T h hT fun T' h' => ?_
    have h2 : X.frame d = .ok T' := h'
    rw [hT] at h2
    exact (Except.ok.inj h2).symm
  | path f' =>
    simp only [getInterpData] at h
    split at h
    · cases h
    rename_i file hfile
    refine key _ h ⟨file, hfile, rfl, rfl⟩ ?_
    rintro ⟨y, rw'⟩ ⟨file', h1, h2, h3⟩
    rw [hfile] at h1
    cases h1
    simp only at h2 h3
    subst h2 h3
    rfl

/-! ## The constraints -/

theorem simRule_sat {I : List (String × (ℝ → ℝ))} {region : String} {year : ℝ} {x : Expr} (hx : x.Defined σ) :
    ((simRule I region year x true).Sat σ ∧ (simRule I region year x false).Sat σ) ↔
      ∃ f, simGet I region = .ok f ∧ |x.eval σ - f year| ≤ 1 / 1000 := by
  unfold simRule
  cases h : simGet I region with
  | error e => simp
  | ok f =>
    simp only [RuleOut.sat_rel, if_true, Bool.false_eq_true, if_false, Rel.holds_le, Rel.holds_ge, Except.ok.injEq,
      exists_eq_left', abs_le]
    have e1 : (x - num (f year)).eval σ = x.eval σ - f year := rfl
    have e2 : (x - num (f year)).Defined σ ↔ x.Defined σ ∧ True := Iff.rfl
    have e3 : (num simEps).eval σ = 1 / 1000 := rfl
    have e4 : (num (-simEps)).eval σ = -(1 / 1000) := rfl
    have e5 : ∀ c : ℝ, (num c).Defined σ := fun c => trivial
    rw [e1, e2, e3, e4]
    simp only [hx, e5, true_and, and_true]
    tauto

theorem fixed_sat {name : String} {src : SimSource} {I : List (String × (ℝ → ℝ))} {cs : List GeneralConstraint}
    (hI : getInterpData X name src = .ok I) (h : fixedDataConstraint m name I = .ok cs) :
    SatAll p σ cs ↔ Fixed X p σ name src := by
  unfold fixedDataConstraint at h
  split at h
  · cases h
  · rename_i v lb ub hf
    cases h
    have hn : v.name = name := by
      have h := List.find?_some hf
      exact of_decide_eq_true h
    simp only [extraRegional, satAll_cons, satAll_nil, and_true, sat_regional]
    have : (∀ t ≤ p.tf, ∀ r ∈ p.regions, ∃ f, Imposed X name src r f ∧ |σ.r v t r - f (p.year t)| ≤ 1 / 1000) ↔
        Fixed X p σ name src := by
      constructor
      · intro h
        refine ⟨fun w hw t ht r hr => ?_, fun w hw => ?_⟩
        · obtain rfl : w = v := RVar.name_inj (hw.trans hn.symm)
          exact h t ht r hr
        · exact absurd (hw.trans hn.symm) (GVar.name_ne w v)
      · intro h t ht r hr
        exact h.1 v hn t ht r hr
    rw [← this, ← forall₂_and]
    refine forall₂_congr fun t ht => ?_
    rw [← forall₂_and]
    refine forall₂_congr fun r hr => ?_
    rw [simRule_sat (by trivial)]
    exact exists_congr fun f => and_congr_left fun _ => simGet_imposed hI f
  · rename_i v lb ub hf
    cases h
    have hn : v.name = name := by
      have h := List.find?_some hf
      exact of_decide_eq_true h
    simp only [extraGlobal, satAll_cons, satAll_nil, and_true, sat_global]
    have : (∀ t ≤ p.tf, ∃ f, Imposed X name src "Global" f ∧ |σ.g v t - f (p.year t)| ≤ 1 / 1000) ↔
        Fixed X p σ name src := by
      constructor
      · intro h
        refine ⟨fun w hw => ?_, fun w hw t ht => ?_⟩
        · exact absurd (hn.trans hw.symm) (GVar.name_ne v w)
        · obtain rfl : w = v := GVar.name_inj (hw.trans hn.symm)
          exact h t ht
      · intro h t ht
        exact h.2 v hn t ht
    rw [← this, ← forall₂_and]
    refine forall₂_congr fun t ht => ?_
    rw [simRule_sat (by trivial)]
    exact exists_congr fun f => and_congr_left fun _ => simGet_imposed hI f

theorem extra_sat : {fixed : List (String × SimSource)} → {cs : List GeneralConstraint} →
    extraConstraints X m fixed = .ok cs → (SatAll p σ cs ↔ ∀ e ∈ fixed, Fixed X p σ e.1 e.2)
  | [], cs, h => by cases h; simp
  | (name, src) :: rest, cs, h => by
    unfold extraConstraints at h
    split at h
    · cases h
    rename_i I hI
    split at h
    · cases h
    rename_i cs1 h1
    split at h
    · cases h
    rename_i cs2 h2
    cases h
    rw [satAll_append, extra_sat h2, fixed_sat hI h1]
    simp

theorem extra_unnamed : {fixed : List (String × SimSource)} → {cs : List GeneralConstraint} →
    extraConstraints X m fixed = .ok cs → ∀ nc ∈ cs.flatMap GeneralConstraint.toPyomo, nc.1 = none
  | [], cs, h => by cases h; simp
  | (name, src) :: rest, cs, h => by
    unfold extraConstraints at h
    split at h
    · cases h
    split at h
    · cases h
    rename_i cs1 h1
    split at h
    · cases h
    rename_i cs2 h2
    cases h
    intro nc hnc
    rw [List.flatMap_append, List.mem_append] at hnc
    rcases hnc with hnc | hnc
    · unfold fixedDataConstraint at h1
      split at h1
      · cases h1
      · cases h1
        simp [extraRegional, GeneralConstraint.toPyomo] at hnc
        rcases hnc with rfl | rfl <;> rfl
      · cases h1
        simp [extraGlobal, GeneralConstraint.toPyomo] at hnc
        rcases hnc with rfl | rfl <;> rfl
    · exact extra_unnamed h2 nc hnc

theorem collectAll_names : {cs : List (String × PyomoConstraint)} → {act : List (String × List Rel)} →
    m.collectAll p cs = .ok act → act.map (·.1) = cs.map (·.1)
  | [], act, h => by cases h; rfl
  | (n, c) :: cs, act, h => by
    simp only [AbstractModel.collectAll, bind, Except.bind] at h
    cases h1 : m.collect p (c.outcomes p) with
    | error e => simp [h1] at h
    | ok rels =>
      cases h2 : m.collectAll p cs with
      | error e => simp [h1, h2] at h
      | ok rest =>
        simp only [h1, h2, pure, Except.pure, Except.ok.injEq] at h
        subst h
        simp [collectAll_names h2]

theorem satAll_flatMap {cs : List GeneralConstraint} :
    SatAll p σ cs ↔ ∀ nc ∈ cs.flatMap GeneralConstraint.toPyomo, nc.2.Sat p σ := by
  simp only [SatAll, GeneralConstraint.Sat, List.mem_flatMap]
  constructor
  · rintro h nc ⟨c, hc, hnc⟩; exact h c hc nc hnc
  · intro h c hc nc hnc; exact h nc ⟨c, hc, hnc⟩

/-- **C46.** Which points are feasible in simulation mode: exactly those that satisfy the variable bounds, the
constraints that were not deactivated, and keep each listed variable within 0.001 of its imposed values at every time
step.  (The deactivated names are proper names, not the numbers that Pyomo gives to unnamed constraints.) -/
theorem C46_feasible_iff (h : simulationMode X count m s inst = .ok inst') (hon : s.on = true)
    (hnum : ∀ n ∈ s.disabled, ∀ k : ℕ, n ≠ toString k) :
    inst'.Feasible σ ↔ (∀ d ∈ inst.vars, d.BoundsOk inst.params σ) ∧
      (∀ nr ∈ inst.active, (∀ n ∈ s.disabled, nr.1 ≠ "constraint_" ++ n) → ∀ ρ ∈ nr.2, ρ.Holds σ) ∧
      ∀ e ∈ s.fixed, Fixed X inst.params σ e.1 e.2 := by
  unfold simulationMode at h
  rw [if_pos hon] at h
  split at h
  · cases h
  rename_i cs hcs
  split at h
  · cases h
  rename_i inst1 h1
  unfold addExtra at h1
  simp only at h1
  split at h1
  swap
  · cases h1
  rename_i hnd
  split at h1
  · cases h1
  rename_i new hnew
  cases h1
  unfold deactivate at h
  split at h
  swap
  · cases h
  cases h
  unfold AbstractModel.Instance.Feasible
  simp only [List.filter_append, List.mem_append, List.mem_filter, decide_eq_true_eq]
  refine and_congr_right fun _ => ?_
  have hsat : (∀ nr ∈ new, ∀ ρ ∈ nr.2, ρ.Holds σ) ↔ ∀ e ∈ s.fixed, Fixed X inst.params σ e.1 e.2 := by
    rw [AbstractModel.collectAll_ok_sat hnew σ, mem_zip_constraints, ← satAll_flatMap, extra_sat hcs]
  rw [← hsat]
  have hkeep : ∀ nr ∈ new, ∀ n ∈ s.disabled, nr.1 ≠ "constraint_" ++ n := by
    intro nr hnr n hn he
    have hmem : nr.1 ∈ new.map (·.1) := List.mem_map_of_mem hnr
    rw [collectAll_names hnew, List.map_fst_zip (by simp [constraintNames_length]), constraintNames_eq, he] at hmem
    rcases mem_namesFrom hmem with hm | ⟨j, -, hj⟩
    · obtain ⟨nc, h1, h2⟩ := List.mem_map.1 hm
      rw [extra_unnamed hcs nc h1] at h2
      cases h2
    · exact hnum n hn _ hj
  constructor
  · intro hf
    exact ⟨fun nr hnr hd ρ hρ => hf nr (.inl ⟨hnr, hd⟩) ρ hρ, fun nr hnr ρ hρ => hf nr (.inr ⟨hnr, hkeep nr hnr⟩) ρ hρ⟩
  · rintro ⟨g1, g2⟩ nr (⟨hnr, hd⟩ | ⟨hnr, -⟩) ρ hρ
    · exact g1 nr hnr hd ρ hρ
    · exact g2 nr hnr ρ hρ

/-! ## When simulation mode is accepted -/

/-- The table of imposed values exists and every row of it can be extended and interpolated. -/
def Readable (X : SimWorld) (name : String) (src : SimSource) : Prop :=
  ∃ T, SourceTable X name src T ∧ T.years ≠ [] ∧ ∀ e ∈ T.rows, ∃ last ext f, T.years.getLast? = some last ∧
    extrapolate e.2 T.years (simExtraYears last) = .ok ext ∧ X.spline ((T.years ++ simExtraYears last).zip ext) = .ok f

/-- A variable of the model has this name, and the table has values for every region (for a global variable: for
`"Global"`). -/
def Covered (X : SimWorld) (md : Modules) (p : Params) (name : String) (src : SimSource) : Prop :=
  (∃ v : RVar, v.name = name ∧ md.declaresR v = true ∧ ∀ r ∈ p.regions, ∃ f, Imposed X name src r f) ∨
  (∃ v : GVar, v.name = name ∧ md.declaresG v = true ∧ ∃ f, Imposed X name src "Global" f)

theorem interpRow_ok {spline : List (ℚ × ℚ) → Except Err (ℝ → ℝ)} {years values : List ℚ} {f : ℝ → ℝ} :
    interpRow spline years values = .ok f ↔ ∃ last ext, years.getLast? = some last ∧
      extrapolate values years (simExtraYears last) = .ok ext ∧ spline ((years ++ simExtraYears last).zip ext) = .ok f := by
  unfold interpRow
  cases years.getLast? with
  | none => simp
  | some last =>
    simp only [Option.some.injEq, exists_and_left, exists_eq_left']
    cases extrapolate values years (simExtraYears last) with
    | error e => simp
    | ok ext => simp

theorem interpRows_ok {spline : List (ℚ × ℚ) → Except Err (ℝ → ℝ)} {years : List ℚ} :
    {rows : List (String × List ℚ)} → (∃ I, interpRows spline years rows = .ok I) ↔
      ∀ e ∈ rows, ∃ f, interpRow spline years e.2 = .ok f
  | [] => by simp [interpRows]
  | (r, values) :: rest => by
    rw [List.forall_mem_cons, ← interpRows_ok (rows := rest)]
    rw [interpRows]
    cases h1 : interpRow spline years values with
    | error e => simp
    | ok f =>
      cases h2 : interpRows spline years rest with
      | error e => simp
      | ok l => simp

theorem getInterpData_ok {name : String} {src : SimSource} :
    (∃ I, getInterpData X name src = .ok I) ↔ Readable X name src := by
  have key : ∀ T, (∃ I, interpolatingData X.spline T = .ok I) ↔ T.years ≠ [] ∧ ∀ e ∈ T.rows, ∃ last ext f,
      T.years.getLast? = some last ∧ extrapolate e.2 T.years (simExtraYears last) = .ok ext ∧
      X.spline ((T.years ++ simExtraYears last).zip ext) = .ok f := by
    intro T
    unfold interpolatingData
    by_cases hy : T.years = []
    · simp [hy]
    · rw [if_neg hy, interpRows_ok]
      simp only [ne_eq, hy, not_false_eq_true, true_and, interpRow_ok]
      refine forall₂_congr fun e he => ?_
      constructor
      · rintro ⟨f, last, ext, h⟩; exact ⟨last, ext, f, h⟩
      · rintro ⟨last, ext, f, h⟩; exact ⟨f, last, ext, h⟩
  cases src with
  | data d =>
    simp only [getInterpData, Readable, SourceTable]
    cases h : X.frame d with
    | error e => simp
    | ok T => simp only [Except.ok.injEq, exists_eq_left']; exact key T
  | path q =>
    simp only [getInterpData, Readable, SourceTable]
    cases h : X.csv q with
    | none => simp
    | some file =>
      simp only [Option.some.injEq, exists_eq_left']
      rw [key]
      constructor
      · intro h; exact ⟨_, ⟨rfl, rfl⟩, h⟩
      · rintro ⟨⟨y, rw'⟩, ⟨h1, h2⟩, h⟩
        simp only at h1 h2
        subst h1 h2
        exact h

theorem simRule_okFor_r {md : Modules} {I : List (String × (ℝ → ℝ))} {region : String} {year : ℝ} {v : RVar} {t : ℕ}
    {r : String} {b : Bool} (hv : md.declaresR v = true) (ht : t ≤ p.tf) (hr : r ∈ p.regions) :
    OkFor md p (simRule I region year (rv v t r) b) ↔ ∃ f, simGet I region = .ok f := by
  unfold simRule
  cases simGet I region with
  | error e => simp
  | ok f => cases b <;> simp [Rel.Scoped, Expr.ple, Expr.pge, hv, ht, hr]

theorem simRule_okFor_g {md : Modules} {I : List (String × (ℝ → ℝ))} {region : String} {year : ℝ} {v : GVar} {t : ℕ}
    {b : Bool} (hv : md.declaresG v = true) (ht : t ≤ p.tf) :
    OkFor md p (simRule I region year (gv v t) b) ↔ ∃ f, simGet I region = .ok f := by
  unfold simRule
  cases simGet I region with
  | error e => simp
  | ok f => cases b <;> simp [Rel.Scoped, Expr.ple, Expr.pge, hv, ht]

theorem declaresR_iff_mem {md : Modules} (hm : m.vars = allVars md) (v : RVar) :
    md.declaresR v = true ↔ ∃ lb ub, VarDecl.regional v lb ub ∈ m.vars := by
  rw [← declR_allVars, ← hm, declRIn, List.any_eq_true]
  constructor
  · rintro ⟨d, hd, h⟩
    cases d with
    | global w lb ub => cases h
    | regional w lb ub =>
      obtain rfl : w = v := by simpa using h
      exact ⟨lb, ub, hd⟩
  · rintro ⟨lb, ub, h⟩
    exact ⟨_, h, by simp⟩

theorem declaresG_iff_mem {md : Modules} (hm : m.vars = allVars md) (v : GVar) :
    md.declaresG v = true ↔ ∃ lb ub, VarDecl.global v lb ub ∈ m.vars := by
  rw [← declG_allVars, ← hm, declGIn, List.any_eq_true]
  constructor
  · rintro ⟨d, hd, h⟩
    cases d with
    | regional w lb ub => cases h
    | global w lb ub =>
      obtain rfl : w = v := by simpa using h
      exact ⟨lb, ub, hd⟩
  · rintro ⟨lb, ub, h⟩
    exact ⟨_, h, by simp⟩

theorem covered_iff {md : Modules} (hm : m.vars = allVars md) {name : String} {src : SimSource}
    {I : List (String × (ℝ → ℝ))} (hI : getInterpData X name src = .ok I) :
    (∃ cs, fixedDataConstraint m name I = .ok cs ∧ AllOut (OkFor md p) p cs) ↔ Covered X md p name src := by
  unfold fixedDataConstraint
  split
  · rename_i hf
    have hno := List.find?_eq_none.1 hf
    refine iff_of_false (by simp) ?_
    rintro (⟨v, hn, hd, -⟩ | ⟨v, hn, hd, -⟩)
    · obtain ⟨lb, ub, h⟩ := (declaresR_iff_mem hm v).1 hd
      exact hno _ h (decide_eq_true hn)
    · obtain ⟨lb, ub, h⟩ := (declaresG_iff_mem hm v).1 hd
      exact hno _ h (decide_eq_true hn)
  · rename_i v lb ub hf
    have hn : v.name = name := by
      have h := List.find?_some hf
      exact of_decide_eq_true h
    have hd : md.declaresR v = true := (declaresR_iff_mem hm v).2 ⟨lb, ub, List.mem_of_find?_eq_some hf⟩
    simp only [Except.ok.injEq, exists_eq_left', extraRegional]
    rw [allOut_cons, allOut_regional, allOut_regional]
    constructor
    · rintro ⟨h, -⟩
      refine .inl ⟨v, hn, hd, fun r hr => ?_⟩
      obtain ⟨f, hf⟩ := (simRule_okFor_r hd (Nat.zero_le _) hr).1 (h 0 (Nat.zero_le _) r hr)
      exact ⟨f, (simGet_imposed hI f).1 hf⟩
    · rintro (⟨w, hw, hwd, h⟩ | ⟨w, hw, -⟩)
      · constructor <;> intro t ht r hr <;> obtain ⟨f, hf⟩ := h r hr <;>
          exact (simRule_okFor_r hd ht hr).2 ⟨f, (simGet_imposed hI f).2 hf⟩
      · exact absurd (hw.trans hn.symm) (GVar.name_ne w v)
  · rename_i v lb ub hf
    have hn : v.name = name := by
      have h := List.find?_some hf
      exact of_decide_eq_true h
    have hd : md.declaresG v = true := (declaresG_iff_mem hm v).2 ⟨lb, ub, List.mem_of_find?_eq_some hf⟩
    simp only [Except.ok.injEq, exists_eq_left', extraGlobal]
    rw [allOut_cons, allOut_global, allOut_global]
    constructor
    · rintro ⟨h, -⟩
      obtain ⟨f, hf⟩ := (simRule_okFor_g hd (Nat.zero_le _)).1 (h 0 (Nat.zero_le _))
      exact .inr ⟨v, hn, hd, f, (simGet_imposed hI f).1 hf⟩
    · rintro (⟨w, hw, -⟩ | ⟨w, hw, hwd, f, hf⟩)
      · exact absurd (hn.trans hw.symm) (GVar.name_ne v w)
      · constructor <;> intro t ht <;> exact (simRule_okFor_g hd ht).2 ⟨f, (simGet_imposed hI f).2 hf⟩

theorem extraConstraints_ok {md : Modules} (hm : m.vars = allVars md) : {fixed : List (String × SimSource)} →
    ((∃ cs, extraConstraints X m fixed = .ok cs ∧ AllOut (OkFor md p) p cs) ↔
      ∀ e ∈ fixed, Readable X e.1 e.2 ∧ Covered X md p e.1 e.2)
  | [] => by simp [extraConstraints]
  | (name, src) :: rest => by
    rw [List.forall_mem_cons, ← extraConstraints_ok hm (fixed := rest), extraConstraints]
    simp only
    rw [← getInterpData_ok]
    cases hI : getInterpData X name src with
    | error e => simp
    | ok I =>
      rw [← covered_iff hm hI]
      simp only [Except.ok.injEq, exists_eq', true_and]
      cases h1 : fixedDataConstraint m name I with
      | error e => simp
      | ok cs =>
        cases h2 : extraConstraints X m rest with
        | error e => simp
        | ok cs' => simp [allOut_append]

theorem createInstance_fields {inst : AbstractModel.Instance} (h : m.createInstance p = .ok inst) :
    inst.params = p ∧ inst.vars = m.vars ∧ m.collectAll p m.constraints = .ok inst.active := by
  unfold AbstractModel.createInstance at h
  split at h
  · split at h
    · cases h
    · rename_i act hact
      cases h
      exact ⟨rfl, rfl, hact⟩
  · cases h

theorem active_names {md : Modules} (hb : buildModel count md = .ok m) (hi : m.createInstance p = .ok inst) :
    inst.active.map (·.1) = namesFrom count 0 (optNames md) := by
  obtain ⟨-, -, h3⟩ := createInstance_fields hi
  rw [collectAll_names h3, (buildModel_vars hb).2.2.1, List.map_fst_zip (by simp [constraintNames_length]),
    constraintNames_eq]
  rfl

theorem mem_namesFrom_lt {n : String} {ns : List (Option String)} {i : ℕ} :
    ("constraint_" ++ n) ∈ namesFrom count i ns →
      some n ∈ ns ∨ ∃ j, j < i + ns.length ∧ n = toString (count j) := by
  induction ns generalizing i with
  | nil => simp [namesFrom]
  | cons o ns ih =>
    cases o with
    | none =>
      simp only [namesFrom, List.mem_cons, List.length_cons]
      rintro (h | h)
      · exact Or.inr ⟨i, by omega, prefix_inj h⟩
      · rcases ih h with h | ⟨j, hj, h⟩
        · exact Or.inl (Or.inr h)
        · exact Or.inr ⟨j, by omega, h⟩
    | some s' =>
      simp only [namesFrom, List.mem_cons, List.length_cons]
      rintro (h | h)
      · exact Or.inl (Or.inl (congrArg some (prefix_inj h)))
      · rcases ih h with h | ⟨j, hj, h⟩
        · exact Or.inl (Or.inr h)
        · exact Or.inr ⟨j, by omega, h⟩

/-- **C46.** When simulation mode is accepted: exactly when every listed variable exists, its data can be read and
interpolated and has values for every region (`"Global"` for a global variable), and every constraint to be
deactivated exists.  `count` and `count'` are Pyomo's component counts when the constraints of the model and the extra
constraints were added. -/
theorem C46_accepted_iff {md : Modules} {count' : ℕ → ℕ} (hc : StrictMono count) (hc' : StrictMono count')
    (hlater : ∀ i < m.constraints.length, ∀ j, count i < count' j) (hb : buildModel count md = .ok m) (hi : m.createInstance p = .ok inst)
    (hon : s.on = true) (hnum : ∀ n ∈ s.disabled, ∀ k : ℕ, n ≠ toString k) :
    (∃ inst', simulationMode X count' m s inst = .ok inst') ↔
      (∀ e ∈ s.fixed, Readable X e.1 e.2 ∧ Covered X md p e.1 e.2) ∧
      ∀ n ∈ s.disabled, "constraint_" ++ n ∈ inst.active.map (·.1) := by
  have hm := (buildModel_vars hb).1
  have hp := (createInstance_fields hi).1
  rw [← extraConstraints_ok hm]
  unfold simulationMode
  rw [if_pos hon]
  cases hcs : extraConstraints X m s.fixed with
  | error e => simp
  | ok cs =>
    simp only [Except.ok.injEq, exists_eq_left']
    have hun := extra_unnamed hcs
    have ho : ∀ o, AbstractModel.OutcomeOk m p o ↔ OkFor md p o := by
      intro o
      cases o with
      | skip => simp [AbstractModel.OutcomeOk]
      | raise e => simp [AbstractModel.OutcomeOk]
      | rel ρ => exact checkRel_ok hm p ρ
    have hcol : (∃ new, m.collectAll inst.params ((constraintNames count' (cs.flatMap GeneralConstraint.toPyomo)).zip
        ((cs.flatMap GeneralConstraint.toPyomo).map (·.2))) = .ok new) ↔ AllOut (OkFor md p) p cs := by
      rw [hp, AbstractModel.collectAll_isOk,
        mem_zip_constraints count' _ (fun c => ∀ o ∈ c.outcomes p, AbstractModel.OutcomeOk m p o)]
      simp only [ho, AllOut, List.mem_flatMap]
      constructor
      · intro h c hc nc hnc; exact h nc ⟨c, hc, hnc⟩
      · rintro h nc ⟨c, hc, hnc⟩; exact h c hc nc hnc
    have hnew : ∀ n, "constraint_" ++ n ∈ constraintNames count' (cs.flatMap GeneralConstraint.toPyomo) →
        ∃ j, n = toString (count' j) := by
      intro n hn
      rw [constraintNames_eq] at hn
      rcases mem_namesFrom hn with hn | ⟨j, -, hj⟩
      · obtain ⟨nc, h1, h2⟩ := List.mem_map.1 hn
        rw [hun nc h1] at h2
        cases h2
      · exact ⟨j, hj⟩
    have hnd : (inst.active.map (·.1) ++ constraintNames count' (cs.flatMap GeneralConstraint.toPyomo)).Nodup := by
      rw [active_names hb hi, constraintNames_eq, List.nodup_append]
      refine ⟨?_, ?_, ?_⟩
      · have := ((buildModel_isOk hc md).1 ⟨m, hb⟩)
        exact (namesFrom_nodup hc (optNames_notNumeral md)).2 ((optNames_nodup md).2 this)
      · refine (namesFrom_nodup hc' fun n hn => ?_).2 ?_
        · obtain ⟨nc, h1, h2⟩ := List.mem_map.1 hn
          rw [hun nc h1] at h2
          cases h2
        · have : ((cs.flatMap GeneralConstraint.toPyomo).map (·.1)).filterMap id = [] := by
            rw [List.filterMap_eq_nil_iff]
            intro o ho
            obtain ⟨nc, h1, rfl⟩ := List.mem_map.1 ho
            exact hun nc h1
          rw [this]
          exact List.nodup_nil
      · rintro a ha b hb1 rfl
        have : ∃ n, a = "constraint_" ++ n := by
          clear hnum hcol
          revert ha
          generalize optNames md = l
          generalize (0 : ℕ) = i
          induction l generalizing i with
          | nil => intro h; cases h
          | cons o l ih =>
            cases o with
            | none =>
              intro h
              rcases List.mem_cons.1 h with h | h
              · exact ⟨_, h⟩
              · exact ih _ h
            | some n =>
              intro h
              rcases List.mem_cons.1 h with h | h
              · exact ⟨_, h⟩
              · exact ih _ h
        obtain ⟨n, rfl⟩ := this
        rw [← constraintNames_eq] at hb1
        obtain ⟨j, rfl⟩ := hnew n hb1
        rcases mem_namesFrom_lt ha with h | ⟨i, hi, h⟩
        · exact notNumeral_ne (optNames_notNumeral md _ h) _ rfl
        · have := Nat.repr_injective h
          refine absurd this (hlater i ?_ j).ne'
          rw [(buildModel_vars hb).2.2.1]
          simpa [constraintNames_length, optNames] using hi
    rw [← hcol]
    unfold addExtra
    simp only [if_pos hnd]
    cases hn : m.collectAll inst.params ((constraintNames count' (cs.flatMap GeneralConstraint.toPyomo)).zip
        ((cs.flatMap GeneralConstraint.toPyomo).map (·.2))) with
    | error e => simp
    | ok new =>
      have hnames := collectAll_names hn
      rw [List.map_fst_zip (by simp [constraintNames_length])] at hnames
      simp only [Except.ok.injEq, exists_eq', true_and, deactivate, List.map_append, hnames]
      have hiff : (s.disabled.all fun n => decide ("constraint_" ++ n ∈ inst.active.map (·.1) ++
          constraintNames count' (cs.flatMap GeneralConstraint.toPyomo))) = true ↔
          ∀ n ∈ s.disabled, "constraint_" ++ n ∈ inst.active.map (·.1) := by
        rw [List.all_eq_true]
        refine forall₂_congr fun n hn => ?_
        rw [decide_eq_true_eq, List.mem_append]
        refine or_iff_left fun h => ?_
        obtain ⟨j, hj⟩ := hnew n h
        exact hnum n hn _ hj
      by_cases hd : ∀ n ∈ s.disabled, "constraint_" ++ n ∈ inst.active.map (·.1)
      · rw [if_pos (hiff.2 hd)]; exact iff_of_true ⟨_, rfl⟩ hd
      · rw [if_neg (fun h => hd (hiff.1 h))]; simp only [reduceCtorEq, exists_false, false_iff]; exact hd

/-- **C46.** A constraint name that the model does not have is rejected. -/
theorem C46_unknown_constraint {md : Modules} {count' : ℕ → ℕ} (hb : buildModel count md = .ok m)
    (hi : m.createInstance p = .ok inst) (hon : s.on = true) {n : String} (hn : n ∈ s.disabled)
    (hnum : ∀ k : ℕ, n ≠ toString k) (hno : some n ∉ optNames md) (inst') :
    simulationMode X count' m s inst ≠ .ok inst' := by
  intro h
  unfold simulationMode at h
  rw [if_pos hon] at h
  split at h
  · cases h
  rename_i cs hcs
  split at h
  · cases h
  rename_i inst1 h1
  unfold addExtra at h1
  simp only at h1
  split at h1
  swap
  · cases h1
  split at h1
  · cases h1
  rename_i new hnew
  cases h1
  unfold deactivate at h
  split at h
  swap
  · cases h
  rename_i hall
  have := of_decide_eq_true (List.all_eq_true.1 hall n hn)
  rw [List.map_append, List.mem_append, active_names hb hi, collectAll_names hnew,
    List.map_fst_zip (by simp [constraintNames_length]), constraintNames_eq] at this
  rcases this with h | h
  · rcases mem_namesFrom h with h | ⟨j, -, h⟩
    · exact hno h
    · exact hnum _ h
  · rcases mem_namesFrom h with h | ⟨j, -, h⟩
    · obtain ⟨nc, h1, h2⟩ := List.mem_map.1 h
      rw [extra_unnamed hcs nc h1] at h2
      cases h2
    · exact hnum _ h

/-- **C46.** Without deactivated constraints every feasible point of simulation mode is a solution of the model: all
properties of solutions hold for simulated runs as well. -/
theorem C46_solution {md : Modules} {count' : ℕ → ℕ} (hc : StrictMono count) (hb : buildModel count md = .ok m)
    (hi : m.createInstance p = .ok inst) (h : simulationMode X count' m s inst = .ok inst') (hd : s.disabled = [])
    (hf : inst'.Feasible σ) : Solution md p σ := by
  refine ⟨count, hc, m, inst, hb, hi, ?_⟩
  by_cases hon : s.on = true
  · obtain ⟨h1, h2, -⟩ := (C46_feasible_iff h hon (by simp [hd])).1 hf
    exact ⟨h1, fun nr hnr ρ hρ => h2 nr hnr (by simp [hd]) ρ hρ⟩
  · unfold simulationMode at h
    rw [if_neg hon] at h
    cases h
    exact hf

/-- **C46.** Deactivating constraints only enlarges the feasible set: a feasible point of the original model that
follows the imposed values is feasible in simulation mode. -/
theorem C46_only_relaxes (h : simulationMode X count m s inst = .ok inst') (hon : s.on = true)
    (hnum : ∀ n ∈ s.disabled, ∀ k : ℕ, n ≠ toString k) (hf : inst.Feasible σ)
    (hx : ∀ e ∈ s.fixed, Fixed X inst.params σ e.1 e.2) : inst'.Feasible σ :=
  (C46_feasible_iff h hon hnum).2 ⟨hf.1, fun nr hnr _ => hf.2 nr hnr, hx⟩

/-! ## At the years of the data -/

/-- scipy's `InterpolatedUnivariateSpline` passes through all points. -/
def PassesThrough (spline : List (ℚ × ℚ) → Except Err (ℝ → ℝ)) : Prop :=
  ∀ pts f, spline pts = .ok f → ∀ a ∈ pts, f a.1 = a.2

theorem LastRow.unique {β : Type} : {rows : List (String × β)} → {r : String} → {a b : β} →
    LastRow rows r a → LastRow rows r b → a = b
  | [], _, _, _, ⟨pre, post, h, _⟩, _ => by simp at h
  | (r', x) :: rows, r, a, b, ha, hb => by
    have hno : ∀ {c : β}, LastRow rows r c → ¬ ∀ e ∈ rows, e.1 ≠ r := by
      rintro c ⟨pre, post, rfl, -⟩ hall
      exact hall _ (List.mem_append_right _ List.mem_cons_self) rfl
    rcases lastRow_cons.1 ha with ha | ⟨-, rfl, h1⟩ <;> rcases lastRow_cons.1 hb with hb | ⟨-, rfl, h2⟩
    · exact ha.unique hb
    · exact absurd h2 (hno ha)
    · exact absurd h1 (hno hb)
    · rfl

theorem SourceTable.unique {name : String} {src : SimSource} {T T' : SimTable} (h : SourceTable X name src T)
    (h' : SourceTable X name src T') : T = T' := by
  cases src with
  | data d =>
    have h1 : X.frame d = .ok T := h
    have h2 : X.frame d = .ok T' := h'
    rw [h1] at h2
    exact Except.ok.inj h2
  | path q =>
    obtain ⟨f, h1, h2, h3⟩ := h
    obtain ⟨f', h1', h2', h3'⟩ := h'
    rw [h1] at h1'
    cases h1'
    cases T
    cases T'
    simp_all

theorem imposed_at {name : String} {src : SimSource} {region : String} {f : ℝ → ℝ} {T : SimTable} {values : List ℚ}
    (hX : PassesThrough X.spline) (hi : Imposed X name src region f) (hT : SourceTable X name src T)
    (hr : LastRow T.rows region values) (hlen : values.length = T.years.length) {i : ℕ} (h : i < T.years.length) :
    f (T.years[i] : ℚ) = (values[i]'(by omega) : ℚ) := by
  obtain ⟨T', values', last, ext, h1, h2, h3, h4, h5⟩ := hi
  obtain rfl := hT.unique h1
  obtain rfl := hr.unique h2
  refine hX _ _ h5 (T.years[i], values[i]'(by omega)) ?_
  obtain ⟨k1, k2⟩ := C11_keeps_input _ _ _ _ h4
  rw [List.mem_iff_getElem]
  refine ⟨i, by simp [k2, hlen]; omega, ?_⟩
  simp only [List.getElem_zip]
  congr 1
  · rw [List.getElem_append_left h]
  · have : ext[i]'(by omega) = (ext.take values.length)[i]'(by simp [k2]; omega) := by simp
    rw [this]
    simp only [k1]

/-- **C46.** In a year that is a column of the data, an imposed regional variable is within 0.001 of that entry. -/
theorem C46_regional_data_year (hX : PassesThrough X.spline) {v : RVar} {src : SimSource}
    (hF : Fixed X p σ v.name src) {T : SimTable} (hT : SourceTable X v.name src T) {r : String} (hr : r ∈ p.regions)
    {values : List ℚ} (hrow : LastRow T.rows r values) (hlen : values.length = T.years.length) {i : ℕ}
    (hi : i < T.years.length) {t : ℕ} (ht : t ≤ p.tf) (hy : p.year t = (T.years[i] : ℚ)) :
    |σ.r v t r - (values[i]'(by omega) : ℚ)| ≤ 1 / 1000 := by
  obtain ⟨f, h1, h2⟩ := hF.1 v rfl t ht r hr
  rwa [hy, imposed_at hX h1 hT hrow hlen hi] at h2

/-- **C46.** The same for a global variable, whose row is called "Global". -/
theorem C46_global_data_year (hX : PassesThrough X.spline) {v : GVar} {src : SimSource}
    (hF : Fixed X p σ v.name src) {T : SimTable} (hT : SourceTable X v.name src T)
    {values : List ℚ} (hrow : LastRow T.rows "Global" values) (hlen : values.length = T.years.length) {i : ℕ}
    (hi : i < T.years.length) {t : ℕ} (ht : t ≤ p.tf) (hy : p.year t = (T.years[i] : ℚ)) :
    |σ.g v t - (values[i]'(by omega) : ℚ)| ≤ 1 / 1000 := by
  obtain ⟨f, h1, h2⟩ := hF.2 v rfl t ht
  rwa [hy, imposed_at hX h1 hT hrow hlen hi] at h2

/-! ## The configuration -/

/-- **C46.** With `simulationmode` off (the default), nothing else in the `simulation` settings has any effect. -/
theorem C46_off {B : Builtins} {uni : Char → Bool} {user params : Val} {tree : Py Parser}
    (hu : user.WF) (h : mimosaParams B uni DefaultYaml.entries user = .ok (params, tree)) {u : Val}
    (he : Effective user [.str "simulation", .str "simulationmode"] u) (hf : WrittenFalse u) :
    ∃ s, readSimulation params = .ok s ∧ ∀ X count m inst, simulationMode X count m s inst = .ok inst := by
  obtain ⟨q, hp, hq⟩ := parserTest_spec (ks := [.str "simulation", .str "simulationmode"]) (q := isBool) (by decide +kernel)
  obtain ⟨v, hv, hv2, -⟩ := final_value hu h hp he
  have : v = .atom (.bool false) := by
    unfold isBool at hq
    split at hq
    · rename_i b
      simp only [Parser.parse] at hv
      split at hv
      · cases hv; rfl
      · split at hv
        · rename_i ht
          have ht' := (isTruthy_iff u).1 ht
          exfalso
          unfold WrittenTrue at ht'
          unfold WrittenFalse at hf
          rcases hf with rfl | rfl | rfl | rfl | rfl | rfl <;> simp at ht'
        · split at hv
          · cases hv; rfl
          · cases hv
    · cases hq
  subst this
  have h3 := hv2 ⟨rfl, by simp⟩
  refine ⟨⟨false, [], []⟩, ?_, fun X count m inst => rfl⟩
  unfold readSimulation
  rw [h3]

/-! ## A concrete case -/

open Ex

open Classical in
/-- A spline oracle for the example: through the points, `0` elsewhere; repeated years are rejected. -/
noncomputable def exampleSpline (pts : List (ℚ × ℚ)) : Except Err (ℝ → ℝ) :=
  if (pts.map (·.1)).Nodup then
    .ok fun x => match pts.find? fun a => decide ((a.1 : ℝ) = x) with
      | some a => a.2
      | none => 0
  else .error .valueError

theorem exampleSpline_passes : PassesThrough exampleSpline := by
  intro pts f h a ha
  unfold exampleSpline at h
  split at h
  swap
  · cases h
  rename_i hnd
  cases h
  simp only
  split
  · rename_i b hb
    have h1 := List.find?_some hb
    simp only [decide_eq_true_eq, Rat.cast_inj] at h1
    rw [List.inj_on_of_nodup_map hnd (List.mem_of_find?_eq_some hb) ha h1]
  · rename_i hb
    exact absurd (List.find?_eq_none.1 hb a ha) (by simp)

/-- A file with an abatement path for the two regions of the example (and a row of another variable). -/
def exampleCsv : SavedFile where
  years := [2020, 2060, 2100, 2140]
  rows := [⟨"carbonprice", "A", [], [0, 0, 0, 0]⟩, ⟨"relative_abatement", "A", [], [0, 1 / 2, 1, 1]⟩,
    ⟨"relative_abatement", "B", [], [0, 1 / 2, 1, 1]⟩]

noncomputable def exampleSim : SimWorld where
  csv f := if f = "path.csv" then some exampleCsv else none
  frame _ := .error .valueError
  spline := exampleSpline

/-- The abatement path is imposed, and the carbon budget is switched off. -/
def exampleSettings : SimSettings := ⟨true, [("relative_abatement", .path "path.csv")], ["carbon_budget"]⟩

def exampleSimTable : SimTable := ⟨[2020, 2060, 2100, 2140], [("A", [0, 1 / 2, 1, 1]), ("B", [0, 1 / 2, 1, 1])]⟩

theorem exampleSource : SourceTable exampleSim "relative_abatement" (.path "path.csv") exampleSimTable :=
  ⟨exampleCsv, by simp [exampleSim], rfl, by decide +kernel⟩

theorem exampleExtra : simExtraYears 2140 = [2145, 2150] := by decide +kernel

theorem exampleExtended : extrapolate [0, 1 / 2, 1, 1] [2020, 2060, 2100, 2140] [2145, 2150] =
    .ok [0, 1 / 2, 1, 1, 1, 1] := by
  have : (match extrapolate [0, 1 / 2, 1, 1] [2020, 2060, 2100, 2140] [2145, 2150] with
    | .ok l => decide (l = [0, 1 / 2, 1, 1, 1, 1])
    | .error _ => false) = true := by decide +kernel
  split at this
  · rename_i l hl
    rw [hl, of_decide_eq_true this]
  · cases this

theorem exampleCurve : ∃ f, exampleSpline ([2020, 2060, 2100, 2140, 2145, 2150].zip [0, 1 / 2, 1, 1, 1, 1]) = .ok f := by
  unfold exampleSpline
  rw [if_pos (by decide +kernel)]
  exact ⟨_, rfl⟩

theorem exampleRow_last {r : String} (hr : r ∈ ["A", "B"]) : LastRow exampleSimTable.rows r [0, 1 / 2, 1, 1] := by
  simp only [List.mem_cons, List.not_mem_nil, or_false] at hr
  rcases hr with rfl | rfl
  · exact ⟨[], [("B", _)], rfl, by simp⟩
  · exact ⟨[("A", _)], [], rfl, by simp⟩

theorem exampleImposed {r : String} (hr : r ∈ ["A", "B"]) :
    ∃ f, Imposed exampleSim "relative_abatement" (.path "path.csv") r f := by
  obtain ⟨f, hf⟩ := exampleCurve
  exact ⟨f, exampleSimTable, _, 2140, [0, 1 / 2, 1, 1, 1, 1], exampleSource, exampleRow_last hr, rfl,
    by rw [exampleExtra]; exact exampleExtended, by rw [exampleExtra]; exact hf⟩

/-- The example run is feasible in simulation mode, with its own abatement path imposed. -/
theorem exampleSimulation : ∃ count m inst count' inst', StrictMono count ∧ buildModel count m0 = .ok m ∧
    m.createInstance p0 = .ok inst ∧ simulationMode exampleSim count' m exampleSettings inst = .ok inst' ∧
    inst'.Feasible σ0 := by
  obtain ⟨count, hc, m, inst, hb, hi, hf⟩ := sol0
  have hnum : ∀ n ∈ exampleSettings.disabled, ∀ k : ℕ, n ≠ toString k := by
    intro n hn k
    obtain rfl : n = "carbon_budget" := by simpa [exampleSettings] using hn
    exact notNumeral_ne (by decide +kernel) k
  obtain ⟨inst', h'⟩ := (C46_accepted_iff (X := exampleSim) (s := exampleSettings)
    (count' := fun j => count m.constraints.length + 1 + j) hc (fun i j hij => by show _ + i < _ + j; omega)
    (fun i hi j => by have := hc hi; omega) hb hi rfl hnum).2 (by
    constructor
    · intro e he
      obtain rfl : e = ("relative_abatement", .path "path.csv") := by simpa [exampleSettings] using he
      refine ⟨⟨exampleSimTable, exampleSource, by simp [exampleSimTable], ?_⟩, .inl ⟨.relative_abatement, rfl, rfl, ?_⟩⟩
      · intro e he
        obtain ⟨f, hf⟩ := exampleCurve
        have : e.2 = [0, 1 / 2, 1, 1] := by
          simp only [exampleSimTable, List.mem_cons, List.not_mem_nil, or_false] at he
          rcases he with rfl | rfl <;> rfl
        rw [this]
        exact ⟨2140, [0, 1 / 2, 1, 1, 1, 1], f, rfl, by rw [exampleExtra]; exact exampleExtended,
          by rw [exampleExtra]; exact hf⟩
      · intro r hr
        exact exampleImposed hr
    · intro n hn
      obtain rfl : n = "carbon_budget" := by simpa [exampleSettings] using hn
      rw [active_names hb hi]
      refine mem_namesFrom_of_mem ?_
      rw [optNames_eq]
      refine List.mem_flatMap.2 ⟨Emissions.component, by simp [components], ?_⟩
      decide +kernel)
  refine ⟨count, m, inst, _, inst', hc, hb, hi, h', C46_only_relaxes h' rfl hnum hf ?_⟩
  intro e he
  obtain rfl : e = ("relative_abatement", .path "path.csv") := by simpa [exampleSettings] using he
  rw [(createInstance_fields hi).1]
  constructor
  · intro v hv t ht r hr
    obtain rfl : v = .relative_abatement := RVar.name_inj hv
    obtain ⟨f, hf⟩ := exampleImposed hr
    refine ⟨f, hf, ?_⟩
    have ht3 : t < exampleSimTable.years.length := Nat.lt_succ_of_le (show t ≤ 3 from ht)
    have := imposed_at exampleSpline_passes hf exampleSource (exampleRow_last hr) rfl ht3
    have hy : p0.year t = (exampleSimTable.years[t] : ℚ) := by
      have : t ≤ 3 := ht
      interval_cases t <;> norm_num [exampleSimTable, Params.year, ex]
    rw [hy, this]
    have : σ0.r .relative_abatement t r = aPath t := rfl
    rw [this]
    have : t ≤ 3 := ht
    interval_cases t <;> norm_num [aPath]
  · intro v hv
    exact absurd hv (by cases v <;> decide)

example : ∃ u, Effective exampleUser [.str "simulation", .str "simulationmode"] u ∧ WrittenFalse u := by
  obtain ⟨u, h1, h2⟩ := effective_default (user := exampleUser) (ks := [.str "simulation", .str "simulationmode"])
    (valIsBool false) (by decide +kernel) rfl
  refine ⟨u, h1, .inr (.inr (.inl ?_))⟩
  unfold valIsBool at h2
  split at h2
  · rw [of_decide_eq_true h2]
  · cases h2

end Mimosa
