import Verif.AbstractModel
import Std.Data.String.ToNat

/-! # Uniqueness of the generated constraint names -/

namespace Mimosa

/-- The attribute names depend only on the optional names. -/
def namesFrom (count : ℕ → ℕ) : ℕ → List (Option String) → List String
  | _, [] => []
  | i, none :: ns => ("constraint_" ++ toString (count i)) :: namesFrom count (i + 1) ns
  | i, some s :: ns => ("constraint_" ++ s) :: namesFrom count (i + 1) ns

theorem constraintNames_eq (count : ℕ → ℕ) (cs : List (Option String × PyomoConstraint)) :
    constraintNames count cs = namesFrom count 0 (cs.map (·.1)) := by
  have : ∀ i, (cs.zipIdx i).map (fun x : (Option String × PyomoConstraint) × ℕ =>
      match x.1.1 with
      | none => "constraint_" ++ toString (count x.2)
      | some s => "constraint_" ++ s) = namesFrom count i (cs.map (·.1)) := by
    induction cs with
    | nil => intro i; rfl
    | cons c cs ih =>
      intro i
      obtain ⟨n, c⟩ := c
      cases n with
      | none => simpa [namesFrom] using ih (i + 1)
      | some s => simpa [namesFrom] using ih (i + 1)
  exact this 0

theorem prefix_inj {a b : String} (h : "constraint_" ++ a = "constraint_" ++ b) : a = b := by
  have := congrArg String.toList h
  simp only [String.toList_append, List.append_cancel_left_eq] at this
  exact String.toList_injective this

theorem mem_namesFrom {count : ℕ → ℕ} {s : String} {ns : List (Option String)} {i : ℕ} :
    ("constraint_" ++ s) ∈ namesFrom count i ns →
      some s ∈ ns ∨ ∃ j, i ≤ j ∧ s = toString (count j) := by
  induction ns generalizing i with
  | nil => simp [namesFrom]
  | cons n ns ih =>
    cases n with
    | none =>
      simp only [namesFrom, List.mem_cons]
      rintro (h | h)
      · exact Or.inr ⟨i, le_refl _, prefix_inj h⟩
      · rcases ih h with h | ⟨j, hj, h⟩
        · exact Or.inl (Or.inr h)
        · exact Or.inr ⟨j, by omega, h⟩
    | some s' =>
      simp only [namesFrom, List.mem_cons]
      rintro (h | h)
      · exact Or.inl (Or.inl (congrArg some (prefix_inj h)))
      · rcases ih h with h | ⟨j, hj, h⟩
        · exact Or.inl (Or.inr h)
        · exact Or.inr ⟨j, by omega, h⟩

theorem mem_namesFrom_of_mem {count : ℕ → ℕ} {s : String} {ns : List (Option String)} {i : ℕ}
    (h : some s ∈ ns) : ("constraint_" ++ s) ∈ namesFrom count i ns := by
  induction ns generalizing i with
  | nil => simp at h
  | cons n ns ih =>
    rcases List.mem_cons.1 h with h | h'
    · subst h; simp [namesFrom]
    · cases n <;> exact List.mem_cons_of_mem _ (ih h')

/-- A name that is not a number: it contains a non-digit character. -/
def notNumeral (s : String) : Bool := s.toList.any fun c => !c.isDigit

theorem notNumeral_ne {s : String} (h : notNumeral s = true) (n : ℕ) : s ≠ toString n := by
  rintro rfl
  unfold notNumeral at h
  obtain ⟨c, hc, hd⟩ := List.any_eq_true.1 h
  have e : (toString n).toList = Nat.toDigits 10 n := by
    show (Nat.repr n).toList = _
    simp
  rw [e] at hc
  have := Nat.isDigit_of_mem_toDigits (by decide) (by decide) hc
  simp [this] at hd

theorem namesFrom_nodup {count : ℕ → ℕ} (hinj : StrictMono count) {ns : List (Option String)} {i : ℕ}
    (hnum : ∀ s, some s ∈ ns → notNumeral s = true) :
    (namesFrom count i ns).Nodup ↔ (ns.filterMap id).Nodup := by
  induction ns generalizing i with
  | nil => simp [namesFrom]
  | cons n ns ih =>
    have ih' := @ih (i + 1) (fun s hs => hnum s (List.mem_cons_of_mem _ hs))
    cases n with
    | none =>
      simp only [namesFrom, List.nodup_cons, List.filterMap_cons, id, ih', and_iff_right_iff_imp]
      intro _ hmem
      rcases mem_namesFrom hmem with h | ⟨j, hj, h⟩
      · exact notNumeral_ne (hnum _ (List.mem_cons_of_mem _ h)) _ rfl
      · have := hinj.injective (Nat.repr_injective h)
        omega
    | some s =>
      simp only [namesFrom, List.nodup_cons, List.filterMap_cons, id, ih']
      refine and_congr_left fun _ => not_congr ?_
      constructor
      · intro h
        rcases mem_namesFrom h with h | ⟨j, hj, h⟩
        · exact List.mem_filterMap.2 ⟨some s, h, rfl⟩
        · exact absurd h (notNumeral_ne (hnum s List.mem_cons_self) _)
      · intro h
        obtain ⟨o, ho, he⟩ := List.mem_filterMap.1 h
        have he' : o = some s := he
        subst he'
        exact mem_namesFrom_of_mem ho

/-- The optional names of all constraints of a model, in order. -/
noncomputable def optNames (md : Modules) : List (Option String) :=
  ((allConstraints md).flatMap GeneralConstraint.toPyomo).map (·.1)

/-- The optional names of the constraints of one component. -/
noncomputable def compNames (c : Component) : List (Option String) :=
  (c.constraints.flatMap GeneralConstraint.toPyomo).map (·.1)

theorem optNames_eq (md : Modules) : optNames md = (components md).flatMap compNames := by
  unfold optNames allConstraints compNames
  rw [List.flatMap_assoc, List.map_flatMap]

theorem optNames_welfare_objective (d : DamageModule) (t : TradeModule) (f : TransferModule)
    (w : WelfareModule) (o : ObjectiveModule) :
    optNames ⟨d, t, f, w, o⟩ = optNames ⟨d, t, f, .cost_minimising, .utility⟩ := by
  have hw : compNames (Welfare.component w) = compNames (Welfare.component .cost_minimising) := by
    cases w <;> rfl
  have ho : compNames (Objective.component o) = compNames (Objective.component .utility) := by
    cases o <;> rfl
  rw [optNames_eq, optNames_eq]
  simp only [components, List.flatMap_cons, hw, ho]

theorem optNames_notNumeral (md : Modules) : ∀ s, some s ∈ optNames md → notNumeral s = true := by
  have key : ((optNames md).filterMap id).all notNumeral = true := by
    obtain ⟨d, t, f, w, o⟩ := md
    rw [optNames_welfare_objective]
    cases d <;> cases t <;> cases f <;> decide +kernel
  intro s hs
  exact List.all_eq_true.1 key s (List.mem_filterMap.2 ⟨some s, hs, rfl⟩)

theorem optNames_nodup (md : Modules) :
    ((optNames md).filterMap id).Nodup ↔ md.trade ≠ .globalcostpool := by
  obtain ⟨d, t, f, w, o⟩ := md
  rw [optNames_welfare_objective]
  cases t
  · refine iff_of_true ?_ (by simp)
    cases d <;> cases f <;> decide +kernel
  · refine iff_of_false ?_ (by simp)
    cases d <;> cases f <;> decide +kernel
  · refine iff_of_true ?_ (by simp)
    cases d <;> cases f <;> decide +kernel

/-- The model can be built exactly when the trade module is not `globalcostpool`. -/
theorem buildModel_isOk {count : ℕ → ℕ} (hc : StrictMono count) (md : Modules) :
    (∃ m, buildModel count md = .ok m) ↔ md.trade ≠ .globalcostpool := by
  have h : (constraintNames count ((allConstraints md).flatMap GeneralConstraint.toPyomo)).Nodup ↔
      md.trade ≠ .globalcostpool := by
    rw [constraintNames_eq]
    exact (namesFrom_nodup hc (optNames_notNumeral md)).trans (optNames_nodup md)
  unfold buildModel
  simp only
  by_cases hn : md.trade ≠ .globalcostpool
  · rw [if_pos (h.2 hn)]; simp [hn]
  · rw [if_neg (fun h' => hn (h.1 h'))]; simp [hn]

end Mimosa
