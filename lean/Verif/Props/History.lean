import Verif.Props.EndToEnd
import Verif.Props.Scenario
import Verif.Lib.Example
import Verif.Lib.Char

/-!
# C63: a model does not depend on what the process did before

Two things survive from one `MIMOSA(...)` to the next: the class-level data cache (datastore.py) and the running number
that names the unnamed constraints (pyomo_utils.py).
-/

namespace Mimosa
open AbstractModel

variable {B : Builtins} {uni : Char → Bool} {F : RegionalFiles} {W : DataWorld} {user params : Val} {tree : Py Parser}
  {md : Modules} {entries : List (String × IData)} {history : List StoreParams}

/-- **C63.** Whatever models the process constructed before (successfully or not), the constructor finds the same
configuration, modules and instance data. -/
theorem C63_same_data : Setup B uni F W user (afterHistory W history) params tree md entries ↔
    Setup B uni F W user DataCache.empty params tree md entries := by
  have h : ∀ decls params tree, instantiate B F W decls params tree (afterHistory W history) =
      instantiate B F W decls params tree DataCache.empty := by
    intro decls params tree
    unfold instantiate
    simp only [C14_cache_transparent]
  constructor
  · rintro ⟨h1, h2, h3⟩; exact ⟨h1, h2, (h _ _ _) ▸ h3⟩
  · rintro ⟨h1, h2, h3⟩; exact ⟨h1, h2, (h _ _ _).symm ▸ h3⟩

/-- **C63.** The instance data, or the exception, are the same. -/
theorem C63_same_exception (decls : List ParamDecl) :
    instantiate B F W decls params tree (afterHistory W history) =
      instantiate B F W decls params tree DataCache.empty := by
  unfold instantiate
  simp only [C14_cache_transparent]

theorem collect_congr {m m' : AbstractModel} {p : Params} (h : ∀ ρ, m.checkRel p ρ = m'.checkRel p ρ)
    (os : List RuleOut) : m.collect p os = m'.collect p os := by
  induction os with
  | nil => rfl
  | cons o os ih => cases o <;> simp only [collect, h, ih]

/-- The instances are the same up to the names of the constraints. -/
def SameUpToNames : Except Err AbstractModel.Instance → Except Err AbstractModel.Instance → Prop
  | .ok i, .ok i' => i'.params = i.params ∧ i'.vars = i.vars ∧ i'.active.map (·.2) = i.active.map (·.2) ∧
      i'.sense = i.sense ∧ i'.objective = i.objective
  | .error e, .error e' => e' = e
  | _, _ => False

theorem collectAll_renamed {m m' : AbstractModel} {p : Params} (h : ∀ ρ, m.checkRel p ρ = m'.checkRel p ρ)
    {cs : List PyomoConstraint} : ∀ {ns ns' : List String}, ns.length = cs.length → ns'.length = cs.length →
      (m.collectAll p (ns.zip cs)).map (·.map (·.2)) = (m'.collectAll p (ns'.zip cs)).map (·.map (·.2)) := by
  induction cs with
  | nil => intro ns ns' _ _; simp [collectAll]
  | cons c cs ih =>
    intro ns ns' h1 h2
    obtain ⟨n, ns, rfl⟩ := List.exists_cons_of_length_pos (l := ns) (by simp at h1; omega)
    obtain ⟨n', ns', rfl⟩ := List.exists_cons_of_length_pos (l := ns') (by simp at h2; omega)
    have := @ih ns ns' (by simpa using h1) (by simpa using h2)
    simp only [List.zip_cons_cons, collectAll, collect_congr h]
    cases hc : m'.collect p (c.outcomes p) with
    | error e => rfl
    | ok rels =>
      revert this
      cases m.collectAll p (ns.zip cs) <;> cases m'.collectAll p (ns'.zip cs) <;>
        simp [Except.map, bind, Except.bind, pure, Except.pure]

/-- **C63.** However many constraints the process created before, `create_abstract_model` and `create_instance` raise the
same exception, or give the same model up to the numbers in the names of unnamed constraints. -/
theorem C63_same_model {count count' : ℕ → ℕ} (hc : StrictMono count) (hc' : StrictMono count') (p : Params) :
    SameUpToNames ((buildModel count md).bind (·.createInstance p)) ((buildModel count' md).bind (·.createInstance p)) := by
  by_cases htr : md.trade = .globalcostpool
  · have h1 : ∀ {c : ℕ → ℕ}, StrictMono c → buildModel c md = .error .runtimeError := by
      intro c hc
      cases h : buildModel c md with
      | ok m => exact absurd htr ((buildModel_isOk hc md).1 ⟨m, h⟩)
      | error e =>
        unfold buildModel at h
        simp only at h
        split at h <;> simp_all
    rw [h1 hc, h1 hc']
    rfl
  · obtain ⟨m, hm⟩ := (buildModel_isOk hc md).2 htr
    obtain ⟨m', hm'⟩ := (buildModel_isOk hc' md).2 htr
    obtain ⟨v, pa, cs, ob, se⟩ := buildModel_vars hm
    obtain ⟨v', pa', cs', ob', se'⟩ := buildModel_vars hm'
    rw [hm, hm']
    show SameUpToNames (m.createInstance p) (m'.createInstance p)
    have hrel : ∀ ρ, m.checkRel p ρ = m'.checkRel p ρ := by
      have he : ∀ e, m.checkExpr p e = m'.checkExpr p e := by
        intro e
        induction e <;> simp_all only [checkExpr, declG, declR]
      intro ρ
      unfold checkRel
      rw [he, he]
    have key := collectAll_renamed (p := p) hrel (cs := ((allConstraints md).flatMap GeneralConstraint.toPyomo).map (·.2))
      (ns := constraintNames count ((allConstraints md).flatMap GeneralConstraint.toPyomo))
      (ns' := constraintNames count' ((allConstraints md).flatMap GeneralConstraint.toPyomo))
      (by simp [constraintNames_length]) (by simp [constraintNames_length])
    rw [← cs, ← cs'] at key
    unfold createInstance
    split
    · revert key
      cases m.collectAll p m.constraints <;> cases m'.collectAll p m'.constraints <;>
        simp [Except.map, SameUpToNames, v, v', ob, ob', se, se', eq_comm]
    · rfl

/-- Instances that are the same up to names have the same solutions. -/
theorem SameUpToNames.feasible {i i' : AbstractModel.Instance} (h : SameUpToNames (.ok i) (.ok i')) (σ : Env) :
    i'.Feasible σ ↔ i.Feasible σ := by
  obtain ⟨h1, h2, h3, -, -⟩ := h
  have hact : ∀ a : List (String × List Rel), (∀ nr ∈ a, ∀ ρ ∈ nr.2, ρ.Holds σ) ↔ ∀ rs ∈ a.map (·.2), ∀ ρ ∈ rs, ρ.Holds σ := by
    intro a; simp only [List.mem_map, forall_exists_index, and_imp, forall_apply_eq_imp_iff₂]
  unfold AbstractModel.Instance.Feasible
  rw [h1, h2, hact, hact, h3]

/-- **C63.** So for the chosen modules and data, whether a point is a solution does not depend on the number of
constraints created before. -/
theorem C63_same_solutions {count : ℕ → ℕ} (hc : StrictMono count) {p : Params} {m : AbstractModel}
    {inst : AbstractModel.Instance} (hm : buildModel count md = .ok m) (hi : m.createInstance p = .ok inst) (σ : Env) :
    Solution md p σ ↔ inst.Feasible σ := by
  constructor
  · rintro ⟨count', hc', m', inst', hm', hi', hf⟩
    have := C63_same_model (md := md) hc hc' p
    rw [hm, hm'] at this
    replace this : SameUpToNames (m.createInstance p) (m'.createInstance p) := this
    rw [hi, hi'] at this
    exact (this.feasible σ).1 hf
  · intro hf; exact ⟨count, hc, m, inst, hm, hi, hf⟩

/-- The example configuration is constructed in the same way after any history. -/
example (history : List StoreParams) : ∃ params tree md entries, Setup exampleBuiltins (fun _ => false) exampleFiles2
    exampleWorld2 exampleUser (afterHistory exampleWorld2 history) params tree md entries := by
  obtain ⟨params, tree, md, entries, h, -⟩ := exampleSetup
  exact ⟨params, tree, md, entries, C63_same_data.2 (C63_same_data.1 h)⟩

/-- The two-region example, with the constraints numbered from 1000. -/
example : ∃ m inst, buildModel (fun n => 1000 + n) Ex.m0 = .ok m ∧ m.createInstance Ex.p0 = .ok inst ∧ inst.Feasible Ex.σ0 := by
  have hc : StrictMono fun n : ℕ => 1000 + n := fun a b h => by simp only; omega
  obtain ⟨count, hc', m', inst', hm', hi', -⟩ := Ex.sol0
  have := C63_same_model (md := Ex.m0) hc' hc Ex.p0
  rw [hm'] at this
  replace this : SameUpToNames (m'.createInstance Ex.p0) _ := this
  rw [hi'] at this
  cases hm : buildModel (fun n => 1000 + n) Ex.m0 with
  | error e => rw [hm] at this; exact this.elim
  | ok m =>
    rw [hm] at this
    replace this : SameUpToNames _ (m.createInstance Ex.p0) := this
    cases hi : m.createInstance Ex.p0 with
    | error e => rw [hi] at this; exact this.elim
    | ok inst => exact ⟨m, inst, rfl, hi, (C63_same_solutions hc hm hi _).1 Ex.sol0⟩

end Mimosa
