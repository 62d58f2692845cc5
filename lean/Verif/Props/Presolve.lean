import Verif.Presolve
import Verif.Props.Session
import Verif.Props.ExamplesFree

/-!
# C73: preprocessing the model loses nothing, and the reported values solve the original model
-/

namespace Mimosa

/-! ### Substituting representatives -/

variable {rep : Slot → Slot} {σ ρ : Env}

@[simp] theorem Slot.eval_expr (s : Slot) : s.expr.eval ρ = ρ.get s := by cases s <;> rfl
@[simp] theorem Slot.defined_expr (s : Slot) : s.expr.Defined ρ := by cases s <;> trivial

theorem Expr.eval_subst (e : Expr) : (e.subst rep).eval ρ = e.eval (ρ.restore rep) := by
  induction e with
  | const x => rfl
  | g v t => simp [Expr.subst, Expr.eval, Env.restore]
  | r v t reg => simp [Expr.subst, Expr.eval, Env.restore]
  | _ => simp_all [Expr.subst, Expr.eval]

theorem Expr.defined_subst (e : Expr) : (e.subst rep).Defined ρ ↔ e.Defined (ρ.restore rep) := by
  induction e with
  | const x => rfl
  | g v t => simp [Expr.subst, Expr.Defined]
  | r v t reg => simp [Expr.subst, Expr.Defined]
  | _ => simp_all [Expr.subst, Expr.Defined, Expr.eval_subst]

theorem Rel.holds_subst (c : Rel) : (c.subst rep).Holds ρ ↔ c.Holds (ρ.restore rep) := by
  simp only [Rel.Holds, Rel.subst, Expr.eval_subst, Expr.defined_subst]

theorem Env.get_restore (s : Slot) : (ρ.restore rep).get s = ρ.get (rep s) := by cases s <;> rfl

theorem Env.ext_get {σ τ : Env} (h : ∀ s, σ.get s = τ.get s) : σ = τ := by
  cases σ; cases τ
  congr
  · funext v t; exact h (.g v t)
  · funext v t r; exact h (.r v t r)

/-! ### Linear forms -/

/-- The value of a linear form. -/
def Affine.value (a : Affine) (σ : Env) : ℝ := a.const + (a.terms.map fun x => x.2 * σ.get x.1).sum

theorem Affine.value_scale (k : ℝ) (a : Affine) : (a.scale k).value σ = k * a.value σ := by
  simp only [Affine.value, Affine.scale, List.map_map, mul_add, ← List.sum_map_mul_left]
  congr 2
  apply List.map_congr_left
  intro x _
  simp [mul_assoc]

theorem Affine.value_plus (a b : Affine) : (a.plus b).value σ = a.value σ + b.value σ := by
  simp [Affine.value, Affine.plus]; ring

/-- The assignment gives every fixed variable the value to which it is fixed. -/
def Agrees (σ : Env) (F : List (Slot × ℝ)) : Prop := ∀ x ∈ F, σ.get x.1 = x.2

theorem Slot.affine_value {F : List (Slot × ℝ)} (hF : Agrees σ F) (s : Slot) : (s.affine F).value σ = σ.get s := by
  unfold Slot.affine fixedAt
  cases h : F.find? fun x => x.1 = s with
  | none => simp [Affine.value]
  | some x =>
    have h1 := List.find?_some h
    have h2 := List.mem_of_find?_eq_some h
    simp [Affine.value, ← hF x h2, of_decide_eq_true h1]

theorem Expr.affine_spec {F : List (Slot × ℝ)} (hF : Agrees σ F) (e : Expr) :
    ∀ {a : Affine}, e.affine F = some a → e.Defined σ ∧ e.eval σ = a.value σ := by
  induction e with
  | const x => intro a h; simp [Expr.affine] at h; subst h; simp [Expr.Defined, Expr.eval, Affine.value]
  | g v t =>
    intro a h; simp only [Expr.affine, Option.some.injEq] at h; subst h
    exact ⟨trivial, (Slot.affine_value hF (.g v t)).symm⟩
  | r v t reg =>
    intro a h; simp only [Expr.affine, Option.some.injEq] at h; subst h
    exact ⟨trivial, (Slot.affine_value hF (.r v t reg)).symm⟩
  | add x y ix iy =>
    intro a h
    simp only [Expr.affine, Option.bind_eq_bind, Option.bind_eq_some_iff, Option.pure_def, Option.some.injEq] at h
    obtain ⟨u, hu, v, hv, rfl⟩ := h
    exact ⟨⟨(ix hu).1, (iy hv).1⟩, by rw [Affine.value_plus, ← (ix hu).2, ← (iy hv).2]; rfl⟩
  | sub x y ix iy =>
    intro a h
    simp only [Expr.affine, Option.bind_eq_bind, Option.bind_eq_some_iff, Option.pure_def, Option.some.injEq] at h
    obtain ⟨u, hu, v, hv, rfl⟩ := h
    exact ⟨⟨(ix hu).1, (iy hv).1⟩, by
      rw [Affine.value_plus, Affine.value_scale, ← (ix hu).2, ← (iy hv).2]; simp only [Expr.eval]; ring⟩
  | neg x ix =>
    intro a h
    simp only [Expr.affine, Option.bind_eq_bind, Option.bind_eq_some_iff, Option.pure_def, Option.some.injEq] at h
    obtain ⟨u, hu, rfl⟩ := h
    exact ⟨(ix hu).1, by rw [Affine.value_scale, ← (ix hu).2]; simp only [Expr.eval]; ring⟩
  | mul x y ix iy =>
    intro a h
    simp only [Expr.affine, Option.bind_eq_bind, Option.bind_eq_some_iff, Option.pure_def] at h
    obtain ⟨u, hu, v, hv, h⟩ := h
    refine ⟨⟨(ix hu).1, (iy hv).1⟩, ?_⟩
    split at h
    · rename_i h0
      obtain rfl := Option.some.inj h
      rw [Affine.value_scale, ← (iy hv).2]
      simp only [Expr.eval, (ix hu).2]
      simp [Affine.value, h0]
    · split at h
      · rename_i h0
        obtain rfl := Option.some.inj h
        rw [Affine.value_scale, ← (ix hu).2]
        simp only [Expr.eval, (iy hv).2]
        simp [Affine.value, h0]; ring
      · cases h
  | div x y ix iy =>
    intro a h
    simp only [Expr.affine, Option.bind_eq_bind, Option.bind_eq_some_iff, Option.pure_def] at h
    obtain ⟨u, hu, v, hv, h⟩ := h
    split at h
    · rename_i h0
      obtain rfl := Option.some.inj h
      have e : y.eval σ = v.const := by rw [(iy hv).2]; simp [Affine.value, h0.1]
      refine ⟨⟨(ix hu).1, (iy hv).1, by rw [e]; exact h0.2⟩, ?_⟩
      rw [Affine.value_scale, ← (ix hu).2]
      simp only [Expr.eval, e]; ring
    · cases h
  | pow x y ix iy =>
    intro a h
    simp only [Expr.affine, Option.bind_eq_bind, Option.bind_eq_some_iff, Option.pure_def] at h
    obtain ⟨u, hu, v, hv, h⟩ := h
    split at h
    · rename_i h0
      obtain rfl := Option.some.inj h
      have e1 : x.eval σ = u.const := by rw [(ix hu).2]; simp [Affine.value, h0.1]
      have e2 : y.eval σ = v.const := by rw [(iy hv).2]; simp [Affine.value, h0.2.1]
      exact ⟨⟨(ix hu).1, (iy hv).1, by rw [e1, e2]; exact h0.2.2⟩, by simp [Expr.eval, e1, e2, Affine.value]⟩
    · cases h
  | atan x ix =>
    intro a h
    simp only [Expr.affine, Option.bind_eq_bind, Option.bind_eq_some_iff, Option.pure_def] at h
    obtain ⟨u, hu, h⟩ := h
    split at h
    · rename_i h0
      obtain rfl := Option.some.inj h
      have e1 : x.eval σ = u.const := by rw [(ix hu).2]; simp [Affine.value, h0]
      exact ⟨(ix hu).1, by simp [Expr.eval, e1, Affine.value]⟩
    · cases h
  | exp x ix =>
    intro a h
    simp only [Expr.affine, Option.bind_eq_bind, Option.bind_eq_some_iff, Option.pure_def] at h
    obtain ⟨u, hu, h⟩ := h
    split at h
    · rename_i h0
      obtain rfl := Option.some.inj h
      have e1 : x.eval σ = u.const := by rw [(ix hu).2]; simp [Affine.value, h0]
      exact ⟨(ix hu).1, by simp [Expr.eval, e1, Affine.value]⟩
    · cases h

theorem Affine.value_support (a : Affine) :
    a.value σ = a.const + (a.support.map fun s => a.coef s * σ.get s).sum := by
  classical
  have key : ∀ (l : List (Slot × ℝ)) (S : Finset Slot), (∀ x ∈ l, x.1 ∈ S) →
      (l.map fun x => x.2 * σ.get x.1).sum = ∑ s ∈ S, ((l.filter fun x => x.1 = s).map (·.2)).sum * σ.get s := by
    intro l S
    induction l with
    | nil => simp
    | cons x l ih =>
      intro h
      rw [List.map_cons, List.sum_cons, ih fun y hy => h y (List.mem_cons_of_mem _ hy)]
      have e : ∀ s, (((x :: l).filter fun y => y.1 = s).map (·.2)).sum * σ.get s =
          (if s = x.1 then x.2 * σ.get s else 0) + ((l.filter fun y => y.1 = s).map (·.2)).sum * σ.get s := by
        intro s
        by_cases hs : x.1 = s
        · simp [hs, add_mul]
        · simp [hs, Ne.symm hs]
      simp only [e, Finset.sum_add_distrib]
      rw [Finset.sum_ite_eq' S x.1, if_pos (h x List.mem_cons_self)]
  have h1 := key a.terms (a.terms.map (·.1)).toFinset (fun x hx => by simpa using ⟨x.2, hx⟩)
  unfold Affine.value
  rw [h1]
  congr 1
  have hn : a.support.Nodup := (List.nodup_dedup _).filter _
  rw [← List.sum_toFinset _ hn]
  have e : a.support.toFinset = (a.terms.map (·.1)).toFinset.filter fun s => a.coef s ≠ 0 := by
    ext s; simp [Affine.support]
  rw [e, Finset.sum_filter]
  refine Finset.sum_congr rfl fun s _ => ?_
  show a.coef s * _ = _
  split
  · rfl
  · rename_i h; rw [not_not.1 h, zero_mul]

/-- A link is what it says: the constraint holds exactly if the two variables have the same value. -/
theorem Rel.link_spec {c : Rel} {x y : Slot} (h : c.link = some (x, y)) : c.Holds σ ↔ σ.get x = σ.get y := by
  unfold Rel.link at h
  split at h
  case isFalse => cases h
  rename_i hop
  split at h
  case h_1 => cases h
  rename_i a ha
  split at h
  case isFalse => cases h
  rename_i h0
  split at h
  case h_2 => cases h
  rename_i u v hs
  split at h
  case isFalse => cases h
  rename_i hc
  simp only [Option.some.injEq, Prod.mk.injEq] at h
  obtain ⟨rfl, rfl⟩ := h
  obtain ⟨hd, he⟩ := Expr.affine_spec (σ := σ) (F := []) (by simp [Agrees]) _ ha
  rw [Affine.value_support, hs, h0] at he
  simp only [Expr.eval, List.map_cons, List.map_nil, List.sum_cons, List.sum_nil, add_zero, zero_add] at he
  have : c.Holds σ ↔ c.lhs.eval σ = c.rhs.eval σ := by
    unfold Rel.Holds
    rw [hop]
    exact ⟨fun h => h.2.2, fun h => ⟨hd.1, hd.2, h⟩⟩
  rw [this, ← sub_eq_zero, he]
  rcases hc with ⟨h1, h2⟩ | ⟨h1, h2⟩ <;> rw [h1, h2] <;> constructor <;> intro h <;> linarith

/-- A constraint that determines a variable holds exactly if the variable has that value. -/
theorem Rel.fixes_spec {F : List (Slot × ℝ)} (hF : Agrees σ F) {c : Rel} {x : Slot × ℝ} (h : c.fixes F = some x) :
    c.op = .eq ∧ (c.Holds σ ↔ σ.get x.1 = x.2) := by
  unfold Rel.fixes at h
  split at h
  case isFalse => cases h
  rename_i hop
  refine ⟨hop, ?_⟩
  split at h
  case h_1 => cases h
  rename_i a ha
  split at h
  case h_2 => cases h
  rename_i u hs
  split at h
  case isFalse => cases h
  rename_i hc
  obtain rfl := Option.some.inj h
  obtain ⟨hd, he⟩ := Expr.affine_spec hF _ ha
  rw [Affine.value_support, hs] at he
  simp only [Expr.eval, List.map_cons, List.map_nil, List.sum_cons, List.sum_nil, add_zero] at he
  have hne : a.coef u ≠ 0 := by
    intro h0; rw [h0, abs_zero] at hc; norm_num at hc
  have : c.Holds σ ↔ c.lhs.eval σ = c.rhs.eval σ := by
    unfold Rel.Holds
    rw [hop]
    exact ⟨fun h => h.2.2, fun h => ⟨hd.1, hd.2, h⟩⟩
  rw [this, ← sub_eq_zero, he, eq_div_iff hne]
  constructor <;> intro h <;> linarith

theorem Agrees.cons {F : List (Slot × ℝ)} {x : Slot × ℝ} : Agrees σ (x :: F) ↔ σ.get x.1 = x.2 ∧ Agrees σ F := by
  simp [Agrees]

theorem fixPass_sub (cs : List Rel) : ∀ F x, x ∈ F → x ∈ (fixPass F cs).1 := by
  induction cs with
  | nil => exact fun F x h => h
  | cons c cs ih =>
    intro F x h
    rw [fixPass]
    split
    · exact ih _ x (List.mem_cons_of_mem _ h)
    · exact ih _ x h

/-- The equality constraints alone imply the fixed values. -/
theorem fixPass_agrees (cs : List Rel) : ∀ {F}, Agrees σ F → (∀ c ∈ cs, c.op = .eq → c.Holds σ) →
    Agrees σ (fixPass F cs).1 := by
  induction cs with
  | nil => exact fun h _ => h
  | cons c cs ih =>
    intro F hF h
    rw [fixPass]
    split
    · rename_i x hx
      have := Rel.fixes_spec hF hx
      exact ih (Agrees.cons.2 ⟨this.2.1 (h c List.mem_cons_self this.1), hF⟩) fun c' h' => h c' (List.mem_cons_of_mem _ h')
    · exact ih hF fun c' h' => h c' (List.mem_cons_of_mem _ h')

/-- The fixed values and the remaining constraints are equivalent to all constraints. -/
theorem fixPass_spec (cs : List Rel) : ∀ {F}, Agrees σ F →
    ((Agrees σ (fixPass F cs).1 ∧ ∀ c ∈ (fixPass F cs).2, c.Holds σ) ↔ ∀ c ∈ cs, c.Holds σ) := by
  induction cs with
  | nil => intro F hF; simpa [fixPass] using hF
  | cons c cs ih =>
    intro F hF
    rw [fixPass]
    cases hx : c.fixes F with
    | some x =>
      have hs := Rel.fixes_spec hF hx
      simp only [List.forall_mem_cons]
      constructor
      · rintro h
        have hx' := h.1 x (fixPass_sub _ _ _ List.mem_cons_self)
        exact ⟨hs.2.2 hx', (ih (Agrees.cons.2 ⟨hx', hF⟩)).1 h⟩
      · rintro ⟨h1, h2⟩
        exact (ih (Agrees.cons.2 ⟨hs.2.1 h1, hF⟩)).2 h2
    | none =>
      simp only [List.forall_mem_cons, ← ih hF]
      tauto

/-! ### Groups -/

theorem joinGroups_of_eq (l : Slot × Slot) {x y : Slot} (h : rep x = rep y) : joinGroups rep l x = joinGroups rep l y := by
  simp [joinGroups, h]

theorem joinGroups_link (x y : Slot) : joinGroups rep (x, y) x = joinGroups rep (x, y) y := by
  simp only [joinGroups, if_true]
  split <;> simp_all

theorem foldl_of_eq (links : List (Slot × Slot)) {x y : Slot} :
    ∀ {rep : Slot → Slot}, rep x = rep y → links.foldl joinGroups rep x = links.foldl joinGroups rep y := by
  induction links with
  | nil => exact fun h => h
  | cons l ls ih => exact fun h => ih (joinGroups_of_eq l h)

/-- Linked variables get the same representative. -/
theorem representatives_link {links : List (Slot × Slot)} {x y : Slot} (h : (x, y) ∈ links) :
    representatives links x = representatives links y := by
  unfold representatives
  generalize (id : Slot → Slot) = rep
  induction links generalizing rep with
  | nil => cases h
  | cons l ls ih =>
    rcases List.mem_cons.1 h with rfl | h
    · exact foldl_of_eq ls (joinGroups_link x y)
    · exact ih h _

/-- In an assignment that satisfies all links every variable has the value of its representative. -/
theorem representatives_value {links : List (Slot × Slot)} (h : ∀ l ∈ links, σ.get l.1 = σ.get l.2) (s : Slot) :
    σ.get (representatives links s) = σ.get s := by
  have key : ∀ (ls : List (Slot × Slot)) (rep : Slot → Slot), (∀ l ∈ ls, σ.get l.1 = σ.get l.2) →
      (∀ s, σ.get (rep s) = σ.get s) → ∀ s, σ.get (ls.foldl joinGroups rep s) = σ.get s := by
    intro ls
    induction ls with
    | nil => exact fun rep _ h => h
    | cons l ls ih =>
      intro rep hl hr
      refine ih _ (fun l' h' => hl l' (List.mem_cons_of_mem _ h')) fun s => ?_
      unfold joinGroups
      split
      · rename_i e
        rw [hr, ← hl l List.mem_cons_self, ← hr l.1, ← e, hr]
      · exact hr s
  exact key links id h (fun _ => rfl) s

/-! ### Bounds -/

theorem tightestLower_spec (l : List (Option ℝ)) (x : ℝ) :
    (∀ b ∈ tightestLower l, b ≤ x) ↔ ∀ o ∈ l, ∀ b ∈ o, b ≤ x := by
  induction l with
  | nil => simp [tightestLower]
  | cons o l ih =>
    cases o with
    | none => simpa [tightestLower] using ih
    | some b =>
      simp only [tightestLower]
      cases h : tightestLower l with
      | none => rw [h] at ih; simp at ih ⊢; exact fun _ => ih
      | some c => rw [h] at ih; simp at ih ⊢; exact fun _ => ih

theorem tightestUpper_spec (l : List (Option ℝ)) (x : ℝ) :
    (∀ b ∈ tightestUpper l, x ≤ b) ↔ ∀ o ∈ l, ∀ b ∈ o, x ≤ b := by
  induction l with
  | nil => simp [tightestUpper]
  | cons o l ih =>
    cases o with
    | none => simpa [tightestUpper] using ih
    | some b =>
      simp only [tightestUpper]
      cases h : tightestUpper l with
      | none => rw [h] at ih; simp at ih ⊢; exact fun _ => ih
      | some c => rw [h] at ih; simp at ih ⊢; exact fun _ => ih

theorem VarDecl.boundsOk_iff (d : VarDecl) (p : Params) : d.BoundsOk p σ ↔
    ∀ b ∈ d.slots p, (∀ l ∈ b.lb, l ≤ σ.get b.slot) ∧ ∀ u ∈ b.ub, σ.get b.slot ≤ u := by
  cases d with
  | global v lb ub =>
    simp only [VarDecl.BoundsOk, VarDecl.slots, List.mem_map, List.mem_range]
    constructor
    · rintro h b ⟨t, ht, rfl⟩; exact h t (by omega)
    · intro h t ht; exact h _ ⟨t, by omega, rfl⟩
  | regional v lb ub =>
    simp only [VarDecl.BoundsOk, VarDecl.slots, List.mem_flatMap, List.mem_map, List.mem_range]
    constructor
    · rintro h b ⟨t, ht, r, hr, rfl⟩; exact h t (by omega) r hr
    · intro h t ht r hr; exact h _ ⟨t, by omega, r, hr, rfl⟩

theorem AbstractModel.Instance.feasible_iff (inst : AbstractModel.Instance) : inst.Feasible σ ↔
    (∀ b ∈ inst.slots, (∀ l ∈ b.lb, l ≤ σ.get b.slot) ∧ ∀ u ∈ b.ub, σ.get b.slot ≤ u) ∧ ∀ c ∈ inst.rels, c.Holds σ := by
  unfold AbstractModel.Instance.Feasible AbstractModel.Instance.slots AbstractModel.Instance.rels
  simp only [VarDecl.boundsOk_iff, List.mem_flatMap]
  constructor
  · rintro ⟨h1, h2⟩
    exact ⟨fun b ⟨d, hd, hb⟩ => h1 d hd b hb, fun c ⟨n, hn, hc⟩ => h2 n hn c hc⟩
  · rintro ⟨h1, h2⟩
    exact ⟨fun d hd b hb => h1 b ⟨d, hd, hb⟩, fun n hn c hc => h2 c ⟨n, hn, hc⟩⟩

theorem detectFixed_feasible (m : SolverModel) (ρ : Env) : (detectFixedVars m).Feasible ρ ↔ m.Feasible ρ := by
  constructor
  · rintro ⟨h1, h2, h3, h4⟩
    exact ⟨fun x hx => h1 x (List.mem_append_left _ hx), h2, h3, h4⟩
  · rintro ⟨h1, h2, h3, h4⟩
    refine ⟨?_, h2, h3, h4⟩
    intro x hx
    simp only [detectFixedVars, List.mem_append, List.mem_filterMap] at hx
    obtain hx | ⟨b, hb, h⟩ := hx
    · exact h1 x hx
    split at h
    · rename_i l u hl hu
      split at h
      · rename_i e
        obtain rfl := Option.some.inj h
        have a1 := h2 b hb l (by rw [hl]; rfl)
        have a2 := h3 b hb u (by rw [hu]; rfl)
        show ρ.get b.slot = l
        linarith
      · cases h
    · cases h

section Aggregate
variable {inst : AbstractModel.Instance}

/-- The representatives, fixed variables and remaining constraints of the instance. -/
noncomputable abbrev repOf (inst : AbstractModel.Instance) : Slot → Slot := representatives (inst.rels.filterMap Rel.link)

theorem aggregate_ok {m : SolverModel} (h : aggregateVars inst = .ok m) :
    m.rep = repOf inst ∧ m.fixed = (fixPass [] inst.rels).1.map (fun x => (repOf inst x.1, x.2)) ∧
    m.active = (fixPass [] inst.rels).2.map (·.subst (repOf inst)) ∧
    m.vars = ((inst.slots.map fun b => repOf inst b.slot).dedup.filter fun z =>
      !(fixPass [] inst.rels).1.any fun x => repOf inst x.1 = z).map (groupVar inst.slots (repOf inst)) ∧
    m.sense = inst.sense ∧ m.objective = inst.objective.subst (repOf inst) := by
  unfold aggregateVars at h
  simp only at h
  split at h
  · obtain rfl := Except.ok.inj h
    exact ⟨rfl, rfl, rfl, rfl, rfl, rfl⟩
  · cases h

/-- No variable of the group has been fixed. -/
def Unfixed (inst : AbstractModel.Instance) (s : Slot) : Prop :=
  ∀ x ∈ (fixPass [] inst.rels).1, repOf inst x.1 ≠ repOf inst s

/-- The group variable satisfies its bounds exactly if the restored members satisfy theirs. -/
theorem groupVar_bounds (slots : List BoundedSlot) (rep : Slot → Slot) (z : Slot) (x : ℝ) :
    ((∀ l ∈ (groupVar slots rep z).lb, l ≤ x) ↔ ∀ b ∈ slots, rep b.slot = z → ∀ l ∈ b.lb, l ≤ x) ∧
    ((∀ u ∈ (groupVar slots rep z).ub, x ≤ u) ↔ ∀ b ∈ slots, rep b.slot = z → ∀ u ∈ b.ub, x ≤ u) := by
  unfold groupVar
  simp only
  constructor
  · rw [tightestLower_spec]
    simp only [List.mem_map, List.mem_filter, decide_eq_true_eq, forall_exists_index, and_imp]
    exact ⟨fun h b hb hz => h _ b hb hz rfl, fun h o b hb hz e => e ▸ h b hb hz⟩
  · rw [tightestUpper_spec]
    simp only [List.mem_map, List.mem_filter, decide_eq_true_eq, forall_exists_index, and_imp]
    exact ⟨fun h b hb hz => h _ b hb hz rfl, fun h o b hb hz e => e ▸ h b hb hz⟩

/-- The model sent to the solver, in terms of the original one: all constraints, and the bounds of the variables that have
not been fixed. -/
theorem aggregate_feasible {m : SolverModel} (h : aggregateVars inst = .ok m) (ρ : Env) : m.Feasible ρ ↔
    (∀ c ∈ inst.rels, c.Holds (ρ.restore m.rep)) ∧
    ∀ b ∈ inst.slots, Unfixed inst b.slot →
      (∀ l ∈ b.lb, l ≤ (ρ.restore m.rep).get b.slot) ∧ ∀ u ∈ b.ub, (ρ.restore m.rep).get b.slot ≤ u := by
  obtain ⟨e1, e2, e3, e4, -, -⟩ := aggregate_ok h
  rw [e1, ← fixPass_spec inst.rels (F := []) (by simp [Agrees])]
  have hfix : (∀ x ∈ m.fixed, ρ.get x.1 = x.2) ↔ Agrees (ρ.restore (repOf inst)) (fixPass [] inst.rels).1 := by
    rw [e2]
    simp only [List.forall_mem_map, Agrees, Env.get_restore]
  have hact : (∀ c ∈ m.active, c.Holds ρ) ↔ ∀ c ∈ (fixPass [] inst.rels).2, c.Holds (ρ.restore (repOf inst)) := by
    rw [e3]
    simp only [List.forall_mem_map, Rel.holds_subst]
  have hmem : ∀ z, groupVar inst.slots (repOf inst) z ∈ m.vars ↔
      (∃ b ∈ inst.slots, repOf inst b.slot = z) ∧ ∀ x ∈ (fixPass [] inst.rels).1, repOf inst x.1 ≠ z := by
    intro z
    rw [e4]
    simp only [List.mem_map, List.mem_filter, List.mem_dedup, Bool.not_eq_true', List.any_eq_false, decide_eq_true_eq]
    constructor
    · rintro ⟨z', ⟨h1, h2⟩, h3⟩
      obtain rfl : z' = z := congrArg BoundedSlot.slot h3
      exact ⟨h1, h2⟩
    · exact fun h => ⟨z, h, rfl⟩
  have hvars : ∀ v ∈ m.vars, ∃ z, v = groupVar inst.slots (repOf inst) z := by
    intro v hv
    rw [e4] at hv
    obtain ⟨z, _, rfl⟩ := List.mem_map.1 hv
    exact ⟨z, rfl⟩
  constructor
  · rintro ⟨h1, h2, h3, h4⟩
    refine ⟨⟨hfix.1 h1, hact.1 h4⟩, fun b hb hu => ?_⟩
    have hz := (hmem _).2 ⟨⟨b, hb, rfl⟩, hu⟩
    rw [Env.get_restore]
    exact ⟨(groupVar_bounds _ _ _ _).1.1 (h2 _ hz) b hb rfl, (groupVar_bounds _ _ _ _).2.1 (h3 _ hz) b hb rfl⟩
  · rintro ⟨⟨h1, h4⟩, h2⟩
    refine ⟨hfix.2 h1, fun v hv => ?_, fun v hv => ?_, hact.2 h4⟩
    all_goals
      obtain ⟨z, rfl⟩ := hvars v hv
      have hz := ((hmem z).1 hv).2
    · refine (groupVar_bounds _ _ _ _).1.2 fun b hb e => ?_
      have := (h2 b hb (by unfold Unfixed; rw [e]; exact hz)).1
      rw [Env.get_restore, e] at this
      exact this
    · refine (groupVar_bounds _ _ _ _).2.2 fun b hb e => ?_
      have := (h2 b hb (by unfold Unfixed; rw [e]; exact hz)).2
      rw [Env.get_restore, e] at this
      exact this

/-- Every point that satisfies the equality constraints has the fixed values and respects the groups. -/
theorem equalities_rep {σ : Env} (h : ∀ c ∈ inst.rels, c.op = .eq → c.Holds σ) (s : Slot) : σ.get (repOf inst s) = σ.get s := by
  refine representatives_value (fun l hl => ?_) s
  obtain ⟨c, hc, hcl⟩ := List.mem_filterMap.1 hl
  have hop : c.op = .eq := by
    by_contra hn
    unfold Rel.link at hcl
    rw [if_neg hn] at hcl
    cases hcl
  exact (Rel.link_spec (x := l.1) (y := l.2) hcl).1 (h c hc hop)

end Aggregate

theorem asIs_feasible (inst : AbstractModel.Instance) (ρ : Env) : (sendAsIs inst).Feasible ρ ↔ inst.Feasible ρ := by
  rw [AbstractModel.Instance.feasible_iff]
  exact ⟨fun h => ⟨fun b hb => ⟨h.lower b hb, h.upper b hb⟩, h.constraints⟩,
    fun h => ⟨by simp [sendAsIs], fun b hb => (h.1 b hb).1, fun b hb => (h.1 b hb).2, h.2⟩⟩

/-! ## The theorems -/

variable {md : Modules} {p : Params} {count : ℕ → ℕ} {m : AbstractModel} {inst : AbstractModel.Instance}

/-- The concrete model that `MIMOSA(params)` creates before preprocessing. -/
structure Spec.Created (md : Modules) (p : Params) (inst : AbstractModel.Instance) : Prop where
  created : ∃ count : ℕ → ℕ, StrictMono count ∧ ∃ m, buildModel count md = .ok m ∧ m.createInstance p = .ok inst

/-- The equality constraints do not contradict the bounds of the variables (nothing is said about the inequality
constraints). -/
def Spec.Consistent (inst : AbstractModel.Instance) : Prop :=
  ∃ σ : Env, (∀ d ∈ inst.vars, d.BoundsOk inst.params σ) ∧
    ∀ nc ∈ inst.active, ∀ c ∈ nc.2, c.op = .eq → c.Holds σ

theorem consistent_spec (h : Spec.Consistent inst) : ∃ σ : Env,
    (∀ b ∈ inst.slots, (∀ l ∈ b.lb, l ≤ σ.get b.slot) ∧ ∀ u ∈ b.ub, σ.get b.slot ≤ u) ∧
    ∀ c ∈ inst.rels, c.op = .eq → c.Holds σ := by
  obtain ⟨σ, h1, h2⟩ := h
  refine ⟨σ, fun b hb => ?_, fun c hc => ?_⟩
  · obtain ⟨d, hd, hb⟩ := List.mem_flatMap.1 hb
    exact (VarDecl.boundsOk_iff d inst.params).1 (h1 d hd) b hb
  · obtain ⟨nc, hn, hc⟩ := List.mem_flatMap.1 hc
    exact h2 nc hn c hc

/-- **C73.** A concrete model whose equations do not contradict its bounds is accepted by the preprocessing: the
constructor does not raise. -/
theorem C73_accepted (h : Spec.Consistent inst) : ∃ s, preprocessing inst = .ok s := by
  unfold preprocessing
  split
  · obtain ⟨σ, hb, he⟩ := consistent_spec h
    have hF : Agrees σ (fixPass [] inst.rels).1 := fixPass_agrees _ (by simp [Agrees]) he
    have hm : mergeable inst.slots (inst.rels.filterMap Rel.link) (repOf inst) (fixPass [] inst.rels).1 = true := by
      unfold mergeable
      rw [decide_eq_true_iff]
      intro l _ x hx _
      have hval : ∀ b ∈ inst.slots, repOf inst b.slot = repOf inst x.1 → σ.get b.slot = x.2 := fun b _ e => by
        rw [← equalities_rep he b.slot, e, equalities_rep he x.1, hF x hx]
      refine ⟨fun y hy e => ?_, (groupVar_bounds _ _ _ _).1.2 fun b hb' e => ?_, (groupVar_bounds _ _ _ _).2.2 fun b hb' e => ?_⟩
      · rw [← hF y hy, ← hF x hx, ← equalities_rep he y.1, ← equalities_rep he x.1, e]
      · rw [← hval b hb' e]; exact (hb b hb').1
      · rw [← hval b hb' e]; exact (hb b hb').2
    have : ∃ s, aggregateVars inst = .ok s := by
      unfold aggregateVars
      simp only
      rw [if_pos hm]
      exact ⟨_, rfl⟩
    obtain ⟨s, hs⟩ := this
    rw [hs]
    exact ⟨_, rfl⟩
  · exact ⟨_, rfl⟩

theorem preprocessing_cases {s : SolverModel} (h : preprocessing inst = .ok s) :
    (inst.params.regions.length > 1 ∧ ∃ s', aggregateVars inst = .ok s' ∧ s = detectFixedVars s') ∨
    (¬ inst.params.regions.length > 1 ∧ s = detectFixedVars (sendAsIs inst)) := by
  unfold preprocessing at h
  split at h
  · rename_i hl
    cases ha : aggregateVars inst with
    | error e => rw [ha] at h; cases h
    | ok s' => rw [ha] at h; exact .inl ⟨hl, s', rfl, (Except.ok.inj h).symm⟩
  · rename_i hl
    exact .inr ⟨hl, (Except.ok.inj h).symm⟩

theorem preprocessing_objective {s : SolverModel} (h : preprocessing inst = .ok s) (ρ : Env) :
    s.objective.eval ρ = inst.objective.eval (restoreValues inst s ρ) ∧ s.sense = inst.sense := by
  rcases preprocessing_cases h with ⟨hl, s', ha, rfl⟩ | ⟨hl, rfl⟩
  · obtain ⟨e1, -, -, -, e5, e6⟩ := aggregate_ok ha
    unfold restoreValues detectFixedVars
    rw [if_pos hl]
    simp only [e1, e5, e6]
    exact ⟨Expr.eval_subst _, trivial⟩
  · unfold restoreValues
    rw [if_neg hl]
    exact ⟨rfl, rfl⟩

/-- A point of the preprocessed model is feasible exactly if the restored values are feasible in the original model. -/
theorem preprocessing_feasible {s : SolverModel} (h : preprocessing inst = .ok s) (hc : Spec.Consistent inst) (ρ : Env) :
    s.Feasible ρ ↔ inst.Feasible (restoreValues inst s ρ) := by
  rcases preprocessing_cases h with ⟨hl, s', ha, rfl⟩ | ⟨hl, rfl⟩
  · rw [detectFixed_feasible, aggregate_feasible ha, inst.feasible_iff]
    have e : restoreValues inst (detectFixedVars s') ρ = ρ.restore s'.rep := by
      unfold restoreValues; rw [if_pos hl]; rfl
    rw [e]
    obtain ⟨e1, -⟩ := aggregate_ok ha
    constructor
    · rintro ⟨h1, h2⟩
      refine ⟨fun b hb => ?_, h1⟩
      by_cases hu : Unfixed inst b.slot
      · exact h2 b hb hu
      · unfold Unfixed at hu
        push Not at hu
        obtain ⟨x, hx, hxe⟩ := hu
        obtain ⟨σ, hσb, hσe⟩ := consistent_spec hc
        have hF := fixPass_agrees (σ := σ) inst.rels (F := []) (by simp [Agrees]) hσe
        have hG := fixPass_agrees (σ := ρ.restore s'.rep) inst.rels (F := []) (by simp [Agrees]) fun c hc _ => h1 c hc
        have : (ρ.restore s'.rep).get b.slot = σ.get b.slot := by
          rw [← equalities_rep hσe b.slot, ← hxe, equalities_rep hσe x.1, hF x hx, ← hG x hx, Env.get_restore, Env.get_restore, e1, hxe]
        rw [this]
        exact hσb b hb
    · rintro ⟨h1, h2⟩
      exact ⟨h2, fun b hb _ => h1 b hb⟩
  · rw [detectFixed_feasible, asIs_feasible]
    unfold restoreValues
    rw [if_neg hl]

/-- A feasible point of the original model is left as it is by restoring. -/
theorem restore_feasible {s : SolverModel} (hs : preprocessing inst = .ok s) {σ : Env} (h : inst.Feasible σ) :
    restoreValues inst s σ = σ := by
  rcases preprocessing_cases hs with ⟨hl, s', ha, rfl⟩ | ⟨hl, rfl⟩
  · unfold restoreValues
    rw [if_pos hl]
    refine Env.ext_get fun x => ?_
    rw [Env.get_restore]
    show σ.get (s'.rep x) = _
    rw [(aggregate_ok ha).1]
    exact equalities_rep (fun c hc _ => (inst.feasible_iff.1 h).2 c hc) x
  · unfold restoreValues
    rw [if_neg hl]

theorem feasible_consistent {σ : Env} (h : inst.Feasible σ) : Spec.Consistent inst :=
  ⟨σ, h.1, fun nc hn c hc _ => h.2 nc hn c hc⟩

/-- A solution of the original model makes its equations consistent with its bounds. -/
theorem solution_consistent (h : Spec.Created md p inst) {σ : Env} (hσ : Solution md p σ) : Spec.Consistent inst := by
  obtain ⟨count, hm, m, h1, h2⟩ := h
  obtain ⟨_, _, _, _, _, hs⟩ := solution_iff.1 hσ
  exact feasible_consistent ((instance_feasible h1 h2).2 hs)

/-- **C73.** Whatever point satisfies the preprocessed model, the restored values satisfy all constraints of the
original model; and all bounds, except possibly those of variables whose value the equality constraints determine. -/
theorem C73_constraints {s : SolverModel} (hs : preprocessing inst = .ok s) {ρ : Env} (hρ : s.Feasible ρ) :
    (∀ nc ∈ inst.active, ∀ c ∈ nc.2, c.Holds (restoreValues inst s ρ)) ∧
    ∀ b ∈ inst.slots, (∀ x ∈ s.fixed, x.1 ≠ s.rep b.slot) →
      (∀ l ∈ b.lb, l ≤ (restoreValues inst s ρ).get b.slot) ∧ ∀ u ∈ b.ub, (restoreValues inst s ρ).get b.slot ≤ u := by
  rcases preprocessing_cases hs with ⟨hl, s', ha, rfl⟩ | ⟨hl, rfl⟩
  · rw [detectFixed_feasible, aggregate_feasible ha] at hρ
    have e : restoreValues inst (detectFixedVars s') ρ = ρ.restore s'.rep := by
      unfold restoreValues; rw [if_pos hl]; rfl
    rw [e]
    refine ⟨fun nc hn c hc => hρ.1 c (List.mem_flatMap.2 ⟨nc, hn, hc⟩), fun b hb hf => hρ.2 b hb fun x hx => ?_⟩
    obtain ⟨e1, e2, -⟩ := aggregate_ok ha
    have := hf (repOf inst x.1, x.2) (List.mem_append_left _ (by rw [e2]; exact List.mem_map.2 ⟨x, hx, rfl⟩))
    rw [← e1] at this ⊢
    exact this
  · rw [detectFixed_feasible, asIs_feasible] at hρ
    have e : restoreValues inst (detectFixedVars (sendAsIs inst)) ρ = ρ := by
      unfold restoreValues; rw [if_neg hl]
    rw [e]
    exact ⟨hρ.2, fun b hb _ => (inst.feasible_iff.1 hρ).1 b hb⟩

/-- **C73.** If the equations do not contradict the bounds: whatever point satisfies the preprocessed model, the restored
values satisfy all constraints and bounds of the original model, and give the objective the same value. -/
theorem C73_restored (h : Spec.Created md p inst) (hc : Spec.Consistent inst) {s : SolverModel}
    (hs : preprocessing inst = .ok s) {ρ : Env} (hρ : s.Feasible ρ) :
    Solution md p (restoreValues inst s ρ) ∧ s.objective.eval ρ = inst.objective.eval (restoreValues inst s ρ) := by
  obtain ⟨count, hm, m, h1, h2⟩ := h
  exact ⟨⟨count, hm, m, inst, h1, h2, (preprocessing_feasible hs hc ρ).1 hρ⟩, (preprocessing_objective hs ρ).1⟩

/-- **C73.** Nothing is lost: if the original model has a solution, preprocessing does not raise, the solution satisfies
the preprocessed model, and restoring leaves it as it is. -/
theorem C73_nothing_lost (h : Spec.Created md p inst) {σ : Env} (hσ : Solution md p σ) :
    ∃ s, preprocessing inst = .ok s ∧ s.Feasible σ ∧ restoreValues inst s σ = σ := by
  have hc := solution_consistent h hσ
  obtain ⟨s, hs⟩ := C73_accepted hc
  obtain ⟨count, hm, m, h1, h2⟩ := h
  obtain ⟨_, _, _, _, _, hσ⟩ := solution_iff.1 hσ
  have hf := (instance_feasible h1 h2).2 hσ
  have hr := restore_feasible hs hf
  exact ⟨s, hs, (preprocessing_feasible hs hc σ).2 (hr.symm ▸ hf), hr⟩

/-- **C73.** If preprocessing raises, the original model has no solution. -/
theorem C73_rejected (h : Spec.Created md p inst) {e : Err} (he : preprocessing inst = .error e) (σ : Env) :
    ¬ Solution md p σ := by
  intro hσ
  obtain ⟨s, hs, -⟩ := C73_nothing_lost h hσ
  rw [hs] at he
  cases he

theorem created_objective (h : Spec.Created md p inst) :
    inst.objective = Objective.objectiveExpr p ∧ inst.sense = Objective.sense md.objective := by
  obtain ⟨count, hm, m, h1, h2⟩ := h
  unfold buildModel at h1
  simp only at h1
  split at h1
  · unfold AbstractModel.createInstance at h2
    split at h2
    · split at h2
      · cases h2
      · obtain rfl := Except.ok.inj h2
        obtain rfl := Except.ok.inj h1
        exact ⟨rfl, rfl⟩
    · cases h2
  · cases h1

/-- **C45.** The model that is built for the objective "utility" is a maximisation, the one for "globalcosts" a
minimisation, and what is optimised is the net present value in the last period. -/
theorem C45_direction (h : Spec.Created md p inst) :
    (md.objective = .utility → inst.sense = .maximize) ∧ (md.objective = .globalcosts → inst.sense = .minimize) ∧
    ∀ σ : Env, inst.objective.eval σ = σ.G .NPV p.tf := by
  obtain ⟨e1, e2⟩ := created_objective h
  refine ⟨fun ho => ?_, fun ho => ?_, fun σ => ?_⟩
  · rw [e2, ho]; rfl
  · rw [e2, ho]; rfl
  · rw [e1]; rfl

/-- **C45.** So the optimal solutions are exactly the points within the bounds and constraints of the created instance
that no other such point beats on the created instance's own objective, in its own direction. -/
theorem C45_optimal_of_instance (h : Spec.Created md p inst) (σ : Env) :
    Optimal md p σ ↔ inst.Feasible σ ∧ ∀ τ, inst.Feasible τ →
      (inst.sense = .maximize → inst.objective.eval τ ≤ inst.objective.eval σ) ∧
      (inst.sense = .minimize → inst.objective.eval σ ≤ inst.objective.eval τ) := by
  obtain ⟨e1, e2⟩ := created_objective h
  have hf : ∀ τ, Solution md p τ ↔ inst.Feasible τ := fun τ => by
    obtain ⟨count, hm, m, h1, h2⟩ := h
    refine ⟨fun hτ => ?_, fun hτ => ⟨count, hm, m, inst, h1, h2, hτ⟩⟩
    obtain ⟨_, _, _, _, _, hτ⟩ := solution_iff.1 hτ
    exact (instance_feasible h1 h2).2 hτ
  unfold Optimal
  simp only [hf, e1, e2]
  cases Objective.sense md.objective <;> simp

/-- **C73.** A point is optimal for the preprocessed model exactly if the restored values are an optimal solution of the
original model. -/
theorem C73_optimum (h : Spec.Created md p inst) (hc : Spec.Consistent inst) {s : SolverModel}
    (hs : preprocessing inst = .ok s) (ρ : Env) : s.Best ρ ↔ Optimal md p (restoreValues inst s ρ) := by
  obtain ⟨e1, e2⟩ := created_objective h
  have hobj := fun ρ => (preprocessing_objective hs ρ).1
  have hsense := (preprocessing_objective hs ρ).2
  unfold SolverModel.Best Optimal
  rw [hsense, e2]
  constructor
  · rintro ⟨hf, hb⟩
    refine ⟨(C73_restored h hc hs hf).1, fun τ hτ => ?_⟩
    obtain ⟨s', hs', h1, h2⟩ := C73_nothing_lost h hτ
    obtain rfl := Except.ok.inj (hs.symm.trans hs')
    have := hb τ h1
    rw [hobj, hobj, h2, e1] at this
    exact this
  · rintro ⟨hsol, hb⟩
    refine ⟨?_, fun ρ' hρ' => ?_⟩
    · obtain ⟨count, hm, m, h1, h2⟩ := h
      obtain ⟨_, _, _, _, _, hsol⟩ := solution_iff.1 hsol
      exact (preprocessing_feasible hs hc ρ).2 ((instance_feasible h1 h2).2 hsol)
    · have := hb _ (C73_restored h hc hs hρ').1
      rw [hobj, hobj, e1]
      exact this

/-- **C73.** So after `solve()` the values of the object are a solution of the original model whenever the solver
returned a feasible point of the model that was sent to it, whatever values it left in the variables that had been
aggregated away. -/
theorem C73_after_solve (h : Spec.Created md p inst) (hcon : Spec.Consistent inst) {sm : SolverModel}
    (hsm : preprocessing inst = .ok sm) {M : SessionModel} (hp : M.params = inst.params) {s : Session}
    {c : SolveCall} {status : SolverStatus} {ρ : Env} (hu : c.update = fun v => .ok (v.restore sm.rep))
    (hc : ¬ (c.useNeos = true ∧ c.email = none)) (ho : c.outcome = .returns status ρ)
    (hρ : sm.Feasible ρ) : Solution md p (s.solve M c).1.values := by
  have e : (s.solve M c).1.values = restoreValues inst sm ρ := by
    unfold Session.solve Session.postprocessing restoreValues
    simp only [if_neg hc, ho, hu, hp]
    by_cases hl : inst.params.regions.length > 1
    · simp only [if_pos hl]
      repeat' split
      all_goals rfl
    · simp only [if_neg hl]
      repeat' split
      all_goals rfl
  rw [e]
  exact (C73_restored h hcon hsm hρ).1

/-! ## Restoring is needed -/

theorem AbstractModel.mem_collect {os : List RuleOut} {rs : List Rel} (h : m.collect p os = .ok rs) (c : Rel) :
    c ∈ rs ↔ .rel c ∈ os := by
  induction os generalizing rs with
  | nil => simp only [collect, Except.ok.injEq] at h; subst h; simp
  | cons o os ih =>
    cases o with
    | skip => simp only [collect] at h; simp [ih h]
    | raise e => simp [collect] at h
    | rel ρ =>
      simp only [collect, bind, Except.bind] at h
      cases h1 : m.checkRel p ρ with
      | error e => simp [h1] at h
      | ok u =>
        cases h2 : m.collect p os with
        | error e => simp [h1, h2] at h
        | ok rest =>
          simp only [h1, h2, pure, Except.pure, Except.ok.injEq] at h
          subst h
          simp [ih h2]

theorem AbstractModel.mem_collectAll {cs : List (String × PyomoConstraint)} {act : List (String × List Rel)}
    (h : m.collectAll p cs = .ok act) (c : Rel) :
    c ∈ act.flatMap (·.2) ↔ ∃ nc ∈ cs, .rel c ∈ nc.2.outcomes p := by
  induction cs generalizing act with
  | nil => simp only [collectAll, Except.ok.injEq] at h; subst h; simp
  | cons nc cs ih =>
    obtain ⟨n, k⟩ := nc
    simp only [collectAll, bind, Except.bind] at h
    cases h1 : m.collect p (k.outcomes p) with
    | error e => simp [h1] at h
    | ok rels =>
      cases h2 : m.collectAll p cs with
      | error e => simp [h1, h2] at h
      | ok rest =>
        simp only [h1, h2, pure, Except.pure, Except.ok.injEq] at h
        subst h
        simp only [List.flatMap_cons, List.mem_append, ih h2, mem_collect h1, List.exists_mem_cons_iff]

/-- The constraints of the instance are the relations that the rules of the components return. -/
theorem mem_rels (h : Spec.Created md p inst) (c : Rel) :
    c ∈ inst.rels ↔ ∃ k ∈ allConstraints md, ∃ nc ∈ k.toPyomo, .rel c ∈ nc.2.outcomes p := by
  obtain ⟨count, hm, m, h1, h2⟩ := h
  unfold buildModel at h1
  simp only at h1
  split at h1
  · unfold AbstractModel.createInstance at h2
    split at h2
    · split at h2
      · cases h2
      · rename_i act hact
        obtain rfl := Except.ok.inj h2
        have := AbstractModel.mem_collectAll hact c
        obtain rfl := Except.ok.inj h1
        unfold AbstractModel.Instance.rels
        simp only at this ⊢
        rw [this]
        have key := mem_zip_constraints count ((allConstraints md).flatMap GeneralConstraint.toPyomo)
          (fun k => ¬ .rel c ∈ k.outcomes p)
        have := not_congr key
        push Not at this
        rw [this]
        simp only [List.mem_flatMap]
        constructor
        · rintro ⟨nc, ⟨k, hk, hn⟩, h⟩; exact ⟨k, hk, nc, hn, h⟩
        · rintro ⟨k, hk, nc, hn, h⟩; exact ⟨nc, ⟨k, hk, hn⟩, h⟩
    · cases h2
  · cases h1

theorem representatives_idem (links : List (Slot × Slot)) (s : Slot) :
    representatives links (representatives links s) = representatives links s := by
  have key : ∀ (ls : List (Slot × Slot)) (rep : Slot → Slot), (∀ s, rep (rep s) = rep s) →
      ∀ s, ls.foldl joinGroups rep (ls.foldl joinGroups rep s) = ls.foldl joinGroups rep s := by
    intro ls
    induction ls with
    | nil => exact fun rep h => h
    | cons l ls ih =>
      intro rep h
      refine ih _ fun s => ?_
      unfold joinGroups
      by_cases h1 : rep s = rep l.1
      · rw [if_pos h1, h]; split <;> rfl
      · rw [if_neg h1, h, if_neg h1]
  exact key links id (fun _ => rfl) s

open Classical in
/-- One value changed. -/
noncomputable def Env.set (σ : Env) (z : Slot) (x : ℝ) : Env :=
  ⟨fun v t => if z = .g v t then x else σ.g v t, fun v t r => if z = .r v t r then x else σ.r v t r⟩

theorem Env.get_set (σ : Env) (z s : Slot) (x : ℝ) : (σ.set z x).get s = open Classical in if z = s then x else σ.get s := by
  cases s <;> rfl

theorem mem_outcomes {k : Params → ℕ → String → RuleOut} {t : ℕ} (ht : t ≤ p.tf) {r : String} (hr : r ∈ p.regions) :
    k p t r ∈ (PyomoConstraint.overTR k).outcomes p :=
  List.mem_flatMap.2 ⟨t, List.mem_range.2 (by omega), List.mem_map.2 ⟨r, hr, rfl⟩⟩

theorem utility_link (t : ℤ) (r : String) :
    (rv .utility t r =ₚ rv .consumption t r / num 1).link = some (.r .utility t r, .r .consumption t r) := by
  have ha : (Expr.sub (rv .utility t r) (rv .consumption t r / num 1)).affine [] =
      some ⟨0, [(.r .utility t r, 1), (.r .consumption t r, -1)]⟩ := by
    show (Expr.sub (Expr.r .utility t r) (Expr.div (Expr.r .consumption t r) (Expr.const 1))).affine [] = _
    simp [Expr.affine, Slot.affine, fixedAt, Affine.plus, Affine.scale]
  have h1 : (⟨0, [(.r .utility t r, 1), (.r .consumption t r, -1)]⟩ : Affine).coef (.r .utility t r) = 1 := by
    simp [Affine.coef]
  have h2 : (⟨0, [(.r .utility t r, 1), (.r .consumption t r, -1)]⟩ : Affine).coef (.r .consumption t r) = -1 := by
    simp [Affine.coef]
  have h3 : (⟨0, [(.r .utility t r, 1), (.r .consumption t r, -1)]⟩ : Affine).support =
      [.r .utility t r, .r .consumption t r] := by
    unfold Affine.support
    rw [List.dedup_eq_self.2 (by simp)]
    simp [h1, h2]
  unfold Rel.link
  simp only [Expr.peq, ha, h3, h1, h2]
  simp

/-- **C73.** Restoring is not a formality: there are models and points that satisfy the preprocessed model without being
solutions of the original one. -/
theorem C73_restoring_needed : ∃ md p inst s ρ, Spec.Created md p inst ∧ preprocessing inst = .ok s ∧ s.Feasible ρ ∧
    ¬ Solution md p ρ := by
  have hs : Solution (Ex.md0 .COACCH .cost_minimising .utility) (Ex.ex "noregime" 0 none) _ :=
    Ex.solution0 .COACCH .cost_minimising .utility le_rfl one_pos
  obtain ⟨count, hm, m, inst, h1, h2, hf⟩ := hs
  have hc : Spec.Created (Ex.md0 .COACCH .cost_minimising .utility) (Ex.ex "noregime" 0 none) inst :=
    ⟨count, hm, m, h1, h2⟩
  set σ := (Ex.x0 fun _ => 0).env (Ex.md0 .COACCH .cost_minimising .utility) (Ex.ex "noregime" 0 none)
  have hrel : (rv .utility 1 "A" =ₚ rv .consumption 1 "A" / num 1) ∈ inst.rels := by
    refine (mem_rels hc _).2 ⟨.regional Welfare.rUtilityCM (some "utility"), ?_, _, List.mem_singleton.2 rfl, ?_⟩
    · simp [allConstraints, components, Ex.md0, Welfare.component]
    · exact mem_outcomes (k := Welfare.rUtilityCM) (p := Ex.ex "noregime" 0 none) (t := 1) (r := "A")
        (by norm_num [Ex.ex]) (by simp [Ex.ex])
  have hlen : inst.params.regions.length > 1 := by
    have hp : inst.params = Ex.ex "noregime" 0 none := by
      unfold AbstractModel.createInstance at h2
      split at h2
      · split at h2
        · cases h2
        · obtain rfl := Except.ok.inj h2; rfl
      · cases h2
    rw [hp]; simp [Ex.ex]
  obtain ⟨s, hsm, -, -⟩ := C73_nothing_lost hc ⟨count, hm, m, inst, h1, h2, hf⟩
  have hrep : s.rep = representatives (inst.rels.filterMap Rel.link) := by
    rcases preprocessing_cases hsm with ⟨-, s', ha, rfl⟩ | ⟨hn, -⟩
    · exact (aggregate_ok ha).1
    · exact absurd hlen hn
  set rep := s.rep with hrep'
  have hl : rep (.r .utility 1 "A") = rep (.r .consumption 1 "A") := by
    rw [hrep]
    exact representatives_link (List.mem_filterMap.2 ⟨_, hrel, utility_link 1 "A"⟩)
  have hne : (Slot.r .utility 1 "A") ≠ .r .consumption 1 "A" := by simp
  obtain ⟨z, hz, hzz⟩ : ∃ z, (z = .r .utility 1 "A" ∨ z = .r .consumption 1 "A") ∧ rep z ≠ z := by
    by_cases h : rep (.r .utility 1 "A") = .r .utility 1 "A"
    · exact ⟨_, .inr rfl, by rw [← hl, h]; exact hne⟩
    · exact ⟨_, .inl rfl, h⟩
  have hlink : ∀ τ : Env, inst.Feasible τ → τ.get (.r .utility 1 "A") = τ.get (.r .consumption 1 "A") := fun τ h =>
    (Rel.link_spec (utility_link 1 "A")).1 ((inst.feasible_iff.1 h).2 _ hrel)
  have hrest : restoreValues inst s (σ.set z (σ.get z + 1)) = σ := by
    refine Eq.trans ?_ (restore_feasible hsm hf)
    unfold restoreValues
    rw [if_pos hlen, if_pos hlen]
    refine Env.ext_get fun s => ?_
    rw [Env.get_restore, Env.get_restore, Env.get_set, if_neg]
    intro h
    apply hzz
    rw [h, ← hrep', hrep]
    exact representatives_idem _ s
  refine ⟨_, _, inst, s, σ.set z (σ.get z + 1), hc, hsm,
    (preprocessing_feasible hsm (feasible_consistent hf) _).2 (by rw [hrest]; exact hf), fun hbad => ?_⟩
  obtain ⟨_, _, _, _, _, hb⟩ := solution_iff.1 hbad
  have h3 := hlink _ ((instance_feasible h1 h2).2 hb)
  have h4 := hlink _ hf
  rw [Env.get_set, Env.get_set] at h3
  rcases hz with rfl | rfl
  · rw [if_pos rfl, if_neg hne, h4] at h3; linarith
  · rw [if_neg hne.symm, if_pos rfl, h4] at h3; linarith

/-! ## The bounds of fixed variables are not enforced -/

/-- A model with one variable, not negative, and one equation, `NPV[0] == -1`. -/
noncomputable def contradictory : AbstractModel.Instance :=
  ⟨Ex.p0, [.global .NPV (fun _ => some 0) noBound], [("c", [gv .NPV 0 =ₚ num (-1)])], .maximize, gv .NPV 0⟩

theorem contradictory_fixes : (gv .NPV 0 =ₚ num (-1)).fixes [] = some (.g .NPV 0, -1) := by
  have ha : (Expr.sub (gv .NPV 0) (num (-1))).affine [] = some ⟨1, [(.g .NPV 0, 1)]⟩ := by
    show (Expr.sub (Expr.g .NPV 0) (Expr.const (-1))).affine [] = _
    simp [Expr.affine, Slot.affine, fixedAt, Affine.plus, Affine.scale]
  have h1 : (⟨1, [(.g .NPV 0, 1)]⟩ : Affine).coef (.g .NPV 0) = 1 := by simp [Affine.coef]
  have h3 : (⟨1, [(.g .NPV 0, 1)]⟩ : Affine).support = [.g .NPV 0] := by
    unfold Affine.support
    rw [List.dedup_eq_self.2 (by simp)]
    simp [h1]
  unfold Rel.fixes
  simp only [Expr.peq, ha, h3, h1]
  norm_num

/-- **C73 needs the equations and bounds to be consistent**: a variable that an equation fixes is sent to the solver
without its bounds, so the solver may be given a model with feasible points although the original one has none. -/
theorem C73_bounds_of_fixed_variables_lost : ∃ inst s ρ, preprocessing inst = .ok s ∧ s.Feasible ρ ∧
    ∀ τ, ¬ AbstractModel.Instance.Feasible inst τ := by
  have hrels : contradictory.rels = [gv .NPV 0 =ₚ num (-1)] := rfl
  have hfix : fixPass [] contradictory.rels = ([(.g .NPV 0, -1)], []) := by
    rw [hrels, fixPass, contradictory_fixes]; rfl
  have hlink : (gv .NPV 0 =ₚ num (-1)).link = none := by
    cases h : (gv .NPV 0 =ₚ num (-1)).link with
    | none => rfl
    | some l =>
      have h1 := fun σ : Env => (Rel.link_spec (σ := σ) (x := l.1) (y := l.2) h)
      have h2 := (h1 ⟨fun _ _ => 0, fun _ _ _ => 0⟩).2 (by cases l.1 <;> cases l.2 <;> rfl)
      have := h2.2.2
      simp [Expr.peq, Rel.cmp] at this
  have hl : contradictory.rels.filterMap Rel.link = [] := by rw [hrels]; simp [hlink]
  have hlen : contradictory.params.regions.length > 1 := by
    show Ex.p0.regions.length > 1
    simp [Ex.p0, Ex.ex]
  obtain ⟨s', ha⟩ : ∃ s', aggregateVars contradictory = .ok s' := by
    unfold aggregateVars
    simp only
    rw [hl, if_pos (by unfold mergeable; simp)]
    exact ⟨_, rfl⟩
  have hp : preprocessing contradictory = .ok (detectFixedVars s') := by
    unfold preprocessing; rw [if_pos hlen, ha]
  have hrep : repOf contradictory = id := by unfold repOf; rw [hl]; rfl
  refine ⟨contradictory, _, ⟨fun _ t => if t = 0 then -1 else 0, fun _ _ _ => 0⟩, hp, ?_, fun τ h => ?_⟩
  · rw [detectFixed_feasible, aggregate_feasible ha, (aggregate_ok ha).1, hrep]
    refine ⟨fun c hc => ?_, fun b hb hu => ?_⟩
    · rw [hrels, List.mem_singleton] at hc
      subst hc
      exact ⟨trivial, trivial, by simp [Expr.peq, Rel.cmp, Env.restore, Env.get]⟩
    · obtain ⟨d, hd, hb⟩ := List.mem_flatMap.1 hb
      obtain rfl := List.mem_singleton.1 hd
      obtain ⟨t, -, rfl⟩ := List.mem_map.1 hb
      have h0 : t ≠ 0 := by
        rintro rfl
        exact hu (.g .NPV 0, -1) (by rw [hfix]; simp) rfl
      simp [noBound, Env.restore, Env.get, h0]
  · have h1 := (h.1 _ (List.mem_singleton.2 rfl)) 0 (Nat.zero_le _)
    have h2 := h.2 _ (List.mem_singleton.2 rfl) _ (List.mem_singleton.2 rfl)
    have h3 := h1.1 0 rfl
    have h4 := h2.2.2
    simp [Expr.peq, Rel.cmp] at h3 h4
    linarith

example : ∃ inst s, Spec.Created Ex.m0 Ex.p0 inst ∧ Spec.Consistent inst ∧ preprocessing inst = .ok s ∧ s.Feasible Ex.σ0 := by
  obtain ⟨count, hm, m, inst, h1, h2, hf⟩ := Ex.sol0
  have hc : Spec.Created Ex.m0 Ex.p0 inst := ⟨count, hm, m, h1, h2⟩
  obtain ⟨s, h3, h4, -⟩ := C73_nothing_lost hc Ex.sol0
  exact ⟨inst, s, hc, solution_consistent hc Ex.sol0, h3, h4⟩

/-- An optimum of the preprocessed model. -/
example (w : WelfareModule) : ∃ inst s, Spec.Created (Ex.md0 .nodamage w .utility) Ex.free inst ∧
    preprocessing inst = .ok s ∧ s.Best (Ex.σZero w .utility) := by
  have h := Ex.free_optimal w
  obtain ⟨count, hm, m, inst, h1, h2, hf⟩ := h.1
  have hc : Spec.Created (Ex.md0 .nodamage w .utility) Ex.free inst := ⟨count, hm, m, h1, h2⟩
  obtain ⟨s, h3, h4, h5⟩ := C73_nothing_lost hc h.1
  exact ⟨inst, s, hc, h3, (C73_optimum hc (feasible_consistent hf) h3 _).2 (by rw [h5]; exact h)⟩

/-- A maximisation with an optimum, and a minimisation: both instances are created. -/
example (w : WelfareModule) : ∃ inst, Spec.Created (Ex.md0 .nodamage w .utility) Ex.free inst ∧
    inst.sense = .maximize ∧ inst.Feasible (Ex.σZero w .utility) ∧
    ∀ τ, inst.Feasible τ → τ.G .NPV 3 ≤ (Ex.σZero w .utility).G .NPV 3 := by
  have h := Ex.free_optimal w
  obtain ⟨count, hm, m, inst, h1, h2, -⟩ := h.1
  have hc : Spec.Created (Ex.md0 .nodamage w .utility) Ex.free inst := ⟨count, hm, m, h1, h2⟩
  obtain ⟨d1, -, d3⟩ := C45_direction hc
  obtain ⟨o1, o2⟩ := (C45_optimal_of_instance hc _).1 h
  exact ⟨inst, hc, d1 rfl, o1, fun τ hτ => by have := (o2 τ hτ).1 (d1 rfl); rw [d3, d3] at this; exact this⟩
example (d : DamageModule) (w : WelfareModule) : ∃ inst, Spec.Created (Ex.md0 d w .globalcosts) Ex.free inst ∧
    inst.sense = .minimize := by
  obtain ⟨count, hm, m, inst, h1, h2, -⟩ := Ex.free_sol d w .globalcosts Ex.mild_zero
  exact ⟨inst, ⟨count, hm, m, h1, h2⟩, (C45_direction ⟨count, hm, m, h1, h2⟩).2.1 rfl⟩

/-- A solver run that returns that optimum. -/
example (w : WelfareModule) (s : Session) : ∃ (M : SessionModel) (c : SolveCall), (s.solve M c).2 = .ok () ∧
    Solution (Ex.md0 .nodamage w .utility) Ex.free (s.solve M c).1.values := by
  have h := Ex.free_optimal w
  obtain ⟨count, hm, m, inst, h1, h2, hf⟩ := h.1
  have hc : Spec.Created (Ex.md0 .nodamage w .utility) Ex.free inst := ⟨count, hm, m, h1, h2⟩
  obtain ⟨sm, h3, h4, -⟩ := C73_nothing_lost hc h.1
  refine ⟨⟨m, inst.params, fun _ => none, .dict []⟩, ⟨false, none, .returns .ok (Ex.σZero w .utility),
    fun v => .ok (v.restore sm.rep), fun v => .ok (v.G .NPV 3), "optimal"⟩, ?_,
    C73_after_solve hc (feasible_consistent hf) h3 rfl rfl (by simp) rfl h4⟩
  unfold Session.solve Session.postprocessing
  by_cases hl : inst.params.regions.length > 1 <;> simp [hl]

end Mimosa
