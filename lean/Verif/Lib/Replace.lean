import Verif.Config.Refs
import Mathlib.Data.List.Infix
import Mathlib.Tactic.Common

/-!
# Facts about `str.replace`
-/

namespace Mimosa

/-- `t` is `s` with the non-overlapping occurrences of `old`, taken from left to right, replaced by `new`. -/
inductive Replaced (old new : List Char) : List Char → List Char → Prop
  | nil : Replaced old new [] []
  | hit {s t} : Replaced old new s t → Replaced old new (old ++ s) (new ++ t)
  | keep {c s t} : ¬ old <+: c :: s → Replaced old new s t → Replaced old new (c :: s) (c :: t)

theorem replaceAll_skip (old new : List Char) (n : ℕ) (s : List Char) :
    replaceAll old new n s = replaceAll old new 0 (s.drop n) := by
  induction n generalizing s with
  | zero => rfl
  | succ n ih =>
    cases s with
    | nil => simp [replaceAll]
    | cons c s => simp only [replaceAll, List.drop_succ_cons]; exact ih s

theorem replaceAll_hit {old : List Char} (h : old ≠ []) (new s : List Char) :
    replaceAll old new 0 (old ++ s) = new ++ replaceAll old new 0 s := by
  obtain ⟨c, o, rfl⟩ := List.exists_cons_of_ne_nil h
  have : (c :: o).isPrefixOf (c :: (o ++ s)) = true := by
    rw [List.isPrefixOf_iff_prefix]; exact ⟨s, by simp⟩
  simp only [List.cons_append, replaceAll, this, if_true]
  rw [replaceAll_skip]
  simp

theorem replaceAll_keep {old : List Char} {c : Char} {s : List Char} (h : ¬ old <+: c :: s) (new : List Char) :
    replaceAll old new 0 (c :: s) = c :: replaceAll old new 0 s := by
  have : (old.isPrefixOf (c :: s)) = false := by
    rw [← Bool.not_eq_true, List.isPrefixOf_iff_prefix]; exact h
  simp [replaceAll, this]

theorem replaceAll_replaced {old : List Char} (h : old ≠ []) (new : List Char) :
    (s : List Char) → Replaced old new s (replaceAll old new 0 s)
  | [] => by simpa [replaceAll] using Replaced.nil
  | c :: s => by
    by_cases hp : old <+: c :: s
    · obtain ⟨u, hu⟩ := hp
      have : u.length < (c :: s).length := by
        rw [← hu, List.length_append]
        have := List.length_pos_of_ne_nil h
        omega
      rw [← hu, replaceAll_hit h]
      exact .hit (replaceAll_replaced h new u)
    · rw [replaceAll_keep hp]
      exact .keep hp (replaceAll_replaced h new s)
termination_by s => s.length

theorem Replaced.eq {old new s t : List Char} (h : old ≠ []) (r : Replaced old new s t) :
    t = replaceAll old new 0 s := by
  induction r with
  | nil => simp [replaceAll]
  | hit _ ih => rw [replaceAll_hit h, ih]
  | keep hp _ ih => rw [replaceAll_keep hp, ih]

/-- A separator character outside `old` splits the replacement. -/
theorem Replaced.sep {old new a ta b tb : List Char} {c : Char} (h : old ≠ []) (hc : c ∉ old)
    (ra : Replaced old new a ta) (rb : Replaced old new b tb) :
    Replaced old new (a ++ c :: b) (ta ++ c :: tb) := by
  induction ra with
  | nil =>
    refine .keep ?_ rb
    intro hp
    obtain ⟨o, old', rfl⟩ := List.exists_cons_of_ne_nil h
    rw [List.cons_prefix_cons] at hp
    exact hc (by simp [hp.1])
  | hit _ ih => simp only [List.append_assoc]; exact .hit ih
  | @keep d s t hp _ ih =>
    refine .keep ?_ ih
    intro hp'
    apply hp
    have hp' : old <+: (d :: s) ++ c :: b := hp'
    rcases List.prefix_or_prefix_of_prefix hp' (List.prefix_append (d :: s) (c :: b)) with h' | ⟨u, hu⟩
    · exact h'
    · rw [← hu, List.prefix_append_right_inj] at hp'
      cases u with
      | nil => simp at hu; rw [hu]
      | cons e u =>
        exfalso
        rw [List.cons_prefix_cons] at hp'
        exact hc (by rw [← hu]; simp [hp'.1])

theorem replaceAll_sep {old : List Char} (h : old ≠ []) (new : List Char) {c : Char} (hc : c ∉ old)
    (a b : List Char) :
    replaceAll old new 0 (a ++ c :: b) = replaceAll old new 0 a ++ c :: replaceAll old new 0 b :=
  ((replaceAll_replaced h new a).sep h hc (replaceAll_replaced h new b)).eq h |>.symm

/-- Nothing to replace. -/
theorem replaceAll_none {old : List Char} (new : List Char) {s : List Char} (hs : ¬ old <:+: s) :
    replaceAll old new 0 s = s := by
  induction s with
  | nil => simp [replaceAll]
  | cons c s ih =>
    rw [List.infix_cons_iff, not_or] at hs
    rw [replaceAll_keep hs.1, ih hs.2]

theorem replaceAll_self {old : List Char} (h : old ≠ []) (new : List Char) :
    replaceAll old new 0 old = new := by
  have := replaceAll_hit h new []
  simpa [replaceAll] using this

/-- No occurrence of `w` can overlap an inserted `new`. -/
def Separated (w new : List Char) : Prop :=
  (∀ x ∈ w.tails, x ≠ [] → ¬ x <+: new ∧ ¬ new <+: x) ∧
    ∀ x ∈ new.tails, x ≠ [] → ¬ x <+: w ∧ ¬ w <+: x

instance (w new : List Char) : Decidable (Separated w new) := by unfold Separated; infer_instance

theorem prefix_of_append {x a b : List Char} (h : x <+: a ++ b) : x <+: a ∨ a <+: x :=
   List.prefix_or_prefix_of_prefix h (List.prefix_append a b)

theorem infix_of_append {w b : List Char} : (a : List Char) → w <:+: a ++ b →
    (∃ n ≠ [], n <:+ a ∧ w <+: n ++ b) ∨ w <:+: b
  | [], h => .inr h
  | c :: a, h => by
    rw [List.cons_append, List.infix_cons_iff] at h
    rcases h with h | h
    · exact .inl ⟨c :: a, by simp, List.suffix_refl _, h⟩
    · rcases infix_of_append a h with ⟨n, hn, hs, hp⟩ | h
      · exact .inl ⟨n, hn, hs.trans (List.suffix_cons c a), hp⟩
      · exact .inr h

theorem Replaced.prefix {old new w s t : List Char} (hw : Separated w new) (r : Replaced old new s t) :
    ∀ x ∈ w.tails, x ≠ [] → x <+: t → x <+: s := by
  induction r with
  | nil => intro x _ hx h; exact h
  | hit _ _ =>
    intro x hxw hx h
    rcases prefix_of_append h with h | h
    · exact absurd h (hw.1 x hxw hx).1
    · exact absurd h (hw.1 x hxw hx).2
  | @keep c s t _ _ ih =>
    intro x hxw hx h
    obtain ⟨d, y, rfl⟩ := List.exists_cons_of_ne_nil hx
    rw [List.cons_prefix_cons] at h ⊢
    refine ⟨h.1, ?_⟩
    by_cases hy : y = []
    · subst hy; exact List.nil_prefix
    · exact ih y (by
        rw [List.mem_tails] at hxw ⊢
        exact (List.suffix_cons d y).trans hxw) hy h.2

/-- An occurrence of `w` in the result is an occurrence in the original. -/
theorem Replaced.infix {old new w s t : List Char} (hw : Separated w new) (hne : w ≠ [])
    (r : Replaced old new s t) (h : w <:+: t) : w <:+: s := by
  induction r with
  | nil => exact h
  | @hit s t _ ih =>
    rcases infix_of_append new h with ⟨n, hn, hs, hp⟩ | h
    · have := hw.2 n (by rw [List.mem_tails]; exact hs) hn
      rcases prefix_of_append hp with h | h
      · exact absurd h this.2
      · exact absurd h this.1
    · exact (ih h).trans (List.suffix_append old s).isInfix
  | @keep c s t hp r ih =>
    rw [List.infix_cons_iff] at h ⊢
    rcases h with h | h
    · exact .inl ((Replaced.keep hp r).prefix hw w (by simp) hne h)
    · exact .inr (ih h)

/-- The replaced word itself does not occur in the result. -/
theorem Replaced.gone {old new s t : List Char} (hw : Separated old new) (hne : old ≠ [])
    (r : Replaced old new s t) : ¬ old <:+: t := by
  induction r with
  | nil => intro h; exact hne (List.infix_nil.1 h)
  | @hit s t _ ih =>
    intro h
    rcases infix_of_append new h with ⟨n, hn, hs, hp⟩ | h
    · have := hw.2 n (by rw [List.mem_tails]; exact hs) hn
      rcases prefix_of_append hp with h | h
      · exact absurd h this.2
      · exact absurd h this.1
    · exact ih h
  | @keep c s t hp r ih =>
    intro h
    rw [List.infix_cons_iff] at h
    rcases h with h | h
    · exact hp ((Replaced.keep hp r).prefix hw old (by simp) hne h)
    · exact ih h

end Mimosa
