import Verif.Data.DataStore
import Mathlib.Tactic.Linarith
import Mathlib.Tactic.FieldSimp
import Mathlib.Tactic.NormNum
import Mathlib.Tactic.Positivity
import Mathlib.Tactic.IntervalCases
import Mathlib.Algebra.Order.Group.Unbundled.Abs
import Mathlib.Algebra.Order.Ring.Abs

/-!
# C11: extrapolation beyond the data is monotone and stabilises
-/

namespace Mimosa

theorem lastTwo_append {α : Type} (a b : α) : (l : List α) → lastTwo (l ++ [a, b]) = some (a, b)
  | [] => rfl
  | [_] => rfl
  | [_, _] => rfl
  | x :: y :: z :: l => by
    have := lastTwo_append a b (y :: z :: l)
    simpa [lastTwo] using this

theorem lastTwo_eq {α : Type} {a b : α} : (l : List α) → lastTwo l = some (a, b) → ∃ l', l = l' ++ [a, b]
  | [], h => by simp [lastTwo] at h
  | [_], h => by simp [lastTwo] at h
  | [x, y], h => ⟨[], by simpa [lastTwo] using h⟩
  | x :: y :: z :: l, h => by
    obtain ⟨l', hl⟩ := lastTwo_eq (y :: z :: l) (by simpa [lastTwo] using h)
    exact ⟨x :: l', by rw [hl]; rfl⟩

theorem lastTwo_none {α : Type} : (l : List α) → lastTwo l = none ↔ l.length < 2
  | [] => by simp [lastTwo]
  | [_] => by simp [lastTwo]
  | [x, y] => by simp [lastTwo]
  | x :: y :: z :: l => by
    have := lastTwo_none (y :: z :: l)
    simp only [lastTwo, this, List.length_cons]
    omega

theorem extrapChange_eq (rate stab t : ℚ) (hs : 0 < stab) :
    extrapChange rate stab t = rate * max 0 (1 - (t - 2100) / stab) := by
  have e : rate - rate * (t - 2100) / stab = rate * (1 - (t - 2100) / stab) := by field_simp
  unfold extrapChange
  rw [e]
  split
  · rename_i h
    rcases le_total 0 (1 - (t - 2100) / stab) with h' | h'
    · rw [max_eq_right h', max_eq_right (by positivity)]
    · rw [max_eq_left h', max_eq_left (by nlinarith)]; simp
  · rename_i h
    rcases le_total 0 (1 - (t - 2100) / stab) with h' | h'
    · rw [max_eq_right h', min_eq_right (by nlinarith)]
    · rw [max_eq_left h', min_eq_left (by nlinarith)]; simp

theorem extrapLoop_length (rate stab : ℚ) (tp vp : ℚ) (ts : List ℚ) :
    (extrapLoop rate stab tp vp ts).length = ts.length := by
  induction ts generalizing tp vp with
  | nil => rfl
  | cons t ts ih => simp [extrapLoop, ih]

theorem extrapLoop_step (rate stab : ℚ) (hs : 0 < stab) (ts : List ℚ) : ∀ (tp vp : ℚ) (i : ℕ), i < ts.length →
    (vp :: extrapLoop rate stab tp vp ts).getD (i + 1) 0 = (vp :: extrapLoop rate stab tp vp ts).getD i 0
      + rate * max 0 (1 - ((tp :: ts).getD i 0 - 2100) / stab)
        * ((tp :: ts).getD (i + 1) 0 - (tp :: ts).getD i 0) := by
  induction ts with
  | nil => intro tp vp i hi; simp at hi
  | cons t ts ih =>
    intro tp vp i hi
    cases i with
    | zero => simp [extrapLoop, extrapChange_eq _ _ _ hs]
    | succ i =>
      have := ih t (vp + extrapChange rate stab tp * (t - tp)) i (by simpa using hi)
      simpa [extrapLoop] using this

/-- Specification: the growth rate over the last two points of a series. -/
def lastRate (values years : List ℚ) : ℚ :=
  (values.getD (values.length - 1) 0 - values.getD (values.length - 2) 0) /
    (years.getD (years.length - 1) 0 - years.getD (years.length - 2) 0)

theorem extrapolate_ok {values years extra out : List ℚ} {stab : ℚ}
    (h : extrapolate values years extra stab = .ok out) :
    ∃ vs ys v1 v2 t1 t2, values = vs ++ [v1, v2] ∧ years = ys ++ [t1, t2] ∧
      lastRate values years = (v2 - v1) / (t2 - t1) ∧
      out = values ++ extrapLoop ((v2 - v1) / (t2 - t1)) stab t2 v2 extra := by
  unfold extrapolate at h
  split at h
  · rename_i v1 v2 t1 t2 hv hy
    obtain ⟨vs, rfl⟩ := lastTwo_eq _ hv
    obtain ⟨ys, rfl⟩ := lastTwo_eq _ hy
    refine ⟨vs, ys, v1, v2, t1, t2, rfl, rfl, ?_, by cases h; rfl⟩
    simp [lastRate, List.getD_eq_getElem?_getD]
  · cases h

/-- **C11.** Extrapolation raises exactly when a series has fewer than two points. -/
theorem C11_defined (values years extra : List ℚ) :
    (∃ out, extrapolate values years extra = .ok out) ↔ 2 ≤ values.length ∧ 2 ≤ years.length := by
  constructor
  · rintro ⟨out, h⟩
    obtain ⟨vs, ys, v1, v2, t1, t2, rfl, rfl, -⟩ := extrapolate_ok h
    simp
  · rintro ⟨h1, h2⟩
    unfold extrapolate
    cases hv : lastTwo values with
    | none => rw [lastTwo_none] at hv; omega
    | some p => cases hy : lastTwo years with
      | none => rw [lastTwo_none] at hy; omega
      | some q => exact ⟨_, rfl⟩

/-- **C11.** The input values are kept, and one value per extra year is added. -/
theorem C11_keeps_input (values years extra out : List ℚ) (h : extrapolate values years extra = .ok out) :
    out.take values.length = values ∧ out.length = values.length + extra.length := by
  obtain ⟨vs, ys, v1, v2, t1, t2, -, -, -, rfl⟩ := extrapolate_ok h
  simp [extrapLoop_length]

theorem getD_cons_tail {vs : List ℚ} {a b : ℚ} (l : List ℚ) (i : ℕ) :
    ((vs ++ [a, b]) ++ l).getD (vs.length + 1 + i) 0 = (b :: l).getD i 0 := by
  simp only [List.append_assoc, List.cons_append, List.nil_append, List.getD_eq_getElem?_getD]
  rw [List.getElem?_append_right (by omega), show vs.length + 1 + i - vs.length = i + 1 by omega]
  simp

/-- **C11.** From the last data point on, each step grows with the last growth rate of the data, brought down
linearly from its full value in 2100 to zero in 2150 (evaluated at the beginning of the step). -/
theorem C11_step (values years extra out : List ℚ) (hlen : values.length = years.length)
    (h : extrapolate values years extra = .ok out) (i : ℕ) (hi : years.length ≤ i + 1)
    (hi' : i + 1 < (years ++ extra).length) :
    out.getD (i + 1) 0 = out.getD i 0 +
      lastRate values years * max 0 (1 - ((years ++ extra).getD i 0 - 2100) / 50)
        * ((years ++ extra).getD (i + 1) 0 - (years ++ extra).getD i 0) := by
  obtain ⟨vs, ys, v1, v2, t1, t2, rfl, rfl, hr, rfl⟩ := extrapolate_ok h
  rw [hr]
  simp only [List.length_append, List.length_cons, List.length_nil] at hlen hi hi'
  have hl : vs.length = ys.length := by omega
  obtain ⟨j, rfl⟩ : ∃ j, i = ys.length + 1 + j := ⟨i - (ys.length + 1), by omega⟩
  have e1 : ys.length + 1 + j + 1 = ys.length + 1 + (j + 1) := rfl
  rw [e1, getD_cons_tail, getD_cons_tail, ← hl, getD_cons_tail, getD_cons_tail]
  exact extrapLoop_step _ 50 (by norm_num) extra t2 v2 j (by omega)

/-- The extra years are in increasing order, after the last data year. -/
def IncreasingFrom (n : ℕ) (Y : List ℚ) : Prop := ∀ i, n ≤ i + 1 → i + 1 < Y.length → Y.getD i 0 < Y.getD (i + 1) 0

/-- **C11.** The continuation is monotone in the direction of the last growth rate. -/
theorem C11_monotone (values years extra out : List ℚ) (hlen : values.length = years.length)
    (h : extrapolate values years extra = .ok out) (hinc : IncreasingFrom years.length (years ++ extra))
    (i j : ℕ) (hi : years.length ≤ i + 1) (hij : i ≤ j) (hj : j < (years ++ extra).length) :
    (0 ≤ lastRate values years → out.getD i 0 ≤ out.getD j 0) ∧
    (lastRate values years ≤ 0 → out.getD j 0 ≤ out.getD i 0) := by
  induction j, hij using Nat.le_induction with
  | base => simp
  | succ j hij ih =>
    have hs := C11_step values years extra out hlen h j (by omega) hj
    have hd := hinc j (by omega) hj
    have hm : 0 ≤ max 0 (1 - ((years ++ extra).getD j 0 - 2100) / 50) := le_max_left _ _
    have hpos : 0 ≤ max 0 (1 - ((years ++ extra).getD j 0 - 2100) / 50)
        * ((years ++ extra).getD (j + 1) 0 - (years ++ extra).getD j 0) := mul_nonneg hm (by linarith)
    obtain ⟨ih1, ih2⟩ := ih (by omega)
    rw [mul_assoc] at hs
    constructor
    · intro hr; have := ih1 hr; have := mul_nonneg hr hpos; linarith
    · intro hr; have := ih2 hr; have := mul_nonpos_of_nonpos_of_nonneg hr hpos; linarith

/-- **C11.** When the data end in 2100 or later, no step changes faster than the last growth rate. -/
theorem C11_never_faster (values years extra out : List ℚ) (hlen : values.length = years.length)
    (h : extrapolate values years extra = .ok out) (hinc : IncreasingFrom years.length (years ++ extra))
    (hend : 2100 ≤ years.getD (years.length - 1) 0)
    (i : ℕ) (hi : years.length ≤ i + 1) (hi' : i + 1 < (years ++ extra).length) :
    |out.getD (i + 1) 0 - out.getD i 0| ≤
      |lastRate values years| * ((years ++ extra).getD (i + 1) 0 - (years ++ extra).getD i 0) := by
  have hn : 2 ≤ years.length := by
    have := (C11_defined values years extra).1 ⟨out, h⟩; exact this.2
  have hge : ∀ k, years.length - 1 ≤ k → k < (years ++ extra).length → 2100 ≤ (years ++ extra).getD k 0 := by
    intro k hk
    induction k, hk using Nat.le_induction with
    | base =>
      intro _
      rw [List.getD_eq_getElem?_getD, List.getElem?_append_left (by omega), ← List.getD_eq_getElem?_getD]
      exact hend
    | succ k hk ih =>
      intro hk'
      have := ih (by omega)
      have := hinc k (by omega) hk'
      linarith
  have hs := C11_step values years extra out hlen h i hi hi'
  have hd := hinc i hi hi'
  have h2100 := hge i (by omega) (by omega)
  set y := (years ++ extra).getD i 0
  set y' := (years ++ extra).getD (i + 1) 0
  have hm0 : 0 ≤ max 0 (1 - (y - 2100) / 50) := le_max_left _ _
  have hm1 : max 0 (1 - (y - 2100) / 50) ≤ 1 := by
    apply max_le (by norm_num)
    have : 0 ≤ (y - 2100) / 50 := by apply div_nonneg <;> linarith
    linarith
  rw [hs, add_sub_cancel_left, abs_mul, abs_mul, abs_of_nonneg hm0, abs_of_pos (by linarith : 0 < y' - y)]
  have : |lastRate values years| * max 0 (1 - (y - 2100) / 50) ≤ |lastRate values years| * 1 :=
    mul_le_mul_of_nonneg_left hm1 (abs_nonneg _)
  rw [mul_one] at this
  exact mul_le_mul_of_nonneg_right this (by linarith)

/-- **C11.** From 2150 on the continuation is constant. -/
theorem C11_constant (values years extra out : List ℚ) (hlen : values.length = years.length)
    (h : extrapolate values years extra = .ok out) (hinc : IncreasingFrom years.length (years ++ extra))
    (i j : ℕ) (hi : years.length ≤ i + 1) (hij : i ≤ j) (hj : j < (years ++ extra).length)
    (h2150 : 2150 ≤ (years ++ extra).getD i 0) : out.getD j 0 = out.getD i 0 := by
  have key : out.getD j 0 = out.getD i 0 ∧ 2150 ≤ (years ++ extra).getD j 0 := by
    induction j, hij using Nat.le_induction with
    | base => exact ⟨rfl, h2150⟩
    | succ j hij ih =>
      obtain ⟨ih1, ih2⟩ := ih (by omega)
      have hs := C11_step values years extra out hlen h j (by omega) hj
      have hd := hinc j (by omega) hj
      rw [max_eq_left (by linarith)] at hs
      exact ⟨by rw [hs, ih1]; ring, by linarith⟩
  exact key.1

/-- The extra years of the data store, after data that end in 2100. -/
theorem extraYears_increasing : IncreasingFrom 2 ([2090, 2100] ++ extraYears) := by
  intro i hi hi'
  simp only [extraYears, List.cons_append, List.nil_append, List.length_cons, List.length_nil] at hi'
  obtain ⟨k, rfl⟩ : ∃ k, i = k + 1 := ⟨i - 1, by omega⟩
  have : k < 15 := by omega
  interval_cases k <;> norm_num [extraYears]

/-- A growing series 10, 12 (2090, 2100): the next values are 14, 15.6, … and 18 from 2150 on. -/
example : extrapolate [10, 12] [2090, 2100] extraYears =
    .ok ([10, 12] ++ [14, 78/5, 84/5, 88/5, 18, 18, 18, 18, 18, 18, 18, 18, 18, 18, 18]) := by decide +kernel

/-- When the data end before 2100 the continuation can be faster than the last growth rate (here twice as fast). -/
theorem C11_faster_before_2100 : ∃ values years out, extrapolate values years [2055] = .ok out ∧
    values.length = years.length ∧ IncreasingFrom years.length (years ++ [2055]) ∧
    |out.getD 2 0 - out.getD 1 0| > |lastRate values years| * 5 := by
  refine ⟨[0, 10], [2040, 2050], _, rfl, rfl, ?_, ?_⟩
  · intro i h1 h2
    simp only [List.length_cons, List.length_nil, List.cons_append, List.nil_append] at h1 h2
    obtain rfl : i = 1 := by omega
    norm_num
  · norm_num [extrapLoop, extrapChange, lastRate]

end Mimosa
