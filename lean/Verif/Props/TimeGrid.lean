import Verif.Data.DataStore
import Mathlib.Tactic.Linarith
import Mathlib.Tactic.FieldSimp
import Mathlib.Tactic.NormNum
import Mathlib.Tactic.Positivity
import Mathlib.Tactic.Ring

/-!
# C12: the model's time grid covers the requested period; C13: data at model years
-/

namespace Mimosa
variable {τ : TimeParams}

/-! ## C12 -/

theorem tf_eq (τ : TimeParams) : τ.tf = ⌈((τ.stop : ℚ) - τ.start) / τ.dt⌉ := by
  simp [TimeParams.tf, TimeParams.numYears]

/-- **C12.** The time steps are `0..tf`, the first one is the start year, consecutive steps are `dt` years apart,
and the last one is in `[end, end + dt)`. -/
theorem C12_time_grid (τ : TimeParams) (hdt : 0 < τ.dt) (hle : τ.start ≤ τ.stop) :
    0 ≤ τ.tf ∧ (∀ t : ℕ, t ∈ τ.steps ↔ (t : ℤ) ≤ τ.tf) ∧ τ.year 0 = τ.start ∧
    (∀ t : ℤ, τ.year (t + 1) = τ.year t + τ.dt) ∧
    (τ.stop : ℚ) ≤ τ.year τ.tf ∧ τ.year τ.tf < τ.stop + τ.dt := by
  have hle' : (τ.start : ℚ) ≤ τ.stop := by exact_mod_cast hle
  have hq : 0 ≤ ((τ.stop : ℚ) - τ.start) / τ.dt := div_nonneg (by linarith) hdt.le
  have htf : 0 ≤ τ.tf := by rw [tf_eq]; exact Int.ceil_nonneg hq
  have hn : τ.numYears = τ.tf + 1 := by simp [TimeParams.tf]
  refine ⟨htf, ?_, by simp [TimeParams.year], ?_, ?_, ?_⟩
  · intro t
    unfold TimeParams.steps
    rw [List.mem_range, hn]
    omega
  · intro t; simp only [TimeParams.year]; push_cast; ring
  · have h := Int.le_ceil (((τ.stop : ℚ) - τ.start) / τ.dt)
    rw [← tf_eq, div_le_iff₀ hdt] at h
    unfold TimeParams.year
    linarith
  · have h := Int.ceil_lt_add_one (((τ.stop : ℚ) - τ.start) / τ.dt)
    rw [← tf_eq, div_add_one hdt.ne', lt_div_iff₀ hdt] at h
    unfold TimeParams.year
    linarith

/-- **C12.** No shorter grid reaches the end year. -/
theorem C12_shortest (τ : TimeParams) (hdt : 0 < τ.dt) (t : ℤ) (h : (τ.stop : ℚ) ≤ τ.year t) : τ.tf ≤ t := by
  rw [tf_eq, Int.ceil_le, div_le_iff₀ hdt]
  unfold TimeParams.year at h
  linarith

/-- When `dt` divides the period, the last year is the end year. -/
theorem C12_exact (τ : TimeParams) (hdt : 0 < τ.dt) (n : ℤ) (hn : (τ.stop : ℚ) = τ.start + n * τ.dt) :
    τ.tf = n ∧ τ.year τ.tf = τ.stop := by
  have : τ.tf = n := by
    rw [tf_eq, hn]
    have : ((τ.start : ℚ) + n * τ.dt - τ.start) / τ.dt = n := by field_simp; ring
    rw [this, Int.ceil_intCast]
  exact ⟨this, by rw [this, hn]; rfl⟩

/-- **C12.** When the run starts by 2100, `year2100` is the last step whose year is not after 2100. -/
theorem C12_year2100 (τ : TimeParams) (hdt : 0 < τ.dt) (hs : τ.start ≤ 2100) :
    0 ≤ τ.year2100 ∧ ∀ t : ℤ, τ.year t ≤ 2100 ↔ t ≤ τ.year2100 := by
  have hs' : (τ.start : ℚ) ≤ 2100 := by exact_mod_cast hs
  have hq : 0 ≤ ((2100 : ℚ) - τ.start) / τ.dt := div_nonneg (by linarith) hdt.le
  have e : τ.year2100 = ⌊((2100 : ℚ) - τ.start) / τ.dt⌋ := by
    unfold TimeParams.year2100; rw [if_pos hq]
  rw [e]
  refine ⟨Int.floor_nonneg.2 hq, fun t => ?_⟩
  rw [Int.le_floor, le_div_iff₀ hdt]
  unfold TimeParams.year
  constructor <;> intro h <;> linarith

example : (⟨2020, 2150, 7⟩ : TimeParams).year2100 = 11 := by decide +kernel
example := C12_year2100 ⟨2020, 2150, 7⟩ (by norm_num) (by norm_num)
example : (⟨2020, 2150, 5⟩ : TimeParams).tf = 26 := by decide +kernel
example : (⟨2020, 2100, 7⟩ : TimeParams).tf = 12 ∧ (⟨2020, 2100, 7⟩ : TimeParams).year 12 = 2104 := by
  decide +kernel

/-! ## C13 -/

theorem arange_get (a b s : ℚ) (i : ℕ) (hi : (i : ℚ) < (b - a) / s) :
    (TimeParams.arange a b s)[i]? = some (a + i * s) := by
  unfold TimeParams.arange
  have : i < ⌈(b - a) / s⌉.toNat := by
    have : (i : ℤ) < ⌈(b - a) / s⌉ := Int.lt_ceil.2 (by exact_mod_cast hi)
    omega
  rw [List.getElem?_map, List.getElem?_range this]
  rfl

/-- Consecutive points are strictly increasing. -/
def PtsIncreasing : List (ℚ × ℚ) → Prop
  | a :: b :: l => a.1 < b.1 ∧ PtsIncreasing (b :: l)
  | _ => True

theorem PtsIncreasing.first_lt {a : ℚ × ℚ} : {l : List (ℚ × ℚ)} → PtsIncreasing (a :: l) → ∀ q ∈ l, a.1 < q.1
  | [], _, q, hq => by simp at hq
  | b :: l, h, q, hq => by
    rcases List.mem_cons.1 hq with rfl | hq
    · exact h.1
    · exact h.1.trans (h.2.first_lt q hq)

theorem interpFrom_node : (l : List (ℚ × ℚ)) → PtsIncreasing l → ∀ q ∈ l, interpFrom q.1 l = q.2
  | [], _, q, hq => by simp at hq
  | [a], _, q, hq => by
    rcases List.mem_singleton.1 hq with rfl
    rfl
  | a :: b :: l, h, q, hq => by
    unfold interpFrom
    rcases List.mem_cons.1 hq with rfl | hq
    · rw [if_pos h.1]; simp
    · rw [if_neg]
      · exact interpFrom_node (b :: l) h.2 q hq
      · rcases List.mem_cons.1 hq with rfl | hq
        · simp
        · exact not_lt.2 (h.2.first_lt q hq).le

/-- Linear interpolation at a node returns the value of that node. -/
theorem npInterp_node {l : List (ℚ × ℚ)} (h : PtsIncreasing l) {q : ℚ × ℚ} (hq : q ∈ l) :
    npInterp q.1 l = .ok q.2 := by
  cases l with
  | nil => simp at hq
  | cons a l =>
    unfold npInterp
    simp only [Except.ok.injEq]
    split
    · rename_i hle
      rcases List.mem_cons.1 hq with rfl | hq
      · rfl
      · exact absurd (h.first_lt q hq) (not_lt.2 hle)
    · exact interpFrom_node _ h q hq

variable {W : DataWorld}

theorem evalAll_ok {f : ℚ → Except Err ℚ} : {xs ys : List ℚ} → evalAll f xs = .ok ys →
    ys.length = xs.length ∧ ∀ (i : ℕ) x, xs[i]? = some x → ∃ y, ys[i]? = some y ∧ f x = .ok y
  | [], ys, h => by
    cases h; simp
  | x :: xs, ys, h => by
    unfold evalAll at h
    split at h
    · cases h
    · rename_i y hy
      split at h
      · cases h
      · rename_i ys' hys
        cases h
        obtain ⟨hl, hi⟩ := evalAll_ok hys
        refine ⟨by simp [hl], ?_⟩
        intro i x' hx'
        cases i with
        | zero => cases hx'; exact ⟨y, rfl, hy⟩
        | succ i => exact hi i x' hx'

theorem evalAll_fails {f : ℚ → Except Err ℚ} : {xs : List ℚ} → (∃ x ∈ xs, ∃ e, f x = .error e) →
    ∃ e, evalAll f xs = .error e
  | [], h => by simp at h
  | x :: xs, h => by
    unfold evalAll
    cases hx : f x with
    | error e => exact ⟨e, rfl⟩
    | ok y =>
      obtain ⟨x', hx', e, he⟩ := h
      rcases List.mem_cons.1 hx' with rfl | hx'
      · rw [hx] at he; cases he
      · obtain ⟨e', he'⟩ := evalAll_fails ⟨x', hx', e, he⟩
        exact ⟨e', by simp [he']⟩

theorem strLookup_mem {β : Type} {k : String} {v : β} : {d : List (String × β)} → strLookup k d = .ok v → (k, v) ∈ d
  | [], h => by cases h
  | (k', w) :: d, h => by
    unfold strLookup at h
    split at h
    · rename_i hk; cases h; simp [hk]
    · exact List.mem_cons_of_mem _ (strLookup_mem h)

theorem strLookup_of_mem {β : Type} {k : String} : {d : List (String × β)} → k ∈ d.map (·.1) →
    ∃ v, strLookup k d = .ok v
  | [], h => by simp at h
  | (k', w) :: d, h => by
    unfold strLookup
    split
    · exact ⟨w, rfl⟩
    · rename_i hk
      rw [List.map_cons, List.mem_cons] at h
      rcases h with rfl | h
      · exact absurd rfl hk
      · exact strLookup_of_mem h

theorem arange_increasing (a b s : ℚ) (hs : 0 < s) (ys : List ℚ) :
    PtsIncreasing ((TimeParams.arange a b s).zip ys) := by
  unfold TimeParams.arange
  generalize ⌈(b - a) / s⌉.toNat = n
  have : ∀ (l : List ℕ) (ys : List ℚ), l.Pairwise (· < ·) →
      PtsIncreasing ((l.map fun i : ℕ => a + i * s).zip ys) := by
    intro l
    induction l with
    | nil => intro ys _; simp [PtsIncreasing]
    | cons i l ih =>
      intro ys hp
      cases ys with
      | nil => simp [PtsIncreasing]
      | cons y ys =>
        cases l with
        | nil => simp [PtsIncreasing]
        | cons j l =>
          cases ys with
          | nil => simp [PtsIncreasing]
          | cons y' ys =>
            rw [List.pairwise_cons] at hp
            have hij : (i : ℚ) < j := by exact_mod_cast hp.1 j (by simp)
            have := ih (y' :: ys) hp.2
            simp only [List.map_cons, List.zip_cons_cons, PtsIncreasing] at this ⊢
            exact ⟨by nlinarith, this⟩
  exact this _ _ List.pairwise_lt_range

end Mimosa
