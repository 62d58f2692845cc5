import Verif.Props.Calibration
import Verif.Props.Effort
import Verif.Props.Trade
import Verif.Props.EndToEnd

/-!
# C82: what the saved file shows obeys the limits and the effort-sharing regime

MIMOSA's own model tests (/repo/tests/modeltests) run the optimiser once and then check the numbers that were written
to the CSV file: cumulative emissions are at most the carbon budget, the relative standard deviation of the cost shares
is below 1 %, the per-capita allowances have hardly any spread. The numbers in the file are rounded to six digits
(`C47`), so that these checks do not follow from the equations alone. Here they are proved for the printed numbers of
every solution of every instance.
-/

namespace Mimosa

/-! ## Specification -/

/-- A decimal number with at most six significant digits. -/
def Spec.SixDigits (q : ℚ) : Prop := ∃ k n : ℤ, |k| < 10 ^ 6 ∧ q = k * 10 ^ n

/-- The number in the saved file for a variable, region and column (`output.loc[name, region].iloc[t]`). -/
def Spec.cell (f : SavedFile) (name region : String) (t : ℕ) : ℚ :=
  match f.rows.find? fun row => row.variableName = name ∧ row.region = region with
  | some row => row.cells.getD t 0
  | none => 0

/-- The arithmetic mean (pandas' `mean`). -/
noncomputable def Spec.mean (l : List ℝ) : ℝ := l.sum / l.length
/-- The sample standard deviation (pandas' `std`, which divides by one less than the number of values). -/
noncomputable def Spec.std (l : List ℝ) : ℝ := √((l.map fun x => (x - Spec.mean l) ^ 2).sum / (l.length - 1))

variable {md : Modules} {m : AbstractModel} {p : Params} {σ : Env} {units : String → Option (List Char)} {count : ℕ → ℕ}

/-! ## Printing -/

theorem ten_pow_pos (n : ℤ) : (0 : ℝ) < (10 : ℝ) ^ n := zpow_pos (by norm_num) _

theorem scaled_ge {x : ℝ} (hx : x ≠ 0) : 10 ^ 5 ≤ |x / (10 : ℝ) ^ lastDigit x| := by
  rw [abs_div, abs_of_pos (ten_pow_pos _), le_div_iff₀ (ten_pow_pos _)]
  have := Int.zpow_log_le_self (b := 10) (by norm_num) (abs_pos.2 hx)
  have e : (10 : ℝ) ^ 5 * 10 ^ lastDigit x = (10 : ℝ) ^ Int.log 10 |x| := by
    unfold lastDigit
    rw [← zpow_natCast, ← zpow_add₀ (by norm_num)]
    congr 1; push_cast; ring
  rw [e]
  exact_mod_cast this

theorem scaled_lt {x : ℝ} : |x / (10 : ℝ) ^ lastDigit x| < 10 ^ 6 := by
  rw [abs_div, abs_of_pos (ten_pow_pos _), div_lt_iff₀ (ten_pow_pos _)]
  have := Int.lt_zpow_succ_log_self (b := 10) (by norm_num) |x|
  have e : (10 : ℝ) ^ 6 * 10 ^ lastDigit x = (10 : ℝ) ^ (Int.log 10 |x| + 1) := by
    unfold lastDigit
    rw [← zpow_natCast, ← zpow_add₀ (by norm_num)]
    congr 1; push_cast; ring
  rw [e]
  exact_mod_cast this

/-- Printed digits of a positive number: between 100000 and 1000000. -/
theorem digits_pos {x : ℝ} (hx : 0 < x) : 10 ^ 5 ≤ roundHalfEven (x / (10 : ℝ) ^ lastDigit x) ∧
    roundHalfEven (x / (10 : ℝ) ^ lastDigit x) ≤ 10 ^ 6 := by
  have h1 := scaled_ge hx.ne'
  have h2 := scaled_lt (x := x)
  rw [abs_of_pos (div_pos hx (ten_pow_pos _))] at h1 h2
  constructor
  · have := roundHalfEven_mono (x := ((10 ^ 5 : ℤ) : ℝ)) (y := x / (10 : ℝ) ^ lastDigit x) (by push_cast; linarith)
    rwa [roundHalfEven_int] at this
  · have := roundHalfEven_mono (x := x / (10 : ℝ) ^ lastDigit x) (y := ((10 ^ 6 : ℤ) : ℝ)) (by push_cast; linarith)
    rwa [roundHalfEven_int] at this

theorem digits_neg {x : ℝ} (hx : x < 0) : -10 ^ 6 ≤ roundHalfEven (x / (10 : ℝ) ^ lastDigit x) ∧
    roundHalfEven (x / (10 : ℝ) ^ lastDigit x) ≤ -10 ^ 5 := by
  have h1 := scaled_ge hx.ne
  have h2 := scaled_lt (x := x)
  rw [abs_of_neg (div_neg_of_neg_of_pos hx (ten_pow_pos _))] at h1 h2
  constructor
  · have := roundHalfEven_mono (x := ((-10 ^ 6 : ℤ) : ℝ)) (by push_cast; linarith)
    rwa [roundHalfEven_int] at this
  · have := roundHalfEven_mono (y := ((-10 ^ 5 : ℤ) : ℝ)) (by push_cast; linarith)
    rwa [roundHalfEven_int] at this

theorem lastDigit_mono {x y : ℝ} (hx : x ≠ 0) (h : |x| ≤ |y|) : lastDigit x ≤ lastDigit y := by
  unfold lastDigit
  have := Int.log_mono_right (b := 10) (abs_pos.2 hx) h
  omega

theorem pow_step {a b : ℤ} (h : a < b) : (10 : ℝ) ^ 6 * 10 ^ a ≤ 10 ^ 5 * 10 ^ b := by
  have : (10 : ℝ) ^ (a + 1) ≤ 10 ^ b := zpow_le_zpow_right₀ (by norm_num) (by omega)
  rw [zpow_add₀ (by norm_num)] at this
  norm_num at this ⊢
  linarith

/-- **C82.** Rounding in the file never reverses an order: of two values the smaller one is not printed as the larger
number. -/
theorem C82_order {x y : ℝ} (h : x ≤ y) : print6g x ≤ print6g y := by
  rcases lt_trichotomy x 0 with hx | rfl | hx
  · rcases lt_or_ge y 0 with hy | hy
    · have hl : lastDigit y ≤ lastDigit x := lastDigit_mono hy.ne (by rw [abs_of_neg hx, abs_of_neg hy]; linarith)
      have key : (print6g x : ℝ) ≤ print6g y := by
        rw [print6g_cast hx.ne, print6g_cast hy.ne]
        rcases hl.eq_or_lt with e | hlt
        · rw [e]
          have : roundHalfEven (x / (10 : ℝ) ^ lastDigit x) ≤ roundHalfEven (y / (10 : ℝ) ^ lastDigit x) :=
            roundHalfEven_mono (div_le_div_of_nonneg_right h (ten_pow_pos _).le)
          exact mul_le_mul_of_nonneg_right (by exact_mod_cast this) (ten_pow_pos _).le
        · have h1 : ((roundHalfEven (x / (10 : ℝ) ^ lastDigit x) : ℤ) : ℝ) ≤ -10 ^ 5 := by exact_mod_cast (digits_neg hx).2
          have h2 : (-10 ^ 6 : ℝ) ≤ ((roundHalfEven (y / (10 : ℝ) ^ lastDigit y) : ℤ) : ℝ) := by
            exact_mod_cast (digits_neg hy).1
          have h3 := pow_step hlt
          have h4 := mul_le_mul_of_nonneg_right h1 (ten_pow_pos (lastDigit x)).le
          have h5 := mul_le_mul_of_nonneg_right h2 (ten_pow_pos (lastDigit y)).le
          linarith
      exact_mod_cast key
    · have h1 := (C47_sign x).2.1 hx
      rcases hy.eq_or_lt with rfl | hy
      · rw [print6g_zero]; exact h1.le
      · exact (h1.trans ((C47_sign y).1 hy)).le
  · rw [print6g_zero]
    rcases h.eq_or_lt with rfl | hy
    · rw [print6g_zero]
    · exact ((C47_sign y).1 hy).le
  · have hy := hx.trans_le h
    have hl : lastDigit x ≤ lastDigit y := lastDigit_mono hx.ne' (by rw [abs_of_pos hx, abs_of_pos hy]; exact h)
    have key : (print6g x : ℝ) ≤ print6g y := by
      rw [print6g_cast hx.ne', print6g_cast hy.ne']
      rcases hl.eq_or_lt with e | hlt
      · rw [← e]
        have : roundHalfEven (x / (10 : ℝ) ^ lastDigit x) ≤ roundHalfEven (y / (10 : ℝ) ^ lastDigit x) :=
          roundHalfEven_mono (div_le_div_of_nonneg_right h (ten_pow_pos _).le)
        exact mul_le_mul_of_nonneg_right (by exact_mod_cast this) (ten_pow_pos _).le
      · have h1 : ((roundHalfEven (x / (10 : ℝ) ^ lastDigit x) : ℤ) : ℝ) ≤ 10 ^ 6 := by exact_mod_cast (digits_pos hx).2
        have h2 : (10 ^ 5 : ℝ) ≤ ((roundHalfEven (y / (10 : ℝ) ^ lastDigit y) : ℤ) : ℝ) := by
          exact_mod_cast (digits_pos hy).1
        have h3 := pow_step hlt
        have h4 := mul_le_mul_of_nonneg_right h1 (ten_pow_pos (lastDigit x)).le
        have h5 := mul_le_mul_of_nonneg_right h2 (ten_pow_pos (lastDigit y)).le
        linarith
    exact_mod_cast key

/-- **C82.** A number that has at most six significant digits is printed as it is. -/
theorem C82_exact {q : ℚ} (h : Spec.SixDigits q) : print6g q = q := by
  obtain ⟨k, n, hk, rfl⟩ := h
  by_cases h0 : k = 0
  · subst h0; simp [print6g_zero]
  have hx : (((k : ℚ) * 10 ^ n : ℚ) : ℝ) ≠ 0 := by
    push_cast
    exact mul_ne_zero (by exact_mod_cast h0) (ten_pow_pos n).ne'
  set x : ℝ := (((k : ℚ) * 10 ^ n : ℚ) : ℝ) with hxe
  have hxe' : x = k * 10 ^ n := by rw [hxe]; push_cast; rfl
  have hl : lastDigit x ≤ n := by
    by_contra hlt
    rw [not_le] at hlt
    have h1 := scaled_ge hx
    rw [abs_div, abs_of_pos (ten_pow_pos _), le_div_iff₀ (ten_pow_pos _)] at h1
    have h2 := pow_step hlt
    have h3 : |x| < 10 ^ 6 * 10 ^ n := by
      rw [hxe', abs_mul, abs_of_pos (ten_pow_pos n)]
      refine mul_lt_mul_of_pos_right ?_ (ten_pow_pos n)
      exact_mod_cast hk
    linarith
  have hint : x / (10 : ℝ) ^ lastDigit x = ((k * 10 ^ (n - lastDigit x).toNat : ℤ) : ℝ) := by
    generalize lastDigit x = l at hl
    rw [div_eq_iff (ten_pow_pos _).ne', hxe']
    push_cast
    have hn : ((n - l).toNat : ℤ) + l = n := by omega
    rw [mul_assoc, ← zpow_natCast, ← zpow_add₀ (by norm_num), hn]
  have : ((print6g x : ℚ) : ℝ) = (((k : ℚ) * 10 ^ n : ℚ) : ℝ) := by
    rw [print6g_cast hx, hint, roundHalfEven_int, ← hint, div_mul_cancel₀ _ (ten_pow_pos _).ne']
  exact Rat.cast_injective this

/-- **C82.** Every printed number has at most six significant digits. -/
theorem C82_six_digits (x : ℝ) : Spec.SixDigits (print6g x) := by
  rcases lt_trichotomy x 0 with hx | rfl | hx
  · obtain ⟨h1, h2⟩ := digits_neg hx
    unfold print6g
    rw [if_neg hx.ne]
    rcases h1.eq_or_lt with e | h1
    · refine ⟨-1, lastDigit x + 6, by norm_num, ?_⟩
      rw [← e, zpow_add₀ (by norm_num)]
      push_cast; norm_num; ring
    · exact ⟨_, _, by rw [abs_of_neg (by omega)]; omega, rfl⟩
  · exact ⟨0, 0, by norm_num, by simp [print6g_zero]⟩
  · obtain ⟨h1, h2⟩ := digits_pos hx
    unfold print6g
    rw [if_neg hx.ne']
    rcases h2.eq_or_lt with e | h2
    · refine ⟨1, lastDigit x + 6, by norm_num, ?_⟩
      rw [e, zpow_add₀ (by norm_num)]
      push_cast; norm_num; ring
    · exact ⟨_, _, by rw [abs_of_pos (by omega)]; omega, rfl⟩


/-! ## The limits hold for the numbers in the file -/

/-- An upper limit with at most six digits also holds for the printed number. -/
theorem print_le {x : ℝ} {q : ℚ} (hq : Spec.SixDigits q) (h : x ≤ q) : print6g x ≤ q := by
  have := C82_order h
  rwa [C82_exact hq] at this

theorem le_print {x : ℝ} {q : ℚ} (hq : Spec.SixDigits q) (h : (q : ℝ) ≤ x) : q ≤ print6g x := by
  have := C82_order h
  rwa [C82_exact hq] at this

/-- What stands in the row of that name and region. -/
theorem cell_of_row (hc : StrictMono count) (hb : buildModel count md = .ok m) (hn : p.regions.Nodup) {name r : String}
    {f : ℕ → ℝ} (h : Spec.HasRow p (saveOutput m p units σ).rows name r f) {t : ℕ} (ht : t ≤ p.tf) :
    Spec.cell (saveOutput m p units σ) name r t = print6g (f t) := by
  obtain ⟨row, hrow, hname, hreg, -, hcells⟩ := h
  unfold Spec.cell
  cases hf : (saveOutput m p units σ).rows.find? fun row => row.variableName = name ∧ row.region = r with
  | none =>
    have := List.find?_eq_none.1 hf row hrow
    simp [hname, hreg] at this
  | some row' =>
    have h1 := List.find?_some hf
    have h2 := List.mem_of_find?_eq_some hf
    simp only [decide_eq_true_eq] at h1
    have : row' = row := List.inj_on_of_nodup_map (C47_unique (units := units) (σ := σ) hc hb hn) h2 hrow
      (by simp [h1.1, h1.2, hname, hreg])
    subst this
    simp [List.getD, hcells t ht]

theorem cellR (hc : StrictMono count) (hb : buildModel count md = .ok m) (hn : p.regions.Nodup) {v : RVar}
    (hv : md.declaresR v = true) {r : String} (hr : r ∈ p.regions) {t : ℕ} (ht : t ≤ p.tf) :
    Spec.cell (saveOutput m p units σ) v.name r t = print6g (σ.R v t r) :=
  cell_of_row (f := fun t => σ.R v t r) hc hb hn (C47_regional_row hb hv hr) ht

theorem cellG (hc : StrictMono count) (hb : buildModel count md = .ok m) (hn : p.regions.Nodup) {v : GVar}
    (hv : md.declaresG v = true) {t : ℕ} (ht : t ≤ p.tf) :
    Spec.cell (saveOutput m p units σ) v.name "Global" t = print6g (σ.G v t) :=
  cell_of_row (f := fun t => σ.G v t) hc hb hn (C47_global_row hb hv) ht

/-- **C82.** The cumulative emissions in the saved file are at most the carbon budget in every column from 2100 on
(test_carbonbudgetrun, test_multipleruns). -/
theorem C82_budget (hc : StrictMono count) (hb : buildModel count md = .ok m) (hn : p.regions.Nodup)
    (h : Solution md p σ) {b : ℚ} (hbud : p.budget = some (b : ℝ)) (h6 : Spec.SixDigits b) {t : ℕ} (ht : t ≤ p.tf)
    (hy : 2100 ≤ p.beginyear + t * p.dt) :
    Spec.cell (saveOutput m p units σ) "cumulative_emissions" "Global" t ≤ b := by
  rw [show "cumulative_emissions" = GVar.cumulative_emissions.name from rfl, cellG hc hb hn rfl ht]
  exact print_le h6 (C26_budget h hbud ht hy)

/-- **C82.** The temperature in the saved file is at most the target in every column from 2100 on. -/
theorem C82_temperature_target (hc : StrictMono count) (hb : buildModel count md = .ok m) (hn : p.regions.Nodup)
    (h : Solution md p σ) {T : ℚ} (hT : p.temperature_target = some (T : ℝ)) (h6 : Spec.SixDigits T) {t : ℕ}
    (ht : t ≤ p.tf) (hy : 2100 ≤ p.beginyear + t * p.dt) :
    Spec.cell (saveOutput m p units σ) "temperature" "Global" t ≤ T := by
  rw [show "temperature" = GVar.temperature.name from rfl, cellG hc hb hn rfl ht]
  exact print_le h6 (C25_target h hT ht hy)

/-- **C82.** No emissions in the saved file lie below the minimum levels. -/
theorem C82_minimum_levels (hc : StrictMono count) (hb : buildModel count md = .ok m) (hn : p.regions.Nodup)
    (h : Solution md p σ) {l : ℚ} (h6 : Spec.SixDigits l) {t : ℕ} (ht : t ≤ p.tf) :
    (p.global_min_level = some (l : ℝ) → l ≤ Spec.cell (saveOutput m p units σ) "global_emissions" "Global" t) ∧
    (p.regional_min_level = some (l : ℝ) → ∀ r ∈ p.regions,
      l ≤ Spec.cell (saveOutput m p units σ) "regional_emissions" r t) := by
  constructor
  · intro hl
    rw [show "global_emissions" = GVar.global_emissions.name from rfl, cellG hc hb hn rfl ht]
    exact le_print h6 (C28_global_min h hl ht)
  · intro hl r hr
    rw [show "regional_emissions" = RVar.regional_emissions.name from rfl, cellR hc hb hn rfl hr ht]
    exact le_print h6 (C28_regional_min h hl ht hr)

/-- **C82.** The relative abatement in the saved file lies between 0 and 2.5. -/
theorem C82_abatement (hc : StrictMono count) (hb : buildModel count md = .ok m) (hn : p.regions.Nodup)
    (h : Solution md p σ) {t : ℕ} (ht : t ≤ p.tf) {r : String} (hr : r ∈ p.regions) :
    0 ≤ Spec.cell (saveOutput m p units σ) "relative_abatement" r t ∧
    Spec.cell (saveOutput m p units σ) "relative_abatement" r t ≤ 2.5 := by
  rw [show "relative_abatement" = RVar.relative_abatement.name from rfl, cellR hc hb hn rfl hr ht]
  have hb := C28_abatement_bounds h ht hr
  exact ⟨le_print ⟨0, 0, by norm_num, by norm_num⟩ (by simpa using hb.1),
    print_le ⟨25, -1, by norm_num, by norm_num⟩ (by push_cast; linarith [hb.2])⟩

/-! ## Statistics of the printed numbers -/

theorem sum_sq_shift (l : List ℝ) (a c : ℝ) : (l.map fun x => (x - c) ^ 2).sum =
    (l.map fun x => (x - a) ^ 2).sum + 2 * (a - c) * (l.sum - l.length * a) + l.length * (a - c) ^ 2 := by
  induction l with
  | nil => simp
  | cons x l ih =>
    simp only [List.map_cons, List.sum_cons, List.length_cons, ih]
    push_cast
    ring

theorem sum_sq_le {l : List ℝ} {c d : ℝ} (h : ∀ x ∈ l, |x - c| ≤ d) :
    (l.map fun x => (x - c) ^ 2).sum ≤ l.length * d ^ 2 := by
  induction l with
  | nil => simp
  | cons x l ih =>
    simp only [List.map_cons, List.sum_cons, List.length_cons]
    have h1 := ih fun y hy => h y (List.mem_cons_of_mem _ hy)
    have h2 : (x - c) ^ 2 ≤ d ^ 2 := sq_le_sq' (abs_le.1 (h x List.mem_cons_self)).1 (abs_le.1 (h x List.mem_cons_self)).2
    push_cast
    linarith

theorem sum_near {l : List ℝ} {c d : ℝ} (h : ∀ x ∈ l, |x - c| ≤ d) : |l.sum - l.length * c| ≤ l.length * d := by
  induction l with
  | nil => simp
  | cons x l ih =>
    have h1 := abs_le.1 (ih fun y hy => h y (List.mem_cons_of_mem _ hy))
    have h2 := abs_le.1 (h x List.mem_cons_self)
    simp only [List.sum_cons, List.length_cons]
    push_cast
    rw [abs_le]
    constructor <;> linarith [h1.1, h1.2, h2.1, h2.2]

theorem mean_near {l : List ℝ} (hl : 0 < l.length) {c d : ℝ} (h : ∀ x ∈ l, |x - c| ≤ d) : |Spec.mean l - c| ≤ d := by
  have hpos : (0 : ℝ) < l.length := by exact_mod_cast hl
  have := sum_near h
  have e : Spec.mean l - c = (l.sum - l.length * c) / l.length := by
    unfold Spec.mean; field_simp
  rw [e, abs_div, abs_of_pos hpos, div_le_iff₀ hpos]
  linarith

theorem std_le {l : List ℝ} (hl : 2 ≤ l.length) {c d : ℝ} (h : ∀ x ∈ l, |x - c| ≤ d) : Spec.std l ≤ 1.415 * d := by
  have hn : (2 : ℝ) ≤ l.length := by exact_mod_cast hl
  have hd : 0 ≤ d := by
    obtain ⟨x, l', rfl⟩ := List.exists_cons_of_length_pos (by omega : 0 < l.length)
    exact (abs_nonneg _).trans (h x List.mem_cons_self)
  unfold Spec.std
  apply Real.sqrt_le_iff.2
  refine ⟨by positivity, ?_⟩
  rw [div_le_iff₀ (by linarith)]
  have e := sum_sq_shift l (Spec.mean l) c
  have h0 : l.sum - l.length * Spec.mean l = 0 := by
    unfold Spec.mean
    field_simp
    ring
  rw [h0] at e
  have h1 := sum_sq_le h
  have h2 : 0 ≤ (l.length : ℝ) * (Spec.mean l - c) ^ 2 := by positivity
  have h3 : (l.length : ℝ) * d ^ 2 ≤ (1.415 * d) ^ 2 * (l.length - 1) := by
    have : (l.length : ℝ) ≤ 2 * (l.length - 1) := by linarith
    nlinarith [mul_le_mul_of_nonneg_right this (sq_nonneg d), mul_nonneg (sq_nonneg d) (by linarith : (0:ℝ) ≤ l.length - 1)]
  linarith

/-- The spread of numbers that are close to a common level. -/
theorem spread {l : List ℝ} (hl : 2 ≤ l.length) {L e : ℝ} (h : ∀ x ∈ l, |x - L| ≤ 0.005 * L + e) :
    Spec.std l ≤ 0.0072 * Spec.mean l + 1.44 * e := by
  have h1 := std_le hl h
  have h2 := abs_le.1 (mean_near (by omega) h)
  have he : 0 ≤ 0.005 * L + e := by
    obtain ⟨x, l', rfl⟩ := List.exists_cons_of_length_pos (by omega : 0 < l.length)
    exact (abs_nonneg _).trans (h x List.mem_cons_self)
  nlinarith [h2.1, h2.2]

/-- The numbers of a variable in the saved file, over the regions. -/
noncomputable def Spec.column (f : SavedFile) (p : Params) (name : String) (t : ℕ) : List ℝ :=
  p.regions.map fun r => ((Spec.cell f name r t : ℚ) : ℝ)


theorem mem_column {f : SavedFile} {p : Params} {name : String} {t : ℕ} {x : ℝ} :
    x ∈ Spec.column f p name t ↔ ∃ r ∈ p.regions, ((Spec.cell f name r t : ℚ) : ℝ) = x := by
  simp [Spec.column]

/-- **C82.** With equal mitigation costs: the relative standard deviation of the relative mitigation costs in the saved
file is below 1 % in every column (test_equal_mitigation_costs). -/
theorem C82_equal_mitigation_costs (hc : StrictMono count) (hb : buildModel count md = .ok m) (hn : p.regions.Nodup)
    (h : Solution md p σ) (hg : p.effort_sharing_regime = "equal_mitigation_costs") (h2 : 2 ≤ p.regions.length)
    {t : ℕ} (ht : t ≤ p.tf) :
    let costs := Spec.column (saveOutput m p units σ) p "rel_mitigation_costs" t
    Spec.std costs ≤ 0.01 * Spec.mean costs ∧ (0 < Spec.mean costs → Spec.std costs / Spec.mean costs < 0.01) := by
  intro costs
  set L := σ.G .effort_sharing_common_level t
  have hlen : 2 ≤ costs.length := by simpa [costs, Spec.column] using h2
  have key : ∀ x ∈ costs, |x - L| ≤ 0.005 * L + 0.00000503 * L := by
    intro x hx
    obtain ⟨r, hr, rfl⟩ := mem_column.1 hx
    rw [show "rel_mitigation_costs" = RVar.rel_mitigation_costs.name from rfl, cellR hc hb hn rfl hr ht]
    have a := h.eqs.effort.mitigation t ht r hr hg
    have b := abs_le.1 (C47_accuracy (σ.R .rel_mitigation_costs t r))
    have h0 : 0 ≤ σ.R .rel_mitigation_costs t r :=
      (C42_equal_mitigation_costs h hg ht hr hr).1
    rw [abs_of_nonneg h0] at b
    rw [abs_le]
    constructor <;> linarith [a.1, a.2, b.1, b.2]
  have hs := spread hlen key
  have hm := abs_le.1 (mean_near (by omega) key)
  refine ⟨by nlinarith [hm.1, hm.2], fun hp => ?_⟩
  rw [div_lt_iff₀ hp]
  nlinarith [hm.1, hm.2]

/-- The relative transfer a region pays, zero without the transfer module. -/
noncomputable def Spec.transfer (md : Modules) (σ : Env) (t : ℕ) (r : String) : ℝ :=
  match md.transfer with
  | .notransfer => 0
  | .globaldamagepool => σ.R .rel_financial_transfer t r

theorem total_near (hc : StrictMono count) (hb : buildModel count md = .ok m) (hn : p.regions.Nodup)
    (h : Solution md p σ) (hg : p.effort_sharing_regime = "equal_total_costs")
    {t : ℕ} (ht : t ≤ p.tf) (hy : p.year t ≤ 2100) {K : ℝ}
    (hK : ∀ r ∈ p.regions, |σ.R .rel_mitigation_costs t r| + |σ.R .damage_costs t r| +
      |Spec.transfer md σ t r| ≤ K) :
    ∀ x ∈ p.regions.map fun r => ((Spec.cell (saveOutput m p units σ) "rel_mitigation_costs" r t : ℚ) : ℝ) +
      ((Spec.cell (saveOutput m p units σ) "damage_costs" r t : ℚ) : ℝ) +
      ((Spec.cell (saveOutput m p units σ) "rel_financial_transfer" r t : ℚ) : ℝ),
    |x - σ.G .effort_sharing_common_level t| ≤ 0.005 * σ.G .effort_sharing_common_level t + 0.000005 * K := by
  set file := saveOutput m p units σ
  set L := σ.G .effort_sharing_common_level t
  intro x hx
  obtain ⟨r, hr, rfl⟩ := List.mem_map.1 hx
  have e1 : Spec.cell file "rel_mitigation_costs" r t = print6g (σ.R .rel_mitigation_costs t r) :=
    cellR (v := .rel_mitigation_costs) hc hb hn rfl hr ht
  have e2 : Spec.cell file "damage_costs" r t = print6g (σ.R .damage_costs t r) :=
    cellR (v := .damage_costs) hc hb hn rfl hr ht
  have e3 : Spec.cell file "rel_financial_transfer" r t = print6g (relTransferVal σ md.transfer t r) := by
    cases hf : md.transfer with
    | notransfer => exact cell_of_row hc hb hn ((C47_computed_rows hb hr).2.2.2.2.2.2 hf).2 ht
    | globaldamagepool =>
      exact cellR (v := .rel_financial_transfer) hc hb hn (by simp [Modules.declaresR, hf]) hr ht
  have a := h.eqs.effort.total t ht r hr hg hy
  have k := hK r hr
  have k' : Spec.transfer md σ t r = relTransferVal σ md.transfer t r := by
    unfold Spec.transfer relTransferVal; cases md.transfer <;> rfl
  rw [k'] at k
  rw [e1, e2, e3]
  have b1 := abs_le.1 (C47_accuracy (σ.R .rel_mitigation_costs t r))
  have b2 := abs_le.1 (C47_accuracy (σ.R .damage_costs t r))
  have b3 := abs_le.1 (C47_accuracy (relTransferVal σ md.transfer t r))
  rw [abs_le]
  constructor <;> linarith [a.1, a.2, b1.1, b1.2, b2.1, b2.2, b3.1, b3.2]

/-- **C82.** With equal total costs: the sums of the three printed cost shares have a standard deviation of at most
0.72 % of their mean, in every column up to 2100, apart from the rounding of the single shares (which may be large and
of opposite sign). -/
theorem C82_equal_total_costs (hc : StrictMono count) (hb : buildModel count md = .ok m) (hn : p.regions.Nodup)
    (h : Solution md p σ) (hg : p.effort_sharing_regime = "equal_total_costs") (h2 : 2 ≤ p.regions.length)
    {t : ℕ} (ht : t ≤ p.tf) (hy : p.year t ≤ 2100) {K : ℝ}
    (hK : ∀ r ∈ p.regions, |σ.R .rel_mitigation_costs t r| + |σ.R .damage_costs t r| +
      |Spec.transfer md σ t r| ≤ K) :
    let file := saveOutput m p units σ
    let costs := p.regions.map fun r => ((Spec.cell file "rel_mitigation_costs" r t : ℚ) : ℝ) +
      ((Spec.cell file "damage_costs" r t : ℚ) : ℝ) + ((Spec.cell file "rel_financial_transfer" r t : ℚ) : ℝ)
    Spec.std costs ≤ 0.0072 * Spec.mean costs + 0.0000072 * K := by
  intro file costs
  have hlen : 2 ≤ costs.length := by simpa [costs] using h2
  have hs := spread hlen (total_near hc hb hn h hg ht hy hK (units := units))
  linarith

/-- **C82.** The test of the code (test_equal_total_costs): the relative standard deviation is below 1 % if the shares
of each region add up, without their signs, to at most 300 times their sum. -/
theorem C82_equal_total_costs_relative (hc : StrictMono count) (hb : buildModel count md = .ok m)
    (hn : p.regions.Nodup) (h : Solution md p σ) (hg : p.effort_sharing_regime = "equal_total_costs")
    (h2 : 2 ≤ p.regions.length) {t : ℕ} (ht : t ≤ p.tf) (hy : p.year t ≤ 2100)
    (hK : ∀ r ∈ p.regions, |σ.R .rel_mitigation_costs t r| + |σ.R .damage_costs t r| +
      |Spec.transfer md σ t r| ≤ 300 * Spec.totalCosts md σ t r) :
    let file := saveOutput m p units σ
    let costs := p.regions.map fun r => ((Spec.cell file "rel_mitigation_costs" r t : ℚ) : ℝ) +
      ((Spec.cell file "damage_costs" r t : ℚ) : ℝ) + ((Spec.cell file "rel_financial_transfer" r t : ℚ) : ℝ)
    Spec.std costs ≤ 0.01 * Spec.mean costs ∧ (0 < Spec.mean costs → Spec.std costs / Spec.mean costs < 0.01) := by
  intro file costs
  set L := σ.G .effort_sharing_common_level t
  have hlen : 2 ≤ costs.length := by simpa [costs] using h2
  have e : ∀ r, Spec.totalCosts md σ t r = σ.R .rel_mitigation_costs t r + σ.R .damage_costs t r +
      relTransferVal σ md.transfer t r := by
    intro r; unfold Spec.totalCosts relTransferVal; cases md.transfer <;> rfl
  have hL : ∀ r ∈ p.regions, |σ.R .rel_mitigation_costs t r| + |σ.R .damage_costs t r| +
      |Spec.transfer md σ t r| ≤ 301.5 * L := by
    intro r hr
    have a := h.eqs.effort.total t ht r hr hg hy
    have k := hK r hr
    rw [e] at k
    linarith [a.1]
  have key := total_near hc hb hn h hg ht hy hL (units := units)
  have hs := spread hlen key
  have hm := abs_le.1 (mean_near (l := costs) (by omega) key)
  have hL0 : 0 ≤ L := by
    obtain ⟨r, hr⟩ := List.exists_mem_of_length_pos (by omega : 0 < p.regions.length)
    have := hL r hr
    have h1 := abs_nonneg (σ.R .rel_mitigation_costs t r)
    have h2 := abs_nonneg (σ.R .damage_costs t r)
    have h3 := abs_nonneg (Spec.transfer md σ t r)
    linarith
  refine ⟨by linarith [hm.1, hm.2], fun hp => ?_⟩
  rw [div_lt_iff₀ hp]
  linarith [hm.1, hm.2]

/-- **C82.** With per-capita convergence: from the convergence year on the allowances per head in the saved file have
nearly the same value in all regions. `small` is the population of the smallest region, in billions; the test of the
code (test_per_cap_convergence) asks for a standard deviation below 0.05, which this gives for 40 million people and up
to 600 tonnes per head. -/
theorem C82_per_capita (hc : StrictMono count) (hb : buildModel count md = .ok m) (hn : p.regions.Nodup)
    (h : Solution md p σ) (hg : p.effort_sharing_regime = "per_cap_convergence") (htr : md.trade = .emissiontrade)
    {c : ℝ} (hy : p.percapconv_year = some c) (hy0 : p.year 0 < c) (h2 : 2 ≤ p.regions.length)
    {t : ℕ} (ht : t ≤ p.tf) (h0 : 0 < t) (hyt : c ≤ p.year t) {small : ℝ} (hs : 0 < small)
    (hpop : ∀ r ∈ p.regions, small ≤ p.population t r) :
    let file := saveOutput m p units σ
    Spec.std (p.regions.map fun r => ((Spec.cell file "regional_emission_allowances" r t : ℚ) : ℝ) /
      ((Spec.cell file "population" r t : ℚ) : ℝ)) ≤
      0.0015 / small + 0.00002 * |σ.G .global_emissions t / (p.regions.map fun r => p.population t r).sum| := by
  intro file
  set P := (p.regions.map fun r => p.population t r).sum with hP
  set g := σ.G .global_emissions t / P with hgdef
  refine (std_le (c := g) (d := 0.00101 / small + 0.000011 * |g|) (by simpa using h2) ?_).trans ?_
  · intro x hx
    obtain ⟨r, hr, rfl⟩ := List.mem_map.1 hx
    have e1 : Spec.cell file "regional_emission_allowances" r t = print6g (σ.R .regional_emission_allowances t r) :=
      cellR (v := .regional_emission_allowances) hc hb hn (by simp [Modules.declaresR, htr]) hr ht
    have e2 : Spec.cell file "population" r t = print6g (p.population t r) :=
      cell_of_row (f := fun t => p.population t r) hc hb hn (C47_data_rows hb hr).1 ht
    rw [e1, e2]
    have ha := C43_allowances h hg ht h0 hr
    rw [((C43_interpolation hy hy0 t r).2.1 hyt)] at ha
    have hpr := hpop r hr
    have hpp : 0 < p.population t r := hs.trans_le hpr
    have b1 := C47_accuracy (σ.R .regional_emission_allowances t r)
    have b2 := C47_accuracy (p.population t r)
    have e3 : Spec.perCapita p t r * σ.G .global_emissions t = p.population t r * g := by
      unfold Spec.perCapita; rw [hgdef]; ring
    rw [e3] at ha
    rw [abs_of_pos hpp] at b2
    generalize (print6g (σ.R .regional_emission_allowances t r) : ℝ) = a' at *
    generalize (print6g (p.population t r) : ℝ) = n' at *
    generalize σ.R .regional_emission_allowances t r = a at *
    generalize p.population t r = n at *
    have hn' : 0.999995 * n ≤ n' := by linarith [(abs_le.1 b2).1]
    have hn'0 : 0 < n' := by linarith
    have hga : |a| ≤ 0.001 + n * |g| := by
      have : |a| ≤ |a - n * g| + |n * g| := by
        have := abs_add_le (a - n * g) (n * g); rwa [sub_add_cancel] at this
      rw [abs_mul, abs_of_pos hpp] at this
      linarith
    have h3 : |a' / n' - g| ≤ (0.001 + 5 / 1000000 * (0.001 + n * |g|) + 5 / 1000000 * (n * |g|)) / n' := by
      have : a' / n' - g = ((a' - a) + (a - n * g) - (n' - n) * g) / n' := by field_simp; ring
      rw [this, abs_div, abs_of_pos hn'0]
      gcongr
      have t1 := abs_sub ((a' - a) + (a - n * g)) ((n' - n) * g)
      have t2 := abs_add_le (a' - a) (a - n * g)
      have t3 : |(n' - n) * g| ≤ 5 / 1000000 * (n * |g|) := by
        rw [abs_mul, ← mul_assoc]
        exact mul_le_mul_of_nonneg_right b2 (abs_nonneg g)
      linarith
    refine h3.trans ?_
    rw [div_le_iff₀ hn'0]
    have k1 : 0.00101 * 0.999995 ≤ 0.00101 / small * n' := by
      rw [div_mul_eq_mul_div, le_div_iff₀ hs]
      nlinarith
    have k2 : 0.000011 * |g| * (0.999995 * n) ≤ 0.000011 * |g| * n' :=
      mul_le_mul_of_nonneg_left hn' (by positivity)
    have k3 : 0 ≤ n * |g| := by positivity
    nlinarith
  · have : 0 ≤ |g| := abs_nonneg g
    have h3 : 1.415 * (0.00101 / small) ≤ 0.0015 / small := by
      rw [← mul_div_assoc]; gcongr; norm_num
    linarith

/-- **C82.** In the saved file, too, the allowances are the baseline emissions minus the reductions paid for, up to the
rounding of the three numbers (test_per_cap_convergence). -/
theorem C82_allowances (hc : StrictMono count) (hb : buildModel count md = .ok m) (hn : p.regions.Nodup)
    (h : Solution md p σ) (htr : md.trade = .emissiontrade) {t : ℕ} (ht : t ≤ p.tf) (h0 : 0 < t)
    {r : String} (hr : r ∈ p.regions) :
    let file := saveOutput m p units σ
    |((Spec.cell file "regional_emission_allowances" r t : ℚ) : ℝ) -
      (((Spec.cell file "baseline" r t : ℚ) : ℝ) - ((Spec.cell file "paid_for_emission_reductions" r t : ℚ) : ℝ))| ≤
    0.000005 * (|σ.R .regional_emission_allowances t r| + |σ.R .baseline t r| +
      |σ.R .paid_for_emission_reductions t r|) := by
  intro file
  have e1 : Spec.cell file "regional_emission_allowances" r t = print6g (σ.R .regional_emission_allowances t r) :=
    cellR (v := .regional_emission_allowances) hc hb hn (by simp [Modules.declaresR, htr]) hr ht
  have e2 : Spec.cell file "baseline" r t = print6g (σ.R .baseline t r) :=
    cellR (v := .baseline) hc hb hn rfl hr ht
  have e3 : Spec.cell file "paid_for_emission_reductions" r t = print6g (σ.R .paid_for_emission_reductions t r) :=
    cellR (v := .paid_for_emission_reductions) hc hb hn (by simp [Modules.declaresR, htr]) hr ht
  rw [e1, e2, e3]
  have b1 := abs_le.1 (C47_accuracy (σ.R .regional_emission_allowances t r))
  have b2 := abs_le.1 (C47_accuracy (σ.R .baseline t r))
  have b3 := abs_le.1 (C47_accuracy (σ.R .paid_for_emission_reductions t r))
  have := (C34_allowances h htr ht h0 hr).2.1
  rw [abs_le]
  constructor <;> linarith [b1.1, b1.2, b2.1, b2.2, b3.1, b3.2]

/-! ## From the configuration to the file -/

section
variable {B : Builtins} {uni : Char → Bool} {F : RegionalFiles} {W : DataWorld} {user params : Val} {c : DataCache}
  {tree : Py Parser} {entries : List (String × IData)}

/-- **C82.** The carbon budget as the user wrote it: converted to GtCO2, it is not exceeded by any number in the row of
cumulative emissions from 2100 on. -/
theorem C82_config_budget (hu : user.WF) (S : Setup B uni F W user c params tree md entries)
    (hsol : Solution md (paramsOf entries) σ) (hcm : NoCustom user ("budget" :: gridNames)) {u : Val}
    (he : Effective user [.str "emissions", .str "carbonbudget"] u) (hoff : ¬ WrittenFalse u) (hr : NoRefs u)
    (hc : StrictMono count) (hb : buildModel count md = .ok m) :
    ∃ x τ, W.pint.conv (customReplace (pyStr B u).toList) "(GtCO2)".toList = .ok x ∧ readTime params = .ok τ ∧
      ∀ q, x = .fin q → Spec.SixDigits q → ∀ t : ℕ, t ≤ τ.tf → (2100 : ℚ) ≤ τ.start + t * τ.dt →
        Spec.cell (saveOutput m (paramsOf entries) units σ) "cumulative_emissions" "Global" t ≤ q := by
  obtain ⟨x, τ, hx, hτ, hq⟩ := C50_budget hu S hsol hcm he hoff hr
  have hg : NoCustom user gridNames := fun n hn => hcm n (by simp [hn])
  obtain ⟨τ', regions, h1, -, h3, h4, h5, -⟩ := grid_params hu S hg
  rw [hτ] at h1
  cases h1
  refine ⟨x, τ, hx, hτ, fun q hxq h6 t ht hy => ?_⟩
  have e : Spec.cell (saveOutput m (paramsOf entries) units σ) "cumulative_emissions" "Global" t =
      print6g (σ.G .cumulative_emissions t) :=
    cellG (v := .cumulative_emissions) hc hb (config_regions_nodup hu S hg) rfl (by rw [h5]; omega)
  rw [e]
  exact print_le h6 (hq q hxq t ht hy)
end

/-! ## The hypotheses are met -/

example : print6g (2 / 3) ≤ print6g 0.7 := C82_order (by norm_num)
example : print6g ((1600 : ℚ) : ℝ) = 1600 := C82_exact ⟨1600, 0, by norm_num, by norm_num⟩
example : print6g ((0.000123456 : ℚ) : ℝ) = 0.000123456 := C82_exact ⟨123456, -9, by norm_num, by norm_num⟩

theorem Ex.nodup (g : String) (a : ℝ) (y : Option ℝ) : (Ex.ex g a y).regions.Nodup := by simp [Ex.ex]

/-- In the example with a carbon budget of 1600, a target of 2 degrees and minimum levels. -/
example : ∃ m : AbstractModel, ∀ units,
    Spec.cell (saveOutput m Ex.p0 units Ex.σ0) "cumulative_emissions" "Global" 2 ≤ 1600 ∧
    Spec.cell (saveOutput m Ex.p0 units Ex.σ0) "temperature" "Global" 3 ≤ 2 ∧
    -20 ≤ Spec.cell (saveOutput m Ex.p0 units Ex.σ0) "global_emissions" "Global" 1 ∧
    -10 ≤ Spec.cell (saveOutput m Ex.p0 units Ex.σ0) "regional_emissions" "B" 1 ∧
    Spec.cell (saveOutput m Ex.p0 units Ex.σ0) "relative_abatement" "B" 1 ≤ 2.5 := by
  have h := Ex.sol0
  obtain ⟨count, hc, m, inst, hb, hi, hf⟩ := Ex.sol0
  refine ⟨m, fun units => ⟨?_, ?_, ?_, ?_, ?_⟩⟩
  · exact C82_budget hc hb (Ex.nodup _ _ _) h (b := 1600) (by simp [Ex.ex]) ⟨1600, 0, by norm_num, by norm_num⟩
      (by simp [Ex.ex]) (by norm_num [Ex.ex])
  · exact C82_temperature_target hc hb (Ex.nodup _ _ _) h (T := 2) (by simp [Ex.ex]) ⟨2, 0, by norm_num, by norm_num⟩
      (by simp [Ex.ex]) (by norm_num [Ex.ex])
  · exact (C82_minimum_levels hc hb (Ex.nodup _ _ _) h (l := -20) ⟨-20, 0, by norm_num, by norm_num⟩
      (by simp [Ex.ex])).1 (by simp [Ex.ex])
  · exact (C82_minimum_levels hc hb (Ex.nodup _ _ _) h (l := -10) ⟨-10, 0, by norm_num, by norm_num⟩
      (by simp [Ex.ex])).2 (by simp [Ex.ex]) "B" (by simp [Ex.ex])
  · exact (C82_abatement hc hb (Ex.nodup _ _ _) h (by simp [Ex.ex]) (by simp [Ex.ex])).2

/-- The effort-sharing examples: equal mitigation costs, equal total costs with the damage pool, and per-capita
convergence by 2050 with emission trade. -/
example : ∃ m : AbstractModel, ∀ units t, t ≤ 3 →
    let p := Ex.ex "equal_mitigation_costs" 0 none
    let costs := Spec.column (saveOutput m p units (Ex.xMit.env Ex.m0 p)) p "rel_mitigation_costs" t
    Spec.std costs ≤ 0.01 * Spec.mean costs := by
  have h := Ex.solMit
  obtain ⟨count, hc, m, inst, hb, hi, hf⟩ := Ex.solMit
  exact ⟨m, fun units t ht => (C82_equal_mitigation_costs hc hb (Ex.nodup _ _ _) h rfl (by simp [Ex.ex]) ht).1⟩

theorem Ex.pool_shares {t : ℕ} (ht : t ≤ 3) {r : String} (hr : r ∈ ["A", "B"]) :
    let σ := Ex.xPool.env Ex.mdPool Ex.pTot
    |σ.R .rel_mitigation_costs t r| + |σ.R .damage_costs t r| + |Spec.transfer Ex.mdPool σ t r| ≤
      300 * Spec.totalCosts Ex.mdPool σ t r := by
  intro σ
  have hd : ∀ r ∈ ["A", "B"], 0 ≤ Ex.xPool0.dam Ex.mdPool Ex.pTot t r := fun r hr =>
    Ex.dam_nonneg _ ⟨rfl, rfl⟩ _ t ht r hr
  have e1 : σ.R .rel_mitigation_costs t r =
      (Ex.xPool.area Ex.pTot t r + 0) / Ex.xPool.gross Ex.mdPool Ex.pTot t r := rfl
  have e3 : σ.R .damage_costs t r = Ex.xPool.dam Ex.mdPool Ex.pTot t r := rfl
  have e4 : Spec.transfer Ex.mdPool σ t r = Ex.xPool.tr t r / Ex.xPool.gross Ex.mdPool Ex.pTot t r := rfl
  have e5 : Spec.totalCosts Ex.mdPool σ t r = σ.R .rel_mitigation_costs t r + σ.R .damage_costs t r +
    Spec.transfer Ex.mdPool σ t r := rfl
  have hn := Ex.area_nonneg (regime := "equal_total_costs") (al := 0) (conv := none) Ex.xPool0 ⟨rfl, rfl⟩ t ht "A"
  have hn' : 0 ≤ Ex.xPool0.area Ex.pTot t "A" := hn
  have hA := hd "A" (by simp)
  have hB := hd "B" (by simp)
  rw [e5, e1, e3, e4, Ex.gross_val, Ex.xPool_area, Ex.xPool_dam]
  simp only [List.mem_cons, List.not_mem_nil, or_false] at hr
  rcases hr with rfl | rfl
  · simp only [Ex.xPool, if_true]
    rw [abs_of_nonneg (by linarith), abs_of_nonneg hA]
    have := abs_le.2 (⟨by linarith, by linarith⟩ : -((Ex.xPool0.dam Ex.mdPool Ex.pTot t "A" +
      Ex.xPool0.dam Ex.mdPool Ex.pTot t "B") / 2) ≤ 5 * (Ex.xPool0.dam Ex.mdPool Ex.pTot t "B" -
      Ex.xPool0.dam Ex.mdPool Ex.pTot t "A") / 10 ∧ 5 * (Ex.xPool0.dam Ex.mdPool Ex.pTot t "B" -
      Ex.xPool0.dam Ex.mdPool Ex.pTot t "A") / 10 ≤ (Ex.xPool0.dam Ex.mdPool Ex.pTot t "A" +
      Ex.xPool0.dam Ex.mdPool Ex.pTot t "B") / 2)
    linarith
  · simp only [Ex.xPool, show ("B" = "A") = False by simp, if_false]
    rw [abs_of_nonneg (by linarith), abs_of_nonneg hB]
    have := abs_le.2 (⟨by linarith, by linarith⟩ : -((Ex.xPool0.dam Ex.mdPool Ex.pTot t "A" +
      Ex.xPool0.dam Ex.mdPool Ex.pTot t "B") / 2) ≤ 5 * (Ex.xPool0.dam Ex.mdPool Ex.pTot t "A" -
      Ex.xPool0.dam Ex.mdPool Ex.pTot t "B") / 10 ∧ 5 * (Ex.xPool0.dam Ex.mdPool Ex.pTot t "A" -
      Ex.xPool0.dam Ex.mdPool Ex.pTot t "B") / 10 ≤ (Ex.xPool0.dam Ex.mdPool Ex.pTot t "A" +
      Ex.xPool0.dam Ex.mdPool Ex.pTot t "B") / 2)
    linarith

example : ∃ m : AbstractModel, ∀ units, ∀ t ≤ 2,
    let file := saveOutput m Ex.pTot units (Ex.xPool.env Ex.mdPool Ex.pTot)
    let costs := Ex.pTot.regions.map fun r => ((Spec.cell file "rel_mitigation_costs" r t : ℚ) : ℝ) +
      ((Spec.cell file "damage_costs" r t : ℚ) : ℝ) + ((Spec.cell file "rel_financial_transfer" r t : ℚ) : ℝ)
    Spec.std costs ≤ 0.01 * Spec.mean costs := by
  have h := Ex.solPool
  obtain ⟨count, hc, m, inst, hb, hi, hf⟩ := Ex.solPool
  refine ⟨m, fun units t ht => (C82_equal_total_costs_relative hc hb (Ex.nodup _ _ _) h rfl (by simp [Ex.ex])
    (by simp [Ex.ex]; omega) ?_ fun r hr => Ex.pool_shares (by omega) hr).1⟩
  have : (t : ℝ) ≤ 2 := by exact_mod_cast ht
  simp only [Params.year, Ex.ex]; push_cast; linarith

example : ∃ m : AbstractModel, ∀ units K,
    let σ := Ex.xPool.env Ex.mdPool Ex.pTot
    (∀ r ∈ Ex.pTot.regions, |σ.R .rel_mitigation_costs 1 r| + |σ.R .damage_costs 1 r| +
      |Spec.transfer Ex.mdPool σ 1 r| ≤ K) →
    let file := saveOutput m Ex.pTot units σ
    let costs := Ex.pTot.regions.map fun r => ((Spec.cell file "rel_mitigation_costs" r 1 : ℚ) : ℝ) +
      ((Spec.cell file "damage_costs" r 1 : ℚ) : ℝ) + ((Spec.cell file "rel_financial_transfer" r 1 : ℚ) : ℝ)
    Spec.std costs ≤ 0.0072 * Spec.mean costs + 0.0000072 * K := by
  have h := Ex.solPool
  obtain ⟨count, hc, m, inst, hb, hi, hf⟩ := Ex.solPool
  exact ⟨m, fun units K hK => C82_equal_total_costs hc hb (Ex.nodup _ _ _) h rfl (by simp [Ex.ex])
    (by simp [Ex.ex]) (by simp only [Params.year, Ex.ex]; norm_num) hK⟩

/-- From 2060 on, with convergence in 2050. -/
example : ∃ m : AbstractModel, ∀ units t, 0 < t → t ≤ 3 →
    let σ := Ex.xCap.env Ex.mdCap Ex.pCap
    let file := saveOutput m Ex.pCap units σ
    Spec.std (Ex.pCap.regions.map fun r => ((Spec.cell file "regional_emission_allowances" r t : ℚ) : ℝ) /
      ((Spec.cell file "population" r t : ℚ) : ℝ)) ≤ 0.0015 / 1 + 0.00002 *
        |σ.G .global_emissions t / (Ex.pCap.regions.map fun r => Ex.pCap.population t r).sum| ∧
    |((Spec.cell file "regional_emission_allowances" "A" t : ℚ) : ℝ) -
      (((Spec.cell file "baseline" "A" t : ℚ) : ℝ) - ((Spec.cell file "paid_for_emission_reductions" "A" t : ℚ) : ℝ))| ≤
    0.000005 * (|σ.R .regional_emission_allowances t "A"| + |σ.R .baseline t "A"| +
      |σ.R .paid_for_emission_reductions t "A"|) := by
  have h := Ex.solCap
  obtain ⟨count, hc, m, inst, hb, hi, hf⟩ := Ex.solCap
  refine ⟨m, fun units t h0 ht => ⟨C82_per_capita hc hb (Ex.nodup _ _ _) h rfl rfl (c := 2050) rfl
    (by norm_num [Ex.ex, Params.year]) (by simp [Ex.ex]) ht h0 ?_ one_pos (by simp [Ex.ex]),
    C82_allowances hc hb (Ex.nodup _ _ _) h rfl ht h0 (by simp [Ex.ex])⟩⟩
  have : (1 : ℝ) ≤ t := by exact_mod_cast h0
  simp only [Params.year, Ex.ex]; push_cast; linarith

end Mimosa
