import Verif.Lib.Concave
import Mathlib.Analysis.Convex.SpecificFunctions.Pow

/-!
# Concavity of powers of the soft minimum, and joint convexity of abatement costs in abatement and experience
-/

namespace Mimosa
open Real

/-- Away from zero the soft minimum is so nearly linear that small powers of it are concave. -/
theorem softmin_concavity_key' {x e : ℝ} (hx : 1 / 10 ≤ x) (he : 1 / 10 ≤ e) :
    soft_min x 1 * (2 * 25 / (π * (1 + (25 * x) ^ 2) ^ 2)) ≤
      e * (25 / (1 + (25 * x) ^ 2) / π * x + (arctan (25 * x) / π + 1 / 2)) ^ 2 := by
  have hpi := pi_pos
  have hpi3 := pi_gt_three
  set v := 25 * x with hv
  have hv0 : 5 / 2 ≤ v := by rw [hv]; linarith
  set q := 1 + v ^ 2 with hq
  have hq1 : 29 / 4 ≤ q := by nlinarith [hv0]
  have hqpos : 0 < q := by linarith
  set w := arctan v + π / 2 with hw
  have hw1 : 3 / 2 ≤ w := by
    have : 0 < arctan v := by rw [← arctan_zero]; exact arctan_strictMono (by linarith)
    rw [hw]; linarith
  have es : arctan v / π + 1 / 2 = w / π := by rw [hw]; field_simp
  have e1 : soft_min x 1 = (v * w + 1) / (25 * π) := by
    rw [soft_min_real]
    have : (25 : ℝ) / 1 * x = v := by rw [hv]; ring
    rw [this, es, hv]; field_simp
  have e2 : 25 / q / π * x = v / (π * q) := by rw [hv]; field_simp
  rw [e1, e2, es]
  have e3 : (v * w + 1) / (25 * π) * (2 * 25 / (π * q ^ 2)) = (2 * v * w + 2) / (π * q) ^ 2 := by
    field_simp
  have e4 : (v / (π * q) + w / π) ^ 2 = (v + w * q) ^ 2 / (π * q) ^ 2 := by
    rw [← div_pow]; congr 1; field_simp
  rw [e3, e4, ← mul_div_assoc, div_le_div_iff_of_pos_right (by positivity)]
  have h8 : 1 / 10 * (v + w * q) ^ 2 ≤ e * (v + w * q) ^ 2 := mul_le_mul_of_nonneg_right he (sq_nonneg _)
  refine le_trans ?_ h8
  have hvw : 15 / 4 ≤ v * w := by nlinarith [mul_nonneg (by linarith : 0 ≤ v - 5 / 2) (by linarith : 0 ≤ w - 3 / 2)]
  have hW : 29 / 4 * w ≤ w * q := by rw [mul_comm]; exact mul_le_mul_of_nonneg_left hq1 (by linarith)
  have hW2 : v * (5 / 2) * w ≤ w * q := by
    have : v * (5 / 2) ≤ q := by rw [hq]; nlinarith
    have := mul_le_mul_of_nonneg_right this (by linarith : 0 ≤ w)
    linarith
  have h1 : (v + w * q) ^ 2 = v ^ 2 + 2 * (v * (w * q)) + (w * q) * (w * q) := by ring
  have h2 : v * (29 / 4 * w) ≤ v * (w * q) := mul_le_mul_of_nonneg_left hW (by linarith)
  have h3 : v * (5 / 2) * w * (29 / 4 * w) ≤ (w * q) * (w * q) := mul_le_mul hW2 hW (by positivity) (by positivity)
  have h4 : v * w * (3 / 2) ≤ v * w * w := mul_le_mul_of_nonneg_left hw1 (by linarith)
  have h5 := sq_nonneg v
  rw [h1]
  linarith

/-- Powers of the soft minimum with exponents up to 0.9 are concave from 1/10 on. -/
theorem softmin_pow_concaveOn {θ : ℝ} (h0 : 0 ≤ θ) (h1 : θ ≤ 9 / 10) :
    ConcaveOn ℝ (Set.Ici (1 / 10)) fun x : ℝ => soft_min x 1 ^ θ := by
  apply concaveOn_of_hasDerivWithinAt2_nonpos (convex_Ici _)
    (f' := fun x => θ * soft_min x 1 ^ (θ - 1) *
      (25 / (1 + (25 * x) ^ 2) / π * x + (arctan (25 * x) / π + 1 / 2)))
    (f'' := fun x => θ * ((θ - 1) * soft_min x 1 ^ (θ - 1 - 1) *
      (25 / (1 + (25 * x) ^ 2) / π * x + (arctan (25 * x) / π + 1 / 2)) ^ 2 +
      soft_min x 1 ^ (θ - 1) * (2 * 25 / (π * (1 + (25 * x) ^ 2) ^ 2))))
  · apply Continuous.continuousOn
    exact continuous_soft_min.rpow_const fun x => Or.inl (soft_min_pos_one x).ne'
  · intro x _
    apply HasDerivAt.hasDerivWithinAt
    have h := (softmin_hasDeriv x).rpow_const (p := θ) (Or.inl (soft_min_pos_one x).ne')
    refine h.congr_deriv ?_
    ring
  · intro x _
    apply HasDerivAt.hasDerivWithinAt
    have h := (softmin_hasDeriv x).rpow_const (p := θ - 1) (Or.inl (soft_min_pos_one x).ne')
    have h2 := (h.const_mul θ).mul (softmin_hasDeriv2 x)
    refine h2.congr_deriv ?_
    ring
  · intro x hx
    rw [interior_Ici] at hx
    have hx0 : 1 / 10 ≤ x := le_of_lt hx
    have hf := soft_min_pos_one x
    have key := softmin_concavity_key' hx0 (e := 1 - θ) (by linarith)
    have hp := rpow_pos_of_pos hf (θ - 1 - 1)
    have e1 : soft_min x 1 ^ (θ - 1) = soft_min x 1 ^ (θ - 1 - 1) * soft_min x 1 := by
      rw [← rpow_add_one hf.ne']; congr 1; ring
    rw [e1]
    set D := 25 / (1 + (25 * x) ^ 2) / π * x + (arctan (25 * x) / π + 1 / 2)
    set D2 := 2 * 25 / (π * (1 + (25 * x) ^ 2) ^ 2)
    have : (θ - 1) * soft_min x 1 ^ (θ - 1 - 1) * D ^ 2 + soft_min x 1 ^ (θ - 1 - 1) * soft_min x 1 * D2 =
        soft_min x 1 ^ (θ - 1 - 1) * (soft_min x 1 * D2 - (1 - θ) * D ^ 2) := by ring
    rw [this]
    exact mul_nonpos_of_nonneg_of_nonpos h0 (mul_nonpos_of_nonneg_of_nonpos hp.le (by linarith))

/-- … strictly so for positive exponents below 0.9. -/
theorem softmin_pow_strict {θ : ℝ} (h0 : 0 < θ) (h1 : θ < 9 / 10) {x y : ℝ} (hx : 1 / 10 ≤ x) (hy : 1 / 10 ≤ y)
    (hne : x ≠ y) {a b : ℝ} (ha : 0 < a) (hb : 0 < b) (hab : a + b = 1) :
    a * soft_min x 1 ^ θ + b * soft_min y 1 ^ θ < soft_min (a * x + b * y) 1 ^ θ := by
  have hc := (softmin_pow_concaveOn (θ := 9 / 10) (by norm_num) le_rfl).2 (Set.mem_Ici.2 hx) (Set.mem_Ici.2 hy)
    ha.le hb.le hab
  simp only [smul_eq_mul] at hc
  have px := soft_min_pos_one x
  have py := soft_min_pos_one y
  have pz := soft_min_pos_one (a * x + b * y)
  set u := soft_min x 1 ^ (9 / 10 : ℝ) with hu
  set v := soft_min y 1 ^ (9 / 10 : ℝ) with hv
  have hu0 : 0 < u := rpow_pos_of_pos px _
  have hv0 : 0 < v := rpow_pos_of_pos py _
  have huv : u ≠ v := by
    intro h
    have := (rpow_left_inj px.le py.le (by norm_num : (9 / 10 : ℝ) ≠ 0)).1 h
    exact hne ((soft_min_strictMono one_pos).injective this)
  have hρ := Real.strictConcaveOn_rpow (p := θ / (9 / 10)) (by positivity) (by rw [div_lt_one (by norm_num)]; exact h1)
  have hs := hρ.2 (Set.mem_Ici.2 hu0.le) (Set.mem_Ici.2 hv0.le) huv ha hb hab
  simp only [smul_eq_mul] at hs
  have back : ∀ z : ℝ, 0 < z → (z ^ (9 / 10 : ℝ)) ^ (θ / (9 / 10)) = z ^ θ := by
    intro z hz
    rw [← rpow_mul hz.le]; congr 1; field_simp
  rw [hu, hv, back _ px, back _ py, ← hu, ← hv] at hs
  refine hs.trans_le ?_
  rw [← back _ pz]
  exact rpow_le_rpow (by positivity) hc (by positivity)

theorem softmin_scale (x : ℝ) : soft_min x 10 = 10 * soft_min (x / 10) 1 := by
  rw [soft_min_real, soft_min_real]
  have : (25 : ℝ) / 10 * x = 25 / 1 * (x / 10) := by ring
  rw [this]
  have := pi_pos.ne'
  field_simp

/-- The capital term of the production function is concave from one trillion on. -/
theorem softmin_pow_ten {θ : ℝ} (h0 : 0 ≤ θ) (h1 : θ ≤ 9 / 10) {x y : ℝ} (hx : 1 ≤ x) (hy : 1 ≤ y)
    {a b : ℝ} (ha : 0 ≤ a) (hb : 0 ≤ b) (hab : a + b = 1) :
    a * soft_min x 10 ^ θ + b * soft_min y 10 ^ θ ≤ soft_min (a * x + b * y) 10 ^ θ := by
  have hc := (softmin_pow_concaveOn h0 h1).2 (Set.mem_Ici.2 (by linarith : 1 / 10 ≤ x / 10))
    (Set.mem_Ici.2 (by linarith : 1 / 10 ≤ y / 10)) ha hb hab
  simp only [smul_eq_mul] at hc
  have e : a * (x / 10) + b * (y / 10) = (a * x + b * y) / 10 := by ring
  rw [e] at hc
  rw [softmin_scale, softmin_scale, softmin_scale, mul_rpow (by norm_num) (soft_min_pos_one _).le,
    mul_rpow (by norm_num) (soft_min_pos_one _).le, mul_rpow (by norm_num) (soft_min_pos_one _).le]
  have := mul_le_mul_of_nonneg_left hc (rpow_nonneg (by norm_num : (0 : ℝ) ≤ 10) θ)
  linarith

/-- The perspective of a power is jointly convex; strictly along segments on which the ratio changes. -/
theorem perspective_convex {q : ℝ} (hq : 1 < q) {x y g h : ℝ} (hx : 0 ≤ x) (hy : 0 ≤ y) (hg : 0 < g) (hh : 0 < h)
    {a b : ℝ} (ha : 0 < a) (hb : 0 < b) :
    (a * x + b * y) ^ q / (a * g + b * h) ^ (q - 1) ≤ a * (x ^ q / g ^ (q - 1)) + b * (y ^ q / h ^ (q - 1)) ∧
    (x / g ≠ y / h → (a * x + b * y) ^ q / (a * g + b * h) ^ (q - 1) <
      a * (x ^ q / g ^ (q - 1)) + b * (y ^ q / h ^ (q - 1))) := by
  set H := a * g + b * h with hH
  have hH0 : 0 < H := by positivity
  have hp : ∀ z k : ℝ, 0 ≤ z → 0 < k → z ^ q / k ^ (q - 1) = k * (z / k) ^ q := by
    intro z k hz hk
    rw [div_rpow hz hk.le, rpow_sub_one hk.ne']
    have := (rpow_pos_of_pos hk q).ne'
    field_simp
  rw [hp _ _ (by positivity) hH0, hp _ _ hx hg, hp _ _ hy hh]
  have e : (a * x + b * y) / H = a * g / H * (x / g) + b * h / H * (y / h) := by field_simp
  have hw : a * g / H + b * h / H = 1 := by rw [← add_div, ← hH, div_self hH0.ne']
  have e2 : ∀ U V : ℝ, H * (a * g / H * U + b * h / H * V) = a * (g * U) + b * (h * V) := by
    intro U V; field_simp
  rw [e]
  constructor
  · have := (convexOn_rpow hq.le).2 (Set.mem_Ici.2 (div_nonneg hx hg.le)) (Set.mem_Ici.2 (div_nonneg hy hh.le))
      (by positivity : 0 ≤ a * g / H) (by positivity : 0 ≤ b * h / H) hw
    simp only [smul_eq_mul] at this
    have := mul_le_mul_of_nonneg_left this hH0.le
    rwa [e2] at this
  · intro hne
    have := (strictConvexOn_rpow hq).2 (Set.mem_Ici.2 (div_nonneg hx hg.le)) (Set.mem_Ici.2 (div_nonneg hy hh.le))
      hne (by positivity : 0 < a * g / H) (by positivity : 0 < b * h / H) hw
    simp only [smul_eq_mul] at this
    have := mul_lt_mul_of_pos_left this hH0
    rwa [e2] at this

/-- Abatement to a power, times the learning factor of the accumulated experience, is jointly convex, if learning is
slow compared to the power (`q` is the exponent of the marginal or total costs, `k` the exponent of learning). -/
theorem learning_convex {q k : ℝ} (hq : 1 < q) (hk : 0 ≤ k) (hkq : k ≤ (q - 1) / 2) {x y X Y : ℝ} (hx : 0 ≤ x) (hy : 0 ≤ y)
    (hX : 1 / 10 ≤ X) (hY : 1 / 10 ≤ Y) {a b : ℝ} (ha : 0 < a) (hb : 0 < b) (hab : a + b = 1) :
    soft_min (a * X + b * Y) 1 ^ (-k) * (a * x + b * y) ^ q ≤
      a * (soft_min X 1 ^ (-k) * x ^ q) + b * (soft_min Y 1 ^ (-k) * y ^ q) ∧
    (x ≠ y → soft_min (a * X + b * Y) 1 ^ (-k) * (a * x + b * y) ^ q <
      a * (soft_min X 1 ^ (-k) * x ^ q) + b * (soft_min Y 1 ^ (-k) * y ^ q)) := by
  have hq1 : 0 < q - 1 := by linarith
  set θ := k / (q - 1) with hθ
  have hθ0 : 0 ≤ θ := div_nonneg hk hq1.le
  have hθ1 : θ ≤ 1 / 2 := by rw [hθ, div_le_iff₀ hq1]; linarith
  have form : ∀ Z z : ℝ, soft_min Z 1 ^ (-k) * z ^ q = z ^ q / (soft_min Z 1 ^ θ) ^ (q - 1) := by
    intro Z z
    have hs := soft_min_pos_one Z
    rw [← rpow_mul hs.le, hθ, div_mul_cancel₀ _ hq1.ne', rpow_neg hs.le]
    field_simp
  rw [form, form, form]
  have gX := rpow_pos_of_pos (soft_min_pos_one X) θ
  have gY := rpow_pos_of_pos (soft_min_pos_one Y) θ
  have hc := (softmin_pow_concaveOn hθ0 (by linarith)).2 (Set.mem_Ici.2 hX) (Set.mem_Ici.2 hY) ha.le hb.le hab
  simp only [smul_eq_mul] at hc
  have hH : 0 < a * soft_min X 1 ^ θ + b * soft_min Y 1 ^ θ := by positivity
  have per := perspective_convex hq hx hy gX gY ha hb
  have mono : (a * x + b * y) ^ q / (soft_min (a * X + b * Y) 1 ^ θ) ^ (q - 1) ≤
      (a * x + b * y) ^ q / (a * soft_min X 1 ^ θ + b * soft_min Y 1 ^ θ) ^ (q - 1) :=
    div_le_div_of_nonneg_left (by positivity) (rpow_pos_of_pos hH _) (rpow_le_rpow hH.le hc hq1.le)
  refine ⟨mono.trans per.1, fun hne => ?_⟩
  by_cases hr : x / soft_min X 1 ^ θ = y / soft_min Y 1 ^ θ
  · -- equal ratios: the experience differs
    have hg : soft_min X 1 ^ θ ≠ soft_min Y 1 ^ θ := by
      intro h
      rw [h, div_left_inj' gY.ne'] at hr
      exact hne hr
    have hXY : X ≠ Y := fun h => hg (by rw [h])
    have hθp : 0 < θ := by
      rcases hθ0.eq_or_lt with h | h
      · exact absurd (by rw [← h, rpow_zero, rpow_zero]) hg
      · exact h
    have hs := softmin_pow_strict hθp (by linarith) hX hY hXY ha hb hab
    have hpos : 0 < a * x + b * y := by
      rcases hx.eq_or_lt with h | h
      · have h0 : y = 0 := by
          rw [← h, zero_div] at hr
          exact (div_eq_zero_iff.1 hr.symm).resolve_right gY.ne'
        exact absurd (by rw [← h, h0]) hne
      · have := mul_pos ha h
        have := mul_nonneg hb.le hy
        linarith
    refine lt_of_lt_of_le ?_ per.1
    exact div_lt_div_of_pos_left (rpow_pos_of_pos hpos _) (rpow_pos_of_pos hH _)
      (rpow_lt_rpow hH.le hs hq1)
  · exact mono.trans_lt (per.2 hr)

end Mimosa
