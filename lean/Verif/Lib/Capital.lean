import Verif.Lib.Char

/-! # The implicit capital equation has at most one solution -/

namespace Mimosa
open Real

/-- `soft_min x s / x` decreases on the positive axis. -/
theorem soft_min_div_antitone {s x y : ℝ} (hs : 0 < s) (hx : 0 < x) (hxy : x < y) :
    soft_min y s * x < soft_min x s * y := by
  have hpi := pi_pos
  set a := 25 / s with ha
  have ha0 : 0 < a := by positivity
  set f : ℝ → ℝ := fun u => arctan (a * u) / π + 1 / (a * π) * u⁻¹ with hf
  have hderiv : ∀ u : ℝ, 0 < u → HasDerivAt f
      (1 / (1 + (a * u) ^ 2) * a / π + 1 / (a * π) * (-(u ^ 2)⁻¹)) u := by
    intro u hu
    have h1 : HasDerivAt (fun x : ℝ => a * x) a u := by simpa using (hasDerivAt_id u).const_mul a
    exact (h1.arctan.div_const π).add ((hasDerivAt_inv hu.ne').const_mul _)
  have hanti : StrictAntiOn f (Set.Ioi 0) := by
    apply strictAntiOn_of_deriv_neg (convex_Ioi 0)
    · intro u hu; exact (hderiv u hu).continuousAt.continuousWithinAt
    · intro u hu
      rw [interior_Ioi] at hu
      have hu0 : 0 < u := hu
      rw [(hderiv u hu0).deriv]
      have e : 1 / (1 + (a * u) ^ 2) * a / π + 1 / (a * π) * (-(u ^ 2)⁻¹) =
          -(1 / (a * π * u ^ 2 * (1 + (a * u) ^ 2))) := by
        field_simp; ring
      rw [e, neg_lt_zero]; positivity
  have hy : 0 < y := hx.trans hxy
  have key := hanti (Set.mem_Ioi.2 hx) (Set.mem_Ioi.2 hy) hxy
  have e : ∀ u : ℝ, 0 < u → soft_min u s = (f u + 1 / 2) * u := by
    intro u hu
    rw [soft_min_real, ← ha]
    simp only [hf]
    field_simp; ring
  rw [e x hx, e y hy]
  nlinarith [mul_pos hx hy]

/-- The capital equation `A K = B + C · soft_min(K)^α` has at most one solution if `B > 0`. -/
theorem capital_unique {A B C al K K' : ℝ} (hA : 0 < A) (hB : 0 < B) (h0 : 0 ≤ al) (h1 : al ≤ 1)
    (h : A * K = B + C * soft_min K 10 ^ al) (h' : A * K' = B + C * soft_min K' 10 ^ al) : K = K' := by
  by_contra hne
  wlog hlt : K < K' generalizing K K'
  · exact this h' h (Ne.symm hne) (lt_of_le_of_ne (not_lt.1 hlt) (Ne.symm hne))
  have s1 := soft_min_pos_ten K
  have s2 := soft_min_pos_ten K'
  have smono : soft_min K 10 < soft_min K' 10 := soft_min_strictMono (by norm_num) hlt
  have p1 := Real.rpow_pos_of_pos s1 al
  have p2 := Real.rpow_pos_of_pos s2 al
  have pmono : soft_min K 10 ^ al ≤ soft_min K' 10 ^ al := Real.rpow_le_rpow s1.le smono.le h0
  rcases lt_or_ge C 0 with hC | hC
  · nlinarith [mul_lt_mul_of_pos_left hlt hA]
  · have hK : 0 < K := by
      have : 0 < A * K := by rw [h]; positivity
      exact (pos_iff_pos_of_mul_pos this).1 hA
    have hK' : 0 < K' := hK.trans hlt
    have hstar := soft_min_div_antitone (s := 10) (by norm_num) hK hlt
    -- `s(K')^al K ≤ s(K)^al K'`
    have key : soft_min K' 10 ^ al * K ≤ soft_min K 10 ^ al * K' := by
      have e : soft_min K' 10 ^ al = (soft_min K' 10 / soft_min K 10) ^ al * soft_min K 10 ^ al := by
        rw [← Real.mul_rpow (by positivity) s1.le, div_mul_cancel₀ _ s1.ne']
      have hr : 1 ≤ soft_min K' 10 / soft_min K 10 := (one_le_div s1).2 smono.le
      have hle : (soft_min K' 10 / soft_min K 10) ^ al ≤ soft_min K' 10 / soft_min K 10 := by
        calc _ ≤ (soft_min K' 10 / soft_min K 10) ^ (1 : ℝ) := Real.rpow_le_rpow_of_exponent_le hr h1
          _ = _ := Real.rpow_one _
      have hle2 : soft_min K' 10 / soft_min K 10 * K ≤ K' := by
        rw [div_mul_eq_mul_div, div_le_iff₀ s1]; linarith
      calc soft_min K' 10 ^ al * K
          = ((soft_min K' 10 / soft_min K 10) ^ al * K) * soft_min K 10 ^ al := by rw [e]; ring
        _ ≤ (soft_min K' 10 / soft_min K 10 * K) * soft_min K 10 ^ al := by gcongr
        _ ≤ K' * soft_min K 10 ^ al := by gcongr
        _ = _ := mul_comm _ _
    -- multiply the equations crosswise
    have e1 : A * K * K' = B * K' + C * (soft_min K 10 ^ al * K') := by rw [h]; ring
    have e2 : A * K' * K = B * K + C * (soft_min K' 10 ^ al * K) := by rw [h']; ring
    have e3 : B * K' + C * (soft_min K 10 ^ al * K') = B * K + C * (soft_min K' 10 ^ al * K) := by
      rw [← e1, ← e2]; ring
    have := mul_le_mul_of_nonneg_left key hC
    nlinarith [mul_lt_mul_of_pos_left hlt hB]

end Mimosa
