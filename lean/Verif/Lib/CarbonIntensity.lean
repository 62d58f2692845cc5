import Verif.Lib.Capital
import Verif.Props.Existence

/-!
# One step of the economy with endogenous emissions

With the carbon-intensity baseline the emissions of a period depend on its GDP, and the GDP on its emissions (through
damages).  World emissions of the period are found by the intermediate value theorem.
-/

namespace Mimosa
open Real Damages

/-- The solution of the capital equation is a continuous function of the productivity. -/
theorem capital_continuous {A B al : ℝ} (hA : 0 < A) (hB : 0 < B) (h0 : 0 ≤ al) (h1 : al < 1) :
    ∃ κ : ℝ → ℝ, Continuous κ ∧ StrictMono κ ∧ ∀ C, A * κ C = B + C * soft_min (κ C) 10 ^ al := by
  set f : ℝ → ℝ := fun K => (A * K - B) / soft_min K 10 ^ al with hf
  have hpos : ∀ K : ℝ, 0 < soft_min K 10 ^ al := fun K => Real.rpow_pos_of_pos (soft_min_pos_ten K) al
  have hcont : Continuous f := by
    refine Continuous.div (by fun_prop) ?_ fun K => (hpos K).ne'
    exact (continuous_soft_min (s := 10)).rpow_const fun x => Or.inl (soft_min_pos_ten x).ne'
  have heq : ∀ K C, f K = C ↔ A * K = B + C * soft_min K 10 ^ al := by
    intro K C
    simp only [hf]
    rw [div_eq_iff (hpos K).ne']
    constructor <;> intro h <;> linarith
  have hinj : Function.Injective f := by
    intro K K' h
    exact capital_unique hA hB h0 h1.le ((heq K (f K)).1 rfl) ((heq K' (f K)).1 h.symm)
  have hsurj : Function.Surjective f := fun C => by
    obtain ⟨K, hK⟩ := capital_exists (B := B) (C := C) hA h0 h1
    exact ⟨K, (heq K C).2 hK⟩
  have hmono : StrictMono f := by
    rcases hcont.strictMono_of_inj hinj with h | h
    · exact h
    · exfalso
      have e1 : f (B / A) = 0 := by simp only [hf]; rw [mul_div_cancel₀ _ hA.ne']; simp
      have e2 : 0 < f (B / A + 1) := by
        simp only [hf]
        refine div_pos ?_ (hpos _)
        rw [mul_add, mul_div_cancel₀ _ hA.ne']; linarith
      have := h (show B / A < B / A + 1 by linarith)
      linarith
  set φ := StrictMono.orderIsoOfSurjective f hmono hsurj with hφ
  refine ⟨φ.symm, φ.symm.continuous, φ.symm.strictMono, fun C => (heq _ _).1 ?_⟩
  exact φ.apply_symm_apply C

/-- More initial capital and higher productivity give more capital. -/
theorem capital_le {A B B' C C' al K K' : ℝ} (hA : 0 < A) (hB : 0 < B) (h0 : 0 ≤ al) (h1 : al < 1)
    (hBB : B ≤ B') (hCC : C ≤ C')
    (h : A * K = B + C * soft_min K 10 ^ al) (h' : A * K' = B' + C' * soft_min K' 10 ^ al) : K ≤ K' := by
  obtain ⟨κ, -, hmono, hκ⟩ := capital_continuous hA hB h0 h1
  have hpos : 0 < soft_min K' 10 ^ al := Real.rpow_pos_of_pos (soft_min_pos_ten K') al
  have e1 : K = κ C := capital_unique hA hB h0 h1.le h (hκ C)
  have e2 : A * K' = B + (C' + (B' - B) / soft_min K' 10 ^ al) * soft_min K' 10 ^ al := by
    rw [add_mul, div_mul_cancel₀ _ hpos.ne']; linarith
  have e3 : K' = κ (C' + (B' - B) / soft_min K' 10 ^ al) := capital_unique hA hB h0 h1.le e2 (hκ _)
  rw [e1, e3]
  apply hmono.monotone
  have : 0 ≤ (B' - B) / soft_min K' 10 ^ al := div_nonneg (by linarith) hpos.le
  linarith

/-- One period: world emissions `E` and capital stocks `K` such that the emissions `c · (net GDP)` of the regions sum to
`E`.  `D r E` is the fraction of GDP that is lost if world emissions are `E`; `Kf` is the capital without losses. -/
theorem period_exists {L : List String} {A k al : ℝ} {B Bf Y c Kf : String → ℝ} {D : String → ℝ → ℝ}
    (hA : 0 < A) (hk : 0 ≤ k) (h0 : 0 ≤ al) (h1 : al < 1)
    (hB : ∀ r ∈ L, 0 < B r) (hBf : ∀ r ∈ L, B r ≤ Bf r) (hY : ∀ r ∈ L, 0 ≤ Y r) (hc : ∀ r ∈ L, 0 ≤ c r)
    (hKf : ∀ r ∈ L, A * Kf r = Bf r + k * Y r * soft_min (Kf r) 10 ^ al)
    (hDc : ∀ r ∈ L, Continuous (D r))
    (hD : ∀ E, 0 ≤ E → E ≤ (L.map fun r => c r * (Y r * soft_min (Kf r) 10 ^ al)).sum →
      ∀ r ∈ L, 0 ≤ D r E ∧ D r E ≤ 1) :
    ∃ (E : ℝ) (K : String → ℝ), 0 ≤ E ∧ E ≤ (L.map fun r => c r * (Y r * soft_min (Kf r) 10 ^ al)).sum ∧
      (∀ r ∈ L, A * K r = B r + k * Y r * (1 - D r E) * soft_min (K r) 10 ^ al ∧ 0 < K r ∧ K r ≤ Kf r) ∧
      (L.map fun r => c r * (Y r * soft_min (K r) 10 ^ al * (1 - D r E))).sum = E := by
  classical
  have hch : ∀ r, ∃ κ : ℝ → ℝ, r ∈ L → Continuous κ ∧ StrictMono κ ∧
      ∀ C, A * κ C = B r + C * soft_min (κ C) 10 ^ al := by
    intro r
    by_cases hr : r ∈ L
    · obtain ⟨κ, hκ⟩ := capital_continuous hA (hB r hr) h0 h1
      exact ⟨κ, fun _ => hκ⟩
    · exact ⟨fun _ => 0, fun h => absurd h hr⟩
  choose κ hκ using hch
  set Kof : String → ℝ → ℝ := fun r E => κ r (k * Y r * (1 - D r E)) with hKof
  set net : String → ℝ → ℝ := fun r E => Y r * soft_min (Kof r E) 10 ^ al * (1 - D r E) with hnet
  set F : ℝ → ℝ := fun E => (L.map fun r => c r * net r E).sum - E with hF
  set top := (L.map fun r => c r * (Y r * soft_min (Kf r) 10 ^ al)).sum with htop
  have htop0 : 0 ≤ top := by
    refine List.sum_nonneg fun x hx => ?_
    obtain ⟨r, hr, rfl⟩ := List.mem_map.1 hx
    have := Real.rpow_nonneg (soft_min_pos_ten (Kf r)).le al
    have := hY r hr
    have := hc r hr
    positivity
  have hKc : ∀ r ∈ L, Continuous (Kof r) := by
    intro r hr
    refine (hκ r hr).1.comp ?_
    have := hDc r hr
    fun_prop
  have hnc : ∀ r ∈ L, Continuous (net r) := by
    intro r hr
    have hd := hDc r hr
    have h2 : Continuous fun E => soft_min (Kof r E) 10 ^ al :=
      ((continuous_soft_min (s := 10)).comp (hKc r hr)).rpow_const fun x => Or.inl (soft_min_pos_ten _).ne'
    simp only [hnet]
    fun_prop
  have hFc : Continuous F := by
    refine Continuous.sub ?_ continuous_id
    refine continuous_list_sum _ fun r hr => ?_
    exact continuous_const.mul (hnc r hr)
  have hle : ∀ E, 0 ≤ E → E ≤ top → ∀ r ∈ L, 0 < Kof r E ∧ Kof r E ≤ Kf r ∧ 0 ≤ net r E ∧
      net r E ≤ Y r * soft_min (Kf r) 10 ^ al := by
    intro E hE hEt r hr
    have hd := hD E hE hEt r hr
    have hy := hY r hr
    have hC0 : 0 ≤ k * Y r * (1 - D r E) := by
      have : 0 ≤ 1 - D r E := by linarith
      positivity
    have hCle : k * Y r * (1 - D r E) ≤ k * Y r := by
      have : 0 ≤ k * Y r := by positivity
      nlinarith
    have heq := (hκ r hr).2.2 (k * Y r * (1 - D r E))
    have hs0 := Real.rpow_nonneg (soft_min_pos_ten (Kof r E)).le al
    have h3 : 0 < Kof r E := by
      have : 0 < A * Kof r E := by
        simp only [hKof]; rw [heq]
        have := hB r hr
        have : 0 ≤ k * Y r * (1 - D r E) * soft_min (κ r (k * Y r * (1 - D r E))) 10 ^ al := mul_nonneg hC0 hs0
        linarith
      exact (pos_iff_pos_of_mul_pos this).1 hA
    have h4 : Kof r E ≤ Kf r := capital_le hA (hB r hr) h0 h1 (hBf r hr) hCle heq (hKf r hr)
    have h5 : soft_min (Kof r E) 10 ^ al ≤ soft_min (Kf r) 10 ^ al :=
      Real.rpow_le_rpow (soft_min_pos_ten _).le ((soft_min_strictMono (by norm_num)).monotone h4) h0
    refine ⟨h3, h4, ?_, ?_⟩
    · simp only [hnet]
      have : 0 ≤ 1 - D r E := by linarith
      positivity
    · simp only [hnet]
      calc Y r * soft_min (Kof r E) 10 ^ al * (1 - D r E) ≤ Y r * soft_min (Kof r E) 10 ^ al * 1 := by
            gcongr; linarith
        _ ≤ Y r * soft_min (Kf r) 10 ^ al := by rw [mul_one]; gcongr
  have hlo : 0 ≤ F 0 := by
    simp only [hF, sub_zero]
    refine List.sum_nonneg fun x hx => ?_
    obtain ⟨r, hr, rfl⟩ := List.mem_map.1 hx
    exact mul_nonneg (hc r hr) (hle 0 le_rfl htop0 r hr).2.2.1
  have hhi : F top ≤ 0 := by
    simp only [hF, sub_nonpos]
    refine List.sum_le_sum fun r hr => ?_
    exact mul_le_mul_of_nonneg_left (hle top htop0 le_rfl r hr).2.2.2 (hc r hr)
  obtain ⟨E, ⟨hE0, hE1⟩, hE⟩ := intermediate_value_Icc' htop0 hFc.continuousOn ⟨hhi, hlo⟩
  refine ⟨E, fun r => Kof r E, hE0, hE1, fun r hr => ⟨(hκ r hr).2.2 _, (hle E hE0 hE1 r hr).1,
    (hle E hE0 hE1 r hr).2.1⟩, ?_⟩
  simp only [hF] at hE
  linarith

/-- Damage functions are continuous. -/
theorem formVal_continuous {d : DamageCoeffs} {r : String} (h : ∀ x, FormOk x d r) : Continuous fun x => formVal x d r := by
  unfold formVal
  by_cases h1 : strContains "Linear" (d.form r) = true
  · simp only [h1, if_true]; fun_prop
  · by_cases h2 : strContains "Quadratic" (d.form r) = true
    · simp only [h1, h2, if_true, Bool.false_eq_true, if_false]; fun_prop
    · by_cases h3 : strContains "Logistic" (d.form r) = true
      · simp only [h1, h2, h3, if_true]
        have hne : ∀ x, 1 + d.b2 r * Real.exp (soft_max (-(d.b3 r) * x) 10 (1 / 10)) ≠ 0 := by
          intro x
          rcases h x with h' | h' | h'
          · exact absurd h' h1
          · exact absurd h' h2
          · exact h'.2.1
        have hs : Continuous fun x : ℝ => soft_max (-(d.b3 r) * x) 10 (1 / 10) := by
          simp only [soft_max_real]
          exact ((continuous_soft_min (s := 1 / 10)).comp (by fun_prop : Continuous fun x : ℝ => 10 - -(d.b3 r) * x)).neg.add
            continuous_const
        have : Continuous fun x : ℝ => d.b1 r / (1 + d.b2 r * Real.exp (soft_max (-(d.b3 r) * x) 10 (1 / 10))) :=
          Continuous.div (by fun_prop) (by fun_prop) hne
        simp only [Bool.false_eq_true, if_false]
        fun_prop
      · simp only [h1, h2, h3, if_false, Bool.false_eq_true]; fun_prop

end Mimosa
