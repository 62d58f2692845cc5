import Verif.Props.Compare
import Verif.Props.Determined

/-!
# C76: the names of the regions carry no meaning

The same data under other region names (and in another order) have the same solutions; data for other regions and for
later years are not used.
-/

namespace Mimosa
variable {md : Modules} {p q : Params} {σ τ : Env} {f : String → String}

/-- The settings of `p`, with the regions and the regional data of `q`. -/
abbrev Params.withRegions (p q : Params) : Params := { p with
    regions := q.regions
    population := q.population
    baseline_GDP := q.baseline_GDP
    baseline_emissions := q.baseline_emissions
    noslr := q.noslr
    slr := q.slr
    mortality_oldest := q.mortality_oldest
    mortality_older := q.mortality_older
    mortality_young := q.mortality_young
    MAC_scaling_factor := q.MAC_scaling_factor
    init_capitalstock_factor := q.init_capitalstock_factor }

/-- Two damage functions, the second one for region `s`, agree. -/
structure Spec.SameDamage (d : DamageCoeffs) (r : String) (d' : DamageCoeffs) (s : String) : Prop where
  form : d'.form s = d.form r
  a : d'.a s = d.a r
  b1 : d'.b1 s = d.b1 r
  b2 : d'.b2 s = d.b2 r
  b3 : d'.b3 s = d.b3 r

/-- The same for the mortality coefficients. -/
structure Spec.SameMortality (d : MortalityCoeffs) (r : String) (d' : MortalityCoeffs) (s : String) : Prop where
  a : d'.a s = d.a r
  b : d'.b s = d.b r
  c : d'.c s = d.c r

/-- Region `s` of `q` has, in the `tf + 1` time steps of the run, the data of region `r` of `p`. -/
structure Spec.SameRegion (p : Params) (r : String) (q : Params) (s : String) : Prop where
  population : ∀ t ≤ p.tf, q.population t s = p.population t r
  gdp : ∀ t ≤ p.tf, q.baseline_GDP t s = p.baseline_GDP t r
  emissions : ∀ t ≤ p.tf, q.baseline_emissions t s = p.baseline_emissions t r
  noslr : Spec.SameDamage p.noslr r q.noslr s
  slr : Spec.SameDamage p.slr r q.slr s
  mortality_oldest : Spec.SameMortality p.mortality_oldest r q.mortality_oldest s
  mortality_older : Spec.SameMortality p.mortality_older r q.mortality_older s
  mortality_young : Spec.SameMortality p.mortality_young r q.mortality_young s
  mac : q.MAC_scaling_factor s = p.MAC_scaling_factor r
  capital : q.init_capitalstock_factor s = p.init_capitalstock_factor r

/-- `q` lists, in some order, the regions of `p` under the new names `f r`, with the same data. -/
structure Spec.Renamed (f : String → String) (p q : Params) : Prop where
  names : q.regions.Perm (p.regions.map f)
  distinct : ∀ r ∈ p.regions, ∀ s ∈ p.regions, f r = f s → r = s
  same : ∀ r ∈ p.regions, Spec.SameRegion p r q (f r)

/-- `τ` reports for the region named `f r` what `σ` reports for `r`, and the same global values. -/
structure Spec.SameValues (f : String → String) (p : Params) (σ τ : Env) : Prop where
  regional : ∀ v, ∀ t ≤ p.tf, ∀ r ∈ p.regions, τ.R v t (f r) = σ.R v t r
  world : ∀ v, ∀ t ≤ p.tf, τ.G v t = σ.G v t

namespace Names

theorem formVal_eq {d d' : DamageCoeffs} {r s : String} (h : Spec.SameDamage d r d' s) (x : ℝ) :
    formVal x d' s = formVal x d r := by
  unfold formVal; rw [h.form, h.a, h.b1, h.b2, h.b3]

theorem formOk_eq {d d' : DamageCoeffs} {r s : String} (h : Spec.SameDamage d r d' s) (x : ℝ) :
    FormOk x d' s ↔ FormOk x d r := by
  unfold FormOk; rw [h.form, h.b2, h.b3]

theorem known_eq {d d' : DamageCoeffs} {r s : String} (h : Spec.SameDamage d r d' s) :
    KnownForm d' s ↔ KnownForm d r := by
  unfold KnownForm; rw [h.form]

theorem calib {r s : String} (h : Spec.SameRegion p r q s) {t : ℕ} (ht : t ≤ p.tf) :
    calibCapital (p.withRegions q) s t = calibCapital p r t := by
  induction t with
  | zero => simp [calibCapital, h.gdp 0 ht, h.capital]
  | succ t ih => simp [calibCapital, ih (Nat.le_of_succ_le ht), h.gdp t (Nat.le_of_succ_le ht)]

theorem tfp {r s : String} (h : Spec.SameRegion p r q s) {t : ℕ} (ht : t ≤ p.tf) :
    get_TFP_value (p.withRegions q) t s = get_TFP_value p t r := by
  simp [get_TFP_value, calib h ht, h.gdp t ht, h.population t ht]

theorem cumBase {r s : String} (h : Spec.SameRegion p r q s) {t : ℕ} (ht : t ≤ p.tf) :
    (p.withRegions q).cumulative_baseline_emissions t s = p.cumulative_baseline_emissions t r := by
  unfold Params.cumulative_baseline_emissions
  congr 1
  exact List.map_congr_left fun u hu => h.emissions u ((Nat.le_of_lt_succ (List.mem_range.1 hu)).trans ht)

theorem sums (hn : Spec.Renamed f p q) {F F' : String → ℝ} (h : ∀ r ∈ p.regions, F' (f r) = F r) :
    (q.regions.map F').sum = (p.regions.map F).sum := by
  rw [(hn.names.map F').sum_eq, List.map_map]
  exact congrArg List.sum (List.map_congr_left h)

theorem mem (hn : Spec.Renamed f p q) {s : String} (hs : s ∈ q.regions) : ∃ r ∈ p.regions, f r = s :=
  List.mem_map.1 (hn.names.mem_iff.1 hs)

theorem regional (hn : Spec.Renamed f p q) {P : String → Prop} (h : ∀ r ∈ p.regions, P (f r)) : ∀ s ∈ q.regions, P s := by
  intro s hs
  obtain ⟨r, hr, rfl⟩ := mem hn hs
  exact h r hr

theorem forward (hn : Spec.Renamed f p q) (hv : Spec.SameValues f p σ τ) (h : Solution md p σ) :
    Solution md (p.withRegions q) τ := by
  obtain ⟨htr, hr, c, hb, e⟩ := solution_char.1 h
  have hG := hv.world
  have hR := hv.regional
  have hnil : q.regions ≠ [] := by
    intro h0
    have := hn.names
    rw [h0] at this
    exact hr (List.map_eq_nil_iff.1 this.nil_eq.symm)
  have hS : ∀ {F F' : String → ℝ}, (∀ r ∈ p.regions, F' (f r) = F r) → (p.withRegions q).sumR F' = p.sumR F :=
    fun h => sums hn h
  have hcg : ∀ t ≤ p.tf, (p.withRegions q).cumulative_global_baseline_emissions t =
      p.cumulative_global_baseline_emissions t := fun t ht => sums hn fun r hr => cumBase (hn.same r hr) ht
  have hsp : ∀ t ≤ p.tf, ((p.withRegions q).regions.map fun s => (p.withRegions q).population t s).sum =
      (p.regions.map fun s => p.population t s).sum := fun t ht => sums hn fun r hr => (hn.same r hr).population t ht
  have hse : ((p.withRegions q).regions.map fun s => (p.withRegions q).baseline_emissions 0 s).sum =
      (p.regions.map fun s => p.baseline_emissions 0 s).sum := sums hn fun r hr => (hn.same r hr).emissions 0 (Nat.zero_le _)
  have hSp : ∀ t ≤ p.tf, (p.withRegions q).sumR (fun s => (p.withRegions q).population t s) =
      p.sumR fun s => p.population t s := hsp
  have hshare : ∀ t ≤ p.tf, ∀ r ∈ p.regions, (p.withRegions q).percapconv_share t (f r) = p.percapconv_share t r := by
    intro t ht r hr
    have h1 : (p.withRegions q).percapconv_share_pop t (f r) = p.percapconv_share_pop t r := by
      unfold Params.percapconv_share_pop
      rw [hsp t ht]
      exact congrArg (· / _) ((hn.same r hr).population t ht)
    have h2 : (p.withRegions q).percapconv_share_init (f r) = p.percapconv_share_init r := by
      unfold Params.percapconv_share_init
      rw [hse]
      exact congrArg (· / _) ((hn.same r hr).emissions 0 (Nat.zero_le _))
    unfold Params.percapconv_share
    rw [h1, h2]
    rfl
  have hci : ∀ t ≤ p.tf, ∀ r ∈ p.regions,
      (p.withRegions q).baseline_carbon_intensity t (f r) = p.baseline_carbon_intensity t r := fun t ht r hr => by
    show q.baseline_emissions t (f r) / q.baseline_GDP t (f r) = _
    rw [(hn.same r hr).emissions t ht, (hn.same r hr).gdp t ht]; rfl
  have hmac : ∀ t ≤ p.tf, ∀ r ∈ p.regions, macVal (p.withRegions q) τ t (f r) = macVal p σ t r := fun t ht r hr => by
    show τ.G .learning_factor t * q.MAC_scaling_factor (f r) * p.MAC_gamma * τ.R .relative_abatement t (f r) ^ p.MAC_beta = _
    rw [hG _ t ht, hR _ t ht r hr, (hn.same r hr).mac]; rfl
  have hac : ∀ t ≤ p.tf, ∀ r ∈ p.regions, acVal (p.withRegions q) τ t (f r) = acVal p σ t r := fun t ht r hr => by
    show τ.G .learning_factor t * q.MAC_scaling_factor (f r) * p.MAC_gamma *
      τ.R .relative_abatement t (f r) ^ (p.MAC_beta + 1) / (p.MAC_beta + 1) = _
    rw [hG _ t ht, hR _ t ht r hr, (hn.same r hr).mac]; rfl
  have hacOk : ∀ t ≤ p.tf, ∀ r ∈ p.regions, AcOk (p.withRegions q) τ t (f r) ↔ AcOk p σ t r := fun t ht r hr => by
    show Expr.PowOk (τ.R .relative_abatement t (f r)) (p.MAC_beta + 1) ∧ p.MAC_beta + 1 ≠ 0 ↔ _
    rw [hR _ t ht r hr]; rfl
  have hbal : ∀ t ≤ p.tf, ∀ r ∈ p.regions, costBalanceVal τ md.trade t (f r) = costBalanceVal σ md.trade t r := by
    intro t ht r hr
    unfold costBalanceVal
    split
    · rfl
    · exact hR _ t ht r hr
  have htv : ∀ t ≤ p.tf, ∀ r ∈ p.regions, transferVal τ md.transfer t (f r) = transferVal σ md.transfer t r := by
    intro t ht r hr
    unfold transferVal
    split
    · rfl
    · exact hR _ t ht r hr
  have hrtv : ∀ t ≤ p.tf, ∀ r ∈ p.regions, relTransferVal τ md.transfer t (f r) = relTransferVal σ md.transfer t r := by
    intro t ht r hr
    unfold relTransferVal
    split
    · rfl
    · exact hR _ t ht r hr
  have z : 0 ≤ p.tf := Nat.zero_le _
  refine solution_char.2 ⟨htr, hnil, ⟨?_, c.overshoot, c.index, ?_, c.allowances⟩, ?_,
    ⟨?_, ?_, ?_, ?_, ?_, ?_, ?_, ?_, ?_, ?_⟩⟩
  · exact { c.init with
      gdp_ne := fun t ht => regional hn fun r hr => by
        rw [(hn.same r hr).gdp t ht]; exact c.init.gdp_ne t ht r hr
      sum_emissions_ne := fun _ => by rw [hse]; exact c.init.sum_emissions_ne hr
      sum_population_ne := fun t ht _ => by rw [hsp t ht]; exact c.init.sum_population_ne t ht hr
      pop_pow := fun t ht => regional hn fun r hr => by
        rw [(hn.same r hr).population t ht]; exact c.init.pop_pow t ht r hr
      cap_pow := fun t ht => regional hn fun r hr => by
        rw [calib (hn.same r hr) ht]; exact c.init.cap_pow t ht r hr
      tfp_ne := fun t ht => regional hn fun r hr => by
        rw [calib (hn.same r hr) ht, (hn.same r hr).population t ht]; exact c.init.tfp_ne t ht r hr }
  · exact fun h1 => regional hn fun r hr => by
      rw [known_eq (hn.same r hr).noslr, known_eq (hn.same r hr).slr]; exact c.forms h1 r hr
  · intro d hd
    have hsb := sameBounds (p := p) (p' := p.withRegions q) rfl d hd
    have hbd := hb d hd
    cases d with
    | global v lb ub =>
      simp only [VarDecl.SameBounds] at hsb
      simp only [VarDecl.BoundsOk, hsb]
      intro t ht
      have : τ.g v (t : ℤ) = σ.g v t := hG v t ht
      rw [this]
      exact hbd t ht
    | regional v lb ub =>
      simp only [VarDecl.SameBounds] at hsb
      simp only [VarDecl.BoundsOk, hsb]
      intro t ht
      refine regional hn fun r hr => ?_
      have : τ.r v (t : ℤ) (f r) = σ.r v t r := hR v t ht r hr
      rw [this]
      exact hbd t ht r hr
  · exact {
      baseline := fun t ht => regional hn fun r hr => by
        rw [hR _ t ht r hr, hR _ t ht r hr, hci t ht r hr, (hn.same r hr).emissions t ht]
        exact e.emissions.baseline t ht r hr
      regional_emissions := fun t ht => regional hn fun r hr => by
        rw [hR _ (t + 1) ht r hr, hR _ (t + 1) ht r hr, hR _ (t + 1) ht r hr, (hn.same r hr).emissions (t + 1) ht]
        exact e.emissions.regional_emissions t ht r hr
      regional_emissions_init := regional hn fun r hr => by
        rw [hR _ 0 z r hr, (hn.same r hr).emissions 0 z]; exact e.emissions.regional_emissions_init r hr
      reduction := fun t ht => regional hn fun r hr => by
        rw [hR _ t ht r hr, hR _ t ht r hr, hR _ t ht r hr]; exact e.emissions.reduction t ht r hr
      global_emissions := fun t ht => by
        rw [hG _ (t + 1) ht, hS fun r hr => hR _ (t + 1) ht r hr]; exact e.emissions.global_emissions t ht
      global_emissions_init := by
        rw [hG _ 0 z, hS fun r hr => (hn.same r hr).emissions 0 z]; exact e.emissions.global_emissions_init
      cumulative := fun t ht => by
        rw [hG _ (t + 1) ht, hG _ (t + 1) ht, hG _ t ht.le, hG _ t ht.le]; exact e.emissions.cumulative t ht
      cumulative_init := by rw [hG _ 0 z]; exact e.emissions.cumulative_init
      rel_cumulative := fun t ht => by
        rw [hcg (t + 1) ht, hG _ (t + 1) ht, hG _ (t + 1) ht]; exact e.emissions.rel_cumulative t ht
      rel_cumulative_init := by rw [hG _ 0 z]; exact e.emissions.rel_cumulative_init
      temperature := fun t ht => by rw [hG _ t ht, hG _ t ht]; exact e.emissions.temperature t ht
      temperature_init := by rw [hG _ 0 z]; exact e.emissions.temperature_init
      temperature_target := fun t ht => by rw [hG _ t ht]; exact e.emissions.temperature_target t ht
      budget := fun t ht => by rw [hG _ t ht, hG _ t ht]; exact e.emissions.budget t ht
      cumulative_nonneg := fun t ht => by rw [hG _ t ht]; exact e.emissions.cumulative_nonneg t ht
      global_inertia := fun t ht => by
        rw [hG _ (t + 1) ht, hG _ t ht.le, hS fun r hr => (hn.same r hr).emissions 0 z]
        exact e.emissions.global_inertia t ht
      regional_inertia := fun t ht => regional hn fun r hr => by
        rw [hR _ (t + 1) ht r hr, hR _ t ht.le r hr, (hn.same r hr).emissions 0 z]
        exact e.emissions.regional_inertia t ht r hr
      global_min_level := fun t ht => by rw [hG _ t ht]; exact e.emissions.global_min_level t ht
      regional_min_level := fun t ht => regional hn fun r hr => by
        rw [hR _ t ht r hr]; exact e.emissions.regional_min_level t ht r hr
      non_increasing := fun t ht => regional hn fun r hr => by
        intro hy hni
        cases t with
        | zero =>
          have h1 := c.index hni
          exact absurd hy (not_lt.2 h1)
        | succ t =>
          rw [cast_succ_sub_one]
          have h0 := e.emissions.non_increasing (t + 1) ht r hr hy hni
          rw [cast_succ_sub_one] at h0
          have h2 : τ.r .regional_emissions (t : ℤ) (f r) = σ.r .regional_emissions t r :=
            hR _ t (Nat.le_of_succ_le ht) r hr
          rw [hR _ (t + 1) ht r hr, h2]
          exact h0
      net_zero := fun t ht => by rw [hG _ t ht]; exact e.emissions.net_zero t ht }
  · exact {
      thermal := fun t ht => by rw [hG _ (t + 1) ht, hG _ t ht.le, hG _ t ht.le]; exact e.slr.thermal t ht
      thermal_init := by rw [hG _ 0 z]; exact e.slr.thermal_init
      gsic := fun t ht => by rw [hG _ (t + 1) ht, hG _ t ht.le, hG _ t ht.le]; exact e.slr.gsic t ht
      gsic_init := by rw [hG _ 0 z]; exact e.slr.gsic_init
      gis := fun t ht => by rw [hG _ (t + 1) ht, hG _ t ht.le, hG _ t ht.le]; exact e.slr.gis t ht
      gis_init := by rw [hG _ 0 z]; exact e.slr.gis_init
      total := fun t ht => by rw [hG _ t ht, hG _ t ht, hG _ t ht, hG _ t ht]; exact e.slr.total t ht }
  · have := e.damages
    revert this
    cases md.damage
    · intro this
      replace this : CoacchEqs p σ := this
      exact {
        total := fun t ht => regional hn fun r hr => by
          rw [hR _ t ht r hr, hR _ t ht r hr, hR _ t ht r hr]; exact this.total t ht r hr
        noslr := fun t ht => regional hn fun r hr => by
          have hd := (hn.same r hr).noslr
          rw [hG _ t ht, hR _ t ht r hr, formOk_eq hd, formOk_eq hd, formVal_eq hd, formVal_eq hd]
          exact this.noslr t ht r hr
        slr := fun t ht => regional hn fun r hr => by
          have hd := (hn.same r hr).slr
          rw [hG _ t ht, hG _ 0 z, hR _ t ht r hr, formOk_eq hd, formOk_eq hd, formVal_eq hd, formVal_eq hd]
          exact this.slr t ht r hr
        mort_oldest := fun t ht => regional hn fun r hr => by
          have hd := (hn.same r hr).mortality_oldest
          rw [hR _ t ht r hr, hG _ t ht, hd.a, hd.b, hd.c]; exact this.mort_oldest t ht r hr
        mort_older := fun t ht => regional hn fun r hr => by
          have hd := (hn.same r hr).mortality_older
          rw [hR _ t ht r hr, hG _ t ht, hd.a, hd.b, hd.c]; exact this.mort_older t ht r hr
        mort_young := fun t ht => regional hn fun r hr => by
          have hd := (hn.same r hr).mortality_young
          rw [hR _ t ht r hr, hG _ t ht, hd.a, hd.b, hd.c]; exact this.mort_young t ht r hr
        mort_cost := fun t ht => regional hn fun r hr => by
          rw [hR _ t ht r hr, hR _ t ht r hr, (hn.same r hr).population t ht]; exact this.mort_cost t ht r hr }
    · intro this t ht
      refine regional hn fun r hr => ?_
      rw [hR _ t ht r hr]; exact this t ht r hr
  · exact {
      carbonprice := fun t ht => regional hn fun r hr => by
        rw [hR _ t ht r hr, hR _ t ht r hr, hmac t ht r hr]; exact e.mitigation.carbonprice t ht r hr
      carbonprice_init := regional hn fun r hr => by rw [hR _ 0 z r hr]; exact e.mitigation.carbonprice_init r hr
      mitigation_costs := fun t ht => regional hn fun r hr => by
        rw [hacOk t ht r hr, hR _ t ht r hr, hac t ht r hr, hR _ t ht r hr, hbal t ht r hr]
        exact e.mitigation.mitigation_costs t ht r hr
      area := fun t ht => regional hn fun r hr => by
        rw [hacOk t ht r hr, hR _ t ht r hr, hac t ht r hr, hR _ t ht r hr]
        exact e.mitigation.area t ht r hr
      rel_costs := fun t ht => regional hn fun r hr => by
        rw [hR _ t ht r hr, hR _ t ht r hr, hR _ t ht r hr]; exact e.mitigation.rel_costs t ht r hr
      rel_costs_min := fun t ht => regional hn fun r hr => by
        rw [hR _ t ht r hr]; exact e.mitigation.rel_costs_min t ht r hr
      global_rel := fun t ht => by
        rw [hG _ t ht, hS (hR .GDP_gross t ht), hS (hR .mitigation_costs t ht)]; exact e.mitigation.global_rel t ht
      reduction_per_cost := fun t ht => by
        rw [hG _ (t + 1) ht, hS (hR .regional_emission_reduction (t + 1) ht), hS (hR .mitigation_costs (t + 1) ht)]
        exact e.mitigation.reduction_per_cost t ht
      cost_per_reduction := fun t ht => by
        rw [hG _ (t + 1) ht, hS (hR .regional_emission_reduction (t + 1) ht), hS (hR .mitigation_costs (t + 1) ht)]
        exact e.mitigation.cost_per_reduction t ht
      lbd := fun t ht => by rw [hG _ t ht, hG _ t ht, hcg t ht]; exact e.mitigation.lbd t ht
      lot := fun t ht => by rw [hG _ t ht]; exact e.mitigation.lot t ht
      learning := fun t ht => by rw [hG _ t ht, hG _ t ht, hG _ t ht]; exact e.mitigation.learning t ht }
  · have := e.trade
    revert this htr
    cases md.trade
    · exact fun _ => id
    · intro h; exact absurd rfl h
    · intro _ this
      replace this : TradeEqs p σ := this
      exact {
        price := fun t ht => by
          have h1 : (p.withRegions q).sumR (fun r => τ.R .carbonprice t r * (p.withRegions q).population t r) =
              p.sumR fun r => σ.R .carbonprice t r * p.population t r :=
            hS fun r hr => by rw [hR _ t ht r hr, (hn.same r hr).population t ht]
          rw [hG _ t ht, h1, hSp t ht]; exact this.price t ht
        zero_sum := fun t ht => by
          rw [hS (hR .import_export_mitigation_cost_balance t ht)]; exact this.zero_sum t ht
        reduction_balance := fun t ht => regional hn fun r hr => by
          rw [hR _ (t + 1) ht r hr, hR _ (t + 1) ht r hr, hG _ (t + 1) ht]; exact this.reduction_balance t ht r hr
        paid := fun t ht => regional hn fun r hr => by
          rw [hR _ (t + 1) ht r hr, hR _ (t + 1) ht r hr, hR _ (t + 1) ht r hr]; exact this.paid t ht r hr
        allowances := fun t ht => regional hn fun r hr => by
          rw [hR _ (t + 1) ht r hr, hR _ (t + 1) ht r hr, hR _ (t + 1) ht r hr]; exact this.allowances t ht r hr }
  · have := e.transfer
    revert this
    cases md.transfer
    · exact id
    · intro this
      replace this : PoolEqs p σ := this
      exact {
        zero_sum := fun t ht => by rw [hS (hR .financial_transfer (t + 1) ht)]; exact this.zero_sum t ht
        first_year := regional hn fun r hr => by rw [hR _ 0 z r hr]; exact this.first_year r hr
        max_own := fun t ht => regional hn fun r hr => by
          rw [hR _ t ht r hr, hR _ t ht r hr, hR _ t ht r hr]; exact this.max_own t ht r hr
        rel := fun t ht => regional hn fun r hr => by
          rw [hR _ t ht r hr, hR _ t ht r hr, hR _ t ht r hr]; exact this.rel t ht r hr }
  · exact {
      mitigation := fun t ht => regional hn fun r hr => by
        rw [hR _ t ht r hr, hG _ t ht]; exact e.effort.mitigation t ht r hr
      total := fun t ht => regional hn fun r hr => by
        rw [hR _ t ht r hr, hR _ t ht r hr, hG _ t ht, hrtv t ht r hr]; exact e.effort.total t ht r hr
      percap := fun t ht => regional hn fun r hr => by
        rw [hshare (t + 1) ht r hr, hG _ (t + 1) ht, hR _ (t + 1) ht r hr]; exact e.effort.percap t ht r hr }
  · exact {
      gross := fun t ht => regional hn fun r hr => by
        rw [tfp (hn.same r hr) ht, (hn.same r hr).population (t + 1) ht, hR _ (t + 1) ht r hr, hR _ (t + 1) ht r hr]
        exact e.economy.gross t ht r hr
      gross_init := regional hn fun r hr => by
        rw [hR _ 0 z r hr, (hn.same r hr).gdp 0 z]; exact e.economy.gross_init r hr
      net := fun t ht => regional hn fun r hr => by
        rw [hR _ t ht r hr, hR _ t ht r hr, hR _ t ht r hr, hR _ t ht r hr, htv t ht r hr]; exact e.economy.net t ht r hr
      investments := fun t ht => regional hn fun r hr => by
        rw [hR _ t ht r hr, hR _ t ht r hr]; exact e.economy.investments t ht r hr
      consumption := fun t ht => regional hn fun r hr => by
        rw [hR _ t ht r hr, hR _ t ht r hr]; exact e.economy.consumption t ht r hr
      capital := fun t ht => regional hn fun r hr => by
        rw [hR _ (t + 1) ht r hr, hR _ t ht.le r hr, hR _ (t + 1) ht r hr]; exact e.economy.capital t ht r hr
      capital_init := regional hn fun r hr => by
        rw [hR _ 0 z r hr, (hn.same r hr).gdp 0 z, (hn.same r hr).capital]; exact e.economy.capital_init r hr }
  · have := e.welfare
    revert this
    cases md.welfare
    · rintro ⟨h1, h2⟩
      refine ⟨fun t ht => regional hn fun r hr => ?_, fun t ht => ?_⟩
      · rw [(hn.same r hr).population t ht, hR _ t ht r hr, hR _ t ht r hr]; exact h1 t ht r hr
      · have h3 : (p.withRegions q).sumR (fun r => (p.withRegions q).population t r * τ.R .utility t r) =
            p.sumR fun r => p.population t r * σ.R .utility t r :=
          hS fun r hr => by rw [hR _ t ht r hr, (hn.same r hr).population t ht]
        rw [hG _ t ht, h3]; exact h2 t ht
    · rintro ⟨h1, h2⟩
      refine ⟨fun t ht => regional hn fun r hr => ?_, fun t ht => ?_⟩
      · rw [(hn.same r hr).population t ht, hR _ t ht r hr, hR _ t ht r hr]; exact h1 t ht r hr
      · rw [hG _ t ht, hSp t ht, hS (hR .consumption t ht)]; exact h2 t ht
    · rintro ⟨h1, h2⟩
      refine ⟨fun t ht => regional hn fun r hr => ?_, fun t ht => ?_⟩
      · rw [(hn.same r hr).population t ht, hR _ t ht r hr, hR _ t ht r hr]; exact h1 t ht r hr
      · rw [hG _ t ht, hSp t ht, hS (hR .utility t ht)]; exact h2 t ht
  · have := e.objective
    revert this
    cases md.objective
    · rintro ⟨h1, h2⟩
      refine ⟨fun t ht => ?_, by rw [hG _ 0 z]; exact h2⟩
      rw [hG _ (t + 1) ht, hG _ t ht.le, hG _ (t + 1) ht]; exact h1 t ht
    · rintro ⟨h1, h2⟩
      refine ⟨fun t ht => ?_, by rw [hG _ 0 z]; exact h2⟩
      have h3 : (p.withRegions q).sumR (fun r => τ.R .damage_costs (t + 1) r * τ.R .GDP_gross (t + 1) r) =
          p.sumR fun r => σ.R .damage_costs (t + 1) r * σ.R .GDP_gross (t + 1) r :=
        hS fun r hr => by rw [hR _ (t + 1) ht r hr, hR _ (t + 1) ht r hr]
      rw [hG _ (t + 1) ht, hG _ t ht.le, hS (hR .mitigation_costs (t + 1) ht), h3]; exact h1 t ht

/-! ### The way back -/

theorem SameDamage.symm {d d' : DamageCoeffs} {r s : String} (h : Spec.SameDamage d r d' s) : Spec.SameDamage d' s d r :=
  ⟨h.form.symm, h.a.symm, h.b1.symm, h.b2.symm, h.b3.symm⟩
theorem SameMortality.symm {d d' : MortalityCoeffs} {r s : String} (h : Spec.SameMortality d r d' s) :
    Spec.SameMortality d' s d r := ⟨h.a.symm, h.b.symm, h.c.symm⟩

theorem SameRegion.symm {r s : String} (h : Spec.SameRegion p r q s) : Spec.SameRegion (p.withRegions q) s p r where
  population := fun t ht => (h.population t ht).symm
  gdp := fun t ht => (h.gdp t ht).symm
  emissions := fun t ht => (h.emissions t ht).symm
  noslr := SameDamage.symm h.noslr
  slr := SameDamage.symm h.slr
  mortality_oldest := SameMortality.symm h.mortality_oldest
  mortality_older := SameMortality.symm h.mortality_older
  mortality_young := SameMortality.symm h.mortality_young
  mac := h.mac.symm
  capital := h.capital.symm

open Classical in
/-- The old name of a region. -/
noncomputable def back (f : String → String) (p : Params) (s : String) : String :=
  if h : ∃ r ∈ p.regions, f r = s then h.choose else s

theorem back_eq (hn : Spec.Renamed f p q) {r : String} (hr : r ∈ p.regions) : back f p (f r) = r := by
  have h : ∃ r' ∈ p.regions, f r' = f r := ⟨r, hr, rfl⟩
  unfold back
  rw [dif_pos h]
  exact hn.distinct _ h.choose_spec.1 r hr h.choose_spec.2

theorem renamed_back (hn : Spec.Renamed f p q) : Spec.Renamed (back f p) (p.withRegions q) p where
  names := by
    have h1 : (p.regions.map f).map (back f p) = p.regions := by
      rw [List.map_map]
      conv_rhs => rw [← List.map_id p.regions]
      exact List.map_congr_left fun r hr => back_eq hn hr
    have h2 := (hn.names.map (back f p)).symm
    rw [h1] at h2
    exact h2
  distinct := fun s hs s' hs' he => by
    obtain ⟨r, hr, rfl⟩ := mem hn hs
    obtain ⟨r', hr', rfl⟩ := mem hn hs'
    rw [back_eq hn hr, back_eq hn hr'] at he
    rw [he]
  same := regional hn fun r hr => by rw [back_eq hn hr]; exact SameRegion.symm (hn.same r hr)

theorem values_back (hn : Spec.Renamed f p q) (hv : Spec.SameValues f p σ τ) :
    Spec.SameValues (back f p) (p.withRegions q) τ σ where
  regional := fun v t ht => regional hn fun r hr => by rw [back_eq hn hr]; exact (hv.regional v t ht r hr).symm
  world := fun v t ht => (hv.world v t ht).symm

end Names

/-- **C76.** The names of the regions carry no meaning: if `q` holds the data of `p` under other region names, then the
values `τ` (of the renamed regions) solve the renamed model exactly when the values `σ` solve the original one, with the
same objective. -/
theorem C76_region_names (hn : Spec.Renamed f p q) (hv : Spec.SameValues f p σ τ) :
    (Solution md (p.withRegions q) τ ↔ Solution md p σ) ∧
      Spec.objectiveValue md (p.withRegions q) τ = Spec.objectiveValue md p σ := by
  refine ⟨⟨fun h => Names.forward (p := p.withRegions q) (q := p) (Names.renamed_back hn)
    (Names.values_back hn hv) h, Names.forward hn hv⟩, ?_⟩
  unfold Spec.objectiveValue
  cases md.objective
  · exact hv.world _ _ le_rfl
  · exact congrArg Neg.neg (hv.world _ _ le_rfl)

/-- **C76.** … and the optimal solutions correspond in the same way. -/
theorem C76_optimal (hn : Spec.Renamed f p q) (hv : Spec.SameValues f p σ τ) :
    Optimal md (p.withRegions q) τ ↔ Optimal md p σ := by
  have hobj : ∀ {σ τ : Env}, Spec.SameValues f p σ τ →
      (Objective.objectiveExpr (p.withRegions q)).eval τ = (Objective.objectiveExpr p).eval σ :=
    fun hv => hv.world _ _ le_rfl
  unfold Optimal
  refine and_congr (C76_region_names hn hv).1 ⟨fun h σ' h' => ?_, fun h τ' h' => ?_⟩
  · have hv' : Spec.SameValues f p σ' ⟨σ'.g, fun v t s => σ'.r v t (Names.back f p s)⟩ :=
      ⟨fun v t ht r hr => by show σ'.r v t (Names.back f p (f r)) = _; rw [Names.back_eq hn hr], fun _ _ _ => rfl⟩
    have := h _ ((C76_region_names hn hv').1.2 h')
    rw [hobj hv, hobj hv'] at this
    exact this
  · have hv' : Spec.SameValues f p ⟨τ'.g, fun v t r => τ'.r v t (f r)⟩ τ' := ⟨fun _ _ _ _ _ => rfl, fun _ _ _ => rfl⟩
    have := h _ ((C76_region_names hn hv').1.1 h')
    rw [hobj hv, hobj hv']
    exact this

/-- **C76.** Only the data of the listed regions in the `tf + 1` time steps of the run are used: with other data elsewhere,
and other values of the variables elsewhere, the solutions are the same. -/
theorem C76_unused_data (hr : q.regions = p.regions) (hd : ∀ r ∈ p.regions, Spec.SameRegion p r q r)
    (hG : ∀ v, ∀ t ≤ p.tf, τ.G v t = σ.G v t) (hR : ∀ v, ∀ t ≤ p.tf, ∀ r ∈ p.regions, τ.R v t r = σ.R v t r) :
    (Solution md (p.withRegions q) τ ↔ Solution md p σ) ∧ (Optimal md (p.withRegions q) τ ↔ Optimal md p σ) := by
  have hn : Spec.Renamed id p q := ⟨by rw [hr, List.map_id], fun _ _ _ _ h => h, hd⟩
  have hv : Spec.SameValues id p σ τ := ⟨hR, hG⟩
  exact ⟨(C76_region_names hn hv).1, C76_optimal hn hv⟩

/-! ## Regions with the same data -/

/-- Two regions of the run with the same data. -/
structure Spec.Twins (p : Params) (a b : String) : Prop where
  nodup : p.regions.Nodup
  left : a ∈ p.regions
  right : b ∈ p.regions
  same : Spec.SameRegion p a p b

/-- The name `a` for `b` and `b` for `a`. -/
def Spec.exchange (a b r : String) : String := if r = a then b else if r = b then a else r

/-- The results with those of `a` and `b` exchanged. -/
def Env.exchange (σ : Env) (a b : String) : Env := ⟨σ.g, fun v t r => σ.r v t (Spec.exchange a b r)⟩

namespace Names

theorem exchange_left (a b : String) : Spec.exchange a b a = b := by simp [Spec.exchange]
theorem exchange_right (a b : String) : Spec.exchange a b b = a := by
  unfold Spec.exchange; split
  · assumption
  · simp
theorem exchange_other {a b r : String} (h : r ≠ a) (h' : r ≠ b) : Spec.exchange a b r = r := by simp [Spec.exchange, h, h']

theorem exchange_twice (a b r : String) : Spec.exchange a b (Spec.exchange a b r) = r := by
  by_cases h : r = a
  · rw [h, exchange_left, exchange_right]
  · by_cases h' : r = b
    · rw [h', exchange_right, exchange_left]
    · rw [exchange_other h h', exchange_other h h']

theorem twins_renamed {a b : String} (ht : Spec.Twins p a b) : Spec.Renamed (Spec.exchange a b) p p where
  names := by
    have hinj : Function.Injective (Spec.exchange a b) := fun r s h => by
      rw [← exchange_twice a b r, h, exchange_twice]
    refine (List.perm_ext_iff_of_nodup ht.nodup (ht.nodup.map hinj)).2 fun r => ?_
    have hm : ∀ r, r ∈ p.regions → Spec.exchange a b r ∈ p.regions := by
      intro r hr
      unfold Spec.exchange
      split
      · exact ht.right
      · split
        · exact ht.left
        · exact hr
    refine ⟨fun hr => List.mem_map.2 ⟨_, hm r hr, exchange_twice a b r⟩, fun hr => ?_⟩
    obtain ⟨s, hs, rfl⟩ := List.mem_map.1 hr
    exact hm s hs
  distinct := fun r _ s _ h => by rw [← exchange_twice a b r, h, exchange_twice]
  same := fun r hr => by
    by_cases h : r = a
    · rw [h, exchange_left]; exact ht.same
    · by_cases h' : r = b
      · rw [h', exchange_right]; exact SameRegion.symm ht.same
      · rw [exchange_other h h']
        exact ⟨fun _ _ => rfl, fun _ _ => rfl, fun _ _ => rfl, ⟨rfl, rfl, rfl, rfl, rfl⟩, ⟨rfl, rfl, rfl, rfl, rfl⟩,
          ⟨rfl, rfl, rfl⟩, ⟨rfl, rfl, rfl⟩, ⟨rfl, rfl, rfl⟩, rfl, rfl⟩

theorem exchange_values (a b : String) : Spec.SameValues (Spec.exchange a b) p σ (σ.exchange a b) where
  regional := fun v t _ r _ => by
    show σ.r v t (Spec.exchange a b (Spec.exchange a b r)) = _
    rw [exchange_twice]
  world := fun _ _ _ => rfl

theorem exchange_abatement {a b : String}
    (ha : ∀ t ≤ p.tf, σ.R .relative_abatement t a = σ.R .relative_abatement t b) :
    Spec.SameAbatement p σ (σ.exchange a b) := by
  intro t htt r hr
  show _ = σ.r .relative_abatement t (Spec.exchange a b r)
  by_cases h : r = a
  · rw [h, exchange_left]; exact ha t htt
  · by_cases h' : r = b
    · rw [h', exchange_right]; exact (ha t htt).symm
    · rw [exchange_other h h']

end Names

/-- **C76.** The results of two regions with the same data can be exchanged: the outcome is again a solution, with the
same objective, and again optimal. -/
theorem C76_exchange {a b : String} (ht : Spec.Twins p a b) :
    (Solution md p (σ.exchange a b) ↔ Solution md p σ) ∧
      Spec.objectiveValue md p (σ.exchange a b) = Spec.objectiveValue md p σ ∧
      (Optimal md p (σ.exchange a b) ↔ Optimal md p σ) := by
  have := C76_region_names (md := md) (σ := σ) (Names.twins_renamed ht) (Names.exchange_values a b)
  exact ⟨this.1, this.2, C76_optimal (Names.twins_renamed ht) (Names.exchange_values a b)⟩

/-- **C76.** So when the optimal abatement is unique, two regions with the same data abate the same. -/
theorem C76_unique_optimum {a b : String} (ht : Spec.Twins p a b) (h : Optimal md p σ)
    (hu : ∀ τ, Optimal md p τ → Spec.SameAbatement p σ τ) {t : ℕ} (htt : t ≤ p.tf) :
    σ.R .relative_abatement t a = σ.R .relative_abatement t b := by
  have := hu _ (C76_exchange ht |>.2.2.2 h) t htt a ht.left
  rw [this]
  show σ.r _ _ (Spec.exchange a b a) = _
  rw [Names.exchange_left]

/-- **C76.** Two regions with the same data and the same abatement have the same emissions, damages and carbon prices
(exogenous baseline, all modules) … -/
theorem C76_twins {a b : String} (ht : Spec.Twins p a b) (h : Solution md p σ)
    (hex : p.use_carbon_intensity_for_baseline = false)
    (ha : ∀ t ≤ p.tf, σ.R .relative_abatement t a = σ.R .relative_abatement t b) {t : ℕ} (htt : t ≤ p.tf) :
    σ.R .regional_emissions t a = σ.R .regional_emissions t b ∧ σ.R .baseline t a = σ.R .baseline t b ∧
    σ.R .damage_costs t a = σ.R .damage_costs t b ∧ σ.R .carbonprice t a = σ.R .carbonprice t b ∧
    σ.R .area_under_MAC t a = σ.R .area_under_MAC t b := by
  have h' : Solution md p (σ.exchange a b) := (C76_exchange ht).1.2 h
  have hs := Names.exchange_abatement (p := p) ha
  have e := (C54_emissions h h' hs hex htt).1 a ht.left
  have d := C54_damages h h' hs hex htt ht.left
  have c := (C54_costs h h' hs hex htt).2 a ht.left
  have x : ∀ v, (σ.exchange a b).R v t a = σ.R v t b := fun v => by
    show σ.r v t (Spec.exchange a b a) = _; rw [Names.exchange_left]
  exact ⟨e.1.trans (x _), e.2.1.trans (x _), d.trans (x _), c.1.trans (x _), c.2.1.trans (x _)⟩

/-- … and, without trade and transfers, the same costs, capital and GDP; also with the carbon-intensity baseline. -/
theorem C76_twins_economy {a b : String} (ht : Spec.Twins p a b) (h : Solution md p σ) (hadm : p.Admissible)
    (hn : Spec.NegativeFeedback md p) (huse : p.use_carbon_intensity_for_baseline = true)
    (htr : md.trade = .notrade) (hf : md.transfer = .notransfer) (hw : Spec.WithinGDP p σ)
    (ha : ∀ t ≤ p.tf, σ.R .relative_abatement t a = σ.R .relative_abatement t b) {t : ℕ} (htt : t ≤ p.tf) :
    σ.R .regional_emissions t a = σ.R .regional_emissions t b ∧
    σ.R .damage_costs t a = σ.R .damage_costs t b ∧ σ.R .mitigation_costs t a = σ.R .mitigation_costs t b ∧
    σ.R .capital_stock t a = σ.R .capital_stock t b ∧ σ.R .GDP_net t a = σ.R .GDP_net t b ∧
    σ.R .consumption t a = σ.R .consumption t b := by
  have h' : Solution md p (σ.exchange a b) := (C76_exchange ht).1.2 h
  have hs := Names.exchange_abatement (p := p) ha
  have e := (C54_emissions_carbon_intensity hadm hn huse htr hf h h' hs hw htt).1 a ht.left
  have c := C54_costs_carbon_intensity hadm hn huse htr hf h h' hs hw htt ht.left
  have k := C54_economy_carbon_intensity hadm hn huse htr hf h h' hs hw htt ht.left
  have x : ∀ v, (σ.exchange a b).R v t a = σ.R v t b := fun v => by
    show σ.r v t (Spec.exchange a b a) = _; rw [Names.exchange_left]
  exact ⟨e.2.trans (x _), c.1.trans (x _), c.2.2.trans (x _), k.1.trans (x _), k.2.2.1.trans (x _),
    k.2.2.2.2.trans (x _)⟩

end Mimosa
