import Verif.Components.FinTransfer

/-! # `mimosa/components/cobbdouglas.py` -/

namespace Mimosa.CobbDouglas
open Mimosa RuleOut GeneralConstraint PyNum

/-- cobbdouglas.py:127-140, constraint `GDP_gross` (`m.TFP` is `economics.get_TFP_value`, line 122). -/
noncomputable def rGDPgross (p : Params) (t : ℕ) (r : String) : RuleOut :=
  .onlyIf (t > 0)
    (rv .GDP_gross t r =ₚ
      calc_GDP (num (get_TFP_value p t r)) (num (p.population t r))
        (soft_min (rv .capital_stock t r) (scale := 10)) p.alpha)

/-- cobbdouglas.py:141-143, constraint `GDP_gross_init`. -/
noncomputable def rGDPgrossInit (p : Params) (r : String) : RuleOut :=
  .rel (rv .GDP_gross 0 r =ₚ num (p.baseline_GDP 0 r))

/-- cobbdouglas.py:144-151, constraint `GDP_net`. -/
noncomputable def rGDPnet (tm : TransferModule) (p : Params) (t : ℕ) (r : String) : RuleOut :=
  .rel (rv .GDP_net t r =ₚ
    rv .GDP_gross t r *
        (num 1 - (if !p.ignore_damages then rv .damage_costs t r else num 0))
      - rv .mitigation_costs t r - FinTransfer.transfer tm t r)

/-- cobbdouglas.py:152-155, constraint `investments`. -/
noncomputable def rInvestments (p : Params) (t : ℕ) (r : String) : RuleOut :=
  .rel (rv .investments t r =ₚ num p.sr * rv .GDP_net t r)

/-- cobbdouglas.py:156-159, constraint `consumption`. -/
noncomputable def rConsumption (p : Params) (t : ℕ) (r : String) : RuleOut :=
  .rel (rv .consumption t r =ₚ (num 1 - num p.sr) * rv .GDP_net t r)

/-- cobbdouglas.py:160-174, constraint `capital_stock`. -/
noncomputable def rCapital (p : Params) (t : ℕ) (r : String) : RuleOut :=
  .onlyIf (t > 0)
    (rv .capital_stock t r =ₚ rv .capital_stock (t - 1) r +
      num p.dt * calc_dKdt (rv .capital_stock t r) p.dk (rv .investments t r) p.dt)

/-- cobbdouglas.py:175-178 (unnamed). -/
noncomputable def rCapitalInit (p : Params) (r : String) : RuleOut :=
  .rel (rv .capital_stock 0 r =ₚ num (p.init_capitalstock_factor r) * num (p.baseline_GDP 0 r))

/-- cobbdouglas.py:22-182 `get_constraints`. -/
noncomputable def component (tm : TransferModule) : Component where
  vars :=
    [ .regional .capital_stock noBound noBound,
      .regional .GDP_gross noBound noBound,
      .regional .GDP_net noBound noBound,
      .regional .investments noBound noBound,
      .regional .consumption noBound noBound ]
  params :=
    [ ⟨"init_capitalstock_factor", .overR, .str "regional::economics.init_capital_factor"⟩,
      ⟨"alpha", .scalar, .str "::economics.GDP.alpha"⟩,
      ⟨"dk", .scalar, .str "::economics.GDP.depreciation of capital"⟩,
      ⟨"sr", .scalar, .str "::economics.GDP.savings rate"⟩,
      ⟨"ignore_damages", .scalar, .str "::economics.damages.ignore damages"⟩,
      ⟨"TFP", .overTR, .none⟩ ]
  constraints :=
    [ .regional rGDPgross (some "GDP_gross"),
      .regionalInit rGDPgrossInit (some "GDP_gross_init"),
      .regional (rGDPnet tm) (some "GDP_net"),
      .regional rInvestments (some "investments"),
      .regional rConsumption (some "consumption"),
      .regional rCapital (some "capital_stock"),
      .regionalInit rCapitalInit none ]

end Mimosa.CobbDouglas
