import Verif.Components.FinTransfer

/-! # `mimosa/components/effortsharing.py` -/

namespace Mimosa.EffortSharing
open Mimosa RuleOut GeneralConstraint PyNum

/-- effortsharing.py:99-106 (default `epsilon=0.005`, pyomo_utils.py:128). -/
noncomputable def equalMitigationCosts : GeneralConstraint :=
  .regionalSoft (fun _ t r => rv .rel_mitigation_costs t r)
    (fun _ t _ => gv .effort_sharing_common_level t)
    "effort_sharing_regime_mitigation_costs" (some 0.005) none
    (fun p _ _ => p.effort_sharing_regime ≠ "equal_mitigation_costs")

/-- effortsharing.py:148-157. -/
noncomputable def equalTotalCosts (tm : TransferModule) : GeneralConstraint :=
  .regionalSoft
    (fun _ t r => rv .rel_mitigation_costs t r + rv .damage_costs t r + FinTransfer.relTransfer tm t r)
    (fun _ t _ => gv .effort_sharing_common_level t)
    "effort_sharing_regime_total_costs" (some 0.005) none
    (fun p t _ => p.effort_sharing_regime ≠ "equal_total_costs" ∨ p.year t > 2100)

/-- effortsharing.py:226-235. -/
noncomputable def percapconv : GeneralConstraint :=
  .regionalSoft (fun p t r => num (p.percapconv_share t r) * gv .global_emissions t)
    (fun _ t r => rv .regional_emission_allowances t r)
    "percapconv_rule" none (some 0.001)
    (fun p t _ => p.effort_sharing_regime ≠ "per_cap_convergence" ∨ t = 0)

/-- effortsharing.py:21-67 `get_constraints` (parameters: 54, 210-223). -/
noncomputable def component (tm : TransferModule) : Component where
  vars := [ .global .effort_sharing_common_level noBound noBound ]
  params :=
    [ ⟨"effort_sharing_regime", .scalar, .str "::effort sharing.regime"⟩,
      ⟨"percapconv_share_init", .overR, .none⟩,
      ⟨"percapconv_year", .scalar, .str "::effort sharing.percapconv_year"⟩,
      ⟨"percapconv_share_pop", .overTR, .none⟩,
      ⟨"percapconv_share", .overTR, .none⟩ ]
  constraints := [ equalMitigationCosts, equalTotalCosts tm, percapconv ]

end Mimosa.EffortSharing
