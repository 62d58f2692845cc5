import Verif.Core.Component
import Verif.Core.Modules

/-! # `mimosa/components/financialtransfer/{notransfer,globaldamagepool}.py` -/

namespace Mimosa.FinTransfer
open Mimosa RuleOut GeneralConstraint PyNum

/-- `m.financial_transfer[t, r]`: a variable with the damage pool, a `Param` equal to `0` without transfers
(notransfer.py:22). -/
noncomputable def transfer (tm : TransferModule) (t : ℕ) (r : String) : Expr :=
  match tm with
  | .notransfer => num 0
  | .globaldamagepool => rv .financial_transfer t r

/-- `m.rel_financial_transfer[t, r]`, likewise (notransfer.py:23). -/
noncomputable def relTransfer (tm : TransferModule) (t : ℕ) (r : String) : Expr :=
  match tm with
  | .notransfer => num 0
  | .globaldamagepool => rv .rel_financial_transfer t r

/-- notransfer.py:11-25 `get_constraints`. -/
def notransfer : Component where
  vars := []
  params := [ ⟨"financial_transfer", .overTR, .none⟩, ⟨"rel_financial_transfer", .overTR, .none⟩ ]
  constraints := []

/-- globaldamagepool.py:56-63, constraint `zero_sum_of_yearly_financial_transfer`. -/
noncomputable def rZeroSum (p : Params) (t : ℕ) : RuleOut :=
  .onlyIf (t > 0) ((sumRegions p fun r => rv .financial_transfer t r) =ₚ num 0)

/-- globaldamagepool.py:64-67, constraint `no_transfer_in_first_year`. -/
noncomputable def rFirstYear (_ : Params) (r : String) : RuleOut :=
  .rel (rv .financial_transfer 0 r =ₚ num 0)

/-- globaldamagepool.py:68-72, constraint `received_financial_transfer_max_own_damages`. -/
def rMaxOwn (_ : Params) (t : ℕ) (r : String) : RuleOut :=
  .rel (rv .financial_transfer t r ≥ₚ -(rv .damage_costs t r) * rv .GDP_gross t r)

/-- globaldamagepool.py:73-77, constraint `financial_transfer_rel_to_gdp`. -/
def rRel (_ : Params) (t : ℕ) (r : String) : RuleOut :=
  .rel (rv .rel_financial_transfer t r * rv .GDP_gross t r =ₚ rv .financial_transfer t r)

/-- globaldamagepool.py:19-81 `get_constraints`. -/
noncomputable def globaldamagepool : Component where
  vars :=
    [ .regional .financial_transfer noBound noBound,
      .regional .rel_financial_transfer noBound noBound ]
  params := []
  constraints :=
    [ .global rZeroSum (some "zero_sum_of_yearly_financial_transfer"),
      .regionalInit rFirstYear (some "no_transfer_in_first_year"),
      .regional rMaxOwn (some "received_financial_transfer_max_own_damages"),
      .regional rRel (some "financial_transfer_rel_to_gdp") ]

/-- abstract_model.py:121-128: the selected financial transfer module. -/
noncomputable def component : TransferModule → Component
  | .notransfer => notransfer
  | .globaldamagepool => globaldamagepool

end Mimosa.FinTransfer
