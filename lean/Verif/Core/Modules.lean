/-! # The selectable modules (`create_abstract_model`, abstract_model.py:27-33) -/

namespace Mimosa

/-- abstract_model.py:98-105 -/
inductive DamageModule | COACCH | nodamage
  deriving DecidableEq, Repr
/-- abstract_model.py:109-120 -/
inductive TradeModule | notrade | globalcostpool | emissiontrade
  deriving DecidableEq, Repr
/-- abstract_model.py:123-130 -/
inductive TransferModule | notransfer | globaldamagepool
  deriving DecidableEq, Repr
/-- abstract_model.py:139-146 -/
inductive WelfareModule | welfare_loss_minimising | cost_minimising | inequal_aversion_general
  deriving DecidableEq, Repr
/-- abstract_model.py:149-154 -/
inductive ObjectiveModule | utility | globalcosts
  deriving DecidableEq, Repr

/-- abstract_model.py:27-33: the five module choices that `create_abstract_model` takes. -/
structure Modules where
  damage : DamageModule
  trade : TradeModule
  transfer : TransferModule
  welfare : WelfareModule
  objective : ObjectiveModule
  deriving DecidableEq, Repr

end Mimosa
