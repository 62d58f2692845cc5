import Verif.Props.EndToEnd
import Verif.Props.Trade
import Verif.Props.Climate

/-!
# C67: the modules named in the configuration are the ones that are solved
-/

namespace Mimosa

variable {B : Builtins} {uni : Char → Bool} {F : RegionalFiles} {W : DataWorld} {user params : Val} {c : DataCache}
  {tree : Py Parser} {md : Modules} {entries : List (String × IData)} {σ : Env}

namespace Spec
/-- The documented names of the modules (config_default.yaml:359-405). -/
def damageName : DamageModule → String
  | .COACCH => "COACCH" | .nodamage => "nodamage"
def tradeName : TradeModule → String
  | .notrade => "notrade" | .emissiontrade => "emissiontrade" | .globalcostpool => "globalcostpool"
def transferName : TransferModule → String
  | .notransfer => "notransfer" | .globaldamagepool => "globaldamagepool"
def welfareName : WelfareModule → String
  | .welfare_loss_minimising => "welfare_loss_minimising" | .cost_minimising => "cost_minimising"
  | .inequal_aversion_general => "inequal_aversion_general"
def objectiveName : ObjectiveModule → String
  | .utility => "utility" | .globalcosts => "globalcosts"
end Spec

/-- A choice between names without braces that cannot be switched off. -/
def isNameEnum : Parser → Bool
  | .enum b l => !b.canBeFalse && l.all fun
    | .atom (.str s) => decide ('{' ∉ s.toList)
    | _ => false
  | _ => false

theorem name_effective (hu : user.WF) (h : mimosaParams B uni DefaultYaml.entries user = .ok (params, tree))
    {ks : List Key} (ht : parserTest ks isNameEnum = true) :
    ∃ s, Effective user ks (.atom (.str s)) ∧ getNested ks params = .ok (.atom (.str s)) := by
  obtain ⟨p, hp, hq⟩ := parserTest_spec ht
  unfold isNameEnum at hq
  split at hq
  · rename_i b l
    simp only [Bool.and_eq_true, Bool.not_eq_true', List.all_eq_true] at hq
    obtain ⟨hb, hl⟩ := hq
    obtain ⟨u, he⟩ : ∃ u, Effective user ks u := by
      obtain ⟨d, hc, hwf, hpv, -⟩ := mimosaParams_spec hu h
      obtain ⟨node, hn, hcr⟩ := hp
      obtain ⟨p', v, hc', h1, hor⟩ := C02_values default_ok hc hn
      rcases hor with ⟨u, hu', -⟩ | ⟨hu', -⟩
      · exact ⟨u, .inl hu'⟩
      · exact ⟨_, .inr ⟨hu', node, hn, rfl⟩⟩
    obtain ⟨v, hv, hfin, -⟩ := final_value hu h hp he
    simp only [Parser.parse] at hv
    rw [if_neg (by
      intro hf
      rw [((checkFalse_iff b u).1 hf).1] at hb
      cases hb)] at hv
    split at hv
    · rename_i hin
      cases hv
      simp only [Val.isIn, List.any_eq_true] at hin
      obtain ⟨a, ha, hau⟩ := hin
      have := hl a ha
      split at this
      · rename_i s
        have hs : u = .atom (.str s) := by
          cases u with
          | atom x =>
            simp only [Val.eq] at hau
            cases x <;> simp_all [Scalar.eq, Scalar.num?]
          | list l => simp [Val.eq] at hau
          | dict d => simp [Val.eq] at hau
        subst hs
        refine ⟨s, he, hfin ⟨rfl, fun s' h' => ?_⟩⟩
        cases h'
        simpa using this
      · cases this
    · cases hv
  · cases hq

/-- **C67.** The five modules of the model are the ones that the configuration names (or the defaults). -/
theorem C67_modules (hu : user.WF) (S : Setup B uni F W user c params tree md entries) :
    Effective user [.str "model", .str "damage module"] (.atom (.str (Spec.damageName md.damage))) ∧
    Effective user [.str "model", .str "emissiontrade module"] (.atom (.str (Spec.tradeName md.trade))) ∧
    Effective user [.str "model", .str "financialtransfer module"] (.atom (.str (Spec.transferName md.transfer))) ∧
    Effective user [.str "model", .str "welfare module"] (.atom (.str (Spec.welfareName md.welfare))) ∧
    Effective user [.str "model", .str "objective module"] (.atom (.str (Spec.objectiveName md.objective))) := by
  obtain ⟨d, hd, hd'⟩ := name_effective hu S.config (ks := [.str "model", .str "damage module"]) (by decide +kernel)
  obtain ⟨t, ht, ht'⟩ := name_effective hu S.config (ks := [.str "model", .str "emissiontrade module"]) (by decide +kernel)
  obtain ⟨f, hf, hf'⟩ := name_effective hu S.config (ks := [.str "model", .str "financialtransfer module"])
    (by decide +kernel)
  obtain ⟨w, hw, hw'⟩ := name_effective hu S.config (ks := [.str "model", .str "welfare module"]) (by decide +kernel)
  obtain ⟨o, ho, ho'⟩ := name_effective hu S.config (ks := [.str "model", .str "objective module"]) (by decide +kernel)
  have hm := S.modules
  have hi : ∀ (k s : String) (m : Val), getNested [.str "model"] params = .ok m →
      getNested [.str "model", .str k] params = .ok (.atom (.str s)) → strItem k m = .ok s := by
    intro k s m h1 h2
    have := getNested_append [.str "model"] [.str k] params
    simp only [List.cons_append, List.nil_append] at this
    rw [h1, h2] at this
    simp only at this
    simp only [strItem, ← this]
  unfold readModules at hm
  split at hm
  · cases hm
  rename_i m hmod
  rw [hi _ _ _ hmod hd', hi _ _ _ hmod ht', hi _ _ _ hmod hf', hi _ _ _ hmod hw', hi _ _ _ hmod ho'] at hm
  simp only at hm
  have key : Spec.damageName md.damage = d ∧ Spec.tradeName md.trade = t ∧ Spec.transferName md.transfer = f ∧
      Spec.welfareName md.welfare = w ∧ Spec.objectiveName md.objective = o := by
    unfold Modules.ofStrings at hm
    simp only [bind, Except.bind, pure, Except.pure] at hm
    split at hm
    · cases hm
    rename_i d₁ e₁
    split at hm
    · cases hm
    rename_i t₁ e₂
    split at hm
    · cases hm
    rename_i f₁ e₃
    split at hm
    · cases hm
    rename_i w₁ e₄
    split at hm
    · cases hm
    rename_i o₁ e₅
    cases hm
    refine ⟨?_, ?_, ?_, ?_, ?_⟩
    · unfold DamageModule.ofString at e₁
      split_ifs at e₁ with h1 h2 <;> cases e₁ <;> simp_all [Spec.damageName]
    · unfold TradeModule.ofString at e₂
      split_ifs at e₂ with h1 h2 h3 <;> cases e₂ <;> simp_all [Spec.tradeName]
    · unfold TransferModule.ofString at e₃
      split_ifs at e₃ with h1 h2 <;> cases e₃ <;> simp_all [Spec.transferName]
    · unfold WelfareModule.ofString at e₄
      split_ifs at e₄ with h1 h2 h3 <;> cases e₄ <;> simp_all [Spec.welfareName]
    · unfold ObjectiveModule.ofString at e₅
      split_ifs at e₅ with h1 h2 <;> cases e₅ <;> simp_all [Spec.objectiveName]
  obtain ⟨rfl, rfl, rfl, rfl, rfl⟩ := key
  exact ⟨hd, ht, hf, hw, ho⟩

/-- What the user writes is what is used: `model: damage module: nodamage` and so on. -/
theorem C67_written (hu : user.WF) (S : Setup B uni F W user c params tree md entries) {v : Val} :
    (getNested [.str "model", .str "damage module"] user = .ok v → v = .atom (.str (Spec.damageName md.damage))) ∧
    (getNested [.str "model", .str "emissiontrade module"] user = .ok v → v = .atom (.str (Spec.tradeName md.trade))) ∧
    (getNested [.str "model", .str "financialtransfer module"] user = .ok v →
      v = .atom (.str (Spec.transferName md.transfer))) ∧
    (getNested [.str "model", .str "welfare module"] user = .ok v → v = .atom (.str (Spec.welfareName md.welfare))) ∧
    (getNested [.str "model", .str "objective module"] user = .ok v →
      v = .atom (.str (Spec.objectiveName md.objective))) := by
  have key : ∀ {ks : List Key} {u : Val}, Effective user ks u → getNested ks user = .ok v → v = u := by
    intro ks u he hv
    rcases he with he | ⟨he, -⟩
    · rw [hv] at he; cases he; rfl
    · rw [hv] at he; cases he
  obtain ⟨h1, h2, h3, h4, h5⟩ := C67_modules hu S
  exact ⟨key h1, key h2, key h3, key h4, key h5⟩

/-- A module that the user does not mention is the documented default. -/
theorem C67_defaults (hu : user.WF) (S : Setup B uni F W user c params tree md entries) :
    (getNested [.str "model", .str "damage module"] user = .error .keyError → md.damage = .COACCH) ∧
    (getNested [.str "model", .str "emissiontrade module"] user = .error .keyError → md.trade = .notrade) ∧
    (getNested [.str "model", .str "financialtransfer module"] user = .error .keyError → md.transfer = .notransfer) ∧
    (getNested [.str "model", .str "welfare module"] user = .error .keyError →
      md.welfare = .welfare_loss_minimising) ∧
    (getNested [.str "model", .str "objective module"] user = .error .keyError → md.objective = .utility) := by
  have key : ∀ {ks : List Key} {u : Val} (s : String), Effective user ks u → getNested ks user = .error .keyError →
      (defTest ks fun v => Val.eq v (.atom (.str s))) = true → u = .atom (.str s) := by
    intro ks u s he hv ht
    rcases he with he | ⟨-, node, hn, rfl⟩
    · rw [hv] at he; cases he
    · exact (valEq_str _ _).1 (defTest_spec ht hn)
  obtain ⟨h1, h2, h3, h4, h5⟩ := C67_modules hu S
  refine ⟨fun h => ?_, fun h => ?_, fun h => ?_, fun h => ?_, fun h => ?_⟩
  · have := key "COACCH" h1 h (by decide +kernel)
    revert this
    cases md.damage <;> simp [Spec.damageName]
  · have := key "notrade" h2 h (by decide +kernel)
    revert this
    cases md.trade <;> simp [Spec.tradeName]
  · have := key "notransfer" h3 h (by decide +kernel)
    revert this
    cases md.transfer <;> simp [Spec.transferName]
  · have := key "welfare_loss_minimising" h4 h (by decide +kernel)
    revert this
    cases md.welfare <;> simp [Spec.welfareName]
  · have := key "utility" h5 h (by decide +kernel)
    revert this
    cases md.objective <;> simp [Spec.objectiveName]

/-- In terms of the results: with `damage module: nodamage` no solution of the run has any damages, and with
`emissiontrade module: notrade` every region pays for its own abatement only. -/
theorem C67_effect (hu : user.WF) (S : Setup B uni F W user c params tree md entries)
    (h : Solution md (paramsOf entries) σ) {t : ℕ} (ht : t ≤ (paramsOf entries).tf) {r : String}
    (hr : r ∈ (paramsOf entries).regions) :
    (getNested [.str "model", .str "damage module"] user = .ok (.atom (.str "nodamage")) →
      σ.R .damage_costs t r = 0) ∧
    (getNested [.str "model", .str "emissiontrade module"] user = .ok (.atom (.str "notrade")) →
      σ.R .mitigation_costs t r = σ.R .area_under_MAC t r) := by
  constructor
  · intro hd
    have := (C67_written hu S (v := .atom (.str "nodamage"))).1 hd
    refine C40_nodamage h ?_ ht hr
    revert this
    cases md.damage <;> simp [Spec.damageName]
  · intro hd
    have := (C67_written hu S (v := .atom (.str "notrade"))).2.1 hd
    refine C33_costs_notrade h ?_ ht hr
    revert this
    cases md.trade <;> simp [Spec.tradeName]

/-- The example run names no modules: the defaults. -/
example : ∃ params tree md entries, Setup exampleBuiltins (fun _ => false) exampleFiles2 exampleWorld2
    exampleUser (afterHistory exampleWorld2 []) params tree md entries ∧ md.damage = .COACCH ∧ md.trade = .notrade := by
  obtain ⟨params, tree, md, entries, S, -⟩ := exampleSetup
  have hu : exampleUser.WF := by
    simp [exampleUser, exDict, exStr, Py.WF, Py.WFDict, Py.WFList, Dict.keys]
  have h := C67_defaults hu S
  exact ⟨params, tree, md, entries, S, h.1 rfl, h.2.1 rfl⟩

end Mimosa
