import Verif.AbstractModel
import Verif.Config.Refs
import Verif.Data.DataStore
import Verif.Data.Regional

/-!
# `mimosa/concrete_model/instantiate_params.py`: the parameter values of the concrete model
-/

namespace Mimosa

/-- What `instance_data[None]` holds for one component. [instantiate_params.py:60-127] -/
inductive IData
  /-- `V(value)`, i.e. `{None: value}` -/
  | scalar (v : Val)
  /-- a dictionary on regions -/
  | regional (l : List (String × Val))
  /-- a dictionary on pairs (time step, region) -/
  | timeRegional (l : List ((ℕ × String) × ℚ))
  /-- `V(range(num_years))` -/
  | steps (l : List ℕ)
  /-- `V(params["regions"].keys())` -/
  | names (l : List String)
  /-- an entry of `params["simulation"]["custom_mapping"]` -/
  | custom (v : Val)

/-- `s.split("::")`; `acc` is the current piece, reversed. [instantiate_params.py:84-91] -/
def splitColons (acc : List Char) : List Char → List (List Char)
  | ':' :: ':' :: s => acc.reverse :: splitColons [] s
  | c :: s => splitColons (c :: acc) s
  | [] => [acc.reverse]

/-- `s.split(".")` [instantiate_params.py:84-91] -/
def splitDots (acc : List Char) : List Char → List (List Char)
  | '.' :: s => acc.reverse :: splitDots [] s
  | c :: s => splitDots (c :: acc) s
  | [] => [acc.reverse]

/-- `a, b = s.split(".", 1)`; a `ValueError` without a dot. [instantiate_params.py:94-100] -/
def splitDotOnce (acc : List Char) : List Char → Except Err (List Char × List Char)
  | '.' :: s => .ok (acc.reverse, s)
  | c :: s => splitDotOnce (c :: acc) s
  | [] => .error .valueError

/-- `s.split("::")[1]` [instantiate_params.py:84-111] -/
def colonPart (s : List Char) : Except Err (List Char) :=
  match splitColons [] s with
  | _ :: b :: _ => .ok b
  | _ => .error .indexError

/-- `params["time"]`, instantiate_params.py:62-64.  (`start`, `end` are integers and `dt` a float after the
configuration has been parsed; NaN or infinity fail in `int(np.ceil(…))`.) -/
def readTime (params : Val) : Except Err TimeParams :=
  match getNested [.str "time", .str "start"] params, getNested [.str "time", .str "end"] params,
      getNested [.str "time", .str "dt"] params with
  | .ok (.atom (.int a)), .ok (.atom (.int b)), .ok (.atom (.float (.fin q))) => .ok ⟨a, b, q⟩
  | .error e, _, _ => .error e
  | _, .error e, _ => .error e
  | _, _, .error e => .error e
  | _, _, _ => .error .valueError

/-- What `InstantiatedModel` works with. [instantiate_params.py:36-60] -/
structure InstCtx where
  B : Builtins
  P : Pint
  params : Val
  tree : Py Parser
  regionalStore : RegionalStore
  dataStore : DataStore
  time : TimeParams
  regions : List String

namespace InstCtx
variable (X : InstCtx)

/-- instantiate_params.py:78-81: the doc string of a parameter; `str(None)` for a parameter without one. -/
def docString (d : ParamDecl) : Except Err String :=
  match d.doc with
  | .none => .ok "None"
  | .str s => .ok s
  | .fn f => f (pyStr X.B) X.params

/-- instantiate_params.py:84-91: `"::a.b"`. -/
def scalarValue (doc : List Char) : Except Err IData :=
  match colonPart doc with
  | .error e => .error e
  | .ok part =>
    let keys := (splitDots [] part).map fun k => Key.str (String.ofList k)
    match getNested keys X.params with
    | .error e => .error e
    | .ok v => match getNested keys X.tree with
      | .error e => .error e
      | .ok (.atom (.quantity _ unit)) => match quant2 X.B X.P true v (pyStr X.B unit).toList with
        | .error e => .error e
        | .ok w => .ok (.scalar w)
      | .ok (.atom _) => .ok (.scalar v)
      | .ok _ => .error .attributeError

/-- instantiate_params.py:94-100: `"regional::cat.name"`. -/
def regionalValue (doc : List Char) : Except Err IData :=
  match colonPart doc with
  | .error e => .error e
  | .ok part => match splitDotOnce [] part with
    | .error e => .error e
    | .ok (cat, name) => match X.regionalStore.get X.B (String.ofList cat) (String.ofList name) with
      | .error e => .error e
      | .ok l => .ok (.regional l)

/-- instantiate_params.py:105-111: one dictionary entry per pair. -/
def seriesValues (name : String) : List (ℕ × String) → Except Err (List ((ℕ × String) × ℚ))
  | [] => .ok []
  | (t, r) :: rest => match X.dataStore.interpData (X.time.year t) r name with
    | .error e => .error e
    | .ok v => match seriesValues name rest with
      | .error e => .error e
      | .ok l => .ok (((t, r), v) :: l)

/-- instantiate_params.py:109-110: `for t in range(num_years) for r in params["regions"].keys()`. -/
def indexPairs : List (ℕ × String) := X.time.steps.flatMap fun t => X.regions.map fun r => (t, r)

/-- instantiate_params.py:103-111: `"timeandregional::v"`. -/
def timeRegionalValue (doc : List Char) : Except Err IData :=
  match colonPart doc with
  | .error e => .error e
  | .ok part => match X.seriesValues (String.ofList part) X.indexPairs with
    | .error e => .error e
    | .ok l => .ok (.timeRegional l)

/-- instantiate_params.py:72-111: the value of one parameter (`none`: not set here).  (The three `if`s exclude one
another.) -/
def paramValue (d : ParamDecl) : Except Err (Option IData) :=
  match X.docString d with
  | .error e => .error e
  | .ok doc =>
    if "::".toList.isPrefixOf doc.toList then match X.scalarValue doc.toList with
      | .error e => .error e
      | .ok v => .ok (some v)
    else if "regional::".toList.isPrefixOf doc.toList then match X.regionalValue doc.toList with
      | .error e => .error e
      | .ok v => .ok (some v)
    else if "timeandregional::".toList.isPrefixOf doc.toList then match X.timeRegionalValue doc.toList with
      | .error e => .error e
      | .ok v => .ok (some v)
    else .ok none

/-- instantiate_params.py:72-111: the loop over the parameters of the abstract model. -/
def docValues : List ParamDecl → Except Err (List (String × IData))
  | [] => .ok []
  | d :: ds => match X.paramValue d with
    | .error e => .error e
    | .ok v => match docValues ds with
      | .error e => .error e
      | .ok l => .ok (match v with
        | some v => (d.name, v) :: l
        | none => l)

/-- instantiate_params.py:113-120 `parameter_mapping_manual`. -/
def manualValues : List (String × IData) :=
  [("beginyear", .scalar (.atom (.int X.time.start))),
   ("dt", .scalar (.atom (.float (.fin X.time.dt)))),
   ("tf", .scalar (.atom (.int X.time.tf))),
   ("t", .steps X.time.steps),
   ("year2100", .scalar (.atom (.int X.time.year2100))),
   ("regions", .names X.regions)]

/-- instantiate_params.py:124-125: `params["simulation"]["custom_mapping"]`, if present. -/
def customValues : Except Err (List (String × IData)) :=
  match getNested [.str "simulation"] X.params with
  | .error e => .error e
  | .ok sim => match getNested [.str "custom_mapping"] sim with
    | .error .keyError => .ok []
    | .error e => .error e
    | .ok (.dict d) => .ok (d.filterMap fun e => match e.1 with
      | .str s => some (s, .custom e.2)
      | .int _ => none)
    | .ok _ => .error .typeError

/-- instantiate_params.py:145 `V_region` -/
def vRegion (v : Val) : IData := .regional (X.regions.map fun r => (r, v))

/-- instantiate_params.py:129-169 `_set_instance_data_coacch`. -/
def coacchValues : Except Err (List (String × IData)) :=
  let quantile : Except Err Val := match getNested [.str "economics", .str "damages", .str "quantile"] X.params with
    | .error .keyError => .ok (.atom (.float (.fin (1 / 2))))
    | r => r
  match quantile, getNested [.str "economics", .str "damages", .str "coacch_combined_slr_nonslr_damages"] X.params,
      getNested [.str "economics", .str "damages", .str "coacch_slr_withadapt"] X.params with
  | .error e, _, _ => .error e
  | .ok _, .error e, _ => .error e
  | .ok _, .ok _, .error e => .error e
  | .ok q, .ok combined, .ok withadapt =>
    if Val.truthy combined then
      let suffix := "_" ++ (if Val.truthy withadapt then "Ad" else "NoAd") ++ "-q" ++ pyStr X.B q
      match X.regionalStore.get X.B "COACCH" ("combined_b1" ++ suffix),
          X.regionalStore.get X.B "COACCH" ("combined_b2" ++ suffix) with
      | .error e, _ => .error e
      | .ok _, .error e => .error e
      | .ok b1, .ok b2 => .ok
        [("damage_noslr_form", X.vRegion (.atom (.str "Robust-Quadratic"))),
         ("damage_noslr_b1", .regional b1),
         ("damage_noslr_b2", .regional b2),
         ("damage_noslr_b3", X.vRegion (.atom (.int 0))),
         ("damage_noslr_a", X.vRegion (.atom (.int 1))),
         ("damage_slr_form", X.vRegion (.atom (.str "Robust-Linear"))),
         ("damage_slr_b1", X.vRegion (.atom (.int 0))),
         ("damage_slr_b2", X.vRegion (.atom (.int 0))),
         ("damage_slr_b3", X.vRegion (.atom (.int 0))),
         ("damage_slr_a", X.vRegion (.atom (.int 0)))]
    else .ok []

/-- instantiate_params.py:36-53 `get_param_values`: the entries in the order in which they are assigned (a later
entry of the same name replaces an earlier one). -/
def instanceEntries (decls : List ParamDecl) : Except Err (List (String × IData)) :=
  match getNested [.str "model", .str "damage module"] X.params with
  | .error e => .error e
  | .ok damage => match X.docValues decls with
    | .error e => .error e
    | .ok docs => match X.customValues with
      | .error e => .error e
      | .ok custom =>
        let main := docs ++ X.manualValues ++ custom
        if Val.eq damage (.atom (.str "COACCH")) then match X.coacchValues with
          | .error e => .error e
          | .ok coacch => .ok (main ++ coacch)
        else .ok main

end InstCtx

/-- `instance_data[None][name]`: the last assignment. [instantiate_params.py:60-127] -/
def instanceValue (name : String) (entries : List (String × IData)) : Option IData :=
  match entries.reverse.find? fun e => decide (e.1 = name) with
  | some e => some e.2
  | none => none

/-- `params["input"]["variables"][name]`, datastore.py:65-68, 100-101. -/
def readVarInfo (v : Val) : Except Err VarInfo :=
  match strItem "file" v, strItem "model" v, strItem "scenario" v, strItem "variable" v with
  | .ok file, .ok model, .ok scenario, .ok var => match getNested [.str "unit"] v with
    | .error .keyError => .ok ⟨file, model, scenario, var, none⟩
    | .error e => .error e
    | .ok (.atom (.str u)) => .ok ⟨file, model, scenario, var, some u⟩
    | .ok _ => .error .attributeError
  | .error e, _, _, _ => .error e
  | _, .error e, _, _ => .error e
  | _, _, .error e, _ => .error e
  | _, _, _, .error e => .error e

/-- datastore.py:34: the items of `params["input"]["variables"]`. -/
def readVars : List (Key × Val) → Except Err (List (String × VarInfo))
  | [] => .ok []
  | (.int _, _) :: _ => .error .typeError
  | (.str name, v) :: rest => match readVarInfo v with
    | .error e => .error e
    | .ok info => match readVars rest with
      | .error e => .error e
      | .ok l => .ok ((name, info) :: l)

/-- The parts of `params` that the data store uses.  (They are read up front here; the code reads them one by
one, which only matters for which of several errors is raised.) [datastore.py:28-55] -/
def readStoreParams (params : Val) : Except Err StoreParams :=
  match readTime params, regionNames params, getNested [.str "input", .str "variables"] params with
  | .error e, _, _ => .error e
  | .ok _, .error e, _ => .error e
  | .ok _, .ok _, .error e => .error e
  | .ok τ, .ok regions, .ok (.dict d) => match readVars d with
    | .error e => .error e
    | .ok vars => .ok ⟨τ, regions, vars⟩
  | .ok _, .ok _, .ok _ => .error .attributeError

/-- mimosa.py:85-112 `create_instance` up to Pyomo: regional parameter store, data store (with the process-wide
cache), instance data, for the parameters `decls` of the abstract model. -/
def instantiate (B : Builtins) (F : RegionalFiles) (W : DataWorld) (decls : List ParamDecl) (params : Val)
    (tree : Py Parser) (c : DataCache) : Except Err (List (String × IData)) :=
  match newRegionalStore F params with
  | .error e => .error e
  | .ok rs => match readStoreParams params with
    | .error e => .error e
    | .ok sp => match (newDataStore W sp c).2 with
      | .error e => .error e
      | .ok ds => (InstCtx.mk B W.pint params tree rs ds sp.time sp.regions).instanceEntries decls

end Mimosa
