import Verif.Export.Save
import Verif.Export.Json

/-!
# A `MIMOSA` object in use: `solve` and `save` (`mimosa/mimosa.py:142-221`, `mimosa/export/save.py:16-42`)

The solver is an oracle: each call gives its outcome.
-/

namespace Mimosa

/-- Pyomo's `SolverStatus`. [mimosa.py:197-211] -/
inductive SolverStatus
  | ok | warning | error | aborted | unknown
  deriving DecidableEq, Repr

/-- What the solver does with the model: it raises, or it returns a status.  In both cases it may have changed the
values of the variables. [mimosa.py:174-195] -/
inductive SolverOutcome
  | raises (e : Err) (values : Env)
  | returns (status : SolverStatus) (values : Env)

/-- A line that `solve` writes to the log: `Status: …` (mimosa.py:197), `MIMOSA did not solve succesfully. Status: …,
termination condition: …` (mimosa.py:203-206), `Final NPV: …` (mimosa.py:213-217), `Model solve took … seconds.`
(mimosa.py:149, utils.py:30-45; the number of seconds is left out). -/
inductive LogLine
  | status (status : SolverStatus)
  | notSolved (status : SolverStatus) (termination : String)
  | finalNPV (x : ℝ)
  | solveTime

/-- A call of `solve`: the arguments that matter (mimosa.py:150-158), and what happens outside MIMOSA's code: the
solver (with its termination condition), `update_variables` (mimosa.py:145-147) and evaluating `NPV[tf]`
(mimosa.py:213-217). -/
structure SolveCall where
  useNeos : Bool
  email : Option String
  outcome : SolverOutcome
  update : Env → Except Err Env
  npv : Env → Except Err ℝ
  termination : String

/-- A call of `save` (mimosa.py:219, save.py:16): `hash` is the hexadecimal digest of the parameters; `writes` says
whether creating the folder and writing the CSV file succeeds (save.py:32-38), `writesParams` whether writing the
parameter file does (save.py:41-42). -/
structure SaveCall where
  filename : Option String
  folder : String
  hashSuffix : Bool
  hash : String
  writes : Except Err Unit
  writesParams : Except Err Unit

/-- A parameter file on disk: completely written, or possibly left incomplete by an error. [save.py:41-42] -/
inductive ParamFile
  | complete (j : Json)
  | incomplete

/-- The observable state of a `MIMOSA` object, the CSV files and parameter files it has written, and the lines in the
log, oldest first. [mimosa.py:51-63, 172, 197-217, 220] -/
structure Session where
  status : Option SolverStatus
  lastSaved : Option String
  values : Env
  files : String → Option SavedFile
  paramFiles : String → Option ParamFile
  log : List LogLine

/-- What does not change: the model, its number of regions and the configuration. [mimosa.py:51-63] -/
structure SessionModel where
  model : AbstractModel
  params : Params
  units : String → Option (List Char)
  config : Val

namespace Session
variable (M : SessionModel)

/-- mimosa.py:59-63: a new object; `values` are the initial values of the variables. -/
def init (values : Env) : Session := ⟨none, none, values, fun _ => none, fun _ => none, []⟩

/-- mimosa.py:142-147 `postprocessing`. -/
def postprocessing (c : SolveCall) (values : Env) : Except Err Env :=
  if M.params.regions.length > 1 then c.update values else .ok values

/-- mimosa.py:149-217 `solve`. -/
def solve (c : SolveCall) (s : Session) : Session × Except Err Unit :=
  -- line 173
  let s := { s with status := none }
  -- line 178: `os.environ[...] = None` is a `TypeError`
  if c.useNeos = true ∧ c.email = none then (s, .error .typeError)
  else match c.outcome with
    | .raises e values => ({ s with values := values }, .error e)
    | .returns status values =>
      match postprocessing M c values with
      | .error e => ({ s with values := values }, .error e)
      | .ok values' =>
        -- lines 197, 199
        let s := { s with values := values', status := some status, log := s.log ++ [.status status] }
        if status ≠ .ok then
          -- lines 202-208
          if status = .warning then
            ({ s with log := s.log ++ [.notSolved status c.termination] }, .error .solverException)
          else (s, .error .solverException)
        else match c.npv values' with
          | .error e => (s, .error e)
          -- lines 213-217, and the timer around `solve`, which only writes when `solve` returns
          | .ok x => ({ s with log := s.log ++ [.finalNPV x, .solveTime] }, .ok ())

/-- Python's `f"{filename}"`. [save.py:34-36] -/
def fileText : Option String → String
  | some f => f
  | none => "None"

/-- save.py:33-36 the path of the CSV file. -/
def path (c : SaveCall) : String :=
  c.folder ++ "/" ++ (if c.hashSuffix then fileText c.filename ++ "_" ++ c.hash else fileText c.filename) ++ ".csv"

/-- save.py:41 the path of the parameter file. -/
def paramPath (c : SaveCall) : String := path c ++ ".params.json"

/-- mimosa.py:219-221 `save`. -/
noncomputable def save (c : SaveCall) (s : Session) : Session × Except Err Unit :=
  let s := { s with lastSaved := c.filename }
  match c.writes with
  | .error e => (s, .error e)
  | .ok _ =>
    let s := { s with
      files := fun q => if q = path c then some (saveOutput M.model M.params M.units s.values) else s.files q }
    match c.writesParams with
    | .error e => ({ s with paramFiles := fun q => if q = paramPath c then some .incomplete else s.paramFiles q }, .error e)
    | .ok _ => ({ s with paramFiles := fun q => if q = paramPath c then some (.complete (jsonDump M.config))
        else s.paramFiles q }, .ok ())

end Session

/-- A call on the object. [mimosa.py:119-221] -/
inductive Call
  | solve (c : SolveCall)
  | save (c : SaveCall)

/-- One call; an exception does not end the session (the caller may catch it).
[mimosa.py:119-221] -/
noncomputable def Session.step (M : SessionModel) (s : Session) : Call → Session
  | .solve c => (s.solve M c).1
  | .save c => (s.save M c).1

/-- A history of calls. [mimosa.py:119-221] -/
noncomputable def Session.run (M : SessionModel) (s : Session) (calls : List Call) : Session :=
  calls.foldl (Session.step M) s

end Mimosa
