import Verif.Session
import Verif.Lib.Example2

/-!
# C48: `solve` reports failure, for every history of calls
-/

namespace Mimosa

variable {M : SessionModel} {s : Session} {calls before after : List Call}

/-! ## Specification -/

/-- The solver was called and came back, and the variables could be updated. -/
def SolveCall.Finished (M : SessionModel) (c : SolveCall) (status : SolverStatus) (values : Env) : Prop :=
  ¬ (c.useNeos = true ∧ c.email = none) ∧ ∃ raw, c.outcome = .returns status raw ∧
    ((M.params.regions.length > 1 ∧ c.update raw = .ok values) ∨ (M.params.regions.length ≤ 1 ∧ values = raw))

/-- `path` is where the call writes. -/
def SaveCall.WritesTo (c : SaveCall) (path : String) : Prop :=
  c.writes = .ok () ∧ ∃ name, ((c.filename = some name) ∨ (c.filename = none ∧ name = "None")) ∧
    ((c.hashSuffix = true ∧ path = c.folder ++ "/" ++ (name ++ "_" ++ c.hash) ++ ".csv") ∨
     (c.hashSuffix = false ∧ path = c.folder ++ "/" ++ name ++ ".csv"))

/-! ## One call -/

theorem solve_cases (M : SessionModel) (c : SolveCall) (s : Session) :
    (∃ status values, c.Finished M status values ∧
      ((s.solve M c).1.status = some status ∧ (s.solve M c).1.values = values ∧ (s.solve M c).1.lastSaved = s.lastSaved ∧
        (s.solve M c).1.files = s.files ∧ (s.solve M c).1.paramFiles = s.paramFiles) ∧
      ((s.solve M c).2 = .ok () ↔ status = .ok ∧ ∃ x, c.npv values = .ok x) ∧
      (status ≠ .ok → (s.solve M c).2 = .error .solverException) ∧
      (status = .ok → ∀ x, c.npv values = .ok x → (s.solve M c).1.log = s.log ++ [.status .ok, .finalNPV x, .solveTime]) ∧
      (status = .ok → ∀ e, c.npv values = .error e → (s.solve M c).1.log = s.log ++ [.status .ok]) ∧
      (status = .warning → (s.solve M c).1.log = s.log ++ [.status .warning, .notSolved .warning c.termination]) ∧
      (status ≠ .ok → status ≠ .warning → (s.solve M c).1.log = s.log ++ [.status status])) ∨
    ((∀ status values, ¬ c.Finished M status values) ∧ (s.solve M c).1.status = none ∧
      ((s.solve M c).1.lastSaved = s.lastSaved ∧ (s.solve M c).1.files = s.files ∧
        (s.solve M c).1.paramFiles = s.paramFiles) ∧ (∃ e, (s.solve M c).2 = .error e) ∧
      (s.solve M c).1.log = s.log) := by
  unfold Session.solve SolveCall.Finished
  by_cases hn : c.useNeos = true ∧ c.email = none
  · rw [if_pos hn]
    exact .inr ⟨fun st v h => h.1 hn, rfl, ⟨rfl, rfl, rfl⟩, ⟨_, rfl⟩, rfl⟩
  rw [if_neg hn]
  cases ho : c.outcome with
  | raises e v =>
    refine .inr ⟨?_, rfl, ⟨rfl, rfl, rfl⟩, ⟨_, rfl⟩, rfl⟩
    rintro st v' ⟨-, raw, h, -⟩
    cases h
  | returns st raw =>
    simp only [Session.postprocessing]
    by_cases hr : M.params.regions.length > 1
    · rw [if_pos hr]
      cases hu : c.update raw with
      | error e =>
        refine .inr ⟨?_, rfl, ⟨rfl, rfl, rfl⟩, ⟨_, rfl⟩, rfl⟩
        rintro st v' ⟨-, raw', h, h' | h'⟩
        · cases h; rw [hu] at h'; cases h'.2
        · omega
      | ok v =>
        refine .inl ⟨st, v, ⟨hn, raw, rfl, .inl ⟨hr, hu⟩⟩, ?_⟩
        cases st with
        | ok => cases hv : c.npv v <;> simp [hv]
        | warning => simp
        | error => simp
        | aborted => simp
        | unknown => simp
    · rw [if_neg hr]
      refine .inl ⟨st, raw, ⟨hn, raw, rfl, .inr ⟨by omega, rfl⟩⟩, ?_⟩
      cases st with
      | ok => cases hv : c.npv raw <;> simp [hv]
      | warning => simp
      | error => simp
      | aborted => simp
      | unknown => simp

theorem Finished.unique {c : SolveCall} {s1 s2 : SolverStatus} {v1 v2 : Env} (h1 : c.Finished M s1 v1)
    (h2 : c.Finished M s2 v2) : s1 = s2 ∧ v1 = v2 := by
  obtain ⟨-, raw, e, h⟩ := h1
  obtain ⟨-, raw', e', h'⟩ := h2
  rw [e] at e'
  cases e'
  refine ⟨rfl, ?_⟩
  rcases h with ⟨a, b⟩ | ⟨a, b⟩ <;> rcases h' with ⟨a', b'⟩ | ⟨a', b'⟩
  · rw [b] at b'; exact Except.ok.inj b'
  · omega
  · omega
  · rw [b, b']

/-- **C48.** A call of `solve` that returns normally means that the solver reported success, and that the object records
it. -/
theorem C48_normal_return {c : SolveCall} (h : (s.solve M c).2 = .ok ()) :
    (∃ values, c.Finished M .ok values ∧ (s.solve M c).1.values = values) ∧ (s.solve M c).1.status = some .ok := by
  rcases solve_cases M c s with ⟨st, v, h1, h2, h3, -⟩ | ⟨-, -, -, ⟨e, he⟩, -⟩
  · obtain ⟨rfl, -⟩ := h3.1 h
    exact ⟨⟨v, h1, h2.2.1⟩, h2.1⟩
  · rw [he] at h; cases h

/-- **C48.** Conversely a successful solver run returns normally (the objective value only has to be computable). -/
theorem C48_success {c : SolveCall} {values : Env} (h : c.Finished M .ok values) (hv : ∃ x, c.npv values = .ok x) :
    (s.solve M c).2 = .ok () := by
  rcases solve_cases M c s with ⟨st, v, h1, -, h3, -⟩ | ⟨h1, -⟩
  · obtain ⟨rfl, rfl⟩ := Finished.unique h1 h
    exact h3.2 ⟨rfl, hv⟩
  · exact absurd h (h1 _ _)

/-- **C48.** If the solver reports any other status, `SolverException` is raised, after the status was recorded. -/
theorem C48_failure {c : SolveCall} {status : SolverStatus} {values : Env} (h : c.Finished M status values)
    (hs : status ≠ .ok) : (s.solve M c).2 = .error .solverException ∧ (s.solve M c).1.status = some status := by
  rcases solve_cases M c s with ⟨st, v, h1, h2, -, h4, -⟩ | ⟨h1, -⟩
  · obtain ⟨rfl, rfl⟩ := Finished.unique h1 h
    exact ⟨h4 hs, h2.1⟩
  · exact absurd h (h1 _ _)

/-- **C48.** If the solver itself fails (or `use_neos` is set without an email address), an exception is raised and the
status of any earlier run is forgotten. -/
theorem C48_solver_raises {c : SolveCall} (h : ∀ status values, ¬ c.Finished M status values) :
    (∃ e, (s.solve M c).2 = .error e) ∧ (s.solve M c).1.status = none := by
  rcases solve_cases M c s with ⟨st, v, h1, -⟩ | ⟨-, h2, -, h3, -⟩
  · exact absurd h1 (h _ _)
  · exact ⟨h3, h2⟩

/-! ## Histories -/

theorem run_append (s : Session) (a b : List Call) : s.run M (a ++ b) = (s.run M a).run M b := by
  simp [Session.run, List.foldl_append]

theorem run_cons (s : Session) (a : Call) (b : List Call) : s.run M (a :: b) = (s.step M a).run M b := rfl

theorem save_status (c : SaveCall) (s : Session) : (s.save M c).1.status = s.status ∧ (s.save M c).1.values = s.values ∧
    (s.save M c).1.lastSaved = c.filename ∧ (s.save M c).1.log = s.log := by
  unfold Session.save
  cases c.writes <;> cases c.writesParams <;> exact ⟨rfl, rfl, rfl, rfl⟩

theorem solve_keeps (c : SolveCall) (s : Session) : (s.solve M c).1.lastSaved = s.lastSaved ∧
    (s.solve M c).1.files = s.files ∧ (s.solve M c).1.paramFiles = s.paramFiles := by
  rcases solve_cases M c s with ⟨st, v, -, h, -⟩ | ⟨-, -, h, -⟩
  · exact h.2.2
  · exact h

theorem run_saves (s : Session) : {l : List Call} → (∀ c, .solve c ∉ l) →
    (s.run M l).status = s.status ∧ (s.run M l).values = s.values
  | [], _ => ⟨rfl, rfl⟩
  | .solve c :: l, h => absurd List.mem_cons_self (h c)
  | .save c :: l, h => by
    rw [run_cons]
    have := run_saves (s.step M (.save c)) (l := l) fun c' hc' => h c' (List.mem_cons_of_mem _ hc')
    obtain ⟨h1, h2, -⟩ := save_status (M := M) c s
    exact ⟨this.1.trans h1, this.2.trans h2⟩

/-- **C48.** After any history, the status of the object is the one that the last call of `solve` ended with, whatever
happened before and however often results were saved since. -/
theorem C48_history (values : Env) (c : SolveCall) (hafter : ∀ c', .solve c' ∉ after) (status : SolverStatus) :
    ((Session.init values).run M (before ++ .solve c :: after)).status = some status ↔ ∃ v, c.Finished M status v := by
  rw [run_append, run_cons, (run_saves _ hafter).1]
  show (((Session.init values).run M before).solve M c).1.status = some status ↔ _
  rcases solve_cases M c ((Session.init values).run M before) with ⟨st, v, h1, h2, -⟩ | ⟨h1, h2, -⟩
  · rw [h2.1]
    constructor
    · intro h; cases h; exact ⟨v, h1⟩
    · rintro ⟨v', h'⟩; rw [(Finished.unique h1 h').1]
  · rw [h2]
    constructor
    · intro h; cases h
    · rintro ⟨v, h⟩; exact absurd h (h1 _ _)

/-- **C48.** Before the first call of `solve` there is no status. -/
theorem C48_no_solve (values : Env) (h : ∀ c, .solve c ∉ calls) : ((Session.init values).run M calls).status = none :=
  (run_saves _ h).1

theorem run_solves (s : Session) : {l : List Call} → (∀ c, .save c ∉ l) →
    (s.run M l).lastSaved = s.lastSaved ∧ (s.run M l).files = s.files
  | [], _ => ⟨rfl, rfl⟩
  | .save c :: l, h => absurd List.mem_cons_self (h c)
  | .solve c :: l, h => by
    rw [run_cons]
    have := run_solves (s.step M (.solve c)) (l := l) fun c' hc' => h c' (List.mem_cons_of_mem _ hc')
    obtain ⟨h1, h2, -⟩ := solve_keeps (M := M) c s
    exact ⟨this.1.trans h1, this.2.trans h2⟩

/-- **C48.** `last_saved_filename` is the name given in the last call of `save`, also if writing failed. -/
theorem C48_last_saved (values : Env) (c : SaveCall) (hafter : ∀ c', .save c' ∉ after) :
    ((Session.init values).run M (before ++ .save c :: after)).lastSaved = c.filename := by
  rw [run_append, run_cons, (run_solves _ hafter).1]
  exact (save_status (M := M) c _).2.2.1

theorem path_iff {c : SaveCall} {q : String} : c.WritesTo q ↔ c.writes = .ok () ∧ q = Session.path c := by
  unfold SaveCall.WritesTo Session.path Session.fileText
  refine and_congr_right fun _ => ?_
  cases c.filename <;> cases c.hashSuffix <;> simp

theorem save_files (c : SaveCall) (s : Session) (q : String) :
    (c.WritesTo q → (s.save M c).1.files q = some (saveOutput M.model M.params M.units s.values)) ∧
    (¬ c.WritesTo q → (s.save M c).1.files q = s.files q) := by
  rw [path_iff]
  unfold Session.save
  cases h : c.writes with
  | error e => simp
  | ok u =>
    simp only [true_and]
    cases c.writesParams <;> exact ⟨fun h => by simp only [if_pos h], fun h => by simp only [if_neg h]⟩

theorem run_files (s : Session) (q : String) : {l : List Call} → (∀ c, .save c ∈ l → ¬ c.WritesTo q) →
    (s.run M l).files q = s.files q
  | [], _ => rfl
  | .save c :: l, h => by
    rw [run_cons, run_files _ q fun c' hc' => h c' (List.mem_cons_of_mem _ hc')]
    exact (save_files c s q).2 (h c List.mem_cons_self)
  | .solve c :: l, h => by
    rw [run_cons, run_files _ q fun c' hc' => h c' (List.mem_cons_of_mem _ hc')]
    exact congrFun (solve_keeps c s).2.1 q

/-- **C48.** A file holds the values that the model had when it was last saved there: later calls of `solve`, and saving
under other names, do not change it. -/
theorem C48_file (values : Env) (c : SaveCall) {q : String} (hw : c.WritesTo q)
    (hafter : ∀ c', .save c' ∈ after → ¬ c'.WritesTo q) :
    ((Session.init values).run M (before ++ .save c :: after)).files q =
      some (saveOutput M.model M.params M.units ((Session.init values).run M before).values) := by
  rw [run_append, run_cons, run_files _ q hafter]
  exact (save_files c _ q).1 hw

/-- **C48.** The values are those of the last call of `solve` that came back: if that call returned normally, the saved
values are what the solver reported with status "ok". -/
theorem C48_saved_values (values : Env) (c : SolveCall) (f : SaveCall) {q : String} (hw : f.WritesTo q) {v : Env}
    {mid : List Call} (hmid : ∀ c', .solve c' ∉ mid) {status : SolverStatus} (hfin : c.Finished M status v) :
    ((Session.init values).run M (before ++ .solve c :: (mid ++ [.save f]))).files q =
      some (saveOutput M.model M.params M.units v) := by
  have e : before ++ .solve c :: (mid ++ [.save f]) = (before ++ .solve c :: mid) ++ .save f :: [] := by simp
  rw [e, C48_file values f hw (by simp), run_append, run_cons, (run_saves _ hmid).2]
  congr 2
  show (((Session.init values).run M before).solve M c).1.values = v
  rcases solve_cases M c ((Session.init values).run M before) with ⟨st, v', h1, h2, -⟩ | ⟨h1, -⟩
  · rw [h2.2.1]; exact (Finished.unique h1 hfin).2
  · exact absurd hfin (h1 _ _)

/-! ## The log -/

/-- **C48.** What one call of `solve` adds to the log: the status if the solver came back, whatever it was; after a
warning an error line with the termination condition; the final NPV of the new values, and the time needed, exactly if
the call returns normally. -/
theorem C48_log_lines (M : SessionModel) (c : SolveCall) (s : Session) : ∃ new, (s.solve M c).1.log = s.log ++ new ∧
    (∀ st, .status st ∈ new ↔ (s.solve M c).1.status = some st) ∧
    (∀ st msg, .notSolved st msg ∈ new ↔ st = .warning ∧ msg = c.termination ∧ (s.solve M c).1.status = some .warning) ∧
    (∀ x, .finalNPV x ∈ new ↔ (s.solve M c).2 = .ok () ∧ c.npv (s.solve M c).1.values = .ok x) ∧
    (.solveTime ∈ new ↔ (s.solve M c).2 = .ok ()) := by
  rcases solve_cases M c s with ⟨st, v, -, ⟨h1, h2, -⟩, h3, h4, k1, k2, k3, k4⟩ | ⟨-, h2, -, ⟨e, he⟩, hl⟩
  · rw [h1, h2]
    cases st with
    | ok =>
      cases hv : c.npv v with
      | ok x =>
        have hr : (s.solve M c).2 = .ok () := h3.2 ⟨rfl, x, hv⟩
        refine ⟨_, k1 rfl x hv, fun st => ?_, fun st msg => ?_, fun y => ?_, ?_⟩
        · simpa using eq_comm
        · simp
        · simpa [hr] using eq_comm
        · simp [hr]
      | error e =>
        have hr : (s.solve M c).2 ≠ .ok () := fun h => by
          obtain ⟨-, x, hx⟩ := h3.1 h
          rw [hv] at hx; cases hx
        refine ⟨_, k2 rfl e hv, fun st => ?_, fun st msg => ?_, fun y => ?_, ?_⟩
        · simpa using eq_comm
        · simp
        · simp
        · simp [hr]
    | warning =>
      refine ⟨_, k3 rfl, fun st => ?_, fun st msg => ?_, fun y => ?_, ?_⟩
      · simpa using eq_comm
      · simp
      · simp [h4]
      · simp [h4]
    | error =>
      refine ⟨_, k4 (by simp) (by simp), fun st => ?_, fun st msg => ?_, fun y => ?_, ?_⟩
      · simpa using eq_comm
      · simp
      · simp [h4]
      · simp [h4]
    | aborted =>
      refine ⟨_, k4 (by simp) (by simp), fun st => ?_, fun st msg => ?_, fun y => ?_, ?_⟩
      · simpa using eq_comm
      · simp
      · simp [h4]
      · simp [h4]
    | unknown =>
      refine ⟨_, k4 (by simp) (by simp), fun st => ?_, fun st msg => ?_, fun y => ?_, ?_⟩
      · simpa using eq_comm
      · simp
      · simp [h4]
      · simp [h4]
  · exact ⟨[], by simpa using hl, by simp [h2], by simp [h2], by simp [he], by simp [he]⟩

theorem run_log (s : Session) : (l : List Call) → ∃ new, (s.run M l).log = s.log ++ new ∧
    ∀ x, .finalNPV x ∈ new ↔ ∃ a c b, l = a ++ .solve c :: b ∧ ((s.run M a).solve M c).2 = .ok () ∧
      c.npv ((s.run M a).solve M c).1.values = .ok x
  | [] => ⟨[], by simp [Session.run], by simp⟩
  | .save c :: l => by
    obtain ⟨new, h1, h2⟩ := run_log (s.step M (.save c)) l
    refine ⟨new, ?_, fun x => ?_⟩
    · rw [run_cons, h1]
      show (s.save M c).1.log ++ new = _
      rw [(save_status c s).2.2.2]
    · rw [h2 x]
      constructor
      · rintro ⟨a, c', b, rfl, h⟩
        exact ⟨.save c :: a, c', b, rfl, h⟩
      · rintro ⟨a, c', b, e, h⟩
        cases a with
        | nil => simp at e
        | cons k a =>
          simp only [List.cons_append, List.cons.injEq] at e
          obtain ⟨rfl, e⟩ := e
          exact ⟨a, c', b, e, h⟩
  | .solve c :: l => by
    obtain ⟨new, h1, h2⟩ := run_log (s.step M (.solve c)) l
    obtain ⟨now, k1, -, -, k2, -⟩ := C48_log_lines M c s
    refine ⟨now ++ new, ?_, fun x => ?_⟩
    · rw [run_cons, h1]
      show (s.solve M c).1.log ++ new = _
      rw [k1, List.append_assoc]
    · rw [List.mem_append, k2 x, h2 x]
      constructor
      · rintro (h | ⟨a, c', b, rfl, h⟩)
        · exact ⟨[], c, l, rfl, h⟩
        · exact ⟨.solve c :: a, c', b, rfl, h⟩
      · rintro ⟨a, c', b, e, h⟩
        cases a with
        | nil =>
          simp only [List.nil_append, List.cons.injEq, Call.solve.injEq] at e
          obtain ⟨rfl, rfl⟩ := e
          exact .inl h
        | cons k a =>
          simp only [List.cons_append, List.cons.injEq] at e
          obtain ⟨rfl, e⟩ := e
          exact .inr ⟨a, c', b, e, h⟩

/-- **C48.** After any history, the log shows a final NPV exactly if it is the value of the objective right after a
call of `solve` that returned normally. -/
theorem C48_log_history (values : Env) (x : ℝ) : .finalNPV x ∈ ((Session.init values).run M calls).log ↔
    ∃ a c b, calls = a ++ .solve c :: b ∧ (((Session.init values).run M a).solve M c).2 = .ok () ∧
      c.npv (((Session.init values).run M a).solve M c).1.values = .ok x := by
  obtain ⟨new, h1, h2⟩ := run_log (M := M) (Session.init values) calls
  rw [h1]
  simpa [Session.init] using h2 x

/-! ## Parameter files -/

theorem run_paramFiles (s : Session) (hs : ∀ q j, s.paramFiles q = some (.complete j) → j = jsonDump M.config) :
    (l : List Call) → ∀ q j, (s.run M l).paramFiles q = some (.complete j) → j = jsonDump M.config
  | [] => hs
  | .solve c :: l => by
    refine run_paramFiles (s.step M (.solve c)) (fun q j h => hs q j ?_) l
    rw [← (solve_keeps (M := M) c s).2.2]
    exact h
  | .save c :: l => by
    refine run_paramFiles (s.step M (.save c)) (fun q j h => ?_) l
    change (s.save M c).1.paramFiles q = _ at h
    unfold Session.save at h
    cases hw : c.writes with
    | error e => rw [hw] at h; exact hs q j h
    | ok u =>
      rw [hw] at h
      cases hp : c.writesParams with
      | error e =>
        simp only [hp] at h
        split at h
        · cases h
        · exact hs q j h
      | ok u =>
        simp only [hp] at h
        split at h
        · simpa using h.symm
        · exact hs q j h

/-- **C48.** Every parameter file that was written completely holds the configuration of the object. -/
theorem C48_param_file (values : Env) {q : String} {j : Json}
    (h : ((Session.init values).run M calls).paramFiles q = some (.complete j)) : j = jsonDump M.config :=
  run_paramFiles _ (by simp [Session.init]) calls q j h

/-- **C48.** A call of `save` that returns normally leaves such a file beside the CSV file. -/
theorem C48_param_file_written {c : SaveCall} (h : (s.save M c).2 = .ok ()) {q : String} (hw : c.WritesTo q) :
    (s.save M c).1.paramFiles (q ++ ".params.json") = some (.complete (jsonDump M.config)) := by
  obtain ⟨hw', rfl⟩ := path_iff.1 hw
  unfold Session.save at h ⊢
  rw [hw'] at h ⊢
  cases hp : c.writesParams with
  | error e => rw [hp] at h; simp at h
  | ok u => simp [Session.paramPath]

/-! ## Concrete cases -/

open Ex

noncomputable def exampleSession : SessionModel := ⟨⟨[], [], [], .maximize, fun _ => num 0⟩, p0, fun _ => none, .dict [(.str "SSP", .atom (.str "SSP2"))]⟩

/-- A call of `solve` with a given status. -/
noncomputable def exampleSolve (st : SolverStatus) (v : Env) : SolveCall :=
  ⟨false, none, .returns st v, fun v => .ok v, fun _ => .ok 1, "optimal"⟩

theorem exampleSolve_finished (st : SolverStatus) (v : Env) : (exampleSolve st v).Finished exampleSession st v :=
  ⟨by simp [exampleSolve], v, rfl, .inl ⟨by show ["A", "B"].length > 1; decide, rfl⟩⟩

/-- The hypotheses of the theorems are met: a failed run, a successful one, and saving. -/
example (v : Env) : ((Session.init v).run exampleSession [.solve (exampleSolve .warning v),
    .solve (exampleSolve .ok σ0), .save ⟨some "run1", "output", false, "", .ok (), .ok ()⟩]).status = some .ok :=
  (C48_history (before := [.solve (exampleSolve .warning v)]) v (exampleSolve .ok σ0)
    (after := [.save ⟨some "run1", "output", false, "", .ok (), .ok ()⟩]) (by simp) .ok).2 ⟨_, exampleSolve_finished _ _⟩

/-- **C48.** `save` does not look at the status: after a failed run the file is written all the same. -/
theorem C48_save_unchecked (v : Env) : ∃ M calls, ((Session.init v).run M calls).status = some .error ∧
    ((Session.init v).run M calls).files "output/run1.csv" = some (saveOutput M.model M.params M.units σ0) :=
  ⟨exampleSession, [.solve (exampleSolve .error σ0), .save ⟨some "run1", "output", false, "", .ok (), .ok ()⟩],
    (C48_history (before := []) v (exampleSolve .error σ0) (after := [.save ⟨some "run1", "output", false, "", .ok (), .ok ()⟩])
      (by simp) .error).2 ⟨_, exampleSolve_finished _ _⟩,
    C48_saved_values (before := []) v (exampleSolve .error σ0) ⟨some "run1", "output", false, "", .ok (), .ok ()⟩
      ⟨rfl, "run1", .inl rfl, .inr ⟨rfl, rfl⟩⟩ (mid := []) (by simp) (exampleSolve_finished _ _)⟩

/-- The log after a failed and a successful run. -/
example (v : Env) : ((Session.init v).run exampleSession [.solve (exampleSolve .warning v),
    .solve (exampleSolve .ok σ0)]).log =
    [.status .warning, .notSolved .warning "optimal", .status .ok, .finalNPV 1, .solveTime] := by
  have h : exampleSession.params.regions.length > 1 := by show ["A", "B"].length > 1; decide
  simp [Session.run, Session.step, Session.solve, Session.postprocessing, exampleSolve, Session.init, h]

/-- The parameter file of the run. -/
example (v : Env) : ((Session.init v).run exampleSession [.save ⟨some "run1", "output", false, "", .ok (), .ok ()⟩]).paramFiles
    "output/run1.csv.params.json" = some (.complete (.obj [("SSP", .str "SSP2")])) :=
  C48_param_file_written (s := Session.init v) (c := ⟨some "run1", "output", false, "", .ok (), .ok ()⟩) rfl
    ⟨rfl, "run1", .inl rfl, .inr ⟨rfl, rfl⟩⟩

end Mimosa
