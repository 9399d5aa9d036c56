import Verif.Basic

/-!
# The sequence of stages run for one spectrum

Models `ProcessFlow.run`, `process_spectrum_model`, the stages they call, `store_exception_handler` and the scopes
(`pylibamazed/python/pylibamazed/ProcessFlow.py`, `ScopeManager.py`), the errors recorded by `ResultStoreOutput.store_error`
(`ResultStoreOutput.py`), and the accessors of the parameters they read (`Parameters.py`, `ParametersAccessor.py`).

What a stage does (solver, reading of the inputs, loading of the results) is an arbitrary function of the state of the process
(`exec`), which may fail with any error code at any call. Not modelled: the warning flags, the log, the results themselves, and the
file, line and message of an error. The dictionary of errors is keyed by the pair (model, stage); `fullName` is the string key of
the code, shown to be injective on those pairs in `Verif.Props.ProcFlowProps`.
-/

set_option autoImplicit true
namespace Amazed
namespace ProcFlow

/-- The stages (the literals of ProcessFlow.py:230-284, and `root_stages`, `spectrum_model_stages` of AbstractOutput.py:47-55). -/
inductive Stg | init | redshift | subClassif | reliability | lmLoad | lineMeas | classification | loadStore
deriving DecidableEq, Repr

/-- Their names (ProcessFlow.py:230-284, ScopeManager.py:83-84). -/
def Stg.name : Stg → String
  | .init => "init"
  | .redshift => "redshiftSolver"
  | .subClassif => "subClassifSolver"
  | .reliability => "reliabilitySolver"
  | .lmLoad => "linemeas_catalog_load"
  | .lineMeas => "lineMeasSolver"
  | .classification => "classification"
  | .loadStore => "load_result_store"

/-- `get_error_full_name` (AbstractOutput.py:111-115). -/
def fullName : Option String → Stg → String
  | some m, s => if m = "" then s.name else s.name ++ "_" ++ m
  | none, s => s.name

/-- The parameters of one spectrum model: the list `stages`, the methods of the solvers (`none`: absent) and the line ratio type. -/
structure ModelCfg where
  stages : List String
  zMethod : Option String
  lmMethod : Option String
  ratioType : Option String

/-- The parameters and the configuration of the process flow: the spectrum models, the parameters of each, the models with a
reliability network in the calibration library, and the keys of `config["linemeascatalog"]`. -/
structure Cfg where
  models : List String
  sec : String → ModelCfg
  relModels : List String
  lmCatalog : List String

/-- `get_redshift_solver_method` (ParametersAccessor.py:89-96). -/
def zMethod (c : Cfg) (m : String) : Option String :=
  if (c.sec m).zMethod = some "" then none else (c.sec m).zMethod

/-- `get_linemeas_method` (ParametersAccessor.py:102-105). -/
def lmMethod (c : Cfg) (m : String) : Option String :=
  if "lineMeasSolver" ∈ (c.sec m).stages then (c.sec m).lmMethod else none

/-- Truth value of an optional string in Python. -/
def truthy : Option String → Bool
  | some s => !(s == "")
  | none => false

/-- `get_reliability_enabled` (ParametersAccessor.py:123-124). -/
def relEnabled (c : Cfg) (m : String) : Bool := decide ("reliabilitySolver" ∈ (c.sec m).stages)

/-- `is_tplratio_catalog_needed` (Parameters.py:165-170). -/
def tplratioNeeded (c : Cfg) (m : String) : Bool :=
  if zMethod c m = some "lineModelSolve" then
    decide ((c.sec m).ratioType = some "tplRatio") || decide ((c.sec m).ratioType = some "tplCorr")
  else false

/-- `stage_enabled` (Parameters.py:172-185); it is only called on the stages of a spectrum model (the other ones raise). -/
def stageEnabled (c : Cfg) (m : String) : Stg → Bool
  | .redshift => (zMethod c m).isSome
  | .lineMeas => (lmMethod c m).isSome
  | .lmLoad => (lmMethod c m).isSome && (zMethod c m).isNone
  | .reliability => relEnabled c m
  | .subClassif => tplratioNeeded c m
  | _ => false

/-- `is_a_redshift_solver_used` (Parameters.py:202-208). -/
def solverUsed (c : Cfg) : Bool := c.models.any fun m => (zMethod c m).isSome

/-- A recorded error: the code of the exception, or `STAGE_NOT_RUN_BECAUSE_OF_PREVIOUS_FAILURE` with the causing stage. -/
inductive Code
  | own (e : String)
  | previous (cause : Stg)
deriving DecidableEq, Repr

/-- Types of scopes. -/
inductive ScT | model | stage
deriving DecidableEq, Repr

/-- A call of a stage: the stage, the model seen in the scopes, and the error code of the exception raised, if any. -/
structure Ev where
  stg : Stg
  model : Option String
  err : Option String
deriving DecidableEq, Repr

/-- The state during a run; `trace` (the calls done) is a ghost. -/
structure St (σ : Type) where
  w : σ
  scope : List (ScT × String)
  errors : Option String → Stg → Option Code
  trace : List Ev

/-- What the stages do: an arbitrary function of the state, and the error code of the exception raised, if any; and the loading of
the root of the results (`load_root`). -/
structure Env (σ : Type) where
  exec : Stg → Option String → σ → σ × Option String
  loadRoot : σ → Bool

/-- Value of the last scope of a type (`get_type_value`, context.h; `none`: `SCOPESTACK_ERROR`). -/
def lastOf (t : ScT) : List (ScT × String) → Option String
  | [] => none
  | (u, v) :: r => match lastOf t r with
    | some x => some x
    | none => if u = t then some v else none

/-- `get_scope_spectrum_model` (ScopeManager.py:60-71). -/
def scopeModel (sc : List (ScT × String)) : Option String :=
  if lastOf .model sc = some "classification" then none else lastOf .model sc

/-- `self.errors[(model, stage)] = code`. -/
def setErr (f : Option String → Stg → Option Code) (m : Option String) (s : Stg) (c : Code) : Option String → Stg → Option Code :=
  fun m' s' => if m' = m ∧ s' = s then some c else f m' s'

/-- The stages depending on a stage (AbstractOutput.py:50-54). -/
def deps : Stg → List Stg
  | .redshift => [.lineMeas, .reliability, .subClassif]
  | .lmLoad => [.lineMeas]
  | _ => []

/-- The keys of `spectrum_model_stages` (AbstractOutput.py:50-54). -/
def modelStages : List Stg := [.redshift, .lmLoad, .lineMeas, .reliability, .subClassif]

/-- `for dependant_stage in …: if stage_enabled: store_consequent_error` (ResultStoreOutput.py:283-285, 287-289, 291-298). -/
def propagate (c : Cfg) (m : String) (cause : Stg) (f : Option String → Stg → Option Code) : List Stg → Option String → Stg → Option Code
  | [] => f
  | s :: r => propagate c m cause (if stageEnabled c m s then setErr f (some m) s (.previous cause) else f) r

/-- The propagation of an error of the initialisation to every model (ResultStoreOutput.py:281-285). -/
def propagateAll (c : Cfg) (f : Option String → Stg → Option Code) : List String → Option String → Stg → Option Code
  | [] => f
  | m :: r => propagateAll c (propagate c m .init f modelStages) r

/-- `store_error` (ResultStoreOutput.py:268-289); the object type given by the callers is `none` or a model of the scopes, the stage the one
pushed by `step` (ScopeManager.py:74-85). -/
def storeError (c : Cfg) (e : String) (m : Option String) (s : Stg) (f : Option String → Stg → Option Code) :
    Option String → Stg → Option Code :=
  match m with
  | none => if s = .init then propagateAll c (setErr f none s (.own e)) c.models else setErr f none s (.own e)
  | some m => propagate c m s (setErr f (some m) s (.own e)) (deps s)

/-- A stage decorated by `push_scope(name, STAGE)` and `store_exception_handler` (ProcessFlow.py:70-92, ScopeManager.py:98-110); the
flag tells whether an exception was caught (then `ProcessFlowException` is raised when asked for). -/
def step (c : Cfg) (v : Env σ) (s : Stg) (t : St σ) : St σ × Bool :=
  let sc := t.scope ++ [(.stage, s.name)]
  let r := v.exec s (scopeModel sc) t.w
  let errs := match r.2 with
    | none => t.errors
    | some e => storeError c e (scopeModel sc) s t.errors
  (⟨r.1, t.scope, errs, t.trace ++ [⟨s, scopeModel sc, r.2⟩]⟩, r.2.isSome)

/-- `initialize` (ProcessFlow.py:197-228): no scope is pushed. -/
def initialise (c : Cfg) (v : Env σ) (t : St σ) : St σ × Bool :=
  let r := v.exec .init (scopeModel t.scope) t.w
  let errs := match r.2 with
    | none => t.errors
    | some e => storeError c e (scopeModel t.scope) .init t.errors
  (⟨r.1, t.scope, errs, t.trace ++ [⟨.init, scopeModel t.scope, r.2⟩]⟩, r.2.isSome)

/-- The end of `process_spectrum_model` for a model with a redshift solver (ProcessFlow.py:170-172). -/
def chainLm (c : Cfg) (v : Env σ) (m : String) (t : St σ) : St σ :=
  if truthy (lmMethod c m) && !(decide (m ∈ c.lmCatalog)) then
    if (step c v .lmLoad t).2 then (step c v .lmLoad t).1 else (step c v .lineMeas (step c v .lmLoad t).1).1
  else t

/-- `if is_tplratio_catalog_needed: run_sub_classification_solver` (ProcessFlow.py:163-164). -/
def chainSub (c : Cfg) (v : Env σ) (m : String) (t : St σ) : St σ :=
  if tplratioNeeded c m then (step c v .subClassif t).1 else t

/-- `if get_reliability_enabled and … in reliability_models: run_reliability_solver` (ProcessFlow.py:166-168). -/
def chainRel (c : Cfg) (v : Env σ) (m : String) (t : St σ) : St σ :=
  if relEnabled c m && decide (m ∈ c.relModels) then (step c v .reliability t).1 else t

/-- `process_spectrum_model` (ProcessFlow.py:151-175), the `ProcessFlowException` being swallowed by `run`. -/
def chain (c : Cfg) (v : Env σ) (m : String) (t : St σ) : St σ :=
  if truthy (zMethod c m) then
    if (step c v .redshift t).2 then (step c v .redshift t).1
    else chainLm c v m (chainRel c v m (chainSub c v m (step c v .redshift t).1))
  else if truthy (lmMethod c m) && decide (m ∈ c.lmCatalog) then (step c v .lineMeas t).1
  else t

/-- `with push_scope(spectrum_model, SPECTRUMMODEL): process_spectrum_model` (ProcessFlow.py:138-142). -/
def processModel (c : Cfg) (v : Env σ) (m : String) (t : St σ) : St σ :=
  let t' := chain c v m { t with scope := t.scope ++ [(.model, m)] }
  { t' with scope := t'.scope.dropLast }

/-- The loop over the spectrum models (ProcessFlow.py:137-142). -/
def processAll (c : Cfg) (v : Env σ) : List String → St σ → St σ
  | [], t => t
  | m :: r, t => processAll c v r (processModel c v m t)

/-- `all_redshift_solver_failed` (ProcessFlow.py:267-273). -/
def allFailed (c : Cfg) (t : St σ) : Bool := c.models.all fun m => (t.errors (some m) .redshift).isSome

/-- `run_classification_solver` (ProcessFlow.py:275-282): the call of the solver is not reached when all solvers failed. -/
def classify (c : Cfg) (v : Env σ) (t : St σ) : St σ :=
  if allFailed c t then
    let sc := t.scope ++ [(.model, "classification"), (.stage, "classification")]
    ⟨t.w, t.scope, storeError c "NO_CLASSIFICATION" (scopeModel sc) .classification t.errors, t.trace⟩
  else
    let t' := (step c v .classification { t with scope := t.scope ++ [(.model, "classification")] }).1
    { t' with scope := t'.scope.dropLast }

/-- `run` after a successful initialisation (ProcessFlow.py:136-149). -/
def runModels (c : Cfg) (v : Env σ) (t : St σ) : St σ :=
  let t1 := processAll c v c.models t
  let t2 := if solverUsed c then classify c v t1 else t1
  (step c v .loadStore t2).1

/-- `run` (ProcessFlow.py:122-149) on a new `ResultStoreOutput`; `none`: an exception leaves `run`. -/
def run (c : Cfg) (v : Env σ) (w : σ) : Option (St σ) :=
  let t0 : St σ := ⟨w, [], fun _ _ => none, []⟩
  if (initialise c v t0).2 then
    if v.loadRoot (initialise c v t0).1.w then some (initialise c v t0).1 else none
  else some (runModels c v (initialise c v t0).1)

end ProcFlow
end Amazed
