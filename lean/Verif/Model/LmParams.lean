import Verif.Model.ProcFlow
import Mathlib.Data.Rat.Defs

/-!
# The parameters of the spectrum being processed

Models what the stages of `ProcFlow` do to the parameters, which are shared by all the spectra of a session:
`load_linemeas_parameters_from_catalog` and `load_linemeas_parameters_from_result_store` (`pylibamazed/python/pylibamazed/Parameters.py:117-163`),
the setters (`Parameters.py:187-197`), `_lsf_args` (`AbstractSpectrumReader.py:412-443`), the part of `ProcessFlow.initialize` that follows the
reading (`ProcessFlow.py:197-228`), `run_load_linemeas_params` (`ProcessFlow.py:240-244`), and `CProcessFlowContext::LoadParameterStore`,
`CParameterStore::FromString` (`processflow/context.cpp:70-74`, `processflow/parameterstore.cpp:153-156`).

Only the parameters changed by a run are in the model: the reference redshift and the velocities of the line measurement of each spectrum
model, and the parameter of the line spread function. A number is a rational or NaN (`none`): `json.dumps` writes `NaN`, which the JSON
parser of the library (Boost) refuses, leaving the former content of the parameter store; the infinities, which have the same effect, are
not distinguished. The results of the solvers, the errors of the other parts of the stages, and the spectra themselves are arbitrary.
-/

set_option autoImplicit true
namespace Amazed
namespace LmParams

open ProcFlow (Stg)

/-- A number, or NaN. -/
abbrev Num := Option ℚ

/-- The parameters of the line measurement of a spectrum model (`redshiftref`, `velocityAbsorption`, `velocityEmission`); `none`: absent. -/
structure Lm where
  z : Option Num
  va : Option Num
  ve : Option Num
deriving DecidableEq, Repr

/-- The parameters: those of each spectrum model, and the entries of the section `lsf`. -/
structure Par where
  sec : String → Lm
  lsf : String → Option Num

/-- The constant part of the parameters: that of the process flow, the spectrum models with a section, those with a section
`lineMeasSolver.lineMeasSolve.lineModel`, and the type of line spread function. -/
structure Cfg where
  flow : ProcFlow.Cfg
  sections : List String
  hasLm : List String
  lsfType : String

/-- What a redshift solver leaves in the results for the best candidate: redshift, absorption and emission velocities (`none`: the
attribute cannot be read). -/
structure Sol where
  z : Option Num
  va : Option Num
  ve : Option Num
deriving DecidableEq, Repr

/-- A spectrum: the line spread function read with it (type, and first width of each observation that has one), the rows of the
catalogue of line measurements (by spectrum model), and what happens when it is processed: the error before the line spread function, the error
after it (creation, photometry), the error of `Context.Init`, the outcome of the redshift solver of a model with a given line spread function
(or the code of its error), the error of the line measurement, and of the other stages. -/
structure Src where
  readerLsf : String
  lsfObs : List (String × Num)
  row : String → Option (Num × Num × Num)
  pre : Option String
  post : Option String
  ctxInit : Option String
  solve : String → Option (String × Option Num) → Except String Sol
  measure : String → Lm → Option String
  other : Stg → Option String → Option String

/-- The state kept between the stages: the parameters, the parameter store of the library (`none`: never loaded), the results of the redshift
solvers of this spectrum, the line spread function given to it, and the measurements done for it (ghost). -/
structure W where
  par : Par
  store : Option Par
  res : String → Option Sol
  lsf : Option (String × Option Num)
  log : List (String × Lm)

/-- `d[k] = v`. -/
def upd (f : String → A) (k : String) (v : A) : String → A := fun x => if x = k then v else f x

/-- An absent value, or a number. -/
def fin : Option Num → Bool
  | some none => false
  | _ => true

/-- The names in the section `lsf` (lsf.py:47-53). -/
def lsfNames : List String := ["width", "resolution", "sourceSize", "gaussianVariableWidthFileName", ""]

/-- No NaN in the parameters. -/
def finite (c : Cfg) (p : Par) : Bool :=
  (c.sections.all fun m => fin (p.sec m).z && fin (p.sec m).va && fin (p.sec m).ve) && lsfNames.all fun n => fin (p.lsf n)

/-- `LoadParameterStore(parameters.to_json())`. -/
def loadStore (c : Cfg) (w : W) : W × Option String :=
  if finite c w.par then ({ w with store := some w.par }, none) else (w, some "PYTHON_API_ERROR")

/-- Statements run one after the other until an exception. -/
def next (a : S × Option String) (f : S → S × Option String) : S × Option String :=
  match a with
  | (s, none) => f s
  | (s, some e) => (s, some e)

/-- `set_redshiftref` (Parameters.py:190-191); a model without a section is a `TypeError`. -/
def setZ (c : Cfg) (m : String) (x : Num) (p : Par) : Par × Option String :=
  if m ∈ c.sections then ({ p with sec := upd p.sec m { p.sec m with z := some x } }, none) else (p, some "PYTHON_API_ERROR")

/-- `set_velocity_absorption` (Parameters.py:193-194). -/
def setVa (c : Cfg) (m : String) (x : Num) (p : Par) : Par × Option String :=
  if m ∈ c.sections ∧ m ∈ c.hasLm then ({ p with sec := upd p.sec m { p.sec m with va := some x } }, none) else (p, some "PYTHON_API_ERROR")

/-- `set_velocity_emission` (Parameters.py:196-197). -/
def setVe (c : Cfg) (m : String) (x : Num) (p : Par) : Par × Option String :=
  if m ∈ c.sections ∧ m ∈ c.hasLm then ({ p with sec := upd p.sec m { p.sec m with ve := some x } }, none) else (p, some "PYTHON_API_ERROR")

/-- `load_linemeas_parameters_from_catalog` (Parameters.py:117-140) for the models of the configuration, in order. -/
def fromCatalog (c : Cfg) (row : String → Option (Num × Num × Num)) : List String → Par → Par × Option String
  | [], p => (p, none)
  | m :: r, p => match row m with
    | none => (p, some "INVALID_PARAMETER")
    | some x => next (next (next (setZ c m x.1 p) (setVa c m x.2.1)) (setVe c m x.2.2)) (fromCatalog c row r)

/-- Reading of an attribute. -/
def attr (x : Option Num) (f : Num → Par → Par × Option String) (p : Par) : Par × Option String :=
  match x with
  | none => (p, some "PYTHON_API_ERROR")
  | some v => f v p

/-- `load_linemeas_parameters_from_result_store` (Parameters.py:142-163): the redshift is set before the velocities are read. -/
def fromResults (c : Cfg) (m : String) (s : Sol) (p : Par) : Par × Option String :=
  next (attr s.z (setZ c m) p) fun p => attr s.va (fun va p => attr s.ve (fun ve p => next (setVa c m va p) (setVe c m ve)) p) p

/-- `LSFParameters` (lsf.py:47-53). -/
def lsfParam (t : String) : Option String :=
  if t = "gaussianConstantWidth" then some "width"
  else if t = "gaussianConstantResolution" then some "resolution"
  else if t = "gaussianNISPVSSPSF201707" then some "sourceSize"
  else if t = "gaussianVariableWidth" then some "gaussianVariableWidthFileName"
  else if t = "gaussianNISPSIM2016" then some ""
  else none

/-- The parameter read by the arguments of a type in the parameter store (`TLSFArgumentsCtor`, lsf.py:56-60); absent entries are those of the
caller. -/
def lsfArg (t : String) (p : Par) : Option Num :=
  match lsfParam t with
  | some "" => none
  | some n => p.lsf n
  | none => none

/-- `_lsf_args` and the creation of the line spread function (AbstractSpectrumReader.py:248-253, 412-443). The variable width function is
recorded with the width of its observation, or without value when it is that of the calibration. -/
def lsfStep (c : Cfg) (s : Src) (w : W) : W × Option String :=
  if c.lsfType = "fromSpectrumData" then
    match s.lsfObs with
    | [] => (w, some "LSF_NOT_LOADED")
    | (_, x) :: _ =>
      if s.readerLsf ≠ "gaussianVariableWidth" then
        match lsfParam s.readerLsf with
        | none => (w, some "PYTHON_API_ERROR")
        | some n =>
          next (loadStore c { w with par := { w.par with lsf := upd w.par.lsf n (some x) } })
            fun w => ({ w with lsf := some (s.readerLsf, lsfArg s.readerLsf w.par) }, none)
      else ({ w with lsf := some (s.readerLsf, some x) }, none)
  else if c.lsfType ≠ "gaussianVariableWidth" then
    match lsfParam c.lsfType with
    | none => next (loadStore c w) fun w => (w, some "PYTHON_API_ERROR")
    | some _ => next (loadStore c w) fun w => ({ w with lsf := some (c.lsfType, lsfArg c.lsfType w.par) }, none)
  else ({ w with lsf := some (c.lsfType, none) }, none)

/-- A statement that only may fail. -/
def fails (e : Option String) (w : W) : W × Option String := (w, e)

/-- A change of the parameters. -/
def onPar (f : Par → Par × Option String) (w : W) : W × Option String := ({ w with par := (f w.par).1 }, (f w.par).2)

/-- `initialize` (ProcessFlow.py:197-228): reset of the results, reading of the spectrum, catalogue of line measurements, parameter store. -/
def initStep (c : Cfg) (s : Src) (w : W) : W × Option String :=
  next (next (next (next (next (fails s.pre { w with res := fun _ => none, lsf := none, log := [] })
    (lsfStep c s)) (fails s.post)) (onPar (fromCatalog c s.row c.flow.lmCatalog))) (loadStore c)) (fails s.ctxInit)

/-- A redshift solver. -/
def solveStep (s : Src) (m : String) (w : W) : W × Option String :=
  match s.solve m w.lsf with
  | .ok r => ({ w with res := upd w.res m (some r) }, none)
  | .error e => (w, some e)

/-- `run_load_linemeas_params` (ProcessFlow.py:240-244). -/
def loadStep (c : Cfg) (m : String) (w : W) : W × Option String :=
  match w.res m with
  | none => (w, some "PYTHON_API_ERROR")
  | some r => next (onPar (fromResults c m r) w) (loadStore c)

/-- A line measurement: it reads the section of its model in the parameter store of the library. -/
def measureStep (s : Src) (m : String) (w : W) : W × Option String :=
  match w.store with
  | none => (w, some "PARAMETER_NOT_FOUND")
  | some p => ({ w with log := w.log ++ [(m, p.sec m)] }, s.measure m (p.sec m))

/-- The stages of a spectrum, as the environment of `ProcFlow`. -/
def exec (c : Cfg) (s : Src) (g : Stg) (m : Option String) (w : W) : W × Option String :=
  match g, m with
  | .init, _ => initStep c s w
  | .redshift, some m => solveStep s m w
  | .lmLoad, some m => loadStep c m w
  | .lineMeas, some m => measureStep s m w
  | g, m => (w, s.other g m)

/-- The processing of a spectrum. -/
def run (c : Cfg) (s : Src) (w : W) : Option (ProcFlow.St W) := ProcFlow.run c.flow ⟨exec c s, fun _ => true⟩ w

/-- The session: the state after the spectra of a list (`ProcFlow.run` leaves the process state as it is when it fails). -/
def session (c : Cfg) : List Src → W → W
  | [], w => w
  | s :: r, w => match run c s w with
    | some st => session c r st.w
    | none => session c r w

/-- A new session: the parameters of the user. -/
def fresh (p : Par) : W := ⟨p, none, fun _ => none, none, []⟩

end LmParams
end Amazed
