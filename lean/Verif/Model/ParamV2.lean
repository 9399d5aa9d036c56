import Verif.Model.SchemaV2

/-!
Version-2 parameter files (pylibamazed/python/pylibamazed): the schema check, the conversion of the keys, the
accessors and the custom checks that read the places considered here.
-/

set_option linter.unusedVariables false

namespace Amazed
namespace ParamV2

/-- The word removed from the keys (ParametersConverter.py:75-76). -/
def pat : String := "spectrumModel_"

/-- `str.replace(pat, "")` on characters: left to right, non overlapping; `n` characters are still to be skipped. -/
def rm (p : List Char) : Nat → List Char → List Char
  | _, [] => []
  | n + 1, _ :: r => rm p n r
  | 0, c :: r => if p.isPrefixOf (c :: r) then rm p (p.length - 1) r else c :: rm p 0 r

/-- `key.replace("spectrumModel_", "")` (ParametersConverter.py:76). -/
def strip (k : String) : String := String.ofList (rm pat.toList 0 k.toList)

/-- A list that contains another one as a block. -/
def infx (p : List Char) : List Char → Bool
  | [] => p.isEmpty
  | c :: r => p.isPrefixOf (c :: r) || infx p r

/-- `"spectrumModel_" in key` (ParametersConverter.py:75). -/
def hasPat (k : String) : Bool := infx pat.toList k.toList

/-- One turn of the loop of `ParametersConverterV2.convert` (ParametersConverter.py:74-77); `none` is a `KeyError`. -/
def convStep (p : Dict) (k : String) : Option Dict :=
  if hasPat k then
    match Dict.get k p with
    | none => none
    | some v => some (Dict.put (strip k) v (Dict.del k p))
  else some p

/-- The loop over the keys of the raw parameters. -/
def convKeys : List String → Dict → Option Dict
  | [], p => some p
  | k :: ks, p => (convStep p k).bind (convKeys ks)

/-- `ParametersConverterV2.convert` (ParametersConverter.py:71-79). -/
def convert (raw : Dict) : Option Dict := convKeys (raw.map (·.1)) raw

/-- A chain of `_get_on_None` / `dict.get` (ParametersAccessor.py:195-199). A value that is not an object has no
field (simplification: the code would raise `AttributeError`; the schema excludes it). -/
def at_ : List String → J → Option J
  | [], j => some j
  | k :: ks, j => (j.field k).bind (at_ ks)

/-- `get_airvacuum_method` (ParametersAccessor.py:60-61), as the value of the key. -/
def airVac (p : Dict) : Option J := at_ ["airVacuumMethod"] (.obj p)

/-- The lookups of a model's section: the first name is the spectrum model (ParametersAccessor.py:75-80). -/
def inModel (p : Dict) (m : String) (ks : List String) : Option J := at_ (m :: ks) (.obj p)

/-- The strings of a list. -/
def strs : List J → List String
  | [] => []
  | .str s :: r => s :: strs r
  | _ :: r => strs r

/-- `get_spectrum_models([])` (ParametersAccessor.py:72-73). -/
def models (p : Dict) : List String :=
  match Dict.get "spectrumModels" p with
  | some (.arr l) => strs l
  | _ => []

/-- `stage in get_stages(m)` (ParametersAccessor.py:82-83). -/
def inStages (stage : String) (p : Dict) (m : String) : Bool :=
  match inModel p m ["stages"] with
  | some (.arr l) => (strs l).contains stage
  | _ => false

/-- `get_redshift_solver_method` (ParametersAccessor.py:89-96). -/
def method (p : Dict) (m : String) : Option String :=
  match inModel p m ["redshiftSolver", "method"] with
  | some (.str s) => if s = "" then none else some s
  | _ => none

/-- `get_linemeas_method` (ParametersAccessor.py:102-105). -/
def lmMethod (p : Dict) (m : String) : Option J :=
  if inStages "lineMeasSolver" p m then inModel p m ["lineMeasSolver", "method"] else none

/-- `value == "…"`. -/
def isStr (s : String) : Option J → Bool
  | some (.str t) => t == s
  | _ => false

/-- `_check_dependant_parameter_presence` (ParametersChecker.py:600-617): no exception. -/
def dep (trigger present : Bool) : Bool := !trigger || present

/-- `_check_GaussianVariablewidth_FileName` (ParametersChecker.py:203-209). -/
def chkLsf (p : Dict) : Bool :=
  dep (isStr "gaussianVariableWidth" (at_ ["lsf", "lsfType"] (.obj p)))
    (at_ ["lsf", "gaussianVariableWidthFileName"] (.obj p)).isSome

/-- The first check of `_check_templateFittingSolve_section` (ParametersChecker.py:354-360). -/
def chkTpl (p : Dict) (m : String) : Bool :=
  dep (method p m == some "templateFittingSolve") (inModel p m ["redshiftSolver", "templateFittingSolve"]).isSome

/-- `_check_linemodelsolve_lya_fit` (ParametersChecker.py:543-550). -/
def chkLya (p : Dict) (m : String) : Bool :=
  if method p m == some "lineModelSolve" then
    dep (isStr "asym" (inModel p m ["redshiftSolver", "lineModelSolve", "lineModel", "lya", "profile"]))
      (inModel p m ["redshiftSolver", "lineModelSolve", "lineModel", "lya", "asymProfile"]).isSome
  else true

/-- `Parameters.__init__` with checks for a file of version 2 (Parameters.py:53-69): the schema, the conversion, the
custom checks; `none` is an exception. `rest` stands for the custom checks that are not modelled
(ParametersChecker.py:94-100); the extension that follows is in
`Model/ParamExt.lean`. -/
def build (rest : Dict → Bool) (raw : Dict) : Option Dict :=
  if SchemaV2.general.ok (.obj raw) then
    (convert raw).bind fun p =>
      if chkLsf p && (models p).all (fun m => chkTpl p m && chkLya p m) && rest p then some p else none
  else none

end ParamV2
end Amazed
