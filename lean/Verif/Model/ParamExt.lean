import Verif.Model.ParamV1

/-!
# Extension of the parameters

Models `ParametersExtender.extend` (`pylibamazed/python/pylibamazed/ParametersExtender.py:62-116`), with the conditions of
`ParametersChecker` it uses (`ParametersChecker.py:230-256, 267-268, 471-472, 552-554`) and the creation of sections of
`ParametersAccessor` (`ParametersAccessor.py:75-80, 143-148, 189-204, 462-473`).

The conditions are read in the parameters before the extension, the values are written in a copy: the extension is a list of writings, each at a
path, the missing sections (or `null`) being created. The two default sections are one Python object (a class attribute): the only writings in it
store the values it has, so that this sharing cannot be seen in the result; it is not modelled.
-/

set_option linter.unusedVariables false
namespace Amazed
namespace ParamExt

/-- A writing: the path, and the value. -/
abbrev Write := List String × J

/-- A writing at a path, the sections being created (ParametersAccessor.py:462-473); a section that is a value is an exception. -/
def putAt : List String → J → Dict → Option Dict
  | [], _, _ => none
  | k :: ks, v, d =>
    if ks = [] then some (Dict.put k v d)
    else match Dict.get k d with
      | none => (putAt ks v []).map fun s => Dict.put k (.obj s) d
      | some .null => (putAt ks v []).map fun s => Dict.put k (.obj s) d
      | some (.obj s) => (putAt ks v s).map fun s' => Dict.put k (.obj s') d
      | some _ => none

/-- One after the other. -/
def run : List Write → Dict → Option Dict
  | [], d => some d
  | w :: r, d => (putAt w.1 w.2 d).bind (run r)

/-- `default_continuum_removal_section` (ParametersExtender.py:48-56). -/
def defaultRemoval : J :=
  .obj [("method", .str "default"), ("medianKernelWidth", .num (-1)), ("medianEvenReflection", .bool true)]

/-- `value not in [None, x]`. -/
def notNoneNor (x : String) : Option J → Bool
  | none => false
  | some .null => false
  | some (.str s) => s != x
  | some _ => true

/-- The path of the section of the line model of a spectrum model. -/
def lineModel (m : String) : List String := [m, "redshiftSolver", "lineModelSolve", "lineModel"]

/-- A value of the section of the line model (ParametersAccessor.py:276-278, `_get_on_None`). -/
def lm (p : Dict) (m k : String) : Option J := ParamV2.at_ (lineModel m ++ [k]) (.obj p)

/-- `template_catalog_continuum_removal_presence_condition` (ParametersChecker.py:230-237). -/
def tplNeed (p : Dict) : Bool :=
  (ParamV2.models p).any fun m =>
    notNoneNor "raw" (ParamV2.inModel p m ["redshiftSolver", "templateFittingSolve", "spectrum", "component"]) ||
    notNoneNor "raw" (ParamV2.inModel p m ["redshiftSolver", "tplCombinationSolve", "spectrum", "component"])

/-- `continuum_removal_presence_condition` (ParametersChecker.py:239-256). -/
def rootNeed (p : Dict) : Bool :=
  (ParamV2.models p).any fun m =>
    notNoneNor "raw" (ParamV2.inModel p m ["redshiftSolver", "templateFittingSolve", "spectrum", "component"]) ||
    notNoneNor "raw" (ParamV2.inModel p m ["redshiftSolver", "tplCombinationSolve", "spectrum", "component"]) ||
    ParamV2.isStr "fromSpectrum" (lm p m "continuumComponent") || ParamV2.isStr "tplFitAuto" (lm p m "continuumComponent") ||
    notNoneNor "never" (lm p m "continuumReestimation")

/-- `linemodelsolve_continuumreestimation_presence_condition` (ParametersChecker.py:471-472). -/
def reestNeed (p : Dict) (m : String) : Bool := ParamV2.isStr "hybrid" (lm p m "fittingMethod")

/-- `useloglambdasampling_presence_condition` (ParametersChecker.py:552-554). -/
def logNeed (p : Dict) (m : String) : Bool :=
  (ParamV2.isStr "tplFit" (lm p m "continuumComponent") || ParamV2.isStr "tplFitAuto" (lm p m "continuumComponent")) &&
  ((ParamV2.at_ (lineModel m ++ ["continuumFit", "fftProcessing"]) (.obj p)).map ParamV1.truthy).getD false

/-- `median_kernel_presence_condition` (ParametersChecker.py:267-268) of the section at a path. -/
def kernelNeed (p : Dict) (s : List String) : Bool := ParamV2.isStr "irregularSamplingMedian" (ParamV2.at_ (s ++ ["method"]) (.obj p))

/-- The path of the continuum removal, and that of the template catalog (ParametersAccessor.py:189-204). -/
def removal : List String := ["continuumRemoval"]
/-- The path of the continuum removal of the template catalog. -/
def tplRemoval : List String := ["templateCatalog", "continuumRemoval"]

/-- `_extend_mediankernel` for one section (ParametersExtender.py:109-116). -/
def kernel (p : Dict) (s : List String) : List Write :=
  if kernelNeed p s then [] else [(s ++ ["medianKernelWidth"], .num (-1)), (s ++ ["medianEvenReflection"], .bool true)]

/-- The writings of `extend`, in order (ParametersExtender.py:81-116). -/
def writes (p : Dict) : List Write :=
  (if rootNeed p then [] else [(removal, defaultRemoval)]) ++
  (if tplNeed p then [] else [(tplRemoval, defaultRemoval)]) ++
  (ParamV2.models p).flatMap (fun m => if reestNeed p m then [] else [(lineModel m ++ ["continuumReestimation"], .str "no")]) ++
  (ParamV2.models p).flatMap (fun m => if logNeed p m then [] else [(lineModel m ++ ["useLogLambdaSampling"], .bool false)]) ++
  kernel p removal ++ kernel p tplRemoval

/-- `extend` (ParametersExtender.py:62-79); `none` is an exception. -/
def extend (p : Dict) : Option Dict := run (writes p) p

end ParamExt
end Amazed
