import Verif.Model.ParamV2

/-!
Version-1 parameter files: the renaming table and `ParametersConverterV1`
(pylibamazed/python/pylibamazed/ParametersConverter.py).
-/

set_option linter.unusedVariables false

namespace Amazed
namespace ParamV1

/-- The first two columns of auxdir/pylibamazed/rename_params_v1_to_treed.csv (lines 2-217, the blank lines dropped
as by `pandas.read_csv`), transcribed by script. -/
def table : List (String × String) :=
  [("fromfirstpass", "fromFirstPass"), ("retryall", "retryAll"), ("refitfirstpass", "reFitFirstPass"),
   ("IrregularSamplingMedian", "irregularSamplingMedian"), ("Morton2000", "morton2000"),
   ("Edlen1953", "edlen1953"), ("Edlen1966", "edlen1966"), ("Peckreeder1972", "peckreeder1972"),
   ("Ciddor1996", "ciddor1996"), ("instrumentdriven", "instrumentDriven"), ("velocitydriven", "velocityDriven"),
   ("tplratio", "tplRatio"), ("tplcorr", "tplCorr"), ("strongweak", "strongWeak"), ("ratiorange", "ratioRange"),
   ("tplfitauto", "tplFitAuto"), ("tplfit", "tplFit"), ("nocontinuum", "noContinuum"),
   ("onlyextrema", "onlyextrema"), ("bestchi2", "bestChi2"), ("strongweak", "strongWeak"),
   ("balmerSingle", "balmerSingle"), ("ratiorange", "ratioRange"),
   ("GaussianConstantWidth", "gaussianConstantWidth"),
   ("GaussianConstantResolution", "gaussianConstantResolution"), ("GaussianNISPSIM2016", "gaussianNISPSIM2016"),
   ("GaussianNISPVSSPSF201707", "gaussianNISPVSSPSF201707"), ("FROMSPECTRUMDATA", "fromSpectrumData"),
   ("fromspectrum", "fromSpectrum"), ("GaussianVariableWidth", "gaussianVariableWidth"),
   ("precomputedfinegrid", "preComputedFineGrid"), ("maxintproba", "maxIntProba"),
   ("additional_cols", "additionalCols"), ("airvacuum_method", "airVacuumMethod"),
   ("autocorrectinput", "autoCorrectInput"), ("continuumRemoval", "continuumRemoval"), ("ebmv", "ebmv"),
   ("extremaredshiftseparation", "extremaRedshiftSeparation"), ("filters", "filters"),
   ("multiobsmethod", "multiObsMethod"), ("lambdarange", "lambdaRange"), ("LSF", "lsf"),
   ("objects", "spectrumModels"), ("photometryBand", "photometryBand"),
   ("photometryTransmissionDir", "photometryTransmissionDir"), ("smoothWidth", "smoothWidth"),
   ("templateCatalog", "templateCatalog"), ("method", "method"), ("medianKernelWidth", "medianKernelWidth"),
   ("medianEvenReflection", "medianEvenReflection"), ("start", "start"), ("step", "step"), ("count", "count"),
   ("LSFType", "lsfType"), ("width", "width"), ("resolution", "resolution"), ("sourcesize", "sourceSize"),
   ("GaussianVariablewidthFileName", "gaussianVariableWidthFileName"), ("method", "method"),
   ("medianKernelWidth", "medianKernelWidth"), ("medianEvenReflection", "medianEvenReflection"),
   ("redshiftrange", "redshiftRange"), ("redshiftstep", "redshiftStep"), ("redshiftsampling", "redshiftSampling"),
   ("template_dir", "templateDir"), ("linemeas_dzhalf", "lineMeasDzHalf"),
   ("linemeas_redshiftstep", "lineMeasRedshiftStep"), ("LineMeasSolve", "lineMeasSolve"),
   ("fftprocessing", "fftProcessing"), ("enablephotometry", "enablePhotometry"), ("extremacount", "extremaCount"),
   ("igmfit", "igmFit"), ("interpolation", "interpolation"), ("ismfit", "ismFit"),
   ("overlapThreshold", "overlapThreshold"), ("pdfcombination", "pdfCombination"), ("photometry", "photometry"),
   ("spectrum", "spectrum"), ("component", "component"), ("weight", "weight"), ("extremacount", "extremaCount"),
   ("igmfit", "igmFit"), ("interpolation", "interpolation"), ("ismfit", "ismFit"),
   ("overlapThreshold", "overlapThreshold"), ("pdfcombination", "pdfCombination"), ("spectrum", "spectrum"),
   ("component", "component"), ("absvelocityfitmax", "absVelocityFitMax"),
   ("absvelocityfitmin", "absVelocityFitMin"), ("absvelocityfitstep", "absVelocityFitStep"),
   ("ampoffsetfit", "ampOffsetFit"), ("continuumcomponent", "continuumComponent"),
   ("continuumfit", "continuumFit"), ("continuumreestimation", "continuumReestimation"),
   ("emvelocityfitmax", "emVelocityFitMax"), ("emvelocityfitmin", "emVelocityFitMin"),
   ("emvelocityfitstep", "emVelocityFitStep"), ("enablephotometry", "enablePhotometry"),
   ("euclidnhaemittersStrength", "nOfZPriorStrength"), ("extremacount", "extremaCount"),
   ("extremacountB", "extremaCountB"), ("extremacutprobathreshold", "extremaCutProbaThreshold"),
   ("firstPass", "firstPass"), ("fittingmethod", "fittingMethod"), ("igmfit", "igmFit"),
   ("improveBalmerFit", "improveBalmerFit"), ("haprior", "hAlphaPrior"), ("lbdaoffsetfit", "lbdaOffsetFit"),
   ("linecatalog", "lineCatalog"), ("lineforcefilter", "lineForceFilter"), ("lineRatioType", "lineRatioType"),
   ("linetypefilter", "lineTypeFilter"), ("linewidthtype", "lineWidthType"), ("lyafit", "lyaFit"),
   ("lyaforcedisablefit", "lyaForceDisableFit"), ("lyaforcefit", "lyaForceFit"),
   ("nsigmasupport", "nSigmaSupport"), ("pdf", "pdf"), ("pdfcombination", "pdfCombination"),
   ("photometry", "photometry"), ("rules", "rules"), ("secondpasslcfittingmethod", "secondPassLcFittingMethod"),
   ("skipsecondpass", "skipSecondPass"), ("secondpass", "secondPass"), ("stronglinesprior", "strongLinesPrior"),
   ("tplratio_ismfit", "tplRatioIsmFit"), ("tplratio", "tplRatio"), ("tplratio_catalog", "tplRatioCatalog"),
   ("useloglambdasampling", "useLogLambdaSampling"), ("velocityabsorption", "velocityAbsorption"),
   ("velocityemission", "velocityEmission"), ("velocityfit", "velocityFit"), ("count", "count"),
   ("fftprocessing", "fftProcessing"), ("igmfit", "igmFit"), ("ignorelinesupport", "ignoreLineSupport"),
   ("ismfit", "ismFit"), ("negativethreshold", "negativeThreshold"), ("nullthreshold", "nullThreshold"),
   ("priors", "priors"), ("betaA", "betaA"), ("betaTE", "betaTE"), ("betaZ", "betaZ"),
   ("catalog_dirpath", "catalogDirPath"), ("fittingmethod", "fittingMethod"),
   ("largegridstepratio", "largeGridStepRatio"), ("multiplecontinuumfit_disable", "multipleContinuumFitDisable"),
   ("tplratio_ismfit", "tplRatioIsmFit"), ("extremacount", "extremaCount"), ("lyafit", "lyaFit"),
   ("asymfitmax", "asymFitMax"), ("asymfitmin", "asymFitMin"), ("asymfitstep", "asymFitStep"),
   ("deltafitmax", "deltaFitMax"), ("deltafitmin", "deltaFitMin"), ("deltafitstep", "deltaStepMax"),
   ("widthfitmax", "widthFitMax"), ("widthfitmin", "widthFitMin"), ("widthfitstep", "widthFitStep"),
   ("margampcorr", "margAmpCorr"), ("bestzoption", "bestZOption"), ("weight", "weight"),
   ("continuumfit", "continuumFit"), ("halfwindowsize", "halfWindowSize"), ("priors", "priors"),
   ("betaA", "betaA"), ("betaTE", "betaTE"), ("betaZ", "betaZ"), ("catalog_dirpath", "catalogDirPath"),
   ("method", "method"), ("ampoffsetfit", "ampOffsetFit"), ("fittingmethod", "fittingMethod"),
   ("lbdaoffsetfit", "lbdaOffsetFit"), ("linecatalog", "lineCatalog"), ("lineRatioType", "lineRatioType"),
   ("linewidthtype", "lineWidthType"), ("nsigmasupport", "nSigmaSupport"),
   ("polynomialdegree", "polynomialDegree"), ("rules", "rules"), ("velocityfit", "velocityFit"),
   ("reliability_model", "reliabilityModel"), ("LSF", "lsf"), ("TemplateFittingSolve", "templateFittingSolve"),
   ("TplcombinationSolve", "tplCombinationSolve"), ("LineModelSolve", "lineModelSolve"),
   ("linemodel", "lineModel"), ("firstpass", "firstPass"), ("secondpass", "secondPass")]

/-- One `params_str.replace("\"old\"", "\"new\"")` (ParametersConverter.py:88-89) on one quoted string of the text. -/
def one (r : String × String) (s : String) : String := if s = r.1 then r.2 else s

/-- The loop over the rows (ParametersConverter.py:87-89) on one quoted string. -/
def seq (rows : List (String × String)) (s : String) : String := rows.foldl (fun s r => one r s) s

mutual
/-- Every quoted string of a JSON text, key or value, goes through `f`. Strings with a quote or a backslash are left
out of the model: the escaped text of such a string could be changed in its middle (simplification). -/
def ren (f : String → String) : J → J
  | .str s => .str (f s)
  | .arr l => .arr (renL f l)
  | .obj o => .obj (renO f o)
  | j => j
/-- The same for the elements of a list. -/
def renL (f : String → String) : List J → List J
  | [] => []
  | j :: r => ren f j :: renL f r
/-- The same for the members of an object. -/
def renO (f : String → String) : List (String × J) → List (String × J)
  | [] => []
  | (k, j) :: r => (f k, ren f j) :: renO f r
end

/-- The text after all the rows (ParametersConverter.py:87-89). -/
def renText (rows : List (String × String)) (j : J) : J := rows.foldl (fun j r => ren (one r) j) j

mutual
/-- `json.loads`: of two members with the same key the later wins (ParametersConverter.py:90). -/
def loads : J → J
  | .arr l => .arr (loadsL l)
  | .obj o => .obj (loadsO [] o)
  | j => j
/-- The same for the elements of a list. -/
def loadsL : List J → List J
  | [] => []
  | j :: r => loads j :: loadsL r
/-- The same for the members of an object, put one by one in a dict. -/
def loadsO : Dict → List (String × J) → Dict
  | d, [] => d
  | d, (k, j) :: r => loadsO (Dict.put k (loads j) d) r
end

/-- The redshift methods (ParametersConverter.py:98). -/
def methods : List String := ["lineModelSolve", "templateFittingSolve", "tplCombinationSolve"]

/-- `section.setdefault("stages", []).append(x)`; `none` is an exception (not a list). -/
def addStage (x : String) (s : Dict) : Option Dict :=
  match Dict.get "stages" s with
  | none => some (Dict.put "stages" (.arr [.str x]) s)
  | some (.arr l) => some (Dict.put "stages" (.arr (l ++ [.str x])) s)
  | some _ => none

/-- The stage and the section of the redshift solver, for a known method (ParametersConverter.py:101-103). -/
def setMethod (m : Option J) (s : Dict) : Option Dict :=
  match m with
  | some (.str n) =>
    if methods.contains n then
      (addStage "redshiftSolver" s).map (Dict.put "redshiftSolver" (.obj [("method", .str n)]))
    else some s
  | _ => some s

/-- The section of one redshift method moves below the redshift solver (ParametersConverter.py:104-108). -/
def move (s : Dict) (n : String) : Option Dict :=
  match Dict.get n s with
  | none => some s
  | some v =>
    match (Dict.get "redshiftSolver" s).getD (.obj []) with
    | .obj o => some (Dict.put "redshiftSolver" (.obj (Dict.put n v o)) (Dict.del n s))
    | _ => none

/-- `update_redshift_part` on the section of one model (ParametersConverter.py:100-108). -/
def redshiftPart (s : Dict) : Option Dict :=
  (setMethod (Dict.get "method" s) (Dict.del "method" s)).bind fun s1 =>
    (move s1 "lineModelSolve").bind fun s2 =>
      (move s2 "templateFittingSolve").bind fun s3 => move s3 "tplCombinationSolve"

/-- `update_linemeas_part` on the section of one model (ParametersConverter.py:112-117). -/
def linemeasPart (s : Dict) : Option Dict :=
  if ParamV2.isStr "lineMeasSolve" (Dict.get "linemeas_method" s) then
    match Dict.get "lineMeasSolve" s with
    | none => none
    | some v =>
      (addStage "lineMeasSolver" (Dict.del "linemeas_method" s)).map fun s1 =>
        Dict.put "lineMeasSolver" (.obj [("method", .str "lineMeasSolve"), ("lineMeasSolve", v)])
          (Dict.del "lineMeasSolve" s1)
  else some (Dict.del "linemeas_method" s)

/-- The truth value of a JSON value in Python. -/
def truthy : J → Bool
  | .null => false
  | .bool b => b
  | .num q => decide (q ≠ 0)
  | .str s => s != ""
  | .arr l => !l.isEmpty
  | .obj o => !o.isEmpty

/-- `update_reliability_part` on the section of one model (ParametersConverter.py:121-130). -/
def reliabilityPart (s : Dict) : Option Dict :=
  if ((Dict.get "enable_reliability" s).map truthy).getD false then
    match Dict.get "reliabilityModel" s with
    | none => none
    | some v =>
      (addStage "reliabilitySolver" (Dict.del "enable_reliability" s)).map fun s1 =>
        Dict.put "reliabilitySolver" (.obj [("method", .str "deepLearningSolver"),
          ("deepLearningSolver", .obj [("reliabilityModel", v)])]) (Dict.del "reliabilityModel" s1)
  else some (Dict.del "reliabilityModel" (Dict.del "enable_reliability" s))

/-- The names of the spectrum models (ParametersConverter.py:99, 111, 120); `none` is an exception. A value of
`spectrumModels` that is no list, or has an element that is no string, is counted as an exception (simplification:
Python would read the characters of a string). -/
def names (p : Dict) : Option (List String) :=
  match Dict.get "spectrumModels" p with
  | none => some []
  | some (.arr l) => l.mapM fun j => match j with | .str s => some s | _ => none
  | some _ => none

/-- The loop of one part over the models; `none` is an exception (no such section, or not an object). -/
def pass (f : Dict → Option Dict) : List String → Dict → Option Dict
  | [], p => some p
  | m :: ms, p =>
    match Dict.get m p with
    | some (.obj s) => (f s).bind fun s' => pass f ms (Dict.put m (.obj s') p)
    | _ => none

/-- One of the three parts (ParametersConverter.py:97-130). -/
def part (f : Dict → Option Dict) (p : Dict) : Option Dict := (names p).bind fun ms => pass f ms p

/-- The three parts one after the other (ParametersConverter.py:92-94). -/
def restructure (p : Dict) : Option Dict :=
  (part redshiftPart p).bind fun p1 => (part linemeasPart p1).bind fun p2 => part reliabilityPart p2

/-- `ParametersConverterV1.convert` (ParametersConverter.py:83-95). -/
def convert (raw : Dict) : Option Dict :=
  match loads (renText table (.obj raw)) with
  | .obj p => restructure p
  | _ => none

end ParamV1
end Amazed
