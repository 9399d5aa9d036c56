import Verif.Model.Json

/-!
The JSON schemas of the version-2 parameter files (/repo/pylibamazed/auxdir/pylibamazed/jsonschema-v2/*.json),
transcribed by script: `type`, `enum`, `required`, `additionalProperties: false`, `properties`, `patternProperties`,
`items` and `$ref`. The other keywords are dropped, so the model accepts every file the real schema accepts.
-/

namespace Amazed
namespace SchemaV2

/-- The schema `jsonschema-v2/lsf.json` (lines 1-45), transcribed by script. -/
def lsf : Sch :=
  .mk [.object] none ["lsfType"] true
  (.cons "lsfType" (.mk [.string] (some [some "gaussianConstantWidth", some "gaussianConstantResolution", some "gaussianNISPSIM2016", some "gaussianNISPVSSPSF201707", some "fromSpectrumData", some "gaussianVariableWidth"]) [] false .nil .nil .nil)
  (.cons "width" (.mk [.number] none [] false .nil .nil .nil)
  (.cons "resolution" (.mk [.number] none [] false .nil .nil .nil)
  (.cons "sourceSize" (.mk [.number] none [] false .nil .nil .nil)
  (.cons "gaussianVariablewidthFileName" (.mk [.string] none [] false .nil .nil .nil) .nil))))) .nil .nil

/-- The schema `jsonschema-v2/ebmv.json` (lines 1-30), transcribed by script. -/
def ebmv : Sch :=
  .mk [.object] none ["start", "step", "count"] true
  (.cons "start" (.mk [.number] none [] false .nil .nil .nil)
  (.cons "step" (.mk [.number] none [] false .nil .nil .nil)
  (.cons "count" (.mk [.integer] none [] false .nil .nil .nil) .nil))) .nil .nil

/-- The schema `jsonschema-v2/continuum_removal.json` (lines 1-31), transcribed by script. -/
def continuumRemoval : Sch :=
  .mk [.object] none ["method"] true
  (.cons "method" (.mk [.string] (some [some "zero", some "irregularSamplingMedian", some "raw"]) [] false .nil .nil .nil)
  (.cons "medianKernelWidth" (.mk [.number] none [] false .nil .nil .nil)
  (.cons "medianEvenReflection" (.mk [.boolean] none [] false .nil .nil .nil) .nil))) .nil .nil

/-- The schema `jsonschema-v2/template_catalog.json` (lines 1-16), transcribed by script. -/
def templateCatalog : Sch :=
  .mk [.object] none ["continuumRemoval"] true
  (.cons "continuumRemoval" continuumRemoval .nil) .nil .nil

/-- The schema `jsonschema-v2/template_fitting_solve.json` (lines 1-92), transcribed by script. -/
def templateFittingSolve : Sch :=
  .mk [.object] none ["fftProcessing", "overlapThreshold", "spectrum", "interpolation", "extremaCount", "igmFit", "ismFit", "pdfCombination", "enablePhotometry"] true
  (.cons "fftProcessing" (.mk [.unknown] none [] false .nil .nil .nil)
  (.cons "overlapThreshold" (.mk [.number] none [] false .nil .nil .nil)
  (.cons "interpolation" (.mk [.string] (some [some "lin", some "preComputedFineGrid"]) [] false .nil .nil .nil)
  (.cons "extremaCount" (.mk [.integer] none [] false .nil .nil .nil)
  (.cons "igmFit" (.mk [.boolean] none [] false .nil .nil .nil)
  (.cons "ismFit" (.mk [.boolean] none [] false .nil .nil .nil)
  (.cons "pdfCombination" (.mk [.string] (some [some "marg", some "bestChi2"]) [] false .nil .nil .nil)
  (.cons "enablePhotometry" (.mk [.boolean] none [] false .nil .nil .nil)
  (.cons "photometry" (.mk [.object] none ["weight"] false
   (.cons "weight" (.mk [.number] none [] false .nil .nil .nil) .nil) .nil .nil)
  (.cons "spectrum" (.mk [.object] none ["component"] false
   (.cons "component" (.mk [.string] (some [some "raw", some "noContinuum", some "continuum", some "all"]) [] false .nil .nil .nil) .nil) .nil .nil) .nil)))))))))) .nil .nil

/-- The schema `jsonschema-v2/template_combination_solve.json` (lines 1-75), transcribed by script. -/
def templateCombinationSolve : Sch :=
  .mk [.object] none ["overlapThreshold", "spectrum", "interpolation", "extremaCount", "igmFit", "ismFit", "pdfCombination"] true
  (.cons "overlapThreshold" (.mk [.number] none [] false .nil .nil .nil)
  (.cons "spectrum" (.mk [.object] none ["component"] false
   (.cons "component" (.mk [.string] (some [some "raw", some "noContinuum", some "continuum", some "all"]) [] false .nil .nil .nil) .nil) .nil .nil)
  (.cons "interpolation" (.mk [.string] (some [some "preComputedFineGrid", some "lin"]) [] false .nil .nil .nil)
  (.cons "extremaCount" (.mk [.integer] none [] false .nil .nil .nil)
  (.cons "igmFit" (.mk [.boolean] none [] false .nil .nil .nil)
  (.cons "ismFit" (.mk [.boolean] none [] false .nil .nil .nil)
  (.cons "pdfCombination" (.mk [.string] (some [some "bestChi2", some "marg"]) [] false .nil .nil .nil) .nil))))))) .nil .nil

/-- The schema `jsonschema-v2/lya_fit.json` (lines 1-97), transcribed by script. -/
def lyaFit : Sch :=
  .mk [.object] none ["profile"] true
  (.cons "profile" (.mk [.string] (some [some "asym", some "igm"]) [] false .nil .nil .nil)
  (.cons "asymProfile" (.mk [.object] none ["switchFixedToFit", "switchFitToFixed", "asymFitMin", "asymFitMax", "asymFitStep", "widthFitMin", "widthFitMax", "widthFitStep", "deltaFitMin", "deltaFitMax", "deltaStepMax"] true
   (.cons "asymFitMin" (.mk [.number] none [] false .nil .nil .nil)
   (.cons "asymFitMax" (.mk [.number] none [] false .nil .nil .nil)
   (.cons "asymFitStep" (.mk [.number] none [] false .nil .nil .nil)
   (.cons "widthFitMin" (.mk [.number] none [] false .nil .nil .nil)
   (.cons "widthFitMax" (.mk [.number] none [] false .nil .nil .nil)
   (.cons "widthFitStep" (.mk [.number] none [] false .nil .nil .nil)
   (.cons "deltaFitMin" (.mk [.number] none [] false .nil .nil .nil)
   (.cons "deltaFitMax" (.mk [.number] none [] false .nil .nil .nil)
   (.cons "deltaStepMax" (.mk [.number] none [] false .nil .nil .nil)
   (.cons "swicthFixedToFit" (.mk [.boolean] none [] false .nil .nil .nil)
   (.cons "swicthFitToFixed" (.mk [.boolean] none [] false .nil .nil .nil) .nil))))))))))) .nil .nil) .nil)) .nil .nil

/-- The schema `jsonschema-v2/line_model_priors.json` (lines 1-36), transcribed by script. -/
def lineModelPriors : Sch :=
  .mk [.object] none ["betaA", "betaTE", "betaZ", "catalogDirpath"] true
  (.cons "betaA" (.mk [.number] none [] false .nil .nil .nil)
  (.cons "betaTE" (.mk [.number] none [] false .nil .nil .nil)
  (.cons "betaZ" (.mk [.number] none [] false .nil .nil .nil)
  (.cons "catalogDirpath" (.mk [.string] none [] false .nil .nil .nil) .nil)))) .nil .nil

/-- The schema `jsonschema-v2/line_model_continuum_fit.json` (lines 1-58), transcribed by script. -/
def lineModelContinuumFit : Sch :=
  .mk [.object] none ["fftProcessing", "ismFit", "igmFit", "count", "ignoreLineSupport", "negativeThreshold", "nullThreshold", "priors"] true
  (.cons "fftProcessing" (.mk [.boolean] none [] false .nil .nil .nil)
  (.cons "ismFit" (.mk [.boolean] none [] false .nil .nil .nil)
  (.cons "igmFit" (.mk [.boolean] none [] false .nil .nil .nil)
  (.cons "count" (.mk [.number] none [] false .nil .nil .nil)
  (.cons "ignoreLineSupport" (.mk [.boolean] none [] false .nil .nil .nil)
  (.cons "negativeThreshold" (.mk [.number] none [] false .nil .nil .nil)
  (.cons "nullThreshold" (.mk [.number] none [] false .nil .nil .nil)
  (.cons "priors" lineModelPriors .nil)))))))) .nil .nil

/-- The schema `jsonschema-v2/line_model_first_pass.json` (lines 1-47), transcribed by script. -/
def lineModelFirstPass : Sch :=
  .mk [.object] none ["fittingMethod", "largeGridStepRatio", "multipleContinuumFitDisable", "extremaCount"] true
  (.cons "fittingMethod" (.mk [.string] (some [some "hybrid", some "individual", some "svd"]) [] false .nil .nil .nil)
  (.cons "largeGridStepRatio" (.mk [.integer] none [] false .nil .nil .nil)
  (.cons "tplRatioIsmFit" (.mk [.boolean] none [] false .nil .nil .nil)
  (.cons "multipleContinuumFitDisable" (.mk [.boolean] none [] false .nil .nil .nil)
  (.cons "extremaCount" (.mk [.integer] none [] false .nil .nil .nil) .nil))))) .nil .nil

/-- The schema `jsonschema-v2/line_model_second_pass.json` (lines 1-29), transcribed by script. -/
def lineModelSecondPass : Sch :=
  .mk [.object] none ["continuumFit", "halfWindowSize"] true
  (.cons "continuumFit" (.mk [.string] (some [some "fromFirstPass", some "retryAll", some "reFitFirstPass"]) [] false .nil .nil .nil)
  (.cons "halfWindowSize" (.mk [.number] none [] false .nil .nil .nil) .nil)) .nil .nil

/-- The schema `jsonschema-v2/line_model_solve.json` (lines 1-322), transcribed by script. -/
def lineModelSolve : Sch :=
  .mk [.object] none [] true
  (.cons "lineModel" (.mk [.object] none ["improveBalmerFit", "lineCatalog", "lineTypeFilter", "lineForceFilter", "fittingMethod", "lineWidthType", "velocityEmission", "velocityAbsorption", "velocityFit", "lbdaOffsetFit", "ampOffsetFit", "skipSecondPass", "extremaCount", "extremaCutProbaThreshold", "lineRatioType", "continuumComponent", "strongLinesPrior", "euclidNHaemittersStrength", "pdfCombination", "nSigmaSupport", "haPrior", "extremaCountB", "enablePhotometry", "lya", "firstPass", "secondPassLcFittingMethod", "secondPass", "pdf", "tplRatio"] false
   (.cons "useLogLambdaSampling" (.mk [.boolean] none [] false .nil .nil .nil)
   (.cons "improveBalmerFit" (.mk [.boolean] none [] false .nil .nil .nil)
   (.cons "lineCatalog" (.mk [.string] none [] false .nil .nil .nil)
   (.cons "lineTypeFilter" (.mk [.string] (some [some "E", some "A", some "no"]) [] false .nil .nil .nil)
   (.cons "lineForceFilter" (.mk [.string] (some [some "W", some "S", some "no"]) [] false .nil .nil .nil)
   (.cons "fittingMethod" (.mk [.string] (some [some "individual", some "svd", some "hybrid", some "lbfgsb"]) [] false .nil .nil .nil)
   (.cons "lineWidthType" (.mk [.string] (some [some "combined", some "instrumentDriven", some "velocityDriven"]) [] false .nil .nil .nil)
   (.cons "velocityEmission" (.mk [.number] none [] false .nil .nil .nil)
   (.cons "velocityAbsorption" (.mk [.number] none [] false .nil .nil .nil)
   (.cons "velocityFit" (.mk [.boolean] none [] false .nil .nil .nil)
   (.cons "emVelocityFitMin" (.mk [.number] none [] false .nil .nil .nil)
   (.cons "emVelocityFitMax" (.mk [.number] none [] false .nil .nil .nil)
   (.cons "emVelocityFitStep" (.mk [.number] none [] false .nil .nil .nil)
   (.cons "absVelocityFitMin" (.mk [.number] none [] false .nil .nil .nil)
   (.cons "absVelocityFitMax" (.mk [.number] none [] false .nil .nil .nil)
   (.cons "absVelocityFitStep" (.mk [.number] none [] false .nil .nil .nil)
   (.cons "lbdaOffsetFit" (.mk [.boolean] none [] false .nil .nil .nil)
   (.cons "ampOffsetFit" (.mk [.boolean] none [] false .nil .nil .nil)
   (.cons "skipSecondPass" (.mk [.boolean] none [] false .nil .nil .nil)
   (.cons "extremaCount" (.mk [.integer] none [] false .nil .nil .nil)
   (.cons "extremaCutProbaThreshold" (.mk [.number] none [] false .nil .nil .nil)
   (.cons "lineRatioType" (.mk [.string] (some [some "tplRatio", some "rules", some "tplCorr"]) [] false .nil .nil .nil)
   (.cons "rules" (.mk [.string] (some [some "all", some "no", some "strongWeak", some "balmerSingle", some "ratioRange"]) [] false .nil .nil .nil)
   (.cons "tplRatioCatalog" (.mk [.string] none [] false .nil .nil .nil)
   (.cons "tplRatioIsmFit" (.mk [.boolean] none [] false .nil .nil .nil)
   (.cons "continuumComponent" (.mk [.string] (some [some "fromSpectrum", some "tplFit", some "tplFitAuto", some "noContinuum"]) [] false .nil .nil .nil)
   (.cons "continuumReestimation" (.mk [.string] (some [some "no", some "onlyextrema", some "always"]) [] false .nil .nil .nil)
   (.cons "strongLinesPrior" (.mk [.number] none [] false .nil .nil .nil)
   (.cons "euclidNHaemittersStrength" (.mk [.number] none [] false .nil .nil .nil)
   (.cons "pdfCombination" (.mk [.string] (some [some "bestChi2", some "marg"]) [] false .nil .nil .nil)
   (.cons "nSigmaSupport" (.mk [.number] none [] false .nil .nil .nil)
   (.cons "haPrior" (.mk [.number] none [] false .nil .nil .nil)
   (.cons "extremaCountB" (.mk [.integer] none [] false .nil .nil .nil)
   (.cons "enablePhotometry" (.mk [.boolean] none [] false .nil .nil .nil)
   (.cons "photometry" (.mk [.object] none ["weight"] false
    (.cons "weight" (.mk [.number] none [] false .nil .nil .nil) .nil) .nil .nil)
   (.cons "lya" lyaFit
   (.cons "continuumFit" lineModelContinuumFit
   (.cons "firstPass" lineModelFirstPass
   (.cons "secondPassLcFittingMethod" (.mk [.string] (some [some "-1", some "svdlc", some "svdlcp2", some "random", some "ones"]) [] false .nil .nil .nil)
   (.cons "secondPass" lineModelSecondPass
   (.cons "pdf" (.mk [.object] none [] false
    (.cons "margAmpCorr" (.mk [.boolean] none [] false .nil .nil .nil) .nil) .nil .nil)
   (.cons "tplRatio" (.mk [.object] none [] false
    (.cons "priors" lineModelPriors .nil) .nil .nil) .nil)))))))))))))))))))))))))))))))))))))))))) .nil .nil) .nil) .nil .nil

/-- The schema `jsonschema-v2/redshift_solver.json` (lines 1-34), transcribed by script. -/
def redshiftSolver : Sch :=
  .mk [.object] none [] true
  (.cons "method" (.mk [.string, .null] (some [some "", some "lineModelSolve", some "templateFittingSolve", some "tplCombinationSolve", none]) [] false .nil .nil .nil)
  (.cons "templateFittingSolve" templateFittingSolve
  (.cons "tplCombinationSolve" templateCombinationSolve
  (.cons "lineModelSolve" lineModelSolve .nil)))) .nil .nil

/-- The schema `jsonschema-v2/linemeas_solver.json` (lines 1-167), transcribed by script. -/
def linemeasSolver : Sch :=
  .mk [.object] none ["lineModel"] true
  (.cons "lineModel" (.mk [.object] none ["continuumComponent", "improveBalmerFit", "lineTypeFilter", "lineForceFilter", "polynomialDegree", "lya", "lineCatalog", "nSigmaSupport", "lineWidthType", "fittingMethod", "velocityFit", "lbdaOffsetFit", "ampOffsetFit", "lineRatioType"] true
   (.cons "continuumComponent" (.mk [.string] (some [some "fromSpectrum", some "tplFit", some "tplFitAuto", some "noContinuum"]) [] false .nil .nil .nil)
   (.cons "improveBalmerFit" (.mk [.boolean] none [] false .nil .nil .nil)
   (.cons "lineTypeFilter" (.mk [.string] (some [some "E", some "A", some "no"]) [] false .nil .nil .nil)
   (.cons "lineForceFilter" (.mk [.string] (some [some "W", some "S", some "no"]) [] false .nil .nil .nil)
   (.cons "polynomialDegree" (.mk [.integer] none [] false .nil .nil .nil)
   (.cons "lya" lyaFit
   (.cons "lineCatalog" (.mk [.string] none [] false .nil .nil .nil)
   (.cons "nSigmaSupport" (.mk [.number] none [] false .nil .nil .nil)
   (.cons "lineWidthType" (.mk [.string] (some [some "combined", some "instrumentDriven", some "velocityDriven"]) [] false .nil .nil .nil)
   (.cons "fittingMethod" (.mk [.string] (some [some "individual", some "svd", some "hybrid", some "lbfgsb"]) [] false .nil .nil .nil)
   (.cons "velocityFit" (.mk [.boolean] none [] false .nil .nil .nil)
   (.cons "emVelocityFitMin" (.mk [.number] none [] false .nil .nil .nil)
   (.cons "emVelocityFitMax" (.mk [.number] none [] false .nil .nil .nil)
   (.cons "absVelocityFitMin" (.mk [.number] none [] false .nil .nil .nil)
   (.cons "absVelocityFitMax" (.mk [.number] none [] false .nil .nil .nil)
   (.cons "lbdaOffsetFit" (.mk [.boolean] none [] false .nil .nil .nil)
   (.cons "ampOffsetFit" (.mk [.boolean] none [] false .nil .nil .nil)
   (.cons "lineRatioType" (.mk [.string] (some [some "tplRatio", some "rules", some "tplCorr"]) [] false .nil .nil .nil)
   (.cons "rules" (.mk [.string] (some [some "all", some "no", some "strongWeak", some "balmerSingle", some "ratioRange"]) [] false .nil .nil .nil) .nil))))))))))))))))))) .nil .nil) .nil) .nil .nil

/-- The schema `jsonschema-v2/reliability_solver.json` (lines 1-39), transcribed by script. -/
def reliabilitySolver : Sch :=
  .mk [.object] none ["method", "deepLearningSolver"] true
  (.cons "method" (.mk [.array] none [] false .nil .nil
   (.cons "item" (.mk [.string] (some [some "deepLearningSolver"]) [] false .nil .nil .nil) .nil))
  (.cons "deepLearningSolver" (.mk [] none ["reliabilityModel"] true
   (.cons "reliabilityModel" (.mk [.string] none [] false .nil .nil .nil) .nil) .nil .nil) .nil)) .nil .nil

/-- The schema `jsonschema-v2/spectrum_model.json` (lines 1-81), transcribed by script. -/
def spectrumModel : Sch :=
  .mk [.object] none ["stages", "redshiftRange", "redshiftStep", "redshiftSampling", "templateDir"] true
  (.cons "redshiftRange" (.mk [.array] none [] false .nil .nil .nil)
  (.cons "redshiftStep" (.mk [.number] none [] false .nil .nil .nil)
  (.cons "redshiftSampling" (.mk [.string] (some [some "lin", some "log"]) [] false .nil .nil .nil)
  (.cons "templateDir" (.mk [.string] none [] false .nil .nil .nil)
  (.cons "linemeasDzHalf" (.mk [.number] none [] false .nil .nil .nil)
  (.cons "linemeasRedshiftStep" (.mk [.number] none [] false .nil .nil .nil)
  (.cons "stages" (.mk [.array] none [] false .nil .nil
   (.cons "item" (.mk [.string] (some [some "redshiftSolver", some "lineMeasSolver", some "reliabilitySolver", some "lineMeasLoader", some "subClassifSolver"]) [] false .nil .nil .nil) .nil))
  (.cons "redshiftSolver" redshiftSolver
  (.cons "lineMeasSolver" linemeasSolver
  (.cons "reliabilitySolver" reliabilitySolver .nil)))))))))) .nil .nil

/-- The schema `jsonschema-v2/general.json` (lines 1-185), transcribed by script. -/
def general : Sch :=
  .mk [.object] none ["version", "multiObsMethod", "lambdaRange", "extremaRedshiftSeparation", "smoothWidth", "autoCorrectInput", "spectrumModels"] true
  (.cons "version" (.mk [.number] none [] false .nil .nil .nil)
  (.cons "calibrationDir" (.mk [] none [] false .nil .nil .nil)
  (.cons "multiObsMethod" (.mk [.string] (some [some "", some "full", some "merge"]) [] false .nil .nil .nil)
  (.cons "lambdaRange" (.mk [.array, .object] none [] false .nil .nil .nil)
  (.cons "airvacuumMethod" (.mk [.string] (some [some "", some "default", some "morton2000", some "edlen1953", some "edlen1966", some "peckreeder1972", some "ciddor1996"]) [] false .nil .nil .nil)
  (.cons "extremaRedshiftSeparation" (.mk [.number] none [] false .nil .nil .nil)
  (.cons "smoothWidth" (.mk [.number] none [] false .nil .nil .nil)
  (.cons "autoCorrectInput" (.mk [.boolean] none [] false .nil .nil .nil)
  (.cons "spectrumModels" (.mk [.array] none [] false .nil .nil
   (.cons "item" (.mk [.string] none [] false .nil .nil .nil) .nil))
  (.cons "photometryTransmissionDir" (.mk [.string] none [] false .nil .nil .nil)
  (.cons "photometryBand" (.mk [.array] none [] false .nil .nil
   (.cons "item" (.mk [.string] none [] false .nil .nil .nil) .nil))
  (.cons "filters" (.mk [.array] none [] false .nil .nil
   (.cons "item" (.mk [.object] none ["key", "instruction", "value"] false
    (.cons "key" (.mk [.string] none [] false .nil .nil .nil)
    (.cons "instruction" (.mk [.string] (some [some "<", some ">", some "<=", some ">=", some "=", some "in", some "~in", some "!=", some "~&", some "&", some "0&", some "^", some "~^"]) [] false .nil .nil .nil)
    (.cons "value" (.mk [] none [] false .nil .nil .nil) .nil))) .nil .nil) .nil))
  (.cons "additionalCols" (.mk [.array] none [] false .nil .nil
   (.cons "item" (.mk [.string] none [] false .nil .nil .nil) .nil))
  (.cons "lsf" lsf
  (.cons "ebmv" ebmv
  (.cons "templateCatalog" templateCatalog
  (.cons "continuumRemoval" continuumRemoval .nil)))))))))))))))))
  (.cons "spectrumModel_" spectrumModel .nil) .nil

end SchemaV2
end Amazed
