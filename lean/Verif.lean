import Verif.Basic
import Verif.Model.Std
import Verif.Model.Range
import Verif.Model.Grid
import Verif.Model.Indexing
import Verif.Model.ZGrid
import Verif.Model.Mask
import Verif.Model.Flag
import Verif.Model.Median
import Verif.Model.Scope
import Verif.Model.ResultStore
import Verif.Model.ParamStore
import Verif.Props.RangeProps
import Verif.Props.GridProps
import Verif.Props.IndexingProps
import Verif.Props.ZGridProps
import Verif.Props.MaskProps
import Verif.Props.FlagProps
import Verif.Props.MedianProps
import Verif.Props.ScopeProps
import Verif.Props.ResultStoreProps
import Verif.Props.ParamStoreProps
import Verif.Model.Extremum
import Verif.Props.ExtremumScan
import Verif.Props.ExtremumProps
import Verif.Model.Loop
import Verif.Model.Pdfz
import Verif.Props.PdfzLemmas
import Verif.Props.PdfzProps
import Verif.Props.PdfzCombine
import Verif.Model.Deltaz
import Verif.Props.DeltazProps
import Verif.Model.Candidates
import Verif.Props.CandidatesProps
import Verif.Props.CandidatesProba
import Verif.Model.PriorTable
import Verif.Props.PriorTableProps
import Verif.Model.LogZPdf
import Verif.Props.LogZPdfProps
import Verif.Model.SpectralAxis
import Verif.Props.SpectralAxisProps
import Verif.Props.SpectralAxisLog
import Verif.Model.Rebin
import Verif.Props.RebinProps
import Verif.Props.RebinNgpProps
import Verif.Model.FluxAxis
import Verif.Props.SmoothProps
import Verif.Props.FluxAxisProps
import Verif.Model.Continuum
import Verif.Props.ContinuumProps
import Verif.Model.MedianCont
import Verif.Props.MedianContProps
import Verif.Model.Template
import Verif.Props.TemplateProps
import Verif.Model.TplCatalog
import Verif.Props.TplCatalogProps
import Verif.Props.TplOrthoProps
import Verif.Model.Calzetti
import Verif.Props.CalzettiProps
import Verif.Model.LineProfile
import Verif.Props.LineProfileProps
import Verif.Model.Lsf
import Verif.Props.LsfProps
import Verif.Model.Meiksin
import Verif.Props.MeiksinProps
import Verif.Model.SymIgm
import Verif.Props.SymIgmProps
import Verif.Model.LogRebin
import Verif.Props.LogRebinProps
import Verif.Props.LogRebinReuse
import Verif.Props.LogRecompute
import Verif.Model.RebinInputs
import Verif.Props.RebinInputsProps
import Verif.Model.AirVac
import Verif.Props.AirVacProps
import Verif.Model.TplFit
import Verif.Props.TplFitLsq
import Verif.Props.TplFitProps
import Verif.Props.TplFitTotal
import Verif.Model.Classify
import Verif.Model.Amp
import Verif.Model.Rules
import Verif.Props.ClassifyProps
import Verif.Props.AmpProps
import Verif.Props.RulesProps
import Verif.Props.RulesStrong
import Verif.Props.RulesRegulament
import Verif.Props.EltSupportProps
import Verif.Props.EltSupportTheo
import Verif.Props.EltModelProps
import Verif.Props.FitAmpProps
import Verif.Props.EltListProps
import Verif.Props.EltListOverlap
import Verif.Props.SvdFitProps
import Verif.Props.SvdFitLS
import Verif.Props.SvdFitEx
import Verif.Props.LineCatProps
import Verif.Props.SpcIndexProps
import Verif.Props.SpcModelProps
import Verif.Props.SpcModelRemoved
import Verif.Props.SpcModelResidual
import Verif.Props.MeritProps
import Verif.Props.MeritSnr
import Verif.Props.LmSearchProps
import Verif.Props.FitStoreProps
import Verif.Props.PolynomProps
import Verif.Props.PhotProps
import Verif.Props.PhotFitProps
import Verif.Props.TplRatioProps
import Verif.Props.TplRatioAmp
import Verif.Model.LmResult
import Verif.Model.SecondPass
import Verif.Props.LmResultProps
import Verif.Props.SecondPassProps
import Verif.Props.SecondPassWindow
import Verif.Props.SecondPassVel
import Verif.Props.SecondPassApart
import Verif.Model.ChiArray
import Verif.Props.ChiArrayPriors
import Verif.Props.ChiArrayBuild
import Verif.Model.LmCands
import Verif.Props.LmCandsProps
import Verif.Props.LmSaveProps
import Verif.Model.ContFit
import Verif.Props.ContFitStore
import Verif.Props.ContFitEval
import Verif.Props.ContFitSecond
import Verif.Model.Peaks
import Verif.Props.PeaksProps
import Verif.Props.PeaksRefine
import Verif.Model.LineDetect
import Verif.Props.LineDetectFluxes
import Verif.Props.LineDetectProps
import Verif.Props.LineDetectReduced
import Verif.Props.LineDetectRetest
import Verif.Model.LineMatch
import Verif.Props.LineMatchProps
import Verif.Props.LineMatchResult
import Verif.Props.LineMatchRules
import Verif.Model.Fft
import Verif.Props.FftProps
import Verif.Model.TplLog
import Verif.Model.TplLogSub
import Verif.Props.TplLogRows
import Verif.Props.TplLogFit
import Verif.Props.TplLogRange
import Verif.Props.TplLogTotal
import Verif.Props.TplLogZRanges
import Verif.Props.TplLogAll
import Verif.Props.TplLogIndex
import Verif.Props.TplLogSub
import Verif.Model.TplComb
import Verif.Props.TplCombProps
import Verif.Props.TplCombFit
import Verif.Props.TplCombBasic
import Verif.Props.TplCombMain
import Verif.Props.TplCombEx
import Verif.Props.TplCombScale
import Verif.Props.TplCombModel
import Verif.Model.PdfOp
import Verif.Props.PdfOpProps
import Verif.Model.TplSolve
import Verif.Props.TplSolveProps
import Verif.Props.TplArrayProps
import Verif.Props.TplExtremaProps
import Verif.Model.Lbfgs
import Verif.Props.LbfgsLayout
import Verif.Props.LbfgsCost
import Verif.Props.LbfgsResult
import Verif.Props.LbfgsBounds
import Verif.Props.LbfgsFit
import Verif.Model.LmatchSolve
import Verif.Props.LmatchSolveProps
import Verif.Model.GaussFit
import Verif.Props.GaussFitProps
import Verif.Props.GaussGuess
import Verif.Model.ObjSolve
import Verif.Props.ObjSolveProps
import Verif.Props.TplCombSnr
import Verif.Model.SvdLc
import Verif.Props.SvdLcProps
import Verif.Props.SvdLcFit
import Verif.Model.EltDeriv
import Verif.Props.EltDerivProps
import Verif.Props.EltDerivZ
import Verif.Model.DirInt
import Verif.Props.DirIntProps
import Verif.Props.DirIntMain
import Verif.Props.DirIntAll
import Verif.Model.LmSol
import Verif.Props.LmSolProps
import Verif.Props.LmSolLoad
import Verif.Props.LbfgsGuess
import Verif.Model.Lya
import Verif.Props.LyaProps
import Verif.Props.LyaMain
import Verif.Props.C163
import Verif.Model.Outside
import Verif.Props.OutsideProps
import Verif.Model.Strong
import Verif.Props.StrongProps
import Verif.Model.TplModel
import Verif.Props.TplModelProps
import Verif.Model.TplCompute
import Verif.Props.TplComputeProps
import Verif.Model.ContIdx
import Verif.Props.ContIdxProps
import Verif.Model.PhotFit
import Verif.Props.PhotFitBands
import Verif.Props.PhotFitMain
import Verif.Model.AboveSnr
import Verif.Props.AboveSnrProps
import Verif.Model.CandData
import Verif.Props.CandDataProps
import Verif.Model.TplMask
import Verif.Props.TplMaskProps
import Verif.Model.InputCtx
import Verif.Props.InputCtxProps
import Verif.Model.SolveRun
import Verif.Props.SolveRunProps
import Verif.Model.SpcCopy
import Verif.Props.SpcCopyProps
import Verif.Model.LogTable
import Verif.Props.LogTableProps
import Verif.Props.LogThreads
import Verif.Model.LmSolve
import Verif.Props.PdfRename
import Verif.Props.LmSolveProps
import Verif.Props.LmSolveCount
import Verif.Model.TplRun
import Verif.Props.TplRunProps
import Verif.Props.TplRunReads
import Verif.Props.TplRunStored
import Verif.Props.TplRunComb
import Verif.Model.LineDef
import Verif.Props.LineDefSpec
import Verif.Props.LineDefHeap
import Verif.Props.LineDefProps
import Verif.Props.LineDefMain
import Verif.Model.FitStage
import Verif.Props.FitStageProps
import Verif.Model.TplCorr
import Verif.Props.TplCorrProps
import Verif.Model.Reest
import Verif.Props.ReestProps
import Verif.Model.Ortho
import Verif.Props.OrthoProps
import Verif.Model.RebinCache
import Verif.Props.RebinCacheProps
import Verif.Model.ProcFlow
import Verif.Props.ProcFlowProps
import Verif.Model.SpecFilter
import Verif.Props.SpecFilterProps
import Verif.Model.Merge
import Verif.Props.MergeProps
import Verif.Model.LmParams
import Verif.Props.LmParamsProps
import Verif.Model.OutLoad
import Verif.Props.OutLoadProps
import Verif.Model.PdfSave
import Verif.Props.PdfSaveProps
import Verif.Model.H5Write
import Verif.Props.H5WriteProps
import Verif.Model.Json
import Verif.Model.SchemaV2
import Verif.Model.ParamV2
import Verif.Props.ParamV2Props
import Verif.Model.ParamV1
import Verif.Props.ParamV1Props
import Verif.Props.ParamV1Struct
import Verif.Model.PeakFit
import Verif.Props.PeakFitProps
import Verif.Model.LinePrior
import Verif.Props.LinePriorProps
import Verif.Model.ParamExt
import Verif.Props.ParamExtProps
import Verif.Model.Calib
import Verif.Props.CalibProps
