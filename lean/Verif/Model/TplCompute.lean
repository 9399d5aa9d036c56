import Verif.Model.TplModel
import Verif.Model.TplFit
import Verif.Model.TplComb

set_option linter.unusedVariables false

/-! # The fit of a template over the redshifts

`RedshiftLibrary/src/lib/operator/templatefitting.cpp` (Compute, and the beginning of BasicFit), `templatefittingresult.cpp` (set_at_redshift, SNRCalculation),
`templatefittingBase.cpp` (EstimateLikelihoodCstLog). The fit at one redshift is `TplFit.basicFit`, the resampling `TplModel.rebinTemplate`. The log messages (among them
the overlap warning, templatefitting.cpp:431-459) are not modelled, except that the warning reads the first redshift of the list. -/

namespace Amazed
namespace TplCompute

section
variable {K : Type} [Field K] [LinearOrder K]

/-- An observation of the input: its axis, flux, errors and range of wavelengths, and its mask at each redshift (`m_maskBuilder->getMask`, templatefitting.cpp:230-232). -/
structure Input (K : Type) where
  sx : List K
  flux : List K
  err : List K
  lr : Range K
  mask : K → List Nat

/-- A template: its axis, its resampling, the curves of its extinctions, `GetEbmvValue`, and whether it has each extinction, with the number of its coefficients. -/
structure Tp (K : Type) where
  tx : List K
  reb : Range K → List K → Res (List (Rebin.Cell K))
  c : Tpl.Curves K
  ebmvValue : Int → K
  hasDust : Bool
  nEbmv : Nat
  hasIgm : Bool
  nIgm : Nat

/-- What the caller asks: the options of the dust and of the IGM, the indices to fit (-1 for all), the thresholds on the overlap and on the amplitude. -/
structure Ask (K : Type) where
  dust : Bool
  igm : Bool
  ebmvIdx : Int
  igmIdx : Int
  ovThr : K
  ampThr : K

/-- `SNRCalculation` (templatefittingresult.cpp:91-101); `none` is NaN, `sq` the square root. -/
def snr (sq : K → K) (dtm mtm : K) : Option K := if mtm ≤ 0 then none else if dtm ≤ 0 then some 0 else some (dtm / sq mtm)

/-- The row of a redshift in the result (templatefittingresult.cpp:68-89), without the photometric chi2. -/
structure Row (K : Type) where
  chi2 : K
  ampl : K
  amplErr : K
  amplSigma : K
  ebmv : K
  igm : Int
  dtm : K
  mtm : K
  snr : Option K
  logprior : K
  overlap : List K
  tbl : List (List (TplFit.Entry K))

/-- `set_at_redshift` (templatefittingresult.cpp:68-89). -/
def rowOf (sq : K → K) (ov : List K) (tbl : List (List (TplFit.Entry K))) (b : TplFit.Best K) : Row K :=
  ⟨b.fit.chi2, b.fit.ampl, b.fit.amplErr, b.fit.amplSigma, b.ebmv, b.igm, b.fit.sums.cross, b.fit.sums.t, snr sq b.fit.sums.cross b.fit.sums.t, b.fit.logprior, ov, tbl⟩

/-- The resampling of the template on one observation and the samples of the fit (templatefitting.cpp:99-108); `fl` are the extinctions that an earlier redshift left on
the resampled template. The observation of the fit, the first wavelength of its range and the overlap. -/
def rebinObs (tp : Tp K) (z thr : K) (fl : Bool × Bool) (o : Input K) : Res (TplFit.Slot K × K × K) :=
  TplModel.rebinTemplate tp.reb tp.tx o.sx o.lr z thr >>= fun r =>
  Range.closedIdx r.cur r.rest >>= fun kk =>
  .ok (⟨o.flux, o.err, o.mask z, kk.1, kk.2, Tpl.make r.rest (r.cells.map (·.flux)) fl.1 fl.2, []⟩, r.cur.b, r.ov)

/-- The loop over the observations (templatefitting.cpp:101-109). -/
def rebinAll (tp : Tp K) (z thr : K) (fl : Bool × Bool) : List (Input K) → Res (List (TplFit.Slot K × K × K))
  | [] => .ok []
  | o :: os => rebinObs tp z thr fl o >>= fun r => rebinAll tp z thr fl os >>= fun rs => .ok (r :: rs)

/-- The extinctions on the resampled template after a fit (templatefitting.cpp:111-121). -/
def flagsAfter (tp : Tp K) (a : Ask K) (los : List K) (fl : Bool × Bool) : Bool × Bool :=
  if a.dust || (a.igm && TplFit.igmIsInRange los) then (fl.1 || tp.hasDust, fl.2 || tp.hasIgm) else fl

/-- `BasicFit` at one redshift with the row of the result (templatefitting.cpp:79-201, 415-428). -/
def fitAt (sq : K → K) (big : K) (tp : Tp K) (a : Ask K) (meiksin ebmv : List Int) (obs : List (Input K)) (z : K) (priors : List (TplFit.Prior K)) (fl : Bool × Bool) :
    Res (Row K × (Bool × Bool)) :=
  rebinAll tp z a.ovThr fl obs >>= fun rs =>
  TplFit.basicFit sq big tp.c z tp.ebmvValue tp.hasDust tp.nEbmv tp.hasIgm a.ampThr a.igm a.dust priors meiksin ebmv (rs.map (·.2.1)) (rs.map (·.1)) >>= fun r =>
  match r.best with
  | none => .throw .INVALID_MERIT_VALUES
  | some b => .ok (rowOf sq (rs.map (·.2.2)) r.tbl b, flagsAfter tp a (rs.map (·.2.1)) fl)

/-- The loop over the redshifts (templatefitting.cpp:415-429): each redshift comes with its priors. -/
def fitAll (sq : K → K) (big : K) (tp : Tp K) (a : Ask K) (meiksin ebmv : List Int) (obs : List (Input K)) : List (K × List (TplFit.Prior K)) → Bool × Bool → Res (List (Row K))
  | [], _ => .ok []
  | p :: ps, fl =>
    fitAt sq big tp a meiksin ebmv obs p.1 p.2 fl >>= fun r =>
    fitAll sq big tp a meiksin ebmv obs ps r.2 >>= fun rs => .ok (r.1 :: rs)

/-- `EstimateLikelihoodCstLog` (templatefittingBase.cpp:62-86): the sum over the observations. -/
def cstLog (lg : K → K) (l2pi : K) : List (Input K) → Res K
  | [] => .ok 0
  | o :: os => TplComb.cstLog lg l2pi o.sx o.err o.lr >>= fun c => cstLog lg l2pi os >>= fun s => .ok (c + s)

/-- The priors of the redshifts (templatefitting.cpp:409-419): none, or one list for each. -/
def withPriors (priors : List (List (TplFit.Prior K))) (zs : List K) : List (K × List (TplFit.Prior K)) :=
  if priors = [] then zs.map (fun z => (z, [])) else zs.zip priors

/-- `COperatorTemplateFitting::Compute` (templatefitting.cpp:372-465): the rows, in the order of the redshifts, and the likelihood constant. An empty list of redshifts
is read (454). -/
def compute (sq : K → K) (big : K) (lg : K → K) (l2pi : K) (tp : Tp K) (a : Ask K) (priors : List (List (TplFit.Prior K))) (obs : List (Input K)) (zs : List K)
    (fl : Bool × Bool) : Res (List (Row K) × K) :=
  if a.dust = true ∧ tp.hasDust = false then .throw .INTERNAL_ERROR
  else if a.dust = true ∧ (tp.nEbmv : Int) ≤ a.ebmvIdx then .throw .INTERNAL_ERROR
  else if a.igm = true ∧ tp.hasIgm = false then .throw .INTERNAL_ERROR
  else
    TplComb.idxList a.igm tp.hasIgm tp.nIgm a.igmIdx >>= fun meiksin =>
    TplComb.idxList a.dust tp.hasDust tp.nEbmv a.ebmvIdx >>= fun ebmv =>
    if priors ≠ [] ∧ priors.length ≠ zs.length then .throw .INTERNAL_ERROR
    else
      fitAll sq big tp a meiksin ebmv obs (withPriors priors zs) fl >>= fun rows =>
      if zs = [] then .ub
      else cstLog lg l2pi obs >>= fun c => .ok (rows, c)

end

end TplCompute
end Amazed
