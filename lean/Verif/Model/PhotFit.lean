import Verif.Model.Phot
import Verif.Model.TplCompute

set_option linter.unusedVariables false

/-! # The fit of a template with photometry at one redshift

`RedshiftLibrary/src/lib/operator/templatefittingwithphot.cpp` (constructor, RebinTemplate, RebinTemplateOnPhotBand, InitIsmIgmConfig, igmIsInRange, ApplyMeiksinCoeff,
ApplyDustCoeff, ComputeCrossProducts, ComputeAmplitudeAndChi2) inside `COperatorTemplateFitting::BasicFit` (templatefitting.cpp:79-201).

One IGM index and any list of dust indices: the fast IGM processing is then off (its sums are in Phot.lean, C90). -/

namespace Amazed
namespace PhotFit

section
variable {K : Type} [Field K] [LinearOrder K]

/-- The constructor (templatefittingwithphot.cpp:46-69): `n` is the number of spectra. -/
def new (n : Nat) (cat : Option (Phot.Cat K)) (data : Option (Phot.Data K)) : Res Unit :=
  if 1 < n then .throw .MULTIOBS_WITH_PHOTOMETRY_NOTIMPLEMENTED else Phot.checkInput cat data

/-- The body of `RebinTemplateOnPhotBand` (templatefittingwithphot.cpp:112-139) for one band: the rest frame axis and the resampled template. -/
def rebinBand (reb : Range K → List K → Res (List (Rebin.Cell K))) (z : K) (lambda : List K) : Res (List K × List (Rebin.Cell K)) :=
  if 1 + z = 0 then .ub
  else
    SAxis.shift (SAxis.ofList lambda) (1 + z) .backward >>= fun a =>
    reb (SAxis.lambdaRange a.samples) a.samples >>= fun cells =>
    SAxis.overlapFraction a.samples (SAxis.lambdaRange a.samples) (cells.map (·.mask)) >>= fun ov =>
    if ov < 1 then .throw .OVERLAPFRACTION_NOTACCEPTABLE else .ok (a.samples, cells)

/-- The data of a band: `at(name)` of the map (photometricdata.h:56-67). -/
def point (data : Phot.Data K) (name : String) : Res (Phot.Point K) := match LineCat.mapFind name data with
  | none => .throw .STD_OUT_OF_RANGE
  | some p => .ok p

/-- One band with its template and its data; `fl` are the extinctions that an earlier redshift left on the resampled template. -/
def bandSlot (reb : Range K → List K → Res (List (Rebin.Cell K))) (z : K) (data : Phot.Data K) (fl : Bool × Bool) (nb : String × Phot.Band K) : Res (Phot.Slot K) :=
  rebinBand reb z nb.2.lambda >>= fun r => point data nb.1 >>= fun p =>
  .ok ⟨nb.1, nb.2, p, Tpl.make r.1 (r.2.map (·.flux)) fl.1 fl.2⟩

/-- The loop over the bands (templatefittingwithphot.cpp:112-140), here in the order of the sums (`m_sortedBandNames`). -/
def bandSlots (reb : Range K → List K → Res (List (Rebin.Cell K))) (z : K) (data : Phot.Data K) (fl : Bool × Bool) : List (String × Phot.Band K) → Res (List (Phot.Slot K))
  | [] => .ok []
  | nb :: l => bandSlot reb z data fl nb >>= fun s => bandSlots reb z data fl l >>= fun ss => .ok (s :: ss)

/-- A change of the template of every band (templatefittingwithphot.cpp:158-160, 201-203, 215-217). -/
def onBands (f : Tpl.T K → Tpl.T K × Res Bool) : List (Phot.Slot K) → Res (List (Phot.Slot K))
  | [] => .ok []
  | b :: bs => (f b.t).2 >>= fun _ => onBands f bs >>= fun bs' => .ok ({ b with t := (f b.t).1 } :: bs')

/-- `InitIsmIgmConfig(redshift, ism, igm)` of a band (templatefittingwithphot.cpp:158-160, template.cpp:280-288): all the samples. -/
def bandInit (op : TplFit.Opt K) (hd hi : Bool) (t : Tpl.T K) : Tpl.T K × Res Bool :=
  let r := Tpl.init op.c { t with hasDust := t.hasDust || hd, hasIgm := t.hasIgm || hi } 0 ((t.axis.length : Int) - 1) op.z
  (r.1, r.2 >>= fun _ => .ok true)

/-- `igmIsInRange` (templatefittingwithphot.cpp:181-191): `lo` is the first rest wavelength of the fit of the spectrum. -/
def igmIsInRange (lo : K) (bs : List (Phot.Slot K)) : Bool :=
  TplFit.igmIsInRange [lo] || bs.any fun b => TplFit.igmIsInRange [(SAxis.lambdaRange b.t.axis).b]

/-- A row of the fit: dust index, fit of all the data, photometric chi2. -/
structure Row (K : Type) where
  k : Int
  fit : TplFit.Fit K
  phot : K

/-- One turn of the loop over the dust indices (templatefitting.cpp:157-191 with templatefittingwithphot.cpp:208-228). The sums of the bands are added to those of the
spectrum (302-305). `light` is the speed of light, `w` the weight of the photometry. -/
def dustTurn (sq : K → K) (op : TplFit.Opt K) (light w : K) (k : Int) (s : TplFit.Slot K × List (Phot.Slot K)) : Res (Row K × (TplFit.Slot K × List (Phot.Slot K))) :=
  (if op.dust then TplFit.dustSlot op k s.1 >>= fun r => onBands (fun t => Tpl.applyDust op.c t k) s.2 >>= fun bs => .ok (r.2, bs) else .ok s) >>= fun s' =>
  (if op.applyPrior then Res.atZ op.priors k else .ok TplFit.Prior.empty) >>= fun p =>
  TplFit.crossProducts false 0 0 s'.1 >>= fun cp =>
  Phot.photCross light w false 0 0 0 s'.2 [] >>= fun ph =>
  TplFit.amplChi2 sq op.thr p (cp.1.add ph.1) >>= fun fit =>
  .ok (⟨k, fit, Phot.chi2Phot ph.1 fit.ampl⟩, (cp.2, s'.2))

/-- The loop over the dust indices. -/
def dustTurns (sq : K → K) (op : TplFit.Opt K) (light w : K) : List Int → TplFit.Slot K × List (Phot.Slot K) → Res (List (Row K))
  | [], _ => .ok []
  | k :: ks, s => dustTurn sq op light w k s >>= fun r => dustTurns sq op light w ks r.2 >>= fun rs => .ok (r.1 :: rs)

/-- The best row: the first of smallest chi2 (templatefitting.cpp:181-190). -/
def best : List (Row K) → Option (Row K)
  | [] => none
  | r :: rs => some (rs.foldl (fun b r => if r.fit.chi2 < b.fit.chi2 then r else b) r)

/-- The extinctions before the loop (templatefitting.cpp:114-121, 147-152). -/
def prepare (op : TplFit.Opt K) (hd hi : Bool) (mi : Int) (s : TplFit.Slot K × List (Phot.Slot K)) : Res (TplFit.Slot K × List (Phot.Slot K)) :=
  (if op.dust || op.igm then TplFit.initSlot op hd hi s.1 >>= fun r => onBands (bandInit op hd hi) s.2 >>= fun bs => .ok (r.2, bs) else .ok s) >>= fun s1 =>
  if op.igm then TplFit.igmSlot op mi s1.1 >>= fun r => onBands (fun t => Tpl.applyIgm op.c t mi) s1.2 >>= fun bs => .ok (r.2, bs) else .ok s1

/-- The options of the fit (templatefitting.cpp:88-97, 111-112). -/
def options (tp : TplCompute.Tp K) (a : TplCompute.Ask K) (mi : Int) (ebmv : List Int) (z : K) (priors : List (TplFit.Prior K)) (inRange : Bool) : TplFit.Opt K :=
  ⟨tp.c, z, tp.ebmvValue, a.dust, a.igm && inRange, false, a.ampThr, [mi], ebmv, decide (priors ≠ []) && tp.hasDust && decide (priors.length = tp.nEbmv), priors⟩

/-- `BasicFit` with photometry at one redshift, one IGM index and a list of dust indices: the rows of the dust indices and the best one. -/
def fit (sq : K → K) (light w : K) (tp : TplCompute.Tp K) (a : TplCompute.Ask K) (mi : Int) (ebmv : List Int) (o : TplCompute.Input K) (bands : List (String × Phot.Band K))
    (data : Phot.Data K) (z : K) (priors : List (TplFit.Prior K)) (fl : Bool × Bool) : Res (List (Row K) × Row K) :=
  if ebmv = [] then .ub
  else
    TplCompute.rebinObs tp z a.ovThr fl o >>= fun r =>
    bandSlots tp.reb z data fl bands >>= fun bs =>
    prepare (options tp a mi ebmv z priors (igmIsInRange r.2.1 bs)) tp.hasDust tp.hasIgm mi (r.1, bs) >>= fun s =>
    dustTurns sq (options tp a mi ebmv z priors (igmIsInRange r.2.1 bs)) light w ebmv s >>= fun rows =>
    match best rows with
    | none => .throw .INVALID_MERIT_VALUES
    | some b => .ok (rows, b)

end

end PhotFit
end Amazed
