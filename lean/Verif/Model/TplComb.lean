import Verif.Model.SvdFit
import Verif.Model.SpectralAxis
import Verif.Model.TplFit

set_option linter.unusedVariables false

/-! # Template combination (`src/lib/operator/tplcombination.cpp`)

Numbers are elements of a linearly ordered field: rounding is not modelled; a square root of a negative number and a division by zero
give NaN or an infinity (`none`) in the reported errors, and are `ub` elsewhere. The linear least squares solver of GSL
(`gsl_multifit_wlinear`) is a parameter; its error handler throws (context.cpp:53-60). Rebinning one template (`CSpectrum::Rebin`,
modelled in `Verif.Model.Rebin`) is a parameter, and so is the position of an E(B-V) value in its list. Each component of the combination is a `TplFit.Slot`:
the spectrum, the range of the fit and the rebinned template, with its extinctions. The priors given to `Compute` and `BasicFit` are not arguments of the model: no
line reads them. The buffers kept from one redshift to the next are overwritten by `Rebin`, which removes the extinctions. The intermediate amplitudes
(`fittingAmplitudesInterm`) are not modelled: nothing reads them. -/

namespace Amazed
namespace TplComb

open TplFit

variable {K : Type} [Field K] [LinearOrder K]

/-- A template: wavelengths and flux. -/
abbrev Tp (K : Type) := List K × List K

/-- What `RebinTemplate` gives for the components: their fluxes on the rest frame axis of the spectrum, the common range and the last overlap fraction
(`none` when there is no component). -/
structure Rebinned (K : Type) where
  fluxes : List (List K)
  range : Range K
  overlap : Option K

/-- The loop of `RebinTemplate` over the templates (tplcombination.cpp:398-443): `rest` is the rest frame axis of the spectrum, `lr` the range in the rest
frame, `sr` the same clamped to the axis. -/
def rebinLoop (reb : Tp K → Range K → List K → Res (List K × List Nat)) (rest : List K) (lr sr : Range K) (thr : K) :
    List (Tp K) → Rebinned K → Res (Rebinned K)
  | [], r => .ok r
  | t :: ts, r =>
    SAxis.clampLambdaRange t.1 lr >>= fun tr =>
    let inter := (Range.intersect tr sr ⟨0, 0⟩).2
    let all := (Range.intersect r.range inter r.range).2
    reb t inter rest >>= fun fm =>
    SAxis.overlapFraction rest lr fm.2 >>= fun ov =>
    if ov < thr ∨ ov ≤ 0 then .throw .OVERLAPFRACTION_NOTACCEPTABLE
    else rebinLoop reb rest lr sr thr ts ⟨r.fluxes ++ [fm.1], all, some ov⟩

/-- The rest frame axis (`ShiftByWaveLength` backward, spectralaxis.cpp:148-165). -/
def restAxis (axis : List K) (z : K) : List K := axis.map fun x => x / (1 + z)

/-- `RebinTemplate` (tplcombination.cpp:375-445). `1 + z` null divides by zero, negative is refused by the shift. -/
def rebinTemplates (reb : Tp K → Range K → List K → Res (List K × List Nat)) (axis : List K) (tpls : List (Tp K)) (z : K) (lr : Range K) (thr : K) :
    Res (Rebinned K) :=
  if 1 + z = 0 then .ub
  else if 1 + z < 0 then .throw .INTERNAL_ERROR
  else
    let r : Range K := ⟨lr.b / (1 + z), lr.e / (1 + z)⟩
    SAxis.clampLambdaRange (restAxis axis z) r >>= fun sr =>
    rebinLoop reb (restAxis axis z) r sr thr tpls ⟨[], sr, none⟩

/-- `GetNormFactor` (tplcombination.cpp:695-705): the largest absolute flux, at least `DBL_MIN`. -/
def normFactor (tiny : K) (flux : List K) (a : Nat) : Nat → Res K
  | 0 => .ok tiny
  | n + 1 => normFactor tiny flux a n >>= fun m => Res.at_ flux (n + a) >>= fun v => .ok (if m < |v| then |v| else m)

/-- The data and its weight (tplcombination.cpp:187-196); a null error is an infinite weight. -/
def datum (flux err : List K) (norm : K) (a i : Nat) : Res (K × K) :=
  Res.at_ flux (i + a) >>= fun y => Res.at_ err (i + a) >>= fun e =>
  if e = 0 then .ub else .ok (y / norm, 1 / ((e / norm) * (e / norm)))

/-- The result of the solver: coefficients, covariance matrix and chi2. -/
structure LsFit (K : Type) where
  c : Nat → K
  cov : Nat → Nat → K
  chi2 : K

/-- The solver: number of coefficients, equations. -/
abbrev Solver (K : Type) := Nat → List (SvdFit.Row K) → Res (LsFit K)

/-- One row of the matrix (tplcombination.cpp:245-251). -/
def row (slots : List (Slot K)) (a i : Nat) : Res (List K) := SvdFit.mapL (fun s => Res.at_ s.t.flux (i + a)) slots

/-- The equations (tplcombination.cpp:187-196, 245-251). -/
def equations (slots : List (Slot K)) (a : Nat) (data : List (K × K)) : Res (List (SvdFit.Row K)) :=
  Res.tab (fun i => row slots a i >>= fun x => Res.at_ data i >>= fun yw => .ok ⟨x, yw.1, yw.2⟩) data.length

/-- Square root, NaN for a negative number. -/
def osq (sq : K → K) (x : K) : Option K := if x < 0 then none else some (sq x)

/-- Quotient, NaN or infinite for a null divisor. -/
def quo (x : K) (y : Option K) : Option K := y.bind fun d => if d = 0 then none else some (x / d)

/-- The amplitudes, their errors, their ratios and the covariance matrix (tplcombination.cpp:301-322). -/
structure Last (K : Type) where
  amps : List K
  errs : List (Option K)
  sigmas : List (Option K)
  cov : List (List K)
deriving DecidableEq

/-- Lines 301-322 of tplcombination.cpp. -/
def lastOf (sq : K → K) (norm : K) (n : Nat) (f : LsFit K) : Last K :=
  ⟨(List.range n).map fun i => f.c i * norm,
   (List.range n).map fun i => (osq sq (f.cov i i)).map (· * norm),
   (List.range n).map fun i => quo (f.c i) (osq sq (f.cov i i)),
   (List.range n).map fun i => (List.range n).map fun j => f.cov i j⟩

/-- The signal to noise ratio (tplcombination.cpp:302-313). -/
def snrOf (sq : K → K) (n : Nat) (f : LsFit K) : Option K :=
  let sA := ((List.range n).map fun i => f.c i * f.c i).sum
  let sE := ((List.range n).map fun i => f.cov i i).sum
  (quo sA (some sE)).bind (osq sq)

/-- The best configuration so far (tplcombination.cpp:331-338). -/
structure Best (K : Type) where
  chi2 : K
  snr : Option K
  igm : Int
  ebmv : K
deriving DecidableEq

/-- `STplcombination_basicfitresult` (tplcombination.h:62-86): `best` is `none` while the chi2 is infinite, `last` while the amplitudes are NaN. -/
structure Result (K : Type) where
  best : Option (Best K)
  last : Option (Last K)
  tbl : List (List (Entry K))

/-- The best configuration after a fit (tplcombination.cpp:331-338). -/
def better (old : Option (Best K)) (new : Best K) : Best K :=
  match old with
  | none => new
  | some b => if new.chi2 < b.chi2 then new else b

/-- The dust extinction of all the components (tplcombination.cpp:233-240). -/
def dustAll (op : Opt K) (k : Int) (ss : List (Slot K)) : Res (List (Slot K)) :=
  if op.dust then mapSlots (dustSlot op k) ss >>= fun r => .ok r.2 else .ok ss

/-- One iteration of the loop on the dust coefficients (tplcombination.cpp:230-356). With one component, the debug message reads
the second coefficient (line 286): the range check of GSL throws. -/
def dustStep (sq : K → K) (solve : Solver K) (norm : K) (a : Nat) (data : List (K × K)) (op : Opt K) (applied : Bool) (kM : Nat) (mi : Int) (kE : Nat)
    (st : List (Slot K) × Result K) : Res (List (Slot K) × Result K) :=
  Res.at_ op.ebmv kE >>= fun k =>
  dustAll op k st.1 >>= fun slots =>
  equations slots a data >>= fun eqs =>
  solve slots.length eqs >>= fun f =>
  if slots.length < 2 then .throw .EXTERNAL_LIB_ERROR
  else
  let coeff : K := if op.dust then op.ebmvValue k else -1
  let igm : Int := if applied then mi else -1
  setTbl st.2.tbl kE kM ⟨f.chi2, some coeff, igm⟩ >>= fun tbl =>
  .ok (slots, ⟨some (better st.2.best ⟨f.chi2, snrOf sq slots.length f, igm, coeff⟩), some (lastOf sq norm slots.length f), tbl⟩)

/-- The IGM extinction of all the components and whether it is applied (tplcombination.cpp:210-228): `lo` is the begin of the range in the rest frame, which the code
divides by `1 + z` again. -/
def igmAll (op : Opt K) (lo : K) (mi : Int) (ss : List (Slot K)) : Res (Bool × List (Slot K)) :=
  if op.igm then
    if 1216 < lo / (1 + op.z) then .ok (false, ss)
    else mapSlots (igmSlot op mi) ss >>= fun r => .ok (r.1.all id, r.2)
  else .ok (false, ss)

/-- The loop on the IGM indices (tplcombination.cpp:197-357) from iteration `kM`, with `n` iterations left; `skip` is `igmLoopUseless_WavelengthRange`. -/
def igmLoop (sq : K → K) (solve : Solver K) (norm : K) (a : Nat) (data : List (K × K)) (op : Opt K) (lo : K) (kM : Nat) :
    Nat → Bool → List (Slot K) × Result K → Res (Result K)
  | 0, _, st => .ok st.2
  | n + 1, skip, st =>
    if skip = true then .ok { st.2 with tbl := st.2.tbl.map copyFirst }
    else
      Res.at_ op.meiksin kM >>= fun mi =>
      igmAll op lo mi st.1 >>= fun s =>
      Res.foldN (dustStep sq solve norm a data op s.1 kM mi) 0 op.ebmv.length (s.2, st.2) >>= fun st' =>
      igmLoop sq solve norm a data op lo (kM + 1) n (op.igm && !s.1) st'

/-- What does not change from one fit to the next: square root, solver, rebinning, `DBL_MIN`, `DBL_MAX`, extinction curves and E(B-V) values, whether the
templates have extinction objects, the spectrum, the templates and the options. -/
structure Env (K : Type) where
  sq : K → K
  solve : Solver K
  reb : Tp K → Range K → List K → Res (List K × List Nat)
  tiny : K
  big : K
  c : Tpl.Curves K
  ebmvValue : Int → K
  ebmvIndex : K → Res Int
  hasDust : Bool
  hasIgm : Bool
  axis : List K
  flux : List K
  err : List K
  tpls : List (Tp K)
  igm : Bool
  dust : Bool
  meiksin : List Int
  ebmv : List Int

/-- The options of the fit at redshift `z`, as `TplFit.Opt`. -/
def Env.op (v : Env K) (z : K) : Opt K := ⟨v.c, z, v.ebmvValue, v.dust, v.igm, false, 0, v.meiksin, v.ebmv, false, []⟩

/-- The components after `RebinTemplate`. -/
def Env.slots (v : Env K) (z : K) (mask : List Nat) (ij : Nat × Nat) (fluxes : List (List K)) : List (Slot K) :=
  fluxes.map fun f => ⟨v.flux, v.err, mask, ij.1, ij.2, Tpl.make (restAxis v.axis z) f v.hasDust v.hasIgm, []⟩

/-- `InitIsmIgmConfig` of all the components (tplcombination.cpp:130-132). -/
def initAll (op : Opt K) (ss : List (Slot K)) : Res (List (Slot K)) :=
  if op.igm || op.dust then mapSlots (initSlot op false false) ss >>= fun r => .ok r.2 else .ok ss

/-- The read of the IGM end index (tplcombination.cpp:134-135): its value is not used. -/
def readIgmEnd (op : Opt K) (ss : List (Slot K)) : Res Unit :=
  if op.igm then Res.at_ ss 0 >>= fun s => igmEndIdx s.t >>= fun _ => .ok () else .ok ()

/-- The part of `BasicFit` after `RebinTemplate` (tplcombination.cpp:128-373): the components, the first sample and the number of samples. -/
def fitSlots (v : Env K) (z lo : K) (ij : Nat × Nat) (ss0 : List (Slot K)) : Res (Result K) :=
  initAll (v.op z) ss0 >>= fun ss =>
  readIgmEnd (v.op z) ss >>= fun _ =>
  if v.ebmv = [] then .ub
  else
  normFactor v.tiny v.flux ij.1 (ij.2 + 1 - ij.1) >>= fun norm =>
  Res.tab (datum v.flux v.err norm ij.1) (ij.2 + 1 - ij.1) >>= fun data =>
  igmLoop v.sq v.solve norm ij.1 data (v.op z) lo 0 v.meiksin.length false
    (ss, ⟨none, none, List.replicate v.ebmv.length (List.replicate v.meiksin.length ⟨v.big, none, -1⟩)⟩) >>= fun r =>
  match r.best with
  | none => .throw .INVALID_MERIT_VALUES
  | some _ => .ok r

/-- `BasicFit` (tplcombination.cpp:92-373): the overlap fraction and the result. -/
def basicFit (v : Env K) (lr : Range K) (thr : K) (mask : List Nat) (z : K) : Res (Option K × Result K) :=
  if mask.length ≠ v.flux.length then .throw .INTERNAL_ERROR
  else
  rebinTemplates v.reb v.axis v.tpls z lr thr >>= fun rb =>
  if rb.fluxes = [] then .ub
  else
  Range.closedIdx rb.range (restAxis v.axis z) >>= fun ij =>
  fitSlots v z rb.range.b ij (v.slots z mask ij rb.fluxes) >>= fun r => .ok (rb.overlap, r)

/-- Order of `std::pair<Float64, Int32>`. -/
def pairLe (p q : K × Nat) : Bool := decide (p.1 < q.1) || (decide (p.1 = q.1) && decide (p.2 ≤ q.2))

/-- The redshifts in increasing order with their index (tplcombination.cpp:479-493). -/
def sorted (zs : List K) : List (K × Nat) := zs.zipIdx.insertionSort (fun p q => pairLe p q = true)

/-- The loop over the sorted redshifts (tplcombination.cpp:528-560). -/
def fits (v : Env K) (lr : Range K) (thr : K) (masks : List (List Nat)) : List (K × Nat) → Res (List (K × Option K × Result K))
  | [] => .ok []
  | p :: ps =>
    (if masks.length = 0 then .ok (List.replicate v.axis.length 1) else Res.at_ masks p.2) >>= fun m =>
    basicFit v lr thr m p.1 >>= fun r =>
    fits v lr thr masks ps >>= fun rs => .ok ((p.1, r.1, r.2) :: rs)

/-- The sum of the logarithms of the errors in `EstimateLikelihoodCstLog` (tplcombination.cpp:685-688). -/
def sumLog (lg : K → K) (err : List K) (a : Nat) : Nat → Res K
  | 0 => .ok 0
  | n + 1 => sumLog lg err a n >>= fun s => Res.at_ err (a + n) >>= fun e => if e ≤ 0 then .ub else .ok (s + lg e)

/-- `EstimateLikelihoodCstLog` (tplcombination.cpp:667-693); `l2pi` is `log(2 π)`. -/
def cstLog (lg : K → K) (l2pi : K) (axis err : List K) (lr : Range K) : Res K :=
  Range.closedIdx lr axis >>= fun ij =>
  sumLog lg err ij.1 (ij.2 + 1 - ij.1) >>= fun s => .ok (-((ij.2 + 1 - ij.1 : Nat) : K) * (1 / 2) * l2pi - s)

/-- `Compute` (tplcombination.cpp:455-591): the results for the sorted redshifts and the likelihood constant. The lists of extinction indices
(`GetIsmIgmIdxList`, modelled in `idxList`) are members of the environment. Without redshift, the overlap warning reads the first of an empty list. -/
def compute (v : Env K) (lg : K → K) (l2pi : K) (lr : Range K) (thr : K) (masks : List (List Nat)) (zs : List K) : Res (List (K × Option K × Result K) × K) :=
  if v.tpls ≠ [] ∧ (v.dust = true ∧ v.hasDust = false ∨ v.igm = true ∧ v.hasIgm = false) then .throw .INTERNAL_ERROR
  else if v.tpls = [] then .ub
  else if masks.length ≠ zs.length ∧ masks.length ≠ 0 then .throw .INTERNAL_ERROR
  else
  SAxis.clampLambdaRange v.axis lr >>= fun cr =>
  fits v cr thr masks (sorted zs) >>= fun rs =>
  if zs = [] then .ub
  else cstLog lg l2pi v.axis v.err cr >>= fun c => .ok (rs, c)

/-- `GetIsmIdxList` and `GetIgmIdxList` (template.cpp:390-445): `on` is the option, `has` whether the extinction object is there, `count` the number
of its coefficients, `idx` the index to fit (-1 for `undefIdx`). -/
def idxList (on has : Bool) (count : Nat) (idx : Int) : Res (List Int) :=
  if has = false ∧ on = true then .throw .INTERNAL_ERROR
  else if on = false then .ok [-1]
  else if idx ≠ -1 then .ok [idx]
  else .ok ((List.range count).map fun i => (i : Int))

/-- The extinction applied to a flux of ones (tplcombination.cpp:619-643). Without dust object, `GetEbmvIndex` is called on a null pointer. -/
def extinction (v : Env K) (rest : List K) (z : K) (ij : Nat × Nat) (ebmv : K) (igm : Int) : Res (List K) :=
  let t0 : Tpl.T K := Tpl.make rest (List.replicate rest.length 1) v.hasDust v.hasIgm
  (if 0 < ebmv ∨ -1 < igm then (Tpl.init v.c t0 ij.1 ij.2 z).2 >>= fun _ => .ok (Tpl.init v.c t0 ij.1 ij.2 z).1 else .ok t0) >>= fun t1 =>
  (if 0 < ebmv ∧ v.hasDust = false then .ub else if 0 < ebmv then v.ebmvIndex ebmv >>= fun k => if k ≠ -1 then (Tpl.applyDust v.c t1 k).2 >>= fun _ => .ok (Tpl.applyDust v.c t1 k).1 else .ok t1
   else .ok t1) >>= fun t2 =>
  (if -1 < igm then (Tpl.applyIgm v.c t2 igm).2 >>= fun _ => .ok (Tpl.applyIgm v.c t2 igm).1 else .ok t2) >>= fun t3 =>
  .ok t3.flux

/-- One sample of the model (tplcombination.cpp:648-654): the sum over the components. -/
def modelSample (fluxes : List (List K)) (amps ext : List K) (k : Nat) : Nat → Res K
  | 0 => .ok 0
  | n + 1 =>
    modelSample fluxes amps ext k n >>= fun s => Res.at_ fluxes n >>= fun f => Res.at_ amps n >>= fun a => Res.at_ f k >>= fun x =>
    Res.at_ ext k >>= fun e => .ok (s + a * x * e)

/-- `ComputeSpectrumModel` (tplcombination.cpp:593-665): wavelengths and flux of the model. -/
def spectrumModel (v : Env K) (lr : Range K) (thr : K) (z ebmv : K) (igm : Int) (amps : List K) : Res (List K × List K) :=
  rebinTemplates v.reb v.axis v.tpls z lr thr >>= fun rb =>
  if rb.fluxes = [] then .ub
  else
  Range.closedIdx rb.range (restAxis v.axis z) >>= fun ij =>
  extinction v (restAxis v.axis z) z ij ebmv igm >>= fun ext =>
  Res.tab (fun k => modelSample rb.fluxes amps ext k v.tpls.length) v.axis.length >>= fun fl =>
  .ok (v.axis.map (· * (1 + z)), fl)

end TplComb
end Amazed
