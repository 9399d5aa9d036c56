import Verif.Model.SpcModel
import Verif.Model.SpectralAxis
import Verif.Model.Range

set_option linter.unusedVariables false

/-! # Merits of the line model

`RedshiftLibrary/src/lib/linemodel/linemodelfitting.cpp` (getLeastSquareContinuumMerit, getLeastSquareContinuumMeritFast, computeSpcNSamples, getCumulSNRStrongEL,
getSNROnRange, EstimateDTransposeD, EstimateMTransposeM, EstimateLikelihoodCstLog, GetMeanContinuumUnderLine) and `lineratiomanager.cpp` (getLeastSquareMerit).

The loops over the spectra are complete loops (C80): they are folds over the list of the spectra. A zero error divides by zero: undefined here. -/

namespace Amazed
namespace Merit

variable {K : Type} [Field K] [LinearOrder K] [IsStrictOrderedRing K]

/-- What the merits read of one spectrum: spectral axis, wavelength range, observed flux, observed flux without continuum, continuum, model, errors. -/
structure Obs (K : Type) where
  axis : List K
  range : Range K
  spc : List K
  noCont : List K
  cont : List K
  model : List K
  err : List K

/-- The loop `for (j = imin; j < imax; j++)` of one spectrum, from the sum so far: `d` is the difference squared (lineratiomanager.cpp:227-234,
linemodelfitting.cpp:531-538, 1095-1109, 1134-1142). -/
def sumSq (d : Obs K → Nat → Res K) (o : Obs K) (s : K) : Res K :=
  SAxis.indexAt o.axis o.range.b >>= fun imin => SAxis.indexAt o.axis o.range.e >>= fun imax =>
  Res.foldN (fun j s => d o j >>= fun x => Res.at_ o.err j >>= fun e => if e = 0 then .ub else .ok (s + x * x / (e * e))) imin (imax - imin) s

/-- `a[j] - b[j]`. -/
def diff (a b : Obs K → List K) (o : Obs K) (j : Nat) : Res K := Res.at_ (a o) j >>= fun x => Res.at_ (b o) j >>= fun y => .ok (x - y)

/-- The loop on the spectra. -/
def overSpectra (f : Obs K → K → Res K) (os : List (Obs K)) : Res K := EltList.foldL f os 0

/-- `getLeastSquareMerit` (lineratiomanager.cpp:211-287); `fitSum` is `m_continuumManager->getFitSum()`. -/
def leastSquare (fitSum : K) (os : List (Obs K)) : Res K := overSpectra (sumSq (diff (·.spc) (·.model))) os >>= fun s => .ok (s + fitSum)

/-- `getLeastSquareContinuumMerit` (linemodelfitting.cpp:519-546); `prior` is the term added for the template continua (0 for the others). -/
def contMerit (prior : K) (os : List (Obs K)) : Res K := overSpectra (sumSq (diff (·.spc) (·.cont))) os >>= fun s => .ok (s + prior)

/-- `EstimateDTransposeD` (linemodelfitting.cpp:1084-1116): `raw` is the component. -/
def dtd (raw : Bool) (os : List (Obs K)) : Res K := overSpectra (sumSq fun o j => Res.at_ (if raw then o.spc else o.noCont) j) os

/-- `EstimateMTransposeM` (linemodelfitting.cpp:1118-1146). -/
def mtm (os : List (Obs K)) : Res K := overSpectra (sumSq fun o j => Res.at_ o.model j) os

/-- `computeSpcNSamples` (linemodelfitting.cpp:564-585). -/
def nSamples (os : List (Obs K)) : Res Nat :=
  EltList.foldL (fun (o : Obs K) n => SAxis.indexAt o.axis o.range.b >>= fun imin => SAxis.indexAt o.axis o.range.e >>= fun imax =>
    .ok (n + ((imax : ℤ) - imin).natAbs)) os 0

/-- The cached terms of `CLineModelFitting`: wavelength range of the first spectrum when they were computed, `m_dTransposeD` and `m_likelihood_cstLog`. -/
structure Cache (K : Type) where
  range : Option (Range K)
  dtd : K
  cst : K
deriving DecidableEq

/-- `EstimateLikelihoodCstLog` (linemodelfitting.cpp:1148-1173): `lg` is `log`, `c` is `0.5 * log(2 * M_PI)`. The logarithm of an error that is not positive is
not a number: undefined here. -/
def cstLog (lg : K → K) (c : K) (os : List (Obs K)) : Res K :=
  EltList.foldL (fun (o : Obs K) s => Range.closedIdx o.range o.axis >>= fun r =>
    Res.foldN (fun j t => Res.at_ o.err j >>= fun e => if e ≤ 0 then .ub else .ok (t + lg e)) r.1 (r.2 - r.1 + 1) 0 >>= fun sumLog =>
    .ok (s + (-((r.2 - r.1 + 1 : Nat) : K) * c - sumLog))) os 0

/-- `initDtd` (linemodelfitting.cpp:299-312): `tplfit` is `isContinuumComponentTplfitxx()`. -/
def initDtd (lg : K → K) (c : K) (tplfit : Bool) (os : List (Obs K)) : Res (Cache K) :=
  Res.at_ os 0 >>= fun o => dtd tplfit os >>= fun d => cstLog lg c os >>= fun l => .ok ⟨some o.range, d, l⟩

/-- `getDTransposeD` and `getLikelihood_cstLog` (linemodelfitting.cpp:1051-1080): the cache after the call; the value returned is its field. -/
def cached [DecidableEq K] (lg : K → K) (c : K) (tplfit : Bool) (os : List (Obs K)) (cc : Cache K) : Res (Cache K) :=
  Res.at_ os 0 >>= fun o => if cc.range = some o.range then .ok cc else initDtd lg c tplfit os

/-- The theoretical support of a line and whether the line is strong. -/
structure Sup where
  b : ℤ
  e : ℤ
  strong : Bool
deriving DecidableEq

/-- The inner loop of the merge (linemodelfitting.cpp:626-646): the support that absorbs, and those not processed, in order. -/
def absorb : Sup → List Sup → Sup × List Sup
  | s, [] => (s, [])
  | s, t :: l =>
    if max s.b t.b - min s.e t.e < 0 then absorb ⟨min s.b t.b, max s.e t.e, s.strong || t.strong⟩ l
    else ((absorb s l).1, t :: (absorb s l).2)

/-- The merge of the overlapping supports (linemodelfitting.cpp:613-650); the argument is the list of the supports not processed yet, in order; each turn processes at
least one of them. -/
def mergeN : Nat → List Sup → List Sup
  | 0, _ => []
  | _, [] => []
  | n + 1, s :: l => (absorb s l).1 :: mergeN n (absorb s l).2

def merge (l : List Sup) : List Sup := mergeN l.length l

/-- `getSNROnRange` (linemodelfitting.cpp:677-702). -/
def snrOnRange (o : Obs K) (s : Sup) : Res (K × K) :=
  if s.e - s.b < 1 then .ok (0, 0)
  else EltList.foldL (fun z st => Res.atZ o.model z >>= fun m => Res.atZ o.cont z >>= fun c => Res.atZ o.err z >>= fun e =>
    .ok (st.1 + (m - c), st.2 + e * e)) (EltList.zrange (s.b, s.e)) ((0 : K), (0 : K)) >>= fun q => .ok (|q.1|, q.2)

/-- The sums of `getCumulSNRStrongEL` (linemodelfitting.cpp:652-668) from the merged supports: (flux, variance) of all and of the strong ones. -/
def cumulSums (o : Obs K) (l : List Sup) : Res ((K × K) × (K × K)) :=
  EltList.foldL (fun s st => snrOnRange o s >>= fun q =>
    .ok ((st.1.1 + q.1, st.1.2 + q.2), if s.strong then (st.2.1 + q.1, st.2.2 + q.2) else st.2)) l (((0 : K), 0), (0, 0))

/-- `getCumulSNRStrongEL` (linemodelfitting.cpp:592-674) from the supports of the emission lines in range: `none` is not a number; `sq` is `sqrt`. -/
def cumulSNR (sq : K → K) (o : Obs K) (l : List Sup) : Res (Option K × Option K) :=
  cumulSums o (merge l) >>= fun q =>
  .ok (if sq q.1.2 = 0 then none else some (q.1.1 / sq q.1.2), if sq q.2.2 = 0 then none else some (q.2.1 / sq q.2.2))

/-- What `GetMeanContinuumUnderLine` sums for one spectrum (linemodelfitting.cpp:1187-1207): weighted continuum, weights, squared weights, squared residual and number of
samples; `none` if the line is outside of the range of the spectrum. -/
structure LineSums (K : Type) where
  cont : K
  w : K
  w2 : K
  res : K
  n : Nat

/-- `GetContinuumWeightedSumInRange` (spectrummodel.cpp:324-350): `poly` is the value of the polynomial at the samples, 0 if the offsets are not enabled; the residual part is added by
the caller. -/
def weightedSum (cont : List K) (poly : ℤ → K) (r : ℤ × ℤ) (weights : List K) : Res (K × K × K) :=
  Res.foldN (fun i st => Res.atZ cont (r.1 + i) >>= fun c => Res.at_ weights i >>= fun w =>
    .ok (st.1 + w * (c + poly (r.1 + i)), st.2.1 + w, st.2.2 + w * w)) 0 (r.2 - r.1 + 1).toNat ((0 : K), 0, 0)

/-- `GetMeanContinuumUnderLine` (linemodelfitting.cpp:1176-1221) from the sums of the spectra where the line is in range: the continuum and its uncertainty (`none`: NaN); `minN` is
`MIN_SAMPLE_NUMBER_CONTINUUMM_UNCERTAINTY`. -/
def meanContinuum (sq : K → K) (minN : Nat) (l : List (Option (LineSums K))) : Option K × Option K :=
  let ls := l.filterMap id
  let w := (ls.map (·.w)).sum
  let n := (ls.map (·.n)).sum
  if w = 0 then (none, none)
  else (some ((ls.map (·.cont)).sum / w), if n ≥ minN ∧ n ≠ 0 then some (sq ((ls.map (·.res)).sum / n) * sq (ls.map (·.w2)).sum / w) else none)

end Merit
end Amazed
