import Mathlib.Algebra.Order.Floor.Ring
import Verif.Model.Grid
import Verif.Model.Indexing
import Verif.Model.Loop
import Verif.Model.MedianCont

/-! # Extinction by the intergalactic medium (`src/lib/spectrum/fluxcorrectionmeiksin.cpp`)

Numbers are those of a linearly ordered field with a floor. Simplifications: rounding and the overflow of `Int32` are not
modelled; the unsigned addition of `getWaveVector` does not wrap (it only could before the convolution). The line spread
function is a parameter (`Verif.Model.Lsf` models those of the library). -/

namespace Amazed
namespace Meiksin

/-- `MeiksinCorrection` (fluxcorrectionmeiksin.h:53-60). -/
structure Curve (K : Type) where
  lbda : List K
  fluxcorr : List (List K)
deriving DecidableEq

/-- The members of `CSpectrumFluxCorrectionMeiksin` (fluxcorrectionmeiksin.h:114-123) but the last convolution range. -/
structure T (K : Type) where
  zbins : List K
  raws : List (Curve K)
  corr : List (Curve K)
  lmin : K
  lamSize : Int
  fineSize : Int
  convolved : Bool
deriving DecidableEq

/-- What the convolution uses of a line spread function: `GetWidth(lambda, true)`, `getNormalizedProfileVector` and
`GetProfile()->GetNSigmaSupport()`. -/
structure LsfFun (K : Type) where
  width : K → Res K
  kernel : List K → K → Res (List K)
  nsigma : K

/-- `vector::at` with an `Int32` index. -/
def checked {α : Type} (l : List α) (i : Int) : Res α :=
  if i < 0 then .throw .STD_OUT_OF_RANGE
  else match l[i.toNat]? with
    | some a => .ok a
    | none => .throw .STD_OUT_OF_RANGE

section
variable {K : Type} [Field K] [LinearOrder K]

/-- `RESTLAMBDA_LYA` (defaults.h:27). -/
def lya : K := 1216

/-- `IGM_RAW_STEP` and `m_finegridstep = IGM_RAW_STEP / IGM_OVERSAMPLING` (defaults.h:28-30, fluxcorrectionmeiksin.h:123). -/
def step : K := 5 / 100

/-- The constructor (fluxcorrectionmeiksin.cpp:48-54). -/
def make (raws : List (Curve K)) (zbins : List K) : Res (T K) :=
  checked raws 0 >>= fun c =>
  checked c.lbda 0 >>= fun l =>
  .ok ⟨zbins, raws, [], l, c.lbda.length, -1, false⟩

/-- `getIdxCount` (fluxcorrectionmeiksin.h:74-76). -/
def idxCount (t : T K) : Res Int := Res.at_ t.raws 0 >>= fun c => .ok (c.fluxcorr.length : Int)

/-- `getRedshiftIndex` (fluxcorrectionmeiksin.cpp:110-118); -1 is `undefIdx`. The index is compared with the unsigned
`size() - 1`, which -1 never equals as `getClosestLowerIndex` of an empty list is undefined. -/
def redshiftIndex (t : T K) (z : K) : Res Int :=
  getClosestLowerIndex t.zbins z >>= fun o =>
  match o with
  | none => .ok (-1)
  | some i => .ok (if i = t.zbins.length - 1 then (i : Int) - 1 else i)

/-- `getCorrection(zIdx, meiksinIdx, lbdaIdx)` (fluxcorrectionmeiksin.h:84-86). -/
def corrAt (t : T K) (zi idx li : Int) : Res K :=
  Res.atZ t.corr zi >>= fun c => Res.atZ c.fluxcorr idx >>= fun a => checked a li

/-- `getCorrectionDerivLbdaRest` (fluxcorrectionmeiksin.cpp:90-99). The quotient of two nulls is not a number: `ub`. -/
def derivAt (t : T K) (zi idx li : Int) : Res K :=
  let i0 := max 0 (li - 1)
  let i1 := min (t.fineSize - 1) (li + 1)
  Res.atZ t.corr zi >>= fun c =>
  Res.atZ c.fluxcorr idx >>= fun a =>
  checked a i1 >>= fun v1 =>
  checked a i0 >>= fun v0 =>
  checked c.lbda i1 >>= fun l1 =>
  checked c.lbda i0 >>= fun l0 =>
  if l1 - l0 = 0 then .ub else .ok ((v1 - v0) / (l1 - l0))

variable [FloorRing K]

/-- `getWaveIndex` (fluxcorrectionmeiksin.cpp:121-125). -/
def waveIndex (t : T K) (w : K) : Int :=
  min (t.fineSize - 1) (max 0 (MedCont.cround ((w - t.lmin) / step)))

/-- `getCorrection(redshift, meiksinIdx, lambdaRest)` (fluxcorrectionmeiksin.cpp:56-70). -/
def correction (t : T K) (z : K) (idx : Int) (lambda : K) : Res K :=
  if lya < lambda then .ok 1
  else if idx = -1 then .throw .INTERNAL_ERROR
  else
    redshiftIndex t z >>= fun zi =>
    if zi = -1 then .ok 1 else corrAt t zi idx (waveIndex t lambda)

/-- `getCorrectionAndDerivLbdaRest` (fluxcorrectionmeiksin.cpp:72-88). -/
def correctionDeriv (t : T K) (z : K) (idx : Int) (lambda : K) : Res (K × K) :=
  if lya < lambda then .ok (1, 0)
  else if idx = -1 then .throw .INTERNAL_ERROR
  else
    redshiftIndex t z >>= fun zi =>
    if zi = -1 then .ok (1, 0)
    else
      corrAt t zi idx (waveIndex t lambda) >>= fun c =>
      derivAt t zi idx (waveIndex t lambda) >>= fun d => .ok (c, d)

/-- `getWaveRangeIndices` (fluxcorrectionmeiksin.cpp:172-186). The two steps are equal; the sizes differ. -/
def rangeIndices (t : T K) (r : Range K) (raw : Bool) : Range Int :=
  let size := if raw then t.lamSize else t.fineSize
  ⟨min (size - 1) (max 0 ⌈(r.b - t.lmin) / step⌉), min (size - 1) (max 0 ⌊(r.e - t.lmin) / step⌋)⟩

/-- `getWaveVector(indices, raw)` (fluxcorrectionmeiksin.cpp:158-170). -/
def waveVector (t : T K) (r : Range Int) : List K :=
  if r.e - r.b < 0 then []
  else (List.range (r.e - r.b + 1).toNat).map (fun i : Nat => t.lmin + step * ((r.b + (i : Int) : Int) : K))

/-- `getWaveAndCorrectionVector` (fluxcorrectionmeiksin.cpp:128-149); `indices.SpreadOver(1)` (range.h:145-159) is the list
of the integers of the range. -/
def waveAndCorrection (t : T K) (r : Range K) (z : K) (idx : Int) : Res (List K × List K) :=
  let ind := rangeIndices t r false
  let wave := waveVector t ind
  if wave = [] then .throw .INTERNAL_ERROR
  else
    redshiftIndex t z >>= fun zi =>
    if zi = -1 then .ok (wave, List.replicate wave.length 1)
    else
      Res.tab (fun i => corrAt t zi idx (ind.b + (i : Int))) wave.length >>= fun c => .ok (wave, c)

/-- Body of the loop of `ConvolveByLSFOneCurve` for one wavelength (fluxcorrectionmeiksin.cpp:211-240). The products are
summed from the left. Reading `lambdas` or `arr` past their end is undefined. -/
def convSample (t : T K) (lsf : LsfFun K) (arr lambdas : List K) (zc lambda0 : K) : Res K :=
  if 1 + zc = 0 then .ub
  else
    lsf.width (lambda0 * (1 + zc)) >>= fun w =>
    let half := w * (lsf.nsigma / 2 / (1 + zc))
    let ind := rangeIndices t ⟨lambda0 - half, lambda0 + half⟩ true
    if ind.b < 0 ∨ t.lamSize ≤ ind.e then .throw .INTERNAL_ERROR
    else if ind.e - ind.b < 0 then .throw .INTERNAL_ERROR
    else if (lambdas.length : Int) ≤ ind.e then .ub
    else
      lsf.kernel ((List.range (ind.e - ind.b + 1).toNat).map
        (fun j : Nat => lambdas[ind.b.toNat + j]?.getD 0 * (1 + zc))) (lambda0 * (1 + zc)) >>= fun kernel =>
      Res.foldN (fun j s => Res.at_ kernel j >>= fun k => Res.at_ arr (ind.b.toNat + j) >>= fun a => .ok (s + k * a))
        0 kernel.length 0

/-- `ConvolveByLSFOneCurve` (fluxcorrectionmeiksin.cpp:191-242); `cr` is `m_convolRange`, and `m_fineLambdaSize` is already
the size of `fine`. Samples out of the range keep the null of their initialisation. -/
def convCurve (t : T K) (lsf : LsfFun K) (cr : Range K) (arr lambdas fine : List K) (z0 z1 : K) : Res (List K) :=
  if arr = [] then .throw .INTERNAL_ERROR
  else if 1 + z1 = 0 ∨ 1 + z0 = 0 then .ub
  else
    Res.at_ fine 0 >>= fun f0 =>
    Res.at_ fine (fine.length - 1) >>= fun f1 =>
    let rest : Range K := ⟨cr.b / (1 + z1), cr.e / (1 + z0)⟩
    let inter := Range.intersect rest ⟨f0, f1⟩ rest
    if inter.1 = false then .ok (List.replicate fine.length 0)
    else
      let ind := rangeIndices t inter.2 false
      Res.tab (fun i =>
        if ind.b ≤ (i : Int) ∧ (i : Int) ≤ ind.e then
          Res.at_ fine i >>= fun l => convSample t lsf arr lambdas ((z0 + z1) / 2) l
        else .ok 0) fine.length

/-- The inner loop of `convolveByLSF` (fluxcorrectionmeiksin.cpp:264-269) on one raw curve, appending to the convolved
curve `old`. -/
def convOne (t : T K) (lsf : LsfFun K) (cr : Range K) (fine : List K) (old raw : Curve K) (z0 z1 : K) : Res (Curve K) :=
  Res.tab (fun j => Res.at_ raw.fluxcorr j >>= fun arr => convCurve t lsf cr arr raw.lbda fine z0 z1)
    raw.fluxcorr.length >>= fun new =>
  .ok ⟨fine, old.fluxcorr ++ new⟩

/-- `convolveByLSF` (fluxcorrectionmeiksin.cpp:247-274). `m_corrections.resize` keeps the curves of an earlier call. The
state left by an exception is not modelled. -/
def convolve (t : T K) (lsf : LsfFun K) (cr : Range K) : Res (T K) :=
  Res.at_ t.raws 0 >>= fun r0 =>
  Res.at_ r0.lbda (r0.lbda.length - 1) >>= fun l1 =>
  (⟨t.lmin, l1⟩ : Range K).spreadOverEps step false (1 / 100000000) >>= fun fine =>
  Res.tab (fun i =>
    Res.at_ t.raws i >>= fun raw =>
    Res.at_ t.zbins i >>= fun z0 =>
    Res.at_ t.zbins (i + 1) >>= fun z1 =>
    convOne { t with fineSize := fine.length } lsf cr fine (t.corr[i]?.getD ⟨[], []⟩) raw z0 z1)
    t.raws.length >>= fun corr =>
  .ok { t with fineSize := fine.length, corr := corr, convolved := true }

end
end Meiksin
end Amazed
