import Mathlib.Algebra.Order.Floor.Ring
import Verif.Model.Loop
import Verif.Model.MedianCont

/-! # Dust extinction curves (`src/lib/spectrum/fluxcorrectioncalzetti.cpp`)

Numbers are those of a linearly ordered field with a floor; rounding is not modelled. The power of ten of the C library is
the parameter `p10`. -/

namespace Amazed
namespace Calzetti

section
variable {K : Type} [Field K] [LinearOrder K]

/-- The members of `CalzettiCorrection` (fluxcorrectioncalzetti.h:47-53). -/
structure Corr (K : Type) where
  lbda : List K
  fluxcorr : List K
  step : K
deriving DecidableEq

/-- The test `relativeErrAbs > relativeLbdaGridStepTol` (fluxcorrectioncalzetti.cpp:52-57) for a step `d`. Simplification:
the division by a null step is resolved as IEEE does, infinite (above the tolerance) unless `d` is null as well (NaN, not
above the tolerance). -/
def stepBad (step d : K) : Prop := if step = 0 then d ≠ 0 else 1 / 100000000 < |(d - step) / step|

instance (step d : K) : Decidable (stepBad step d) := by unfold stepBad; exact inferInstance

/-- The constructor of `CalzettiCorrection` (fluxcorrectioncalzetti.cpp:44-61). It reads `lbda[1]` before any check. -/
def mkCorr (lbda fluxcorr : List K) : Res (Corr K) :=
  Res.at_ lbda 1 >>= fun l1 =>
  Res.at_ lbda 0 >>= fun l0 =>
  Res.foldN (fun t (_ : Unit) =>
    Res.at_ lbda (t - 1) >>= fun a =>
    Res.at_ lbda t >>= fun b =>
    if stepBad (l1 - l0) (b - a) then .throw .BAD_CALZETTICORR else .ok ()) 2 (lbda.length - 2) () >>= fun _ =>
  .ok ⟨lbda, fluxcorr, l1 - l0⟩

/-- The members of `CSpectrumFluxCorrectionCalzetti` (fluxcorrectioncalzetti.h:74-84). -/
structure Dust (K : Type) where
  data : List K
  n : Int
  eStep : K
  eStart : K
  table : List K
  lmin : K
  lmax : K
  step : K
deriving DecidableEq

/-- `GetEbmvValue` (fluxcorrectioncalzetti.cpp:80-83). -/
def ebmv (start step : K) (k : Int) : K := start + step * (k : K)

/-- The constructor of `CSpectrumFluxCorrectionCalzetti` (fluxcorrectioncalzetti.cpp:63-78); `n` is the number of
coefficients converted to an `Int32`. `front()` and `back()` of an empty vector are undefined; a negative number of
coefficients asks for a vector of almost `2^64` elements. -/
def mkDust (p10 : K → K) (c : Corr K) (start step : K) (n : Int) : Res (Dust K) :=
  Res.at_ c.lbda 0 >>= fun l0 =>
  Res.at_ c.lbda (c.lbda.length - 1) >>= fun l1 =>
  if n < 0 ∧ c.fluxcorr ≠ [] then .throw .STD_LENGTH_ERROR
  else
    .ok ⟨c.fluxcorr, n, step, start,
      (List.range n.toNat).flatMap (fun kd : Nat => c.fluxcorr.map (fun x => p10 (-(4 / 10) * x * ebmv start step (kd : Int)))),
      l0, l1, c.step⟩

variable [FloorRing K]

/-- `GetEbmvIndex` (fluxcorrectioncalzetti.cpp:85-88): undefined when the quotient does not fit in an `Int32`. -/
def ebmvIndex (d : Dust K) (v : K) : Res Int := MedCont.amplitude (v - d.eStart) d.eStep

/-- `GetDustCoeff` (fluxcorrectioncalzetti.cpp:90-101). The index of the table is computed without wrap-around: a negative
`kDust` gives, as in the code, an index out of the table. -/
def coeff (d : Dust K) (kDust : Int) (lambda : K) : Res K :=
  if d.n ≤ kDust then .throw .INTERNAL_ERROR
  else if d.lmin ≤ lambda ∧ lambda < d.lmax then
    MedCont.amplitude (lambda - d.lmin) d.step >>= fun k => Res.atZ d.table (kDust * d.data.length + k)
  else .ok 1

/-- Both constructors in sequence, as done when the calibration files are loaded. -/
def build (p10 : K → K) (lbda fluxcorr : List K) (start step : K) (n : Int) : Res (Dust K) :=
  mkCorr lbda fluxcorr >>= fun c => mkDust p10 c start step n

end
end Calzetti
end Amazed
