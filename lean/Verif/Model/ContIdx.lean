import Verif.Basic
import Verif.Model.SpectralAxis
import Verif.Model.Loop

set_option linter.unusedVariables false

/-! # The continuum indexes of a spectrum at a redshift

`RedshiftLibrary/src/lib/continuum/indexes.cpp`, `spectrum/spectrum.cpp` (GetMeanAndStdFluxInRange, GetLinearRegInRange) and `spectrum/fluxaxis.cpp` (ComputeMeanAndSDev,
ComputeRMSDiff).

`none` is a number that is not finite. `sq` is the square root and `lg` the logarithm in base ten. The weight of a null error is infinite and makes every sum not finite,
also where the mask is null (`0 * inf` is NaN). -/

namespace Amazed
namespace ContIdx

section
variable {K : Type} [Field K] [LinearOrder K]

/-- The four sums of `ComputeMeanAndSDev` (fluxaxis.cpp:168). -/
structure Acc (K : Type) where
  s : K
  s2 : K
  w : K
  w2 : K

/-- One turn of the loop (fluxaxis.cpp:170-183); `none` once a weight is infinite. -/
def accBody (mask : List Nat) (flux err : List K) (j : Nat) (a : Option (Acc K)) : Res (Option (Acc K)) :=
  Res.at_ err j >>= fun e => Res.at_ mask j >>= fun m => Res.at_ flux j >>= fun y =>
  .ok (if e * e = 0 then none
    else a.map fun a => ⟨a.s + (m : K) * y * (1 / (e * e)), a.s2 + (m : K) * y * y * (1 / (e * e)), a.w + (m : K) * (1 / (e * e)), a.w2 + (m : K) * (1 / (e * e)) * (1 / (e * e))⟩)

/-- The end of `ComputeMeanAndSDev` (fluxaxis.cpp:185-195): mean and deviation; the quotient by zero is not finite. -/
def accEnd (sq : K → K) : Option (Acc K) → Option K × Option K
  | none => (none, none)
  | some a =>
    if 0 < a.w then
      (some (a.s / a.w),
        if a.w - a.w2 / a.w = 0 then none else some (sq ((a.s2 - a.s / a.w * (a.s / a.w) * a.w) / (a.w - a.w2 / a.w))))
    else (none, none)

/-- `ComputeMeanAndSDev` (fluxaxis.cpp:158-198). -/
def meanSDev (sq : K → K) (mask : List Nat) (flux err : List K) : Res (Option K × Option K) :=
  if mask.length ≠ flux.length then .throw .INTERNAL_ERROR
  else Res.foldN (accBody mask flux err) 0 flux.length (some ⟨0, 0, 0, 0⟩) >>= fun a => .ok (accEnd sq a)

/-- A range is outside of the spectrum (spectrum.cpp:372-377, 394-396). -/
def outside (axis : List K) (r : Range K) : Prop := r.b < (SAxis.lambdaRange axis).b ∨ (SAxis.lambdaRange axis).e < r.e

instance (axis : List K) (r : Range K) : Decidable (outside axis r) := by unfold outside; infer_instance

/-- `GetMeanAndStdFluxInRange` (spectrum.cpp:369-389); `none` is `false`: nothing is written. -/
def meanStdInRange (sq : K → K) (axis flux err : List K) (r : Range K) : Res (Option (Option K × Option K)) :=
  if outside axis r then .ok none
  else meanSDev sq (SAxis.getMask axis r) flux err >>= fun p => .ok (some p)

/-- A point of the regression: abscissa, ordinate, error. -/
structure Pt (K : Type) where
  x : K
  y : K
  e : K

/-- `gsl_fit_wlinear` with the weights `1 / e²`: slope and constant; `none` when they are not finite (a null error, or one abscissa only). -/
def wlinear (l : List (Pt K)) : Option (K × K) :=
  let w := (l.map fun p => 1 / (p.e * p.e)).sum
  let xm := (l.map fun p => 1 / (p.e * p.e) * p.x).sum / w
  let ym := (l.map fun p => 1 / (p.e * p.e) * p.y).sum / w
  let sxx := (l.map fun p => 1 / (p.e * p.e) * ((p.x - xm) * (p.x - xm))).sum
  let sxy := (l.map fun p => 1 / (p.e * p.e) * ((p.x - xm) * (p.y - ym))).sum
  if l.any (fun p => decide (p.e = 0)) = true ∨ sxx = 0 then none else some (sxy / sxx, ym - sxy / sxx * xm)

/-- `GetLinearRegInRange` (spectrum.cpp:391-421); `none` outside of the spectrum. An array whose size is not positive is undefined behaviour. -/
def linReg (axis flux err : List K) (r : Range K) : Res (Option (Option (K × K))) :=
  if outside axis r then .ok none
  else
    SAxis.indexesAt axis r >>= fun ij =>
    if ij.2 < ij.1 then .ub
    else
      Res.tab (fun k => Res.at_ err (k + ij.1) >>= fun e => Res.at_ axis (k + ij.1) >>= fun x => Res.at_ flux (k + ij.1) >>= fun y => .ok (⟨x, y, e⟩ : Pt K))
        (ij.2 - ij.1 + 1) >>= fun l => .ok (some (wlinear l))

/-- A colour and a break (indexes.h:51-55). -/
structure Index (K : Type) where
  color : Option K
  brk : Option K

/-- The colour or the break of two fluxes (indexes.cpp:98-107): `u` is the one of the numerator for the magnitude. A comparison with NaN is false. For the colour `u` is the
flux of A and `v` that of B; `pos` is the one that has to be positive. -/
def magnitude (lg : K → K) (u v : Option K) : Option K :=
  match u, v with
  | some u, some v => if 0 < v ∧ 0 < u then some (-(5 / 2) * lg (u / v)) else if v ≤ 0 ∧ 0 < u then some (-6) else none
  | _, _ => none

/-- The flux of the regression at the middle of the range B (indexes.cpp:89-93). -/
def atCenter (reg : Option (Option (K × K))) (b : Range K) : Option K := reg.bind fun p => p.map fun ab => (b.e + b.b) / 2 * ab.1 + ab.2

/-- One turn of the loop of `getIndexes` (indexes.cpp:80-110) for the ranges `ra`, `rb` of the rest frame. A flux that was not computed is NaN (it is not initialised in
the code for the regression, and only compared). -/
def index (sq lg : K → K) (axis flux err : List K) (z : K) (ra rb : Range K) : Res (Index K) :=
  let a : Range K := ⟨ra.b * (z + 1), ra.e * (z + 1)⟩
  let b : Range K := ⟨rb.b * (z + 1), rb.e * (z + 1)⟩
  meanStdInRange sq axis flux err a >>= fun fa =>
  meanStdInRange sq axis flux err b >>= fun fb =>
  linReg axis flux err a >>= fun reg =>
  .ok ⟨magnitude lg (fa.bind (·.1)) (fb.bind (·.1)), magnitude lg (fb.bind (·.1)) (atCenter reg b)⟩

/-- The ranges A and B of the indexes (indexes.cpp:60-77). -/
def bands : List (Range K × Range K) :=
  [(⟨1043, 1174⟩, ⟨1304, 1369⟩), (⟨3200, 3600⟩, ⟨4000, 4200⟩), (⟨4290, 4830⟩, ⟨5365, 5635⟩), (⟨5632, 6341⟩, ⟨7043, 36988 / 5⟩),
    (⟨1329, 1497⟩, ⟨1663, 1746⟩), (⟨1637, 1843⟩, ⟨2047, 2150⟩)]

/-- `getIndexes` (indexes.cpp:52-113). -/
def getIndexes (sq lg : K → K) (axis flux err : List K) (z : K) : Res (List (Index K)) :=
  Res.tab (fun i => Res.at_ (bands (K := K)) i >>= fun p => index sq lg axis flux err z p.1 p.2) (bands (K := K)).length

/-- `getRelevance` (indexes.cpp:119-133): the deviations of the spectrum and of the continuum over their own ranges. -/
def getRelevance (sq : K → K) (axis flux err caxis cflux cerr : List K) : Res (Option K × Option K) :=
  meanStdInRange sq axis flux err (SAxis.lambdaRange axis) >>= fun s =>
  meanStdInRange sq caxis cflux cerr (SAxis.lambdaRange caxis) >>= fun c => .ok (s.bind (·.2), c.bind (·.2))

/-- The loop of `ComputeRMSDiff` (fluxaxis.cpp:209-211). -/
def rmsBody (l m : List K) (n : Nat) (j : Nat) (s : K) : Res K := Res.at_ l j >>= fun a => Res.at_ m j >>= fun b => .ok (s + (a - b) * (a - b) / (n : K))

/-- `ComputeRMSDiff` (fluxaxis.cpp:200-215). -/
def rmsDiff (sq : K → K) (l m : List K) : Res K :=
  if m.length ≠ l.length then .throw .INTERNAL_ERROR else Res.foldN (rmsBody l m l.length) 0 l.length 0 >>= fun s => .ok (sq s)

end

end ContIdx
end Amazed
