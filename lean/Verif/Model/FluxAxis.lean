import Mathlib.Algebra.Order.Field.Basic
import Verif.Model.Loop
import Verif.Model.Median
import Verif.Model.Range
import Verif.Model.SpectralAxis

/-! # `CSpectrumFluxAxis` (`src/lib/spectrum/fluxaxis.cpp`), `CSpectrumNoiseAxis`, and the validation of a
spectrum (`src/lib/spectrum/spectrum.cpp`)

A sample is an `Option K` where the code tells finite values from NaN and infinities: `none` is a value that
is not finite. -/

namespace Amazed
namespace Flux

section
variable {K : Type} [Field K] [LinearOrder K]

/-- The samples `[begin + left, begin + right + 1)` given to `Find`: an inverted range or a range that leaves
the vector is undefined. -/
def slice {α : Type} (l : List α) (left right : Int) : Res (List α) :=
  if left < 0 ∨ right + 1 < left ∨ (l.length : Int) < right + 1 then .ub
  else .ok ((l.drop left.toNat).take (right + 1 - left).toNat)

/-- `CMean::Find` (mean.hpp:40-45): `std::accumulate` over `distance`. The division by zero of an empty range
is `ub` (the code gives a NaN). -/
def mean (l : List K) : Res K :=
  if l.length = 0 then .ub else .ok (l.foldl (· + ·) 0 / (l.length : K))

/-- The loop of both smoothing functions (fluxaxis.cpp:112-117 and 137-142). -/
def smoothLoop (find : List K → Res K) (h : Int) (l : List K) : Res (List K) :=
  let n : Int := l.length
  Res.tab (fun i => slice l (max 0 ((i : Int) - h)) (min (n - 1) ((i : Int) + h)) >>= find) l.length

/-- `ApplyMeanSmooth` (fluxaxis.cpp:123-147) and `ApplyMedianSmooth` (fluxaxis.cpp:98-121): the return value
and the new samples. -/
def applySmooth (find : List K → Res K) (h : Int) (l : List K) : Res (Bool × List K) :=
  if h = 0 then .ok (false, l)
  else if (l.length : Int) < h + 1 then .ok (false, l)
  else smoothLoop find h l >>= fun t => .ok (true, t)

/-- `ApplyMeanSmooth`. -/
def applyMeanSmooth (h : Int) (l : List K) : Res (Bool × List K) := applySmooth mean h l

/-- `ApplyMedianSmooth`. -/
def applyMedianSmooth (h : Int) (l : List K) : Res (Bool × List K) := applySmooth Median.find h l

/-- `computeMaxAbsValue` (fluxaxis.cpp:149-156) for `imin ≤ imax`: `std::max_element` keeps the first of the
largest elements. Dereferencing the end of an empty range is `ub`. -/
def maxAbs (l : List K) (imin imax : Int) : Res K :=
  slice l imin imax >>= fun s =>
  match s with
  | [] => .ub
  | x :: xs => .ok |xs.foldl (fun a b => if |a| < |b| then b else a) x|

/-- `checkFlux` (fluxaxis.cpp:215-223). -/
def checkFlux (l : List (Option K)) : List Bool := l.map Option.isSome

/-- `checkNoise` (noiseaxis.cpp:63-73). The conditions on a finite value are `DBL_MIN ≤ x` and `1/(x*x)` finite:
both hold from some positive value on, `tiny`. -/
def checkNoise (tiny : K) (l : List (Option K)) : List Bool :=
  l.map fun x => match x with
    | some v => decide (tiny ≤ v)
    | none => false

/-- First loop of `correctFluxAndNoiseAxis` (fluxaxis.cpp:237-243): `(maxNoise, minFlux)`. A valid sample is
finite, so its value is read from the `Option`. -/
def scan (nv fv : List Bool) (flux err : List (Option K)) (iMin n : Nat) (init : K × K) : Res (K × K) :=
  Res.foldN (fun i (s : K × K) =>
    Res.at_ nv i >>= fun a => Res.at_ fv i >>= fun b =>
    if !a || !b then .ok s
    else Res.at_ err i >>= fun e => Res.at_ flux i >>= fun f =>
      match e, f with
      | some e, some f => .ok (max s.1 e, min |f| |s.2|)
      | _, _ => .ub) iMin n init

/-- `correctFluxAndNoiseAxis` (fluxaxis.cpp:225-273) on `[iMin, iMax)`: the return value, the flux and the
error. `big` is `DBL_MAX`. Division by a zero coefficient is `ub`. Simplified: the product `maxNoise * coeff`
does not overflow. -/
def correct (tiny big : K) (flux err : List (Option K)) (iMin iMax : Nat) (coeff : K) :
    Res (Bool × List (Option K) × List (Option K)) :=
  let nv := checkNoise tiny err
  let fv := checkFlux flux
  scan nv fv flux err iMin (iMax - iMin) (-big, big) >>= fun (maxNoise, minFlux) =>
  if minFlux = big then .throw .SPECTRUM_CORRECTION_ERROR
  else if maxNoise = -big then .throw .SPECTRUM_CORRECTION_ERROR
  else if coeff = 0 then .ub
  else
    Res.foldN (fun i (s : Bool × List (Option K) × List (Option K)) =>
      Res.at_ nv i >>= fun a => Res.at_ fv i >>= fun b =>
      if a && b then .ok s
      else .ok (true, s.2.1.set i (some (minFlux / coeff)), s.2.2.set i (some (maxNoise * coeff))))
      iMin (iMax - iMin) (false, flux, err)

/-- `ValidateFlux` (spectrum.cpp:440-488) on the axis `xs`. -/
def validateFlux (xs : List K) (flux : List (Option K)) (lmin lmax : K) : Res Unit :=
  if flux.length = 0 then .throw .INVALID_SPECTRUM_FLUX
  else
    SAxis.indexAt xs lmin >>= fun iMin =>
    SAxis.indexAt xs lmax >>= fun iMax =>
    Res.foldN (fun i (s : Nat × Bool) =>
      Res.at_ (checkFlux flux) i >>= fun v => Res.at_ flux i >>= fun f =>
      .ok (if v then s.1 else s.1 + 1, if f = some 0 then s.2 else false)) iMin (iMax - iMin) (0, true) >>= fun s =>
    if s.1 > 0 then .throw .INVALID_SPECTRUM_FLUX
    else if s.2 then .throw .INVALID_SPECTRUM_FLUX
    else .ok ()

/-- `ValidateNoise` (spectrum.cpp:490-528). -/
def validateNoise (tiny : K) (xs : List K) (err : List (Option K)) (lmin lmax : K) : Res Unit :=
  if err.length = 0 then .throw .INVALID_NOISE
  else
    SAxis.indexAt xs lmin >>= fun iMin =>
    SAxis.indexAt xs lmax >>= fun iMax =>
    Res.foldN (fun i (s : Nat) =>
      Res.at_ (checkNoise tiny err) i >>= fun v => .ok (if v then s else s + 1)) iMin (iMax - iMin) 0 >>= fun s =>
    if s > 0 then .throw .INVALID_NOISE else .ok ()

/-- `IsValid` (spectrum.h:308-311). -/
def isValid (xs : List K) (flux : List (Option K)) : Bool :=
  decide (xs.length = flux.length) && decide (xs ≠ []) && (SAxis.ofList xs).isSorted.1

/-- `correctSpectrum` (spectrum.cpp:530-547): the return value, the flux and the error. -/
def correctSpectrum (tiny big : K) (xs : List K) (flux err : List (Option K)) (lmin lmax coeff : K) :
    Res (Bool × List (Option K) × List (Option K)) :=
  if isValid xs flux = false then .throw .INVALID_SPECTRUM
  else
    SAxis.indexAt xs lmin >>= fun iMin =>
    SAxis.indexAt xs lmax >>= fun iMax =>
    correct tiny big flux err iMin iMax coeff

/-- `ValidateSpectrum` (spectrum.cpp:646-690) with the default correction coefficient 10 (spectrum.h:145-146): the
flux and error left in the spectrum. `lsf` is `checkAvailability` of the LSF, if there is one. The selected flux
component is the raw flux. -/
def validateSpectrum (tiny big : K) (xs : List K) (flux err : List (Option K)) (r : Range K) (fix : Bool)
    (lsf : Option (K → Bool)) : Res (List (Option K) × List (Option K)) :=
  if isValid xs flux = false then .throw .INVALID_SPECTRUM
  else
    SAxis.clampLambdaRange xs r >>= fun c =>
    (if fix then correctSpectrum tiny big xs flux err c.b c.e 10 >>= fun s => .ok s.2
      else .ok (flux, err)) >>= fun s =>
    validateFlux xs s.1 c.b c.e >>= fun _ =>
    validateNoise tiny xs s.2 c.b c.e >>= fun _ =>
    match lsf with
    | none => .ok s
    | some ok => if !ok c.b || !ok c.e then .throw .INVALID_LSF else .ok s

/-- `integrateFluxes_usingTrapez` (spectrum.cpp:692-718): the flux and the sum of the squared errors over the
index ranges `[begin, end]`. -/
def integrateTrapez (xs ys es : List K) (ranges : List (Nat × Nat)) : Res (K × K) :=
  if xs.length < 2 then .throw .INTERNAL_ERROR
  else if xs.length ≠ ys.length then .throw .INTERNAL_ERROR
  else
    ranges.foldl (fun acc r => acc >>= fun s =>
      Res.foldN (fun t (s : K × K) =>
        Res.at_ xs (t + 1) >>= fun x1 => Res.at_ xs t >>= fun x0 =>
        Res.at_ ys (t + 1) >>= fun y1 => Res.at_ ys t >>= fun y0 =>
        Res.at_ es t >>= fun ea => Res.at_ es (t + 1) >>= fun eb =>
        let w := (x1 - x0) * (1 / 2)
        .ok (s.1 + w * (y1 + y0), s.2 + w * w * (eb * eb + ea * ea))) r.1 (r.2 - r.1) s) (.ok (0, 0))

end
end Flux
end Amazed
