import Mathlib.Algebra.Order.Field.Basic
import Verif.Model.Loop
import Verif.Model.LineCat
import Verif.Model.TplFit
import Verif.Model.Merit

/-! # Photometry (`src/lib/photometry/photometricband.cpp`, `photometricdata.cpp`, `photometry/*.h`,
`src/lib/operator/templatefittingwithphot.cpp`)

Numbers are elements of a linearly ordered field; a division by zero is reported as `ub`. `c` is the speed of light
(`GSL_CONST_MKSA_SPEED_OF_LIGHT * 1e10`). `std::map` is an association list sorted by key (`LineCat.mapPut`).
The resampling of the template on the bands (`RebinTemplateOnPhotBand`) is not modelled here: it is the same code as for the
spectra. -/

namespace Amazed
namespace Phot

variable {K : Type} [Field K] [LinearOrder K]

/-- `CPhotometricBand` (photometricband.h:48-72). -/
structure Band (K : Type) where
  trans : List K
  lambda : List K
  freq : List K
  tsum : K
  minLambda : K
deriving DecidableEq, Repr

/-- One trapeze (photometricband.cpp:75-77, 107-109): `y` is the transmission or the transmitted flux. -/
def trapeze (y lambda freq : List K) (k : Nat) (s : K) : Res K :=
  Res.at_ y k >>= fun y1 => Res.at_ y (k - 1) >>= fun y0 =>
  Res.at_ lambda k >>= fun l1 => Res.at_ lambda (k - 1) >>= fun l0 =>
  Res.at_ freq k >>= fun f1 => Res.at_ freq (k - 1) >>= fun f0 =>
  .ok (s + (y1 * l1 + y0 * l0) / 2 * (f0 - f1))

/-- The two loops on the trapezes (photometricband.cpp:71-79, 103-111). -/
def trapezes (y lambda freq : List K) : Res K := Res.foldN (trapeze y lambda freq) 1 (y.length - 1) 0

/-- `*std::min_element` (photometricband.cpp:59): undefined for an empty vector. -/
def minElement : List K → Res K
  | [] => .ub
  | x :: l => .ok (l.foldl min x)

/-- The constructor (photometricband.cpp:49-80). A null wavelength has no frequency: undefined here. -/
def Band.new (c : K) (trans lambda : List K) : Res (Band K) :=
  if trans.length ≠ lambda.length then .throw .INTERNAL_ERROR
  else
    minElement lambda >>= fun m =>
    if lambda.any (fun l => decide (l = 0)) then .ub
    else
      let freq := lambda.map (fun l => c / l)
      trapezes trans lambda freq >>= fun s => .ok ⟨trans, lambda, freq, s, m⟩

/-- `IntegrateFlux` (photometricband.cpp:82-118). -/
def Band.integrate (c : K) (b : Band K) (flux : List K) : Res K :=
  if flux.length ≠ b.trans.length then .throw .INTERNAL_ERROR
  else if flux = [] then .ub
  else
    let fnu := List.zipWith (fun f l => f * l * l / c) flux b.lambda
    let out := List.zipWith (fun f t => f * t) fnu b.trans
    trapezes out b.lambda b.freq >>= fun s => if b.tsum = 0 then .ub else .ok (s / b.tsum)

/-! ## Catalogue of bands -/

/-- `CPhotBandCatalog`, a map from names to bands (photometricband.h:74-81). -/
abbrev Cat (K : Type) := List (String × Band K)

/-- `Add` (photometricband.h:76-78): `std::map::insert` keeps the band already there. -/
def Cat.add (cat : Cat K) (name : String) (b : Band K) : Cat K :=
  match LineCat.mapFind name cat with
  | none => LineCat.mapPut name b cat
  | some _ => cat

/-- `GetNameList` (photometricband.cpp:120-127). -/
def Cat.names (cat : Cat K) : List String := cat.map (·.1)

/-! ## Photometric data -/

/-- The values of one band in `CPhotometricData` (photometricdata.h:68-71): flux, error, inverse variance and squared flux
over the error. -/
structure Point (K : Type) where
  flux : K
  err : K
  oneOver : K
  fluxOver : K
deriving DecidableEq, Repr

/-- `CPhotometricData` (photometricdata.h:48-72): the four maps have the same keys, one map is used here. -/
abbrev Data (K : Type) := List (String × Point K)

/-- The constructor (photometricdata.cpp:46-64). With a null error the inverse variance is not a number: the division of
the model gives 0, see `badPoint`. -/
def Data.new (name : List String) (flux err : List K) : Res (Data K) :=
  if name.length ≠ flux.length ∨ name.length ≠ err.length then .throw .INTERNAL_ERROR
  else .ok ((List.zip name (List.zip flux err)).foldl
    (fun m x => LineCat.mapPut x.1 ⟨x.2.1, x.2.2, 1 / (x.2.2 * x.2.2), x.2.1 * x.2.1 * (1 / (x.2.2 * x.2.2))⟩ m) [])

/-- The test for an infinite or NaN inverse variance (templatefittingwithphot.cpp:280): in the model it is that of a null
error. -/
def badPoint (p : Point K) : Bool := decide (p.err * p.err = 0)

/-! ## Template fitting with photometry -/

/-- `checkInputPhotometry` (templatefittingwithphot.cpp:73-95): `none` for null pointers. -/
def checkInput (cat : Option (Cat K)) (data : Option (Data K)) : Res Unit :=
  match cat with
  | none => .throw .MISSING_PHOTOMETRIC_TRANSMISSION
  | some [] => .throw .MISSING_PHOTOMETRIC_TRANSMISSION
  | some cat =>
    match data with
    | none => .throw .MISSING_PHOTOMETRIC_DATA
    | some d => if cat.names.all (fun n => (d.map (·.1)).contains n) then .ok () else .throw .MISSING_PHOTOMETRIC_DATA

/-- One band during the fit: name, transmission, data and template resampled on the band, with the extinctions. -/
structure Slot (K : Type) where
  name : String
  band : Band K
  data : Point K
  t : Tpl.T K

/-- The photometric sums of a band added to `s` (templatefittingwithphot.cpp:264-288). -/
def bandStep (c w : K) (b : Slot K) (s : TplFit.Sums K) : Res (TplFit.Sums K) :=
  b.band.integrate c b.t.flux >>= fun m =>
  if badPoint b.data then .throw .INTERNAL_ERROR
  else
    let q := b.data.oneOver * w * w
    .ok ⟨s.cross + b.data.flux * m * q, s.t + m * m * q, s.s + b.data.fluxOver * w * w⟩

/-- `m_BandIgmEnd` (templatefittingwithphot.cpp:171-176): position of the first band without IGM. -/
def bandIgmEnd (bs : List (Slot K)) : Nat := bs.findIdx (fun b => decide (b.t.igmEnd = none))

/-- One iteration of the loop on the bands (templatefittingwithphot.cpp:254-289). -/
def photBody (c w : K) (fast : Bool) (igmEnd : Nat) (bs : List (Slot K)) (i : Nat) (a : TplFit.Acc K) : Res (TplFit.Acc K) :=
  let a := if fast = true ∧ a.saved = false ∧ i = igmEnd then { a with igm := a.sums, saved := true } else a
  Res.at_ bs i >>= fun b => bandStep c w b a.sums >>= fun s => .ok { a with sums := s }

/-- `ComputePhotCrossProducts` (templatefittingwithphot.cpp:232-308) on the sorted bands: `out` are the sums kept for each
dust index. Gives the photometric sums (added to those of the spectrum by the caller) and the new kept sums. The position
`igmEnd` was computed by `init_fast_igm_processing`. -/
def photCross (c w : K) (fast : Bool) (kM kE : Nat) (igmEnd : Nat) (bs : List (Slot K)) (out : List (TplFit.Sums K)) :
    Res (TplFit.Sums K × List (TplFit.Sums K)) :=
  let n := if fast = true ∧ 0 < kM then igmEnd else bs.length
  Res.foldN (photBody c w fast igmEnd bs) 0 n ⟨TplFit.Sums.zero, TplFit.Sums.zero, false⟩ >>= fun a =>
  if fast then
    if kM = 0 then
      if kE < out.length then .ok (a.sums, out.set kE (a.sums.sub a.igm)) else .ub
    else Res.at_ out kE >>= fun p => .ok (a.sums.add p, out)
  else .ok (a.sums, out)

/-- `chiSquare_phot` (templatefittingwithphot.cpp:225-228). -/
def chi2Phot (q : TplFit.Sums K) (ampl : K) : K := q.s + q.t * ampl * ampl - 2 * ampl * q.cross

/-- `getIntegratedFluxes(amp)` (templatefittingwithphot.cpp:331-345). -/
def integrated (c amp : K) : List (Slot K) → Res (List (String × K))
  | [] => .ok []
  | b :: bs =>
    b.band.integrate c b.t.flux >>= fun m => integrated c amp bs >>= fun l => .ok (LineCat.mapPut b.name (m * amp) l)

/-- The end of `ComputeSpectrumModel` for the first spectrum (templatefittingBase.cpp:137-149) in the operator with
photometry: the amplitude is applied to the template resampled on the spectrum (templatefittingBase.h:124-126, not
overridden in templatefittingwithphot.h), then the fluxes in the bands are integrated with the default amplitude 1
(templatefittingwithphot.h:103). -/
def modelWithPhot (c amp : K) (t : Tpl.T K) (bs : List (Slot K)) : Res (List K × List (String × K)) :=
  integrated c 1 bs >>= fun p => .ok ((Tpl.amplitude t amp).flux, p)

/-- `EstimateLikelihoodCstLog` of the operator with photometry (templatefittingwithphot.cpp:315-328), from that of the
spectra (`Merit.cstLog`, the same loop as templatefittingBase.cpp:62-86): `lg` is `log`, `h` is `0.5 * log(2 * M_PI)`. The
logarithm of a number that is not positive is undefined here. -/
def cstLogPhot [IsStrictOrderedRing K] (lg : K → K) (h w : K) (os : List (Merit.Obs K)) (errs : List K) : Res K :=
  Merit.cstLog lg h os >>= fun s =>
  if errs.any (fun e => decide (e * w ≤ 0)) then .ub
  else .ok (s - ((errs.length : K) * h - (errs.map (fun e => lg (e * w))).sum))

end Phot
end Amazed
