import Verif.Model.SvdFit
import Verif.Model.SpcModel
import Verif.Model.FluxAxis
import Verif.Model.Range

set_option linter.unusedVariables false

/-! # Joint fit of the lines and of the continuum

`RedshiftLibrary/src/lib/linemodel/svdlcfitter.cpp` (doFit, fitAmplitudesLinesAndContinuumLinSolve, fillMatrix) with
`continuummanager.cpp` 122-134 and 255-277 (resetting and setting the amplitude of the continuum).

One spectrum. The elements, the profiles, the spectral axis, the flux (with continuum) and the errors are the members of
`SvdFit.Env`; its members `cont`, `offsets`, `tiny` and `obs` are not read here. The template interpolated on the grid of the spectrum
(`m_observeGridContinuumFlux`, rewritten by `reinterpolateContinuum` before the fit) is a parameter. The solver of GSL is a parameter.
The divisions by a null largest flux and by a null error are undefined. -/

namespace Amazed
namespace SvdLc

open SvdFit (Env Row Solver mapL colVal setAmp setFitted)

variable {K G : Type} [Field K] [LinearOrder K] [IsStrictOrderedRing K] [LinearOrder G]

/-- The number of coefficients of the polynomial (svdlcfitter.cpp:126, 234): `std::max(m_fitc_polyOrder + 1, 0)`. -/
def nPoly (po : Int) : Nat := (po + 1).toNat

/-- The number of parameters (svdlcfitter.cpp:125-127). -/
def nddl (idx : List Nat) (po : Int) : Nat := idx.length + 1 + nPoly po

/-- The equation of a sample (svdlcfitter.cpp:157-165, 217-238): a column for each element, one for the continuum, the powers of the wavelength. -/
def row (env : Env K G) (cont : List K) (st : List (Amp.Elt K)) (idx : List Nat) (po : Int) (norm : K) (p : Nat) : Res (Row K) :=
  Res.at_ env.axis p >>= fun x => Res.at_ cont p >>= fun c =>
  mapL (colVal env st x c) idx >>= fun cols =>
  Res.at_ env.flux p >>= fun y => Res.at_ env.err p >>= fun s =>
  let e := s * norm
  if e = 0 then .ub
  else .ok ⟨cols ++ ([c] ++ (List.range (nPoly po)).map fun k => x ^ k), y * norm, 1 / (e * e)⟩

/-- What the linear fit gives: all the amplitudes, their errors, and the parameters of the elements. -/
structure Out (K : Type) where
  amps : List K
  errs : List K
  st : List (Amp.Elt K)

/-- `fitAmplitudesLinesAndContinuumLinSolve` (svdlcfitter.cpp:112-215); `cont` is the continuum of the model. -/
def linSolve (env : Env K G) (solve : Solver K) (cont : List K) (lr : Range K) (po : Int) (idx : List Nat) (st : List (Amp.Elt K)) : Res (Out K) :=
  if idx.length < 1 then .throw .EMPTY_LIST
  else
    Range.closedIdx lr env.axis >>= fun ij =>
    if ij.2 - ij.1 + 1 < nddl idx po then .throw .LESS_OBSERVED_SAMPLES_THAN_AMPLITUDES_TO_FIT
    else
      EltList.foldL (fun i st => setAmp i (some 1) (some 0) st) idx st >>= fun st1 =>
      Flux.maxAbs env.flux ij.1 ij.2 >>= fun mx =>
      if mx = 0 then .ub
      else
        let norm := 1 / mx
        mapL (row env cont st1 idx po norm) (List.range' ij.1 (ij.2 - ij.1 + 1)) >>= fun rows =>
        let sol := solve rows
        setFitted norm sol env.sq idx 0 st1 >>= fun st2 =>
        .ok ⟨(List.range (nddl idx po)).map fun k => sol.1 k / norm, (List.range (nddl idx po)).map fun k => env.sq (sol.2 k) / norm, st2⟩

/-- The amplitude of the continuum, its error and its polynomial (`tplAmplitude`, `tplAmplitudeError` and `pCoeffs` of `m_fitContinuum`). -/
structure Cont (K : Type) where
  amp : K
  err : K
  poly : List K
deriving DecidableEq

/-- `setFitContinuum_tplAmplitude` (continuummanager.cpp:122-134); `alpha` is `m_fitContinuum_tplFitAlpha`. -/
def setCont (alpha : K) (grid inputCont : List K) (c : Cont K) (s : SpcModel.St K) : Res (Cont K × SpcModel.St K) :=
  SpcModel.setFromTplFit alpha c.amp c.poly grid inputCont s >>= fun s' => .ok (c, s')

/-- `reinterpolateContinuumResetAmp` (continuummanager.cpp:255-265): amplitude and error 1, no polynomial. -/
def resetAmp (alpha : K) (grid inputCont : List K) (s : SpcModel.St K) : Res (Cont K × SpcModel.St K) :=
  setCont alpha grid inputCont ⟨1, 1, []⟩ s

/-- `setFitContinuumFromFittedAmps` (continuummanager.cpp:267-277): the amplitude and the polynomial are fitted ones, the error is the current one. -/
def fromFitted (alpha : K) (grid inputCont : List K) (amps : List K) (idx : List Nat) (c : Cont K) (s : SpcModel.St K) : Res (Cont K × SpcModel.St K) :=
  Res.at_ amps idx.length >>= fun a => setCont alpha grid inputCont ⟨a, c.err, amps.drop (idx.length + 1)⟩ s

/-- What the fit leaves: the model of the spectrum, the parameters of the elements, the ones of the continuum; and the fitted values. -/
structure Done (K : Type) where
  spc : SpcModel.St K
  st : List (Amp.Elt K)
  cont : Cont K
  out : Out K

/-- `doFit` (svdlcfitter.cpp:69-92); `disabled` are the indices disabled in the list of elements. -/
def doFit (env : Env K G) (solve : Solver K) (lr : Range K) (po : Int) (alpha : K) (grid inputCont : List K) (disabled : List Nat)
    (s : SpcModel.St K) (st : List (Amp.Elt K)) : Res (Done K) :=
  resetAmp alpha grid inputCont s >>= fun r =>
  linSolve env solve r.2.cont lr po (EltList.validIndexes env.es disabled) st >>= fun o =>
  fromFitted alpha grid inputCont o.amps (EltList.validIndexes env.es disabled) r.1 r.2 >>= fun q =>
  .ok ⟨SpcModel.initWithContinuum q.2, o.st, q.1, o⟩

end SvdLc
end Amazed
