import Verif.Model.Continuum
import Verif.Model.Rebin

set_option linter.unusedVariables false

/-! # The interpolation of a spectrum and its precomputed fine grid

`CSpectrum::setRebinInterpMethod`, `CSpectrum::Rebin` (src/lib/spectrum/spectrum.cpp:603-635), `CRebin::convert` and `create` (src/lib/spectrum/rebin/rebin.cpp:115-144), `CRebinFineGrid`
(src/lib/spectrum/rebin/rebinFineGrid.cpp, RedshiftLibrary/spectrum/rebin/rebinFineGrid.h). The flux components are those of `Continuum`, the interpolations those of `Rebin`. -/

namespace Amazed
namespace RebinCache
open Continuum

/-- The four classes derived from `CRebin` (rebinLinear.h, rebinFineGrid.h, rebinSpline.h, rebinNgp.h). -/
inductive Kind where
  | lin
  | fine
  | spline
  | ngp
deriving DecidableEq, Repr

/-- The names accepted by `convert` and `create` (rebin.cpp:115-144). -/
def ofName (n : String) : Option Kind :=
  if n = "lin" then some .lin
  else if n = "preComputedFineGrid" then some .fine
  else if n = "spline" then some .spline
  else if n = "ngp" then some .ngp
  else none

/-- A spectrum with its `m_rebin`: the class of the object, and `m_pfgFlux` when `m_FineGridInterpolated` (rebin.h:86-87). Both members are in the base class. -/
structure R (K : Type) where
  spc : Spc K
  kind : Kind
  table : Option (List K)
deriving DecidableEq

/-- The interpolations: `tab` is `rebinFineGrid` (rebinFineGrid.cpp:49-86) from axis and flux, `pre` the test of the range at the start of `compute` (rebin.cpp:56-61), `fine` the rest of `compute` with a table,
`run` the one of the other classes. `Q` is the request (range, target axis, error option). -/
structure Interp (K Q O : Type) where
  tab : List K → List K → Res (List K)
  pre : List K → Q → Res Unit
  fine : List K → List K → Q → Res O
  run : Kind → List K → List K → Q → Res O

section
variable {K Q O : Type} [Field K] [LinearOrder K]

/-- `m_rebin->reset()`: overridden by the fine grid only (rebin.h:70, rebinFineGrid.h:58). -/
def resetGrid (s : R K) : R K := if s.kind = .fine then { s with table := none } else s

/-- `setRebinInterpMethod` (spectrum.cpp:603-605): `convert` moves the base class, so the fine grid and its flag follow (rebin.h:60, rebinFineGrid.h:54). -/
def setInterp (s : R K) (n : String) : R K × Res Unit :=
  match ofName n with
  | some k => ({ s with kind := k }, .ok ())
  | none => (s, .throw .INVALID_PARAMETER)

/-- `SetType` (spectrum.cpp:433-438). -/
def setType (s : R K) (t : FluxType) : R K :=
  if s.spc.type ≠ t then { resetGrid s with spc := { s.spc with type := t } } else s

/-- A call of `Continuum` that resets the interpolation when it succeeds: `SetFluxAxis`, `SetSpectralAndFluxAxes` and `ApplyAmplitude` (spectrum.cpp:219-261, 637-644). A refusal leaves the spectrum. -/
def resetting (s : R K) (r : Spc K × Res Unit) : R K × Res Unit :=
  match r.2 with
  | .ok _ => (resetGrid { s with spc := r.1 }, .ok ())
  | .throw e => ({ s with spc := r.1 }, .throw e)
  | .ub => ({ s with spc := r.1 }, .ub)

/-- A call of `Continuum` that does not touch the interpolation. -/
def keeping (s : R K) (r : Spc K × Res Unit) : R K × Res Unit := ({ s with spc := r.1 }, r.2)

/-- `InitSpectrumContinuum` (spectrum.cpp:263-284): the interpolation is only reset by its `SetType`, which follows the test of validity. -/
def initCont (med : List K → List K → K → Bool → Res (List K)) (s : R K) (width : Nat) (m : String) (win : K) (even : Bool) : R K × Res Unit :=
  match getFlux med s.spc with
  | (c, .ok f) =>
    if validWith c f = false then ({ s with spc := c }, .throw .INVALID_SPECTRUM)
    else keeping (setType s .raw) (initContinuum med s.spc width m win even)
  | (c, .throw e) => ({ s with spc := c }, .throw e)
  | (c, .ub) => ({ s with spc := c }, .ub)

/-- The copy and the move constructors (spectrum.cpp:121-156): a new interpolation of the same class, without table; the copy replaces the spectrum. -/
def copy (med : List K → List K → K → Bool → Res (List K)) (s : R K) : R K × Res Unit :=
  match getFlux med s.spc with
  | (c, .ok f) => if validWith c f = false then (s, .throw .INVALID_SPECTRUM) else (⟨c, s.kind, none⟩, .ok ())
  | (_, .throw e) => (s, .throw e)
  | (_, .ub) => (s, .ub)

/-- The copy with a mask (spectrum.cpp:63-96): a new interpolation of the same class, without table. -/
def masked (s : R K) (m : List K) : R K × Res Unit :=
  match maskCopy s.spc m with
  | (c, .ok _) => (⟨c, s.kind, none⟩, .ok ())
  | (_, .throw e) => (s, .throw e)
  | (_, .ub) => (s, .ub)

/-- The virtual `rebin` of the fine grid with its table (rebinFineGrid.cpp:101-107). -/
def useTable (I : Interp K Q O) (axis t : List K) (q : Q) : Res O :=
  if t = [] then .throw .INTERNAL_ERROR else I.fine axis t q

/-- The fine grid branch of `compute`, from the flux: the table is made when there is none (rebinFineGrid.cpp:101-102). -/
def rebinFine (I : Interp K Q O) (s : R K) (f : List K) (q : Q) : R K × Res O :=
  match s.table with
  | some t => (s, useTable I s.spc.axis t q)
  | none =>
    match I.tab s.spc.axis f with
    | .ok t => ({ s with table := some t }, useTable I s.spc.axis t q)
    | .throw e => (s, .throw e)
    | .ub => (s, .ub)

/-- `CSpectrum::Rebin` (spectrum.cpp:624-635) and `CRebin::compute` (rebin.cpp:48-98). -/
def rebin (I : Interp K Q O) (med : List K → List K → K → Bool → Res (List K)) (s : R K) (q : Q) : R K × Res O :=
  match getFlux med s.spc with
  | (c, .ok f) =>
    if validWith c f = false then ({ s with spc := c }, .throw .INVALID_SPECTRUM)
    else match I.pre c.axis q with
      | .ok _ => if s.kind = .fine then rebinFine I { s with spc := c } f q else ({ s with spc := c }, I.run s.kind c.axis f q)
      | .throw e => ({ s with spc := c }, .throw e)
      | .ub => ({ s with spc := c }, .ub)
  | (c, .throw e) => ({ s with spc := c }, .throw e)
  | (c, .ub) => ({ s with spc := c }, .ub)

/-- The calls on a spectrum: those of `Continuum` (the component, the continuum initialisation and the mask are the next ones), and those of the interpolation. -/
inductive Op (K Q : Type) where
  | flux (o : Continuum.Op K)
  | interp (n : String)
  | rebin (q : Q)
  | copy

/-- One call. -/
def step (I : Interp K Q O) (med : List K → List K → K → Bool → Res (List K)) (s : R K) : Op K Q → R K × Res Unit
  | .flux (.setFlux l b) => resetting s (Continuum.setFlux s.spc l b)
  | .flux (.setAxes a l) => resetting s (Continuum.setAxes s.spc a l)
  | .flux (.amplitude c) => resetting s (Continuum.amplitude s.spc c, .ok ())
  | .flux (.setType t) => (setType s t, .ok ())
  | .flux (.initContinuum w m win e) => initCont med s w m win e
  | .flux (.maskCopy m) => masked s m
  | .flux o => keeping s (Continuum.step med s.spc o)
  | .interp n => setInterp s n
  | .rebin q => ((rebin I med s q).1, (rebin I med s q).2 >>= fun _ => .ok ())
  | .copy => copy med s

/-- The state after a history of calls; calls that throw are caught by the caller. -/
def run (I : Interp K Q O) (med : List K → List K → K → Bool → Res (List K)) (s : R K) (ops : List (Op K Q)) : R K :=
  ops.foldl (fun s o => (step I med s o).1) s

/-- A spectrum made from two axes (spectrum.cpp:104-117): linear interpolation. -/
def make (axis flux : List K) : Res (R K) := Continuum.make axis flux >>= fun c => .ok ⟨c, .lin, none⟩

end

/-- A request on a spectrum of real samples: error option, errors of the spectrum, range, target axis. -/
structure Query where
  mode : Rebin.ErrMode
  err : List ℝ
  range : Range ℝ
  target : List ℝ

/-- The interpolations of the library (`Rebin`); `spl axis flux` is GSL's spline. -/
noncomputable def library (spl : List ℝ → List ℝ → ℝ → ℝ) : Interp ℝ Query (List (Rebin.Cell ℝ)) where
  tab xs ys := Rebin.fineTable (spl xs ys) xs
  pre xs q := Rebin.compute (fun _ _ => .ok ([], [])) q.mode xs q.range [] >>= fun _ => .ok ()
  fine xs t q := Rebin.compute (fun c rest => Rebin.whileLe q.range.e (Rebin.fineCell q.mode xs t) c rest) q.mode xs q.range q.target
  run k xs ys q := match k with
    | .lin => Rebin.linear q.mode xs ys q.err q.range q.target
    | .spline => Rebin.spline q.mode (spl xs ys) xs q.range q.target
    | .ngp => Rebin.ngp q.mode xs ys q.err q.range q.target
    | .fine => .ub

end RebinCache
end Amazed
