import Mathlib.Algebra.Order.Field.Basic
import Verif.Model.FluxAxis

/-! # Flux components of a spectrum (`src/lib/spectrum/spectrum.cpp`, `spectrum/spectrum.h`)

The raw flux, the continuum and the continuum-subtracted flux, and the operations that change or compute them.
The error axes, the LSF, the photometric data, the names and the rebinning cache are not modelled here. Samples
are elements of a linearly ordered field. -/

namespace Amazed
namespace Continuum

/-- `CSpectrum::EType` (spectrum.h:78). -/
inductive FluxType where
  | raw
  | continuumOnly
  | noContinuum
deriving DecidableEq, Repr

/-- The members of `CSpectrum` (spectrum.h:193-220). -/
structure Spc (K : Type) where
  axis : List K
  raw : List K
  cont : List K
  nocont : List K
  removed : Bool
  method : String
  win : K
  even : Bool
  type : FluxType
deriving DecidableEq

section
variable {K : Type} [Field K] [LinearOrder K]

/-- The constructor from two axes (spectrum.cpp:105-117). -/
def make (axis flux : List K) : Res (Spc K) :=
  if Flux.isValid axis (flux.map some) = false then .throw .INVALID_SPECTRUM
  else .ok ⟨axis, flux, [], [], false, "", -1, true, .raw⟩

/-- `ResetContinuum` (spectrum.cpp:286-291). -/
def reset (s : Spc K) : Spc K := { s with removed := false, cont := [], nocont := [] }

/-- The samples after `CSpectrumFluxAxis::Subtract` (fluxaxis.cpp:275-285) on axes of the same size. -/
def sub (a b : List K) : List K := List.zipWith (· - ·) a b

/-- The end of `EstimateContinuum` (spectrum.cpp:329-337) once the continuum-subtracted flux is `w`, for all
methods but the manual one: `Subtract` refuses different sizes, after the continuum axis was assigned. -/
def fill (s : Spc K) (w : List K) : Spc K × Res Unit :=
  if w.length ≠ s.raw.length then ({ s with nocont := w, cont := s.raw }, .throw .INTERNAL_ERROR)
  else ({ s with nocont := w, cont := sub s.raw w, removed := true }, .ok ())

/-- `EstimateContinuum` (spectrum.cpp:302-338). `med` is `CContinuumIrregularSamplingMedian::RemoveContinuum` with
the window and the reflection of the spectrum: the samples left in the continuum-subtracted axis. -/
def estimate (med : List K → List K → K → Bool → Res (List K)) (s : Spc K) : Spc K × Res Unit :=
  if s.method = "irregularSamplingMedian" then
    match med s.axis s.raw s.win s.even with
    | .ok w => fill (reset s) w
    | .throw e => (reset s, .throw e)
    | .ub => (s, .ub)
  else if s.method = "raw" then fill s (List.replicate s.axis.length 0)
  else if s.method = "zero" then fill s s.raw
  else if s.method = "manual" then
    if s.cont.length ≠ s.raw.length then ({ s with nocont := s.raw }, .throw .INTERNAL_ERROR)
    else ({ s with nocont := sub s.raw s.cont, removed := true }, .ok ())
  else (s, .throw .INTERNAL_ERROR)

/-- `if (!alreadyRemoved) EstimateContinuum()` of the getters (spectrum.h:278-304). -/
def lazy (med : List K → List K → K → Bool → Res (List K)) (s : Spc K) : Spc K × Res Unit :=
  if s.removed then (s, .ok ()) else estimate med s

/-- `GetRawFluxAxis` (spectrum.h:272). -/
def getRaw (s : Spc K) : List K := s.raw

/-- `GetContinuumFluxAxis` (spectrum.h:278-283). -/
def getCont (med : List K → List K → K → Bool → Res (List K)) (s : Spc K) : Spc K × Res (List K) :=
  let r := lazy med s
  (r.1, r.2 >>= fun _ => .ok r.1.cont)

/-- `GetWithoutContinuumFluxAxis` (spectrum.h:292-297). -/
def getNoCont (med : List K → List K → K → Bool → Res (List K)) (s : Spc K) : Spc K × Res (List K) :=
  let r := lazy med s
  (r.1, r.2 >>= fun _ => .ok r.1.nocont)

/-- `GetFluxAxis` (spectrum.h:240-254). -/
def getFlux (med : List K → List K → K → Bool → Res (List K)) (s : Spc K) : Spc K × Res (List K) :=
  match s.type with
  | .raw => (s, .ok (getRaw s))
  | .continuumOnly => getCont med s
  | .noContinuum => getNoCont med s

/-- `SetFluxAxis` (spectrum.cpp:219-244); the overload taking a temporary refuses an empty axis as well. -/
def setFlux (s : Spc K) (l : List K) (moved : Bool) : Spc K × Res Unit :=
  if l.length ≠ s.axis.length ∨ (moved = true ∧ s.axis = []) then (s, .throw .INVALID_SPECTRUM)
  else ({ reset s with type := .raw, raw := l }, .ok ())

/-- `SetSpectralAndFluxAxes` (spectrum.cpp:246-261). -/
def setAxes (s : Spc K) (a l : List K) : Spc K × Res Unit :=
  if l.length ≠ a.length ∨ a = [] then (s, .throw .INVALID_SPECTRUM)
  else setFlux { reset s with type := .raw, axis := a } l true

/-- `SetSpectralAxis` (spectrum.cpp:201-217): the size is compared with the selected flux. -/
def setAxis (med : List K → List K → K → Bool → Res (List K)) (s : Spc K) (a : List K) : Spc K × Res Unit :=
  match getFlux med s with
  | (s', .ok f) => if a.length ≠ f.length then (s', .throw .INVALID_SPECTRUM) else ({ s' with axis := a }, .ok ())
  | (s', .throw e) => (s', .throw e)
  | (s', .ub) => (s', .ub)

/-- `SetMedianWinsize` (spectrum.cpp:563-569). -/
def setWin (s : Spc K) (w : K) : Spc K :=
  { (if s.win ≠ w ∧ s.method = "irregularSamplingMedian" then reset s else s) with win := w }

/-- `SetMedianEvenReflection` (spectrum.cpp:571-577). -/
def setEven (s : Spc K) (b : Bool) : Spc K :=
  { (if s.even ≠ b ∧ s.method = "irregularSamplingMedian" then reset s else s) with even := b }

/-- `SetContinuumEstimationMethod(std::string)` (spectrum.cpp:579-584). -/
def setMethod (s : Spc K) (m : String) : Spc K :=
  if s.method ≠ m then reset { s with method := m } else s

/-- `SetContinuumEstimationMethod(const CSpectrumFluxAxis &)` (spectrum.cpp:590-601). -/
def setManual (s : Spc K) (c : List K) : Spc K × Res Unit :=
  let s' := reset { s with method := "manual" }
  if c.length ≠ s.axis.length then (s', .throw .INTERNAL_ERROR) else ({ s' with cont := c }, .ok ())

/-- `InvertFlux` (spectrum.cpp:343-350). -/
def invert (s : Spc K) : Spc K :=
  if s.removed then { s with raw := s.raw.map (- ·), cont := s.cont.map (- ·), nocont := s.nocont.map (- ·) }
  else { s with raw := s.raw.map (- ·) }

/-- `ApplyAmplitude` (spectrum.cpp:637-644). -/
def amplitude (s : Spc K) (c : K) : Spc K :=
  if s.removed then { s with raw := s.raw.map (· * c), cont := s.cont.map (· * c), nocont := s.nocont.map (· * c) }
  else { s with raw := s.raw.map (· * c) }

/-- Overwriting samples, as `correctFluxAndNoiseAxis` (fluxaxis.cpp:255-268) does. -/
def overwrite (l : List K) (ws : List (Nat × K)) : List K := ws.foldl (fun l w => l.set w.1 w.2) l

/-- Replace the selected component (`GetFluxAxis_`, spectrum.h:256-270). -/
def setSelected (s : Spc K) (ws : List (Nat × K)) : Spc K :=
  match s.type with
  | .raw => { s with raw := overwrite s.raw ws }
  | .continuumOnly => { s with cont := overwrite s.cont ws }
  | .noContinuum => { s with nocont := overwrite s.nocont ws }

/-- `IsValid` (spectrum.h:308-311), given the selected flux. -/
def validWith (s : Spc K) (f : List K) : Bool :=
  decide (s.axis.length = f.length) && decide (s.axis ≠ []) && (SAxis.ofList s.axis).isSorted.1

/-- `correctSpectrum` (spectrum.cpp:530-547). `ws` are the samples the correction writes in the selected component
(the flux axis model computes them from the flux and the error, `Flux.correct`); it reports a change when it writes
something. The case of a correction that throws only leaves the state after `IsValid`. -/
def correct (med : List K → List K → K → Bool → Res (List K)) (s : Spc K) (ws : List (Nat × K)) : Spc K × Res Unit :=
  match getFlux med s with
  | (s', .ok f) =>
    if validWith s' f = false then (s', .throw .INVALID_SPECTRUM)
    else if ws = [] then (s', .ok ())
    else (reset (setSelected s' ws), .ok ())
  | (s', .throw e) => (s', .throw e)
  | (s', .ub) => (s', .ub)

/-- `InitSpectrumContinuum` (spectrum.cpp:263-284) with the parameters read; `width` is the smoothing width after
its conversion to an integer (0 for a width that is not positive). -/
def initContinuum (med : List K → List K → K → Bool → Res (List K)) (s : Spc K) (width : Nat) (m : String) (win : K)
    (even : Bool) : Spc K × Res Unit :=
  match getFlux med s with
  | (s', .ok f) =>
    if validWith s' f = false then (s', .throw .INVALID_SPECTRUM)
    else
      match Flux.applyMeanSmooth width s'.raw with
      | .ok r => (setEven (setWin (setMethod (reset { s' with type := .raw, raw := r.2 }) m) win) even, .ok ())
      | .throw e => ({ s' with type := .raw }, .throw e)
      | .ub => (s', .ub)
  | (s', .throw e) => (s', .throw e)
  | (s', .ub) => (s', .ub)

/-- The copy constructor with a mask (spectrum.cpp:63-96), as a spectrum that replaces the original. -/
def maskCopy (s : Spc K) (m : List K) : Spc K × Res Unit :=
  match maskVector m s.axis, maskVector m s.raw with
  | .ok a, .ok r =>
    if s.removed then
      match maskVector m s.cont, maskVector m s.nocont with
      | .ok c, .ok w => ({ s with axis := a, raw := r, cont := c, nocont := w }, .ok ())
      | _, _ => (s, .throw .INTERNAL_ERROR)
    else ({ s with axis := a, raw := r, cont := [], nocont := [] }, .ok ())
  | _, _ => (s, .throw .INTERNAL_ERROR)

/-- The operations of the interface of `CSpectrum` that touch the flux components. -/
inductive Op (K : Type) where
  | setFlux (l : List K) (moved : Bool)
  | setAxes (a l : List K)
  | setAxis (a : List K)
  | setType (t : FluxType)
  | setWin (w : K)
  | setEven (b : Bool)
  | setMethod (m : String)
  | setManual (c : List K)
  | invert
  | amplitude (c : K)
  | correct (ws : List (Nat × K))
  | initContinuum (width : Nat) (m : String) (win : K) (even : Bool)
  | maskCopy (m : List K)
  | getFlux
  | getCont
  | getNoCont

/-- One call: the state after it, and how it ends. `setType` is `SetType` (spectrum.cpp:433-438). -/
def step (med : List K → List K → K → Bool → Res (List K)) (s : Spc K) : Op K → Spc K × Res Unit
  | .setFlux l b => setFlux s l b
  | .setAxes a l => setAxes s a l
  | .setAxis a => setAxis med s a
  | .setType t => ({ s with type := t }, .ok ())
  | .setWin w => (setWin s w, .ok ())
  | .setEven b => (setEven s b, .ok ())
  | .setMethod m => (setMethod s m, .ok ())
  | .setManual c => setManual s c
  | .invert => (invert s, .ok ())
  | .amplitude c => (amplitude s c, .ok ())
  | .correct ws => correct med s ws
  | .initContinuum w m win e => initContinuum med s w m win e
  | .maskCopy m => maskCopy s m
  | .getFlux => ((getFlux med s).1, (getFlux med s).2 >>= fun _ => .ok ())
  | .getCont => ((getCont med s).1, (getCont med s).2 >>= fun _ => .ok ())
  | .getNoCont => ((getNoCont med s).1, (getNoCont med s).2 >>= fun _ => .ok ())

/-- The state after a history of calls; calls that throw are caught by the caller. -/
def run (med : List K → List K → K → Bool → Res (List K)) (s : Spc K) (ops : List (Op K)) : Spc K :=
  ops.foldl (fun s o => (step med s o).1) s

end
end Continuum
end Amazed
