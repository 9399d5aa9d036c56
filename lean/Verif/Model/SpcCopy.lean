import Verif.Model.Continuum

/-! # Copies of a spectrum, and the spectra a template fit uses (`src/lib/spectrum/spectrum.cpp`, `spectrum/spectrum.h`,
`src/lib/processflow/inputcontext.cpp`, `src/lib/spectrum/logrebinning.cpp`, `src/lib/operator/templatefitting*.cpp`)

The flux components are those of `Verif.Model.Continuum`; the other members of a spectrum are added. The error axes follow the
flux axes and are not represented. The line spread function and the photometric data are shared pointers (`none` for null). -/

namespace Amazed
namespace SpcCopy
open Continuum

/-- The members of `CSpectrum` (spectrum.h:188-212). -/
structure Full (K L P : Type) where
  spc : Spc K
  name : String
  obsId : String
  path : String
  rebin : String
  lsf : Option L
  phot : Option P
deriving DecidableEq

section
variable {K L P : Type} [Field K] [LinearOrder K]

/-- The constructor from two axes and a line spread function (spectrum.cpp:105-117). -/
def make (a f : List K) (lsf : Option L) : Res (Full K L P) :=
  Continuum.make a f >>= fun s => .ok ⟨s, "", "", "", "lin", lsf, none⟩

/-- The copy constructor (spectrum.cpp:121-136) and the target of the move constructor (spectrum.cpp:138-156): the validity of
the copy is tested, which reads its selected flux. The path is not copied. -/
def copy (med : List K → List K → K → Bool → Res (List K)) (s : Full K L P) : Res (Full K L P) :=
  match getFlux med s.spc with
  | (s', .ok f) => if validWith s' f = false then .throw .INVALID_SPECTRUM else .ok { s with spc := s', path := "" }
  | (_, .throw e) => .throw e
  | (_, .ub) => .ub

/-- The assignment (spectrum.cpp:162-179) and the target of the move assignment (spectrum.cpp:181-199). -/
def assign (t s : Full K L P) : Full K L P :=
  { t with spc := s.spc, name := s.name, rebin := s.rebin, lsf := s.lsf }

/-- The copy with a mask (spectrum.cpp:63-96). -/
def masked (s : Full K L P) (m : List K) : Res (Full K L P) :=
  match maskCopy s.spc m with
  | (s', .ok _) => .ok { s with spc := s', path := "" }
  | (_, .throw e) => .throw e
  | (_, .ub) => .ub

/-- `CSpectrumAxis::extract` (axis.h): the samples from one index to another, included. -/
def slice (l : List K) (i j : Nat) : List K := (l.drop i).take (j - i + 1)

/-- `CSpectrum::extract` (spectrum.h:331-339). -/
def extract (s : Full K L P) (i j : Nat) : Res (Full K L P) :=
  make (slice s.spc.axis i j) (slice s.spc.raw i j) s.lsf >>= fun t =>
  .ok { t with name := s.name, spc := { t.spc with method := s.spc.method, win := s.spc.win, even := s.spc.even } }

/-- The spectrum of a name with two axes set (spectrum.cpp:60-61, 246-261), as the two resamplings make it
(inputcontext.cpp:97-113, logrebinning.cpp:167-180), then given a line spread function (inputcontext.cpp:237). The constructor
leaves the window and the reflection of the median without a value: `w` and `e` stand for what is there. -/
def rebinned (s : Full K L P) (a f : List K) (w : K) (e : Bool) : Full K L P :=
  ⟨⟨a, f, [], [], false, "", w, e, .raw⟩, s.name, "", "", "lin", s.lsf, none⟩

/-! ## The spectra of a template fit -/

/-- What the context holds: the input spectra and their log-resampled counterparts. -/
structure Context (K L P : Type) where
  spectra : List (Full K L P)
  rebinned : List (Full K L P)

/-- The context after the resampling of the inputs (inputcontext.cpp:87-142, 229-239): one resampled spectrum per input, with
the new axis and flux of each, and what is in the members without a value. -/
def resample (ss : List (Full K L P)) (new : List (List K × List K × K × Bool)) : Context K L P :=
  ⟨ss, List.zipWith (fun s n => rebinned s n.1 n.2.1 n.2.2.1 n.2.2.2) ss new⟩

/-- The component selected for a fit (templatefittingsolve.cpp:246-247): on the input spectra. -/
def select (c : Context K L P) (t : FluxType) : Context K L P :=
  { c with spectra := c.spectra.map fun s => { s with spc := { s.spc with type := t } } }

/-- The masked copies of a list of spectra. -/
def maskAll : List (Full K L P) → List (List K) → Res (List (Full K L P))
  | s :: ss, m :: ms => masked s m >>= fun x => maskAll ss ms >>= fun xs => .ok (x :: xs)
  | _, _ => .ok []

/-- The spectra of the two operators: the plain one uses the inputs (templatefittingBase.cpp:50-52), the one on log grids the
resampled ones (templatefittinglog.cpp:103-107) or masked copies of them (templatefittinglog.cpp:109-145), whose masks are
given. The spectra are shared, so the plain operator sees the component selected later. -/
inductive Operator (K : Type) where
  | plain
  | log
  | logSub (masks : List (List K))

/-- The spectra an operator was built with, read at the time of the fit. The masked copies are made when the operator is built,
before the selection of the component; the selection does not touch the resampled spectra. -/
def fitted (o : Operator K) (c : Context K L P) : Res (List (Full K L P)) :=
  match o with
  | .plain => .ok c.spectra
  | .log => .ok c.rebinned
  | .logSub ms => maskAll c.rebinned ms

/-- `CModelSpectrumResult::addModel` (modelspectrumresult.cpp:52-58): a `std::map` by observation. -/
def addModel {M : Type} (m : String → Option M) (obs : String) (x : M) : String → Option M :=
  fun k => if k = obs then some x else m k

/-- The models saved for a candidate (templatefittingsolve.cpp:458-475, templatefittingBase.cpp:147-148): one for each spectrum
of the operator. -/
def saveModels {M : Type} : List (Full K L P × M) → (String → Option M) → String → Option M
  | [], m => m
  | (s, x) :: r, m => saveModels r (addModel m s.obsId x)

end
end SpcCopy
end Amazed
