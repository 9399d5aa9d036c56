import Verif.Model.EltSupport
import Verif.Model.Amp

set_option linter.unusedVariables false

/-! # Least squares amplitude of a line element

`RedshiftLibrary/src/lib/linemodel/abstractfitter.cpp` (fitAmplitude, fitAmplitudeAndLambdaOffset,
getLeastSquareMeritFast) and `element.cpp` (computeCrossProducts).

The iteration on the spectra with the global index is a loop on a list of observations. Numbers are elements of an
ordered field; a null error (an infinite weight) is reported as undefined; `sq` is the square root. -/

namespace Amazed
namespace FitAmp

variable {K : Type} [Field K] [LinearOrder K] [IsStrictOrderedRing K]

/-- One spectrum as seen by the fit of an element: spectral axis, continuum, flux without continuum, its errors, the
supports of the element in that spectrum and the profiles of its lines at the current redshift. -/
structure Obs (K : Type) where
  axis : List K
  cont : List K
  flux : List K
  err : List K
  elt : EltSup.Elt
  prof : Nat → K → K

/-- The accumulated `m_dtmFree`, `m_sumGauss` and the number of samples. -/
structure Cross (K : Type) where
  dtm : K
  mtm : K
  num : Nat

/-- The signal synthesis `yg` (element.cpp:925-941): the lines active on support `index`, with their nominal
amplitudes. -/
def synth (e : EltSup.Elt) (emission : Bool) (nom : Nat → K) (prof : Nat → K → K) (x c : K) (index : Nat) : K :=
  (List.range e.n).foldl (fun yg k =>
    if (e.theo k).out || !e.sup.act index k then yg
    else if emission then yg + nom k * prof k x
    else yg + (-1) * c * nom k * prof k x) 0

/-- The body of the loop on the samples (element.cpp:921-945). -/
def crossSample (o : Obs K) (emission : Bool) (nom : Nat → K) (index i : Nat) (a : Cross K) : Res (Cross K) :=
  Res.at_ o.cont i >>= fun c =>
  Res.at_ o.flux i >>= fun y =>
  Res.at_ o.axis i >>= fun x =>
  Res.at_ o.err i >>= fun s =>
  if s = 0 then .ub
  else
    let yg := synth o.elt emission nom o.prof x c index
    let err2 := 1 / (s * s)
    .ok ⟨a.dtm + yg * y * err2, a.mtm + yg * yg * err2, a.num + 1⟩

/-- `for (i = s; i <= e; i++)` (element.cpp:920). -/
def crossSupport (f : Nat → Cross K → Res (Cross K)) (s e : ℤ) (a : Cross K) : Res (Cross K) :=
  if s > e then .ok a else if s < 0 then .ub else Res.foldN f s.toNat (e - s + 1).toNat a

/-- `computeCrossProducts` (element.cpp:895-950). -/
def cross (o : Obs K) (emission : Bool) (nom : Nat → K) (line : Option Nat) (a : Cross K) : Res (Cross K) :=
  Res.foldN (fun index a =>
    if (o.elt.theo index).out then .ok a
    else if EltSup.skipSup o.elt line index then .ok a
    else crossSupport (crossSample o emission nom index) (o.elt.sup.s index) (o.elt.sup.e index) a) 0 o.elt.n a

/-- The loop on the spectra (abstractfitter.cpp:281-291). -/
def crossAll (emission : Bool) (nom : Nat → K) (line : Option Nat) : List (Obs K) → Cross K → Res (Cross K)
  | [], a => .ok a
  | o :: os, a => cross o emission nom line a >>= fun a' => crossAll emission nom line os a'

/-- `m_sumCross`, `m_sumGauss`, `m_dtmFree`; `none` is NaN. -/
structure Sums (K : Type) where
  cross : Option K
  gauss : Option K
  dtm : Option K
deriving DecidableEq

/-- `fitAmplitude` (abstractfitter.cpp:261-326). `num == 0` and `m_sumGauss == 0` are tested on numbers, so that the
check on NaN (306-317) never stops. -/
def fitAmplitude (sq : K → K) (obs : List (Obs K)) (pe : Amp.Elt K) (line : Option Nat) : Res (Amp.Elt K × Sums K) :=
  if obs.all fun o => o.elt.outside then .ok (pe, ⟨none, none, none⟩)
  else
    let pe1 := { pe with fa := List.replicate pe.lines.length none, fastd := List.replicate pe.lines.length none }
    crossAll pe.isEmission (fun k => (pe.nominal[k]?).getD 0) line obs ⟨0, 0, 0⟩ >>= fun a =>
    if a.num = 0 ∨ a.mtm = 0 then .ok (pe1, ⟨none, none, none⟩)
    else
      let sc := max 0 a.dtm
      Amp.setAmplitude pe1 (some (sc / a.mtm)) (some (1 / sq a.mtm)) >>= fun pe2 =>
      .ok (pe2, ⟨some sc, some a.mtm, some a.dtm⟩)

/-- `getLeastSquareMeritFast` for one element (abstractfitter.cpp:423-444). -/
def meritFast (pe : Amp.Elt K) (s : Sums K) : Res (Option K) :=
  Amp.elementAmplitude pe >>= fun a =>
  .ok (Amp.vAdd (Amp.vMul (Amp.vMul a a) s.gauss) (Amp.vMul (Amp.vMul (some (-2)) a) s.cross))

/-- The search of the best offset in `fitAmplitudeAndLambdaOffset` (abstractfitter.cpp:389-408), `fit i` being the merit
obtained with the `i`-th offset; `big` is `DBL_MAX`. The index is `none` for -1. -/
def bestOffset (fit : Nat → Res (Option K)) (big : K) (n : Nat) : Res (K × Option Nat) :=
  Res.foldN (fun i s => fit i >>= fun m => match m with
    | some x => if x < s.1 then .ok (x, some i) else .ok s
    | none => .ok s) 0 n (big, none)

end FitAmp
end Amazed
