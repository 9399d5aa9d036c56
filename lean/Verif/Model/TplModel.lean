import Verif.Basic
import Verif.Model.Rebin
import Verif.Model.Range
import Verif.Model.SpectralAxis
import Verif.Model.Template
import Verif.Model.Loop

set_option linter.unusedVariables false

/-! # A template on the axis of a spectrum, the model spectrum of a candidate, and the fit over the redshifts

`RedshiftLibrary/src/lib/operator/templatefittingBase.cpp` (RebinTemplate, ComputeSpectrumModel), `templatefitting.cpp` (Compute) and `templatefittingresult.cpp` (set_at_redshift).

The resampling method is a parameter (`tpl->Rebin`); the theorems are for the linear one. The photometry is in Phot.lean. -/

namespace Amazed
namespace TplModel

section
variable {K : Type} [Field K] [LinearOrder K]

/-- What `RebinTemplate` leaves: the rest frame axis of the spectrum, the resampled template with its mask, the range in common and the overlap. -/
structure Reb (K : Type) where
  rest : List K
  cells : List (Rebin.Cell K)
  cur : Range K
  ov : K

/-- The range of wavelengths in the rest frame (templatefittingBase.cpp:160-162). -/
def restRange (lr : Range K) (z : K) : Range K := ⟨lr.b / (1 + z), lr.e / (1 + z)⟩

/-- `RebinTemplate` (templatefittingBase.cpp:152-199): `reb range axis` is `tpl->Rebin`, `tx` the axis of the template, `sx` that of the spectrum, `lr` the range of
wavelengths. A null `1 + z` divides by zero. -/
def rebinTemplate (reb : Range K → List K → Res (List (Rebin.Cell K))) (tx sx : List K) (lr : Range K) (z thr : K) : Res (Reb K) :=
  if 1 + z = 0 then .ub
  else
    SAxis.shift (SAxis.ofList sx) (1 + z) .backward >>= fun a =>
    SAxis.clampLambdaRange a.samples (restRange lr z) >>= fun s =>
    SAxis.clampLambdaRange tx (restRange lr z) >>= fun t =>
    reb (Range.intersect t s ⟨0, 0⟩).2 a.samples >>= fun cells =>
    SAxis.overlapFraction a.samples (restRange lr z) (cells.map (·.mask)) >>= fun ov =>
    if ov < thr ∨ ov ≤ 0 then .throw .OVERLAPFRACTION_NOTACCEPTABLE
    else .ok ⟨a.samples, cells, (Range.intersect t s ⟨0, 0⟩).2, ov⟩

/-- The extinctions of the template: curves, `GetEbmvIndex`, and its objects; `hd0`, `hi0` are those left on the resampled template by an earlier call. -/
structure Ext (K : Type) where
  c : Tpl.Curves K
  ebmvIndex : K → Res Int
  hd : Bool
  hi : Bool
  hd0 : Bool
  hi0 : Bool

/-- A step of a template, as a result. -/
def did {β : Type} (r : Tpl.T K × Res β) : Res (Tpl.T K) := r.2 >>= fun _ => .ok r.1

/-- The configuration of the extinctions (templatefittingBase.cpp:112-119). -/
def initExt (x : Ext K) (eb : K) (mi : Int) (z : K) (r : Reb K) : Res (Tpl.T K) :=
  if 0 < eb ∨ -1 < mi then
    Range.closedIdx r.cur r.rest >>= fun kk =>
    did (Tpl.init x.c (Tpl.make r.rest (r.cells.map (·.flux)) (x.hd0 || x.hd) (x.hi0 || x.hi)) kk.1 kk.2 z)
  else .ok (Tpl.make r.rest (r.cells.map (·.flux)) x.hd0 x.hi0)

/-- The dust (templatefittingBase.cpp:121-132). -/
def dustExt (x : Ext K) (eb : K) (t : Tpl.T K) : Res (Tpl.T K) :=
  if 0 < eb then
    if t.hasDust = false then .throw .INTERNAL_ERROR
    else x.ebmvIndex eb >>= fun k => if k ≠ -1 then did (Tpl.applyDust x.c t k) else .ok t
  else .ok t

/-- The IGM (templatefittingBase.cpp:134-139). -/
def igmExt (x : Ext K) (mi : Int) (t : Tpl.T K) : Res (Tpl.T K) :=
  if -1 < mi then
    if t.hasIgm = false then .throw .INTERNAL_ERROR else did (Tpl.applyIgm x.c t mi)
  else .ok t

/-- `ComputeSpectrumModel` (templatefittingBase.cpp:89-150): the axis and the flux of the model added to the result. -/
def spectrumModel (reb : Range K → List K → Res (List (Rebin.Cell K))) (tx sx : List K) (lr : Range K) (z thr : K) (x : Ext K) (eb : K) (mi : Int) (amp : K) : Res (List K × List K) :=
  rebinTemplate reb tx sx lr z thr >>= fun r =>
  initExt x eb mi z r >>= fun t0 =>
  dustExt x eb t0 >>= fun t1 =>
  igmExt x mi t1 >>= fun t2 =>
  SAxis.shift (SAxis.ofList t2.axis) (1 + z) .forward >>= fun a =>
  .ok (a.samples, (Tpl.amplitude t2 amp).flux)

end

end TplModel
end Amazed
