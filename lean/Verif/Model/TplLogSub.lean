import Verif.Model.TplLog
import Verif.Model.SpectralAxis

set_option linter.unusedVariables false

/-! # Template fitting on log-sampled grids: sub-sampling (`src/lib/operator/templatefittinglog.cpp:73-146, 1026-1050`)

Numbers are elements of a linearly ordered field: rounding is not modelled. Whether an axis is log sampled and its step (`IsLogSampled`,
`m_regularLogSamplingStep`, modelled in `Verif.Model.SpectralAxis` and `Verif.Model.LogRebin` over the reals) are members of the
spectrum here; `isLogStep` is `IsLogSampled(logstep)` of a new axis. The conversion of the ratio to `Int32` does not overflow. -/

namespace Amazed
namespace TplLog

variable {K : Type} [Field K] [LinearOrder K]

/-- A rebinned spectrum: its samples, `IsLogSampled()`, `m_regularLogSamplingStep` and its clamped wavelength range. -/
structure LogSpc (K : Type) where
  axis : List K
  flux : List K
  err : List K
  isLog : Bool
  step : K
  range : Range K

/-- `GetLogSamplingIntegerRatio` (spectralaxis.cpp:462-472): the ratio and `modulo`. -/
def ratio [FloorRing K] (isLog : Bool) (step logstep : K) : Res (Int × K) :=
  if isLog = false then .throw .INTERNAL_ERROR
  else if step = 0 then .ub
  else .ok (MedCont.cround (logstep / step), logstep - (MedCont.cround (logstep / step) : K) * step)

/-- The loop over the other observations (templatefittinglog.cpp:91-101). -/
def checkOthers [FloorRing K] (logstep : K) (ss : Int) : List (LogSpc K) → Res Unit
  | [] => .ok ()
  | s :: l => ratio s.isLog s.step logstep >>= fun r =>
    if r.1 ≠ ss then .throw .INTERNAL_ERROR
    else if 1 / 1000000000000 < |r.2| then .throw .INTERNAL_ERROR
    else checkOthers logstep ss l

/-- One sub-sampled spectrum (templatefittinglog.cpp:117-144). -/
def subSpc (sq : K → K) (isLogStep : List K → K → Bool) (logstep : K) (ss : Int) (s : LogSpc K) : Res (LogSpc K) :=
  Range.closedIdx s.range s.axis >>= fun ij =>
  SAxis.subSamplingMask s.axis.length s.isLog ss ij.1 ij.2 >>= fun mask =>
  maskVector mask s.axis >>= fun a => maskVector mask s.flux >>= fun f => maskVector mask s.err >>= fun e =>
  if isLogStep a logstep = false then .throw .INTERNAL_ERROR
  else SAxis.clampLambdaRange a s.range >>= fun r =>
  .ok ⟨a, f, e.map fun v => v * (1 / sq ss), true, logstep, r⟩

/-- The loop over the spectra (templatefittinglog.cpp:114-145). -/
def subAll (sq : K → K) (isLogStep : List K → K → Bool) (logstep : K) (ss : Int) : List (LogSpc K) → Res (List (LogSpc K))
  | [] => .ok []
  | s :: l => subSpc sq isLogStep logstep ss s >>= fun s' => subAll sq isLogStep logstep ss l >>= fun l' => .ok (s' :: l')

/-- `CheckRedshifts` (templatefittinglog.cpp:73-146): the step of the redshifts, the ratio and the spectra to fit. -/
def checkRedshifts [FloorRing K] (sq lg : K → K) (isLogStep : List K → K → Bool) (zs : List K) (spectra : List (LogSpc K)) :
    Res (K × Int × List (LogSpc K)) :=
  if zs.length < 2 then .throw .INTERNAL_ERROR
  else
  Res.at_ zs 1 >>= fun z1 =>
  Res.at_ zs 0 >>= fun z0 =>
  if z0 + 1 = 0 ∨ (z1 + 1) / (z0 + 1) ≤ 0 then .ub
  else
  let logstep := lg ((z1 + 1) / (z0 + 1))
  Res.at_ spectra 0 >>= fun s =>
  ratio s.isLog s.step logstep >>= fun r =>
  if 1 / 1000000000000 < |r.2| then .throw .INTERNAL_ERROR
  else
  checkOthers logstep r.1 spectra.tail >>= fun _ =>
  if r.1 = 1 then .ok (logstep, 1, spectra)
  else subAll sq isLogStep logstep r.1 spectra >>= fun l => .ok (logstep, r.1, l)

/-- The sub-sampling of the template in `Compute` (templatefittinglog.cpp:1026-1050): its axis and its flux. `spcAxis` and `spcStep` are those of the
spectrum to fit, `isLog` and `step` those of the template, `zs` the redshifts. -/
def subTemplate [FloorRing K] (lg : K → K) (isLogStep : List K → K → Bool) (logstep : K) (ss : Int) (spcAxis : List K) (spcStep : K) (zs axis flux : List K)
    (isLog : Bool) (step : K) : Res (List K × List K) :=
  if isLog = false then .throw .INTERNAL_ERROR
  else if 1 / 100000000 < |spcStep - step * ss| then .throw .INTERNAL_ERROR
  else if ss = 1 then .ok (axis, flux)
  else
  Res.at_ zs 0 >>= fun zb =>
  Res.at_ zs (zs.length - 1) >>= fun ze =>
  findTplIndex lg spcAxis axis step zb ze >>= fun il =>
  SAxis.subSamplingMask axis.length isLog ss il.1 il.2 >>= fun mask =>
  maskVector mask axis >>= fun a => maskVector mask flux >>= fun f =>
  if isLogStep a logstep = false then .throw .INTERNAL_ERROR else .ok (a, f)

end TplLog
end Amazed
