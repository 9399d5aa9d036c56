import Mathlib.Analysis.SpecialFunctions.Log.Basic
import Verif.Model.Grid
import Verif.Model.Indexing
import Verif.Model.SpectralAxis
import Verif.Model.Rebin
import Verif.Model.MedianCont

/-! # Logarithmic rebinning of spectra and templates (`src/lib/spectrum/logrebinning.cpp`,
`spectrum/logrebinning.h`, and the logarithmic part of `src/lib/spectrum/spectralaxis.cpp`)

Everything is over the reals: rounding is not represented, and integers are not bounded. The logarithm of a
number that is not positive, and a division by a null step (both give a NaN or an infinity in the code, which
then goes through a conversion to `Int32`), are `ub`. The part of `logRebinTemplateCatalog` that changes the
catalogue is in `Verif.Model.TplCatalog`. -/

set_option linter.unusedVariables false

namespace Amazed
namespace LogRebin

open Classical

noncomputable section

/-- `log(x)`. -/
def clog (x : ℝ) : Res ℝ := if 0 < x then .ok (Real.log x) else .ub

/-- The tolerance `epsilon` of `SpreadOverLogEpsilon` (range.h:225-226, default argument). -/
def eps : ℝ := 1 / 100000000

/-- `m_regularLogSamplingStep` as set by `CheckLoglambdaSampling` (spectralaxis.cpp:373-374): the logarithm of
the last sample over the first one, over the number of steps. Only used for axes with two samples at least. -/
def regularStep (l : List ℝ) : ℝ :=
  if h : l.length < 2 then 0 else Real.log (l[l.length - 1] / l[0]) / ((l.length : ℝ) - 1)

/-- `IsLogSampled(logGridstep)` (spectralaxis.cpp:391-403) for an axis just built (no cached answer). -/
def isLogSampledStep (l : List ℝ) (d : ℝ) : Res Bool :=
  (SAxis.ofList l).isLogSampled >>= fun r =>
  if r.1 = false then .ok false
  else .ok (decide (¬ |regularStep l - d| > 1 / 10000000))

/-- `setupRebinning`, first branch (logrebinning.cpp:72-96): the reference range of a log-sampled spectrum whose
range is `spc`. -/
def refLog (d : ℝ) (spc lr : Range ℝ) : Res (Range ℝ) :=
  if d = 0 then .ub else
  clog spc.b >>= fun s0 =>
  clog spc.e >>= fun s1 =>
  clog lr.b >>= fun l0 =>
  clog lr.e >>= fun l1 =>
  .ok ⟨Real.exp (s0 + (⌈(l0 - s0) / d⌉ : ℝ) * d), Real.exp (s1 + (⌊(l1 - s1) / d⌋ : ℝ) * d)⟩

/-- `setupRebinning`, second branch (logrebinning.cpp:97-112): the reference range of a spectrum that is not
log-sampled. -/
def refLin (d : ℝ) (lr : Range ℝ) : Res (Range ℝ) :=
  if d = 0 then .ub else
  clog lr.b >>= fun l0 =>
  clog lr.e >>= fun l1 =>
  .ok ⟨lr.b, Real.exp (l0 + (⌊(l1 - l0) / d⌋ : ℝ) * d)⟩

/-- `setupRebinning` (logrebinning.cpp:70-119): `l` is the axis of the spectrum, `lr` the requested range. -/
def setup (d : ℝ) (l : List ℝ) (lr : Range ℝ) : Res (Range ℝ) :=
  isLogSampledStep l d >>= fun good =>
  if good then refLog d (SAxis.lambdaRange l) lr
  else
    (SAxis.ofList l).isLogSampled >>= fun r =>
    if r.1 = false then refLin d lr else .throw .INTERNAL_ERROR

/-- The new start of the range of a rebinned spectrum (logrebinning.cpp:144-150): `(log of the start, start)`. -/
def alignBegin (d : ℝ) (ref c : Range ℝ) : Res (ℝ × ℝ) :=
  clog c.b >>= fun s =>
  clog ref.b >>= fun r =>
  if c.b > ref.b then
    let s' := r + (⌈(s - r) / d⌉ : ℝ) * d
    .ok (s', Real.exp s')
  else .ok (s, c.b)

/-- The new end of the range of a rebinned spectrum (logrebinning.cpp:151-157). -/
def alignEnd (d : ℝ) (ref c : Range ℝ) : Res (ℝ × ℝ) :=
  clog c.e >>= fun s =>
  clog ref.e >>= fun r =>
  if c.e < ref.e then
    let s' := r - (⌈(r - s) / d⌉ : ℝ) * d
    .ok (s', Real.exp s')
  else .ok (s, c.e)

/-- The range and the number of samples of a rebinned spectrum (logrebinning.cpp:137-167): `l` is the axis of the
spectrum. -/
def spectrumRange (d : ℝ) (ref : Range ℝ) (l : List ℝ) : Res (Range ℝ × ℤ) :=
  SAxis.clampLambdaRange l ref >>= fun c =>
  if d = 0 then .ub else
  alignBegin d ref c >>= fun b =>
  alignEnd d ref c >>= fun e =>
  let count := MedCont.cround ((e.1 - b.1) / d) + 1
  if count < 2 then .throw .INTERNAL_ERROR else .ok (⟨b.2, e.2⟩, count)

/-- `computeTargetLogSpectralAxis` (logrebinning.cpp:281-291). -/
def targetAxis (d : ℝ) (r : Range ℝ) (count : ℤ) : Res (List ℝ) :=
  r.spreadOverLogEps d 0 false eps >>= fun v =>
  if (v.length : ℤ) ≠ count then .throw .INTERNAL_ERROR else .ok v

/-- The range given to `Rebin` (logrebinning.cpp:176-178, 263-265): half a *logarithmic* step, in wavelength units,
around the target axis. -/
def rebinRange (d : ℝ) (t : List ℝ) (count : ℤ) : Res (Range ℝ) :=
  Res.at_ t 0 >>= fun a =>
  Res.atZ t (count - 1) >>= fun b =>
  .ok ⟨a - 1 / 2 * d, b + 1 / 2 * d⟩

/-- A rebinned spectrum or template: its axis, and for each sample the flux, the error and the mask. -/
abbrev Rebinned := List ℝ × List (Rebin.Cell ℝ)

/-- `loglambdaRebinSpectrum` (logrebinning.cpp:125-190), with the error rebinning mode `m`
(`"rebinVariance"` by default): `xs`, `ys`, `es` are the axis, the flux and the error of the spectrum. -/
def rebinSpectrum (m : Rebin.ErrMode) (d : ℝ) (ref : Range ℝ) (xs ys es : List ℝ) : Res Rebinned :=
  (SAxis.ofList xs).isLogSampled >>= fun lg =>
  if lg.1 then .throw .INTERNAL_ERROR
  else
    spectrumRange d ref xs >>= fun rc =>
    targetAxis d rc.1 rc.2 >>= fun t =>
    rebinRange d t rc.2 >>= fun r =>
    Rebin.linear m xs ys es r t >>= fun cells =>
    .ok (t, cells)

/-- `inferTemplateRebinningSetup` (logrebinning.cpp:195-226): the range and the number of samples of the templates for
the redshift range `z`. -/
def templateSetup (d : ℝ) (ref z : Range ℝ) : Res (Range ℝ × ℤ) :=
  if d = 0 then .ub else
  clog (ref.b / (1 + z.e)) >>= fun lmin =>
  clog (ref.e / (1 + z.b)) >>= fun lmax =>
  let rnd := MedCont.cround ((lmax - lmin) / d) + 1
  let neat := (lmax - lmin) / d + 1
  if |(rnd : ℝ) - neat| > 1 / 100000000 then .throw .INTERNAL_ERROR
  else .ok (⟨Real.exp (lmax - ((rnd : ℝ) - 1) * d), Real.exp lmax⟩, rnd)

/-- `loglambdaRebinTemplate` (logrebinning.cpp:238-279). The check of lines 260-263 is the first `if` after the target
axis. The errors of templates are not rebinned (default argument `"no"`). -/
def rebinTemplate (d : ℝ) (xs ys es : List ℝ) (r : Range ℝ) (count : ℤ) : Res Rebinned :=
  Res.at_ xs 0 >>= fun x0 =>
  Res.atZ xs ((xs.length : ℤ) - 1) >>= fun x1 =>
  if r.b < x0 ∨ r.e > x1 then .throw .INSUFFICIENT_TEMPLATE_COVERAGE
  else
    targetAxis d r count >>= fun t =>
    Res.at_ t 0 >>= fun t0 =>
    Res.atZ t (count - 1) >>= fun t1 =>
    if t1 < t0 then .throw .INTERNAL_ERROR
    else
      rebinRange d t count >>= fun rr =>
      Rebin.linear .no xs ys es rr t >>= fun cells =>
      .ok (t, cells)

/-- The redshift range of the new redshift grid, in `logRebinTemplateCatalog` (logrebinning.cpp:305-331): `ss` is
`largeGridStepRatio` (1 if absent). -/
def newZRange (d : ℝ) (ss : ℤ) (z : Range ℝ) : Res (Range ℝ) :=
  if d = 0 ∨ ss = 0 then .ub else
  clog (z.b + 1) >>= fun a =>
  clog (z.e + 1) >>= fun b =>
  let nb : ℤ := ⌈(b - a) / d / ss⌉
  .ok ⟨z.b, Real.exp (a + nb * d * ss) - 1⟩

/-- `checkTemplateAlignment` (logrebinning.cpp:293-300): `w` is the axis of the template. -/
def checkAlignment (w : List ℝ) (r : Range ℝ) : Res Bool :=
  getCloserIndex w r.b >>= fun i =>
  Res.at_ w i >>= fun x =>
  if x = 0 then .ub else .ok (decide ((r.b - x) / x ≤ 2 / 10000000))

/-- `isRebinningNeeded` (logrebinning.cpp:382-397). -/
def isRebinningNeeded (d : ℝ) (w : List ℝ) (r : Range ℝ) : Res Bool :=
  isLogSampledStep w d >>= fun lg =>
  Res.at_ w 0 >>= fun w0 =>
  Res.atZ w ((w.length : ℤ) - 1) >>= fun w1 =>
  checkAlignment w r >>= fun al =>
  .ok (decide (lg = false ∨ r.b < w0 ∨ r.e > w1 ∨ al = false))

/-- The mean biases of `RecomputePreciseLoglambda` (spectralaxis.cpp:484-491): the sum of `log(new[f k] / old[f k])`
for `k < bs`, over `bs`. -/
def meanBias (new old : List ℝ) (f : ℕ → ℤ) (bs : ℕ) : Res ℝ :=
  Res.foldN (fun k acc =>
    Res.atZ new (f k) >>= fun a =>
    Res.atZ old (f k) >>= fun b =>
    if b = 0 then .ub else clog (a / b) >>= fun v => .ok (acc + v)) 0 bs 0 >>= fun s =>
  if bs = 0 then .ub else .ok (s / bs)

/-- `RecomputePreciseLoglambda` (spectralaxis.cpp:466-502): the new samples and the new step. -/
def recompute (l : List ℝ) : Res (List ℝ × ℝ) :=
  (SAxis.ofList l).isLogSampled >>= fun lg =>
  if lg.1 = false then .throw .INTERNAL_ERROR
  else
    let lr := SAxis.lambdaRange l
    lr.spreadOverLogEps (regularStep l) 0 false eps >>= fun new =>
    let nm1 : ℤ := (l.length : ℤ) - 1
    let bs : ℤ := min 100 (nm1 / 10)
    if bs < 30 then .throw .INTERNAL_ERROR
    else
      meanBias new l (fun k => (k : ℤ)) bs.toNat >>= fun b0 =>
      meanBias new l (fun k => nm1 - (k : ℤ)) bs.toNat >>= fun b1 =>
      clog lr.b >>= fun l0 =>
      clog lr.e >>= fun l1 =>
      let n0 := l0 - b0
      let n1 := l1 - b1
      let st := (n1 - n0) / nm1
      (⟨Real.exp n0, Real.exp n1⟩ : Range ℝ).spreadOverLogEps st 0 false eps >>= fun v =>
      .ok (v, st)

end
end LogRebin
end Amazed
