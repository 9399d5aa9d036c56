import Verif.Basic
import Mathlib.Analysis.SpecialFunctions.Complex.Log
import Mathlib.Data.Complex.BigOperators

set_option linter.unusedVariables false

/-! # Correlation of a spectrum and a template with FFT (`RedshiftLibrary/src/lib/operator/templatefittinglog.cpp`)

The transforms of FFTW are modelled by their mathematical definition (FFTW manual, 4.8.1 and 4.8.3), rounding is not modelled. -/

namespace Amazed
namespace Fft
open Finset

/-- `exp(2πi s / n)`. -/
noncomputable def tw (n : ℕ) (s : ℤ) : ℂ := Complex.exp (2 * Real.pi * Complex.I * s / n)

/-- `fftw_plan_dft_r2c_1d(n, ...)`: the first `n / 2 + 1` coefficients of the transform of `n` real numbers. The entries of the output
buffer after them are not written. -/
noncomputable def r2c (n : ℕ) (x : List ℝ) : List ℂ :=
  (List.range (n / 2 + 1)).map fun (k : ℕ) => ∑ j ∈ range n, ((x.getD j 0 : ℝ) : ℂ) * tw n (-((j * k : ℕ) : ℤ))

/-- `fftw_plan_dft_c2r_1d(n, ...)`: the inverse transform, not normalised, of the Hermitian array whose first `n / 2 + 1` entries are
given; the imaginary parts of the entries 0 and `n / 2` have no effect. -/
noncomputable def c2r (n : ℕ) (h : List ℂ) : List ℝ :=
  (List.range n).map fun (j : ℕ) =>
    (∑ k ∈ range n, (if k ≤ n / 2 then h.getD k 0 else (starRingEnd ℂ) (h.getD (n - k) 0)) * tw n ((j * k : ℕ) : ℤ)).re

/-- The two buffers `precomputedFFT_spcFluxOverErr2` and `precomputedFFT_spcOneOverErr2` (templatefittinglog.h), `none` when not
allocated. -/
structure Cache where
  fluxOverErr2 : Option (List ℂ)
  oneOverErr2 : Option (List ℂ)

/-- `freeFFTPrecomputedBuffers`, called by `InitFFT` (templatefittinglog.cpp:277-328). -/
def Cache.init : Cache := ⟨none, none⟩

/-- The zero padded and reversed spectrum (templatefittinglog.cpp:199-202). -/
def padSpc (n : ℕ) (x : List ℝ) : List ℝ := List.replicate (n - x.length) 0 ++ x.reverse

/-- The zero padded template (templatefittinglog.cpp:247-252). -/
def padTpl (n : ℕ) (y : List ℝ) : List ℝ := y ++ List.replicate (n - y.length) 0

/-- The transform of the spectrum, from the buffer if it is filled (templatefittinglog.cpp:188-242). -/
noncomputable def spcFft (n : ℕ) (c : Cache) (x : List ℝ) (flag : ℤ) : List ℂ × Cache :=
  if flag = 0 then
    match c.fluxOverErr2 with
    | some o => (o, c)
    | none => (r2c n (padSpc n x), { c with fluxOverErr2 := some (r2c n (padSpc n x)) })
  else if flag = 1 then
    match c.oneOverErr2 with
    | some o => (o, c)
    | none => (r2c n (padSpc n x), { c with oneOverErr2 := some (r2c n (padSpc n x)) })
  else (r2c n (padSpc n x), c)

/-- `EstimateXtY` (templatefittinglog.cpp:174-275), where `n` is `m_nPaddedSamples`, the size of the buffers. A spectrum or a template
longer than the buffers is written outside of them; with more spectrum than template samples `resize` throws or `front` is called
on an empty vector: both are reported as `ub`. The products of the entries after `n / 2`, which are not initialised, are not
modelled: the backward transform does not read them. -/
noncomputable def estimateXtY (n : ℕ) (c : Cache) (x y : List ℝ) (flag : ℤ) : Res (List ℝ × Cache) :=
  if n < x.length ∨ n < y.length ∨ y.length < x.length then .ub
  else
    let s := spcFft n c x flag
    let comb := List.zipWith (· * ·) (r2c n (padTpl n y)) s.1
    let inv := c2r n comb
    .ok ((List.range (y.length - x.length + 1)).map (fun (k : ℕ) => inv.getD (if k = 0 then n - 1 else k - 1) 0 / (n : ℝ)), s.2)

/-- One turn of `EstimateMtMFast` (templatefittinglog.cpp:163-169) given the previous sum. -/
def mtmStep {K : Type} [Field K] (x y : List K) (k : ℕ) (prev : K) : Res K :=
  Res.at_ x 0 >>= fun x0 => Res.at_ y (k - 1) >>= fun y0 => Res.at_ x (x.length - 1) >>= fun x1 =>
  Res.at_ y (x.length - 1 + k - 1) >>= fun y1 => .ok (prev - x0 * y0 + x1 * y1)

/-- `EstimateMtMFast` (templatefittinglog.cpp:151-171): the sums of the shifts from `k`; no other function calls it. -/
def mtmLoop {K : Type} [Field K] (x y : List K) (k : ℕ) (prev : K) : ℕ → Res (List K)
  | 0 => .ok []
  | m + 1 => mtmStep x y k prev >>= fun v => mtmLoop x y (k + 1) v m >>= fun l => .ok (v :: l)

/-- The first sum (templatefittinglog.cpp:157-160) and the others. -/
def mtmFast {K : Type} [Field K] (x y : List K) (nShifts : ℕ) : Res (List K) :=
  if y.length < x.length ∨ nShifts = 0 then .ub
  else
    let s := (List.zipWith (· * ·) x y).sum
    mtmLoop x y 1 s (nShifts - 1) >>= fun l => .ok (s :: l)

end Fft
end Amazed
