import Mathlib.Algebra.Order.Field.Basic
import Mathlib.Analysis.Real.Sqrt
import Mathlib.Algebra.Order.Floor.Semiring
import Verif.Model.Range
import Verif.Model.Indexing

/-! # Rebinning of a spectrum on a target axis (`src/lib/spectrum/rebin/`) -/

namespace Amazed
namespace Rebin

/-- The values of `opt_error_interp` (`"no"`, `"rebin"`, `"rebinVariance"`). -/
inductive ErrMode where
  | no
  | rebin
  | rebinVariance
deriving DecidableEq, Repr

/-- A value of the error axis: finite or the `INFINITY` written outside of the range
(rebin.cpp:78, 89). -/
inductive ErrVal (K : Type) where
  | fin (x : K)
  | inf
deriving DecidableEq, Repr

/-- What the rebinning writes for one target sample: mask, flux and error. -/
structure Cell (K : Type) where
  mask : Nat
  flux : K
  err : ErrVal K
deriving DecidableEq, Repr

section
variable {K : Type}

/-- The cell written outside of the range (rebin.cpp:75-78 and 86-89). Without error interpolation the
error keeps the 1.0 written by `SetSize` (noiseaxis.cpp:59-61). -/
def outside [Zero K] [One K] (m : ErrMode) : Cell K :=
  ⟨0, 0, match m with
    | .no => .fin 1
    | _ => .inf⟩

/-- `while (cursor < count && Xtgt[cursor] < begin)` (rebin.cpp:72-80). The target samples left are the
argument, the result is the cells written and the samples left. -/
def prefixLoop [Zero K] [One K] [LT K] [DecidableLT K] (m : ErrMode) (b : K) : List K → List (Cell K) × List K
  | [] => ([], [])
  | x :: xs => if x < b then let r := prefixLoop m b xs; (outside m :: r.1, r.2) else ([], x :: xs)

/-- `while (cursor < count && Xtgt[cursor] <= hi) { ...; cursor++; }`: the loop of rebinLinear.cpp:63-81
with `hi = Xsrc[k+1]`, and of rebinNgp.cpp:60-86, rebinFineGrid.cpp:115-129 and rebinSpline.cpp:69-85 with
`hi = range.GetEnd()`. `f cursor x` computes the cell. The argument is the cursor and the target samples
left. -/
def whileLe [LE K] [DecidableLE K] (hi : K) (f : Nat → K → Res (Cell K)) :
    Nat → List K → Res (List (Cell K) × List K)
  | _, [] => .ok ([], [])
  | c, x :: xs =>
    if x ≤ hi then f c x >>= fun cell => whileLe hi f (c + 1) xs >>= fun r => .ok (cell :: r.1, r.2)
    else .ok ([], x :: xs)

/-- The outer loop of `CRebinLinear::rebin` (rebinLinear.cpp:58-84), from source index `k` with `fuel`
source intervals left (`fuel = n - 1 - k`). -/
def linearLoop [LE K] [DecidableLE K] (xs : List K) (e : K) (f : Nat → Nat → K → Res (Cell K)) :
    Nat → Nat → Nat → List K → Res (List (Cell K) × List K)
  | 0, _, _, rest => .ok ([], rest)
  | fuel + 1, k, c, rest =>
    Res.at_ xs k >>= fun xk =>
    if xk ≤ e then
      Res.at_ xs (k + 1) >>= fun xk1 =>
      whileLe xk1 (f k) c rest >>= fun r =>
      linearLoop xs e f fuel (k + 1) (c + r.1.length) r.2 >>= fun s => .ok (r.1 ++ s.1, s.2)
    else .ok ([], rest)

/-- `CRebin::compute` (rebin.cpp:48-98): the check of the range, the loop before the range, the virtual
`rebin`, and the loop after the range. The result is the list of cells of the target axis (the mask and
the flux and error axes of `rebinedSpectrum`). Reading the ends of an empty source axis is `ub`. -/
def compute [Zero K] [One K] [LE K] [LT K] [DecidableLT K] (body : Nat → List K → Res (List (Cell K) × List K))
    (m : ErrMode) (xs : List K) (r : Range K) (xt : List K) : Res (List (Cell K)) :=
  Res.at_ xs 0 >>= fun x0 =>
  Res.atZ xs ((xs.length : Int) - 1) >>= fun xl =>
  if r.b < x0 ∨ xl < r.e then .throw .INTERNAL_ERROR
  else
    let p := prefixLoop m r.b xt
    body p.1.length p.2 >>= fun q =>
    .ok (p.1 ++ q.1 ++ q.2.map (fun _ => outside m))

end

noncomputable section

/-- `computeXStepCompensation` (rebin.cpp:100-113): ratio of the source step to the target step, the
target step being the next one, or the previous one for the last sample. The division by a zero step is
`ub` (the code gives an infinity or a NaN). -/
def stepCompensation (xt : List ℝ) (c : Nat) (srcStep : ℝ) : Res ℝ :=
  let div (d : ℝ) : Res ℝ := if d = 0 then .ub else .ok (srcStep / d)
  if (c : Int) < (xt.length : Int) - 1 then
    Res.at_ xt (c + 1) >>= fun a => Res.at_ xt c >>= fun b => div (a - b)
  else
    Res.at_ xt c >>= fun a => Res.atZ xt ((c : Int) - 1) >>= fun b => div (a - b)

/-- The body of the inner loop of `CRebinLinear::rebin` (rebinLinear.cpp:65-80). Division by a zero
source step is `ub`, and so is the square root of a negative number (the code gives a NaN). -/
def linearCell (m : ErrMode) (xs ys es xt : List ℝ) (k c : Nat) (x : ℝ) : Res (Cell ℝ) :=
  Res.at_ xs (k + 1) >>= fun x1 =>
  Res.at_ xs k >>= fun x0 =>
  if x1 - x0 = 0 then .ub
  else
    let t := (x - x0) / (x1 - x0)
    Res.at_ ys k >>= fun y0 =>
    Res.at_ ys (k + 1) >>= fun y1 =>
    let flux := y0 + (y1 - y0) * t
    match m with
    | .no => .ok ⟨1, flux, .fin 1⟩
    | .rebin =>
      Res.at_ es k >>= fun e0 =>
      Res.at_ es (k + 1) >>= fun e1 =>
      .ok ⟨1, flux, .fin (e0 + (e1 - e0) * t)⟩
    | .rebinVariance =>
      Res.at_ es k >>= fun e0 =>
      Res.at_ es (k + 1) >>= fun e1 =>
      stepCompensation xt c (x1 - x0) >>= fun comp =>
      if comp < 0 then .ub
      else .ok ⟨1, flux, .fin (Real.sqrt (e0 * e0 * (1 - t) * (1 - t) + e1 * e1 * t * t) * Real.sqrt comp)⟩

/-- `CRebinLinear` (rebinLinear.cpp:46-84 called by rebin.cpp:48-98). -/
def linear (m : ErrMode) (xs ys es : List ℝ) (r : Range ℝ) (xt : List ℝ) : Res (List (Cell ℝ)) :=
  compute (linearLoop xs r.e (linearCell m xs ys es xt) (xs.length - 1) 0) m xs r xt

/-- The body of the loop of `CRebinNgp::rebin` (rebinNgp.cpp:60-86). -/
def ngpCell (m : ErrMode) (xs ys es xt : List ℝ) (c : Nat) (x : ℝ) : Res (Cell ℝ) :=
  getCloserIndex xs x >>= fun k =>
  (if k = xs.length - 1 then
      Res.at_ xs k >>= fun a => Res.atZ xs ((k : Int) - 1) >>= fun b => .ok (a - b)
    else
      Res.at_ xs (k + 1) >>= fun a => Res.at_ xs k >>= fun b => .ok (a - b)) >>= fun srcStep =>
  Res.at_ ys k >>= fun y =>
  match m with
  | .no => .ok ⟨1, y, .fin 1⟩
  | .rebin => Res.at_ es k >>= fun e => .ok ⟨1, y, .fin e⟩
  | .rebinVariance =>
    Res.at_ es k >>= fun e =>
    stepCompensation xt c srcStep >>= fun comp =>
    if comp < 0 then .ub else .ok ⟨1, y, .fin (e * Real.sqrt comp)⟩

/-- `CRebinNgp` (rebinNgp.cpp:46-86 called by rebin.cpp:48-98). -/
def ngp (m : ErrMode) (xs ys es : List ℝ) (r : Range ℝ) (xt : List ℝ) : Res (List (Cell ℝ)) :=
  compute (fun c rest => whileLe r.e (ngpCell m xs ys es xt) c rest) m xs r xt

/-- The step `m_dLambdaFineGrid = 0.1` (rebin.h:88). -/
def fineStep : ℝ := 1 / 10

/-- `CRebinFineGrid::rebinFineGrid` (rebinFineGrid.cpp:49-86): the table of the spline `spl` of the source
spectrum at `lmin + k * 0.1`, 0 outside of the source axis. GSL refuses a cubic spline of fewer than three
points (error handler context.cpp:53-68). Simplified: the conversion to `Int32` does not overflow, and the
cached table is recomputed at every call, as after `reset`. -/
def fineTable (spl : ℝ → ℝ) (xs : List ℝ) : Res (List ℝ) :=
  if xs.length = 0 then .throw .INVALID_SPECTRUM
  else if xs.length < 3 then .throw .EXTERNAL_LIB_ERROR
  else
    Res.at_ xs 0 >>= fun lmin =>
    Res.at_ xs (xs.length - 1) >>= fun lmax =>
    .ok ((List.range ⌊(lmax - lmin) / fineStep + 2 / fineStep⌋₊).map fun (k : Nat) =>
      if lmin + k * fineStep < lmin ∨ lmax < lmin + k * fineStep then 0 else spl (lmin + k * fineStep))

/-- The body of the loop of `CRebinFineGrid::rebin` (rebinFineGrid.cpp:115-129). The conversion to `int`
truncates towards zero. -/
def fineCell (m : ErrMode) (xs pfg : List ℝ) (_c : Nat) (x : ℝ) : Res (Cell ℝ) :=
  Res.at_ xs 0 >>= fun lmin =>
  let q := (x - lmin) / fineStep + 1 / 2
  (if q ≤ -1 then .ub else Res.at_ pfg ⌊q⌋₊) >>= fun y =>
  match m with
  | .no => .ok ⟨1, y, .fin 1⟩
  | _ => .throw .INTERNAL_ERROR

/-- `CRebinFineGrid` (rebinFineGrid.cpp:93-129 called by rebin.cpp:48-98). -/
def fine (m : ErrMode) (spl : ℝ → ℝ) (xs : List ℝ) (r : Range ℝ) (xt : List ℝ) : Res (List (Cell ℝ)) :=
  compute (fun c rest =>
    fineTable spl xs >>= fun pfg =>
    if pfg.length = 0 then .throw .INTERNAL_ERROR
    else whileLe r.e (fineCell m xs pfg) c rest) m xs r xt

/-- `CRebinSpline` (rebinSpline.cpp:49-87 called by rebin.cpp:48-98); `spl` is GSL's cubic spline through the
source samples. -/
def spline (m : ErrMode) (spl : ℝ → ℝ) (xs : List ℝ) (r : Range ℝ) (xt : List ℝ) : Res (List (Cell ℝ)) :=
  compute (fun c rest =>
    if xs.length < 3 then .throw .EXTERNAL_LIB_ERROR
    else whileLe r.e (fun _ x =>
      match m with
      | .no => .ok ⟨1, spl x, .fin 1⟩
      | _ => .throw .INTERNAL_ERROR) c rest) m xs r xt

end
end Rebin
end Amazed
