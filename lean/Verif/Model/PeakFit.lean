import Mathlib.Algebra.Order.Field.Basic
import Mathlib.Algebra.Order.Ring.Abs
import Mathlib.Analysis.SpecialFunctions.Exp
import Mathlib.Analysis.SpecialFunctions.Exponential
import Verif.Model.Range

/-!
# Gaussian fit of the peak of a candidate

Models `CPdfCandidatesZ::getCandidateRobustGaussFit`, `getCandidateGaussFit`, `pdfz_lmfit_f`, `pdfz_lmfit_df` and the branch of
`CPdfCandidatesZ::Compute` that uses them (`statistics/pdfcandidatesz.cpp:209-229, 292-510`).

The GSL solver is a parameter. A NaN or an infinite result of the fit is `none`.
-/

set_option autoImplicit true
set_option linter.unusedVariables false
namespace Amazed
namespace PeakFit

/-- The four values of `TCandidateZ` written by a fit (pdfcandidatesz.cpp:503-506). -/
@[ext] structure Fit (K : Type) where
  amp : Option K
  ampErr : Option K
  sigma : Option K
  sigmaErr : Option K
deriving DecidableEq

section Loop
variable {K : Type} [Field K] [LinearOrder K]

/-- `std::abs(sigma / err) > 1e-2` (pdfcandidatesz.cpp:307); the quotient by zero is infinite, or NaN for `0 / 0`. -/
def ratioOk (s e : K) : Bool := if e = 0 then decide (s ≠ 0) else decide (1 / 100 < |s / e|)

/-- The test of success (pdfcandidatesz.cpp:306-308); a comparison with a NaN is false. -/
def accepted (width : K) (f : Fit K) : Bool :=
  match f.sigma, f.sigmaErr with
  | some s, some e => decide (s < width * 2) && ratioOk s e
  | _, _ => false

/-- The outcome of `getCandidateRobustGaussFit`: the flag, the values left in the candidate, the ranges that were fitted. -/
structure Out (K : Type) where
  ok : Bool
  fit : Option (Fit K)
  tried : List (Range K)

/-- The loop (pdfcandidatesz.cpp:304-322): `n` tries are left, `w` is `zwidth_max`, `r` is `current_zrange`, `last` is the content of the
candidate, `fit` is `getCandidateGaussFit`. -/
def loop (fit : Range K → Res (Fit K)) (z : K) : Nat → K → Range K → Option (Fit K) → List (Range K) → Res (Out K)
  | 0, _, _, last, t => .ok ⟨false, last, t⟩
  | n + 1, w, r, _, t => fit r >>= fun f =>
    if accepted w f then .ok ⟨true, some f, t ++ [r]⟩
    else loop fit z n (w / 2) (r.intersect ⟨z - w / 2, z + w / 2⟩ r).2 (some f) (t ++ [r])

/-- `zwidth_max` at the beginning (pdfcandidatesz.cpp:302-303), also twice the initial width of a fit (453-455). -/
def width (z : K) (r : Range K) : K := max (z - r.b) (r.e - z)

/-- `getCandidateRobustGaussFit` (pdfcandidatesz.cpp:292-325): five tries. -/
def robust (fit : Range K → Res (Fit K)) (z : K) (r : Range K) : Res (Out K) := loop fit z 5 (width z r) r none []

/-- The probability of a candidate with the method of the fit (pdfcandidatesz.cpp:222-228), `rt2pi` is `sqrt(2 π)`; `none` is NaN. -/
def proba (rt2pi : K) (o : Out K) : Option K :=
  if o.ok then match o.fit with
    | none => none
    | some f => match f.amp, f.sigma with
      | some a, some s => some (a * s * rt2pi)
      | _, _ => none
  else none

/-- What is given to the solver: the samples, the centre, the starting point (pdfcandidatesz.cpp:445-472). -/
structure Problem (K : Type) where
  zs : List K
  ys : List K
  zc : K
  amp0 : K
  sigma0 : K
deriving DecidableEq

/-- What the solver returns: its point, the square roots of the diagonal of the covariance, `max(1, chi / sqrt(dof))` (pdfcandidatesz.cpp:479-494). -/
structure Sol (K : Type) where
  x0 : Option K
  x1 : Option K
  e0 : Option K
  e1 : Option K
  c : Option K

/-- A product, NaN if a factor is. -/
def mul? (a b : Option K) : Option K := match a, b with
  | some x, some y => some (x * y)
  | _, _ => none

/-- The largest of the values and of zero (pdfcandidatesz.cpp:446-448). -/
def maxP (l : List K) : K := l.foldl max 0

/-- `normFactor` (pdfcandidatesz.cpp:451). -/
def norm (l : List K) : K := if maxP l ≤ 0 then 1 else maxP l

/-- Indices of the samples: unsorted redshifts are refused, less than two samples too (pdfcandidatesz.cpp:400-433); `n` is a `size_t`: with
`kmax + 1 < kmin` it would be huge, which is `ub`. -/
def support (zs : List K) (z : K) (r : Range K) : Res (Nat × Nat) :=
  if ¬ zs.Pairwise (· ≤ ·) then .throw .INTERNAL_ERROR
  else r.enclosingIdxAt zs z >>= fun k =>
    if k.2 + 1 < k.1 then .ub
    else if k.2 + 1 - k.1 < 2 then .throw .INTERNAL_ERROR else .ok (k.1, k.2 + 1 - k.1)

/-- The problem of a fit; `ex` is the exponential; a value out of the vectors is `ub` (pdfcandidatesz.cpp:445-469). -/
def problem (ex : K → K) (zs vals : List K) (z : K) (r : Range K) : Res (Problem K) :=
  support zs z r >>= fun k =>
    if zs.length < k.1 + k.2 ∨ vals.length < k.1 + k.2 then .ub
    else
      .ok ⟨(zs.drop k.1).take k.2, (((vals.drop k.1).take k.2).map ex).map (· / norm (((vals.drop k.1).take k.2).map ex)), z,
        if 0 < maxP (((vals.drop k.1).take k.2).map ex) then
          maxP (((vals.drop k.1).take k.2).map ex) / norm (((vals.drop k.1).take k.2).map ex) else 1,
        width z r / 2⟩

/-- The values of a candidate after a fit (pdfcandidatesz.cpp:503-506); `nf` is `normFactor`. -/
def unscale (nf : K) (s : Sol K) : Fit K :=
  ⟨mul? s.x0 (some nf), mul? (mul? s.c s.e0) (some nf), s.x1.map abs, mul? s.c s.e1⟩

/-- `normFactor` of the samples of a range (pdfcandidatesz.cpp:446-451). -/
def factor (ex : K → K) (zs vals : List K) (z : K) (r : Range K) : Res K :=
  support zs z r >>= fun k => .ok (norm (((vals.drop k.1).take k.2).map ex))

/-- `getCandidateGaussFit` (pdfcandidatesz.cpp:388-510). -/
def single (ex : K → K) (solve : Problem K → Sol K) (zs vals : List K) (z : K) (r : Range K) : Res (Fit K) :=
  problem ex zs vals z r >>= fun p => factor ex zs vals z r >>= fun nf => .ok (unscale nf (solve p))

/-- The fit of a candidate in the PDF (pdfcandidatesz.cpp:222-228). -/
def candidate (ex : K → K) (rt2pi : K) (solve : Problem K → Sol K) (zs vals : List K) (z : K) (r : Range K) : Res (Out K × Option K) :=
  robust (single ex solve zs vals z) z r >>= fun o => .ok (o, proba rt2pi o)

end Loop

/-- The residual of one sample (pdfcandidatesz.cpp:345-350). -/
noncomputable def residual (a sigma t y : ℝ) : ℝ := a * Real.exp (-0.5 * (t / sigma) * (t / sigma)) - y

/-- The row of the Jacobian of one sample (pdfcandidatesz.cpp:371-377). -/
noncomputable def jacobian (a sigma t : ℝ) : ℝ × ℝ :=
  (Real.exp (-0.5 * (t / sigma) * (t / sigma)),
   t * t / (sigma * sigma * sigma) * a * Real.exp (-0.5 * (t / sigma) * (t / sigma)))

end PeakFit
end Amazed
