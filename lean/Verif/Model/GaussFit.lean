import Verif.Basic
import Verif.Model.Loop
import Mathlib.Analysis.SpecialFunctions.Exp
import Mathlib.Data.List.Sort

/-!
# `CGaussianFit` (`/repo/RedshiftLibrary/src/lib/gaussianfit/gaussianfit.cpp`)

The first guess and the use of the result of the solver are over any ordered field, with the square root as a parameter; the functions given to the solver are
over the reals. GSL is a parameter: it may return any point, covariance matrix, norm of the residuals and status. The order of the polynomial is 2 in the code
(gaussianfit.cpp:58); it is a parameter here. NaN fluxes are not modelled.
-/

set_option linter.unusedSectionVars false

namespace Amazed
namespace GaussFit

/-! ## First guess -/

section Guess
variable {K : Type} [Field K] [LinearOrder K]

/-- `studyRange` applied to an axis: `n` samples from `b` (gaussianfit.cpp:95-103), a read outside of the axis is undefined. -/
def window (l : List K) (b n : Nat) : Res (List K) := Res.tab (fun i => Res.at_ l (b + i)) n

/-- `gsl_stats_median_from_sorted_data`. -/
def sortedMedian (v : List K) : Res K :=
  let lhs := (v.length - 1) / 2
  let rhs := v.length / 2
  Res.at_ v lhs >>= fun a => if lhs = rhs then .ok a else Res.at_ v rhs >>= fun b => .ok ((a + b) / 2)

/-- `gsl_stats_max_index` and `gsl_stats_max`, which keep the first of the largest values: the index and the value. `i` is the index of the head. -/
def maxFrom : List K → Nat → Nat × K → Nat × K
  | [], _, best => best
  | v :: vs, i, best => maxFrom vs (i + 1) (if best.2 < v then (i, v) else best)

/-- `gsl_stats_min_index` and `gsl_stats_min`. -/
def minFrom : List K → Nat → Nat × K → Nat × K
  | [], _, best => best
  | v :: vs, i, best => minFrom vs (i + 1) (if v < best.2 then (i, v) else best)

/-- The variable `std` (gaussianfit.cpp:136-140): it is not the standard deviation, the accumulator is subtracted from the fluxes. -/
def weirdStd : List K → K → K
  | [], s => s
  | v :: vs, s => weirdStd vs (s + (v - s) * (v - s))

/-- The number of samples far above the median (gaussianfit.cpp:142-145). -/
def countAbove (y : List K) (t : K) : Nat := y.countP fun v => decide (t < v)

/-- The first guess of the amplitude, the centre and the width (gaussianfit.cpp:92-153); the coefficients of the polynomial are null. -/
structure Guess (K : Type) where
  amp : K
  mu : K
  c : K
deriving DecidableEq

/-- `ComputeFirstGuess` (gaussianfit.cpp:92-153) on the `x` and `y` of the study range. -/
def firstGuess (x y : List K) : Res (Guess K) :=
  let n := y.length
  sortedMedian (y.insertionSort (· ≤ ·)) >>= fun med =>
  let v := y.map (· - med)
  Res.at_ v 0 >>= fun v0 =>
  let mx := maxFrom v 0 (0, v0)
  let mn := minFrom v 0 (0, v0)
  let pk := if mn.2 < mx.2 then mx else mn
  Res.at_ x pk.1 >>= fun mu =>
  let std := weirdStd y 0 / ((n : K) - 1)
  let count := countAbove y (med + 3 * std)
  if 2 < count then Res.at_ x count >>= fun a => Res.at_ x 0 >>= fun b => .ok ⟨pk.2, mu, (a - b) / 6⟩
  else Res.at_ x (n - 1) >>= fun a => Res.at_ x 1 >>= fun b => .ok ⟨pk.2, mu, (a - b) / 6⟩

/-- The parameters given to the solver: the guess and null coefficients (gaussianfit.cpp:121-122). -/
def guessVector (order : Nat) (g : Guess K) : List K := [g.amp, g.mu, g.c] ++ List.replicate (order + 1) 0

/-! ## Use of the solver -/

/-- What GSL returns: the point, the variance of each parameter, the norm of the residuals, and the status of the driver, which the code does not read. -/
structure Solved (K : Type) where
  x : Nat → K
  var : Nat → K
  chi : K
  status : Int

/-- `EStatus` (gaussianfit.h). -/
inductive Status | success | illegalInput | notConverged | failTolerance
deriving DecidableEq

/-- `getReturnCode` (gaussianfit.cpp:256-270): GSL_SUCCESS is 0, GSL_CONTINUE -2, GSL_ETOLX 28. -/
def returnCode (status : Int) : Status :=
  if status = 28 then .success else if status = -2 then .notConverged else if status ≠ 0 then .failTolerance else .success

/-- The members of the object after the fit: amplitude, centre, width, their errors and the constant of the polynomial. An error is `none` if it is not finite. -/
structure Fitted (K : Type) where
  amp : K
  ampErr : Option K
  mu : K
  muErr : Option K
  c : K
  cErr : Option K
  coeff0 : K
deriving DecidableEq

/-- `outputError[i]` (gaussianfit.cpp:222-231): not finite without a degree of freedom or with a negative variance. -/
def errorOf (sq : K → K) (dof : Nat) (chi var : K) : Option K :=
  if dof = 0 then none
  else if var < 0 then none
  else
    let r := chi / sq (dof : K)
    some ((if r < 1 then 1 else r) * sq var)

/-- The members set from the solution (gaussianfit.cpp:219-248). -/
def fitted (sq : K → K) (n np : Nat) (s : Solved K) : Fitted K :=
  let err := fun i => errorOf sq (n - np) s.chi (s.var i)
  ⟨s.x 0, err 0, s.x 1, err 1, |s.x 2| / sq 2, (err 2).map (· / sq 2), s.x 3⟩

/-- `Compute` (gaussianfit.cpp:158-254): the status and, unless the input is refused, the members. `solve` is GSL, called with the first guess. The status given
to `getReturnCode` is the variable of line 193, which is never assigned. -/
def compute (sq : K → K) (order : Nat) (solve : List K → List K → List K → Solved K) (xs ys : List K) (b e : Nat) :
    Res (Status × Option (Fitted K)) :=
  let n := e - b
  let np := 3 + order + 1
  if n < 1 ∨ n < np then .ok (.illegalInput, none)
  else
    window xs b n >>= fun x =>
    window ys b n >>= fun y =>
    firstGuess x y >>= fun g =>
    .ok (returnCode 0, some (fitted sq n np (solve x y (guessVector order g))))

end Guess

/-! ## The functions given to the solver -/

/-- The polynomial (gaussianfit.cpp:303-305). -/
noncomputable def polyTerm (par : Nat → ℝ) (d : ℝ) : Nat → ℝ
  | 0 => par 3 * d ^ 0
  | k + 1 => polyTerm par d k + par (3 + (k + 1)) * d ^ (k + 1)

/-- `GaussF` at one sample (gaussianfit.cpp:280-313): the errors are all 1. A null width is a division by zero. -/
noncomputable def gaussF (order : Nat) (par : Nat → ℝ) (x y : ℝ) : Res ℝ :=
  let mu := par 1
  let c := par 2
  if c = 0 then .ub
  else .ok ((par 0 * Real.exp (-1 * (x - mu) * (x - mu) / (c * c)) + polyTerm par (x - mu) order - y) / 1)

/-- `P_mu` (gaussianfit.cpp:354-357). -/
noncomputable def polyMu (par : Nat → ℝ) (d : ℝ) : Nat → ℝ
  | 0 => 0
  | k + 1 => polyMu par d k + (-1) * (((k + 1 : Nat) : ℝ) * d ^ k * par (3 + (k + 1)))

/-- `GaussDF` at one sample (gaussianfit.cpp:318-367): the row of the Jacobian matrix. -/
noncomputable def gaussDF (order : Nat) (par : Nat → ℝ) (x : ℝ) : Res (List ℝ) :=
  let mu := par 1
  let c := par 2
  if c = 0 then .ub
  else
    let aD := 2 * par 0 / (c * c)
    let e := Real.exp (-1 * (x - mu) * (x - mu) / (c * c)) / 1
    .ok ([e, aD * (x - mu) * e + polyMu par (x - mu) order / 1, aD * (x - mu) * (x - mu) * e / c] ++
      (List.range (order + 1)).map fun k => (x - mu) ^ k / 1)

end GaussFit
end Amazed
