import Verif.Model.Grid
import Verif.Model.ZGrid
import Verif.Model.Loop

/-! # Regularisation of a PDF (`src/lib/operator/logZPdfResult.cpp`)

Values are `Option K`: `none` is NaN. The linear interpolation of GSL (`interpolation/interp.c`,
`linear.c`, `gsl_interp_bsearch` of GSL 2) is modelled; its errors reach the handler installed by
`CProcessFlowContext` (processflow/context.cpp:53-68), which throws `EXTERNAL_LIB_ERROR`. -/

namespace Amazed

section
variable {K : Type} [Field K] [LinearOrder K]

/-- `gsl_interp_bsearch(x_array, x, lo, hi)`: keeps `x_array[lo] ≤ x < x_array[hi]`. The accelerator of
GSL returns the same index on a sorted array. -/
def gslBsearch (xs : List K) (x : K) (lo hi : Nat) : Res Nat :=
  if _h : lo + 1 < hi then
    match Res.at_ xs ((hi + lo) / 2) with
    | .ok v => if v > x then gslBsearch xs x lo ((hi + lo) / 2) else gslBsearch xs x ((hi + lo) / 2) hi
    | .throw e => .throw e
    | .ub => .ub
  else .ok lo
termination_by hi - lo
decreasing_by all_goals omega

/-- Arithmetic on possibly NaN values: NaN propagates. -/
def lerp (x xlo xhi : K) (ylo yhi : Option K) : Option K :=
  match ylo, yhi with
  | some a, some b => some (a + (x - xlo) / (xhi - xlo) * (b - a))
  | _, _ => none

/-- `gsl_interp_eval` for `gsl_interp_linear`. -/
def gslLinearEval (xs : List K) (ys : List (Option K)) (x : K) : Res (Option K) :=
  gslBsearch xs x 0 (xs.length - 1) >>= fun i =>
  Res.at_ xs i >>= fun xlo => Res.at_ xs (i + 1) >>= fun xhi =>
  Res.at_ ys i >>= fun ylo => Res.at_ ys (i + 1) >>= fun yhi =>
  if xhi - xlo > 0 then .ok (lerp x xlo xhi ylo yhi) else .throw .EXTERNAL_LIB_ERROR

/-- Are the abscissae strictly increasing (check of `gsl_interp_init`)? -/
def strictlyIncreasing : List K → Bool
  | a :: b :: l => decide (a < b) && strictlyIncreasing (b :: l)
  | _ => true

/-- `CZGridParam` (common/zgridparam.i:40-54); `center` is `none` when NaN. -/
structure ZParam (K : Type) where
  zmin : K
  zmax : K
  zstep : K
  zcenter : Option K

/-- `CLogZPdfResult` (operator/logZPdfResult.i:40-72): the parallel vectors `zmin`, `zmax`, `zstep`,
`zcenter` are one list of parameters (they are always resized together). -/
structure LogPdf (K : Type) where
  zs : List K
  vals : List (Option K)
  params : List (ZParam K)

namespace LogPdf

/-- `check_sizes` (logZPdfResult.cpp:60-66). -/
def checkSizes (p : LogPdf K) : Res (LogPdf K) :=
  if p.vals.length ≠ p.zs.length then .throw .INTERNAL_ERROR else .ok p

/-- One iteration of the loop of `interpolateOnGrid` (logZPdfResult.cpp:119-127). -/
def interpAt (xs : List K) (ys : List (Option K)) (x : K) : Res (Option K) :=
  match xs[0]?, xs[xs.length - 1]? with
  | some f, some b => if x < f ∨ x > b then .ok none else gslLinearEval xs ys x
  | _, _ => .ub

/-- `for (j…) outputValues[j] = …` (logZPdfResult.cpp:119-127). -/
def interpLoop (xs : List K) (ys : List (Option K)) : List K → Res (List (Option K))
  | [] => .ok []
  | x :: t => interpAt xs ys x >>= fun y => interpLoop xs ys t >>= fun r => .ok (y :: r)

/-- `interpolateOnGrid` (logZPdfResult.cpp:99-136). `front()` on an empty grid is undefined;
`gsl_interp_alloc` needs two points, `gsl_interp_init` a strictly increasing grid. A grid longer than
the values would be read by GSL only over `vals.length` points. -/
def interpolateOnGrid (p : LogPdf K) (target : List K) : Res (LogPdf K) :=
  if p.zs = [] ∨ target = [] then .ub
  else if p.vals.length < 2 then .throw .EXTERNAL_LIB_ERROR
  else if p.zs.length ≠ p.vals.length then .ub
  else if strictlyIncreasing p.zs = false then .throw .EXTERNAL_LIB_ERROR
  else interpLoop p.zs p.vals target >>= fun out =>
    checkSizes { p with zs := target, vals := out }

/-- `isRegular` (logZPdfResult.i:47). -/
def isRegular (p : LogPdf K) : Bool := p.params.length == 1

/-- `zstep[1] != zstep[i]` for `i = 2 …` (logZPdfResult.cpp:145-149). -/
def sameSubSteps (s1 : K) (rest : List (ZParam K)) : Bool := rest.all (fun q => decide (q.zstep = s1))

/-- `convertToRegular` (logZPdfResult.cpp:138-163). `gridOf` is `CZGridParam::getZGrid`
(common/zgridparam.cpp:44-55). `stale s` is the outcome of reading `zstep[1]` *after* `zstep.resize(1)`
(logZPdfResult.cpp:159): by the standard it is undefined (`fun _ => .ub`); an implementation that leaves
the storage in place reads the old value `s` (`.ok`). With no parameter at all, `zstep[1]`, `zstep[0]`
are out of bounds (`fine`), resp. `resize(1)` creates a NaN grid (not modelled, `ub`). -/
def convertToRegular (gridOf : ZParam K → Res (List K)) (stale : K → Res K) (p : LogPdf K) (fine : Bool) :
    Res (LogPdf K) :=
  if p.isRegular then .ok p
  else
    match p.params with
    | p0 :: p1 :: rest =>
      if fine then
        if sameSubSteps p1.zstep rest = false then .throw .INTERNAL_ERROR
        else
          stale p1.zstep >>= fun s =>
          gridOf { p0 with zstep := s } >>= fun target =>
          interpolateOnGrid { p with params := [{ p0 with zstep := p1.zstep }] } target
      else
        gridOf p0 >>= fun target => interpolateOnGrid { p with params := [p0] } target
    | _ => .ub

/-- `v.resize(n, v.back())`. -/
def resizeBack (v : List (Option K)) (n : Nat) : Res (List (Option K)) :=
  match v[v.length - 1]? with
  | some b => .ok (v.take n ++ List.replicate (n - v.length) b)
  | none => .ub

/-- `extrapolate_on_right_border` (logZPdfResult.cpp:165-173) of a regular PDF (one grid parameter; the
list grid of one parameter is its grid, zgridparam.cpp:57-71). -/
def extrapolateRight (gridOf : ZParam K → Res (List K)) (p : LogPdf K) (zend : K) : Res (LogPdf K) :=
  match p.params with
  | [q] =>
    if zend ≤ q.zmax then .ok p
    else
      gridOf { q with zmax := zend } >>= fun zs =>
      resizeBack p.vals zs.length >>= fun vals =>
      checkSizes { zs := zs, vals := vals, params := [{ q with zmax := zend }] }
  | _ => .ub

end LogPdf
end
end Amazed
