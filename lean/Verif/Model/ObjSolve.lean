import Verif.Model.Grid

/-!
# The redshift grid of the solvers

Models `/repo/RedshiftLibrary/src/lib/method/objectSolve.cpp` (45-94), `linemeassolve.cpp` (47-68), `linemodelsolve.cpp` (609-637) and
`src/lib/common/zgridparam.cpp` (44-54, without centre). Parameters are already read; arithmetic is the one of the reals.
-/

namespace Amazed
namespace ObjSolve

/-- The epsilon of `SpreadOverEpsilon` (range.h:162, 227, 247). -/
noncomputable def eps : ℝ := 1 / 100000000

open Classical in
/-- `CZGridParam(range, step).getZGrid(log)` (zgridparam.cpp:44-54), without centre. -/
noncomputable def zgrid (r : Range ℝ) (step : ℝ) (log : Bool) : Res (List ℝ) :=
  if log then r.spreadOverLogEps step 1 false eps else r.spreadOverEps step false eps

/-- The inputs: the sampling, the range of redshifts of the log rebinning of the category if there is one, with the step of the log grid, and the parameters. -/
structure Inputs where
  sampling : String
  logRebin : Option (Range ℝ)
  logStep : ℝ
  range : Range ℝ
  step : ℝ

/-- `CObjectSolve::GetRedshiftSampling` (objectSolve.cpp:72-94). -/
noncomputable def sampling (i : Inputs) : Res (Range ℝ × ℝ) :=
  match i.logRebin with
  | some r => if i.sampling = "lin" then .throw .BAD_PARAMETER_VALUE else .ok (r, i.logStep)
  | none => .ok (i.range, i.step)

/-- `CObjectSolve::InitRanges` (objectSolve.cpp:45-70): the grid and the step. -/
noncomputable def initRanges (i : Inputs) : Res (List ℝ × ℝ) :=
  sampling i >>= fun rs => zgrid rs.1 rs.2 (i.sampling == "log") >>= fun g => .ok (g, rs.2)

/-- `CLineModelSolve::createRedshiftGrid` (linemodelsolve.cpp:609-637), `MIN_GRID_COUNT` is 10: the grid, the fine step and the coarse step. -/
noncomputable def lineModelRanges (i : Inputs) (ratio : Int) : Res (List ℝ × ℝ × ℝ) :=
  sampling i >>= fun rs =>
  zgrid rs.1 (rs.2 * ratio) (i.sampling == "log") >>= fun g =>
  if g.length < 10 then zgrid rs.1 rs.2 (i.sampling == "log") >>= fun g' => .ok (g', rs.2, rs.2)
  else .ok (g, rs.2, rs.2 * ratio)

open Classical in
/-- `CLineMeasSolve::GetRedshiftSampling` (linemeassolve.cpp:47-68): a null step is a division by zero. -/
noncomputable def lineMeasSampling (samp : String) (center half step : ℝ) : Res (Range ℝ) :=
  if step = 0 then .ub
  else
    let h : ℝ := (⌈half / step⌉ : ℝ) * step
    if samp = "log" then .ok ⟨center - (1 - Real.exp (-h)) * (1 + center), center + (Real.exp h - 1) * (1 + center)⟩
    else .ok ⟨center - h, center + h⟩

/-- The grid of the line measurement: `InitRanges` (objectSolve.cpp:45-70) with the sampling of `CLineMeasSolve`. -/
noncomputable def lineMeasRanges (samp : String) (center half step : ℝ) : Res (List ℝ) :=
  lineMeasSampling samp center half step >>= fun r => zgrid r step (samp == "log")

end ObjSolve
end Amazed
