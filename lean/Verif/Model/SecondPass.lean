import Verif.Model.LmResult
import Verif.Model.Grid
import Verif.Model.Indexing
import Verif.Model.EltList

set_option linter.unusedVariables false
set_option linter.unusedSectionVars false

/-! # The two passes of the line model over the redshift grid

`src/lib/operator/linemodel.cpp` (first pass loop, windows of the second pass, parameters and recomputation of the second pass,
measurement of lines), with the setters of `src/lib/operator/linemodelresult.cpp`. The fit at one redshift
(`CLineModelFitting::fit`, see `Verif.Model.TplRatio`) is a parameter: a function of the state `σ` of the fitting manager. Numbers that
can be NaN are `Option K`. Log and timing are not modelled. -/

namespace Amazed
namespace SecondPass
open LmResult

variable {V S C : Type}

/-! ## Writing the results at one redshift -/

/-- What the ratio manager exposes after a fit (`GetChisquareTplratio` and the other getters), one value per catalog. -/
structure RatioOut (V : Type) where
  chi2 : List V
  scale : List V
  strong : List Bool
  ha : List Bool
  nLines : List Int
  priorLines : List V

/-- What the operator reads after a fit at one redshift: the merit returned, the scale marginalisation, the two solutions filled
by reference, the merit and the scale marginalisation of the continuum; `tplCol` the merits of the continuum store at this redshift
when they are copied; `ratio` the tables of the ratio manager for the type `tplRatio`. -/
structure FitOut (V S C : Type) where
  merit : V
  scale : V
  sol : S
  cont : C
  contMerit : V
  contScale : V
  tplCol : Option (List V)
  ratio : Option (RatioOut V)

/-- `t[k][iz] = v` (undefined without such an element). -/
def setCell {β : Type} (t : List (List β)) (k iz : Nat) (v : β) : Res (List (List β)) := do
  let row ← Res.at_ t k
  let _ ← Res.at_ row iz
  .ok (t.set k (row.set iz v))

/-- `v[iz] = x` (undefined without such an element). -/
def setElt {β : Type} (l : List β) (iz : Nat) (v : β) : Res (List β) := do
  let _ ← Res.at_ l iz
  .ok (l.set iz v)

/-- The loop of `SetChisquareTplContinuumResult` (linemodelresult.cpp:157-161); `col` holds the merits of the store at this redshift,
as many as `GetContinuumCount()`. -/
def setCol {β : Type} (iz : Nat) (col : List β) (t : List (List β)) : Res (List (List β)) :=
  Res.foldN (fun k t => Res.at_ col k >>= fun v => setCell t k iz v) 0 col.length t

/-- One iteration of the loop of `SetChisquareTplratioResult` (linemodelresult.cpp:197-209). -/
def setRatioRow {Z : Type} (iz : Nat) (q : RatioOut V) (k : Nat) (r : LmRes Z V S C) : Res (LmRes Z V S C) := do
  let a ← Res.at_ q.chi2 k >>= setCell r.ratChi2 k iz
  let b ← Res.at_ q.scale k >>= setCell r.ratScale k iz
  let c ← Res.at_ q.strong k >>= setCell r.ratStrong k iz
  let d ← Res.at_ q.ha k >>= setCell r.ratHa k iz
  let e ← Res.at_ q.nLines k >>= setCell r.ratN k iz
  let f ← Res.at_ q.priorLines k >>= setCell r.ratPriorLines k iz
  .ok { r with ratChi2 := a, ratScale := b, ratStrong := c, ratHa := d, ratN := e, ratPriorLines := f }

/-- `CLineModelResult::SetChisquareTplratioResult(index_z, manager)` (linemodelresult.cpp:173-211). The number of H-alpha flags is
not checked (:181-190). -/
def setRatio {Z : Type} (r : LmRes Z V S C) (iz : Nat) (q : RatioOut V) : Res (LmRes Z V S C) :=
  if q.chi2.length < 1 then .ok r
  else if iz ≥ r.redshifts.length then .throw .INTERNAL_ERROR
  else if q.chi2.length ≠ r.ratChi2.length ∨ q.chi2.length ≠ q.scale.length ∨ q.chi2.length ≠ q.strong.length ∨
      q.chi2.length ≠ q.nLines.length ∨ q.chi2.length ≠ q.priorLines.length then .throw .INTERNAL_ERROR
  else Res.foldN (setRatioRow iz q) 0 q.chi2.length r

/-- The copy of the merits of the continuum store, when it is done (linemodel.cpp:177-179). -/
def copyCol {β : Type} (iz : Nat) (t : List (List β)) : Option (List β) → Res (List (List β))
  | none => .ok t
  | some col => setCol iz col t

/-- The copy of the tables of the ratio manager, when it is done (linemodel.cpp:181-184). -/
def copyRatio {Z : Type} (iz : Nat) (r : LmRes Z V S C) : Option (RatioOut V) → Res (LmRes Z V S C)
  | none => .ok r
  | some q => setRatio r iz q

/-- The assignments after a fit at index `iz` (linemodel.cpp:170-193 in the first pass, 1507-1537 in the second). -/
def write {Z : Type} (r : LmRes Z V S C) (iz : Nat) (o : FitOut V S C) : Res (LmRes Z V S C) := do
  let a ← setElt r.chi2 iz o.merit
  let b ← setElt r.lmSol iz o.sol
  let c ← setElt r.contSol iz o.cont
  let d ← setElt r.scaleMarg iz o.scale
  let t ← copyCol iz r.tplCont o.tplCol
  let r2 ← copyRatio iz { r with chi2 := a, lmSol := b, contSol := c, scaleMarg := d, tplCont := t } o.ratio
  let e ← setElt r2.chi2Cont iz o.contMerit
  let f ← setElt r2.scaleMargCont iz o.contScale
  .ok { r2 with chi2Cont := e, scaleMargCont := f }

/-- `CLineModelFitting::fit` as seen by the operator: the state of the fitting manager, the redshift and the solutions passed by
reference give a new state and the results. -/
abbrev Fit (σ K V S C : Type) := σ → K → S → C → Res (σ × FitOut V S C)

/-- A fit at index `iz` and the assignments that follow (linemodel.cpp:170-193, 1507-1537). -/
def fitAt {σ K : Type} (fit : Fit σ K V S C) (iz : Nat) (st : σ × LmRes K V S C) : Res (σ × LmRes K V S C) := do
  let z ← Res.at_ st.2.redshifts iz
  let s ← Res.at_ st.2.lmSol iz
  let c ← Res.at_ st.2.contSol iz
  let o ← fit st.1 z s c
  let r ← write st.2 iz o.2
  .ok (o.1, r)

/-! ## The first pass -/

section
variable {K : Type} [Field K] [LinearOrder K] [IsStrictOrderedRing K]

/-- `x <= 0.0` for a number that can be NaN. -/
def le0 (x : Option K) : Bool := (x.map fun v => decide (v ≤ 0)).getD false

/-- `x > 0.0` for a number that can be NaN. -/
def gt0 (x : Option K) : Bool := (x.map fun v => decide (0 < v)).getD false

/-- The flag of one redshift (linemodel.cpp:199-210): no positive line amplitude and a continuum amplitude at most zero. `contAmp`
and `amps` read the solutions. -/
def zeroFlag (contAmp : C → Option K) (amps : S → List (Option K)) (s : S) (c : C) : Bool :=
  !(amps s).any gt0 && le0 (contAmp c)

/-- One iteration of the main loop of `ComputeFirstPass` (linemodel.cpp:168-211). -/
def firstStep {σ : Type} (fit : Fit σ K V S C) (contAmp : C → Option K) (amps : S → List (Option K)) (i : Nat)
    (st : (σ × LmRes K V S C) × List Bool) : Res ((σ × LmRes K V S C) × List Bool) := do
  let x ← fitAt fit i st.1
  let s ← Res.at_ x.2.lmSol i
  let c ← Res.at_ x.2.contSol i
  .ok (x, st.2 ++ [zeroFlag contAmp amps s c])

/-- `AllAmplitudesAreZero` (linemodel.cpp:234-241). -/
def allZero (l : List Bool) : Bool := l.all id

/-- The main loop of `ComputeFirstPass` and the check that follows (linemodel.cpp:160-217), from the state and the result left by
the initialisations. -/
def firstPass {σ : Type} (fit : Fit σ K V S C) (contAmp : C → Option K) (amps : S → List (Option K)) (st : σ)
    (r : LmRes K V S C) : Res (σ × LmRes K V S C) := do
  let x ← Res.foldN (firstStep fit contAmp amps) 0 r.redshifts.length ((st, r), [])
  if allZero x.2 then .throw .NULL_MODEL else .ok x.1

/-! ## The windows of the second pass -/

/-- `SpanRedshiftWindow` (linemodel.cpp:600-614), linear sampling: `half` is the half size of the window, `step` the fine step, `eps` the
constant `1e-8` of the grid functions. The intersection with an empty grid is undefined. -/
def windowLin [FloorRing K] (half step eps : K) (grid : List K) (z : K) : Res (List K) := do
  let f ← Res.at_ grid 0
  let b ← Res.at_ grid (grid.length - 1)
  let w : Range K := ⟨z - half, z + half⟩
  ((Range.intersect w ⟨f, b⟩ w).2).spanCenteredLin z step eps

/-- `SpanRedshiftWindow` (linemodel.cpp:600-614), logarithmic sampling. -/
noncomputable def windowLog (half step eps : ℝ) (grid : List ℝ) (z : ℝ) : Res (List ℝ) := do
  let f ← Res.at_ grid 0
  let b ← Res.at_ grid (grid.length - 1)
  let w : Range ℝ := ⟨z - (1 - Real.exp (-half)) * (1 + z), z + (Real.exp half - 1) * (1 + z)⟩
  ((Range.intersect w ⟨f, b⟩ w).2).spanCenteredLog z step eps

/-- The loop of `buildExtendedRedshifts` (linemodel.cpp:578-592): the windows are added to those already there. -/
def buildWindows {α : Type} (window : α → Res (List α)) (ext : List (List α)) : List α → Res (List (List α))
  | [] => .ok ext
  | z :: zs => do
    let w ← window z
    buildWindows window (ext ++ [w]) zs

/-! ## The recomputation around the candidates -/

/-- What the second pass keeps for a candidate: its redshift, its window, and the velocities of emission and absorption. -/
structure Cand (K : Type) where
  z : K
  win : List K
  elv : K
  alv : K
deriving DecidableEq

/-- The loop over the redshifts of one window (linemodel.cpp:1502-1538). -/
def recomputeWindow {σ : Type} (fit : Fit σ K V S C) : List K → σ × LmRes K V S C → Res (σ × LmRes K V S C) :=
  EltList.foldL fun z st => do
    let iz ← getIndex st.2.redshifts z
    fitAt fit iz st

/-- `RecomputeAroundCandidates` (linemodel.cpp:1400-1540), velocities not fitted by groups: `setVel e a` stands for
`SetVelocityEmission(e); SetVelocityAbsorption(a)` (:1453-1454) and `setCont i` for the choice of the continuum of candidate `i`
(:1462-1485). The index of the candidate itself is looked up (:1496) and not used; the first and the last redshift of the window
are read for the log (:1509-1512, undefined for an empty window). -/
def recomputeCand {σ : Type} (fit : Fit σ K V S C) (setVel : K → K → σ → σ) (setCont : Nat → σ → σ) (i : Nat) (c : Cand K)
    (st : σ × LmRes K V S C) : Res (σ × LmRes K V S C) := do
  let s1 := setCont i (setVel c.elv c.alv st.1)
  let _ ← getIndex st.2.redshifts c.z
  let _ ← Res.at_ c.win 0
  recomputeWindow fit c.win (s1, st.2)

/-- The loop over the candidates (linemodel.cpp:1413-1539). -/
def recompute {σ : Type} (fit : Fit σ K V S C) (setVel : K → K → σ → σ) (setCont : Nat → σ → σ) (cands : List (Cand K))
    (st : σ × LmRes K V S C) : Res (σ × LmRes K V S C) :=
  if cands.length < 1 then .throw .INTERNAL_ERROR
  else Res.foldN (fun i st => Res.at_ cands i >>= fun c => recomputeCand fit setVel setCont i c st) 0 cands.length st

/-! ## The fit of the velocities -/

/-- The list of velocities (linemodel.cpp:1308-1315): `vInfLim + i * vStep` for `i` below the truncated quotient. A step of zero makes
the quotient infinite or NaN (undefined conversion). -/
def velGrid [FloorRing K] (vInf vSup vStep : K) : Res (List K) :=
  if vStep = 0 then .ub
  else .ok ((List.range (truncZ ((vSup - vInf) / vStep)).toNat).map fun i : Nat => vInf + (i : K) * vStep)

/-- The search state: `meritMin` (none: `DBL_MAX`) and `vOptim`, `z_vOptim` (none: NaN). -/
structure VelBest (K : Type) where
  merit : Option K
  v : Option K
  z : Option K
deriving DecidableEq

/-- How the fitting manager is driven for one type of lines: `set` is `SetVelocityAbsorption` or `SetVelocityEmission`, `get` the
corresponding getter (none: NaN, when the model has no line of this type). -/
structure VelOps (σ K : Type) where
  set : K → σ → σ
  get : σ → Option K

/-- One test (linemodel.cpp:1328-1362): the velocity is set, the model fitted, and kept when its merit is lower. `fitV st z` is the
merit (none: NaN or at least `DBL_MAX`) and the new state. -/
def velTest {σ : Type} (ops : VelOps σ K) (fitV : σ → K → Res (σ × Option K)) (z v : K) (x : σ × VelBest K) :
    Res (σ × VelBest K) := do
  let o ← fitV (ops.set v x.1) z
  .ok (o.1, match o.2 with
    | none => x.2
    | some m => match x.2.merit with
      | none => ⟨some m, ops.get o.1, some z⟩
      | some b => if m < b then ⟨some m, ops.get o.1, some z⟩ else x.2)

/-- The loops over the redshifts and the velocities (linemodel.cpp:1325-1364), and the velocity set at the end (:1365-1395): when no
test has a merit the velocity is not set back (`continue`, :1365-1366). -/
def velSearch {σ : Type} (ops : VelOps σ K) (fitV : σ → K → Res (σ × Option K)) (zs vs : List K) (st : σ) :
    Res (σ × VelBest K) := do
  let x ← EltList.foldL (fun z => EltList.foldL (fun v => velTest ops fitV z v) vs) zs (st, ⟨none, none, none⟩)
  .ok (match x.2.v with
    | none => x
    | some v => (ops.set v x.1, x.2))

/-- The redshifts tested by `fitVelocity` (linemodel.cpp:1223-1235): at most six steps of the grid around the candidate, within its
window. -/
def velRange (redshifts win : List K) (zidx : Int) : Res (Int × Int) := do
  let f ← Res.at_ win 0
  let b ← Res.at_ win (win.length - 1)
  let ib ← getIndex redshifts f
  let ie ← getIndex redshifts b
  .ok (max (ib : Int) (zidx - 6), min (ie : Int) (zidx + 6))

/-- The redshifts from `lo` to `hi` included: the loop `for (idzTest = lowerzIdx; idzTest <= higherzIdx; ++idzTest)`
(linemodel.cpp:1326). -/
def velZs (redshifts : List K) (lo hi : Int) : Res (List K) :=
  Res.tab (fun i => Res.atZ redshifts (lo + (i : Int))) (hi - lo + 1).toNat

/-- `fitVelocity` (linemodel.cpp:1196-1411) for one group per type of line: absorption first, then emission (:1265-1406). The merit of
the best test is stored as the merit of the candidate (:1371), and its velocity with the candidate (:1383, 1397). Velocity grids
(min, max, step) are `ga` and `ge`. -/
def fitVelocity [FloorRing K] {σ : Type} (opsA opsE : VelOps σ K) (fitV : σ → K → Res (σ × Option K)) (ga ge : K × K × K)
    (redshifts : List K) (chi2 : List (Option K)) (zidx : Nat) (c : Cand K) (st : σ) :
    Res (σ × List (Option K) × Cand K) := do
  let rg ← velRange redshifts c.win zidx
  let zs ← velZs redshifts rg.1 rg.2
  let va ← velGrid ga.1 ga.2.1 ga.2.2
  let xa ← velSearch opsA fitV zs va st
  let ve ← velGrid ge.1 ge.2.1 ge.2.2
  let xe ← velSearch opsE fitV zs ve xa.1
  let chi2a ← (match xa.2.v with
    | none => .ok chi2
    | some _ => setElt chi2 zidx xa.2.merit : Res (List (Option K)))
  let chi2e ← (match xe.2.v with
    | none => .ok chi2a
    | some _ => setElt chi2a zidx xe.2.merit : Res (List (Option K)))
  .ok (xe.1, chi2e, { c with alv := xa.2.v.getD c.alv, elv := xe.2.v.getD c.elv })

/-! ## The measurement of lines -/

/-- One iteration of the loop of `computeForLineMeas` (linemodel.cpp:1782-1793); the best score, redshift and solution so far. -/
def measStep {σ : Type} (fitZ : σ → K → Res (σ × Option K × S)) (z : K) (x : σ × Option (K × K × S)) :
    Res (σ × Option (K × K × S)) :=
  fitZ x.1 z >>= fun o =>
  .ok (o.1, match o.2.1 with
    | none => x.2
    | some m => match x.2 with
      | none => some (m, z, o.2.2)
      | some b => if m < b.1 then some (m, z, o.2.2) else x.2)

/-- The checks and the loop of `computeForLineMeas` (linemodel.cpp:1744-1798): `fitZ st z` is the score (none: NaN or at least `DBL_MAX`)
and the solution; the result is the best redshift (none: NaN) and its solution (none: default). -/
def lineMeas {σ : Type} (velocityFit lbfgsb : Bool) (degree : Int) (fitZ : σ → K → Res (σ × Option K × S)) (grid : List K)
    (st : σ) : Res (Option K × Option S) := do
  if velocityFit && !lbfgsb then .throw .INVALID_PARAMETER
  else if degree < 0 ∨ degree > 2 then .throw .INVALID_PARAMETER
  else
    let x ← EltList.foldL (measStep fitZ) grid (st, none)
    .ok (x.2.map fun b => b.2.1, x.2.map fun b => b.2.2)

end
end SecondPass
end Amazed
