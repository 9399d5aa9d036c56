import Verif.Model.ZGrid
import Verif.Model.Loop

set_option linter.unusedVariables false
set_option linter.unusedSectionVars false

/-! # The results of the line model on the redshift grid and their refinement

`src/lib/operator/linemodelresult.cpp`, and from `src/lib/operator/linemodel.cpp` the insertion of the second pass grids.
`V` is the type of the floating point values (NaN and `DBL_MAX` are the constants of `Flt`), `S` and `C` the types of the line
and continuum solutions. -/

namespace Amazed
namespace LmResult

/-- The constants written by `Init` and `updateVectors` (linemodelresult.cpp:57-158): NaN, `DBL_MAX`, `0.`, and the default
constructed solutions. -/
structure Flt (V S C : Type) where
  nan : V
  dmax : V
  zero : V
  sol0 : S
  cont0 : C

/-- The vectors of `CLineModelResult` (linemodelresult.h): one value per redshift, or one row per template or ratio catalog and
one value per redshift in each row. -/
structure LmRes (Z V S C : Type) where
  redshifts : List Z
  chi2 : List V
  scaleMarg : List V
  lmSol : List S
  contSol : List C
  chi2Cont : List V
  scaleMargCont : List V
  tplCont : List (List V)
  ratChi2 : List (List V)
  ratScale : List (List V)
  ratStrong : List (List Bool)
  ratHa : List (List Bool)
  ratN : List (List Int)
  ratPrior : List V
  ratPriorLines : List (List V)
deriving DecidableEq

variable {Z V S C : Type}

/-- `CLineModelResult::Init` (linemodelresult.cpp:65-114) on an object `r`. The counts are not negative in the callers; the line
list is not modelled. When there is no ratio catalog `StrongHalphaELPresentTplratios` is not cleared (:106-113). -/
def init (k : Flt V S C) (r : LmRes Z V S C) (zs : List Z) (nTpl nRat : Nat) (priors : List V) : Res (LmRes Z V S C) :=
  if priors.length ≠ nRat then .throw .INTERNAL_ERROR
  else
    let n := zs.length
    let r := { r with
      redshifts := zs, chi2 := List.replicate n k.nan, scaleMarg := List.replicate n k.nan
      lmSol := List.replicate n k.sol0, contSol := List.replicate n k.cont0
      chi2Cont := List.replicate n k.nan, scaleMargCont := List.replicate n k.nan
      tplCont := List.replicate nTpl (List.replicate n k.dmax) }
    if 0 < nRat then .ok { r with
      ratChi2 := List.replicate nRat (List.replicate n k.dmax)
      ratScale := List.replicate nRat (List.replicate n k.zero)
      ratStrong := List.replicate nRat (List.replicate n false)
      ratHa := List.replicate nRat (List.replicate n false)
      ratN := List.replicate nRat (List.replicate n 0)
      ratPrior := priors
      ratPriorLines := List.replicate nRat (List.replicate n k.zero) }
    else .ok { r with ratChi2 := [], ratScale := [], ratStrong := [], ratN := [], ratPrior := [], ratPriorLines := [] }

/-- `insertWithDuplicates(table[i], idx, count, value, ndup)` on row `i` of a table (linemodelresult.cpp:131-142); undefined
when there is no such row. -/
def updRow {β : Type} (t : List (List β)) (i idx count : Nat) (v : β) (ndup : Nat) : Res (List (List β)) := do
  let row ← Res.at_ t i
  let row' ← insertValueWithDuplicates row idx count v ndup
  .ok (t.set i row')

/-- The loop over the rows of one table: `for (auto &x : t)` (linemodelresult.cpp:131-132). -/
def updTable {β : Type} (idx count : Nat) (v : β) (ndup : Nat) : List (List β) → Res (List (List β))
  | [] => .ok []
  | row :: t => do
    let row' ← insertValueWithDuplicates row idx count v ndup
    let t' ← updTable idx count v ndup t
    .ok (row' :: t')

/-- One iteration of the loop over the ratio catalogs (linemodelresult.cpp:134-147). -/
def updRatio (k : Flt V S C) (idx ndup count : Nat) (i : Nat) (r : LmRes Z V S C) : Res (LmRes Z V S C) := do
  let a ← updRow r.ratChi2 i idx count k.dmax ndup
  let b ← updRow r.ratScale i idx count k.zero ndup
  let c ← updRow r.ratStrong i idx count false ndup
  let d ← updRow r.ratHa i idx count false ndup
  let e ← updRow r.ratN i idx count (0 : Int) ndup
  let f ← updRow r.ratPriorLines i idx count k.zero ndup
  .ok { r with ratChi2 := a, ratScale := b, ratStrong := c, ratHa := d, ratN := e, ratPriorLines := f }

/-- `CLineModelResult::updateVectors(idx, ndup, count)` (linemodelresult.cpp:117-148). -/
def updateVectors (k : Flt V S C) (r : LmRes Z V S C) (idx ndup count : Nat) : Res (LmRes Z V S C) := do
  let a ← insertValueWithDuplicates r.chi2 idx count k.nan ndup
  let b ← insertValueWithDuplicates r.scaleMarg idx count k.nan ndup
  let c ← insertValueWithDuplicates r.lmSol idx count k.sol0 ndup
  let d ← insertValueWithDuplicates r.contSol idx count k.cont0 ndup
  let e ← insertValueWithDuplicates r.chi2Cont idx count k.nan ndup
  let f ← insertValueWithDuplicates r.scaleMargCont idx count k.nan ndup
  let g ← updTable idx count k.dmax ndup r.tplCont
  Res.foldN (updRatio k idx ndup count) 0 r.ratChi2.length
    { r with chi2 := a, scaleMarg := b, lmSol := c, contSol := d, chi2Cont := e, scaleMargCont := f, tplCont := g }

section
variable {K : Type} [AddCommGroup K] [LinearOrder K]

/-- What `insertSubgrid` (zgridparam.cpp:73-94) leaves in its argument `subgrid`, passed by reference: the points inserted,
with the end points moved to the border of the grid (:85-88). -/
def patched (eps : K) (sub zgrid : List K) : List K :=
  match sub[0]?, sub[sub.length - 1]?, zgrid[0]?, zgrid[zgrid.length - 1]? with
  | some sf, some sb, some zf, some zb =>
    let re : Range K := ⟨sf - eps, sb + eps⟩
    let rng := (Range.intersect re ⟨zf, zb⟩ re).2
    patchEnds (if rng.b = zf then some zf else none) (if rng.e = zb then some zb else none) sub
  | _, _, _, _ => sub

/-- The loop of `COperatorLineModel::updateRedshiftGridAndResults` (linemodel.cpp:1098-1109): `zgrid` is `m_Redshifts`, the list
the windows `ExtendedRedshifts`, one per candidate; the result holds the refined grid, the windows as left by the loop and the
result vectors. (The code runs over the candidates and reads `ExtendedRedshifts[i]`; here there is one window per candidate.) -/
def refineLoop (k : Flt V S C) (eps : K) : List (List K) → List K → LmRes K V S C → Res (List K × List (List K) × LmRes K V S C)
  | [], zgrid, r => .ok (zgrid, [], r)
  | s :: ss, zgrid, r => do
    let x ← insertSubgrid eps s zgrid
    let r' ← updateVectors k r x.2.1 x.2.2 (patched eps s zgrid).length
    let y ← refineLoop k eps ss x.1 r'
    .ok (y.1, patched eps s zgrid :: y.2.1, y.2.2)

/-- `COperatorLineModel::updateRedshiftGridAndResults` (linemodel.cpp:1096-1111). -/
def refine (k : Flt V S C) (eps : K) (wins : List (List K)) (zgrid : List K) (r : LmRes K V S C) :
    Res (List K × List (List K) × LmRes K V S C) := do
  let y ← refineLoop k eps wins zgrid r
  .ok (y.1, y.2.1, { y.2.2 with redshifts := y.1 })

end
end LmResult
end Amazed
