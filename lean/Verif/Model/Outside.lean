import Verif.Model.EltList
import Verif.Model.Merit

set_option linter.unusedVariables false

/-! # Samples outside of the lines

`RedshiftLibrary/src/lib/linemodel/outsideLineMaskBuilder.cpp`, `linemodelfitting.cpp` (getOutsideLinesMask, getOutsideLinesSTD) and the end of
`TLineModelResult::updateFromModel` (linemodelextremaresult.cpp). -/

namespace Amazed
namespace Outside

variable {K G : Type} [Field K] [LinearOrder K] [IsStrictOrderedRing K] [LinearOrder G]

/-- The mask: 1, and 0 on the supports of the valid elements (linemodelfitting.cpp:466-477, outsideLineMaskBuilder.cpp:60-70). `operator[]` out of the mask is undefined. -/
def maskOf (n : Nat) (es : List (EltList.E K G)) (disabled : List Nat) : Res (List Nat) :=
  EltList.supportIndexes es (EltList.validIndexes es disabled) >>= fun xs =>
  EltList.foldL (fun z m => if z < 0 then .ub else Res.at_ m z.toNat >>= fun _ => .ok (m.set z.toNat 0)) xs (List.replicate n 1)

/-- The supports of the elements (outsideLineMaskBuilder.cpp:52-56): `geoms` are the positions and windows of the lines of each element at the redshift, after
`resetAsymfitParams`. -/
def prepare (axis : List K) (lr : Range K) (geoms : List (List (EltSup.LineGeom K))) (es : List (EltList.E K G)) : Res (List (EltList.E K G)) :=
  Res.tab (fun i => Res.at_ es i >>= fun e => Res.at_ geoms i >>= fun g => EltSup.prepareSupport axis lr g >>= fun s => .ok { e with sup := s }) es.length

/-- `COutsideLineMaskBuilder::getMask` (outsideLineMaskBuilder.cpp:49-71): the mask and the elements left. -/
def getMask (axis : List K) (lr : Range K) (geoms : List (List (EltSup.LineGeom K))) (es : List (EltList.E K G)) (disabled : List Nat) : Res (List Nat × List (EltList.E K G)) :=
  prepare axis lr geoms es >>= fun es' => maskOf axis.length es' disabled >>= fun m => .ok (m, es')

/-- The loop of `getOutsideLinesSTD` (linemodelfitting.cpp:496-511) with the mask: sum of squares and number. -/
def sums (o : Merit.Obs K) (v : List K) (m : List Nat) : Res (K × Nat) :=
  SAxis.indexAt o.axis o.range.b >>= fun imin => SAxis.indexAt o.axis o.range.e >>= fun imax =>
  Res.foldN (fun j s => Res.at_ m j >>= fun b => if b = 0 then .ok s else Res.at_ v j >>= fun x => .ok (s.1 + x * x, s.2 + 1)) imin (imax - imin) ((0 : K), 0)

/-- `getOutsideLinesSTD` (linemodelfitting.cpp:485-517): `none` is NaN, `sq` is `sqrt`. -/
def std (sq : K → K) (o : Merit.Obs K) (m : List Nat) (which : ℤ) : Res (Option K) :=
  if which ≠ 1 ∧ which ≠ 2 then .throw .INTERNAL_ERROR
  else sums o (if which = 1 then o.noCont else o.err) m >>= fun s =>
    .ok (if s.2 = 0 then none else some (sq (s.1 / s.2)))

/-- What the candidate stores: the mask and both deviations, and whether the warning `ESTIMATED_STD_FAR_FROM_INPUT` is raised. -/
structure Out (K : Type) where
  mask : List Nat
  residual : Option K
  input : Option K
  warn : Bool

/-- The ratio test (linemodelextremaresult.cpp:153-158); a NaN ratio fails both comparisons. -/
def farFrom (residual : Option K) (input : K) : Bool := match residual with
  | none => false
  | some r => decide (3 / 2 < |r / input|) || decide (|r / input| < 1 / (3 / 2))

/-- The end of `updateFromModel` (linemodelextremaresult.cpp:147-176). -/
def update (sq : K → K) (o : Merit.Obs K) (es : List (EltList.E K G)) (disabled : List Nat) : Res (Out K) :=
  maskOf o.axis.length es disabled >>= fun m =>
  std sq o m 1 >>= fun r => std sq o m 2 >>= fun i =>
  match i with
  | none => .throw .STDESTIMATION_FAILED
  | some v => if 0 < v then .ok ⟨m, r, i, farFrom r v⟩ else .throw .STDESTIMATION_FAILED

end Outside
end Amazed
