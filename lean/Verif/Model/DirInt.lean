import Verif.Model.SpcModel
import Verif.Model.Range

set_option linter.unusedVariables false

/-! # Flux of lines by direct integration

`CLineModelElementList::getlambdaIndexesUnderLines` (elementlist.cpp), `CSpectrumModel::getFluxDirectIntegration` and
`getContinuumUnderLines` (spectrummodel.cpp), `CLineModelFitting::getFluxDirectIntegration` (linemodelfitting.cpp).

The observed position and the width of a line (`getObservedPositionAndLineWidth`) are a parameter, which may throw: the LSF refuses a position
out of its range. The spectral axis of the model is that of the input spectrum (constructor, spectrummodel.cpp:48-62). -/

namespace Amazed
namespace DirInt

variable {K : Type} [Field K] [LinearOrder K] [IsStrictOrderedRing K] {G : Type} [LinearOrder G]

/-- Position and width of line `k` of element `i`. -/
abbrev Geom (K : Type) := Nat → Nat → Res (K × K)

/-- The loop on the lines (elementlist.cpp:499-510); the window is the width times `nsig`. -/
def windows (nsig : K) (axis : List K) (lr : Range K) (geom : Geom K) (eIdx subIdx : List Nat) : Res (List (ℤ × ℤ)) :=
  Res.tab (fun i => Res.at_ eIdx i >>= fun e => Res.at_ subIdx i >>= fun k =>
    geom e k >>= fun g => EltSup.indexRange axis g.1 lr (g.2 * nsig)) eIdx.length

/-- `joinIntersections` on pairs. -/
def joinZ (rs : List (ℤ × ℤ)) : Res (List (ℤ × ℤ)) :=
  Range.joinIntersections (rs.map fun r => (⟨r.1, r.2⟩ : Range ℤ)) >>= fun l => .ok (l.map fun r => (r.b, r.e))

/-- `getlambdaIndexesUnderLines` (elementlist.cpp:493-518). -/
def underLines (nsig : K) (axis : List K) (lr : Range K) (geom : Geom K) (eIdx subIdx : List Nat) : Res (List (ℤ × ℤ)) :=
  windows nsig axis lr geom eIdx subIdx >>= fun rs =>
  if eIdx.length = 1 then .ok rs else joinZ rs

/-- `v[t] = f(v[t], t)` for the samples of a list; a negative index is undefined. -/
def setAll (f : Nat → K → Res K) (l : List ℤ) (v : List K) : Res (List K) :=
  EltList.foldL (fun z v => if z < 0 then .ub else
    Res.at_ v z.toNat >>= fun y => f z.toNat y >>= fun y' => .ok (v.set z.toNat y')) l v

/-- The continuum of the lines (spectrummodel.cpp:529-533): the absorption lines model of the given elements if asked for. -/
def baseCont (es : List (SpcModel.El K G)) (idx : List Nat) (sub : Bool) (s : SpcModel.St K) : Res (List K) :=
  if sub then SpcModel.getModel es idx .absorption s else .ok s.cont

/-- The polynomials of the given elements (spectrummodel.cpp:535-540); `[]` when the offsets are not used. -/
def offsetCont (undef : G) (es : List (SpcModel.El K G)) (idx : List Nat) (s : SpcModel.St K) : Res (List K) :=
  if s.offsets then EltList.addOffsets undef (es.map (·.base)) s.axis (List.replicate s.axis.length 0) idx .all else .ok []

/-- `getContinuumUnderLines` (spectrummodel.cpp:521-550). -/
def contUnder (undef : G) (es : List (SpcModel.El K G)) (idx : List Nat) (sub : Bool) (ranges : List (ℤ × ℤ)) (s : SpcModel.St K) : Res (List K) :=
  baseCont es idx sub s >>= fun base =>
  offsetCont undef es idx s >>= fun off =>
  setAll (fun t _ => Res.at_ base t >>= fun c => if s.offsets then Res.at_ off t >>= fun o => .ok (c + o) else .ok c)
    (ranges.flatMap EltList.zrange) (List.replicate s.cont.length 0)

/-- `CSpectrumModel::getFluxDirectIntegration` (spectrummodel.cpp:489-519): the flux and the sum of the squared errors; `err` are the errors of the
observed flux. A range that ends before its begin has no sample and no step. -/
def fluxDI (undef : G) (nsig : K) (es : List (SpcModel.El K G)) (geom : Geom K) (lr : Range K) (err : List K) (eIdx subIdx : List Nat) (sub : Bool)
    (s : SpcModel.St K) : Res (K × K) :=
  if eIdx.length ≠ subIdx.length then .throw .INTERNAL_ERROR
  else
    underLines nsig s.axis lr geom eIdx subIdx >>= fun ranges =>
    if ranges = [] then .throw .INTERNAL_ERROR
    else
      contUnder undef es eIdx sub ranges s >>= fun c =>
      setAll (fun t y => Res.at_ c t >>= fun v => .ok (y - v)) (ranges.flatMap EltList.zrange) s.spc >>= fun f =>
      Flux.integrateTrapez s.axis f err (ranges.map fun r => (r.1.toNat, (max r.1 r.2).toNat))

/-- One spectrum of the observation: elements, positions, wavelength range, errors and model. -/
structure Spc (K G : Type) where
  es : List (SpcModel.El K G)
  geom : Geom K
  lr : Range K
  err : List K
  st : SpcModel.St K

/-- The sums over the spectra (linemodelfitting.cpp:1227-1233). -/
def sums (undef : G) (nsig : K) (eIdx subIdx : List Nat) (sub : Bool) (spcs : List (Spc K G)) : Res (K × K) :=
  EltList.foldL (fun (o : Spc K G) q => fluxDI undef nsig o.es o.geom o.lr o.err eIdx subIdx sub o.st >>= fun r => .ok (q.1 + r.1, q.2 + r.2)) spcs (0, 0)

/-- `CLineModelFitting::getFluxDirectIntegration` (linemodelfitting.cpp:1223-1240): flux and SNR, `none` for (NaN, NaN); `sq` is the square root. -/
def fluxAll (sq : K → K) (undef : G) (nsig : K) (eIdx subIdx : List Nat) (sub : Bool) (spcs : List (Spc K G)) : Res (Option (K × K)) :=
  sums undef nsig eIdx subIdx sub spcs >>= fun q =>
  if q.2 ≤ 0 then .ok none else .ok (some (q.1, |q.1| / sq q.2))

/-- The reported uncertainty (linemodelfitting.cpp:916-917): the absolute flux divided by the SNR; `none` is NaN (NaN arguments, or 0/0). -/
def uncertainty (r : Option (K × K)) : Option K :=
  r.bind fun q => if q.1 = 0 then none else some (|q.1| / q.2)

end DirInt
end Amazed
