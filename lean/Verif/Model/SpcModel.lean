import Verif.Model.EltList
import Verif.Model.FluxAxis

set_option linter.unusedVariables false

/-! # The flux model of one spectrum

`RedshiftLibrary/src/lib/linemodel/spectrummodel.cpp` and `RedshiftLibrary/linemodel/spectrummodel.h`: construction of the
model (continuum, amplitude offsets, lines), partial refresh, model of a list of elements, spectrum with the lines removed,
residuals under elements, continuum under a line.

Flux axes are lists; the spectral axis, the observed flux and the continuum have one value per sample of the input spectrum
(constructor, spectrummodel.cpp:57-62). Errors are lists of positive numbers. Rounding is not modelled. -/

namespace Amazed
namespace SpcModel

variable {K : Type} [Field K] [LinearOrder K] [IsStrictOrderedRing K] {G : Type} [LinearOrder G]

/-- An element of the list: what the supports and the offsets use (`EltList.E`), the sign of its lines (`m_SignFactors`), the
amplitude and the profile of each line, and `GetElementAmplitude()` (`none`: NaN). -/
structure El (K G : Type) where
  base : EltList.E K G
  emission : Bool
  fl : Nat → EltSup.LineFlux K
  amp : Option K

/-- The members of `CSpectrumModel` used here: spectral axis, `m_SpcFluxAxis`, `m_spcFluxAxisNoContinuum`,
`m_ContinuumFluxAxis` and the flux of `m_SpectrumModel`; `offsets` is `m_enableAmplitudeOffsets`. -/
structure St (K : Type) where
  axis : List K
  spc : List K
  noCont : List K
  cont : List K
  model : List K
  offsets : Bool

/-- The samples of two flux axes subtracted (spectrummodel.cpp:80-83). -/
def sub (a b : List K) : List K := List.zipWith (· - ·) a b

/-- `initModelWithContinuum` (spectrummodel.cpp:78-84). -/
def initWithContinuum (s : St K) : St K := { s with model := s.cont, noCont := sub s.spc s.cont }

/-- `reinitModel` (spectrummodel.h:26). -/
def reinit (s : St K) : St K := { s with model := s.cont }

/-- `reinitModelUnderElements` (spectrummodel.cpp:90-98). -/
def reinitUnder (es : List (El K G)) (idx : List Nat) (line : Option Nat) (s : St K) : Res (St K) :=
  EltList.foldL (fun i flux => Res.at_ es i >>= fun e => EltSup.initModel e.base.sup line s.cont flux) idx s.model >>= fun m =>
  .ok { s with model := m }

/-- The lines of element `e` added to a flux axis. -/
def addElt (s : St K) (line : Option Nat) (e : El K G) (flux : List K) : Res (List K) :=
  EltSup.addToModel e.base.sup e.emission e.fl line s.axis s.cont flux

/-- `refreshModel` (spectrummodel.cpp:100-125). -/
def refresh (undef : G) (es : List (El K G)) (filter : Amp.LType) (s : St K) : Res (St K) :=
  (if s.offsets then EltList.addOffsets undef (es.map (·.base)) s.axis s.cont [] .all else .ok s.cont) >>= fun m0 =>
  EltList.foldL (fun (e : El K G) flux => if EltList.typeKept filter e.base.type then addElt s none e flux else .ok flux) es m0 >>= fun m =>
  .ok { s with model := m }

/-- `refreshModelUnderElements` (spectrummodel.cpp:131-142). -/
def refreshUnder (es : List (El K G)) (idx : List Nat) (line : Option Nat) (s : St K) : Res (St K) :=
  reinitUnder es idx line s >>= fun s1 =>
  EltList.foldL (fun i flux => Res.at_ es i >>= fun e => addElt s line e flux) idx s1.model >>= fun m =>
  .ok { s1 with model := m }

/-- `getModel` (spectrummodel.cpp:645-663). -/
def getModel (es : List (El K G)) (idx : List Nat) (filter : Amp.LType) (s : St K) : Res (List K) :=
  EltList.foldL (fun i flux => Res.at_ es i >>= fun e =>
    EltSup.initModel e.base.sup none s.cont flux >>= fun f1 =>
    if EltList.typeKept filter e.base.type then addElt s none e f1 else .ok f1) idx (List.replicate s.axis.length 0)

/-- `getTheoreticalSupport` (element.cpp:415-428). -/
def theoSupport (e : EltSup.Elt) : List (ℤ × ℤ) :=
  if e.outside then []
  else ((List.range e.n).filter fun i => !(e.theo i).out).map fun i => ((e.theo i).s, (e.theo i).e)

/-- The weight of a sample in one range (spectrummodel.cpp:264-277). -/
def rangeWeight (axis : List K) (p : Nat) (r : ℤ × ℤ) : Res K :=
  if (p : ℤ) > r.1 ∧ (p : ℤ) < r.2 then
    Res.atZ axis r.1 >>= fun lo => Res.atZ axis r.2 >>= fun hi => Res.at_ axis p >>= fun x =>
    if hi - lo > 0 then .ok (1 - |(x - lo) - (hi - x)| / (hi - lo)) else .ok 0
  else .ok 0

/-- `GetWeightingAnyLineCenterProximity` (spectrummodel.cpp:254-285). -/
def weight (es : List (El K G)) (axis : List K) (idx : List Nat) (p : Nat) : Res K :=
  EltList.foldL (fun i w => Res.at_ es i >>= fun e =>
    EltList.foldL (fun r w => rangeWeight axis p r >>= fun v => .ok (if w < v then v else w)) (theoSupport e.base.sup) w) idx 0

/-- `getValidElementIndices` (elementlist.cpp:260-275) with no disabled element. -/
def validIdx (es : List (El K G)) (filter : Amp.LType) : List Nat :=
  (EltList.validIndexes (es.map (·.base)) []).filter fun i => match es[i]? with
    | none => false
    | some e => EltList.typeKept filter e.base.type && (match e.amp with
      | none => false
      | some a => decide (0 < a))

/-- The other type of lines (spectrummodel.cpp:211-214): the model used under the lines is refreshed with it; nothing is
refreshed for all the types. -/
def other : Amp.LType → Option Amp.LType
  | .emission => some .absorption
  | .absorption => some .emission
  | .all => none

/-- The refresh with the other type of lines (spectrummodel.cpp:211-216). -/
def refreshOther (undef : G) (es : List (El K G)) (filter : Amp.LType) (s : St K) : Res (St K) :=
  match other filter with
  | some t => refresh undef es t s
  | none => .ok s

/-- `GetObservedSpectrumWithLinesRemoved` (spectrummodel.cpp:205-252): the flux returned and the state left. `alphaMax` is
0.9. -/
def linesRemoved (undef : G) (es : List (El K G)) (filter : Amp.LType) (s : St K) : Res (List K × St K) :=
  refreshOther undef es filter s >>= fun s1 =>
  refresh undef es filter s1 >>= fun s2 =>
  Res.tab (fun t => Res.at_ s2.spc t >>= fun y => Res.at_ s2.model t >>= fun m => Res.at_ s2.cont t >>= fun c => .ok (y - m + c)) s.axis.length >>= fun y0 =>
  EltList.supportIndexes (es.map (·.base)) (validIdx es filter) >>= fun xs =>
  EltList.foldL (fun z y => if z < 0 then .ub else
    weight es s.axis (validIdx es filter) z.toNat >>= fun w =>
    Res.at_ y z.toNat >>= fun v => Res.at_ s1.model z.toNat >>= fun f =>
    .ok (y.set z.toNat ((1 - 9 / 10 * w) * v + 9 / 10 * w * f))) xs y0 >>= fun y =>
  .ok (y, s2)

/-- `getContinuumSquaredResidualInRange` (spectrummodel.cpp:360-377): sum of squares and number of samples; `r` is a range of
sample indexes. The state is the one left by the removal of the lines. -/
def contResidual (undef : G) (es : List (El K G)) (s : St K) (r : ℤ × ℤ) : Res ((K × Nat) × St K) :=
  linesRemoved undef es .all s >>= fun ys =>
  EltList.foldL (fun z st => Res.atZ ys.1 z >>= fun y => Res.atZ s.cont z >>= fun c => .ok (st.1 + (y - c) * (y - c), st.2 + 1))
    (EltList.zrange r) ((0 : K), (0 : Nat)) >>= fun q => .ok (q, ys.2)

/-- `getModelSquaredResidualUnderElements` (spectrummodel.cpp:386-420): `none` for the empty list of elements (NaN, NaN). A zero
error divides by zero: undefined here. -/
def sqResidual (es : List (El K G)) (idx : List Nat) (withCont withWeight : Bool) (err : List K) (s : St K) : Res (Option (K × K)) :=
  if idx = [] then .ok none
  else
    EltList.supportIndexes (es.map (·.base)) idx >>= fun xs =>
    EltList.foldL (fun z st =>
      Res.atZ (if withCont then s.spc else s.noCont) z >>= fun y => Res.atZ s.model z >>= fun m =>
      (if withWeight then Res.atZ err z >>= fun e => if e = 0 then .ub else .ok (1 / (e * e)) else .ok 1) >>= fun w =>
      .ok (st.1 + (y - m) * (y - m) * w, st.2 + w)) xs ((0 : K), (0 : K)) >>= fun q => .ok (some q)

/-- The loop on the spectra of `getModelResidualRmsUnderElements` (spectrummodel.h:153-170): sums of residuals and weights and number of
NaN. -/
def rmsSums : List (Option (K × K)) → (K × K) × Nat
  | [] => ((0, 0), 0)
  | none :: l => ((rmsSums l).1, (rmsSums l).2 + 1)
  | some q :: l => if q.1 = 0 then rmsSums l else ((q.1 + (rmsSums l).1.1, q.2 + (rmsSums l).1.2), (rmsSums l).2)

/-- `getModelResidualRmsUnderElements` (spectrummodel.h:150-172) from the residuals of the spectra: `none` is NaN; `sq` is `sqrt`. -/
def rms (sq : K → K) (rs : List (Option (K × K))) : Option K :=
  if (rmsSums rs).2 = rs.length then none
  else if (rmsSums rs).1.2 ≠ 0 then some (sq ((rmsSums rs).1.1 / (rmsSums rs).1.2)) else none

/-- The terms of one sample of `setContinuumFromTplFit` (spectrummodel.cpp:459-484): `g` is `m_observeGridContinuumFlux[k]`, `c0` the continuum of
the input spectrum at that sample, `x` its wavelength. -/
def tplContinuum (alpha amp : K) (poly : List K) (g c0 x : K) : K :=
  let a := if alpha = 1 then 0 else (1 - alpha) * g * amp
  let b := if alpha ≠ 0 then a + alpha * c0 else a
  if alpha ≠ 1 then (poly.foldl (fun (st : K × K) q => (st.1 + (1 - alpha) * q * st.2, st.2 * x)) (b, 1)).1 else b

/-- `setContinuumFromTplFit` (spectrummodel.cpp:459-484): the continuum and the flux without it. -/
def setFromTplFit (alpha amp : K) (poly grid inputCont : List K) (s : St K) : Res (St K) :=
  Res.tab (fun k => (if alpha = 1 then .ok 0 else Res.at_ grid k) >>= fun g =>
    (if alpha ≠ 0 then Res.at_ inputCont k else .ok 0) >>= fun c0 => Res.at_ s.axis k >>= fun x =>
    Res.at_ s.spc k >>= fun y => Res.at_ s.noCont k >>= fun _ =>
    .ok (tplContinuum alpha amp poly g c0 x, y - tplContinuum alpha amp poly g c0 x)) s.cont.length >>= fun l =>
  .ok { s with cont := l.map (·.1), noCont := l.map (·.2) ++ s.noCont.drop s.cont.length }

/-- `setContinuumComponent` (spectrummodel.cpp:428-457): the cases. -/
inductive Component | noContinuum | fromSpectrum | tplFit
deriving DecidableEq

/-- What the weights of the residuals depend on: the errors of `m_ContinuumFluxAxis` and of the flux axis of `m_SpectrumModel`. -/
structure Errs (K : Type) where
  cont : List K
  model : List K

/-- The construction (spectrummodel.cpp:48-62): the errors of a resized axis are 1 (`CSpectrumNoiseAxis::SetSize`); the model is a copy of the input spectrum,
whose errors are `input`. -/
def Errs.init (input : List K) : Errs K := ⟨List.replicate input.length 1, input⟩

/-- `setContinuumComponent` (spectrummodel.cpp:428-457) for the errors: `contErr` are the errors of the continuum of the input spectrum. -/
def Errs.setComponent (contErr : List K) (n : Nat) : Component → Errs K → Errs K
  | .noContinuum, _ => ⟨List.replicate n 1, List.replicate n 1⟩
  | .fromSpectrum, _ => ⟨contErr, contErr⟩
  | .tplFit, _ => ⟨List.replicate n 1, List.replicate n 1⟩

/-- The operations on the model that are used between two residuals: initialisation with the continuum (spectrummodel.cpp:78-84, `SetFluxAxis(m_ContinuumFluxAxis)`),
`reinitModel` (spectrummodel.h:26), `refreshModel` (100-125), `refreshModelUnderElements` (131-142), `setContinuumFromTplFit` (459-484). The first three copy the
errors of the continuum, the last two keep the errors. -/
inductive ErrOp | initWithContinuum | reinit | refresh | refreshUnder | setFromTplFit

def Errs.op : ErrOp → Errs K → Errs K
  | .initWithContinuum, e => { e with model := e.cont }
  | .reinit, e => { e with model := e.cont }
  | .refresh, e => { e with model := e.cont }
  | .refreshUnder, e => e
  | .setFromTplFit, e => e

end SpcModel
end Amazed
