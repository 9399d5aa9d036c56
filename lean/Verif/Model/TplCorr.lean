import Verif.Basic
import Verif.Model.Loop
import Verif.Model.Amp
import Verif.Model.TplRatio

set_option linter.unusedVariables false

/-! # The `tplCorr` line ratio

`CTplCorrManager::computeMerit` (src/lib/linemodel/tplcorrmanager.cpp:55-102) with the end of `CLineCatalogsTplRatio::GetBestFit`
(src/lib/line/catalogsTplRatio.cpp:198-211). Unlike `TplRatio.getBestFit`, which only gives the catalog and the chi2, the vector of corrected amplitudes
is followed here from the call to its use. The two refreshes of the model and the merit returned are not modelled (`Amp`, `Merit`). -/

namespace Amazed
namespace TplCorr

variable {K : Type} [Field K] [LinearOrder K] [IsStrictOrderedRing K]

/-- One line of `m_RestLineList` as the first loop sees it (tplcorrmanager.cpp:64-87): the indices `findElementIndex` gives (`none`: `undefIdx`), the flag
`IsOutsideLambdaRangeLine`, the fitted amplitude and its error. -/
structure Seen (K : Type) where
  elt : Option (Nat × Nat)
  outside : Bool
  amp : K
  std : K

/-- A line kept by the first loop: `eIdxList`, `Amplitudes`, `AmplitudesUncertainties` (tplcorrmanager.cpp:81-86). -/
structure Kept (K : Type) where
  elt : Nat
  line : Nat
  amp : K
  std : K

/-- The two `continue` of the first loop (tplcorrmanager.cpp:74-80). -/
def keep (s : Seen K) : Option (Kept K) :=
  match s.elt with
  | none => none
  | some p => if s.outside then none else some ⟨p.1, p.2, s.amp, s.std⟩

/-- `amplitudesCorrected[idx] = bestFitAmplitudes[idx]` (catalogsTplRatio.cpp:207-208): outside the vector, undefined. -/
def write (v : List K) (i : Nat) (x : K) : Res (List K) := if i < v.length then .ok (v.set i x) else .ub

/-- The loop filling the corrected amplitudes (catalogsTplRatio.cpp:206-209). -/
def fill (mask : List Bool) (best : List K) (n : Nat) (v : List K) : Res (List K) :=
  Res.foldN (fun i v => Res.at_ mask i >>= fun m => if m then Res.at_ best i >>= fun x => write v i x else .ok v) 0 n v

/-- `GetBestFit` from the end of the search (catalogsTplRatio.cpp:201-211): `corrected` is the vector received, `b` the best catalog. -/
def corrected (kept : List (Kept K)) (b : Option (Nat × K × List K)) (v : List K) : Res (List K) :=
  let v := ([] : List K)
  match b with
  | none => .ok v
  | some b => fill (kept.map fun k => TplRatio.maskAt k.amp k.std) b.2.2 kept.length v

/-- One turn of the second loop (tplcorrmanager.cpp:93-99). -/
def apply (cor : List K) (k : Kept K) (i : Nat) (es : List (Amp.Elt K)) : Res (List (Amp.Elt K)) :=
  Res.at_ es k.elt >>= fun e =>
  Res.at_ e.nominal k.line >>= fun nom =>
  Res.at_ cor i >>= fun c =>
  Amp.vDiv (some c) (some nom) >>= fun a =>
  Amp.setAmplitude e a (some k.std) >>= fun e' => .ok (es.set k.elt e')

/-- `computeMerit` (tplcorrmanager.cpp:55-100) on the elements; `tpls` are the nominal amplitudes of the lines kept in each catalog. With no line kept the
search finds nothing (`getFitForOneCatalog` returns NaN, catalogsTplRatio.cpp:218-219). -/
def computeMerit (ls : List (Seen K)) (tpls : List (List K)) (es : List (Amp.Elt K)) : Res (List (Amp.Elt K)) :=
  let kept := ls.filterMap keep
  (if kept = [] then .ok none else TplRatio.bestFrom (kept.map (·.amp)) (kept.map (·.std)) 0 tpls none) >>= fun b =>
  corrected kept b [] >>= fun cor =>
  Res.foldN (fun i es => Res.at_ kept i >>= fun k => apply cor k i es) 0 kept.length es

end TplCorr
end Amazed
