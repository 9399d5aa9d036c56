import Verif.Model.Pdfz
import Verif.Model.Candidates
import Verif.Model.Extremum
import Verif.Model.LineCat

set_option linter.unusedVariables false

/-! # `COperatorPdfz::Compute`: from the merits to the ranked candidates (`src/lib/operator/pdfz.cpp`:53-261)

The combination of the PDF is in `Verif.Model.Pdfz`, the search of the peaks in `Verif.Model.Extremum`, the integration and the ranking in
`Verif.Model.Candidates`. The object is taken fresh: `m_candidatesZRanges` is empty before the call. The warning of `checkWindowSize` is not
modelled. -/

namespace Amazed
namespace PdfOp
open LineCat (mapPut mapFind)

/-- The arguments of the constructor (pdfz.cpp:53-66), without the sampling, which is used for the grid only. -/
structure Cfg where
  opt : String
  peakSep : ℝ
  cut : ℝ
  maxCand : Int
  border : Bool
  maxPeak : Int
  pre : String

/-- `m_maxPeakCount_per_window` (pdfz.cpp:62-64). -/
def Cfg.perWindow (c : Cfg) : Int := if c.maxPeak ≤ 0 then c.maxCand else c.maxPeak

/-- The `CExtremum` made for a window (pdfz.cpp:219-222). -/
def Cfg.ext (c : Cfg) (r : Range ℝ) : Extremum.Cfg ℝ := ⟨c.perWindow, c.peakSep, c.cut, false, c.border, r⟩

/-- A candidate of the map built by `searchMaxPDFcandidates`: redshift, peak value, parent identifier (pdfz.cpp:244-250). -/
structure Found where
  z : ℝ
  val : Option ℝ
  parent : String

/-- `m_candidatesZRanges` (pdfz.cpp:83-98): one empty range without identifier in the first pass, else the range of each parent, by identifier. -/
noncomputable def windows (ids : List String) (rs : List (Range ℝ)) : List (String × Range ℝ) :=
  if ids = [] then [("", ⟨0, 0⟩)] else (ids.zip rs).foldl (fun m p => mapPut p.1 p.2 m) []

/-- `Id_prefix` (pdfz.cpp:238-239). -/
def prefixOf (pre id : String) : String := if id = "" then pre else id ++ "_" ++ pre

/-- The loop over the peaks of a window (pdfz.cpp:242-252), from number `i`. -/
noncomputable def putPeaks (id pre : String) : Nat → List (ℝ × Option ℝ) → List (String × Found) → List (String × Found)
  | _, [], m => m
  | i, p :: ps, m => putPeaks id pre (i + 1) ps (mapPut (pre ++ toString i) ⟨p.1, p.2, id⟩ m)

/-- The loop over the windows (pdfz.cpp:212-253); `single` is `m_candidatesZRanges.size() == 1`, passed to `Find` as the first pass flag. -/
noncomputable def searchLoop (c : Cfg) (sorter : List (Option ℝ) → List Nat) (zs logp : List ℝ) (single : Bool) :
    List (String × Range ℝ) → List (String × Found) → Res (List (String × Found))
  | [], m => .ok m
  | w :: ws, m =>
    Extremum.find (c.ext w.2) sorter zs (logp.map some) single >>= fun pts =>
    searchLoop c sorter zs logp single ws (putPeaks w.1 (prefixOf c.pre w.1) 0 pts m)

/-- `searchMaxPDFcandidates` (pdfz.cpp:209-261). -/
noncomputable def search (c : Cfg) (sorter : List (Option ℝ) → List Nat) (zs logp : List ℝ) (ws : List (String × Range ℝ)) : Res (List (String × Found)) :=
  searchLoop c sorter zs logp (ws.length == 1) ws [] >>= fun m => if m.length = 0 then .throw .PDF_PEAK_NOT_FOUND else .ok m

/-- A ranked candidate: identifier, redshift, parent, integrated probability, rank. -/
structure Out where
  id : String
  z : ℝ
  parent : String
  proba : ℝ
  rank : Nat

/-- The members of the shared candidate objects that the ranking keeps. -/
noncomputable def outOf (m : List (String × Found)) (x : (String × ℝ) × Nat) : Option Out :=
  (mapFind x.1.1 m).map fun f => ⟨x.1.1, f.z, f.parent, x.1.2, x.2⟩

/-- `Compute` (pdfz.cpp:72-145) with `createPdfResult` (pdfz.cpp:163-179): `regrid` is the grid rebuilt from the parameters, compared with the one
of the merits. -/
noncomputable def compute (c : Cfg) (sorter : List (Option ℝ) → List Nat) (zsorter : List (Candidates.Cand ℝ) → List (Candidates.Cand ℝ))
    (regrid : Res (List ℝ)) (a : Pdfz.ChisquareArray) (ids : List String) (rs : List (Range ℝ)) : Res (List Out) :=
  if rs.length ≠ ids.length then .throw .INTERNAL_ERROR
  else
  regrid >>= fun g =>
  open Classical in
  if g ≠ a.redshifts then .throw .INTERNAL_ERROR
  else
  Pdfz.combinePdf c.opt a >>= fun p =>
  search c sorter a.redshifts p (windows ids rs) >>= fun m =>
  Candidates.compute zsorter c.maxCand a.redshifts p (m.map fun x => (x.1, x.2.z, x.2.val.getD 0)) >>= fun r =>
  .ok (r.filterMap (outOf m))

end PdfOp
end Amazed
