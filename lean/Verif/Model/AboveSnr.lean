import Verif.Model.DirInt

set_option linter.unusedVariables false

/-! # The strong lines above a signal to noise ratio

`CSpectrumModel::getLinesAboveSNR` (spectrummodel.cpp:558-640) with `CLineModelElementList::findElementIndex` (elementlist.cpp:283-295). The flux of lines by direct integration is
a parameter (`DirInt.fluxDI`, C159), and so is the position of a line (`getObservedPositionAndLineWidth`), which may throw. -/

namespace Amazed
namespace AboveSnr

section
variable {K : Type} [Field K] [LinearOrder K]

/-- A line of `m_RestLineList`, a map from identifiers to lines: identifier, name, is it an emission line. -/
structure Ln where
  id : Int
  name : String
  em : Bool
deriving DecidableEq

/-- What the search reads: the lines in the order of their identifiers, the identifiers of the lines of each element, `IsOutsideLambdaRangeLine`, the positions and the
flux and sum of squared errors of lines (`getFluxDirectIntegration`, with or without the subtraction of the absorption lines). -/
structure Env (K : Type) where
  rest : List Ln
  elts : List (List Int)
  outside : Nat → Nat → Bool
  geom : DirInt.Geom K
  flux : List Nat → List Nat → Bool → Res (K × K)

/-- `findElementIndex(line_id)` (elementlist.cpp:283-295). -/
def findElt (elts : List (List Int)) (id : Int) : Option (Nat × Nat) :=
  (elts.findIdx? fun l => (l.findIdx? (· == id)).isSome).bind fun i => (elts[i]?).bind fun l => (l.findIdx? (· == id)).map fun k => (i, k)

/-- The element and the line of a name, if the first line of that name is an emission line in range (spectrummodel.cpp:588-606). -/
def usable (env : Env K) (tag : String) : Option (Nat × Nat) :=
  (env.rest.find? fun l => l.name == tag).bind fun l =>
  if l.em = false then none
  else (findElt env.elts l.id).bind fun p => if env.outside p.1 p.2 then none else some p

/-- The doublet of a name (spectrummodel.cpp:617-632). -/
inductive Group | single | oii | ciii
deriving DecidableEq

def groupOf (tag : String) : Group :=
  if tag = "[OII]3726" ∨ tag = "[OII]3729" then .oii else if tag = "[CIII]1907" ∨ tag = "[CIII]1909" then .ciii else .single

/-- The state of the loop: names above the ratio, lines of the two doublets so far. -/
structure St where
  names : List String
  oii : List (Nat × Nat)
  ciii : List (Nat × Nat)

/-- `snrDI > snrcut` (spectrummodel.cpp:634-640): NaN without a positive sum of errors. -/
def isAbove (sq : K → K) (cut : K) (f : K × K) : Bool := decide (0 < f.2) && decide (cut < |f.1| / sq f.2)

/-- One turn of the loop (spectrummodel.cpp:584-643). -/
def step (sq : K → K) (env : Env K) (cut : K) (t : String × String) (s : St) : Res St :=
  match usable env t.1 with
  | none => .ok s
  | some p =>
    env.geom p.1 p.2 >>= fun _ =>
    let s1 : St := match groupOf t.1 with
      | .single => s
      | .oii => { s with oii := s.oii ++ [p] }
      | .ciii => { s with ciii := s.ciii ++ [p] }
    let ls := match groupOf t.1 with
      | .single => [p]
      | .oii => s1.oii
      | .ciii => s1.ciii
    env.flux (ls.map (·.1)) (ls.map (·.2)) (decide (groupOf t.1 = .single)) >>= fun f =>
    .ok (if isAbove sq cut f then { s1 with names := t.2 :: s1.names } else s1)

/-- The names of the lines and those of the result (spectrummodel.cpp:567-573). -/
def table : List (String × String) :=
  [("Halpha", "Ha"), ("[OIII]a", "OIIIa"), ("Hbeta", "Hb"), ("LyAE", "Lya"), ("[OII]3726", "OII"), ("[OII]3729", "OII"), ("[CIII]1907", "CIII"), ("[CIII]1909", "CIII")]

/-- `getLinesAboveSNR` (spectrummodel.cpp:558-646): the elements of the returned set. -/
def linesAbove (sq : K → K) (env : Env K) (cut : K) : Res (List String) :=
  EltList.foldL (step sq env cut) table ⟨[], [], []⟩ >>= fun s => .ok s.names

end

end AboveSnr
end Amazed
