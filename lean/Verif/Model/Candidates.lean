import Mathlib.Algebra.Order.Field.Basic
import Verif.Model.Range
import Verif.Model.Pdfz
import Verif.Model.Deltaz

/-! # `CPdfCandidatesZ` (`src/lib/statistics/pdfcandidatesz.cpp`)

The maps from an identifier to a candidate and to a range (keys are distinct) are replaced by lists of records that carry
both. Numbers are those of an ordered field: rounding and NaN are not modelled. The Gaussian fit (`m_optMethod = 1`) is
in `Model/PeakFit.lean`. -/

namespace Amazed
namespace Candidates

variable {K : Type} [Field K] [LinearOrder K]

/-- The fields of `TCandidateZ` used to set the ranges (pdfcandidatesz.i) with the identifier. -/
structure Cand (K : Type) where
  id : String
  z : K
  dz : K
  valProba : K
deriving DecidableEq, Repr

/-- A candidate with its range, and whether it is in the list of duplicates. -/
structure Slot (K : Type) where
  cand : Cand K
  rng : Range K
  dup : Bool
deriving DecidableEq

/-- `Deltaz`, or the default when it is -1 (pdfcandidatesz.cpp:85-88). -/
def effDz (c : Cand K) : K := if c.dz = -1 then 1 / 1000 * (1 + c.z) else c.dz

/-- `integrationWindowHalfWidth` (pdfcandidatesz.cpp:190-192). -/
def halfWidth (dz : K) : K := 3 * dz

/-- The initial range of a candidate (pdfcandidatesz.cpp:90-96). When it does not meet the range of the PDF, `IntersectWith`
leaves it as it is. -/
def initRange (pdf : Range K) (c : Cand K) : Range K :=
  let r : Range K := ⟨c.z - halfWidth (effDz c), c.z + halfWidth (effDz c)⟩
  (Range.intersect r pdf r).2

/-- `ratio < OVERLAP_THRESHOLD_PDF_INTEGRATION` (0.3, defaults.h:41) for a positive overlap; a division by a size of 0 gives
an infinite ratio. -/
def smallRatio (overlap size : K) : Bool := decide (size ≠ 0) && decide (overlap / size < 3 / 10)

/-- One step of the loop over consecutive candidates (pdfcandidatesz.cpp:113-162): the higher and the lower one. -/
def trimStep (h l : Slot K) : Slot K × Slot K :=
  if l.rng.e - h.rng.b ≤ 0 then (h, l)
  else if smallRatio (l.rng.e - h.rng.b) (h.rng.e - h.rng.b) && smallRatio (l.rng.e - h.rng.b) (l.rng.e - l.rng.b) then
    ({ h with rng := ⟨l.rng.e - 1 / 2 * (l.rng.e - h.rng.b), h.rng.e⟩ },
     { l with rng := ⟨l.rng.b, l.rng.e - 1 / 2 * (l.rng.e - h.rng.b)⟩ })
  else if l.cand.valProba > h.cand.valProba then ({ h with dup := true }, l)
  else (h, { l with dup := true })

/-- The loop over consecutive candidates, in decreasing order of redshift, from the slot `h` on. -/
def trim (h : Slot K) : List (Slot K) → List (Slot K)
  | [] => [h]
  | l :: rest => (trimStep h l).1 :: trim (trimStep h l).2 rest

/-- The last check (pdfcandidatesz.cpp:166-180). -/
def bad (s : Slot K) : Bool := !s.dup && (decide (s.cand.z < s.rng.b) || decide (s.cand.z > s.rng.e))

/-- `SetIntegrationRanges` (pdfcandidatesz.cpp:76-183). `sorted` are the candidates in the order given by `std::sort`
(pdfcandidatesz.cpp:99-110): any permutation of the candidates in decreasing order of redshift. With no candidate
`candidatesKeys.end() - 1` is undefined. -/
def setIntegrationRanges (pdf : Range K) (sorted : List (Cand K)) : Res (List (Slot K)) :=
  match sorted.map (fun c => (⟨c, initRange pdf c, false⟩ : Slot K)) with
  | [] => .ub
  | s :: rest => if (trim s rest).any bad then .throw .INTERNAL_ERROR else .ok (trim s rest)

/-! ## Ranking -/

/-- `SortByValSumProbaInt` (pdfcandidatesz.cpp:240-255): stable sort, with `<` on the integrated probability, of the reversed
sequence, read backwards. The elements are identifier and probability, in the order of the identifiers. -/
def sortByProba {α : Type} [LinearOrder α] (cands : List (String × α)) : List (String × α) :=
  (cands.reverse.mergeSort (fun a b => decide (a.2 ≤ b.2))).reverse

/-- Truncation and ranks (pdfz.cpp:117-124): `size_t(m_maxCandidate)` is larger than any size when the count is negative. The
result is the identifier, the probability and the rank. -/
def rank {α : Type} [LinearOrder α] (maxCandidate : Int) (cands : List (String × α)) : List ((String × α) × Nat) :=
  ((sortByProba cands).take (if maxCandidate < 0 then cands.length else maxCandidate.toNat)).zipIdx

/-! ## Integration -/

/-- `getCandidateSumTrapez` (pdfcandidatesz.cpp:265-290): `ValSumProbaZmin`, `ValSumProbaZmax`, `ValSumProba`. -/
noncomputable def sumTrapez (zs logp : List ℝ) (zrange : Range ℝ) (z : ℝ) : Res (ℝ × ℝ × ℝ) :=
  open Classical in
  if ¬ zs.Pairwise (· ≤ ·) then .throw .INTERNAL_ERROR
  else Range.enclosingIdxAt zrange zs z >>= fun k =>
    let zin := (zs.drop k.1).take (k.2 + 1 - k.1)
    let pin := (logp.drop k.1).take (k.2 + 1 - k.1)
    Res.at_ zin 0 >>= fun zmin => Res.at_ zin (zin.length - 1) >>= fun zmax =>
    Pdfz.logSumExp pin zin >>= fun ls => .ok (zmin, zmax, Real.exp ls)

/-- `computeCandidatesDeltaz` (pdfcandidatesz.cpp:185-191) on candidates given by identifier, redshift and peak value. -/
noncomputable def withDeltaz (zs logp : List ℝ) : List (String × ℝ × ℝ) → Res (List (Cand ℝ))
  | [] => .ok []
  | c :: cs => Deltaz.getDeltaz zs logp c.2.1 >>= fun dz => withDeltaz zs logp cs >>= fun r => .ok (⟨c.1, c.2.1, dz, c.2.2⟩ :: r)

/-- `ValSumProba` of a candidate (pdfcandidatesz.cpp:211-224): 0 for a duplicate, else the integral over its range. -/
noncomputable def slotProba (zs logp : List ℝ) (s : Slot ℝ) : Res ℝ :=
  if s.dup then .ok 0 else sumTrapez zs logp s.rng s.cand.z >>= fun r => .ok r.2.2

/-- The loop of `Compute` over the candidates in the order of the identifiers (pdfcandidatesz.cpp:207-232); `zranges[Id]` is the
slot of that identifier. -/
noncomputable def probaLoop (zs logp : List ℝ) (slots : List (Slot ℝ)) : List (Cand ℝ) → Res (List (String × ℝ))
  | [] => .ok []
  | c :: cs => match slots.find? (fun s => s.cand.id == c.id) with
    | none => .ub
    | some s => slotProba zs logp s >>= fun p => probaLoop zs logp slots cs >>= fun r => .ok ((c.id, p) :: r)

/-- `CPdfCandidatesZ::Compute` with direct integration (pdfcandidatesz.cpp:196-238), then the truncation and the ranks of
`COperatorPdfz::Compute` (pdfz.cpp:112-124). The candidates are in the order of their identifiers; `sorter` is the order
`std::sort` gives by decreasing redshift. -/
noncomputable def compute (sorter : List (Cand ℝ) → List (Cand ℝ)) (maxCandidate : Int) (zs logp : List ℝ)
    (cands : List (String × ℝ × ℝ)) : Res (List ((String × ℝ) × Nat)) :=
  withDeltaz zs logp cands >>= fun cs =>
  Res.at_ zs 0 >>= fun zb => Res.at_ zs (zs.length - 1) >>= fun ze =>
  setIntegrationRanges ⟨zb, ze⟩ (sorter cs) >>= fun slots =>
  probaLoop zs logp slots cs >>= fun ps => .ok (rank maxCandidate ps)

end Candidates
end Amazed
