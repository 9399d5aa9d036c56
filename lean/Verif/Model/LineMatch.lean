import Verif.Model.LineDetect

set_option linter.unusedVariables false

/-! # Matching of detected and catalogue lines

`RedshiftLibrary/src/lib/operator/linematching.cpp`, `linematchingresult.cpp`, `src/lib/line/rules.cpp`. A catalogue is the list of
its entries in the order of the identifiers. -/

namespace Amazed
namespace LineMatch
open Amp (LType Force)
open LineCat (Line Cat)
open LineDetect (Det Quo Spc)

variable {K : Type} [Field K] [LinearOrder K] [IsStrictOrderedRing K]

/-- `SSolution` (linematchingresult.h:58-79). -/
structure Sol (K : Type) where
  det : Det K
  restId : ℤ
  rest : Line K
  z : K

/-- `SSolution::operator<` (linematchingresult.h:70-76). -/
def Sol.lt (a b : Sol K) : Bool := if a.det.pos = b.det.pos then decide (a.rest.pos < b.rest.pos) else decide (a.det.pos < b.det.pos)

/-- `getRedshift` (linematching.cpp:114-120). -/
def zOf (d : Det K) (r : Line K) : K := (d.pos - r.pos) / r.pos

/-- `isLineAlreadyPresent` (linematching.cpp:159-167). -/
def present (d : Det K) (sol : List (Sol K)) : Bool := sol.any fun x => decide (x.det.pos = d.pos)

/-- The body of the inner loop of `updateSolution` (linematching.cpp:133-147). -/
def tryAdd (tol z : K) (d : Det K) (sol : List (Sol K)) (r : ℤ × Line K) : List (Sol K) :=
  if zOf d r.2 < 0 then sol
  else if |z - zOf d r.2| > tol * (1 + (z + zOf d r.2) * (1 / 2)) then sol
  else if present d sol then sol
  else sol ++ [⟨d, r.1, r.2, zOf d r.2⟩]

/-- The body of the outer loop of `updateSolution` (linematching.cpp:129-148). -/
def updateStep (i : ℤ) (tol z : K) (rest : Cat K) (sol : List (Sol K)) (d : ℤ × Det K) : List (Sol K) :=
  if i = d.1 then sol else rest.foldl (tryAdd tol z d.2) sol

/-- `updateSolution` (linematching.cpp:122-150). -/
def update (i : ℤ) (tol z : K) (det : List (ℤ × Det K)) (rest : Cat K) (sol : List (Sol K)) : List (Sol K) :=
  det.foldl (updateStep i tol z rest) sol

/-- The solution of a pair (linematching.cpp:77-92): none for a blueshift. With one catalogue line the other detected lines are
not looked at. -/
def pairSol (tol : K) (det : List (ℤ × Det K)) (rest : Cat K) (d : ℤ × Det K) (r : ℤ × Line K) : Option (List (Sol K)) :=
  if zOf d.2 r.2 < 0 then none
  else if rest.length = 1 then some [⟨d.2, r.1, r.2, zOf d.2 r.2⟩]
  else some (update d.1 tol (zOf d.2 r.2) det rest [⟨d.2, r.1, r.2, zOf d.2 r.2⟩])

/-- The double loop of `Compute` (linematching.cpp:72-96). The `break` with one catalogue line leaves a loop of one turn, and a
solution is never empty. -/
def pairs (tol : K) (det : List (ℤ × Det K)) (rest : Cat K) : List (List (Sol K)) :=
  det.flatMap fun d => rest.filterMap fun r => pairSol tol det rest d r

/-- `GetMeanRedshiftSolution` (linematchingresult.cpp:204-214) and the mean of `refineSolutions` (linematching.cpp:190-196). -/
def mean (s : List (Sol K)) : K := (s.map (·.z)).sum / (s.length : K)

/-- `CLineDetected::operator!=` (linedetected.h:77-82), negated. -/
def sameDet (a b : Det K) : Bool := decide (a.pos = b.pos) && decide (a.amp = b.amp)

/-- `AreSolutionSetsEqual` (linematching.cpp:211-229). -/
def sameSets : List (Sol K) → List (Sol K) → Bool
  | [], [] => true
  | a :: s, b :: t => (sameDet a.det b.det && decide (a.restId = b.restId) && decide (a.z = b.z)) && sameSets s t
  | _, _ => false

/-- One turn of `refineSolutions` (linematching.cpp:176-200). The comparison of the size with the threshold is made on unsigned
numbers, where a negative threshold is larger than any size. -/
def refineStep (srt : List (Sol K) → List (Sol K)) (lo hi : K) (n : ℤ) (acc : List (List (Sol K))) (s : List (Sol K)) : List (List (Sol K)) :=
  if n < 0 ∨ (s.length : ℤ) < n then acc
  else if acc.any (fun t => sameSets t (srt s)) then acc
  else if lo < mean (srt s) ∧ mean (srt s) < hi then acc ++ [srt s] else acc

/-- `refineSolutions` (linematching.cpp:170-204); the sort is a parameter. -/
def refine (srt : List (Sol K) → List (Sol K)) (lo hi : K) (n : ℤ) (l : List (List (Sol K))) : List (List (Sol K)) :=
  l.foldl (refineStep srt lo hi n) []

/-- `GetFilteredList` of the catalogue of detected lines (catalog.cpp:60-78). -/
def filteredDet (t : LType) (f : Force) (c : List (ℤ × Det K)) : List (ℤ × Det K) :=
  c.filter fun x => (decide (t = .all) || decide (t = x.2.type)) && (decide (f = .all) || decide (f = x.2.force))

/-- `Compute` (linematching.cpp:58-112): the list of solutions, or a null pointer (`none`). The division by a position 0 is
undefined here. -/
def compute (srt : List (Sol K) → List (Sol K)) (det : List (ℤ × Det K)) (rest : Cat K) (lo hi : K) (n : ℤ) (tol : K) (t : LType)
    (fd fr : Force) : Res (Option (List (List (Sol K)))) :=
  if (filteredDet t fd det).length ≠ 0 ∧ (LineCat.filtered t fr rest).any (fun r => decide (r.2.pos = 0)) then .ub
  else
    let l := refine srt lo hi n (pairs tol (filteredDet t fd det) (LineCat.filtered t fr rest))
    .ok (if l.length = 0 then none else some l)

/-! ## The queries of the result -/

/-- `GetSolutionsListOverNumber` (linematchingresult.cpp:111-122): the number is compared as an unsigned one. -/
def over (sets : List (List (Sol K))) (n : ℤ) : List (List (Sol K)) := sets.filter fun s => decide (0 ≤ n ∧ n < (s.length : ℤ))

/-- `getNStrongRestLines` (linematchingresult.cpp:220-244). -/
def nStrong (rest : Cat K) (s : List (Sol K)) : Nat :=
  (s.filter fun x => (LineCat.filtered .emission .strong rest).any fun l => decide (|x.rest.pos - l.2.pos| < 11 / 100)).length

/-- One turn of `GetBestRedshift` (linematchingresult.cpp:64-76). The first solution is always taken (-1 strong lines at the start). -/
def bestStep (rest : Cat K) (b : Option (List (Sol K))) (s : List (Sol K)) : Option (List (Sol K)) :=
  match b with
  | none => some s
  | some b => if nStrong rest s > nStrong rest b then some s
    else if nStrong rest s = nStrong rest b ∧ s.length > b.length then some s else some b

/-- `GetBestRedshift` (linematchingresult.cpp:55-86): redshift and number of lines, or false. -/
def bestRedshift (rest : Cat K) (sets : List (List (Sol K))) : Option (K × Nat) :=
  ((over sets 1).foldl (bestStep rest) none).map fun b => (mean b, b.length)

/-- `GetMaxMatchingNumber` (linematchingresult.cpp:250-263). -/
def maxNumber (sets : List (List (Sol K))) : ℤ :=
  if sets.length < 1 then -1 else sets.foldl (fun m s => if m < (s.length : ℤ) then (s.length : ℤ) else m) 0

/-- `GetBestMatchNumRedshift` (linematchingresult.cpp:95-106). -/
def bestMatchNum (sets : List (List (Sol K))) : Option (K × ℤ) :=
  match over sets (maxNumber sets - 1) with
  | [] => none
  | s :: _ => some (mean s, maxNumber sets)

/-- `GetAverageRedshiftListOverNumber` (linematchingresult.cpp:128-138). -/
def averages (sets : List (List (Sol K))) (n : ℤ) : List K := (over sets n).map mean

/-- `GetMeanRedshiftSolutionByIndex` (linematchingresult.cpp:188-200): the index is compared with `size() - 1` as an unsigned
number; that of an empty list is the largest one, so that the test never holds. An empty set gives a division by 0. -/
def meanByIndex (sets : List (List (Sol K))) (i : ℤ) : Res K :=
  if sets.length ≠ 0 ∧ (i < 0 ∨ (sets.length : ℤ) - 1 < i) then .ok (-1)
  else if i < 0 then .ub
  else Res.at_ sets i.toNat >>= fun s => if s.length = 0 then .ub else .ok (mean s)

/-- `GetRoundedRedshiftCandidatesOverNumber` (linematchingresult.cpp:144-154). -/
def rounded [FloorRing K] (sets : List (List (Sol K))) (n : ℤ) (step : K) : Res (List K) :=
  if step = 0 ∧ (over sets n).length ≠ 0 then .ub
  else .ok ((averages sets n).map fun z => (LineDetect.trunc (z / step + 1 / 2) : K) * step)

/-- `std::unique` then `erase` (linematchingresult.cpp:176-178). -/
def uniq : List K → List K
  | [] => []
  | x :: xs => x :: go x xs
where
  /-- The rest, after an element `a` that is kept. -/
  go : K → List K → List K
    | _, [] => []
    | a, y :: ys => if a = y then go a ys else y :: go y ys

/-- `GetExtendedRedshiftCandidatesOverNumber` (linematchingresult.cpp:160-180). -/
def extended [FloorRing K] (srt : List K → List K) (sets : List (List (Sol K))) (n : ℤ) (step width : K) : Res (List K) :=
  rounded sets n step >>= fun l =>
    if step = 0 then .ub
    else
      let h := LineDetect.trunc (width / step / 2)
      .ok (uniq (srt (l.flatMap fun z => (List.range (h + h).toNat).map fun (k : ℕ) => z + ((k : K) - (h : K)) * step)))

/-! ## The rules -/

/-- `isLineInsideRange` (rules.cpp:236-240): `begin + winsize ? m_winsize : 0.` is read `(begin + winsize) ? m_winsize : 0.`, where
`winsize` is a truth value. -/
def inside (lo hi w : K) (b : Bool) (x : K) : Bool :=
  let start := if lo + (if b then 1 else 0) ≠ 0 then w else 0
  let stop := if hi + (if b then 1 else 0) ≠ 0 then w else 0
  decide (start ≤ x ∧ x ≤ stop)

/-- `name.find(tag) != npos`. -/
def has (tag name : String) : Bool := decide (tag.toList <:+: name.toList)

/-- `getRestLineLambda` (rules.cpp:225-234); `none` is NaN. -/
def restLambda (rest : Cat K) (tag : String) : Option K := (rest.find? fun r => has tag r.2.name).map (·.2.pos)

/-- The wavelength of a catalogue line at redshift `z` is inside the range; false for NaN. -/
def tagInside (lo hi w z : K) (rest : Cat K) (tag : String) : Bool :=
  match restLambda rest tag with
  | none => false
  | some x => inside lo hi w true (x * (1 + z))

/-- `a < b` of two quotients. -/
def ltQ : Quo K → Quo K → Bool
  | .num x, .num y => decide (x < y)
  | .num _, .pinf => true
  | .minf, .num _ => true
  | .minf, .pinf => true
  | _, _ => false

/-- Ratio and noise of the range of a line (rules.cpp:112-120, 127-136). -/
def lineSnr (s : Spc K) (w x : K) : Res (Quo K × K) :=
  SAxis.indexAt s.axis (x - w / 2) >>= fun b => SAxis.indexAt s.axis (x + w / 2) >>= fun e =>
  LineDetect.computeFluxes s w b e [] >>= fun q => .ok (q.1, q.2.2)

/-- The loop over the weak lines (rules.cpp:110-124). -/
def weakMax (s : Spc K) (w z : K) : List (Sol K) → Quo K × K → Res (Quo K × K)
  | [], m => .ok m
  | x :: xs, m => lineSnr s w (x.rest.pos * (1 + z)) >>= fun q =>
      weakMax s w z xs (if ltQ m.1 q.1 then q.1 else m.1, max m.2 q.2)

/-- The loop over the strong lines (rules.cpp:126-141). -/
def strongOk (s : Spc K) (w z : K) (m : Quo K × K) : Cat K → Res Bool
  | [] => .ok true
  | l :: ls => lineSnr s w (l.2.pos * (1 + z)) >>= fun q =>
      if ltQ q.1 m.1 ∧ q.2 < m.2 then .ok false else strongOk s w z m ls

/-- `checkRule01` (rules.cpp:83-143). -/
def rule01 (s : Spc K) (rest : Cat K) (lo hi w z : K) (set : List (Sol K)) : Res Bool :=
  if set.any (fun x => decide (x.rest.force = .strong)) then .ok true
  else if (LineCat.filtered .emission .strong rest).any (fun l => inside lo hi w false (l.2.pos * (1 + z))) then
    weakMax s w z set (.num 0, 0) >>= fun m => strongOk s w z m (LineCat.filtered .emission .strong rest)
  else .ok true

/-- `checkRule02` (rules.cpp:149-179). -/
def rule02 (rest : Cat K) (lo hi w z : K) (set : List (Sol K)) : Bool :=
  !(decide ((set.filter fun x => has "[OIII]b" x.rest.name && tagInside lo hi w z rest "[OIII]a").length = 1) &&
    decide ((set.filter fun x => has "[OIII]a" x.rest.name).length = 0))

/-- `checkRule03` (rules.cpp:185-223). -/
def rule03 (rest : Cat K) (lo hi w z : K) (set : List (Sol K)) : Bool :=
  !(decide ((set.filter fun x => has "Hbeta" x.rest.name && tagInside lo hi w z rest "Halpha").length = 1) &&
    decide ((set.filter fun x => has "Halpha" x.rest.name).length ≠ 1))

/-- `check` (rules.cpp:56-73). -/
def check (s : Spc K) (rest : Cat K) (lo hi w z : K) (set : List (Sol K)) : Res ℤ :=
  rule01 s rest lo hi w z set >>= fun r1 =>
    .ok ((if r1 then 0 else 1) + (if rule02 rest lo hi w z set then 0 else 10) + (if rule03 rest lo hi w z set then 0 else 100))

/-- The lists of a `CLineMatchingResult` (linematchingresult.h:106-108): kept, refused, reasons. -/
structure Lists (K : Type) where
  sets : List (List (Sol K))
  bad : List (List (Sol K))
  why : List ℤ

/-- The loop of `FilterWithRules` (linematchingresult.cpp:283-297); the new list of solutions is the first component. -/
def filterLoop (chk : List (Sol K) → Res ℤ) : List (List (Sol K)) → Lists K → Res (Lists K)
  | [], a => .ok a
  | s :: l, a => chk s >>= fun r =>
      filterLoop chk l (if r ≤ 0 then { a with sets := a.sets ++ [s] } else { a with bad := a.bad ++ [s], why := a.why ++ [r] })

/-- `FilterWithRules` (linematchingresult.cpp:269-299). -/
def filterWithRules (s : Spc K) (rest : Cat K) (lo hi w : K) (r : Lists K) : Res (Lists K) :=
  if r.sets.length < 1 then .ok r
  else filterLoop (fun set => check s rest lo hi w (mean set) set) r.sets ⟨[], r.bad, r.why⟩

end LineMatch
end Amazed
