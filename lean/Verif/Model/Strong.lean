import Verif.Basic
import Verif.Model.EltList
import Mathlib.Algebra.Order.Field.Basic

set_option linter.unusedVariables false

/-! # Strong lines of a model and of a solution

`RedshiftLibrary/src/lib/linemodel/elementlist.cpp` (GetModelStrongEmissionLinePresent, GetModelHaStrongest, getScaleMargCorrection), `lmeltlistvector.cpp` (getScaleMargCorrection,
GetModelNonZeroElementsNDdl), `operator/linemodelresult.cpp` (getNLinesOverCutThreshold, getStrongLinesPresence, getStrongestLineIsHa, getMinChiSquare, getMaxChiSquare) and
`linemodelsolution.cpp` (isLineValid).

`none` is NaN for an amplitude, and `-DBL_MAX` (resp. `DBL_MAX`) for the start of a search of a maximum (resp. minimum). -/

namespace Amazed
namespace Strong

variable {K : Type} [Field K] [LinearOrder K] [IsStrictOrderedRing K]

/-- What is read of a line of the catalogue. -/
structure Ln where
  em : Bool
  strong : Bool
  name : String
deriving DecidableEq

/-- An element in one spectrum: is it outside of the range, `getSumGauss()`, and its lines with the fitted amplitude. -/
structure El (K : Type) where
  outside : Bool
  mtm : K
  lines : List (Ln × Option K)

/-- `a > 0` for an amplitude that may be NaN. -/
def pos : Option K → Bool
  | none => false
  | some a => decide (0 < a)

/-- The elements that are in range and not disabled (elementlist.cpp:68-80). -/
def valid (es : List (El K)) (disabled : List Nat) : List (El K) :=
  (es.zipIdx.filter fun q => !q.1.outside && !disabled.contains q.2).map (·.1)

/-- `GetModelStrongEmissionLinePresent` (elementlist.cpp:390-413). -/
def strongPresent (es : List (El K)) (disabled : List Nat) : Bool :=
  (valid es disabled).any fun e => e.lines.any fun l => l.1.em && l.1.strong && pos l.2

/-- The state of the search of the strongest line: greatest amplitude and its line. -/
abbrev Best (K : Type) := Option K × String

/-- `amp > ampMax`. -/
def above (a : K) : Option K → Bool
  | none => true
  | some m => decide (m < a)

/-- The body of the loop of `GetModelHaStrongest` (elementlist.cpp:429-437). -/
def stepModel (b : Best K) (l : Ln × Option K) : Best K :=
  if l.1.em = false then b
  else match l.2 with
    | none => b
    | some a => if 0 < a ∧ above a b.1 = true then (some a, l.1.name) else b

/-- The result: the maximum is positive and is that of Hα (elementlist.cpp:440-441, linemodelresult.cpp:422-423). -/
def isHa (ha : String) (b : Best K) : Bool := pos b.1 && decide (b.2 = ha)

/-- `GetModelHaStrongest` (elementlist.cpp:419-450): `ha` is `linetags::halpha_em`. -/
def haStrongest (ha : String) (es : List (El K)) (disabled : List Nat) : Bool :=
  isHa ha ((valid es disabled).foldl (fun b e => e.lines.foldl stepModel b) (none, ""))

/-- One element in `getScaleMargCorrection` (elementlist.cpp:375-381): `lg` is `log`. -/
def addScale (lg : K → K) (e : El K) (s : K) : K := if e.outside then s else if 0 < e.mtm then s + lg e.mtm else s

/-- `getScaleMargCorrection` (elementlist.cpp:363-384): all the elements, or one. -/
def scaleMarg (lg : K → K) (es : List (El K)) : Option Nat → Res K
  | none => .ok (es.foldl (fun s e => addScale lg e s) 0)
  | some i => Res.at_ es i >>= fun e => .ok (addScale lg e 0)

/-- `CLMEltListVector::getScaleMargCorrection` (lmeltlistvector.cpp:185-192): sum on the spectra. -/
def scaleMargAll (lg : K → K) (ess : List (List (El K))) (idx : Option Nat) : Res K :=
  EltList.foldL (fun es s => scaleMarg lg es idx >>= fun x => .ok (s + x)) ess (0 : K)

/-- A line of a solution: identifier, element, amplitude, its uncertainty, residual and range flag; all the vectors of `CLineModelSolution` have one value by line (C161). -/
structure SolLine (K : Type) where
  id : Nat
  elt : Nat
  amp : Option K
  unc : Option K
  rms : Option K
  out : Bool

/-- `restLineList.at(line_id)`. -/
def line (cat : Nat → Option Ln) (id : Nat) : Res Ln := match cat id with
  | none => .throw .STD_OUT_OF_RANGE
  | some l => .ok l

/-- `x / y >= t` in floating point: a null divisor gives an infinity of the sign of `x`, or NaN; NaN compares false. The sign of a null divisor is taken positive. -/
def quotGe (x y : Option K) (t : K) : Bool := match x, y with
  | some a, some b => if b = 0 then decide (0 < a) else decide (t ≤ a / b)
  | _, _ => false

/-- `noise <= 0`: false for NaN. -/
def nonPos : Option K → Bool
  | none => false
  | some a => decide (a ≤ 0)

/-- The body of the loop of `getNLinesOverCutThreshold` (linemodelresult.cpp:323-346): the elements counted. -/
def overStep (cat : Nat → Option Ln) (snr fit : K) (s : SolLine K) (found : List Nat) : Res (List Nat) :=
  if found.contains s.elt then .ok found
  else line cat s.id >>= fun l =>
    if l.strong = false ∨ l.em = false then .ok found
    else if nonPos s.unc then .ok found
    else if quotGe s.amp s.unc snr && quotGe s.amp s.rms fit then .ok (found ++ [s.elt]) else .ok found

/-- `getNLinesOverCutThreshold` (linemodelresult.cpp:318-348). -/
def nOver (cat : Nat → Option Ln) (snr fit : K) (sol : List (SolLine K)) : Res Nat :=
  EltList.foldL (overStep cat snr fit) sol [] >>= fun l => .ok l.length

/-- `isLineValid` (linemodelsolution.cpp:68-72). -/
def lineValid (s : SolLine K) : Bool := !s.out && pos s.amp

/-- `lineDoesntMatchStrongFilter` (linemodelresult.cpp:360-365). -/
def noMatch (filter : ℤ) (l : Ln) : Bool := !l.strong || (decide (filter = 1) && !l.em) || (decide (filter = 2) && l.em)

/-- The loop with its `break` (linemodelresult.cpp:369-379). -/
def present (cat : Nat → Option Ln) (filter : ℤ) : List (SolLine K) → Res Bool
  | [] => .ok false
  | s :: ss => line cat s.id >>= fun l => if noMatch filter l then present cat filter ss else if lineValid s then .ok true else present cat filter ss

/-- `getStrongLinesPresence` (linemodelresult.cpp:356-383). -/
def strongLines (cat : Nat → Option Ln) (filter : ℤ) (sols : List (List (SolLine K))) : Res (List Bool) :=
  Res.tab (fun i => Res.at_ sols i >>= present cat filter) sols.length

/-- The body of the loop of `getStrongestLineIsHa` (linemodelresult.cpp:407-420). -/
def stepSol (cat : Nat → Option Ln) (s : SolLine K) (b : Best K) : Res (Best K) :=
  line cat s.id >>= fun l =>
  if l.em = false ∨ s.out = true then .ok b
  else match s.amp with
    | none => .ok b
    | some a => if above a b.1 then .ok (some a, l.name) else .ok b

/-- `getStrongestLineIsHa` (linemodelresult.cpp:400-434); `undef` is `undefStr`. -/
def strongestIsHa (ha undef : String) (cat : Nat → Option Ln) (sols : List (List (SolLine K))) : Res (List Bool) :=
  Res.tab (fun i => Res.at_ sols i >>= fun sol => EltList.foldL (stepSol cat) sol ((none : Option K), undef) >>= fun b => .ok (isHa ha b)) sols.length

/-- `getMinChiSquare` (linemodelresult.cpp:436-444) over the first `n` values; `none` is `DBL_MAX`. -/
def minChi (n : Nat) (chi : List K) : Res (Option K) :=
  Res.foldN (fun i m => Res.at_ chi i >>= fun x => .ok (match m with
    | none => some x
    | some y => if x < y then some x else some y)) 0 n none

/-- `getMaxChiSquare` (linemodelresult.cpp:446-454); `none` is `-DBL_MAX`. -/
def maxChi (n : Nat) (chi : List K) : Res (Option K) :=
  Res.foldN (fun i m => Res.at_ chi i >>= fun x => .ok (match m with
    | none => some x
    | some y => if y < x then some x else some y)) 0 n none

end Strong
end Amazed
