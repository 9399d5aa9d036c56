import Verif.Basic
import Mathlib.Algebra.Order.Field.Basic

/-!
# The line matching solver (`CLineMatchingSolve::compute`)

Models `/repo/RedshiftLibrary/src/lib/method/linematchingsolve.cpp`, lines 113-358. The peak detection, the line detection, the matching and the rules of
the matching are parameters of the model (they are modelled in `Model/Peaks.lean`, `Model/LineDetect.lean` and `Model/LineMatch.lean`). The logs are not
modelled. The `while` loop is run for a given number of iterations, and a run which has not ended yet is reported as such.
-/

set_option linter.unusedSectionVars false

namespace Amazed
namespace LmatchSolve

variable {K : Type} [Field K] [LinearOrder K]

/-- `CLine::EType` (line.h). -/
inductive LType | absorption | emission | all
deriving DecidableEq

/-- The type of the lines which are looked for (linematchingsolve.cpp:137-143): any other string means all of them. -/
def lineType (s : String) : LType :=
  if s = "Emission" then .emission else if s = "Absorption" then .absorption else .all

/-- The parameters of the line detection which the dynamic mode changes (linematchingsolve.cpp:207-238): `cutCurrent`, `minimumFwhhCurrent`, `strongcutCurrent`
and `winsizeCurrent`. -/
structure Par (K : Type) where
  cut : K
  fwhh : K
  strong : K
  win : K
deriving DecidableEq

/-- `std::max`. -/
def max2 (a b : K) : K := if a < b then b else a

/-- The reduction of the minimum width (linematchingsolve.cpp:309-314). -/
def stepFwhh (p : Par K) : Option (Par K) :=
  if 1 / 1000 < p.fwhh then some { p with fwhh := max2 (1 / 1000) (p.fwhh - (10 - 1 / 1000) / 5) } else none

/-- The reduction of the cut, once the width has been set back to its maximum (linematchingsolve.cpp:316-320). -/
def stepCut (p : Par K) : Option (Par K) :=
  if 1 / 10 ≤ p.cut then some { p with cut := p.cut - (10 - 1 / 10) / 5 } else none

/-- The reduction of the strong cut, once the cut has been set to the strong cut (linematchingsolve.cpp:321-326). -/
def stepStrong (p : Par K) : Option (Par K) :=
  if 1 / 100 < p.strong then some { p with strong := max2 (1 / 100) (p.strong - (10 - 1 / 100) / 5) } else none

/-- The increase of the window size, once the strong cut has been set back to its maximum (linematchingsolve.cpp:327-331). -/
def stepWin (p : Par K) : Option (Par K) :=
  if p.win ≤ 10000 then some { p with win := p.win + (10000 - 1000) / 5 } else none

/-- The next set of parameters and the new value of `newValues` (linematchingsolve.cpp:308-332), `none` when they have all been searched. -/
def nextPar (p : Par K) : Option (Par K × Bool) :=
  match stepFwhh p with
  | some q => some (q, false)
  | none =>
    let p1 : Par K := { p with fwhh := 10 }
    match stepCut p1 with
    | some q => some (q, true)
    | none =>
      let p2 : Par K := { p1 with cut := p1.strong }
      match stepStrong p2 with
      | some q => some (q, true)
      | none =>
        let p3 : Par K := { p2 with strong := 10 }
        (stepWin p3).map fun q => (q, true)

/-- What the solver is run on: the configured parameters, the mode, the line detection with given parameters (its list of lines is `D`), the number of lines
detected, the matching after `FilterWithRules` (`none` when no solution was found), and the best redshift of a matching, -1 if there is none. -/
structure Env (K D M : Type) where
  par : Par K
  dynamic : Bool
  detect : Par K → Res D
  count : D → Nat
  matching : D → Option M
  redshift : M → K

/-- The variables of the loop (linematchingsolve.cpp:204-238); `tried` is not in the code: the parameters of the past detections with the number of lines found,
in the order of the detections. -/
structure St (K D M : Type) where
  cur : Par K
  best : Par K
  bestN : Int
  prevN : Int
  newValues : Bool
  bypass : Bool
  iCmpt : Nat
  catalog : Option D
  result : Option M
  tried : List (Par K × Nat)

/-- The initial values (linematchingsolve.cpp:204-238). -/
def init {D M : Type} (e : Env K D M) : St K D M := ⟨e.par, e.par, -1, -1, false, false, 0, none, none, []⟩

/-- What the solver leaves: the products `lineCatalog` and `linematching` in the result store, whether the warning LINEMATCHING_REACHED_ENDLOOP was raised, and
the number of detections (not in the code). -/
structure Out (D M : Type) where
  catalog : Option D
  result : Option M
  warned : Bool
  detections : Nat

/-- After an iteration or a number of them: still running, or returned. -/
inductive Prog (K D M : Type)
  | running (s : St K D M)
  | done (o : Out D M)

/-- The update of the best parameters (linematchingsolve.cpp:292-298). -/
def keepBest {D M : Type} (n : Nat) (s : St K D M) : St K D M := if s.bestN ≤ n then { s with bestN := n, best := s.cur } else s

/-- The update of the parameters (linematchingsolve.cpp:290-347), after `n` lines were detected. Every path continues the loop before `iCmpt++` (line 348). -/
def update {D M : Type} (e : Env K D M) (n : Nat) (s : St K D M) : Res (Prog K D M) :=
  let s1 := keepBest n s
  if (n : Int) < s1.prevN ∧ s1.newValues = false then .throw .INTERNAL_ERROR
  else if e.dynamic = false then .throw .INTERNAL_ERROR
  else match nextPar s1.cur with
    | some q => .ok (.running { s1 with prevN := n, cur := q.1, newValues := q.2 })
    | none => .ok (.running { s1 with prevN := n, cur := s1.best, newValues := true, bypass := true })

/-- The matching of the lines detected (linematchingsolve.cpp:262-288): the products are stored even when no redshift is found. -/
def tryMatch {D M : Type} (e : Env K D M) (d : D) (s : St K D M) : St K D M × Bool :=
  match e.matching d with
  | some m => ({ s with catalog := some d, result := some m }, decide (e.redshift m ≠ -1) || !e.dynamic)
  | none => ({ s with catalog := some d }, !e.dynamic)

/-- One iteration (linematchingsolve.cpp:242-349). The line detection always returns a result (`CLineDetection::Compute` ends by `return result`). -/
def iter {D M : Type} (e : Env K D M) (s : St K D M) : Res (Prog K D M) :=
  e.detect s.cur >>= fun d =>
  let s1 := { s with tried := s.tried ++ [(s.cur, e.count d)] }
  if 200 ≤ e.count d ∨ s1.bypass = true ∨ e.dynamic = false then
    let r := tryMatch e d s1
    if r.2 = true then .ok (.done ⟨r.1.catalog, r.1.result, false, r.1.tried.length⟩) else update e (e.count d) r.1
  else update e (e.count d) s1

/-- The loop (linematchingsolve.cpp:240-357), for at most `fuel` iterations. -/
def run {D M : Type} (e : Env K D M) : Nat → St K D M → Res (Prog K D M)
  | 0, s => .ok (.running s)
  | fuel + 1, s =>
    if s.iCmpt < 100 then
      iter e s >>= fun p =>
      match p with
      | .running s' => run e fuel s'
      | .done o => .ok (.done o)
    else .ok (.done ⟨s.catalog, s.result, s.iCmpt == 100, s.tried.length⟩)

/-- What the whole method is run on: the spectrum, the inversion of its flux, the peak detection, and the line detection on a spectrum, for a type of lines, from peaks. -/
structure Full (K S P D M : Type) where
  lineTypeStr : String
  spc : S
  invert : S → S
  peaks : S → Option P
  par : Par K
  dynamic : Bool
  detect : LType → S → P → Par K → Res D
  count : D → Nat
  matching : LType → S → D → Option M
  redshift : M → K

/-- The spectrum which is searched (linematchingsolve.cpp:183-187). -/
def Full.spectrum {S P D M : Type} (f : Full K S P D M) : S := if lineType f.lineTypeStr = .absorption then f.invert f.spc else f.spc

/-- The loop on given peaks. -/
def Full.env {S P D M : Type} (f : Full K S P D M) (pk : P) : Env K D M :=
  ⟨f.par, f.dynamic, f.detect (lineType f.lineTypeStr) f.spectrum pk, f.count, f.matching (lineType f.lineTypeStr) f.spectrum, f.redshift⟩

/-- `CLineMatchingSolve::compute` (linematchingsolve.cpp:113-358): the product `peakdetection` and the outcome of the loop. -/
def compute {S P D M : Type} (f : Full K S P D M) (fuel : Nat) : Res (P × Prog K D M) :=
  match f.peaks f.spectrum with
  | none => .throw .INTERNAL_ERROR
  | some pk => run (f.env pk) fuel (init (f.env pk)) >>= fun p => .ok (pk, p)

end LmatchSolve
end Amazed
