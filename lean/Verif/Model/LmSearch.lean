import Verif.Model.FitAmp
import Verif.Model.SpcIndex
import Mathlib.Algebra.Order.Floor.Ring

set_option linter.unusedVariables false

/-! # Searches of the fitters on a grid of parameters, and what they do to the shared index of the spectra

`RedshiftLibrary/src/lib/linemodel/abstractfitter.cpp` (setLambdaOffset, GetLambdaOffsetSteps, fitAmplitudeAndLambdaOffset, fitAsymParameters,
fitAsymIGMCorrection), `svdfitter.cpp` (fitAmplitudesLinSolvePositive, fitAmplitudesLinSolveAndLambdaOffset) and `hybridfitter.cpp` (improveBalmerFit).

The merit of a parameter is a parameter of the searches on the profiles: a fit starts by overwriting what the previous one left. -/

namespace Amazed
namespace LmSearch

variable {K : Type} [Field K] [LinearOrder K] [IsStrictOrderedRing K] [FloorRing K]

/-- `int(x)`: truncation towards zero. -/
def toInt (x : K) : ℤ := if 0 ≤ x then ⌊x⌋ else ⌈x⌉

/-- The number of steps of a search from `lo` to `hi`: `GetLambdaOffsetSteps` (abstractfitter.cpp:353-361) with `half = 0.5`, the three
searches of `fitAsymParameters` (abstractfitter.cpp:453-464) with `half = 1.5`. The loops do nothing for a number that is not positive. -/
def nSteps (half lo hi step : K) : Nat := (toInt ((hi - lo) / step + half)).toNat

/-- The `i`-th value (abstractfitter.cpp:331, 472-476). -/
def value (lo step : K) (i : Nat) : K := lo + step * i

/-- The values tried, in order. -/
def values (half lo hi step : K) : List K := (List.range (nSteps half lo hi step)).map (value lo step)

/-- What `fitAmplitudeAndLambdaOffset` leaves: the last offset set (`none`: the search sets none), the element, its sums, the best merit and its index. -/
structure OffSt (K : Type) where
  off : Option K
  pe : Amp.Elt K
  sums : FitAmp.Sums K
  best : K
  idx : Option Nat

/-- A step of the search (abstractfitter.cpp:391-408); `obs o` are the spectra seen with offset `o`: the supports are those prepared before and only the profiles
change. -/
def offStep (sq : K → K) (obs : K → List (FitAmp.Obs K)) (line : Option Nat) (lo step : K) (i : Nat) (s : OffSt K) : Res (OffSt K) :=
  FitAmp.fitAmplitude sq (obs (value lo step i)) s.pe line >>= fun r =>
  FitAmp.meritFast r.1 r.2 >>= fun m =>
  match m with
  | some x => if x < s.best then .ok ⟨some (value lo step i), r.1, r.2, x, some i⟩ else .ok ⟨some (value lo step i), r.1, r.2, s.best, s.idx⟩
  | none => .ok ⟨some (value lo step i), r.1, r.2, s.best, s.idx⟩

/-- The end of the search (abstractfitter.cpp:410-417). -/
def offEnd (sq : K → K) (obs : K → List (FitAmp.Obs K)) (line : Option Nat) (lo step : K) (s : OffSt K) : Res (OffSt K) :=
  match s.idx with
  | none => .ok s
  | some k => FitAmp.fitAmplitude sq (obs (value lo step k)) s.pe line >>= fun r => .ok { s with off := some (value lo step k), pe := r.1, sums := r.2 }

/-- `fitAmplitudeAndLambdaOffset` (abstractfitter.cpp:373-418) of an element with (`enabled`) or without a line whose offset is to be fitted; `o0` is the offset before,
`big` is `DBL_MAX`. -/
def offsetSearch (sq : K → K) (obs : K → List (FitAmp.Obs K)) (line : Option Nat) (big lo hi step o0 : K) (enabled : Bool) (pe : Amp.Elt K) (sums : FitAmp.Sums K) : Res (OffSt K) :=
  if enabled then
    Res.foldN (offStep sq obs line lo step) 0 (nSteps (1 / 2) lo hi step) ⟨none, pe, sums, big, none⟩ >>= fun s => offEnd sq obs line lo step s
  else FitAmp.fitAmplitude sq (obs o0) pe line >>= fun r => .ok ⟨none, r.1, r.2, big, none⟩

/-- The comparison of the searches on the profiles (abstractfitter.cpp:480-497, 532-543): `m` is `none` for a fit of no positive amplitude or a merit that is NaN. -/
def better {P : Type} (p : P) (m : Option K) (s : K × P) : K × P := match m with
  | some x => if x < s.1 then (x, p) else s
  | none => s

/-- Minimum, maximum and step of a parameter. -/
structure Axis (K : Type) where
  lo : K
  hi : K
  step : K

def Axis.n (a : Axis K) : Nat := nSteps (3 / 2) a.lo a.hi a.step

/-- `fitAsymParameters` (abstractfitter.cpp:446-512): the parameters are (width, asymmetry, delta), `merit` is what the fit gives for them. -/
def asymSearch (merit : K × K × K → Res (Option K)) (big : K) (default : K × K × K) (width asym delta : Axis K) : Res (K × (K × K × K)) :=
  Res.foldN (fun d s => Res.foldN (fun w s => Res.foldN (fun a s =>
    merit (value width.lo width.step w, value asym.lo asym.step a, value delta.lo delta.step d) >>= fun m =>
    .ok (better (value width.lo width.step w, value asym.lo asym.step a, value delta.lo delta.step d) m s)) 0 asym.n s) 0 width.n s) 0 delta.n (big, default)

/-- The fits of one igm index (abstractfitter.cpp:525-531): the validity is that of at least one of the elements. -/
def igmValid (fits : List (Option K)) : Bool := fits.any fun a => match a with
  | some x => decide (0 < x)
  | none => false

/-- `fitAsymIGMCorrection` (abstractfitter.cpp:514-547): `amp i` are the amplitudes of the elements fitted with igm index `i` (`none`: NaN), `rms i` is the residual; gives the index, `none` for
`undefIdx`. -/
def igmSearch (amp : Nat → List (Option K)) (rms : Nat → Option K) (big : K) (count : Nat) : Option Nat :=
  ((List.range count).foldl (fun s i => better (some i) (if igmValid (amp i) then rms i else none) s) (big, none)).2

/-! ## The shared index

Only the accesses to the shared index of the spectra are kept: reads through an accessor that asserts it, loops over the spectra and resets. A loop sets the index to 0
and leaves it at the number of spectra, or where it breaks. -/

/-- An access to the index. -/
inductive Act
  | read
  | loop
  | stopAt (k : Nat)
  | reset
deriving DecidableEq

/-- The effect on the index of `n` spectra (obsiterator.h:74-95). -/
def exec (n : Nat) : List Act → Nat → Res Nat
  | [], cur => .ok cur
  | .read :: l, cur => if cur < n then exec n l cur else .throw .INVALID_SPECTRUM_INDEX
  | .loop :: l, _ => exec n l n
  | .stopAt k :: l, _ => exec n l k
  | .reset :: l, _ => exec n l 0

/-- What the fit of an amplitude meets: the first spectrum that sees the element, and whether the sums are those of a fit. -/
structure FitCase where
  first : Option Nat
  fitted : Bool

/-- `fitAmplitude` (abstractfitter.cpp:261-326). -/
def fitAmp (c : FitCase) : List Act := match c.first with
  | none => [.loop]
  | some k => [.stopAt k, .read, .loop] ++ (if c.fitted then [.stopAt 0] else [])

/-- `fitAmplitudesLinSolve` (svdfitter.cpp:78-231): the accessors are all called before any loop. -/
def linSolve : List Act := [.read]

/-- The branches of `fitAmplitudesLinSolvePositive`: all amplitudes positive (or none), one positive amplitude refitted alone, several refitted together with success, or each
of them refitted alone (`none`: set to 0). -/
inductive Branch
  | allPositive
  | one (c : FitCase)
  | together
  | each (l : List (Option FitCase))

/-- `fitAmplitudesLinSolvePositive` (svdfitter.cpp:236-275). -/
def jointFit : Branch → List Act
  | .allPositive => linSolve
  | .one c => linSolve ++ fitAmp c ++ [.reset]
  | .together => linSolve ++ linSolve
  | .each l => linSolve ++ linSolve ++ l.flatMap fun c => match c with
    | some c => fitAmp c ++ [.reset]
    | none => []

/-- A step of the search of the offset (svdfitter.cpp:287-308): the fit, the refresh of the model of the current spectrum and the loop of
`getModelResidualRmsUnderElements` (spectrummodel.h:150-172). -/
def jointStep (b : Branch) : List Act := jointFit b ++ [.read, .loop]

/-- `fitAmplitudesLinSolveAndLambdaOffset` (svdfitter.cpp:277-319): `steps` are the branches of the steps, `last` that of the last fit, when there is one. -/
def jointSearch (enabled : Bool) (steps : List Branch) (last : Option Branch) : List Act :=
  (if enabled then steps.flatMap jointStep else steps.flatMap jointFit) ++ (match last with
    | some b => jointFit b
    | none => [])

/-- A Balmer pair of `improveBalmerFit` (hybridfitter.cpp:208-323): skipped before any access to the spectra (not found), after the reads (`none`), or refitted. -/
inductive Pair
  | missing
  | skipped
  | refitted

/-- Its accesses: the element list, then the residual (264-266), the fit (290), the refresh (293) and the residual again (294). -/
def balmerPair : Pair → List Act
  | .missing => []
  | .skipped => [.read]
  | .refitted => [.read] ++ [.loop] ++ linSolve ++ [.read, .loop]

/-- `improveBalmerFit` (hybridfitter.cpp:184-325). -/
def balmer (l : List Pair) : List Act := l.flatMap balmerPair

/-- The fit of a group in `fitAmplitudesHybrid` (hybridfitter.cpp:151-169): individual, with its number of steps, or joint. -/
inductive Group
  | individual (steps : List FitCase) (enabled : Bool) (last : Option FitCase)
  | joint (enabled : Bool) (steps : List Branch) (last : Option Branch)

def individualFit (steps : List FitCase) (enabled : Bool) (last : Option FitCase) : List Act :=
  (steps.flatMap fun c => fitAmp c ++ (if enabled then [.reset] else [])) ++ (match last with
    | some c => fitAmp c
    | none => [])

def group : Group → List Act
  | .individual st en last => [.read, .reset] ++ individualFit st en last ++ [.reset]
  | .joint en st last => [.read, .reset] ++ jointSearch en st last ++ [.reset]

/-- `fitAmplitudesHybrid` (hybridfitter.cpp:120-179). -/
def hybrid (gs : List Group) (pairs : Option (List Pair)) : List Act :=
  [.reset, .read] ++ gs.flatMap group ++ (match pairs with
    | some l => balmer l
    | none => [])

end LmSearch
end Amazed
