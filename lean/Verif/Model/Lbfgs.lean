import Verif.Model.SvdFit
import Verif.Model.Polynom

set_option linter.unusedVariables false

/-! # `CLbfgsbFitter` (`src/lib/linemodel/gaussianfit/lbfgsbfitter.cpp`)

Non-linear fit of the amplitudes, the velocities, the wavelength offset and a polynomial of a group of elements, on one spectrum. The minimiser of LBFGS++ is a parameter: the list of the points
where it evaluates the cost, and its outcome (a point, or an exception of the library). The linear fit that gives the initial guess, the test of its signal to noise ratio, the supports
(`prepareSupport`), the profiles of the lines and the uncertainty of the final amplitudes are parameters. The function `ComputeLeastSquareAndGrad`, which is not called, is not modelled. -/

namespace Amazed
namespace Lbfgs

open Amp (LType)

variable {K : Type} [Field K] [LinearOrder K] [IsStrictOrderedRing K]

/-- The members of `TLineModelElementParam` (RedshiftLibrary/linemodel/elementparam.h:63-94) used by the fit: those of `Amp.Elt`, the velocities, the offsets of the lines in the catalogue and
in the model (km/s), the polynomial. -/
structure P (K : Type) where
  a : Amp.Elt K
  velE : K
  velA : K
  cat : List K
  off : List K
  poly : Polynom.Poly K
deriving DecidableEq

/-- The options (lbfgsbfitter.h:118-146, abstractfitter.h) and `SPEED_OF_LIGHT_IN_VACCUM`. -/
structure Cfg (K : Type) where
  velFit : Bool
  offFit : Bool
  polyFit : Bool
  minE : K
  maxE : K
  minA : K
  maxA : K
  iniE : K
  iniA : K
  offMin : K
  offMax : K
  light : K

/-! ## Positions of the parameters -/

/-- The local variables `lineType`, `nddl`, `param_idx` and the positions (lbfgsbfitter.cpp:353-400). -/
structure Lay where
  type : LType
  nddl : Nat
  idx : Nat
  velA : Option Nat
  velE : Option Nat
  off : Option Nat
  poly : Option Nat
deriving DecidableEq

/-- The loop that looks for another type of element (lbfgsbfitter.cpp:370-377). -/
def scan (v : Nat) : List LType → Lay → Lay
  | [], l => l
  | t :: ts, l => scan v ts (if l.type ≠ t then { l with type := .all, nddl := l.nddl + 1, idx := l.idx + 1, velA := some v, velE := some (v + 1) } else l)

/-- The velocities (lbfgsbfitter.cpp:353-378). -/
def layVel (velFit : Bool) (types : List LType) : Lay :=
  let n := types.length
  if velFit then
    let t := types.headD .all
    scan n types ⟨t, n + 1, n + 1, if t = .absorption then some n else none, if t = .absorption then none else some n, none, none⟩
  else ⟨.all, n, n, none, none, none, none⟩

/-- The wavelength offset (lbfgsbfitter.cpp:380-385). -/
def layOff (offFit : Bool) (l : Lay) : Lay := if offFit then { l with nddl := l.nddl + 1, off := some l.idx, idx := l.idx + 1 } else l

/-- The polynomial (lbfgsbfitter.cpp:392-398), `TPolynomCoeffs::degree` being 2 (polynom.h:56). -/
def layPoly (polyFit : Bool) (l : Lay) : Lay := if polyFit then { l with nddl := l.nddl + 3, poly := some l.idx, idx := l.idx + 3 } else l

/-- The positions of all the parameters (lbfgsbfitter.cpp:353-398). -/
def layout (c : Cfg K) (types : List LType) : Lay := layPoly c.polyFit (layOff c.offFit (layVel c.velFit types))

/-! ## Bounds and initial guess -/

/-- A number of a vector of Eigen allocated without value: not set, infinite or a number. -/
inductive Cell (K : Type) where
  | unset
  | neg
  | pos
  | val (x : K)
deriving DecidableEq, Repr

/-- The assignment `v[i] = c`; `undefIdx` is `none`. -/
def put (i : Option Nat) (c : Cell K) (v : List (Cell K)) : Res (List (Cell K)) :=
  match i with
  | some k => if k < v.length then .ok (v.set k c) else .ub
  | none => .ub

/-- `GetMaxNominalAmplitude` (elementparam.cpp:262-266): the largest nominal amplitude; none for an element without line. -/
def maxNominal : List K → Option K
  | [] => none
  | x :: l => some (l.foldl max x)

/-- The upper bound of an amplitude (lbfgsbfitter.cpp:439-446). -/
def ampMax (e : Amp.Elt K) : Res (Cell K) :=
  if e.type = .absorption ∧ 0 < e.absLimit then
    match maxNominal e.nominal with
    | some m => if m = 0 then .ub else .ok (.val (e.absLimit / m))
    | none => .ub
  else .ok .pos

/-- The bounds of the amplitudes (lbfgsbfitter.cpp:436-447), from position `k`. -/
def ampBounds (st : List (P K)) : List Nat → Nat → List (Cell K) × List (Cell K) → Res (List (Cell K) × List (Cell K))
  | [], _, b => .ok b
  | i :: l, k, b => Res.at_ st i >>= fun p => ampMax p.a >>= fun m => put (some k) (.val 0) b.1 >>= fun lo => put (some k) m b.2 >>= fun hi => ampBounds st l (k + 1) (lo, hi)

/-- The bounds of the velocities (lbfgsbfitter.cpp:449-462); `normVel` is `m_velfitMaxE`, the division by zero is undefined. -/
def velBounds (c : Cfg K) (l : Lay) (b : List (Cell K) × List (Cell K)) : Res (List (Cell K) × List (Cell K)) :=
  if c.velFit = false then .ok b
  else if c.maxE = 0 then .ub
  else
    (if l.type = .emission then .ok b else put l.velA (.val (c.minA / c.maxE)) b.1 >>= fun lo => put l.velA (.val (c.maxA / c.maxE)) b.2 >>= fun hi => .ok (lo, hi)) >>= fun b =>
    (if l.type = .absorption then .ok b else put l.velE (.val (c.minE / c.maxE)) b.1 >>= fun lo => put l.velE (.val (c.maxE / c.maxE)) b.2 >>= fun hi => .ok (lo, hi))

/-- The scale of the offset (lbfgsbfitter.cpp:424). -/
def normOff (c : Cfg K) : K := c.offMax / c.light

/-- The bounds of the offset (lbfgsbfitter.cpp:465-471). -/
def offBounds (c : Cfg K) (l : Lay) (b : List (Cell K) × List (Cell K)) : Res (List (Cell K) × List (Cell K)) :=
  if c.offFit = false then .ok b
  else if c.light = 0 ∨ normOff c = 0 then .ub
  else put l.off (.val (c.offMin / c.light / normOff c)) b.1 >>= fun lo => put l.off (.val (c.offMax / c.light / normOff c)) b.2 >>= fun hi => .ok (lo, hi)

/-- The three assignments of a loop over the coefficients. -/
def put3 (i : Option Nat) (x y z : Cell K) (v : List (Cell K)) : Res (List (Cell K)) :=
  put i x v >>= fun v => put (i.map (· + 1)) y v >>= fun v => put (i.map (· + 2)) z v

/-- The bounds of the polynomial (lbfgsbfitter.cpp:474-483). -/
def polyBounds (c : Cfg K) (l : Lay) (b : List (Cell K) × List (Cell K)) : Res (List (Cell K) × List (Cell K)) :=
  if c.polyFit = false then .ok b
  else put3 l.poly .neg .neg .neg b.1 >>= fun lo => put3 l.poly .pos .pos .pos b.2 >>= fun hi => .ok (lo, hi)

/-- The bounds of all the parameters (lbfgsbfitter.cpp:430-483). -/
def bounds (c : Cfg K) (l : Lay) (st : List (P K)) (idx : List Nat) : Res (List (Cell K) × List (Cell K)) :=
  ampBounds st idx 0 (List.replicate l.nddl .unset, List.replicate l.nddl .unset) >>= fun b =>
  velBounds c l b >>= fun b => offBounds c l b >>= fun b => polyBounds c l b

/-- The guess of the amplitudes (lbfgsbfitter.cpp:503-517), from position `k`. -/
def ampGuess (norm : K) (st : List (P K)) : List Nat → Nat → List (Cell K) → Res (List (Cell K))
  | [], _, v => .ok v
  | i :: l, k, v => Res.at_ st i >>= fun p => Amp.elementAmplitude p.a >>= fun a =>
    match a with
    | none => .throw .INTERNAL_ERROR
    | some a => put (some k) (.val (a * norm)) v >>= fun v => ampGuess norm st l (k + 1) v

/-- The guess of the velocities (lbfgsbfitter.cpp:539-548). -/
def velGuess (c : Cfg K) (l : Lay) (v : List (Cell K)) : Res (List (Cell K)) :=
  if c.velFit = false then .ok v
  else if c.maxE = 0 then .ub
  else
    (if l.type = .emission then .ok v else put l.velA (.val (c.iniA / c.maxE)) v) >>= fun v =>
    (if l.type = .absorption then .ok v else put l.velE (.val (c.iniE / c.maxE)) v)

/-- The guess of the polynomial (lbfgsbfitter.cpp:526-536): the coefficients of the first element, normalised. -/
def polyGuess (c : Cfg K) (l : Lay) (norm : K) (pc : Polynom.Norm K) (st : List (P K)) (idx : List Nat) (v : List (Cell K)) : Res (List (Cell K)) :=
  if c.polyFit = false then .ok v
  else
    Res.at_ idx 0 >>= fun i => Res.at_ st i >>= fun p =>
    let q := pc.setCoeffs ⟨p.poly.a0 * norm, p.poly.a1 * norm, p.poly.a2 * norm⟩
    put3 l.poly (.val q.a0) (.val q.a1) (.val q.a2) v

/-- The guess of the offset (lbfgsbfitter.cpp:550-552). -/
def offGuess (c : Cfg K) (l : Lay) (v : List (Cell K)) : Res (List (Cell K)) := if c.offFit = false then .ok v else put l.off (.val 0) v

/-- The value of a set number; reading another one is undefined here (a guess is never infinite). -/
def Cell.get : Cell K → Res K
  | .val x => .ok x
  | _ => .ub

/-- All the bounds are set. -/
def allSet (v : List (Cell K)) : Bool := v.all fun c => decide (c ≠ .unset)

/-! ## Cost -/

/-- Loop over the elements of a list with a counter: the parameters of each element are replaced. -/
def each (f : Nat → P K → Res (P K)) : List Nat → Nat → List (P K) → Res (List (P K))
  | [], _, st => .ok st
  | i :: l, k, st => Res.at_ st i >>= fun p => f k p >>= fun p' => each f l (k + 1) (st.set i p')

/-- `SetElementAmplitude` (lmeltlistvector.cpp:257-262). -/
def P.setAmp (p : P K) (a s : Option K) : Res (P K) := Amp.setAmplitude p.a a s >>= fun e => .ok { p with a := e }

/-- Reading a parameter, `undefIdx` being out of bounds. -/
def rd (x : List K) : Option Nat → Res K
  | some k => Res.at_ x k
  | none => .ub

/-- The velocity of an element for a vector of parameters (lbfgsbfitter.cpp:148-155). -/
def velOf (c : Cfg K) (l : Lay) (x : List K) (p : P K) : Res (P K) :=
  if p.a.isEmission then rd x l.velE >>= fun v => .ok { p with velE := v * c.maxE } else rd x l.velA >>= fun v => .ok { p with velA := v * c.maxE }

/-- The new offset of a line (lbfgsbfitter.cpp:168-171, 630-634). -/
def shift (c : Cfg K) (d o : K) : K := (o / c.light + (1 + o / c.light) * d) * c.light

/-- The offsets of the lines of an element (lbfgsbfitter.cpp:158-184, 626-637). -/
def offOf (c : Cfg K) (l : Lay) (x : List K) (p : P K) : Res (P K) :=
  if c.light = 0 then .ub else rd x l.off >>= fun d => .ok { p with off := p.cat.map (shift c (d * normOff c)) }

/-- `prepareSupport` of an element (element.cpp): the lines out of the spectrum, from the velocities and the offsets (parameter `prep`). -/
def prepOf (prep : Nat → K → K → List K → Bool × List Bool) (i : Nat) (p : P K) : P K :=
  { p with a := { p.a with outside := (prep i p.velE p.velA p.off).1, outsideLine := (prep i p.velE p.velA p.off).2 } }

/-- The supports of the elements of a list (lbfgsbfitter.cpp:189-193, 669-673). -/
def prepAll (prep : Nat → K → K → List K → Bool × List Bool) : List Nat → List (P K) → Res (List (P K))
  | [], st => .ok st
  | i :: l, st => Res.at_ st i >>= fun p => prepAll prep l (st.set i (prepOf prep i p))

/-- `setGlobalOutsideLambdaRangeFromSpectra` (lmeltlistvector.cpp:289-297) for one spectrum. -/
def globals (st : List (P K)) : List (P K) := st.map fun p => { p with a := { p.a with gOutside := p.a.outside, gOutsideLine := p.a.outsideLine } }

/-- `unpack` (lbfgsbfitter.cpp:131-206) without the coefficients of the polynomial. -/
def unpack (c : Cfg K) (l : Lay) (prep : Nat → K → K → List K → Bool × List Bool) (idx : List Nat) (x : List K) (st : List (P K)) : Res (List (P K)) :=
  each (fun k p => Res.at_ x k >>= fun a => p.setAmp (some a) (some 0)) idx 0 st >>= fun st =>
  (if c.velFit then each (fun _ => velOf c l x) idx 0 st else .ok st) >>= fun st =>
  (if c.offFit then each (fun _ => offOf c l x) idx 0 st else .ok st) >>= fun st =>
  prepAll prep idx st >>= fun st => .ok (globals st)

/-- The coefficients of the polynomial in a vector of parameters (lbfgsbfitter.cpp:196-203). -/
def unpackPoly (c : Cfg K) (l : Lay) (pc : Polynom.Norm K) (x : List K) : Res (Polynom.Norm K) :=
  if c.polyFit then rd x l.poly >>= fun a => rd x (l.poly.map (· + 1)) >>= fun b => rd x (l.poly.map (· + 2)) >>= fun d => .ok { pc with a0 := a, a1 := b, a2 := d } else .ok pc

/-- The spectrum: axis, flux without continuum, errors, continuum. -/
structure Spc (K : Type) where
  axis : List K
  flux : List K
  err : List K
  cont : List K

/-- The contribution of a line to `getModelAtLambda` (element.cpp:646-663); `none` is NaN. -/
def lineAt (e : Amp.Elt K) (prof : Nat → K) (c : K) (k : Nat) : K :=
  if (e.outsideLine[k]?).getD false then 0
  else match (e.fa[k]?).getD none with
    | none => 0
    | some a => if a < 0 then 0 else if e.isEmission then a * prof k else c * (-1 * a * prof k)

/-- `getModelAtLambda` of an element without line index (element.cpp:635-672). -/
def modelAt (e : Amp.Elt K) (prof : Nat → K) (c : K) : K := if e.outside then 0 else (List.range e.lines.length).foldl (fun y k => y + lineAt e prof c k) 0

/-- The values of the profiles of an element, from its velocities and offsets: `prof element velE velA off wavelength line`. -/
abbrev Prof (K : Type) := Nat → K → K → List K → K → Nat → K

/-- The sum of the models of the elements (lbfgsbfitter.cpp:224-232). -/
def modelSum (prof : Prof K) (st : List (P K)) (x c : K) : List Nat → K → Res K
  | [], s => .ok s
  | i :: l, s => Res.at_ st i >>= fun p => modelSum prof st x c l (s + modelAt p.a (prof i p.velE p.velA p.off x) c)

/-- The sum of the squares of the data (lbfgsbfitter.cpp:75-85); a null error is undefined. -/
def sumData (s : Spc K) (norm : K) : List Nat → K → Res K
  | [], a => .ok a
  | i :: l, a => Res.at_ s.flux i >>= fun y => Res.at_ s.err i >>= fun e =>
    if e * norm = 0 then .ub else sumData s norm l (a + y * norm * (y * norm) / (e * norm * (e * norm)))

/-- `ComputeLeastSquare` (lbfgsbfitter.cpp:209-242), from the sum of the squares of the data. -/
def leastSq (c : Cfg K) (prof : Prof K) (s : Spc K) (norm : K) (pc : Polynom.Norm K) (idx : List Nat) (st : List (P K)) : List Nat → K → Res K
  | [], a => .ok a
  | i :: l, a => Res.at_ s.axis i >>= fun x => Res.at_ s.flux i >>= fun y => Res.at_ s.err i >>= fun e => Res.at_ s.cont i >>= fun q =>
    modelSum prof st x q idx 0 >>= fun f => (if c.polyFit then pc.value x >>= fun v => .ok (f + v) else .ok f) >>= fun f =>
    if e * norm = 0 then .ub else leastSq c prof s norm pc idx st l (a + (f * f - 2 * (y * norm) * f) / (e * norm * (e * norm)))

/-- `CLeastSquare::operator()` (lbfgsbfitter.cpp:89-101): the parameters of the elements after the evaluation, and the cost. -/
def cost (c : Cfg K) (l : Lay) (prep : Nat → K → K → List K → Bool × List Bool) (prof : Prof K) (s : Spc K) (norm : K) (pc : Polynom.Norm K) (xs idx : List Nat) (x : List K) (st : List (P K)) :
    Res (List (P K) × K) :=
  unpack c l prep idx x st >>= fun st' => unpackPoly c l pc x >>= fun q => sumData s norm xs 0 >>= fun d => leastSq c prof s norm q idx st' xs d >>= fun v => .ok (st', v)

/-- The evaluations of the cost by the minimiser, one after the other. -/
def evals (f : List K → List (P K) → Res (List (P K) × K)) : List (List K) → List (P K) → Res (List (P K))
  | [], st => .ok st
  | x :: l, st => f x st >>= fun r => evals f l r.1

/-! ## The fit -/

/-- The largest absolute value of the flux (lbfgsbfitter.cpp:417-422). -/
def maxAbs (s : Spc K) : List Nat → K → Res K
  | [], m => .ok m
  | i :: l, m => Res.at_ s.flux i >>= fun y => maxAbs s l (max m |y|)

/-- The normalised polynomial (lbfgsbfitter.cpp:65-72): null coefficients. -/
def polyInit (c : Cfg K) (s : Spc K) (xs : List Nat) : Res (Polynom.Norm K) :=
  if c.polyFit then
    Res.at_ xs (xs.length - 1) >>= fun j => Res.at_ s.axis j >>= fun b => Res.at_ xs 0 >>= fun i => Res.at_ s.axis i >>= fun a =>
    Polynom.Norm.new (1 / 2 * (b + a)) (1 / 2 * (b - a)) 0 0 0
  else .ok ⟨0, 0, 0, 0, 1⟩

/-- The velocity guess given to the elements before the linear fit (lbfgsbfitter.cpp:490-499). -/
def velIni (c : Cfg K) (p : P K) : P K := if p.a.type = .absorption then { p with velA := c.iniA } else { p with velE := c.iniE }

/-- Storing the velocity of an element (lbfgsbfitter.cpp:601-622). -/
def storeVel (c : Cfg K) (l : Lay) (x : List K) (p : P K) : Res (P K) :=
  if (if l.type = .all then p.a.type else l.type) = .absorption then rd x l.velA >>= fun v => .ok { p with velA := v * c.maxE }
  else rd x l.velE >>= fun v => .ok { p with velE := v * c.maxE }

/-- Storing the polynomial of an element (lbfgsbfitter.cpp:640-658). -/
def storePoly (norm : K) (q : Polynom.Poly K) (p : P K) : P K := { p with poly := ⟨q.a0 / norm, q.a1 / norm, q.a2 / norm⟩ }

/-- Storing the best point (lbfgsbfitter.cpp:594-658), with an unknown uncertainty of the amplitudes. -/
def store (c : Cfg K) (l : Lay) (norm : K) (pc : Polynom.Norm K) (idx : List Nat) (x : List K) (st : List (P K)) : Res (List (P K)) :=
  each (fun k p => Res.at_ x k >>= fun a => p.setAmp (some (a / norm)) none) idx 0 st >>= fun st =>
  (if c.velFit then each (fun _ => storeVel c l x) idx 0 st else .ok st) >>= fun st =>
  (if c.offFit then each (fun _ => offOf c l x) idx 0 st else .ok st) >>= fun st =>
  if c.polyFit then unpackPoly c l pc x >>= fun q => q.getCoeffs >>= fun r => each (fun _ p => .ok (storePoly norm r p)) idx 0 st else .ok st

/-- The division of the uncertainties by the nominal amplitudes (lbfgsbfitter.cpp:714-717). -/
def divStd : List (Option K) → List K → Res (List (Option K))
  | s :: ss, n :: ns => Amp.vDiv s (some n) >>= fun q => divStd ss ns >>= fun r => .ok (q :: r)
  | _, _ => .ok []

/-- The uncertainties (lbfgsbfitter.cpp:679-718), from position `k`: `sd i` is `amp_std` of the element `i`; the loop stops at the first element out of the range. -/
def uncert (sd : Nat → Option K) (norm : K) (x : List K) : List Nat → Nat → List (P K) → Res (List (P K))
  | [], _, st => .ok st
  | i :: l, k, st => Res.at_ st i >>= fun p => Res.at_ x k >>= fun a =>
    if p.a.outside then p.setAmp none none >>= fun p' => .ok (st.set i p')
    else p.setAmp (some (a / norm)) (sd i) >>= fun p' => divStd p'.a.fastd p'.a.nominal >>= fun s =>
      uncert sd norm x l (k + 1) (st.set i { p' with a := { p'.a with fastd := s } })

/-- What the fit takes from outside: the linear fit (`CSvdFitter::fitAmplitudesLinSolvePositive`), the test of the signal to noise ratio of its amplitudes, the supports, the profiles, the uncertainties as a function
of the final parameters, the points evaluated by the minimiser and its outcome (`none`: an exception of LBFGS++). -/
structure Ext (K : Type) where
  svd : List (P K) → Res (List (P K))
  lowSnr : List (P K) → Bool
  prep : Nat → K → K → List K → Bool × List Bool
  prof : Prof K
  sd : List (P K) → Nat → Option K
  trace : List (List K)
  best : Option (List K)

/-- The vectors given to the minimiser (lbfgsbfitter.cpp:430-552) after the linear fit: bounds and guess. -/
def problem (c : Cfg K) (l : Lay) (norm : K) (pc : Polynom.Norm K) (idx : List Nat) (st : List (P K)) : Res ((List (Cell K) × List (Cell K)) × List (Cell K)) :=
  bounds c l st idx >>= fun b => ampGuess norm st idx 0 (List.replicate l.nddl .unset) >>= fun g => polyGuess c l norm pc st idx g >>= fun g =>
  velGuess c l g >>= fun g => offGuess c l g >>= fun g => .ok (b, g)

/-- The call of the minimiser and the rest (lbfgsbfitter.cpp:579-718): reading an entry of the bounds or of the guess that was never set is undefined. -/
def solve (c : Cfg K) (x : Ext K) (l : Lay) (s : Spc K) (norm : K) (pc : Polynom.Norm K) (xs idx : List Nat) (pb : (List (Cell K) × List (Cell K)) × List (Cell K)) (st : List (P K)) :
    Res (List (P K)) :=
  if allSet pb.1.1 = false ∨ allSet pb.1.2 = false then .ub
  else
    SvdFit.mapL Cell.get pb.2 >>= fun guess =>
    evals (cost c l x.prep x.prof s norm pc xs idx) x.trace st >>= fun st =>
    store c l norm pc idx (x.best.getD guess) st >>= fun st =>
    prepAll x.prep idx st >>= fun st =>
    uncert (x.sd (globals st)) norm (x.best.getD guess) idx 0 (globals st)

/-- The types of the elements of a list. -/
def typesOf (st : List (P K)) (idx : List Nat) : Res (List LType) := SvdFit.mapL (fun i => Res.at_ st i >>= fun p => .ok p.a.type) idx

/-- `CLbfgsbFitter::fitAmplitudesLinSolvePositive` (lbfgsbfitter.cpp:345-719) on the elements `idx`, with the samples `xs` of their supports. The uncertainty `INFINITY` is written `none`. -/
def fit (c : Cfg K) (x : Ext K) (s : Spc K) (xs idx : List Nat) (st : List (P K)) : Res (List (P K)) :=
  if idx = [] then .throw .INTERNAL_ERROR
  else
    typesOf st idx >>= fun types =>
    if xs.length < 1 then .throw .INTERNAL_ERROR
    else if xs.length < (layout c types).nddl then
      each (fun _ p => p.setAmp (some 0) none) idx 0 st >>= fun st =>
      if c.polyFit then each (fun _ p => .ok { p with poly := ⟨0, 0, 0⟩ }) idx 0 st else .ok st
    else
      maxAbs s xs 0 >>= fun m => if m = 0 then .ub else
      polyInit c s xs >>= fun pc =>
      each (fun _ p => .ok (velIni c p)) idx 0 st >>= fun st => x.svd st >>= fun st =>
      problem c (layout c types) (1 / m) pc idx st >>= fun pb =>
      if x.lowSnr st then .ok st else solve c x (layout c types) s (1 / m) pc xs idx pb st

end Lbfgs
end Amazed
