import Verif.Model.EltList
import Verif.Model.FitAmp

set_option linter.unusedVariables false

/-! # Joint fit of the amplitudes of several elements

`RedshiftLibrary/src/lib/linemodel/svdfitter.cpp` (fitAmplitudesLinSolve, fitAmplitudesLinSolvePositive).

The linear least squares solver of GSL (`gsl_multifit_wlinear`) is a parameter: from the rows of the matrix, the weights and
the data it gives the coefficients and the diagonal of the covariance matrix, all numbers. `sq` is the square root; a null
error is undefined (infinite weight). The joint fit reads the current spectrum only; `fitAmplitude` reads all of them. -/

namespace Amazed
namespace SvdFit

variable {K G : Type} [Field K] [LinearOrder K] [IsStrictOrderedRing K] [LinearOrder G]

/-- What the joint fit reads: the elements, the profile of each line of each element as a function of the wavelength, the
current spectrum (axis, continuum, flux without continuum, errors), the option `m_enableAmplitudeOffsets`, `DBL_MIN`, the
square root, and for each element what `fitAmplitude` reads in all the spectra. -/
structure Env (K G : Type) where
  es : List (EltList.E K G)
  prof : Nat → Nat → K → K
  axis : List K
  cont : List K
  flux : List K
  err : List K
  offsets : Bool
  tiny : K
  sq : K → K
  obs : Nat → List (FitAmp.Obs K)

/-- One equation of the linear system: row of the matrix, datum and weight. -/
structure Row (K : Type) where
  x : List K
  y : K
  w : K

/-- The solver: coefficients and diagonal of the covariance matrix, indexed from 0. -/
abbrev Solver (K : Type) := List (Row K) → (Nat → K) × (Nat → K)

/-- Range-based loop filling a vector. -/
def mapL {α β : Type} (f : α → Res β) : List α → Res (List β)
  | [] => .ok []
  | a :: l => f a >>= fun b => mapL f l >>= fun bs => .ok (b :: bs)

/-- `getModelAtLambda` without line index (element.cpp:635-672): all the visible lines of the element. -/
def modelAll (e : EltSup.Elt) (emission : Bool) (fl : Nat → EltSup.LineFlux K) (x cont : K) : K :=
  if e.outside then 0
  else (List.range e.n).foldl (fun y k => if (e.theo k).out then y else y + EltSup.contrib emission (fl k) x cont) 0

/-- The value of the element `i` with its current amplitudes (svdfitter.cpp:165-167). -/
def colVal (env : Env K G) (st : List (Amp.Elt K)) (x c : K) (i : Nat) : Res K :=
  Res.at_ env.es i >>= fun e => Res.at_ st i >>= fun pe =>
  .ok (modelAll e.sup pe.isEmission (fun k => ⟨(pe.fa[k]?).getD none, env.prof i k⟩) x c)

/-- `SetElementAmplitude` (lmeltlistvector.cpp:257-262) on the vector of parameters. -/
def setAmp (i : Nat) (a s : Option K) (st : List (Amp.Elt K)) : Res (List (Amp.Elt K)) :=
  Res.at_ st i >>= fun pe => Amp.setAmplitude pe a s >>= fun pe' => .ok (st.set i pe')

/-- The normalisation (svdfitter.cpp:142-148): the largest absolute value of the flux, at least `DBL_MIN`. -/
def maxAbs (env : Env K G) : List ℤ → K → Res K
  | [], m => .ok m
  | p :: l, m => if p < 0 then .ub else Res.at_ env.flux p.toNat >>= fun y => maxAbs env l (if m < |y| then |y| else m)

/-- The equation of a sample (svdfitter.cpp:153-179). -/
def row (env : Env K G) (st : List (Amp.Elt K)) (fit : List Nat) (norm : K) (p : ℤ) : Res (Row K) :=
  if p < 0 then .ub
  else
    Res.at_ env.axis p.toNat >>= fun x => Res.at_ env.flux p.toNat >>= fun y => Res.at_ env.err p.toNat >>= fun s =>
    Res.at_ env.cont p.toNat >>= fun c =>
    mapL (colVal env st x c) fit >>= fun cols =>
    let e := s * norm
    if e = 0 then .ub
    else .ok ⟨cols ++ (if env.offsets then [1, x, x * x] else []), y * norm, 1 / (e * e)⟩

/-- What `fitAmplitudesLinSolve` gives: amplitudes and errors (`none`: `INFINITY`), whether none is negative, the parameters
of the elements, and the coefficients of the polynomial when they are set. -/
structure Out (K : Type) where
  amps : List K
  errs : List (Option K)
  pos : Bool
  st : List (Amp.Elt K)
  poly : Option (K × K × K)

/-- The elements to fit (svdfitter.cpp:97-105); `sel` is `IdxToFit`. -/
def toFit (idx sel : List Nat) : Res (List Nat) := if sel = [] then .ok idx else mapL (fun k => Res.at_ idx k) sel

/-- Setting the fitted amplitudes (svdfitter.cpp:199-209). -/
def setFitted (norm : K) (sol : (Nat → K) × (Nat → K)) (sq : K → K) : List Nat → Nat → List (Amp.Elt K) → Res (List (Amp.Elt K))
  | [], _, st => .ok st
  | i :: l, k, st => setAmp i (some (sol.1 k / norm)) (some (sq (sol.2 k) / norm)) st >>= fun st' => setFitted norm sol sq l (k + 1) st'

/-- The number of parameters (svdfitter.cpp:106-109), `TPolynomCoeffs::degree` being 2 (polynom.h:56). -/
def nddl (env : Env K G) (fit : List Nat) : Nat := fit.length + (if env.offsets then 3 else 0)

/-- `fitAmplitudesLinSolve` (svdfitter.cpp:74-231). -/
def linSolve (env : Env K G) (solve : Solver K) (idx sel : List Nat) (st : List (Amp.Elt K)) : Res (Out K) :=
  if idx = [] then .throw .INTERNAL_ERROR
  else
    EltList.supportIndexes env.es idx >>= fun xs =>
    if xs.length < 1 then .throw .INTERNAL_ERROR
    else
      toFit idx sel >>= fun fit =>
      if xs.length < nddl env fit then
        EltList.foldL (fun i st => setAmp i (some 0) none st) idx st >>= fun st' =>
        .ok ⟨List.replicate idx.length 0, List.replicate idx.length none, true, st', if env.offsets then some (0, 0, 0) else none⟩
      else
        EltList.foldL (fun i st => setAmp i (some 1) (some 0) st) fit st >>= fun st1 =>
        maxAbs env xs env.tiny >>= fun mx =>
        let norm := 1 / mx
        mapL (row env st1 fit norm) xs >>= fun rows =>
        let sol := solve rows
        setFitted norm sol env.sq fit 0 st1 >>= fun st2 =>
        let amps := (List.range fit.length).map fun k => sol.1 k / norm
        let errs := (List.range fit.length).map fun k => some (env.sq (sol.2 k) / norm)
        .ok ⟨amps, errs, amps.all fun a => !decide (a < 0), st2,
          if env.offsets then some (sol.1 fit.length / norm, sol.1 (fit.length + 1) / norm, sol.1 (fit.length + 2) / norm) else none⟩

/-- The separation of the negative amplitudes (svdfitter.cpp:246-254), from index `k`. -/
def split (idx : List Nat) (o : Out K) (k : Nat) : Nat → List Nat × List (Amp.Elt K) → Res (List Nat × List (Amp.Elt K))
  | 0, a => .ok a
  | n + 1, a => Res.at_ o.amps k >>= fun v => Res.at_ idx k >>= fun i =>
    if v < 0 then Res.at_ o.errs k >>= fun s => setAmp i (some 0) s a.2 >>= fun st => split idx o (k + 1) n (a.1, st)
    else split idx o (k + 1) n (a.1 ++ [k], a.2)

/-- `fitAmplitude` on the vector of parameters. -/
def fitOne (env : Env K G) (i : Nat) (st : List (Amp.Elt K)) : Res (List (Amp.Elt K)) :=
  Res.at_ st i >>= fun pe => FitAmp.fitAmplitude env.sq (env.obs i) pe none >>= fun r => .ok (st.set i r.1)

/-- The loop on the elements fitted a second time (svdfitter.cpp:264-272), from index `k`. -/
def refit (env : Env K G) (idx pos : List Nat) (o : Out K) (k : Nat) : Nat → List (Amp.Elt K) → Res (List (Amp.Elt K))
  | 0, st => .ok st
  | n + 1, st => Res.at_ o.amps k >>= fun v => Res.at_ pos k >>= fun q => Res.at_ idx q >>= fun i =>
    (if v > 0 then fitOne env i st else Res.at_ o.errs k >>= fun s => setAmp i (some 0) s st) >>= fun st' => refit env idx pos o (k + 1) n st'

/-- `fitAmplitudesLinSolvePositive` (svdfitter.cpp:236-276). -/
def linSolvePositive (env : Env K G) (solve : Solver K) (idx : List Nat) (st : List (Amp.Elt K)) : Res (List (Amp.Elt K)) :=
  linSolve env solve idx [] st >>= fun o =>
  if o.pos then .ok o.st
  else
    split idx o 0 idx.length ([], o.st) >>= fun r =>
    if env.offsets = false ∧ r.1.length = 1 then
      Res.at_ r.1 0 >>= fun k => Res.at_ idx k >>= fun i => fitOne env i r.2
    else if r.1.length > 0 then
      linSolve env solve idx r.1 r.2 >>= fun o2 =>
      if o2.pos then .ok o2.st else refit env idx r.1 o2 0 r.1.length o2.st
    else .ok r.2

end SvdFit
end Amazed
