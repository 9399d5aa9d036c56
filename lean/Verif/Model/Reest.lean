import Verif.Model.SpcModel

set_option linter.unusedVariables false

/-! # Continuum of the line model from one fit to the next, and its re-estimation

`CLineModelFitting::fit` (src/lib/linemodel/linemodelfitting.cpp:314-431), `CSpectrumModel::setContinuumComponent` and `EstimateSpectrumContinuum`
(src/lib/linemodel/spectrummodel.cpp:149-203, 419-478), `CHybridFitter::doFit` (src/lib/linemodel/hybridfitter.cpp:65-99) and the numbers of iterations of the stages
(src/lib/operator/linemodel.cpp:137-140, 914-926, 1160, 1496-1500).

Parameters (`Env`): the amplitude fit, the flux of the lines, the continuum estimator of a spectrum (a function of its flux; `Median`, `MedCont`), the merit, the continuum of the
template fit, the first call of the line ratio. Each of them may throw. The amplitude fit starts by resetting all the fitted parameters (abstractfitter.cpp:161-177,
`resetElementsFittingParam`) and is taken as a function of the redshift, the line ratio and the fluxes of the models only. -/

namespace Amazed
namespace Reest

open SpcModel (St)

deriving instance DecidableEq for SpcModel.St

variable {K : Type} [Field K] [LinearOrder K] [IsStrictOrderedRing K] {R E : Type}

/-- `continuumComponent`; `tplFitAuto` behaves as `tplFit` until it is replaced by `fromSpectrum`. -/
inductive Comp where
  | noContinuum | fromSpectrum | tplFit
deriving DecidableEq

/-- What the loop calls. `hyb i z ms` is `fitAmplitudesHybrid` (or the `doFit` of another fitter) for line ratio `i`; `lines e o z c` the flux `refreshModel` of observation `o` produces from the continuum `c`
(`SpcModel.refresh`); `med o f` the continuum of the input spectrum `o` with its flux replaced by `f`; `inp o` the continuum of the input spectrum;
`tpl k z o` the continuum of template fit `k` (`setContinuumFromTplFit`); `merit` is `computeMerit`; `skip` the test of `init`. -/
structure Env (K R E : Type) where
  hyb : Nat → R → List (St K) → Res E
  lines : E → Nat → R → List K → Res (List K)
  med : Nat → List K → Res (List K)
  inp : Nat → List K
  tpl : Nat → R → Nat → Res (List K)
  merit : E → Nat → R → List (St K) → Res K
  skip : Nat → R → Bool

/-- `setContinuumComponent` of one model (spectrummodel.cpp:424-453): `raw` and `cont` are the flux and the continuum of the input spectrum. -/
def setComponent (c : Comp) (raw cont : List K) (s : St K) : St K :=
  match c with
  | .noContinuum => { s with noCont := raw, spc := raw, model := List.replicate raw.length 0, cont := List.replicate raw.length 0 }
  | .fromSpectrum => { s with noCont := SpcModel.sub raw cont, spc := raw, cont := cont, model := cont }
  | .tplFit => { s with spc := raw, model := List.replicate raw.length 0, cont := List.replicate raw.length 0 }

/-- The factor applied to the lines (spectrummodel.cpp:184-191, `filterOnlyAbs` being false). -/
def enhance (f : K) (l : List K) : List K := if f > 0 then l.map (· * f) else l

/-- `EstimateSpectrumContinuum` (spectrummodel.cpp:149-203) of observation `o`. -/
def estimate (env : Env K R E) (f : K) (o : Nat) (s : St K) : Res (St K) :=
  env.med o (SpcModel.sub s.spc (enhance f (SpcModel.sub s.model s.cont))) >>= fun c => .ok { s with cont := c }

/-- The factor of iteration `it` of `nIt` (hybridfitter.cpp:81-85). -/
def factor (nIt it : Nat) : K :=
  if nIt > 2 * it ∧ nIt > 3 ∧ it ≤ 3 then 2 - it * (33 / 100) else 0

/-- The body of an iteration on the first model (hybridfitter.cpp:80-94): refresh, estimate, `initModelWithContinuum`. -/
def reestOne (env : Env K R E) (z : R) (e : E) (f : K) (s : St K) : Res (St K) :=
  env.lines e 0 z s.cont >>= fun m =>
  estimate env f 0 { s with model := m } >>= fun s1 =>
  .ok (SpcModel.initWithContinuum s1)

/-- `getModel()` with the index reset to the first observation (hybridfitter.cpp:67); an empty list throws. -/
def onFirst (f : St K → Res (St K)) : List (St K) → Res (List (St K))
  | [] => .throw .INTERNAL_ERROR
  | s :: ss => f s >>= fun s' => .ok (s' :: ss)

/-- The loop of `doFit` (hybridfitter.cpp:73-98) from iteration `it`, `n` iterations remaining. -/
def loop (env : Env K R E) (i : Nat) (z : R) (nIt : Nat) : Nat → Nat → E × List (St K) → Res (E × List (St K))
  | 0, _, p => .ok p
  | n + 1, it, p =>
    onFirst (reestOne env z p.1 (factor nIt it)) p.2 >>= fun ms =>
    env.hyb i z ms >>= fun e => loop env i z nIt n (it + 1) (e, ms)

/-- `CHybridFitter::doFit` (hybridfitter.cpp:65-99) for line ratio `i`; another fitter ignores the number of iterations: `nIt = 0`. -/
def doFit (env : Env K R E) (i : Nat) (z : R) (nIt : Nat) (ms : List (St K)) : Res (E × List (St K)) :=
  env.hyb i z ms >>= fun e => loop env i z nIt nIt 0 (e, ms)

/-- `f` applied to each observation with its number. -/
def each (f : Nat → St K → Res (St K)) : Nat → List (St K) → Res (List (St K))
  | _, [] => .ok []
  | o, s :: ss => f o s >>= fun s' => each f (o + 1) ss >>= fun r => .ok (s' :: r)

/-- `prepareAndLoadContinuum` (linemodelfitting.cpp:314-333) followed by `computeSpectrumFluxWithoutContinuum` (335-339, called at 381-382 unless there is no continuum). -/
def prepare (env : Env K R E) (c : Comp) (k : Nat) (z : R) (ms : List (St K)) : Res (List (St K)) :=
  match c with
  | .noContinuum => .ok ms
  | .fromSpectrum => each (fun o s => .ok (SpcModel.initWithContinuum { s with cont := env.inp o })) 0 ms
  | .tplFit => each (fun o s => env.tpl k z o >>= fun t => .ok (SpcModel.initWithContinuum { s with cont := t })) 0 ms

/-- The fit kept: merit, continuum, line ratio, elements and models at that moment (`modelSolution`, linemodelfitting.cpp:397-409). -/
structure Best (K E : Type) where
  merit : K
  k : Nat
  ratio : Nat
  elts : E
  models : List (St K)
deriving DecidableEq

/-- The test of the best merit (linemodelfitting.cpp:397; the priors are 0). -/
def better (b : Option (Best K E)) (n : Best K E) : Option (Best K E) :=
  match b with
  | none => some n
  | some b => if b.merit > n.merit then some n else some b

/-- `refreshModel` of every observation, made by `computeMerit`. -/
def refreshAll (env : Env K R E) (e : E) (z : R) (ms : List (St K)) : Res (List (St K)) :=
  each (fun o s => env.lines e o z s.cont >>= fun m => .ok { s with model := m }) 0 ms

/-- One turn of the loop on the line ratios (linemodelfitting.cpp:384-414). -/
def turn (env : Env K R E) (c : Comp) (nIt k : Nat) (z : R) (i : Nat) (p : Option (Best K E) × List (St K)) : Res (Option (Best K E) × List (St K)) :=
  if env.skip i z then .ok p
  else
    doFit env i z nIt p.2 >>= fun q =>
    refreshAll env q.1 z q.2 >>= fun ms =>
    env.merit q.1 i z ms >>= fun m =>
    .ok (better p.1 ⟨m, k, i, q.1, ms⟩, if c = .noContinuum then ms.map SpcModel.reinit else ms)

/-- The loop on the line ratios (linemodelfitting.cpp:384). -/
def ratios (env : Env K R E) (c : Comp) (nIt nr k : Nat) (z : R) (p : Option (Best K E) × List (St K)) : Res (Option (Best K E) × List (St K)) :=
  Res.foldN (turn env c nIt k z) 0 nr p

/-- `fit` (linemodelfitting.cpp:352-416): best fit, and the models left. `nc` is the number of continua, `nr` of line ratios. -/
def fit (env : Env K R E) (c : Comp) (nc nr nIt : Nat) (z : R) (ms : List (St K)) : Res (Option (Best K E) × List (St K)) :=
  Res.foldN (fun k p => prepare env c k z p.2 >>= fun ms => ratios env c nIt nr k z (p.1, ms)) 0 nc (none, ms)

/-- `continuumReestimation`. -/
inductive Opt where
  | no | onlyExtrema | always
deriving DecidableEq

/-- The stages of a run: first pass, estimation of the parameters of the second pass with the velocity fit, fine grids, candidates reported. -/
inductive Stage where
  | first | params | fine | report
deriving DecidableEq

/-- The number of iterations of a stage (linemodel.cpp:137-140, 1160, 1496-1500, 914-926); `skip` is `skipSecondPass`. -/
def iters (o : Opt) (skip : Bool) : Stage → Nat
  | .first => if o = .always then 1 else 0
  | .params => if o = .always then 1 else 0
  | .fine => if o = .always then 1 else if o = .onlyExtrema then 8 else 0
  | .report => if o = .always then 1 else if o = .onlyExtrema then (if skip then 0 else 8) else 0

/-- A history of fits, each with its redshift and its number of iterations; the models left. A fit that throws ends the history. -/
def history (env : Env K R E) (c : Comp) (nc nr : Nat) : List (R × Nat) → List (St K) → Res (List (St K))
  | [], ms => .ok ms
  | q :: l, ms => fit env c nc nr q.2 q.1 ms >>= fun r => history env c nc nr l r.2

end Reest
end Amazed
