import Verif.Basic

set_option linter.unusedVariables false

/-! # The fitting options in force at each stage of a line model run

`CLineModelFitting` (`src/lib/linemodel/linemodelfitting.cpp`), its factories
(`abstractfitter.cpp`, `lineratiomanager.cpp`) and the calls of `COperatorLineModel`
(`src/lib/operator/linemodel.cpp`) that switch the fitter. The numbers computed by a fit are not
modelled here: a fit is recorded with the settings it is made under, and may throw. -/

namespace Amazed.FitStage

/-- The classes of fitters; the polynomial order is that of `CSvdlcFitter::m_fitc_polyOrder`
(`src/lib/linemodel/abstractfitter.cpp:91-138`, `svdlcfitter.h:52-61`). -/
inductive Kind where
  | hybrid | lbfgsb | svd | svdlc (order : Int) | ones | random | individual
  deriving DecidableEq, Repr

/-- A fitter with the two options it is built with (`abstractfitter.cpp:56-69`). -/
structure Fitter where
  kind : Kind
  ampOff : Bool
  lbdaOff : Bool
  deriving DecidableEq, Repr

/-- `CAbstractFitter::makeFitter` (`src/lib/linemodel/abstractfitter.cpp:91-138`). `lb` says
whether the library is compiled with `LBFGSBFITTER`. Only the first three classes receive the
options; the others take the defaults of their constructors, `false`. -/
def makeFitter (lb : Bool) (name : String) (amp lbda : Bool) : Res Fitter :=
  if name = "hybrid" then .ok ⟨.hybrid, amp, lbda⟩
  else if lb = true ∧ name = "lbfgsb" then .ok ⟨.lbfgsb, amp, lbda⟩
  else if name = "svd" then .ok ⟨.svd, amp, lbda⟩
  else if name = "svdlc" then .ok ⟨.svdlc (-1), false, false⟩
  else if name = "svdlcp2" then .ok ⟨.svdlc 2, false, false⟩
  else if name = "ones" then .ok ⟨.ones, false, false⟩
  else if name = "random" then .ok ⟨.random, false, false⟩
  else if name = "individual" then .ok ⟨.individual, false, false⟩
  else .throw .INTERNAL_ERROR

/-- The classes of line ratio managers (`src/lib/linemodel/lineratiomanager.cpp:295-323`). -/
inductive Ratio where
  | tplRatio | tplCorr | rules
  deriving DecidableEq, Repr

/-- `CLineRatioManager::makeLineRatioManager` (`lineratiomanager.cpp:295-323`); the fitter it is
handed is never used by the line ratio managers and is not kept. -/
def makeRatio (name : String) : Res Ratio :=
  if name = "tplRatio" then .ok .tplRatio
  else if name = "tplCorr" then .ok .tplCorr
  else if name = "rules" then .ok .rules
  else .throw .INVALID_PARAMETER

/-- The parameters read by `CLineModelFitting::initParameters`
(`linemodelfitting.cpp:123-149`), the line ratio managers (`lineratiomanager.cpp:66-76`,
`tplratiomanager.cpp:67-68`) and the operator (`linemodel.cpp:1120-1123`, `1594-1598`), and the
compile-time option of the fitters. `lc` is `secondPassLcFittingMethod`; `firstNoIsm` is
`!firstPass.tplRatioIsmFit`; `firstOneCont` is `firstPass.multipleContinuumFitDisable`. -/
structure Pars where
  lb : Bool
  method : String
  firstMethod : String
  lc : String
  ratio : String
  ampOff : Bool
  lbdaOff : Bool
  velFit : Bool
  skipSecond : Bool
  lyaFit : Bool
  lyaFix : Bool
  firstNoIsm : Bool
  firstOneCont : Bool

/-- The settings held by a `CLineModelFitting`, its models and its line ratio manager:
`m_fittingmethod`, `m_fitter` (null = `none`), `CSpectrumModel::m_enableAmplitudeOffsets` of the
models (all set together, `spectrummodel.h:174-178`), `m_forcedisableMultipleContinuumfit`,
`m_forceDisableLyaFitting`, `m_forceLyaFitting` and, for the template ratios,
`m_forcedisableTplratioISMfit`. -/
structure Mgr where
  name : String
  fitter : Option Fitter
  modelOff : Bool
  ratio : Ratio
  oneCont : Bool
  lyaNoFit : Bool
  lyaFit : Bool
  noIsm : Bool
  deriving DecidableEq, Repr

/-- `CLineModelFitting::SetFittingMethod` (`linemodelfitting.cpp:434-444`). The default values of
the two options are `false` (`linemodelfitting.h:115-117`). -/
def setFitting (p : Pars) (name : String) (amp lbda : Bool) (m : Mgr) : Res Mgr :=
  makeFitter p.lb name amp lbda >>= fun f => .ok { m with name := name, fitter := some f, modelOff := amp }

/-- A constructor of `CLineModelFitting` (`linemodelfitting.cpp:81-121`, `initMembers` 151-182,
`setLineRatioType` 446-450) for the given fitting method and line ratio type: the fitter is made
first, then the line ratio manager. The flags have the default values of the headers
(`linemodelfitting.h:256`, `lineratiomanager.h:141-142`, `tplratiomanager.h:147`). -/
def construct (p : Pars) (name ratio : String) : Res Mgr :=
  makeFitter p.lb name p.ampOff p.lbdaOff >>= fun f =>
  makeRatio ratio >>= fun r =>
  .ok ⟨name, some f, p.ampOff, r, false, false, false, false⟩

/-- Constructor used on the spectra (`linemodelfitting.cpp:81-99`). -/
def newMgr (p : Pars) : Res Mgr := construct p p.method p.ratio

/-- Constructor used to orthogonalise the templates, which overrides two parameters
(`linemodelfitting.cpp:101-121`). -/
def orthoMgr (p : Pars) : Res Mgr := construct p "hybrid" "rules"

/-- `CLineRatioManager::setPassMode` and its override for the template ratios
(`lineratiomanager.cpp:187-203`, `tplratiomanager.cpp:313-320`). -/
def ratioPass (p : Pars) (i : Int) (m : Mgr) : Mgr :=
  { m with
    lyaNoFit := if i = 1 then true else if i = 2 then p.lyaFix else if i = 3 then false else m.lyaNoFit
    lyaFit := if i = 1 then false else if i = 2 then p.lyaFit else m.lyaFit
    noIsm := if m.ratio = .tplRatio then (if i = 1 then p.firstNoIsm else if i = 2 then false else m.noIsm) else m.noIsm }

/-- `CLineModelFitting::setPassMode` (`linemodelfitting.cpp:222-242`). -/
def setPass (p : Pars) (i : Int) (m : Mgr) : Res Mgr :=
  (if i = 1 then setFitting p p.firstMethod false false { m with oneCont := p.firstOneCont }
    else if i = 2 then setFitting p p.method p.ampOff p.lbdaOff { m with oneCont := false }
    else if i = 3 then .ok { m with oneCont := false }
    else .ok m) >>= fun m => .ok (ratioPass p i m)

/-- The places of the operator where a fit is made: the redshift loop of the first pass
(`linemodel.cpp:170-174`), the fit of a candidate before its velocity fit (1166-1168), the trials of
the velocity fit (1325-1331), the fine grid of a candidate (1513-1523), the same with the additional
fitting method (834), the fit of a reported candidate (974-976), the line measurement (1788-1789). -/
inductive Stage where
  | first | estimate | velocity | recompute | lc | report | meas
  deriving DecidableEq, Repr

/-- The fits made so far, oldest first, with the settings each was made under. -/
abbrev Hist := List (Stage × Mgr)

/-- What the numerical part decides: whether the next fit throws, and whether the refit of a reported
candidate finds the merit already recorded. Both may depend on everything done before. -/
structure Env where
  fails : Hist → Option Err
  same : Hist → Bool

/-- A piece of the run: the fits made, and how it ends. -/
abbrev Out := Hist × Res Mgr

/-- Sequence: the second piece starts from the fits and the settings left by the first one. -/
def andThen (x : Out) (f : Hist → Mgr → Out) : Out :=
  match x.2 with
  | .ok m => f x.1 m
  | .throw e => (x.1, .throw e)
  | .ub => (x.1, .ub)

/-- A change of settings. -/
def change (f : Mgr → Res Mgr) (h : Hist) (m : Mgr) : Out := (h, f m)

/-- `CLineModelFitting::fit` (`linemodelfitting.cpp:353-434`) as seen from here: `m_fitter` is
dereferenced first; the settings are left as they are. -/
def fitOnce (n : Env) (st : Stage) (h : Hist) (m : Mgr) : Out :=
  if m.fitter = none then (h, .ub)
  else (h ++ [(st, m)], ((n.fails (h ++ [(st, m)])).map Res.throw).getD (.ok m))

/-- A loop of `k` fits. -/
def fits (n : Env) (st : Stage) : Nat → Hist → Mgr → Out
  | 0, h, m => (h, .ok m)
  | k + 1, h, m => andThen (fitOnce n st h m) (fits n st k)

/-- A loop over the candidates. -/
def forCands {A : Type} (body : A → Hist → Mgr → Out) : List A → Hist → Mgr → Out
  | [], h, m => (h, .ok m)
  | c :: r, h, m => andThen (body c h m) (forCands body r)

/-- A candidate: how many trials its velocity fit makes, how many redshifts its fine grid has. -/
structure Cand where
  vel : Nat
  win : Nat

/-- Switch of the fitter at the beginning of `fitVelocity` (`linemodel.cpp:1239-1250`): hybrid, then
individual for the template ratios. -/
def velSettings (p : Pars) (m : Mgr) : Res Mgr :=
  setFitting p "hybrid" false false { m with fitter := none } >>= fun m =>
  if p.ratio = "tplRatio" then
    setFitting p "individual" false false m >>= fun m => .ok { m with noIsm := p.firstNoIsm }
  else .ok m

/-- End of `fitVelocity` (`linemodel.cpp:1388-1395`): the fitter that had been put aside comes back. -/
def velRestore (p : Pars) (saved : Option Fitter) (m : Mgr) : Mgr :=
  if p.ratio = "tplRatio" then { m with fitter := saved, noIsm := false } else { m with fitter := saved }

/-- `COperatorLineModel::fitVelocity` (`linemodel.cpp:1193-1397`); the trials themselves are modelled
in `SecondPass.fitVelocity`. -/
def fitVelocity (p : Pars) (n : Env) (c : Cand) (h : Hist) (m : Mgr) : Out :=
  andThen (change (velSettings p) h m) fun h m' =>
  andThen (fits n .velocity c.vel h m') fun h m' =>
  (h, .ok (velRestore p m.fitter m'))

/-- One candidate of `EstimateSecondPassParameters` (`linemodel.cpp:1119-1185`). -/
def estimate (p : Pars) (n : Env) (c : Cand) (h : Hist) (m : Mgr) : Out :=
  andThen (fitOnce n .estimate h m) fun h m =>
  if p.velFit then fitVelocity p n c h m else (h, .ok m)

/-- `RecomputeAroundCandidates` (`linemodel.cpp:1399-1547`). Its last argument,
`overrideRecomputeOnlyOnTheCandidate`, is not used by the code. -/
def recompute (n : Env) (st : Stage) (cs : List Cand) (h : Hist) (m : Mgr) : Out :=
  if cs = [] then (h, .throw .INTERNAL_ERROR) else forCands (fun c => fits n st c.win) cs h m

/-- Additional fit of the second pass (`linemodel.cpp:816-840`): any other value of the parameter
than the two names means no additional fit. -/
def lcFit (p : Pars) (n : Env) (cs : List Cand) (h : Hist) (m : Mgr) : Out :=
  if p.lc = "svdlc" ∨ p.lc = "svdlcp2" then
    andThen (change (setFitting p p.lc false false) h { m with fitter := none }) fun h m' =>
    andThen (recompute n .lc cs h m') fun h m' =>
    recompute n .recompute cs h { m' with fitter := m.fitter }
  else (h, .ok m)

/-- `ComputeSecondPass` (`linemodel.cpp:726-856`), as far as the fitter is concerned. -/
def secondPass (p : Pars) (n : Env) (cs : List Cand) (h : Hist) (m : Mgr) : Out :=
  andThen (change (setPass p 2) h m) fun h m =>
  andThen (forCands (estimate p n) cs h m) fun h m =>
  andThen (recompute n .recompute cs h m) fun h m =>
  lcFit p n cs h m

/-- One reported candidate of `buildExtremaResults` (`linemodel.cpp:974-1002`): the merit of the refit
has to be the one recorded before, unless the fitting method in force is called `random`. -/
def reportOne (n : Env) (_ : Unit) (h : Hist) (m : Mgr) : Out :=
  andThen (fitOnce n .report h m) fun h m =>
  if n.same h = false ∧ m.name ≠ "random" then (h, .throw .INTERNAL_ERROR) else (h, .ok m)

/-- `buildExtremaResults` for `k` candidates (`linemodel.cpp:858-1090`). -/
def report (n : Env) (k : Nat) (h : Hist) (m : Mgr) : Out := forCands (reportOne n) (List.replicate k ()) h m

/-- The fits of a run of `CLineModelSolve` with one operator: first pass over `nz` redshifts
(`linemodel.cpp:81-232`), second pass unless it is skipped (`linemodelsolve.cpp:588-596`), report of
`k` candidates. -/
def solve (p : Pars) (n : Env) (nz : Nat) (cs : List Cand) (k : Nat) : Out :=
  andThen ([], newMgr p) fun h m =>
  andThen (change (setPass p 1) h m) fun h m =>
  andThen (fits n .first nz h m) fun h m =>
  andThen (if p.skipSecond then (h, .ok m) else secondPass p n cs h m) fun h m =>
  report n k h m

/-- The fits of `computeForLineMeas` (`linemodel.cpp:1738-1806`): pass number 3. -/
def lineMeas (p : Pars) (n : Env) (nz : Nat) : Out :=
  andThen ([], newMgr p) fun h m =>
  andThen (change (setPass p 3) h m) fun h m =>
  fits n .meas nz h m

end Amazed.FitStage
