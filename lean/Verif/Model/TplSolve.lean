import Verif.Model.ResultStore
import Verif.Model.PdfOp

set_option linter.unusedVariables false

/-! # `CTemplateFittingSolve` and `CTplCombinationSolve` (`src/lib/method/templatefittingsolve.cpp`, `src/lib/method/tplcombinationsolve.cpp`)

The operators are parameters: functions of the components set on the spectra and on the templates at the time of the call and of the two extinction
flags, which may throw. The interpolation method given to the templates (`setRebinInterpMethod`), the log messages and the unused mask list are not
modelled. -/

namespace Amazed
namespace TplSolve

/-- `CSpectrum::EType` (RedshiftLibrary/spectrum/spectrum.h:78). -/
inductive EType where
  | raw
  | continuumOnly
  | noContinuum
deriving DecidableEq, Repr

/-- `EType` of the solvers (RedshiftLibrary/method/templatefittingsolve.h, tplcombinationsolve.h): one of the components or `nType_all`. -/
inductive Comp where
  | one (t : EType)
  | all
deriving DecidableEq, Repr

/-- `_spctypetab` (templatefittingsolve.cpp:226-233) and the choice of the component at each turn (lines 241-245); the same in
tplcombinationsolve.cpp:163-165, 185-186, 196-199. -/
def Comp.types : Comp → List EType
  | .one t => [t]
  | .all => [.raw, .noContinuum, .continuumOnly]

/-- The component parameter of `CTemplateFittingSolve::compute` and the name of the results to combine (templatefittingsolve.cpp:126-141). -/
def tfComponent (s : String) : Res (Comp × String) :=
  if s = "raw" then .ok (.one .raw, "templatefitting")
  else if s = "nocontinuum" then .ok (.one .noContinuum, "templatefitting_nocontinuum")
  else if s = "continuum" then .ok (.one .continuumOnly, "templatefitting_continuum")
  else if s = "all" then .ok (.all, "templatefitting")
  else .throw .INTERNAL_ERROR

/-- The component parameter of `CTplCombinationSolve::compute` (tplcombinationsolve.cpp:86-101). -/
def tcComponent (s : String) : Res (Comp × String) :=
  if s = "raw" then .ok (.one .raw, "tplcombination")
  else if s = "noContinuum" then .ok (.one .noContinuum, "tplcombination_nocontinuum")
  else if s = "continuum" then .ok (.one .continuumOnly, "tplcombination_continuum")
  else if s = "all" then .ok (.all, "tplcombination")
  else .throw .INTERNAL_ERROR

/-- `scopeStr` in `CTemplateFittingSolve::Solve` (templatefittingsolve.cpp:251-267). -/
def tfScope : EType → String
  | .continuumOnly => "templatefitting_continuum"
  | .raw => "templatefitting"
  | .noContinuum => "templatefitting_nocontinuum"

/-- `getSpecBasedScope` (tplcombinationsolve.cpp:259-273). -/
def tcScope : EType → String
  | .continuumOnly => "tplcombination_continuum"
  | .raw => "tplcombination"
  | .noContinuum => "tplcombination_nocontinuum"

/-- What `Solve` changes: the component set on each spectrum, the component set on each template (all the templates of the catalog, by name), and the
result store. -/
structure St (R : Type) where
  spc : List EType
  tpl : String → EType
  store : ResultStore R

/-- Set the component on all the spectra and on the templates of a list (templatefittingsolve.cpp:246-248, tplcombinationsolve.cpp:201-207). -/
def St.setTypes {R : Type} (s : St R) (names : List String) (t : EType) : St R :=
  { s with spc := s.spc.map (fun _ => t), tpl := fun n => if n ∈ names then t else s.tpl n }

/-- One turn of `CTemplateFittingSolve::Solve` (templatefittingsolve.cpp:240-283): the state after it, the dust flag (which is a local variable of
`Solve`, changed for the component without continuum), and how it ends. `op spc tpl igm dust` is the call of the operator, `none` a null pointer. -/
def tfTurn {R : Type} (op : List EType → EType → Bool → Bool → Res (Option R)) (sc : ScopeStack) (igm : Bool) (name : String) (s : St R) (dust : Bool) (t : EType) :
    (St R × Bool) × Res Unit :=
  let s1 := s.setTypes [name] t
  let d := if t = .noContinuum then false else dust
  match op s1.spc (s1.tpl name) igm d with
  | .ok (some r) => (({ s1 with store := (s1.store.storeScopedPerTemplate sc name (tfScope t) r).1 }, d), (s1.store.storeScopedPerTemplate sc name (tfScope t) r).2)
  | .ok none => ((s1, d), .throw .INTERNAL_ERROR)
  | .throw e => ((s1, d), .throw e)
  | .ub => ((s1, d), .ub)

/-- The loop over the components (templatefittingsolve.cpp:240-283). -/
def tfLoop {R : Type} (op : List EType → EType → Bool → Bool → Res (Option R)) (sc : ScopeStack) (igm : Bool) (name : String) : List EType → St R → Bool → St R × Res Unit
  | [], s, _ => (s, .ok ())
  | t :: ts, s, dust =>
    match tfTurn op sc igm name s dust t with
    | ((s', d), .ok _) => tfLoop op sc igm name ts s' d
    | ((s', _), e) => (s', e)

/-- `CTemplateFittingSolve::Solve` (templatefittingsolve.cpp:217-289): the components are put back at the end, when no exception was thrown. -/
def tfSolve {R : Type} (op : List EType → EType → Bool → Bool → Res (Option R)) (sc : ScopeStack) (igm dust : Bool) (c : Comp) (s : St R) (name : String) : St R × Res Unit :=
  match tfLoop op sc igm name c.types s dust with
  | (s', .ok _) => ({ s' with spc := s.spc, tpl := fun n => if n = name then s.tpl name else s'.tpl n }, .ok ())
  | (s', e) => (s', e)

/-- The loop over the templates of the category in `compute` (templatefittingsolve.cpp:171-179);
`op name` is the operator on that template. -/
def tfAll {R : Type} (op : String → List EType → EType → Bool → Bool → Res (Option R)) (sc : ScopeStack) (igm dust : Bool) (c : Comp) : List String → St R → St R × Res Unit
  | [], s => (s, .ok ())
  | n :: ns, s =>
    match tfSolve (op n) sc igm dust c s n with
    | (s', .ok _) => tfAll op sc igm dust c ns s'
    | (s', e) => (s', e)

/-- The part of `CTemplateFittingSolve::compute` that fills the store (templatefittingsolve.cpp:126-182). -/
def tfRun {R : Type} (op : String → List EType → EType → Bool → Bool → Res (Option R)) (sc : ScopeStack) (igm dust : Bool) (comp : String) (names : List String) (s : St R) : St R × Res String :=
  match tfComponent comp with
  | .ok (c, scope) =>
    if names = [] then (s, .throw .BAD_TEMPLATECATALOG)
    else match tfAll op sc igm dust c names s with
      | (s', .ok _) => (s', .ok scope)
      | (s', .throw e) => (s', .throw e)
      | (s', .ub) => (s', .ub)
  | .throw e => (s, .throw e)
  | .ub => (s, .ub)

/-- One turn of `CTplCombinationSolve::Solve` (tplcombinationsolve.cpp:195-225). The last component of the result tells to stop with `false`: the
operator returned no result. -/
def tcTurn {R : Type} (op : List EType → List EType → Bool → Bool → Res (Option R)) (sc : ScopeStack) (igm : Bool) (names : List String) (s : St R) (dust : Bool) (t : EType) :
    (St R × Bool) × Res Bool :=
  let s1 := s.setTypes names t
  let d := if t = .noContinuum then false else dust
  match op s1.spc (names.map s1.tpl) igm d with
  | .ok (some r) =>
    match s1.store.storeScopedGlobal sc (tcScope t) r with
    | (st, .ok _) => (({ s1 with store := st }, d), .ok true)
    | (st, .throw e) => (({ s1 with store := st }, d), .throw e)
    | (st, .ub) => (({ s1 with store := st }, d), .ub)
  | .ok none => ((s1, d), .ok false)
  | .throw e => ((s1, d), .throw e)
  | .ub => ((s1, d), .ub)

/-- The loop over the components (tplcombinationsolve.cpp:195-225). -/
def tcLoop {R : Type} (op : List EType → List EType → Bool → Bool → Res (Option R)) (sc : ScopeStack) (igm : Bool) (names : List String) : List EType → St R → Bool → St R × Res Bool
  | [], s, _ => (s, .ok true)
  | t :: ts, s, dust =>
    match tcTurn op sc igm names s dust t with
    | ((s', d), .ok true) => tcLoop op sc igm names ts s' d
    | ((s', _), e) => (s', e)

variable {K : Type} [Field K] [LinearOrder K] [IsStrictOrderedRing K]

/-- The test of one template in `checkTemplates` (tplcombinationsolve.cpp:248-255): the size, then the samples one by one. -/
def axisCheck (ref ax : List K) : Res Unit :=
  if ref.length ≠ ax.length then .throw .INTERNAL_ERROR
  else if (ref.zip ax).any (fun p => decide ((1 : K) / 100000000 < |p.1 - p.2|)) then .throw .INTERNAL_ERROR else .ok ()

/-- The loop of `checkTemplates` (tplcombinationsolve.cpp:247-256). -/
def axesCheck (ref : List K) : List (List K) → Res Unit
  | [] => .ok ()
  | a :: as => axisCheck ref a >>= fun _ => axesCheck ref as

/-- `checkTemplates` (tplcombinationsolve.cpp:238-257) on the spectral axes of the templates. -/
def checkTemplates : List (List K) → Res Unit
  | [] => .throw .BAD_TEMPLATECATALOG
  | a :: as => axesCheck a (a :: as)

/-- `CTplCombinationSolve::Solve` (tplcombinationsolve.cpp:155-236) on one spectrum: `axes` are the spectral axes of the templates of the category, whose
names are `names`. Nothing is put back after an exception or when the operator returns no result. -/
def tcSolve {R : Type} (op : List EType → List EType → Bool → Bool → Res (Option R)) (sc : ScopeStack) (igm dust : Bool) (c : Comp) (axes : List (List K)) (names : List String) (s : St R) :
    St R × Res Bool :=
  match checkTemplates axes with
  | .ok _ =>
    match tcLoop op sc igm names c.types s dust with
    | (s', .ok true) => ({ s' with spc := s.spc, tpl := fun n => if n ∈ names then s.tpl n else s'.tpl n }, .ok true)
    | (s', e) => (s', e)
  | .throw e => (s, .throw e)
  | .ub => (s, .ub)

/-! ## Results of the fit of one template -/

/-- The members of `TFittingIsmIgmResult` (RedshiftLibrary/operator/templatefitting.h:79-106) which are kept: `V` are the values which may be undefined. -/
structure FitZ (V : Type) where
  chi2 : ℝ
  chi2Phot : V
  ampl : V
  amplErr : V
  amplSigma : V
  ebmv : V
  meiksin : Int
  dtm : V
  mtm : V
  logPrior : V
  interm : List (List ℝ)

/-- The members of `CTemplateFittingResult` (RedshiftLibrary/operator/templatefittingresult.h:65-96) used by the solver. The tables of the coefficients and
the overlaps are left out. -/
structure TfRes (V : Type) where
  redshifts : List ℝ
  chi2 : List ℝ
  chi2Phot : List V
  ampl : List V
  amplErr : List V
  amplSigma : List V
  ebmv : List V
  meiksin : List Int
  dtm : List V
  mtm : List V
  snr : List V
  logPrior : List V
  interm : List (List (List ℝ))
  cstLog : ℝ

/-- `CTemplateFittingResult(n)` (templatefittingresult.cpp:45-52): all the lists have `n` null values (`d`); `CstLog` is NaN, an arbitrary number here. -/
def TfRes.make {V : Type} (d : V) (cst : ℝ) (n : Nat) : TfRes V :=
  ⟨List.replicate n 0, List.replicate n 0, List.replicate n d, List.replicate n d, List.replicate n d, List.replicate n d, List.replicate n d, List.replicate n 0,
   List.replicate n d, List.replicate n d, List.replicate n d, List.replicate n d, List.replicate n [], cst⟩

/-- `SNRCalculation` (templatefittingresult.cpp:88-98) on numbers; `none` is NaN. -/
def snrOf (sq : K → K) (dtm mtm : K) : Option K := if mtm ≤ 0 then none else if dtm ≤ 0 then some 0 else some (dtm / sq mtm)

/-- `set_at_redshift` (templatefittingresult.cpp:67-86); `snr` is `SNRCalculation`. Out of bounds is undefined. -/
def TfRes.setAt {V : Type} (snr : V → V → V) (r : TfRes V) (i : Nat) (f : FitZ V) : Res (TfRes V) :=
  if i < r.chi2.length then
    .ok { r with chi2 := r.chi2.set i f.chi2, chi2Phot := r.chi2Phot.set i f.chi2Phot, ampl := r.ampl.set i f.ampl, amplErr := r.amplErr.set i f.amplErr,
                 amplSigma := r.amplSigma.set i f.amplSigma, ebmv := r.ebmv.set i f.ebmv, meiksin := r.meiksin.set i f.meiksin, dtm := r.dtm.set i f.dtm,
                 mtm := r.mtm.set i f.mtm, snr := r.snr.set i (snr f.dtm f.mtm), logPrior := r.logPrior.set i f.logPrior, interm := r.interm.set i f.interm }
  else .ub

/-- The loop of `COperatorTemplateFitting::Compute` (templatefitting.cpp:400-428, 462): one fit per redshift, then the constant. The tests of the arguments
and the messages about the overlap are left out; `fit i z` is `BasicFit`. -/
def tfCompute {V : Type} (d : V) (snr : V → V → V) (fit : Nat → ℝ → Res (FitZ V)) (cst : ℝ) (zs : List ℝ) : Res (TfRes V) :=
  Res.foldN (fun i r => Res.at_ zs i >>= fun z => fit i z >>= fun f => r.setAt snr i f) 0 zs.length { TfRes.make d cst zs.length with redshifts := zs }

/-! ## Merits given to the PDF -/

/-- `nISM` and `nIGM` (templatefittingsolve.cpp:310-317), `-1` read as zero: there is no turn of the loops in both cases. -/
def tableSize (t : List (List (List ℝ))) : Nat × Nat := ((t.headD []).length, ((t.headD []).headD []).length)

/-- The merits of one dust and IGM configuration (templatefittingsolve.cpp:340-348): a list of the size of the table, filled for each redshift of the
result; writing or reading out of bounds is undefined. -/
noncomputable def row {V : Type} (top : ℝ) (r : TfRes V) (kism kigm : Nat) : Res (List ℝ) :=
  Res.foldN (fun kz (l : List ℝ) => Res.at_ r.interm kz >>= fun a => Res.at_ a kism >>= fun b => Res.at_ b kigm >>= fun x =>
    if kz < l.length then .ok (l.set kz x) else .ub) 0 r.redshifts.length (List.replicate r.interm.length top)

/-- The two loops over the configurations (templatefittingsolve.cpp:333-355): dust first, then IGM. -/
noncomputable def rowsOf {V : Type} (top : ℝ) (r : TfRes V) : Res (List (List ℝ)) :=
  Res.tab (fun k => row top r (k / (tableSize r.interm).2) (k % (tableSize r.interm).2)) ((tableSize r.interm).1 * (tableSize r.interm).2)

/-- The priors of one result (templatefittingsolve.cpp:332, 335-336): one constant prior per configuration. -/
noncomputable def priorsOf {V : Type} (r : TfRes V) : Res (List (List ℝ)) :=
  Res.tab (fun _ => Pdfz.constantPrior false [] r.redshifts.length) ((tableSize r.interm).1 * (tableSize r.interm).2)

/-- One result in `CTemplateFittingSolve::BuildChisquareArray` (templatefittingsolve.cpp:308-356): `-1` is the mark of a constant that is not set. -/
noncomputable def addRes {V : Type} (top : ℝ) (a : Pdfz.ChisquareArray) (r : TfRes V) : Res Pdfz.ChisquareArray :=
  open Classical in
  (if a.cstLog = -1 then Res.ok r.cstLog else if a.cstLog ≠ r.cstLog then .throw .INTERNAL_ERROR else .ok a.cstLog) >>= fun c =>
  rowsOf top r >>= fun rows => priorsOf r >>= fun ps =>
  .ok { a with cstLog := c, redshifts := if a.redshifts.length = 0 then r.redshifts else a.redshifts, chisquares := a.chisquares ++ rows, zpriors := a.zpriors ++ ps }

/-- The loop over the results, a `std::map` by template name (templatefittingsolve.cpp:301-356). -/
noncomputable def addAll {V : Type} (top : ℝ) : List (String × TfRes V) → Pdfz.ChisquareArray → Res Pdfz.ChisquareArray
  | [], a => .ok a
  | x :: xs, a => addRes top a x.2 >>= fun a' => addAll top xs a'

/-- `CTemplateFittingSolve::BuildChisquareArray` (templatefittingsolve.cpp:291-359) on the results found in the store. -/
noncomputable def tfArray {V : Type} (top : ℝ) (m : List (String × TfRes V)) : Res Pdfz.ChisquareArray := addAll top m ⟨[], [], [], [], -1⟩

/-! ## Parameters of the candidates -/

/-- `fittedTpl` (RedshiftLibrary/processflow/result.h and extremaresult.h) as filled by `buildExtremaResults` (templatefittingsolve.cpp:423-448). -/
structure Fitted (V : Type) where
  name : String
  merit : ℝ
  meritPhot : V
  meiksin : Int
  ebmv : V
  ampl : V
  amplErr : V
  dtm : V
  mtm : V
  snr : V
  logPrior : V

/-- The tests of the results (templatefittingsolve.cpp:381-397): as many merits as redshifts, the same redshifts. -/
noncomputable def sameGrid {V : Type} (zs : List ℝ) : List (String × TfRes V) → Res Unit
  | [] => .ok ()
  | x :: xs =>
    open Classical in
    if x.2.chi2.length ≠ zs.length then .throw .INTERNAL_ERROR
    else Res.foldN (fun k (_ : Unit) => Res.at_ x.2.redshifts k >>= fun a => Res.at_ zs k >>= fun b => if a ≠ b then .throw .INTERNAL_ERROR else .ok ()) 0 x.2.redshifts.length () >>= fun _ =>
      sameGrid zs xs

/-- The search of the smallest merit (templatefittingsolve.cpp:411-421): the best merit so far and the name. -/
noncomputable def bestTpl {V : Type} (k : Nat) : List (String × TfRes V) → ℝ × String → Res (ℝ × String)
  | [], b => .ok b
  | x :: xs, b => Res.at_ x.2.chi2 k >>= fun c => open Classical in bestTpl k xs (if c < b.1 then (c, x.1) else b)

/-- The result of a name, `results[tplName]` (templatefittingsolve.cpp:423-425): an unknown name gives a null pointer, dereferenced below. -/
def findRes {V : Type} (m : List (String × TfRes V)) (name : String) : Res (TfRes V) :=
  match LineCat.mapFind name m with
  | some r => .ok r
  | none => .ub

/-- The copies (templatefittingsolve.cpp:426-448). -/
def copyAt {V : Type} (r : TfRes V) (name : String) (merit : ℝ) (k : Nat) : Res (Fitted V) :=
  Res.at_ r.chi2Phot k >>= fun a => Res.at_ r.meiksin k >>= fun b => Res.at_ r.ebmv k >>= fun c => Res.at_ r.ampl k >>= fun d => Res.at_ r.amplErr k >>= fun e =>
  Res.at_ r.dtm k >>= fun f => Res.at_ r.mtm k >>= fun g => Res.at_ r.snr k >>= fun h => Res.at_ r.logPrior k >>= fun i => .ok ⟨name, merit, a, b, c, d, e, f, g, h, i⟩

/-- One candidate (templatefittingsolve.cpp:402-448): `std::find` gives the size when the redshift is not in the grid. -/
noncomputable def fittedAt {V : Type} (top : ℝ) (m : List (String × TfRes V)) (zs : List ℝ) (z : ℝ) : Res (Fitted V) :=
  open Classical in
  bestTpl (zs.idxOf z) m (top, "") >>= fun b => findRes m b.2 >>= fun r => copyAt r b.2 b.1 (zs.idxOf z)

/-- `CTemplateFittingSolve::buildExtremaResults` (templatefittingsolve.cpp:361-479): the parameters of the candidates in order; `model z f` computes the
spectrum model and may throw. An empty map is undefined (`*results.begin()`). -/
noncomputable def tfExtrema {V M : Type} (top : ℝ) (model : ℝ → Fitted V → Res M) (m : List (String × TfRes V)) (cands : List ℝ) : Res (List (Fitted V × M)) :=
  match m with
  | [] => .ub
  | x :: xs =>
    sameGrid x.2.redshifts (x :: xs) >>= fun _ =>
    Res.tab (fun i => Res.at_ cands i >>= fun z => fittedAt top (x :: xs) x.2.redshifts z >>= fun f => model z f >>= fun s => .ok (f, s)) cands.length

/-! ## Template combination: merits and candidates -/

/-- The members of `CTplCombinationResult` (RedshiftLibrary/operator/tplcombinationresult.h:50-75) used by the solver; `C` are the covariance matrices. -/
structure TcRes (V C : Type) where
  redshifts : List ℝ
  chi2 : List ℝ
  chi2Phot : List V
  meiksin : List Int
  ebmv : List V
  ampls : List (List V)
  amplErrs : List (List V)
  amplSigmas : List (List V)
  cov : List C
  snr : List V
  nism : Nat
  nigm : Nat
  interm : List (List (List ℝ))
  cstLog : ℝ

/-- The merits of one configuration (tplcombinationsolve.cpp:323-330): here the loop is over the table itself. -/
noncomputable def tcRow {V C : Type} (r : TcRes V C) (kism kigm : Nat) : Res (List ℝ) :=
  Res.tab (fun kz => Res.at_ r.interm kz >>= fun a => Res.at_ a kism >>= fun b => Res.at_ b kigm) r.interm.length

/-- `CTplCombinationSolve::BuildChisquareArray` (tplcombinationsolve.cpp:275-340) on the result found in the store: the constant is the one of the
result, since the mark `-1` was just put. -/
noncomputable def tcArray {V C : Type} (r : TcRes V C) : Res Pdfz.ChisquareArray :=
  Res.tab (fun k => tcRow r (k / r.nigm) (k % r.nigm)) (r.nism * r.nigm) >>= fun rows =>
  Res.tab (fun _ => Pdfz.constantPrior false [] r.redshifts.length) (r.nism * r.nigm) >>= fun ps =>
  .ok ⟨r.redshifts, rows, ps, [], r.cstLog⟩

/-- The parameters of a candidate (tplcombinationsolve.cpp:384-403). -/
structure TcFitted (V C : Type) where
  merit : ℝ
  meritPhot : V
  meiksin : Int
  ebmv : V
  ampls : List V
  amplErrs : List V
  amplSigmas : List V
  cov : C
  snr : V

/-- The copies of one candidate (tplcombinationsolve.cpp:379-403). -/
noncomputable def tcFittedAt {V C : Type} (r : TcRes V C) (z : ℝ) : Res (TcFitted V C) :=
  open Classical in
  Res.at_ r.chi2 (r.redshifts.idxOf z) >>= fun a => Res.at_ r.chi2Phot (r.redshifts.idxOf z) >>= fun b => Res.at_ r.meiksin (r.redshifts.idxOf z) >>= fun c =>
  Res.at_ r.ebmv (r.redshifts.idxOf z) >>= fun d => Res.at_ r.ampls (r.redshifts.idxOf z) >>= fun e => Res.at_ r.amplErrs (r.redshifts.idxOf z) >>= fun f =>
  Res.at_ r.amplSigmas (r.redshifts.idxOf z) >>= fun g => Res.at_ r.cov (r.redshifts.idxOf z) >>= fun h => Res.at_ r.snr (r.redshifts.idxOf z) >>= fun i =>
  .ok ⟨a, b, c, d, e, f, g, h, i⟩

/-- `CTplCombinationSolve::buildExtremaResults` (tplcombinationsolve.cpp:342-419). -/
noncomputable def tcExtrema {V C M : Type} (model : ℝ → TcFitted V C → Res M) (r : TcRes V C) (cands : List ℝ) : Res (List (TcFitted V C × M)) :=
  if r.chi2.length ≠ r.redshifts.length then .throw .INTERNAL_ERROR
  else Res.tab (fun i => Res.at_ cands i >>= fun z => tcFittedAt r z >>= fun f => model z f >>= fun s => .ok (f, s)) cands.length

end TplSolve
end Amazed
