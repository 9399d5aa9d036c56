import Verif.Model.FitStore
import Verif.Model.Indexing
import Verif.Model.TplCatalog
import Verif.Model.EltList
import Verif.Model.SvdFit

/-! # Continuum fits of the line model (`src/lib/operator/linemodel.cpp`, `src/lib/linemodel/continuummanager.cpp`)

The choice of the operator, the fits of the templates, the store of a pass, the decision on negative or null continua, and
the continuum injected for each candidate of the second pass. The fit of one template over a grid is a parameter; log messages are not
modelled, except the reads of their arguments. -/

namespace Amazed
namespace ContFit

open FitStore (Sol Store)

/-- The options read by the operator (linemodel.cpp `Init`): `useFft` of the two passes, photometry, Igm and Ism fits, the number of
continua kept, the two amplitude thresholds, and `ignoreLineSupport`. -/
structure Opts (K : Type) where
  fft1 : Bool
  fft2 : Bool
  phot : Bool
  igm : Bool
  ism : Bool
  maxN : Nat
  thrNeg : K
  thrNull : K
  ignoreLines : Bool

/-- A template fitting operator: its class (`COperatorTemplateFittingLog` or not, with photometry or not), whether it masks the lines,
and the redshifts it was built for. -/
structure Oper (K : Type) where
  fft : Bool
  phot : Bool
  mask : Bool
  built : List K
deriving DecidableEq

/-- `isfftprocessingActive` (linemodel.cpp:241-258); `pass` is `none` while there is no fitting manager. -/
def fftActive {K : Type} (o : Opts K) (pass : Option Nat) (n : Nat) : Bool :=
  let f := if pass = none ∨ pass = some 1 then o.fft1 else o.fft2
  if n < 100 ∧ f = true then false else f

/-- `makeTFOperator` (linemodel.cpp:364-391). -/
def makeOper {K : Type} (o : Opts K) (pass : Option Nat) (grid : List K) (cur : Option (Oper K)) : Oper K :=
  if fftActive o pass grid.length = true then
    match cur with
    | some op => if op.fft = true then op else ⟨true, false, false, grid⟩
    | none => ⟨true, false, false, grid⟩
  else
    match cur with
    | some op => if op.fft = true then ⟨false, o.phot, false, grid⟩ else op
    | none => ⟨false, o.phot, false, grid⟩

section
variable {K : Type} [Field K] [LinearOrder K] {α τ L : Type}

/-- The results of a template fit at one redshift (templatefittingresult.h:66-79): merit, amplitude over error, Ism coefficient, Igm
index, signal to noise ratio (`none` is NaN) and the members only copied. -/
structure Entry (K α : Type) where
  merit : K
  sigma : K
  ebmv : K
  meik : Int
  snr : Option K
  rest : α
deriving DecidableEq, Repr

/-- The members of `CTplModelSolution` that the store only copies. -/
structure Val (K α : Type) where
  name : String
  ebmv : K
  meik : Int
  snr : Option K
  rest : α
deriving DecidableEq, Repr

/-- The arguments of `Add` for a template at a redshift (linemodel.cpp:481-489, templatesfitstore.cpp:109-122). -/
def sol (name : String) (z : K) (e : Entry K α) : Sol K (Val K α) := ⟨e.merit, e.sigma, z, ⟨name, e.ebmv, e.meik, e.snr, e.rest⟩⟩

/-- `if (SNR > best) best = SNR` (linemodel.cpp:478-479); a NaN is never greater. -/
def snrMax (b : K) (s : Option K) : K := match s with
  | none => b
  | some v => if b < v then v else b

/-- One template at one redshift (linemodel.cpp:476-489): the results of a template are arrays of one length, here one array. -/
def fillOne (i : Nat) (z : K) (r : String × List (Entry K α)) (st : K × Store K (Val K α)) : Res (K × Store K (Val K α)) :=
  Res.at_ r.2 i >>= fun e =>
  FitStore.add st.2 (sol r.1 z e) >>= fun s =>
  .ok (snrMax st.1 e.snr, s)

/-- The templates at one redshift (linemodel.cpp:472-490). -/
def fillRow (grid : List K) (res : List (String × List (Entry K α))) (i : Nat) (st : K × Store K (Val K α)) : Res (K × Store K (Val K α)) :=
  Res.at_ grid i >>= fun z =>
  EltList.foldL (fillOne i z) res st

/-- The store of a grid (linemodel.cpp:404-405, 468-492): the greatest signal to noise ratio and the store. -/
def fill (grid : List K) (res : List (String × List (Entry K α))) : Res (K × Store K (Val K α)) :=
  Res.foldN (fillRow grid res) 0 grid.length (0, FitStore.new grid)

/-- What `evaluateContinuumAmplitude` and `PrecomputeContinuumFit` report. -/
inductive Warn
  | toFromSpectrum
  | toNoContinuum
  | ignoreLinesOff
deriving DecidableEq, Repr

/-- `max < threshold` (linemodel.cpp:538, 559). -/
def below (m : Option K) (t : K) : Bool := match m with
  | none => true
  | some v => decide (v < t)

/-- `evaluateContinuumAmplitude` (linemodel.cpp:530-576) for the greatest sigma found by `FindMaxAmplitudeSigma` (`none`: minus infinity,
no redshift): the continuum component and the warnings. -/
def evaluate (o : Opts K) (pass : Nat) (comp : String) (m : Option K) : Res (String × List Warn) :=
  if below m o.thrNeg = true then
    if comp ≠ "tplFitAuto" then .throw .NEGATIVE_CONTINUUM
    else if pass = 1 then .ok ("fromSpectrum", [.toFromSpectrum])
    else .ok (comp, [])
  else if below m o.thrNull = true ∧ pass = 1 then .ok ("noContinuum", [.toNoContinuum])
  else .ok (comp, [])

/-- The continuum manager: `m_fitContinuum_option`, `m_fitContinuum_tplfitStore` and `*m_fitContinuum` (continuummanager.h). -/
structure Mgr (K α : Type) where
  option : Int
  store : Option (Store K (Val K α))
  values : Option (Sol K (Val K α))

/-- `SetFitContinuum_FitStore` (continuummanager.cpp:132-140). -/
def Mgr.setStore (m : Mgr K α) (s : Option (Store K (Val K α))) : Mgr K α :=
  ⟨if s.isSome then 1 else m.option, s, m.values⟩

/-- The part of `LoadFitContinuum` that chooses the fit (continuummanager.cpp:65-97): the fit and the manager left, for the continuum of
rank `k` at a redshift. A null store is dereferenced (undefined). -/
def Mgr.load (m : Mgr K α) (k : Int) (z : K) : Res (Sol K (Val K α) × Mgr K α) :=
  if m.option = 1 then
    match m.store with
    | none => .ub
    | some s => FitStore.fitValues s z k >>= fun v =>
      if v.val.name = "" then .throw .INTERNAL_ERROR else .ok (v, ⟨m.option, m.store, some v⟩)
  else if m.option = 2 then
    match m.values with
    | none => .throw .INTERNAL_ERROR
    | some v => if v.val.name = "" then .throw .INTERNAL_ERROR else .ok (v, m)
  else .throw .INTERNAL_ERROR

/-- The catalogue of continuum templates, the category used and the functions on templates: `ebmvIdx t v` is
`t->m_ismCorrectionCalzetti->GetEbmvIndex(v)`; `compute op grid t ebmv igm` is the call of the operator for a template
(linemodel.cpp:291-305), `none` when it gives no template fitting result. -/
structure Env (K α τ L : Type) where
  nm : TplCat.Names τ
  cat : TplCat.Cat τ L
  category : String
  ebmvIdx : τ → K → Res Int
  compute : Oper K → List K → τ → Int → Int → Res (Option (List (Entry K α)))

/-- One rank of `getContinuumInfoFromFirstpassFitStore` (linemodel.cpp:341-360): the template, its Ism and Igm indices. `undefIdx` is -1.
The index left by `getClosestLowerIndex` when there is none is -1 (templatesfitstore.cpp:75-79, indexing.h:71-84). -/
def refitRank (e : Env K α τ L) (o : Opts K) (fft : Bool) (first : Store K (Val K α)) (z : K) (k : Nat) : Res (τ × Int × Int) :=
  getClosestLowerIndex first.grid z >>= fun ci =>
  FitStore.fitValuesAt first (match ci with | none => -1 | some i => (i : Int)) k >>= fun v =>
  TplCat.getByName e.nm e.cat v.val.name true fft [e.category] >>= fun t =>
  (if o.ism = true then
    TplCat.getTemplate e.cat e.category 0 true fft >>= fun t0 =>
    (match t0 with | none => .ub | some t0 => e.ebmvIdx t0 v.val.ebmv)
   else .ok (-1)) >>= fun eb =>
  .ok (t, eb, if o.igm = true then v.val.meik else -1)

/-- `getContinuumInfoFromFirstpassFitStore` (linemodel.cpp:322-362), called in the second pass with option 3. -/
def refitInfo (e : Env K α τ L) (o : Opts K) (fft : Bool) (first : Store K (Val K α)) (zs : List K) (cand : Int) : Res (List (τ × Int × Int)) :=
  if cand < 0 ∨ (zs.length : Int) ≤ cand then .throw .INTERNAL_ERROR
  else Res.atZ zs cand >>= fun z => SvdFit.mapL (refitRank e o fft first z) (List.range o.maxN)

/-- All orthogonal templates of the category, no index fixed (linemodel.cpp:283-287); a null template is dereferenced. -/
def allInfo (e : Env K α τ L) (fft : Bool) : Res (List (τ × Int × Int)) :=
  SvdFit.mapL (fun t : Option τ => match t with | none => .ub | some t => .ok (t, -1, -1))
    (TplCat.templateList e.cat true fft [e.category])

/-- The fit of one template (linemodel.cpp:291-315). -/
def fitOne (e : Env K α τ L) (op : Oper K) (grid : List K) (t : τ × Int × Int) : Res (String × List (Entry K α)) :=
  e.compute op grid t.1 t.2.1 t.2.2 >>= fun r =>
  match r with
  | none => .throw .INTERNAL_ERROR
  | some l => .ok (e.nm.name t.1, l)

/-- The choice of the templates (linemodel.cpp:276-287); a null store is dereferenced. -/
def pick (e : Env K α τ L) (o : Opts K) (pass : Nat) (opt : Int) (first : Option (Store K (Val K α))) (zs : List K) (fft : Bool) (cand : Int) :
    Res (List (τ × Int × Int)) :=
  if pass = 2 ∧ opt = 3 then
    match first with
    | none => .ub
    | some f => refitInfo e o fft f zs cand
  else allInfo e fft

/-- The operator used (linemodel.cpp:449-464): the lines are masked on demand, not with FFT. -/
def pickOper (o : Opts K) (pass : Nat) (grid : List K) (cur : Option (Oper K)) : Oper K :=
  let op := makeOper o (some pass) grid cur
  if o.ignoreLines = true ∧ fftActive o (some pass) grid.length = false then ⟨op.fft, op.phot, true, op.built⟩ else op

/-- State of the operator used by `PrecomputeContinuumFit`. -/
structure Pre (K α : Type) where
  oper : Option (Oper K)
  comp : String
  warns : List Warn
  mgr : Mgr K α

/-- `PrecomputeContinuumFit` (linemodel.cpp:402-528): `pass` and `opt` are the pass number and `m_continnuum_fit_option`, `first` the store
of the first pass and `zs` the redshifts of its candidates (both used only when refitting). -/
def precompute (e : Env K α τ L) (o : Opts K) (pass : Nat) (opt : Int) (first : Option (Store K (Val K α))) (zs : List K)
    (grid : List K) (cand : Int) (st : Pre K α) : Res ((K × Store K (Val K α)) × Pre K α) :=
  let fft := fftActive o (some pass) grid.length
  Res.at_ grid 0 >>= fun _ =>
  let op := pickOper o pass grid st.oper
  let w := if fft = true ∧ o.ignoreLines = true then [Warn.ignoreLinesOff] else []
  pick e o pass opt first zs fft cand >>= fun ts =>
  SvdFit.mapL (fitOne e op grid) ts >>= fun res =>
  fill grid res >>= fun s =>
  if s.2.count < o.maxN then .throw .INTERNAL_ERROR
  else
    FitStore.findMax s.2 >>= fun m =>
    evaluate o pass st.comp (m.map fun x => x.2.sigma) >>= fun ev =>
    .ok (s, ⟨some op, ev.1, st.warns ++ w ++ ev.2, st.mgr.setStore (some s.2)⟩)

/-! ## The second pass -/

/-- The option of the second pass (linemodel.cpp:751-764). -/
def contOption (s : String) : Res Int :=
  if s = "fromFirstPass" then .ok 2
  else if s = "retryAll" then .ok 0
  else if s = "reFitFirstPass" then .ok 3
  else .throw .INTERNAL_ERROR

/-- `component == "tplFit" || component == "tplFitAuto"`. -/
def isTplFit (c : String) : Bool := c = "tplFit" || c = "tplFitAuto"

/-- The loop over the windows of the candidates (linemodel.cpp:785-791), from candidate `i`, with its break: the stores computed, by
candidate. -/
def storesLoop (e : Env K α τ L) (o : Opts K) (opt : Int) (first : Option (Store K (Val K α))) (zs : List K) :
    Nat → List (List K) → Pre K α → Res (List (Store K (Val K α)) × Pre K α)
  | _, [], st => .ok ([], st)
  | i, w :: ws, st =>
    precompute e o 2 opt first zs w i st >>= fun r =>
    if r.2.comp = "fromSpectrum" then .ok ([r.1.2], r.2)
    else storesLoop e o opt first zs (i + 1) ws r.2 >>= fun q => .ok (r.1.2 :: q.1, q.2)

/-- The continuum stores of the second pass (linemodel.cpp:779-805): `m_tplfitStore_secondpass` and the state. Null entries (after a break,
which `C112_no_break` excludes, or when the first pass made no store) are `none`. -/
def secondStores (e : Env K α τ L) (o : Opts K) (opt : Int) (first : Option (Store K (Val K α))) (zs : List K) (wins : List (List K))
    (st : Pre K α) : Res (List (Option (Store K (Val K α))) × Pre K α) :=
  if isTplFit st.comp = true then
    if opt = 0 ∨ opt = 3 then
      storesLoop e o opt first zs 0 wins st >>= fun r =>
      .ok (r.1.map some ++ List.replicate (wins.length - r.1.length) none, r.2)
    else .ok ([first], { st with mgr := st.mgr.setStore first })
  else .ok ([], st)

/-- The continuum injected for candidate `i`, before its parameters are estimated (`EstimateSecondPassParameters`, linemodel.cpp:1141-1153)
and before its window is recomputed (`RecomputeAroundCandidates`, :1460-1485, with `opt` its argument `tplfit_option`; option 1 is not
reachable). `fitted` are the continua of the first pass candidates. -/
def inject (comp : String) (opt : Int) (stores : List (Option (Store K (Val K α)))) (fitted : List (Sol K (Val K α))) (i : Nat)
    (m : Mgr K α) : Res (Mgr K α) :=
  if isTplFit comp = true then
    if opt = 0 ∨ opt = 3 then Res.at_ stores i >>= fun s => .ok (m.setStore s)
    else Res.at_ fitted i >>= fun v => .ok ⟨2, none, some v⟩
  else .ok m

end

/-! ## The grid of the first pass -/

/-- `CLineModelSolve::createRedshiftGrid` (linemodelsolve.cpp:609-637) and `CObjectSolve::createRedshiftGrid` (objectSolve.cpp:70-75):
`spread step` is the grid of the range for a step (`CZGridParam::getZGrid`), `MIN_GRID_COUNT` is 10 (defaults.h:36). The result is the
coarse step and the grid. -/
def firstGrid {K : Type} [Field K] (spread : K → Res (List K)) (fine : K) (ratio : Int) : Res (K × List K) :=
  spread (fine * (ratio : K)) >>= fun g =>
  if g.length < 10 then spread fine >>= fun f => .ok (fine, f)
  else .ok (fine * (ratio : K), g)

end ContFit
end Amazed
